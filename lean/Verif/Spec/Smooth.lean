import Verif.Spec.PrismSym
import Mathlib.Analysis.Calculus.ContDiff.Basic

/-! # Smoothness of what is returned (specification) -/

namespace Choclo

open ContDiff

/-- The calls return numbers at all observation points near `p`, and these numbers, as a function of
the three coordinates of the observation point, have partial derivatives of every order at `p`
(infinitely differentiable in the sense of Mathlib's `ContDiffAt ℝ ∞`). -/
def SmoothAt {A : Arith} (call : Pt → Py (Fl A)) (p : Pt) : Prop :=
  ∃ F : Pt → ℝ, (∀ᶠ q in nhds p, Returns (call q) (F q)) ∧ ContDiffAt ℝ ∞ F p

end Choclo
