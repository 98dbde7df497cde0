import Verif.Spec.Flux
import Mathlib.Analysis.Calculus.Deriv.Basic

/-! # Moving one face of a prism (specification) -/

namespace Choclo

/-- The prism with its high face along an axis (east, north, top) moved to the coordinate `t`. -/
def Box.moveHi (P : Box) (a : Axis) (t : ℝ) : Box :=
  match a with
  | .e => { P with east := t }
  | .n => { P with north := t }
  | .u => { P with top := t }

/-- The prism with its low face along an axis (west, south, bottom) moved to the coordinate `t`. -/
def Box.moveLo (P : Box) (a : Axis) (t : ℝ) : Box :=
  match a with
  | .e => { P with west := t }
  | .n => { P with south := t }
  | .u => { P with bottom := t }

/-- The closed rectangle in the plane `coordinate a = t` above (or below, or on) the cross section of a prism. -/
def Box.sheet (P : Box) (a : Axis) (t : ℝ) : Set Pt := Pt.onPlane a t '' P.cross a

/-- The calls `call t` return numbers for all `t` near `t₀`, and these have the derivative `d` at `t₀`. -/
def HasSensitivity {A : Arith} (call : ℝ → Py (Fl A)) (d t₀ : ℝ) : Prop :=
  ∃ V : ℝ → ℝ, (∀ᶠ t in nhds t₀, Returns (call t) (V t)) ∧ HasDerivAt V d t₀

end Choclo
