import Verif.Spec.PrismSym
import Mathlib.MeasureTheory.Integral.IntervalIntegral.Basic
import Mathlib.Analysis.Calculus.Deriv.Basic

/-!
# Work along a path (specification)
-/

namespace Choclo

open MeasureTheory

/-- `γ` is a continuously differentiable path on the parameter interval `[s₀, s₁]`, with velocity `γ'`. -/
def IsPath (γ γ' : ℝ → Pt) (s₀ s₁ : ℝ) : Prop :=
  s₀ ≤ s₁ ∧ ContinuousOn γ (Set.Icc s₀ s₁) ∧ (∀ t ∈ Set.Ioo s₀ s₁, HasDerivAt γ (γ' t) t) ∧
    ContinuousOn γ' (Set.Icc s₀ s₁)

/-- The calls `field a p` (component along `a` at the observation point `p`) return a number at every
point of the path, and the line integral of the vector field so defined along the path is `W`. -/
def HasWork {A : Arith} (field : Axis → Pt → Py (Fl A)) (γ γ' : ℝ → Pt) (s₀ s₁ W : ℝ) : Prop :=
  ∃ F : Axis → Pt → ℝ,
    (∀ a, ∀ t ∈ Set.Icc s₀ s₁, Returns (field a (γ t)) (F a (γ t))) ∧
    IntervalIntegrable (fun t => F .e (γ t) * (γ' t).e + F .n (γ t) * (γ' t).n + F .u (γ t) * (γ' t).u)
      volume s₀ s₁ ∧
    ∫ t in s₀..s₁, (F .e (γ t) * (γ' t).e + F .n (γ t) * (γ' t).n + F .u (γ t) * (γ' t).u) = W

end Choclo
