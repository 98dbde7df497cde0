import Verif.Spec.Survey

/-! # First moments of data on a plane (specification) -/

namespace Choclo

open MeasureTheory Filter Topology

/-- The first moment, about the point `o`, of the values `g` on the plane `coordinate a = t` over the disc of radius `R` around
`o`: the integral of `(coordinate b - o_b) g`. -/
noncomputable def firstMoment (a b : Axis) (t : ℝ) (o : Pt) (g : ℝ × ℝ → ℝ) (R : ℝ) : ℝ :=
  ∫ s in discAt (o.foot a) R, ((Pt.onPlane a t s).coord b - o.coord b) * g s

/-- Over every disc the moment is a convergent integral, and the moments tend to `L` as the disc grows. -/
def MomentTends (a b : Axis) (t : ℝ) (o : Pt) (g : ℝ × ℝ → ℝ) (L : ℝ) : Prop :=
  (∀ R, IntegrableOn (fun s => ((Pt.onPlane a t s).coord b - o.coord b) * g s) (discAt (o.foot a) R)) ∧
  Tendsto (firstMoment a b t o g) atTop (𝓝 L)

end Choclo
