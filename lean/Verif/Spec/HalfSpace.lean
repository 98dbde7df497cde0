import Mathlib.MeasureTheory.Integral.Prod
import Verif.Spec.Flux

/-! # Upward continuation

The weight with which the value at the point `s` of the plane `coordinate a = t` enters the value at
a point `p` above the plane, in the upward-continuation formula of potential-field geophysics. -/

namespace Choclo

/-- `(height of p over the plane) / (2 π (distance from p to the point s of the plane)³)` -/
noncomputable def upwardWeight (a : Axis) (t : ℝ) (p : Pt) (s : ℝ × ℝ) : ℝ :=
  (p.coord a - t) / (2 * Real.pi * dist3 p (Pt.onPlane a t s) ^ 3)

/-- The values of `g` on the plane `coordinate a = t` give its values everywhere above the plane: the
upward-continuation integral over the plane exists and is the value. -/
def UpwardContinues (g : Pt → ℝ) (a : Axis) (t : ℝ) : Prop :=
  ∀ p : Pt, t < p.coord a →
    MeasureTheory.Integrable (fun s => g (Pt.onPlane a t s) * upwardWeight a t p s) ∧
    ∫ s, g (Pt.onPlane a t s) * upwardWeight a t p s = g p

end Choclo
