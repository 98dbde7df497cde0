import Verif.Spec.Flux

/-! # Surveys of finite extent (specification) -/

namespace Choclo

/-- The foot of the perpendicular from a point to a plane `coordinate a = t`: its two other coordinates, in order. -/
def Pt.foot (a : Axis) (q : Pt) : ℝ × ℝ :=
  match a with
  | .e => (q.n, q.u)
  | .n => (q.e, q.u)
  | .u => (q.e, q.n)

/-- The disc of radius `R` around `c` in a plane. -/
def discAt (c : ℝ × ℝ) (R : ℝ) : Set (ℝ × ℝ) := {s | (s.1 - c.1) ^ 2 + (s.2 - c.2) ^ 2 ≤ R ^ 2}

/-- The part of the flux of a source at distance `h` that passes through the plane outside the disc of radius `R` around
its foot: the cosine of the angle at which the rim is seen. -/
noncomputable def missed (h R : ℝ) : ℝ := h / √(h ^ 2 + R ^ 2)

end Choclo
