import Verif.Spec.PrismSym
import Mathlib.MeasureTheory.Measure.Lebesgue.Basic

/-! # Two-dimensional bodies: infinite lines of mass and of dipoles along the northing axis

The textbook fields of an infinite straight line, parallel to the northing axis, in a plane of
constant northing: `x` and `z` are the easting and upward offsets *from the observation point to the
line*.  Nothing here refers to `choclo`. -/

namespace Choclo

/-- Attraction of an infinite line of unit mass per unit length, without the gravitational constant:
`2 / s` towards the line, `s` being the distance to it; nothing along the line. -/
noncomputable def lineAcc (a : Axis) (x z : ℝ) : ℝ :=
  match a with
  | .e => 2 * x / (x ^ 2 + z ^ 2)
  | .n => 0
  | .u => 2 * z / (x ^ 2 + z ^ 2)

/-- The gradient of that attraction with respect to the observation point. -/
noncomputable def lineTensor (a b : Axis) (x z : ℝ) : ℝ :=
  match a, b with
  | .e, .e => 2 * (x ^ 2 - z ^ 2) / (x ^ 2 + z ^ 2) ^ 2
  | .u, .u => 2 * (z ^ 2 - x ^ 2) / (x ^ 2 + z ^ 2) ^ 2
  | .e, .u => 4 * x * z / (x ^ 2 + z ^ 2) ^ 2
  | .u, .e => 4 * x * z / (x ^ 2 + z ^ 2) ^ 2
  | _, _ => 0

/-- The vertical cross-section of a prism perpendicular to the northing axis: pairs
`(easting, upward)`. -/
def Box.section (P : Box) : Set (ℝ × ℝ) := Set.Icc P.west P.east ×ˢ Set.Icc P.bottom P.top

/-- its area -/
def Box.sectionArea (P : Box) : ℝ := (P.east - P.west) * (P.top - P.bottom)

/-- The prism reaches at least the distance `L` beyond the observation point on both sides along
northing. -/
def Box.Long (P : Box) (p : Pt) (L : ℝ) : Prop := L ≤ p.n - P.south ∧ L ≤ P.north - p.n

end Choclo
