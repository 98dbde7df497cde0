import Verif.Spec.Basic
import Mathlib.Analysis.InnerProductSpace.PiL2
import Mathlib.Analysis.SpecialFunctions.Trigonometric.Basic

/-! # Euclidean space and spherical coordinates (specification) -/

namespace Choclo

open Real

/-- A point as a vector of Mathlib's three-dimensional Euclidean space. -/
noncomputable def toE (p : Pt) : EuclideanSpace ℝ (Fin 3) := !₂[p.e, p.n, p.u]

/-- Degrees to radians. -/
noncomputable def deg (x : ℝ) : ℝ := x * (π / 180)

/-- The point at longitude `lon`, latitude `lat` (radians) and radius `r`, in Cartesian
geocentric coordinates. -/
noncomputable def sph (lon lat r : ℝ) : Pt :=
  (r * (cos lat * cos lon), r * (cos lat * sin lon), r * sin lat)

/-- Cosine of the angle between two directions given by longitude and latitude: the scalar product
of the unit vectors. -/
noncomputable def cosAngle (lonp latp lonq latq : ℝ) : ℝ :=
  inner ℝ (toE (sph lonp latp 1)) (toE (sph lonq latq 1))

end Choclo
