import Verif.Spec.PrismSym

/-! # Depth and mass rules (specification) -/

namespace Choclo

/-- Inequalities between the fields `F` (potential, acceleration, gradient tensor; one number per component) at one point due to
sources that all lie at least `h` below it in the direction of axis `a` and have `G` times total mass `GM`.  Each of them bounds the
depth `h`, or the mass, by quantities measured at a single point. -/
structure DepthRules (a : Axis) (h GM : ℝ) (F : GComp → ℝ) : Prop where
  /-- the normal acceleration points to the sources -/
  attracts : F a.acc ≤ 0
  /-- `h ≤ V / |g|` for the normal acceleration -/
  normal : h * |F a.acc| ≤ F .pot
  /-- `h ≤ V / (2 |g|)` for the two other accelerations -/
  sideways : ∀ b : Axis, b ≠ a → 2 * h * |F b.acc| ≤ F .pot
  /-- `h ≤ 2 |g| / |T|` for every component of the gradient tensor -/
  gradient : ∀ b c : Axis, h * |F (tensor b c)| ≤ 2 * |F a.acc|
  /-- `h ≤ 1.5 |g| / |T|` for its off-diagonal components -/
  offDiagonal : ∀ b c : Axis, b ≠ c → 2 * h * |F (tensor b c)| ≤ 3 * |F a.acc|
  /-- the mass is at least `h² |g| / G` -/
  mass : h ^ 2 * |F a.acc| ≤ GM
  /-- the mass is at least `h V / G` -/
  massPotential : h * F .pot ≤ GM

end Choclo
