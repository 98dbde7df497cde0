import Verif.Spec.PrismSym

/-! # Size of a geometry as seen from the observation point -/

namespace Choclo

/-- No boundary of the prism is farther away from the point, along its axis, than `L`. -/
def OffsetsUpTo (L : ℝ) (p : Pt) (P : Box) : Prop :=
  ∀ a : Axis, |P.lo a - p.coord a| ≤ L ∧ |P.hi a - p.coord a| ≤ L

end Choclo
