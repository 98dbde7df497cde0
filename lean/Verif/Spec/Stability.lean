import Verif.Spec.PrismSym

/-! Vocabulary for errors in the coordinates (C119). -/

namespace Choclo

/-- The surface area of a prism. -/
def Box.surfaceArea (P : Box) : ℝ :=
  2 * ((P.east - P.west) * (P.north - P.south) + (P.north - P.south) * (P.top - P.bottom)
    + (P.east - P.west) * (P.top - P.bottom))

/-- The prism with each face moved outwards by `r`. -/
def Box.grow (P : Box) (r : ℝ) : Box :=
  ⟨P.west - r, P.east + r, P.south - r, P.north + r, P.bottom - r, P.top + r⟩

/-- Each boundary of the two prisms differs by at most `δ`. -/
def Box.Near (δ : ℝ) (P Q : Box) : Prop :=
  |P.west - Q.west| ≤ δ ∧ |P.east - Q.east| ≤ δ ∧ |P.south - Q.south| ≤ δ ∧ |P.north - Q.north| ≤ δ ∧
    |P.bottom - Q.bottom| ≤ δ ∧ |P.top - Q.top| ≤ δ

/-- Each coordinate of the two points differs by at most `δ`. -/
def Pt.Near (δ : ℝ) (p q : Pt) : Prop := |p.e - q.e| ≤ δ ∧ |p.n - q.n| ≤ δ ∧ |p.u - q.u| ≤ δ

end Choclo
