import Verif.Spec.PrismSym

/-! # Prisms whose boundaries are given in the wrong order (specification) -/

namespace Choclo

/-- The prism with the two boundaries along each axis sorted. -/
noncomputable def Box.sorted (P : Box) : Box :=
  ⟨min P.west P.east, max P.west P.east, min P.south P.north, max P.south P.north,
    min P.bottom P.top, max P.bottom P.top⟩

open Classical in
/-- `-1` for an odd number of axes along which the boundaries are given in the wrong order, else `1`. -/
noncomputable def Box.orientation (P : Box) : ℝ :=
  (if P.east < P.west then -1 else 1) * (if P.north < P.south then -1 else 1) * (if P.top < P.bottom then -1 else 1)

end Choclo
