import Verif.Model.Lengths

/-! # Vocabulary for arrays whose lengths do not fit (specification) -/

namespace Choclo.userguide

variable {A : Arith}

/-- The lengths fit: at least one northing and one upward coordinate for every easting, at least one density for
every prism, and six columns in the array of prisms. -/
structure Fits (easting northing upward : List (Fl A)) (prisms : Table A) (densities : List (Fl A)) : Prop where
  northing : easting.length ≤ northing.length
  upward : easting.length ≤ upward.length
  densities : prisms.rows.length ≤ densities.length
  columns : prisms.cols = 6

/-- `prisms[:, :6]`: the array without the columns after the sixth. -/
def Table.firstSix (P : Table A) (h : 6 ≤ P.cols) : Table A := ⟨6, P.rows.map fun row k => row (Fin.castLE h k)⟩

end Choclo.userguide
