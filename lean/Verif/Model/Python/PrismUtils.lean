import Verif.Model.Python.Arith

/-! Generated from `Verif/Model/PrismUtils.lean` by `tools/python.py`. -/

/-! # Model of `/repo/src/choclo/prism/_utils.py`, run by the interpreter

The predicates cannot raise and have no effects, so they are plain `Bool` functions. -/

namespace Choclo.Python.prism

variable {A : Arith}

/-- `/repo/src/choclo/prism/_utils.py:15-50` `is_interior_point` : is the point inside the prism, boundaries excluded? -/
noncomputable def is_interior_point
    (easting northing upward prism_west prism_east prism_south prism_north prism_bottom prism_top : PNum A) : Bool :=
  PNum.lt prism_west easting && PNum.lt easting prism_east
  && (PNum.lt prism_south northing && PNum.lt northing prism_north)
  && (PNum.lt prism_bottom upward && PNum.lt upward prism_top)

/-- `/repo/src/choclo/prism/_utils.py:125-161` `is_point_on_easting_edge` : `x in (a, b)` is `x == a or x == b`. -/
noncomputable def is_point_on_easting_edge
    (easting northing upward prism_west prism_east prism_south prism_north prism_bottom prism_top : PNum A) : Bool :=
  PNum.le prism_west easting && PNum.le easting prism_east
  && (PNum.eq northing prism_south || PNum.eq northing prism_north)
  && (PNum.eq upward prism_bottom || PNum.eq upward prism_top)

/-- `/repo/src/choclo/prism/_utils.py:165-201` `is_point_on_northing_edge`. -/
noncomputable def is_point_on_northing_edge
    (easting northing upward prism_west prism_east prism_south prism_north prism_bottom prism_top : PNum A) : Bool :=
  (PNum.eq easting prism_west || PNum.eq easting prism_east)
  && (PNum.le prism_south northing && PNum.le northing prism_north)
  && (PNum.eq upward prism_bottom || PNum.eq upward prism_top)

/-- `/repo/src/choclo/prism/_utils.py:205-241` `is_point_on_upward_edge`. -/
noncomputable def is_point_on_upward_edge
    (easting northing upward prism_west prism_east prism_south prism_north prism_bottom prism_top : PNum A) : Bool :=
  (PNum.eq easting prism_west || PNum.eq easting prism_east)
  && (PNum.eq northing prism_south || PNum.eq northing prism_north)
  && (PNum.le prism_bottom upward && PNum.le upward prism_top)

/-- `/repo/src/choclo/prism/_utils.py:54-121` `is_point_on_edge`. -/
noncomputable def is_point_on_edge
    (easting northing upward prism_west prism_east prism_south prism_north prism_bottom prism_top : PNum A) : Bool :=
  is_point_on_easting_edge easting northing upward prism_west prism_east prism_south prism_north prism_bottom prism_top
  || is_point_on_northing_edge easting northing upward prism_west prism_east prism_south prism_north prism_bottom prism_top
  || is_point_on_upward_edge easting northing upward prism_west prism_east prism_south prism_north prism_bottom prism_top

/-- `/repo/src/choclo/prism/_utils.py:245-282` `is_point_on_east_face`. -/
noncomputable def is_point_on_east_face
    (easting northing upward _prism_west prism_east prism_south prism_north prism_bottom prism_top : PNum A) : Bool :=
  PNum.eq easting prism_east
  && (PNum.lt prism_south northing && PNum.lt northing prism_north)
  && (PNum.lt prism_bottom upward && PNum.lt upward prism_top)

/-- `/repo/src/choclo/prism/_utils.py:286-323` `is_point_on_north_face`. -/
noncomputable def is_point_on_north_face
    (easting northing upward prism_west prism_east _prism_south prism_north prism_bottom prism_top : PNum A) : Bool :=
  (PNum.lt prism_west easting && PNum.lt easting prism_east)
  && PNum.eq northing prism_north
  && (PNum.lt prism_bottom upward && PNum.lt upward prism_top)

/-- `/repo/src/choclo/prism/_utils.py:327-363` `is_point_on_top_face`. -/
noncomputable def is_point_on_top_face
    (easting northing upward prism_west prism_east prism_south prism_north _prism_bottom prism_top : PNum A) : Bool :=
  (PNum.lt prism_west easting && PNum.lt easting prism_east)
  && (PNum.lt prism_south northing && PNum.lt northing prism_north)
  && PNum.eq upward prism_top

end Choclo.Python.prism
