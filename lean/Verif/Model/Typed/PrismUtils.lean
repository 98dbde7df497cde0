import Verif.Model.Typed.Arith

/-! Generated from `Verif/Model/PrismUtils.lean` by `tools/typed.py`. -/

/-! # Model of `/repo/src/choclo/prism/_utils.py`, for int64 and float64 arguments

The predicates cannot raise and have no effects, so they are plain `Bool` functions. -/

namespace Choclo.Typed.prism

variable {A : Arith}

/-- `/repo/src/choclo/prism/_utils.py:15-50` `is_interior_point` : is the point inside the prism, boundaries excluded? -/
noncomputable def is_interior_point
    (easting northing upward prism_west prism_east prism_south prism_north prism_bottom prism_top : TFl A) : Bool :=
  TFl.lt prism_west easting && TFl.lt easting prism_east
  && (TFl.lt prism_south northing && TFl.lt northing prism_north)
  && (TFl.lt prism_bottom upward && TFl.lt upward prism_top)

/-- `/repo/src/choclo/prism/_utils.py:125-161` `is_point_on_easting_edge` : `x in (a, b)` is `x == a or x == b`. -/
noncomputable def is_point_on_easting_edge
    (easting northing upward prism_west prism_east prism_south prism_north prism_bottom prism_top : TFl A) : Bool :=
  TFl.le prism_west easting && TFl.le easting prism_east
  && (TFl.eq northing prism_south || TFl.eq northing prism_north)
  && (TFl.eq upward prism_bottom || TFl.eq upward prism_top)

/-- `/repo/src/choclo/prism/_utils.py:165-201` `is_point_on_northing_edge`. -/
noncomputable def is_point_on_northing_edge
    (easting northing upward prism_west prism_east prism_south prism_north prism_bottom prism_top : TFl A) : Bool :=
  (TFl.eq easting prism_west || TFl.eq easting prism_east)
  && (TFl.le prism_south northing && TFl.le northing prism_north)
  && (TFl.eq upward prism_bottom || TFl.eq upward prism_top)

/-- `/repo/src/choclo/prism/_utils.py:205-241` `is_point_on_upward_edge`. -/
noncomputable def is_point_on_upward_edge
    (easting northing upward prism_west prism_east prism_south prism_north prism_bottom prism_top : TFl A) : Bool :=
  (TFl.eq easting prism_west || TFl.eq easting prism_east)
  && (TFl.eq northing prism_south || TFl.eq northing prism_north)
  && (TFl.le prism_bottom upward && TFl.le upward prism_top)

/-- `/repo/src/choclo/prism/_utils.py:54-121` `is_point_on_edge`. -/
noncomputable def is_point_on_edge
    (easting northing upward prism_west prism_east prism_south prism_north prism_bottom prism_top : TFl A) : Bool :=
  is_point_on_easting_edge easting northing upward prism_west prism_east prism_south prism_north prism_bottom prism_top
  || is_point_on_northing_edge easting northing upward prism_west prism_east prism_south prism_north prism_bottom prism_top
  || is_point_on_upward_edge easting northing upward prism_west prism_east prism_south prism_north prism_bottom prism_top

/-- `/repo/src/choclo/prism/_utils.py:245-282` `is_point_on_east_face`. -/
noncomputable def is_point_on_east_face
    (easting northing upward _prism_west prism_east prism_south prism_north prism_bottom prism_top : TFl A) : Bool :=
  TFl.eq easting prism_east
  && (TFl.lt prism_south northing && TFl.lt northing prism_north)
  && (TFl.lt prism_bottom upward && TFl.lt upward prism_top)

/-- `/repo/src/choclo/prism/_utils.py:286-323` `is_point_on_north_face`. -/
noncomputable def is_point_on_north_face
    (easting northing upward prism_west prism_east _prism_south prism_north prism_bottom prism_top : TFl A) : Bool :=
  (TFl.lt prism_west easting && TFl.lt easting prism_east)
  && TFl.eq northing prism_north
  && (TFl.lt prism_bottom upward && TFl.lt upward prism_top)

/-- `/repo/src/choclo/prism/_utils.py:327-363` `is_point_on_top_face`. -/
noncomputable def is_point_on_top_face
    (easting northing upward prism_west prism_east prism_south prism_north _prism_bottom prism_top : TFl A) : Bool :=
  (TFl.lt prism_west easting && TFl.lt easting prism_east)
  && (TFl.lt prism_south northing && TFl.lt northing prism_north)
  && TFl.eq upward prism_top

end Choclo.Typed.prism
