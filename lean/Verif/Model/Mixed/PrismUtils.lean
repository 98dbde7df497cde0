import Verif.Model.Mixed.Arith

/-! Generated from `Verif/Model/PrismUtils.lean` by `tools/mixed.py`. -/

/-! # Model of `/repo/src/choclo/prism/_utils.py`, for float32 and float64 arguments

The predicates cannot raise and have no effects, so they are plain `Bool` functions. -/

namespace Choclo.Mixed.prism

variable {S D : Arith}

/-- `/repo/src/choclo/prism/_utils.py:15-50` `is_interior_point` : is the point inside the prism, boundaries excluded? -/
noncomputable def is_interior_point
    (easting northing upward prism_west prism_east prism_south prism_north prism_bottom prism_top : MFl S D) : Bool :=
  MFl.lt prism_west easting && MFl.lt easting prism_east
  && (MFl.lt prism_south northing && MFl.lt northing prism_north)
  && (MFl.lt prism_bottom upward && MFl.lt upward prism_top)

/-- `/repo/src/choclo/prism/_utils.py:125-161` `is_point_on_easting_edge` : `x in (a, b)` is `x == a or x == b`. -/
noncomputable def is_point_on_easting_edge
    (easting northing upward prism_west prism_east prism_south prism_north prism_bottom prism_top : MFl S D) : Bool :=
  MFl.le prism_west easting && MFl.le easting prism_east
  && (MFl.eq northing prism_south || MFl.eq northing prism_north)
  && (MFl.eq upward prism_bottom || MFl.eq upward prism_top)

/-- `/repo/src/choclo/prism/_utils.py:165-201` `is_point_on_northing_edge`. -/
noncomputable def is_point_on_northing_edge
    (easting northing upward prism_west prism_east prism_south prism_north prism_bottom prism_top : MFl S D) : Bool :=
  (MFl.eq easting prism_west || MFl.eq easting prism_east)
  && (MFl.le prism_south northing && MFl.le northing prism_north)
  && (MFl.eq upward prism_bottom || MFl.eq upward prism_top)

/-- `/repo/src/choclo/prism/_utils.py:205-241` `is_point_on_upward_edge`. -/
noncomputable def is_point_on_upward_edge
    (easting northing upward prism_west prism_east prism_south prism_north prism_bottom prism_top : MFl S D) : Bool :=
  (MFl.eq easting prism_west || MFl.eq easting prism_east)
  && (MFl.eq northing prism_south || MFl.eq northing prism_north)
  && (MFl.le prism_bottom upward && MFl.le upward prism_top)

/-- `/repo/src/choclo/prism/_utils.py:54-121` `is_point_on_edge`. -/
noncomputable def is_point_on_edge
    (easting northing upward prism_west prism_east prism_south prism_north prism_bottom prism_top : MFl S D) : Bool :=
  is_point_on_easting_edge easting northing upward prism_west prism_east prism_south prism_north prism_bottom prism_top
  || is_point_on_northing_edge easting northing upward prism_west prism_east prism_south prism_north prism_bottom prism_top
  || is_point_on_upward_edge easting northing upward prism_west prism_east prism_south prism_north prism_bottom prism_top

/-- `/repo/src/choclo/prism/_utils.py:245-282` `is_point_on_east_face`. -/
noncomputable def is_point_on_east_face
    (easting northing upward _prism_west prism_east prism_south prism_north prism_bottom prism_top : MFl S D) : Bool :=
  MFl.eq easting prism_east
  && (MFl.lt prism_south northing && MFl.lt northing prism_north)
  && (MFl.lt prism_bottom upward && MFl.lt upward prism_top)

/-- `/repo/src/choclo/prism/_utils.py:286-323` `is_point_on_north_face`. -/
noncomputable def is_point_on_north_face
    (easting northing upward prism_west prism_east _prism_south prism_north prism_bottom prism_top : MFl S D) : Bool :=
  (MFl.lt prism_west easting && MFl.lt easting prism_east)
  && MFl.eq northing prism_north
  && (MFl.lt prism_bottom upward && MFl.lt upward prism_top)

/-- `/repo/src/choclo/prism/_utils.py:327-363` `is_point_on_top_face`. -/
noncomputable def is_point_on_top_face
    (easting northing upward prism_west prism_east prism_south prism_north _prism_bottom prism_top : MFl S D) : Bool :=
  (MFl.lt prism_west easting && MFl.lt easting prism_east)
  && (MFl.lt prism_south northing && MFl.lt northing prism_north)
  && MFl.eq upward prism_top

end Choclo.Mixed.prism
