import Verif.Model.Signed.Arith

/-! Generated from `Verif/Model/PrismUtils.lean` by `tools/signed.py`. -/

/-! # Model of `/repo/src/choclo/prism/_utils.py`, with signed zeros

The predicates cannot raise and have no effects, so they are plain `Bool` functions. -/

namespace Choclo.Signed.prism

variable {A : Arith}

/-- `/repo/src/choclo/prism/_utils.py:15-50` `is_interior_point` : is the point inside the prism, boundaries excluded? -/
noncomputable def is_interior_point
    (easting northing upward prism_west prism_east prism_south prism_north prism_bottom prism_top : SFl A) : Bool :=
  SFl.lt prism_west easting && SFl.lt easting prism_east
  && (SFl.lt prism_south northing && SFl.lt northing prism_north)
  && (SFl.lt prism_bottom upward && SFl.lt upward prism_top)

/-- `/repo/src/choclo/prism/_utils.py:125-161` `is_point_on_easting_edge` : `x in (a, b)` is `x == a or x == b`. -/
noncomputable def is_point_on_easting_edge
    (easting northing upward prism_west prism_east prism_south prism_north prism_bottom prism_top : SFl A) : Bool :=
  SFl.le prism_west easting && SFl.le easting prism_east
  && (SFl.eq northing prism_south || SFl.eq northing prism_north)
  && (SFl.eq upward prism_bottom || SFl.eq upward prism_top)

/-- `/repo/src/choclo/prism/_utils.py:165-201` `is_point_on_northing_edge`. -/
noncomputable def is_point_on_northing_edge
    (easting northing upward prism_west prism_east prism_south prism_north prism_bottom prism_top : SFl A) : Bool :=
  (SFl.eq easting prism_west || SFl.eq easting prism_east)
  && (SFl.le prism_south northing && SFl.le northing prism_north)
  && (SFl.eq upward prism_bottom || SFl.eq upward prism_top)

/-- `/repo/src/choclo/prism/_utils.py:205-241` `is_point_on_upward_edge`. -/
noncomputable def is_point_on_upward_edge
    (easting northing upward prism_west prism_east prism_south prism_north prism_bottom prism_top : SFl A) : Bool :=
  (SFl.eq easting prism_west || SFl.eq easting prism_east)
  && (SFl.eq northing prism_south || SFl.eq northing prism_north)
  && (SFl.le prism_bottom upward && SFl.le upward prism_top)

/-- `/repo/src/choclo/prism/_utils.py:54-121` `is_point_on_edge`. -/
noncomputable def is_point_on_edge
    (easting northing upward prism_west prism_east prism_south prism_north prism_bottom prism_top : SFl A) : Bool :=
  is_point_on_easting_edge easting northing upward prism_west prism_east prism_south prism_north prism_bottom prism_top
  || is_point_on_northing_edge easting northing upward prism_west prism_east prism_south prism_north prism_bottom prism_top
  || is_point_on_upward_edge easting northing upward prism_west prism_east prism_south prism_north prism_bottom prism_top

/-- `/repo/src/choclo/prism/_utils.py:245-282` `is_point_on_east_face`. -/
noncomputable def is_point_on_east_face
    (easting northing upward _prism_west prism_east prism_south prism_north prism_bottom prism_top : SFl A) : Bool :=
  SFl.eq easting prism_east
  && (SFl.lt prism_south northing && SFl.lt northing prism_north)
  && (SFl.lt prism_bottom upward && SFl.lt upward prism_top)

/-- `/repo/src/choclo/prism/_utils.py:286-323` `is_point_on_north_face`. -/
noncomputable def is_point_on_north_face
    (easting northing upward prism_west prism_east _prism_south prism_north prism_bottom prism_top : SFl A) : Bool :=
  (SFl.lt prism_west easting && SFl.lt easting prism_east)
  && SFl.eq northing prism_north
  && (SFl.lt prism_bottom upward && SFl.lt upward prism_top)

/-- `/repo/src/choclo/prism/_utils.py:327-363` `is_point_on_top_face`. -/
noncomputable def is_point_on_top_face
    (easting northing upward prism_west prism_east prism_south prism_north _prism_bottom prism_top : SFl A) : Bool :=
  (SFl.lt prism_west easting && SFl.lt easting prism_east)
  && (SFl.lt prism_south northing && SFl.lt northing prism_north)
  && SFl.eq upward prism_top

end Choclo.Signed.prism
