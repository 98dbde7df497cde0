import Verif.Model.Utils

/-! # Model of `/repo/src/choclo/dipole/_forward.py` -/

namespace Choclo.dipole

variable {A : Arith}

/-- `/repo/src/choclo/dipole/_forward.py:14-105` `magnetic_field`. -/
noncomputable def magnetic_field
    (easting_p northing_p upward_p easting_q northing_q upward_q
      magnetic_moment_east magnetic_moment_north magnetic_moment_up : Fl A) :
    Py (Fl A × Fl A × Fl A) := do
  let r_e := easting_p - easting_q
  let r_n := northing_p - northing_q
  let r_u := upward_p - upward_q
  let distance := Fl.sqrt (r_e ^ 2 + r_n ^ 2 + r_u ^ 2)
  let dotproduct :=
    magnetic_moment_east * r_e + magnetic_moment_north * r_n + magnetic_moment_up * r_u
  let c_m ← (← VACUUM_MAGNETIC_PERMEABILITY /. 4) /. Fl.pi
  let b_e := c_m * (
    (← 3 * dotproduct * r_e /. distance ^ 5) - (← magnetic_moment_east /. distance ^ 3))
  let b_n := c_m * (
    (← 3 * dotproduct * r_n /. distance ^ 5) - (← magnetic_moment_north /. distance ^ 3))
  let b_u := c_m * (
    (← 3 * dotproduct * r_u /. distance ^ 5) - (← magnetic_moment_up /. distance ^ 3))
  return (b_e, b_n, b_u)

/-- `/repo/src/choclo/dipole/_forward.py:109-186` `magnetic_e`. -/
noncomputable def magnetic_e
    (easting_p northing_p upward_p easting_q northing_q upward_q
      magnetic_moment_east magnetic_moment_north magnetic_moment_up : Fl A) : Py (Fl A) := do
  let r_e := easting_p - easting_q
  let r_n := northing_p - northing_q
  let r_u := upward_p - upward_q
  let distance := Fl.sqrt (r_e ^ 2 + r_n ^ 2 + r_u ^ 2)
  let dotproduct :=
    magnetic_moment_east * r_e + magnetic_moment_north * r_n + magnetic_moment_up * r_u
  let result := (← 3 * dotproduct * r_e /. distance ^ 5) - (← magnetic_moment_east /. distance ^ 3)
  return (← (← VACUUM_MAGNETIC_PERMEABILITY /. 4) /. Fl.pi) * result

/-- `/repo/src/choclo/dipole/_forward.py:190-267` `magnetic_n`. -/
noncomputable def magnetic_n
    (easting_p northing_p upward_p easting_q northing_q upward_q
      magnetic_moment_east magnetic_moment_north magnetic_moment_up : Fl A) : Py (Fl A) := do
  let r_e := easting_p - easting_q
  let r_n := northing_p - northing_q
  let r_u := upward_p - upward_q
  let distance := Fl.sqrt (r_e ^ 2 + r_n ^ 2 + r_u ^ 2)
  let dotproduct :=
    magnetic_moment_east * r_e + magnetic_moment_north * r_n + magnetic_moment_up * r_u
  let result := (← 3 * dotproduct * r_n /. distance ^ 5) - (← magnetic_moment_north /. distance ^ 3)
  return (← (← VACUUM_MAGNETIC_PERMEABILITY /. 4) /. Fl.pi) * result

/-- `/repo/src/choclo/dipole/_forward.py:271-348` `magnetic_u`. -/
noncomputable def magnetic_u
    (easting_p northing_p upward_p easting_q northing_q upward_q
      magnetic_moment_east magnetic_moment_north magnetic_moment_up : Fl A) : Py (Fl A) := do
  let r_e := easting_p - easting_q
  let r_n := northing_p - northing_q
  let r_u := upward_p - upward_q
  let distance := Fl.sqrt (r_e ^ 2 + r_n ^ 2 + r_u ^ 2)
  let dotproduct :=
    magnetic_moment_east * r_e + magnetic_moment_north * r_n + magnetic_moment_up * r_u
  let result := (← 3 * dotproduct * r_u /. distance ^ 5) - (← magnetic_moment_up /. distance ^ 3)
  return (← (← VACUUM_MAGNETIC_PERMEABILITY /. 4) /. Fl.pi) * result

end Choclo.dipole
