import Verif.Model.Arith

/-! # Model of `/repo/src/choclo/constants.py` and `/repo/src/choclo/utils.py` -/

namespace Choclo

variable {A : Arith}

/-- `GRAVITATIONAL_CONST = 6.6743e-11`, `/repo/src/choclo/constants.py:12`. -/
noncomputable def GRAVITATIONAL_CONST : Fl A := Fl.lit 6.6743e-11

/-- `VACUUM_MAGNETIC_PERMEABILITY = 1.25663706212e-06`, `/repo/src/choclo/constants.py:15`. -/
noncomputable def VACUUM_MAGNETIC_PERMEABILITY : Fl A := Fl.lit 1.25663706212e-06

namespace utils

/-- `/repo/src/choclo/utils.py:16-55` `distance_cartesian`. -/
noncomputable def distance_cartesian
    (easting_p northing_p upward_p easting_q northing_q upward_q : Fl A) : Py (Fl A) := do
  let distance := Fl.sqrt (
    (easting_p - easting_q) ^ 2
    + (northing_p - northing_q) ^ 2
    + (upward_p - upward_q) ^ 2)
  return distance

/-- `/repo/src/choclo/utils.py:130-208` `distance_spherical_core`. -/
noncomputable def distance_spherical_core
    (longitude_p cosphi_p sinphi_p radius_p longitude_q cosphi_q sinphi_q radius_q : Fl A) :
    Py (Fl A × Fl A × Fl A) := do
  let coslambda := Fl.cos (longitude_q - longitude_p)
  let cospsi := sinphi_q * sinphi_p + cosphi_q * cosphi_p * coslambda
  let distance := Fl.sqrt (
    (radius_p - radius_q) ^ 2 + 2 * radius_p * radius_q * (1 - cospsi))
  return (distance, cospsi, coslambda)

/-- `/repo/src/choclo/utils.py:59-126` `distance_spherical`. -/
noncomputable def distance_spherical
    (longitude_p latitude_p radius_p longitude_q latitude_q radius_q : Fl A) : Py (Fl A) := do
  let (longitude_p, latitude_p) := (Fl.radians longitude_p, Fl.radians latitude_p)
  let (longitude_q, latitude_q) := (Fl.radians longitude_q, Fl.radians latitude_q)
  let cosphi_p := Fl.cos latitude_p
  let sinphi_p := Fl.sin latitude_p
  let cosphi_q := Fl.cos latitude_q
  let sinphi_q := Fl.sin latitude_q
  let (distance, _, _) ← distance_spherical_core
    longitude_p cosphi_p sinphi_p radius_p longitude_q cosphi_q sinphi_q radius_q
  return distance

end utils

end Choclo
