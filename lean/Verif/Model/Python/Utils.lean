import Verif.Model.Python.Arith

/-! Generated from `Verif/Model/Utils.lean` by `tools/python.py`. -/

/-! # Model of `/repo/src/choclo/constants.py` and `/repo/src/choclo/utils.py`, run by the interpreter -/

namespace Choclo.Python

variable {A : Arith}

/-- `GRAVITATIONAL_CONST = 6.6743e-11`, `/repo/src/choclo/constants.py:12`. -/
noncomputable def GRAVITATIONAL_CONST : PNum A := PNum.lit 6.6743e-11

/-- `VACUUM_MAGNETIC_PERMEABILITY = 1.25663706212e-06`, `/repo/src/choclo/constants.py:15`. -/
noncomputable def VACUUM_MAGNETIC_PERMEABILITY : PNum A := PNum.lit 1.25663706212e-06

namespace utils

/-- `/repo/src/choclo/utils.py:16-55` `distance_cartesian`. -/
noncomputable def distance_cartesian
    (easting_p northing_p upward_p easting_q northing_q upward_q : PNum A) : PyX (PNum A) := do
  let distance := PNum.sqrt (
    (← (easting_p - easting_q) ^! 2)
    + (← (northing_p - northing_q) ^! 2)
    + (← (upward_p - upward_q) ^! 2))
  return distance

/-- `/repo/src/choclo/utils.py:130-208` `distance_spherical_core`. -/
noncomputable def distance_spherical_core
    (longitude_p cosphi_p sinphi_p radius_p longitude_q cosphi_q sinphi_q radius_q : PNum A) :
    PyX (PNum A × PNum A × PNum A) := do
  let coslambda := PNum.cos (longitude_q - longitude_p)
  let cospsi := sinphi_q * sinphi_p + cosphi_q * cosphi_p * coslambda
  let distance := PNum.sqrt (
    (← (radius_p - radius_q) ^! 2) + 2 * radius_p * radius_q * (1 - cospsi))
  return (distance, cospsi, coslambda)

/-- `/repo/src/choclo/utils.py:59-126` `distance_spherical`. -/
noncomputable def distance_spherical
    (longitude_p latitude_p radius_p longitude_q latitude_q radius_q : PNum A) : PyX (PNum A) := do
  let (longitude_p, latitude_p) := (PNum.radians longitude_p, PNum.radians latitude_p)
  let (longitude_q, latitude_q) := (PNum.radians longitude_q, PNum.radians latitude_q)
  let cosphi_p := PNum.cos latitude_p
  let sinphi_p := PNum.sin latitude_p
  let cosphi_q := PNum.cos latitude_q
  let sinphi_q := PNum.sin latitude_q
  let (distance, _, _) ← distance_spherical_core
    longitude_p cosphi_p sinphi_p radius_p longitude_q cosphi_q sinphi_q radius_q
  return distance

end utils

end Choclo.Python
