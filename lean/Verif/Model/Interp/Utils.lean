import Verif.Model.Interp.Arith
import Verif.Model.Signed.Utils

/-! Generated from `Verif/Model/Utils.lean` by `tools/signed.py` and `tools/interp.py`. -/

/-! # Model of `/repo/src/choclo/constants.py` and `/repo/src/choclo/utils.py`, run by the interpreter -/

namespace Choclo.Interp

variable {A : Arith}

namespace utils

/-- `/repo/src/choclo/utils.py:16-55` `distance_cartesian`. -/
noncomputable def distance_cartesian
    (easting_p northing_p upward_p easting_q northing_q upward_q : SFl A) : Py (SFl A) := do
  let distance := SFl.sqrt (
    (easting_p - easting_q) ^ 2
    + (northing_p - northing_q) ^ 2
    + (upward_p - upward_q) ^ 2)
  return distance

/-- `/repo/src/choclo/utils.py:130-208` `distance_spherical_core`. -/
noncomputable def distance_spherical_core
    (longitude_p cosphi_p sinphi_p radius_p longitude_q cosphi_q sinphi_q radius_q : SFl A) :
    Py (SFl A × SFl A × SFl A) := do
  let coslambda := SFl.cos (longitude_q - longitude_p)
  let cospsi := sinphi_q * sinphi_p + cosphi_q * cosphi_p * coslambda
  let distance := SFl.sqrt (
    (radius_p - radius_q) ^ 2 + 2 * radius_p * radius_q * (1 - cospsi))
  return (distance, cospsi, coslambda)

/-- `/repo/src/choclo/utils.py:59-126` `distance_spherical`. -/
noncomputable def distance_spherical
    (longitude_p latitude_p radius_p longitude_q latitude_q radius_q : SFl A) : Py (SFl A) := do
  let (longitude_p, latitude_p) := (SFl.radians longitude_p, SFl.radians latitude_p)
  let (longitude_q, latitude_q) := (SFl.radians longitude_q, SFl.radians latitude_q)
  let cosphi_p := SFl.cos latitude_p
  let sinphi_p := SFl.sin latitude_p
  let cosphi_q := SFl.cos latitude_q
  let sinphi_q := SFl.sin latitude_q
  let (distance, _, _) ← distance_spherical_core
    longitude_p cosphi_p sinphi_p radius_p longitude_q cosphi_q sinphi_q radius_q
  return distance

end utils

end Choclo.Interp
