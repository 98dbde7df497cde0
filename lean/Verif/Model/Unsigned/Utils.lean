import Verif.Model.Unsigned.Arith

/-! Generated from `Verif/Model/Utils.lean` by `tools/typed.py` and `tools/unsigned.py`. -/

/-! # Model of `/repo/src/choclo/constants.py` and `/repo/src/choclo/utils.py`, for int64, uint64 and float64 arguments -/

namespace Choclo.Unsigned

variable {A : Arith}

/-- `GRAVITATIONAL_CONST = 6.6743e-11`, `/repo/src/choclo/constants.py:12`. -/
noncomputable def GRAVITATIONAL_CONST : UFl A := UFl.lit 6.6743e-11

/-- `VACUUM_MAGNETIC_PERMEABILITY = 1.25663706212e-06`, `/repo/src/choclo/constants.py:15`. -/
noncomputable def VACUUM_MAGNETIC_PERMEABILITY : UFl A := UFl.lit 1.25663706212e-06

namespace utils

/-- `/repo/src/choclo/utils.py:16-55` `distance_cartesian`. -/
noncomputable def distance_cartesian
    (easting_p northing_p upward_p easting_q northing_q upward_q : UFl A) : Py (UFl A) := do
  let distance := UFl.sqrt (
    (easting_p - easting_q) ^ 2
    + (northing_p - northing_q) ^ 2
    + (upward_p - upward_q) ^ 2)
  return distance

end utils

end Choclo.Unsigned
