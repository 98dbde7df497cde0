import Verif.Model.NpInt.Utils

/-! Generated from `Verif/Model/Point.lean` by `tools/typed.py` and `tools/npint.py`. -/

/-! # Model of `/repo/src/choclo/point/_kernels.py` and `/repo/src/choclo/point/_forward.py`, run by the interpreter on np.int64 and np.float64 scalars -/

namespace Choclo.NpInt.point

variable {A : Arith}

/-- `/repo/src/choclo/point/_kernels.py:15-59` `kernel_pot`. -/
noncomputable def kernel_pot
    (_easting_p _northing_p _upward_p _easting_q _northing_q _upward_q distance : TFl A) : Py (TFl A) := do
  return ← 1 /ₙ distance

/-- `/repo/src/choclo/point/_kernels.py:63-112` `kernel_e`. -/
noncomputable def kernel_e
    (easting_p _northing_p _upward_p easting_q _northing_q _upward_q distance : TFl A) : Py (TFl A) := do
  return ← (-(easting_p - easting_q)) /ₙ distance ^ 3

/-- `/repo/src/choclo/point/_kernels.py:116-165` `kernel_n`. -/
noncomputable def kernel_n
    (_easting_p northing_p _upward_p _easting_q northing_q _upward_q distance : TFl A) : Py (TFl A) := do
  return ← (-(northing_p - northing_q)) /ₙ distance ^ 3

/-- `/repo/src/choclo/point/_kernels.py:169-218` `kernel_u`. -/
noncomputable def kernel_u
    (_easting_p _northing_p upward_p _easting_q _northing_q upward_q distance : TFl A) : Py (TFl A) := do
  return ← (-(upward_p - upward_q)) /ₙ distance ^ 3

/-- `/repo/src/choclo/point/_kernels.py:222-276` `kernel_ee`. -/
noncomputable def kernel_ee
    (easting_p _northing_p _upward_p easting_q _northing_q _upward_q distance : TFl A) : Py (TFl A) := do
  return (← 3 * (easting_p - easting_q) ^ 2 /ₙ distance ^ 5) - (← 1 /ₙ distance ^ 3)

/-- `/repo/src/choclo/point/_kernels.py:280-334` `kernel_nn`. -/
noncomputable def kernel_nn
    (_easting_p northing_p _upward_p _easting_q northing_q _upward_q distance : TFl A) : Py (TFl A) := do
  return (← 3 * (northing_p - northing_q) ^ 2 /ₙ distance ^ 5) - (← 1 /ₙ distance ^ 3)

/-- `/repo/src/choclo/point/_kernels.py:338-392` `kernel_uu`. -/
noncomputable def kernel_uu
    (_easting_p _northing_p upward_p _easting_q _northing_q upward_q distance : TFl A) : Py (TFl A) := do
  return (← 3 * (upward_p - upward_q) ^ 2 /ₙ distance ^ 5) - (← 1 /ₙ distance ^ 3)

/-- `/repo/src/choclo/point/_kernels.py:396-447` `kernel_en`. -/
noncomputable def kernel_en
    (easting_p northing_p _upward_p easting_q northing_q _upward_q distance : TFl A) : Py (TFl A) := do
  return ← 3 * (easting_p - easting_q) * (northing_p - northing_q) /ₙ distance ^ 5

/-- `/repo/src/choclo/point/_kernels.py:451-503` `kernel_eu`. -/
noncomputable def kernel_eu
    (easting_p _northing_p upward_p easting_q _northing_q upward_q distance : TFl A) : Py (TFl A) := do
  return ← 3 * (easting_p - easting_q) * (upward_p - upward_q) /ₙ distance ^ 5

/-- `/repo/src/choclo/point/_kernels.py:507-558` `kernel_nu`. -/
noncomputable def kernel_nu
    (_easting_p northing_p upward_p _easting_q northing_q upward_q distance : TFl A) : Py (TFl A) := do
  return ← 3 * (northing_p - northing_q) * (upward_p - upward_q) /ₙ distance ^ 5

/-- `/repo/src/choclo/point/_kernels.py:562-617` `kernel_eee`. -/
noncomputable def kernel_eee
    (easting_p _northing_p _upward_p easting_q _northing_q _upward_q distance : TFl A) : Py (TFl A) := do
  let easting := easting_p - easting_q
  return (← 9 * easting /ₙ distance ^ 5) - (← 15 * easting ^ 3 /ₙ distance ^ 7)

/-- `/repo/src/choclo/point/_kernels.py:621-676` `kernel_nnn`. -/
noncomputable def kernel_nnn
    (_easting_p northing_p _upward_p _easting_q northing_q _upward_q distance : TFl A) : Py (TFl A) := do
  let northing := northing_p - northing_q
  return (← 9 * northing /ₙ distance ^ 5) - (← 15 * northing ^ 3 /ₙ distance ^ 7)

/-- `/repo/src/choclo/point/_kernels.py:680-735` `kernel_uuu`. -/
noncomputable def kernel_uuu
    (_easting_p _northing_p upward_p _easting_q _northing_q upward_q distance : TFl A) : Py (TFl A) := do
  let upward := upward_p - upward_q
  return (← 9 * upward /ₙ distance ^ 5) - (← 15 * upward ^ 3 /ₙ distance ^ 7)

/-- `/repo/src/choclo/point/_kernels.py:739-801` `kernel_een`. -/
noncomputable def kernel_een
    (easting_p northing_p _upward_p easting_q northing_q _upward_q distance : TFl A) : Py (TFl A) := do
  let easting := easting_p - easting_q
  let northing := northing_p - northing_q
  return (← 3 * northing /ₙ distance ^ 5) - (← 15 * easting ^ 2 * northing /ₙ distance ^ 7)

/-- `/repo/src/choclo/point/_kernels.py:805-866` `kernel_eeu`. -/
noncomputable def kernel_eeu
    (easting_p _northing_p upward_p easting_q _northing_q upward_q distance : TFl A) : Py (TFl A) := do
  let easting := easting_p - easting_q
  let upward := upward_p - upward_q
  return (← 3 * upward /ₙ distance ^ 5) - (← 15 * easting ^ 2 * upward /ₙ distance ^ 7)

/-- `/repo/src/choclo/point/_kernels.py:870-932` `kernel_nne`. -/
noncomputable def kernel_nne
    (easting_p northing_p _upward_p easting_q northing_q _upward_q distance : TFl A) : Py (TFl A) := do
  let northing := northing_p - northing_q
  let easting := easting_p - easting_q
  return (← 3 * easting /ₙ distance ^ 5) - (← 15 * northing ^ 2 * easting /ₙ distance ^ 7)

/-- `/repo/src/choclo/point/_kernels.py:936-998` `kernel_nnu`. -/
noncomputable def kernel_nnu
    (_easting_p northing_p upward_p _easting_q northing_q upward_q distance : TFl A) : Py (TFl A) := do
  let northing := northing_p - northing_q
  let upward := upward_p - upward_q
  return (← 3 * upward /ₙ distance ^ 5) - (← 15 * northing ^ 2 * upward /ₙ distance ^ 7)

/-- `/repo/src/choclo/point/_kernels.py:1002-1063` `kernel_uue`. -/
noncomputable def kernel_uue
    (easting_p _northing_p upward_p easting_q _northing_q upward_q distance : TFl A) : Py (TFl A) := do
  let upward := upward_p - upward_q
  let easting := easting_p - easting_q
  return (← 3 * easting /ₙ distance ^ 5) - (← 15 * upward ^ 2 * easting /ₙ distance ^ 7)

/-- `/repo/src/choclo/point/_kernels.py:1067-1128` `kernel_uun`. -/
noncomputable def kernel_uun
    (_easting_p northing_p upward_p _easting_q northing_q upward_q distance : TFl A) : Py (TFl A) := do
  let upward := upward_p - upward_q
  let northing := northing_p - northing_q
  return (← 3 * northing /ₙ distance ^ 5) - (← 15 * upward ^ 2 * northing /ₙ distance ^ 7)

/-- `/repo/src/choclo/point/_kernels.py:1132-1193` `kernel_enu`. -/
noncomputable def kernel_enu
    (easting_p northing_p upward_p easting_q northing_q upward_q distance : TFl A) : Py (TFl A) := do
  let easting := easting_p - easting_q
  let northing := northing_p - northing_q
  let upward := upward_p - upward_q
  return ← (-15) * easting * northing * upward /ₙ distance ^ 7

/-- `/repo/src/choclo/point/_forward.py:30-74` `gravity_pot`. -/
noncomputable def gravity_pot
    (easting_p northing_p upward_p easting_q northing_q upward_q mass : TFl A) : Py (TFl A) := do
  let distance ← utils.distance_cartesian
    easting_p northing_p upward_p easting_q northing_q upward_q
  let kernel ← kernel_pot
    easting_p northing_p upward_p easting_q northing_q upward_q distance
  return Typed.GRAVITATIONAL_CONST * mass * kernel

/-- `/repo/src/choclo/point/_forward.py:78-127` `gravity_e`. -/
noncomputable def gravity_e
    (easting_p northing_p upward_p easting_q northing_q upward_q mass : TFl A) : Py (TFl A) := do
  let distance ← utils.distance_cartesian
    easting_p northing_p upward_p easting_q northing_q upward_q
  let kernel ← kernel_e
    easting_p northing_p upward_p easting_q northing_q upward_q distance
  return Typed.GRAVITATIONAL_CONST * mass * kernel

/-- `/repo/src/choclo/point/_forward.py:131-180` `gravity_n`. -/
noncomputable def gravity_n
    (easting_p northing_p upward_p easting_q northing_q upward_q mass : TFl A) : Py (TFl A) := do
  let distance ← utils.distance_cartesian
    easting_p northing_p upward_p easting_q northing_q upward_q
  let kernel ← kernel_n
    easting_p northing_p upward_p easting_q northing_q upward_q distance
  return Typed.GRAVITATIONAL_CONST * mass * kernel

/-- `/repo/src/choclo/point/_forward.py:184-233` `gravity_u`. -/
noncomputable def gravity_u
    (easting_p northing_p upward_p easting_q northing_q upward_q mass : TFl A) : Py (TFl A) := do
  let distance ← utils.distance_cartesian
    easting_p northing_p upward_p easting_q northing_q upward_q
  let kernel ← kernel_u
    easting_p northing_p upward_p easting_q northing_q upward_q distance
  return Typed.GRAVITATIONAL_CONST * mass * kernel

/-- `/repo/src/choclo/point/_forward.py:237-293` `gravity_ee`. -/
noncomputable def gravity_ee
    (easting_p northing_p upward_p easting_q northing_q upward_q mass : TFl A) : Py (TFl A) := do
  let distance ← utils.distance_cartesian
    easting_p northing_p upward_p easting_q northing_q upward_q
  let kernel ← kernel_ee
    easting_p northing_p upward_p easting_q northing_q upward_q distance
  return Typed.GRAVITATIONAL_CONST * mass * kernel

/-- `/repo/src/choclo/point/_forward.py:297-353` `gravity_nn`. -/
noncomputable def gravity_nn
    (easting_p northing_p upward_p easting_q northing_q upward_q mass : TFl A) : Py (TFl A) := do
  let distance ← utils.distance_cartesian
    easting_p northing_p upward_p easting_q northing_q upward_q
  let kernel ← kernel_nn
    easting_p northing_p upward_p easting_q northing_q upward_q distance
  return Typed.GRAVITATIONAL_CONST * mass * kernel

/-- `/repo/src/choclo/point/_forward.py:357-413` `gravity_uu`. -/
noncomputable def gravity_uu
    (easting_p northing_p upward_p easting_q northing_q upward_q mass : TFl A) : Py (TFl A) := do
  let distance ← utils.distance_cartesian
    easting_p northing_p upward_p easting_q northing_q upward_q
  let kernel ← kernel_uu
    easting_p northing_p upward_p easting_q northing_q upward_q distance
  return Typed.GRAVITATIONAL_CONST * mass * kernel

/-- `/repo/src/choclo/point/_forward.py:417-468` `gravity_en`. -/
noncomputable def gravity_en
    (easting_p northing_p upward_p easting_q northing_q upward_q mass : TFl A) : Py (TFl A) := do
  let distance ← utils.distance_cartesian
    easting_p northing_p upward_p easting_q northing_q upward_q
  let kernel ← kernel_en
    easting_p northing_p upward_p easting_q northing_q upward_q distance
  return Typed.GRAVITATIONAL_CONST * mass * kernel

/-- `/repo/src/choclo/point/_forward.py:472-523` `gravity_eu`. -/
noncomputable def gravity_eu
    (easting_p northing_p upward_p easting_q northing_q upward_q mass : TFl A) : Py (TFl A) := do
  let distance ← utils.distance_cartesian
    easting_p northing_p upward_p easting_q northing_q upward_q
  let kernel ← kernel_eu
    easting_p northing_p upward_p easting_q northing_q upward_q distance
  return Typed.GRAVITATIONAL_CONST * mass * kernel

/-- `/repo/src/choclo/point/_forward.py:527-578` `gravity_nu`. -/
noncomputable def gravity_nu
    (easting_p northing_p upward_p easting_q northing_q upward_q mass : TFl A) : Py (TFl A) := do
  let distance ← utils.distance_cartesian
    easting_p northing_p upward_p easting_q northing_q upward_q
  let kernel ← kernel_nu
    easting_p northing_p upward_p easting_q northing_q upward_q distance
  return Typed.GRAVITATIONAL_CONST * mass * kernel

end Choclo.NpInt.point
