import Verif.Model.Interp.Arith

/-! Generated from `Verif/Model/PrismKernels.lean` by `tools/signed.py` and `tools/interp.py`. -/

/-! # Model of `/repo/src/choclo/prism/_kernels.py`, run by the interpreter -/

namespace Choclo.Interp.prism

variable {A : Arith}

/-- `/repo/src/choclo/prism/_kernels.py:743-778` `_safe_atan2`. -/
noncomputable def _safe_atan2 (y x : SFl A) : Py (SFl A) := do
  if SFl.eq x 0 then
    if SFl.lt 0 y then
      return ← SFl.pi /∞ 2
    else if SFl.lt y 0 then
      return ← (-SFl.pi) /∞ 2
    else
      return 0
  else
    return SFl.arctan (← y /∞ x)

/-- `/repo/src/choclo/prism/_kernels.py:782-860` `_safe_log`. -/
noncomputable def _safe_log (x y z r : SFl A) : Py (SFl A) := do
  if SFl.eq r 0 then
    return 0
  else if SFl.lt x 0 then
    if SFl.eq y 0 && SFl.eq z 0 then
      return -SFl.log ((-2) * x)
    else
      return SFl.log (← (y ^ 2 + z ^ 2) /∞ (r - x))
  else
    return SFl.log (x + r)

/-- `/repo/src/choclo/prism/_kernels.py:16-98` `kernel_pot`. -/
noncomputable def kernel_pot (easting northing upward radius : SFl A) : Py (SFl A) := do
  let kernel :=
    easting * northing * (← _safe_log upward easting northing radius)
    + northing * upward * (← _safe_log easting northing upward radius)
    + easting * upward * (← _safe_log northing upward easting radius)
    - SFl.half * easting ^ 2 * (← _safe_atan2 (upward * northing) (easting * radius))
    - SFl.half * northing ^ 2 * (← _safe_atan2 (upward * easting) (northing * radius))
    - SFl.half * upward ^ 2 * (← _safe_atan2 (easting * northing) (upward * radius))
  return kernel

/-- `/repo/src/choclo/prism/_kernels.py:102-187` `kernel_e`. -/
noncomputable def kernel_e (easting northing upward radius : SFl A) : Py (SFl A) := do
  let kernel := -(
    northing * (← _safe_log upward easting northing radius)
    + upward * (← _safe_log northing upward easting radius)
    - easting * (← _safe_atan2 (northing * upward) (easting * radius)))
  return kernel

/-- `/repo/src/choclo/prism/_kernels.py:191-276` `kernel_n`. -/
noncomputable def kernel_n (easting northing upward radius : SFl A) : Py (SFl A) := do
  let kernel := -(
    upward * (← _safe_log easting northing upward radius)
    + easting * (← _safe_log upward easting northing radius)
    - northing * (← _safe_atan2 (easting * upward) (northing * radius)))
  return kernel

/-- `/repo/src/choclo/prism/_kernels.py:280-367` `kernel_u`. -/
noncomputable def kernel_u (easting northing upward radius : SFl A) : Py (SFl A) := do
  let kernel := -(
    easting * (← _safe_log northing upward easting radius)
    + northing * (← _safe_log easting northing upward radius)
    - upward * (← _safe_atan2 (easting * northing) (upward * radius)))
  return kernel

/-- `/repo/src/choclo/prism/_kernels.py:371-429` `kernel_ee`. -/
noncomputable def kernel_ee (easting northing upward radius : SFl A) : Py (SFl A) := do
  if SFl.eq radius 0 then
    return SFl.nan
  else
    return -(← _safe_atan2 (northing * upward) (easting * radius))

/-- `/repo/src/choclo/prism/_kernels.py:433-491` `kernel_nn`. -/
noncomputable def kernel_nn (easting northing upward radius : SFl A) : Py (SFl A) := do
  if SFl.eq radius 0 then
    return SFl.nan
  else
    return -(← _safe_atan2 (easting * upward) (northing * radius))

/-- `/repo/src/choclo/prism/_kernels.py:495-553` `kernel_uu`. -/
noncomputable def kernel_uu (easting northing upward radius : SFl A) : Py (SFl A) := do
  if SFl.eq radius 0 then
    return SFl.nan
  else
    return -(← _safe_atan2 (easting * northing) (upward * radius))

/-- `/repo/src/choclo/prism/_kernels.py:557-615` `kernel_en`. -/
noncomputable def kernel_en (easting northing upward radius : SFl A) : Py (SFl A) := do
  if SFl.eq radius 0 then
    return SFl.nan
  else
    return ← _safe_log upward easting northing radius

/-- `/repo/src/choclo/prism/_kernels.py:619-677` `kernel_eu`. -/
noncomputable def kernel_eu (easting northing upward radius : SFl A) : Py (SFl A) := do
  if SFl.eq radius 0 then
    return SFl.nan
  else
    return ← _safe_log northing easting upward radius

/-- `/repo/src/choclo/prism/_kernels.py:681-739` `kernel_nu`. -/
noncomputable def kernel_nu (easting northing upward radius : SFl A) : Py (SFl A) := do
  if SFl.eq radius 0 then
    return SFl.nan
  else
    return ← _safe_log easting northing upward radius

/-- `/repo/src/choclo/prism/_kernels.py:1390-1444` `_kernel_iii`. -/
noncomputable def _kernel_iii (x_i x_j x_k radius : SFl A) : Py (SFl A) := do
  if SFl.eq radius 0 then
    return SFl.nan
  else if (SFl.eq x_i 0 && SFl.eq x_j 0) || (SFl.eq x_i 0 && SFl.eq x_k 0) then
    return 0
  else
    let (x_i_sq, x_j_sq, x_k_sq) := (x_i ^ 2, x_j ^ 2, x_k ^ 2)
    let numerator := (-x_j) * x_k * (2 * x_i_sq + x_j_sq + x_k_sq)
    let denominator := (x_i_sq + x_j_sq) * (x_i_sq + x_k_sq) * radius
    return ← numerator /∞ denominator

/-- `/repo/src/choclo/prism/_kernels.py:1448-1506` `_kernel_iij`. -/
noncomputable def _kernel_iij (x_i x_j x_k radius : SFl A) : Py (SFl A) := do
  if SFl.eq radius 0 then
    return SFl.nan
  else if SFl.eq x_i 0 && SFl.eq x_j 0 then
    return 0
  else
    return ← x_i * x_k /∞ ((x_i ^ 2 + x_j ^ 2) * radius)

/-- `/repo/src/choclo/prism/_kernels.py:864-913` `kernel_eee`. -/
noncomputable def kernel_eee (easting northing upward radius : SFl A) : Py (SFl A) := do
  _kernel_iii easting northing upward radius

/-- `/repo/src/choclo/prism/_kernels.py:917-966` `kernel_nnn`. -/
noncomputable def kernel_nnn (easting northing upward radius : SFl A) : Py (SFl A) := do
  _kernel_iii northing upward easting radius

/-- `/repo/src/choclo/prism/_kernels.py:970-1019` `kernel_uuu`. -/
noncomputable def kernel_uuu (easting northing upward radius : SFl A) : Py (SFl A) := do
  _kernel_iii upward northing easting radius

/-- `/repo/src/choclo/prism/_kernels.py:1023-1072` `kernel_een`. -/
noncomputable def kernel_een (easting northing upward radius : SFl A) : Py (SFl A) := do
  _kernel_iij easting northing upward radius

/-- `/repo/src/choclo/prism/_kernels.py:1076-1125` `kernel_eeu`. -/
noncomputable def kernel_eeu (easting northing upward radius : SFl A) : Py (SFl A) := do
  _kernel_iij easting upward northing radius

/-- `/repo/src/choclo/prism/_kernels.py:1129-1178` `kernel_enn`. -/
noncomputable def kernel_enn (easting northing upward radius : SFl A) : Py (SFl A) := do
  _kernel_iij northing easting upward radius

/-- `/repo/src/choclo/prism/_kernels.py:1182-1231` `kernel_nnu`. -/
noncomputable def kernel_nnu (easting northing upward radius : SFl A) : Py (SFl A) := do
  _kernel_iij northing upward easting radius

/-- `/repo/src/choclo/prism/_kernels.py:1235-1284` `kernel_euu`. -/
noncomputable def kernel_euu (easting northing upward radius : SFl A) : Py (SFl A) := do
  _kernel_iij upward easting northing radius

/-- `/repo/src/choclo/prism/_kernels.py:1288-1337` `kernel_nuu`. -/
noncomputable def kernel_nuu (easting northing upward radius : SFl A) : Py (SFl A) := do
  _kernel_iij upward northing easting radius

/-- `/repo/src/choclo/prism/_kernels.py:1341-1386` `kernel_enu`. -/
noncomputable def kernel_enu (_easting _northing _upward radius : SFl A) : Py (SFl A) := do
  if SFl.eq radius 0 then
    return SFl.nan
  else
    return ← (-1) /∞ radius

end Choclo.Interp.prism
