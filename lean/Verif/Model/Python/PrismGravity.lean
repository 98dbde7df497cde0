import Verif.Model.Python.Utils
import Verif.Model.Python.PrismUtils
import Verif.Model.Python.PrismKernels

/-! Generated from `Verif/Model/PrismGravity.lean` by `tools/python.py`. -/

/-! # Model of `/repo/src/choclo/prism/_gravity.py`, run by the interpreter -/

namespace Choclo.Python.prism

variable {A : Arith}

/-- Type of the kernel functions passed to the vertex loops (callables taking three shifted
coordinates and the radius, `/repo/src/choclo/prism/_gravity.py:1486-1488`). -/
abbrev Kernel (A : Arith) := PNum A → PNum A → PNum A → PNum A → PyX (PNum A)

/-- `/repo/src/choclo/prism/_gravity.py:1457-1537` `_evaluate_kernel`. -/
noncomputable def _evaluate_kernel
    (easting northing upward prism_west prism_east prism_south prism_north prism_bottom prism_top : PNum A)
    (kernel : Kernel A) : PyX (PNum A) := do
  let mut result : PNum A := 0
  for i in [0, 1] do
    let shift_east := if i = 0 then prism_east - easting else prism_west - easting
    let shift_east_sq := (← shift_east ^! 2)
    for j in [0, 1] do
      let shift_north := if j = 0 then prism_north - northing else prism_south - northing
      let shift_north_sq := (← shift_north ^! 2)
      for k in [0, 1] do
        let shift_upward := if k = 0 then prism_top - upward else prism_bottom - upward
        let shift_upward_sq := (← shift_upward ^! 2)
        let radius := PNum.sqrt (shift_east_sq + shift_north_sq + shift_upward_sq)
        result := result + ((((-1 : ℤ) ^ (i + j + k : ℕ)) : ℤ) : PNum A)
          * (← kernel shift_east shift_north shift_upward radius)
  return result

/-- `/repo/src/choclo/prism/_gravity.py:38-167` `gravity_pot`. -/
noncomputable def gravity_pot
    (easting northing upward prism_west prism_east prism_south prism_north prism_bottom prism_top
      density : PNum A) : PyX (PNum A) := do
  return GRAVITATIONAL_CONST * density * (← _evaluate_kernel easting northing upward
    prism_west prism_east prism_south prism_north prism_bottom prism_top kernel_pot)

/-- `/repo/src/choclo/prism/_gravity.py:171-301` `gravity_e`. -/
noncomputable def gravity_e
    (easting northing upward prism_west prism_east prism_south prism_north prism_bottom prism_top
      density : PNum A) : PyX (PNum A) := do
  return GRAVITATIONAL_CONST * density * (← _evaluate_kernel easting northing upward
    prism_west prism_east prism_south prism_north prism_bottom prism_top kernel_e)

/-- `/repo/src/choclo/prism/_gravity.py:305-435` `gravity_n`. -/
noncomputable def gravity_n
    (easting northing upward prism_west prism_east prism_south prism_north prism_bottom prism_top
      density : PNum A) : PyX (PNum A) := do
  return GRAVITATIONAL_CONST * density * (← _evaluate_kernel easting northing upward
    prism_west prism_east prism_south prism_north prism_bottom prism_top kernel_n)

/-- `/repo/src/choclo/prism/_gravity.py:439-575` `gravity_u`. -/
noncomputable def gravity_u
    (easting northing upward prism_west prism_east prism_south prism_north prism_bottom prism_top
      density : PNum A) : PyX (PNum A) := do
  return GRAVITATIONAL_CONST * density * (← _evaluate_kernel easting northing upward
    prism_west prism_east prism_south prism_north prism_bottom prism_top kernel_u)

/-- `/repo/src/choclo/prism/_gravity.py:579-733` `gravity_ee`. -/
noncomputable def gravity_ee
    (easting northing upward prism_west prism_east prism_south prism_north prism_bottom prism_top
      density : PNum A) : PyX (PNum A) := do
  if is_point_on_northing_edge easting northing upward
      prism_west prism_east prism_south prism_north prism_bottom prism_top
    || is_point_on_upward_edge easting northing upward
      prism_west prism_east prism_south prism_north prism_bottom prism_top then
    return PNum.nan
  let mut result ← _evaluate_kernel easting northing upward
    prism_west prism_east prism_south prism_north prism_bottom prism_top kernel_ee
  if is_point_on_east_face easting northing upward
      prism_west prism_east prism_south prism_north prism_bottom prism_top then
    result := result + 4 * PNum.pi
  return GRAVITATIONAL_CONST * density * result

/-- `/repo/src/choclo/prism/_gravity.py:737-891` `gravity_nn`. -/
noncomputable def gravity_nn
    (easting northing upward prism_west prism_east prism_south prism_north prism_bottom prism_top
      density : PNum A) : PyX (PNum A) := do
  if is_point_on_easting_edge easting northing upward
      prism_west prism_east prism_south prism_north prism_bottom prism_top
    || is_point_on_upward_edge easting northing upward
      prism_west prism_east prism_south prism_north prism_bottom prism_top then
    return PNum.nan
  let mut result ← _evaluate_kernel easting northing upward
    prism_west prism_east prism_south prism_north prism_bottom prism_top kernel_nn
  if is_point_on_north_face easting northing upward
      prism_west prism_east prism_south prism_north prism_bottom prism_top then
    result := result + 4 * PNum.pi
  return GRAVITATIONAL_CONST * density * result

/-- `/repo/src/choclo/prism/_gravity.py:895-1049` `gravity_uu`. -/
noncomputable def gravity_uu
    (easting northing upward prism_west prism_east prism_south prism_north prism_bottom prism_top
      density : PNum A) : PyX (PNum A) := do
  if is_point_on_easting_edge easting northing upward
      prism_west prism_east prism_south prism_north prism_bottom prism_top
    || is_point_on_northing_edge easting northing upward
      prism_west prism_east prism_south prism_north prism_bottom prism_top then
    return PNum.nan
  let mut result ← _evaluate_kernel easting northing upward
    prism_west prism_east prism_south prism_north prism_bottom prism_top kernel_uu
  if is_point_on_top_face easting northing upward
      prism_west prism_east prism_south prism_north prism_bottom prism_top then
    result := result + 4 * PNum.pi
  return GRAVITATIONAL_CONST * density * result

/-- `/repo/src/choclo/prism/_gravity.py:1053-1183` `gravity_en`. -/
noncomputable def gravity_en
    (easting northing upward prism_west prism_east prism_south prism_north prism_bottom prism_top
      density : PNum A) : PyX (PNum A) := do
  if is_point_on_upward_edge easting northing upward
      prism_west prism_east prism_south prism_north prism_bottom prism_top then
    return PNum.nan
  return GRAVITATIONAL_CONST * density * (← _evaluate_kernel easting northing upward
    prism_west prism_east prism_south prism_north prism_bottom prism_top kernel_en)

/-- `/repo/src/choclo/prism/_gravity.py:1187-1318` `gravity_eu`. -/
noncomputable def gravity_eu
    (easting northing upward prism_west prism_east prism_south prism_north prism_bottom prism_top
      density : PNum A) : PyX (PNum A) := do
  if is_point_on_northing_edge easting northing upward
      prism_west prism_east prism_south prism_north prism_bottom prism_top then
    return PNum.nan
  return GRAVITATIONAL_CONST * density * (← _evaluate_kernel easting northing upward
    prism_west prism_east prism_south prism_north prism_bottom prism_top kernel_eu)

/-- `/repo/src/choclo/prism/_gravity.py:1322-1453` `gravity_nu`. -/
noncomputable def gravity_nu
    (easting northing upward prism_west prism_east prism_south prism_north prism_bottom prism_top
      density : PNum A) : PyX (PNum A) := do
  if is_point_on_easting_edge easting northing upward
      prism_west prism_east prism_south prism_north prism_bottom prism_top then
    return PNum.nan
  return GRAVITATIONAL_CONST * density * (← _evaluate_kernel easting northing upward
    prism_west prism_east prism_south prism_north prism_bottom prism_top kernel_nu)

end Choclo.Python.prism
