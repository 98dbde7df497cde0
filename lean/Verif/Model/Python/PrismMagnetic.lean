import Verif.Model.Python.PrismGravity

/-! Generated from `Verif/Model/PrismMagnetic.lean` by `tools/python.py`. -/

/-! # Model of `/repo/src/choclo/prism/_magnetic.py`, run by the interpreter -/

namespace Choclo.Python.prism

variable {A : Arith}

/-- `/repo/src/choclo/prism/_magnetic.py:1678-1787` `_calculate_component`. -/
noncomputable def _calculate_component
    (easting northing upward prism_west prism_east prism_south prism_north prism_bottom prism_top
      magnetization_east magnetization_north magnetization_up : PNum A)
    (kernel_i kernel_j kernel_k : Kernel A) : PyX (PNum A) := do
  let mut result : PNum A := PNum.fzero
  for i in [0, 1] do
    let shift_east := if i = 0 then prism_east - easting else prism_west - easting
    let shift_east_sq := (← shift_east ^! 2)
    for j in [0, 1] do
      let shift_north := if j = 0 then prism_north - northing else prism_south - northing
      let shift_north_sq := (← shift_north ^! 2)
      for k in [0, 1] do
        let shift_upward := if k = 0 then prism_top - upward else prism_bottom - upward
        let shift_upward_sq := (← shift_upward ^! 2)
        let radius := PNum.sqrt (shift_east_sq + shift_north_sq + shift_upward_sq)
        let k_e ← kernel_i shift_east shift_north shift_upward radius
        let k_n ← kernel_j shift_east shift_north shift_upward radius
        let k_u ← kernel_k shift_east shift_north shift_upward radius
        result := result + ((((-1 : ℤ) ^ (i + j + k : ℕ)) : ℤ) : PNum A)
          * (magnetization_east * k_e + magnetization_north * k_n + magnetization_up * k_u)
  return result

/-- `/repo/src/choclo/prism/_magnetic.py:43-342` `magnetic_field`. -/
noncomputable def magnetic_field
    (easting northing upward prism_west prism_east prism_south prism_north prism_bottom prism_top
      magnetization_east magnetization_north magnetization_up : PNum A) : PyX (PNum A × PNum A × PNum A) := do
  if is_point_on_edge easting northing upward
      prism_west prism_east prism_south prism_north prism_bottom prism_top
    || is_interior_point easting northing upward
      prism_west prism_east prism_south prism_north prism_bottom prism_top then
    return (PNum.nan, PNum.nan, PNum.nan)
  let mut b_e : PNum A := PNum.fzero
  let mut b_n : PNum A := PNum.fzero
  let mut b_u : PNum A := PNum.fzero
  for i in [0, 1] do
    let shift_east := if i = 0 then prism_east - easting else prism_west - easting
    let shift_east_sq := (← shift_east ^! 2)
    for j in [0, 1] do
      let shift_north := if j = 0 then prism_north - northing else prism_south - northing
      let shift_north_sq := (← shift_north ^! 2)
      for k in [0, 1] do
        let shift_upward := if k = 0 then prism_top - upward else prism_bottom - upward
        let shift_upward_sq := (← shift_upward ^! 2)
        let radius := PNum.sqrt (shift_east_sq + shift_north_sq + shift_upward_sq)
        let k_ee ← kernel_ee shift_east shift_north shift_upward radius
        let k_nn ← kernel_nn shift_east shift_north shift_upward radius
        let k_uu ← kernel_uu shift_east shift_north shift_upward radius
        let k_en ← kernel_en shift_east shift_north shift_upward radius
        let k_eu ← kernel_eu shift_east shift_north shift_upward radius
        let k_nu ← kernel_nu shift_east shift_north shift_upward radius
        let sign := ((((-1 : ℤ) ^ (i + j + k : ℕ)) : ℤ) : PNum A)
        b_e := b_e + sign
          * (magnetization_east * k_ee + magnetization_north * k_en + magnetization_up * k_eu)
        b_n := b_n + sign
          * (magnetization_east * k_en + magnetization_north * k_nn + magnetization_up * k_nu)
        b_u := b_u + sign
          * (magnetization_east * k_eu + magnetization_north * k_nu + magnetization_up * k_uu)
  if is_point_on_east_face easting northing upward
      prism_west prism_east prism_south prism_north prism_bottom prism_top then
    b_e := b_e + 4 * PNum.pi * magnetization_east
  if is_point_on_north_face easting northing upward
      prism_west prism_east prism_south prism_north prism_bottom prism_top then
    b_n := b_n + 4 * PNum.pi * magnetization_north
  if is_point_on_top_face easting northing upward
      prism_west prism_east prism_south prism_north prism_bottom prism_top then
    b_u := b_u + 4 * PNum.pi * magnetization_up
  let c_m ← (← VACUUM_MAGNETIC_PERMEABILITY /! 4) /! PNum.pi
  b_e := b_e * c_m
  b_n := b_n * c_m
  b_u := b_u * c_m
  return (b_e, b_n, b_u)

/-- `/repo/src/choclo/prism/_magnetic.py:346-516` `magnetic_e`. -/
noncomputable def magnetic_e
    (easting northing upward prism_west prism_east prism_south prism_north prism_bottom prism_top
      magnetization_east magnetization_north magnetization_up : PNum A) : PyX (PNum A) := do
  if is_point_on_edge easting northing upward
      prism_west prism_east prism_south prism_north prism_bottom prism_top
    || is_interior_point easting northing upward
      prism_west prism_east prism_south prism_north prism_bottom prism_top then
    return PNum.nan
  let mut b_e ← _calculate_component easting northing upward
    prism_west prism_east prism_south prism_north prism_bottom prism_top
    magnetization_east magnetization_north magnetization_up kernel_ee kernel_en kernel_eu
  if is_point_on_east_face easting northing upward
      prism_west prism_east prism_south prism_north prism_bottom prism_top then
    b_e := b_e + 4 * PNum.pi * magnetization_east
  return (← (← VACUUM_MAGNETIC_PERMEABILITY /! 4) /! PNum.pi) * b_e

/-- `/repo/src/choclo/prism/_magnetic.py:520-690` `magnetic_n`. -/
noncomputable def magnetic_n
    (easting northing upward prism_west prism_east prism_south prism_north prism_bottom prism_top
      magnetization_east magnetization_north magnetization_up : PNum A) : PyX (PNum A) := do
  if is_point_on_edge easting northing upward
      prism_west prism_east prism_south prism_north prism_bottom prism_top
    || is_interior_point easting northing upward
      prism_west prism_east prism_south prism_north prism_bottom prism_top then
    return PNum.nan
  let mut b_n ← _calculate_component easting northing upward
    prism_west prism_east prism_south prism_north prism_bottom prism_top
    magnetization_east magnetization_north magnetization_up kernel_en kernel_nn kernel_nu
  if is_point_on_north_face easting northing upward
      prism_west prism_east prism_south prism_north prism_bottom prism_top then
    b_n := b_n + 4 * PNum.pi * magnetization_north
  return (← (← VACUUM_MAGNETIC_PERMEABILITY /! 4) /! PNum.pi) * b_n

/-- `/repo/src/choclo/prism/_magnetic.py:694-864` `magnetic_u`. -/
noncomputable def magnetic_u
    (easting northing upward prism_west prism_east prism_south prism_north prism_bottom prism_top
      magnetization_east magnetization_north magnetization_up : PNum A) : PyX (PNum A) := do
  if is_point_on_edge easting northing upward
      prism_west prism_east prism_south prism_north prism_bottom prism_top
    || is_interior_point easting northing upward
      prism_west prism_east prism_south prism_north prism_bottom prism_top then
    return PNum.nan
  let mut b_u ← _calculate_component easting northing upward
    prism_west prism_east prism_south prism_north prism_bottom prism_top
    magnetization_east magnetization_north magnetization_up kernel_eu kernel_nu kernel_uu
  if is_point_on_top_face easting northing upward
      prism_west prism_east prism_south prism_north prism_bottom prism_top then
    b_u := b_u + 4 * PNum.pi * magnetization_up
  return (← (← VACUUM_MAGNETIC_PERMEABILITY /! 4) /! PNum.pi) * b_u

/-- `/repo/src/choclo/prism/_magnetic.py:868-999` `magnetic_ee`. -/
noncomputable def magnetic_ee
    (easting northing upward prism_west prism_east prism_south prism_north prism_bottom prism_top
      magnetization_east magnetization_north magnetization_up : PNum A) : PyX (PNum A) := do
  if is_point_on_edge easting northing upward
      prism_west prism_east prism_south prism_north prism_bottom prism_top
    || is_interior_point easting northing upward
      prism_west prism_east prism_south prism_north prism_bottom prism_top then
    return PNum.nan
  let b_ee ← _calculate_component easting northing upward
    prism_west prism_east prism_south prism_north prism_bottom prism_top
    magnetization_east magnetization_north magnetization_up kernel_eee kernel_een kernel_eeu
  return (← (← VACUUM_MAGNETIC_PERMEABILITY /! 4) /! PNum.pi) * b_ee

/-- `/repo/src/choclo/prism/_magnetic.py:1003-1134` `magnetic_nn`. -/
noncomputable def magnetic_nn
    (easting northing upward prism_west prism_east prism_south prism_north prism_bottom prism_top
      magnetization_east magnetization_north magnetization_up : PNum A) : PyX (PNum A) := do
  if is_point_on_edge easting northing upward
      prism_west prism_east prism_south prism_north prism_bottom prism_top
    || is_interior_point easting northing upward
      prism_west prism_east prism_south prism_north prism_bottom prism_top then
    return PNum.nan
  let b_nn ← _calculate_component easting northing upward
    prism_west prism_east prism_south prism_north prism_bottom prism_top
    magnetization_east magnetization_north magnetization_up kernel_enn kernel_nnn kernel_nnu
  return (← (← VACUUM_MAGNETIC_PERMEABILITY /! 4) /! PNum.pi) * b_nn

/-- `/repo/src/choclo/prism/_magnetic.py:1138-1269` `magnetic_uu`. -/
noncomputable def magnetic_uu
    (easting northing upward prism_west prism_east prism_south prism_north prism_bottom prism_top
      magnetization_east magnetization_north magnetization_up : PNum A) : PyX (PNum A) := do
  if is_point_on_edge easting northing upward
      prism_west prism_east prism_south prism_north prism_bottom prism_top
    || is_interior_point easting northing upward
      prism_west prism_east prism_south prism_north prism_bottom prism_top then
    return PNum.nan
  let b_uu ← _calculate_component easting northing upward
    prism_west prism_east prism_south prism_north prism_bottom prism_top
    magnetization_east magnetization_north magnetization_up kernel_euu kernel_nuu kernel_uuu
  return (← (← VACUUM_MAGNETIC_PERMEABILITY /! 4) /! PNum.pi) * b_uu

/-- `/repo/src/choclo/prism/_magnetic.py:1273-1404` `magnetic_en`. -/
noncomputable def magnetic_en
    (easting northing upward prism_west prism_east prism_south prism_north prism_bottom prism_top
      magnetization_east magnetization_north magnetization_up : PNum A) : PyX (PNum A) := do
  if is_point_on_edge easting northing upward
      prism_west prism_east prism_south prism_north prism_bottom prism_top
    || is_interior_point easting northing upward
      prism_west prism_east prism_south prism_north prism_bottom prism_top then
    return PNum.nan
  let b_en ← _calculate_component easting northing upward
    prism_west prism_east prism_south prism_north prism_bottom prism_top
    magnetization_east magnetization_north magnetization_up kernel_een kernel_enn kernel_enu
  return (← (← VACUUM_MAGNETIC_PERMEABILITY /! 4) /! PNum.pi) * b_en

/-- `/repo/src/choclo/prism/_magnetic.py:1408-1539` `magnetic_eu`. -/
noncomputable def magnetic_eu
    (easting northing upward prism_west prism_east prism_south prism_north prism_bottom prism_top
      magnetization_east magnetization_north magnetization_up : PNum A) : PyX (PNum A) := do
  if is_point_on_edge easting northing upward
      prism_west prism_east prism_south prism_north prism_bottom prism_top
    || is_interior_point easting northing upward
      prism_west prism_east prism_south prism_north prism_bottom prism_top then
    return PNum.nan
  let b_eu ← _calculate_component easting northing upward
    prism_west prism_east prism_south prism_north prism_bottom prism_top
    magnetization_east magnetization_north magnetization_up kernel_eeu kernel_enu kernel_euu
  return (← (← VACUUM_MAGNETIC_PERMEABILITY /! 4) /! PNum.pi) * b_eu

/-- `/repo/src/choclo/prism/_magnetic.py:1543-1674` `magnetic_nu`. -/
noncomputable def magnetic_nu
    (easting northing upward prism_west prism_east prism_south prism_north prism_bottom prism_top
      magnetization_east magnetization_north magnetization_up : PNum A) : PyX (PNum A) := do
  if is_point_on_edge easting northing upward
      prism_west prism_east prism_south prism_north prism_bottom prism_top
    || is_interior_point easting northing upward
      prism_west prism_east prism_south prism_north prism_bottom prism_top then
    return PNum.nan
  let b_nu ← _calculate_component easting northing upward
    prism_west prism_east prism_south prism_north prism_bottom prism_top
    magnetization_east magnetization_north magnetization_up kernel_enu kernel_nnu kernel_nuu
  return (← (← VACUUM_MAGNETIC_PERMEABILITY /! 4) /! PNum.pi) * b_nu

end Choclo.Python.prism
