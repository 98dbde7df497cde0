import Verif.Spec.Basic
import Mathlib.Tactic.Ring

/-! # Unrolling the vertex loops (valid in every arithmetic) -/

namespace Choclo.prism

variable {A : Arith}

/-- radius at a shifted vertex, as the loops compute it -/
noncomputable def vrad (x y z : Fl A) : Fl A := Fl.sqrt (x ^ 2 + y ^ 2 + z ^ 2)

/-- the kernel at a shifted vertex -/
noncomputable def vker (K : Kernel A) (x y z : Fl A) : Py (Fl A) := K x y z (vrad x y z)

/-- `(-1) ** m` as a float -/
def sgn (m : ℕ) : Fl A := (((-1 : ℤ) ^ m : ℤ) : Fl A)

theorem evaluate_kernel_unroll (e n u w E s N b t : Fl A) (K : Kernel A) :
    _evaluate_kernel e n u w E s N b t K = do
      let k1 ← vker K (E - e) (N - n) (t - u)
      let k2 ← vker K (E - e) (N - n) (b - u)
      let k3 ← vker K (E - e) (s - n) (t - u)
      let k4 ← vker K (E - e) (s - n) (b - u)
      let k5 ← vker K (w - e) (N - n) (t - u)
      let k6 ← vker K (w - e) (N - n) (b - u)
      let k7 ← vker K (w - e) (s - n) (t - u)
      let k8 ← vker K (w - e) (s - n) (b - u)
      return 0 + sgn 0 * k1 + sgn 1 * k2 + sgn 1 * k3 + sgn 2 * k4
        + sgn 1 * k5 + sgn 2 * k6 + sgn 2 * k7 + sgn 3 * k8 := by
  simp [_evaluate_kernel, vker, vrad, sgn]

theorem calculate_component_unroll (e n u w E s N b t Me Mn Mu : Fl A) (K1 K2 K3 : Kernel A) :
    _calculate_component e n u w E s N b t Me Mn Mu K1 K2 K3 = do
      let k11 ← vker K1 (E - e) (N - n) (t - u)
      let k12 ← vker K2 (E - e) (N - n) (t - u)
      let k13 ← vker K3 (E - e) (N - n) (t - u)
      let k21 ← vker K1 (E - e) (N - n) (b - u)
      let k22 ← vker K2 (E - e) (N - n) (b - u)
      let k23 ← vker K3 (E - e) (N - n) (b - u)
      let k31 ← vker K1 (E - e) (s - n) (t - u)
      let k32 ← vker K2 (E - e) (s - n) (t - u)
      let k33 ← vker K3 (E - e) (s - n) (t - u)
      let k41 ← vker K1 (E - e) (s - n) (b - u)
      let k42 ← vker K2 (E - e) (s - n) (b - u)
      let k43 ← vker K3 (E - e) (s - n) (b - u)
      let k51 ← vker K1 (w - e) (N - n) (t - u)
      let k52 ← vker K2 (w - e) (N - n) (t - u)
      let k53 ← vker K3 (w - e) (N - n) (t - u)
      let k61 ← vker K1 (w - e) (N - n) (b - u)
      let k62 ← vker K2 (w - e) (N - n) (b - u)
      let k63 ← vker K3 (w - e) (N - n) (b - u)
      let k71 ← vker K1 (w - e) (s - n) (t - u)
      let k72 ← vker K2 (w - e) (s - n) (t - u)
      let k73 ← vker K3 (w - e) (s - n) (t - u)
      let k81 ← vker K1 (w - e) (s - n) (b - u)
      let k82 ← vker K2 (w - e) (s - n) (b - u)
      let k83 ← vker K3 (w - e) (s - n) (b - u)
      return 0 + sgn 0 * (Me * k11 + Mn * k12 + Mu * k13)
         + sgn 1 * (Me * k21 + Mn * k22 + Mu * k23)
         + sgn 1 * (Me * k31 + Mn * k32 + Mu * k33)
         + sgn 2 * (Me * k41 + Mn * k42 + Mu * k43)
         + sgn 1 * (Me * k51 + Mn * k52 + Mu * k53)
         + sgn 2 * (Me * k61 + Mn * k62 + Mu * k63)
         + sgn 2 * (Me * k71 + Mn * k72 + Mu * k73)
         + sgn 3 * (Me * k81 + Mn * k82 + Mu * k83) := by
  simp [_calculate_component, vker, vrad, sgn]

/-- one vertex of the loop of `magnetic_field` -/
noncomputable def fieldStep (m : ℕ) (x y z Me Mn Mu : Fl A) (acc : Fl A × Fl A × Fl A) :
    Py (Fl A × Fl A × Fl A) := do
  let k_ee ← vker kernel_ee x y z
  let k_nn ← vker kernel_nn x y z
  let k_uu ← vker kernel_uu x y z
  let k_en ← vker kernel_en x y z
  let k_eu ← vker kernel_eu x y z
  let k_nu ← vker kernel_nu x y z
  return (acc.1 + sgn m * (Me * k_ee + Mn * k_en + Mu * k_eu),
    acc.2.1 + sgn m * (Me * k_en + Mn * k_nn + Mu * k_nu),
    acc.2.2 + sgn m * (Me * k_eu + Mn * k_nu + Mu * k_uu))

/-- the end of `magnetic_field`, after the loop -/
noncomputable def fieldTail (e n u w E s N b t Me Mn Mu : Fl A) (acc : Fl A × Fl A × Fl A) :
    Py (Fl A × Fl A × Fl A) := do
  let b_e := if is_point_on_east_face e n u w E s N b t = true then acc.1 + 4 * Fl.pi * Me else acc.1
  let b_n := if is_point_on_north_face e n u w E s N b t = true then acc.2.1 + 4 * Fl.pi * Mn else acc.2.1
  let b_u := if is_point_on_top_face e n u w E s N b t = true then acc.2.2 + 4 * Fl.pi * Mu else acc.2.2
  let c_m ← (← VACUUM_MAGNETIC_PERMEABILITY /. 4) /. Fl.pi
  return (b_e * c_m, b_n * c_m, b_u * c_m)

/-- the loop of `magnetic_field` -/
noncomputable def fieldLoop (e n u w E s N b t Me Mn Mu : Fl A) : Py (Fl A × Fl A × Fl A) := do
  let mut b_e : Fl A := 0
  let mut b_n : Fl A := 0
  let mut b_u : Fl A := 0
  for i in [0, 1] do
    let shift_east := if i = 0 then E - e else w - e
    let shift_east_sq := shift_east ^ 2
    for j in [0, 1] do
      let shift_north := if j = 0 then N - n else s - n
      let shift_north_sq := shift_north ^ 2
      for k in [0, 1] do
        let shift_upward := if k = 0 then t - u else b - u
        let shift_upward_sq := shift_upward ^ 2
        let radius := Fl.sqrt (shift_east_sq + shift_north_sq + shift_upward_sq)
        let k_ee ← kernel_ee shift_east shift_north shift_upward radius
        let k_nn ← kernel_nn shift_east shift_north shift_upward radius
        let k_uu ← kernel_uu shift_east shift_north shift_upward radius
        let k_en ← kernel_en shift_east shift_north shift_upward radius
        let k_eu ← kernel_eu shift_east shift_north shift_upward radius
        let k_nu ← kernel_nu shift_east shift_north shift_upward radius
        let sign := ((((-1 : ℤ) ^ (i + j + k : ℕ)) : ℤ) : Fl A)
        b_e := b_e + sign
          * (Me * k_ee + Mn * k_en + Mu * k_eu)
        b_n := b_n + sign
          * (Me * k_en + Mn * k_nn + Mu * k_nu)
        b_u := b_u + sign
          * (Me * k_eu + Mn * k_nu + Mu * k_uu)
  return (b_e, b_n, b_u)

theorem fieldLoop_unroll (e n u w E s N b t Me Mn Mu : Fl A) :
    fieldLoop e n u w E s N b t Me Mn Mu = (do
      let acc ← fieldStep 0 (E - e) (N - n) (t - u) Me Mn Mu (0, 0, 0)
      let acc ← fieldStep 1 (E - e) (N - n) (b - u) Me Mn Mu acc
      let acc ← fieldStep 1 (E - e) (s - n) (t - u) Me Mn Mu acc
      let acc ← fieldStep 2 (E - e) (s - n) (b - u) Me Mn Mu acc
      let acc ← fieldStep 1 (w - e) (N - n) (t - u) Me Mn Mu acc
      let acc ← fieldStep 2 (w - e) (N - n) (b - u) Me Mn Mu acc
      let acc ← fieldStep 2 (w - e) (s - n) (t - u) Me Mn Mu acc
      let acc ← fieldStep 3 (w - e) (s - n) (b - u) Me Mn Mu acc
      return acc) := by
  unfold fieldLoop
  simp only [List.forIn_cons, List.forIn_nil, fieldStep, vker, vrad, sgn, bind_assoc, pure_bind,
      if_true, one_ne_zero, if_false, Nat.reduceAdd]

theorem magnetic_field_unroll (e n u w E s N b t Me Mn Mu : Fl A) :
    magnetic_field e n u w E s N b t Me Mn Mu =
    if (is_point_on_edge e n u w E s N b t || is_interior_point e n u w E s N b t) = true then
      .ok (Fl.nan, Fl.nan, Fl.nan)
    else fieldLoop e n u w E s N b t Me Mn Mu >>= fieldTail e n u w E s N b t Me Mn Mu := by
  unfold magnetic_field
  split
  · rfl
  · unfold fieldLoop fieldTail
    simp only [bind_assoc, pure_bind]
    refine bind_congr fun r => ?_
    split <;> split <;> split <;> rfl

end Choclo.prism
