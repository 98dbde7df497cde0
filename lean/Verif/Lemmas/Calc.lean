import Verif.Lemmas.Vc2
import Verif.Lemmas.PointEval
import Mathlib.Analysis.Calculus.FDeriv.Extend
import Mathlib.Analysis.SpecialFunctions.Log.Deriv
import Mathlib.Analysis.SpecialFunctions.Trigonometric.ArctanDeriv
import Mathlib.Analysis.Calculus.Deriv.Abs

/-! # Derivatives of the prism kernels -/

namespace Choclo

open Real Filter Topology

theorem continuous_rad : Continuous fun v : ℝ × ℝ × ℝ => rad v.1 v.2.1 v.2.2 := by
  unfold rad; fun_prop

@[fun_prop]
theorem Continuous.rad {X : Type*} [TopologicalSpace X] {f g h : X → ℝ} (hf : Continuous f)
    (hg : Continuous g) (hh : Continuous h) : Continuous fun t => rad (f t) (g t) (h t) := by
  unfold Choclo.rad; fun_prop

@[fun_prop]
theorem ContinuousAt.rad {X : Type*} [TopologicalSpace X] {f g h : X → ℝ} {x : X}
    (hf : ContinuousAt f x) (hg : ContinuousAt g x) (hh : ContinuousAt h x) :
    ContinuousAt (fun t => rad (f t) (g t) (h t)) x := by
  unfold Choclo.rad; fun_prop

/-! ### the logarithm kernel -/

/-- along its own axis -/
theorem hasDerivAt_Lk1 {x y z : ℝ} (h : rad x y z ≠ 0) :
    HasDerivAt (fun t => Lk t y z) (1 / rad x y z) x := by
  by_cases h0 : y = 0 ∧ z = 0
  · obtain ⟨rfl, rfl⟩ := h0
    have hr : rad x 0 0 = |x| := by
      unfold rad; rw [← Real.sqrt_sq_eq_abs]; congr 1; ring
    have hx : x ≠ 0 := by rintro rfl; apply h; rw [hr]; simp
    rcases lt_or_gt_of_ne hx with hx | hx
    · have h1 : HasDerivAt (fun t : ℝ => -Real.log (-2 * t)) (-((-2) / (-2 * x))) x := by
        have := ((hasDerivAt_id x).const_mul (-2 : ℝ)).log (by simpa using hx.ne)
        simp only [id, mul_one] at this
        exact this.neg
      refine (h1.congr_deriv ?_).congr_of_eventuallyEq ?_
      · rw [hr, abs_of_neg hx]; have := hx.ne; field_simp
      · filter_upwards [eventually_lt_nhds hx] with t ht
        exact Lk_axis_neg ht
    · have h1 : HasDerivAt (fun t : ℝ => Real.log (2 * t)) (2 / (2 * x)) x := by
        have := ((hasDerivAt_id x).const_mul (2 : ℝ)).log (by simpa using hx.ne')
        simpa using this
      refine (h1.congr_deriv ?_).congr_of_eventuallyEq ?_
      · rw [hr, abs_of_pos hx]; have := hx.ne'; field_simp
      · filter_upwards [eventually_gt_nhds hx] with t ht
        exact Lk_axis_nonneg ht.le
  · have h1 := ((hasDerivAt_id x).add (hasDerivAt_rad1 h)).log (add_rad_pos h0).ne'
    refine (h1.congr_deriv ?_).congr_of_eventuallyEq (Eventually.of_forall fun t => ?_)
    · have := (add_rad_pos (x := x) h0).ne'
      simp only [Pi.add_apply, id]
      field_simp
      rw [add_comm]
    · exact Lk_eq_log h0

/-- across the axis -/
theorem hasDerivAt_Lk2 {x y z : ℝ} (h : ¬(y = 0 ∧ z = 0)) :
    HasDerivAt (fun t => Lk x t z) (y / (rad x y z * (x + rad x y z))) y := by
  have hr : rad x y z ≠ 0 := by rw [Ne, rad_eq_zero]; tauto
  have h1 := ((hasDerivAt_rad2 hr).const_add x).log (add_rad_pos h).ne'
  refine (h1.congr_deriv ?_).congr_of_eventuallyEq ?_
  · rw [div_div]
  · have : ∀ᶠ t in 𝓝 y, ¬(t = 0 ∧ z = 0) := by
      by_cases hy : y = 0
      · exact Eventually.of_forall fun t ht => h ⟨hy, ht.2⟩
      · filter_upwards [eventually_ne_nhds hy] with t ht hc
        exact ht hc.1
    filter_upwards [this] with t ht
    exact Lk_eq_log ht

theorem hasDerivAt_Lk3 {x y z : ℝ} (h : ¬(y = 0 ∧ z = 0)) :
    HasDerivAt (fun t => Lk x y t) (z / (rad x y z * (x + rad x y z))) z := by
  have := hasDerivAt_Lk2 (x := x) (y := z) (z := y) (by tauto)
  rw [rad_perm2 x y z] at this
  simpa only [Lk_symm] using this

/-- the reciprocal appearing in the transverse derivative -/
theorem inv_add_rad {x y z : ℝ} (h : ¬(y = 0 ∧ z = 0)) :
    y / (rad x y z * (x + rad x y z)) = y * (rad x y z - x) / (rad x y z * (y ^ 2 + z ^ 2)) := by
  have h1 := (add_rad_pos (x := x) h).ne'
  have h2 := (sq_add_sq_pos h).ne'
  have h3 : rad x y z ≠ 0 := by rw [Ne, rad_eq_zero]; tauto
  have := rad_sq x y z
  field_simp
  linear_combination -y * this

/-! ### the arctangent kernel -/

theorem hasDerivAt_Tk1 {x : ℝ} (y z : ℝ) (hx : x ≠ 0) :
    HasDerivAt (fun t => Tk t y z)
      (-(y * z * (2 * x ^ 2 + y ^ 2 + z ^ 2)) / (rad x y z * (x ^ 2 + y ^ 2) * (x ^ 2 + z ^ 2))) x := by
  have hr : rad x y z ≠ 0 := by rw [Ne, rad_eq_zero]; tauto
  have h1 := ((hasDerivAt_const x (y * z)).div ((hasDerivAt_id x).mul (hasDerivAt_rad1 hr))
    (mul_ne_zero hx hr)).arctan
  refine (h1.congr_deriv ?_).congr_of_eventuallyEq ?_
  · simp only [Pi.mul_apply, Pi.div_apply, id]
    have e1 : x ^ 2 + y ^ 2 ≠ 0 := by positivity
    have e2 : x ^ 2 + z ^ 2 ≠ 0 := by positivity
    have e3 : 1 + (y * z / (x * rad x y z)) ^ 2 = (x ^ 2 + y ^ 2) * (x ^ 2 + z ^ 2) / (x * rad x y z) ^ 2 := by
      field_simp
      have := rad_sq x y z
      rw [this]; ring
    rw [e3]
    have := rad_sq x y z
    field_simp
    simp only [this]
    ring
  · filter_upwards [eventually_ne_nhds hx] with t ht
    simp only [Tk, if_neg ht]; rfl

theorem hasDerivAt_Tk2 {x : ℝ} (y z : ℝ) (hx : x ≠ 0) :
    HasDerivAt (fun t => Tk x t z) (x * z / (rad x y z * (x ^ 2 + y ^ 2))) y := by
  have hr : rad x y z ≠ 0 := by rw [Ne, rad_eq_zero]; tauto
  have h1 := (((hasDerivAt_id y).mul_const z).div ((hasDerivAt_rad2 hr).const_mul x)
    (mul_ne_zero hx hr)).arctan
  refine (h1.congr_deriv ?_).congr_of_eventuallyEq (Eventually.of_forall fun t => ?_)
  · simp only [Pi.div_apply, id]
    have e1 : x ^ 2 + y ^ 2 ≠ 0 := by positivity
    have e2 : x ^ 2 + z ^ 2 ≠ 0 := by positivity
    have e3 : 1 + (y * z / (x * rad x y z)) ^ 2 = (x ^ 2 + y ^ 2) * (x ^ 2 + z ^ 2) / (x * rad x y z) ^ 2 := by
      field_simp
      have := rad_sq x y z
      rw [this]; ring
    rw [e3]
    have := rad_sq x y z
    field_simp
    simp only [this]
    ring
  · simp only [Tk, if_neg hx]; rfl

theorem hasDerivAt_Tk3 {x : ℝ} (y z : ℝ) (hx : x ≠ 0) :
    HasDerivAt (fun t => Tk x y t) (x * y / (rad x y z * (x ^ 2 + z ^ 2))) z := by
  have := hasDerivAt_Tk2 z y hx
  rw [rad_perm2 x y z] at this
  simpa only [Tk_symm] using this

theorem abs_Tk_le (x y z : ℝ) : |Tk x y z| ≤ π / 2 := by
  unfold Tk
  have := Real.pi_pos
  split_ifs
  · rw [abs_of_pos (by positivity)]
  · rw [neg_div, abs_neg, abs_of_pos (by positivity)]
  · simp; positivity
  · exact (abs_le.mpr ⟨(Real.neg_pi_div_two_lt_arctan _).le, (Real.arctan_lt_pi_div_two _).le⟩)

/-! ### the regularised first-order kernel -/

/-- first-order kernel with the regular part of the arctangent -/
noncomputable def Gk (x y z : ℝ) : ℝ := y * Lk z x y + z * Lk y x z - x * Sk x y z

theorem Fk_eq (x y z : ℝ) : Fk x y z = Gk x y z - π / 2 * (|x| * (Real.sign y * Real.sign z)) := by
  unfold Fk Gk
  rw [Tk_eq]
  have : x * sg x = |x| := by
    unfold sg; split_ifs with h
    · rw [abs_of_neg h]; ring
    · rw [abs_of_nonneg (not_lt.mp h)]; ring
  rw [← this]; ring

theorem abs_Sk_le (x y z : ℝ) : |Sk x y z| ≤ π / 2 := by
  unfold Sk
  rw [abs_neg]
  exact (abs_le.mpr ⟨(Real.neg_pi_div_two_lt_arctan _).le, (Real.arctan_lt_pi_div_two _).le⟩)

/-- `Sk` is continuous along its own axis -/
theorem continuous_Sk1 (y z : ℝ) : Continuous fun t => Sk t y z := by
  unfold Sk; fun_prop

theorem continuousAt_Lk2 {x y z : ℝ} (h : ¬(y = 0 ∧ z = 0)) : ContinuousAt (fun t => Lk x t z) y :=
  (hasDerivAt_Lk2 h).continuousAt

/-- `y * Lk z x y` is continuous in `x` -/
theorem continuous_mul_Lk2 (y z : ℝ) : Continuous fun t => y * Lk z t y := by
  by_cases hy : y = 0
  · simp only [hy, zero_mul]; exact continuous_const
  · rw [continuous_iff_continuousAt]
    intro x
    exact (continuousAt_Lk2 (by tauto)).const_mul y

theorem continuous_Gk1 (y z : ℝ) : Continuous fun t => Gk t y z := by
  unfold Gk
  have h1 := continuous_mul_Lk2 y z
  have h2 := continuous_mul_Lk2 z y
  have h3 := continuous_Sk1 y z
  fun_prop

theorem continuous_Fk1 (y z : ℝ) : Continuous fun t => Fk t y z := by
  have := continuous_Gk1 y z
  simp only [Fk_eq]
  fun_prop

/-- the part of the derivative of `Fk` that cancels in the alternating sum -/
noncomputable def ex2 (x y : ℝ) : ℝ := x * y / (x ^ 2 + y ^ 2)

theorem continuous_ex2 (y : ℝ) : Continuous fun t => ex2 t y := by
  unfold ex2
  by_cases hy : y = 0
  · simp only [hy, mul_zero, zero_div]; exact continuous_const
  · have : ∀ t : ℝ, t ^ 2 + y ^ 2 ≠ 0 := fun t => by positivity
    fun_prop (disch := exact this _)

theorem hasDerivAt_Fk1 {x : ℝ} (y z : ℝ) (hx : x ≠ 0) :
    HasDerivAt (fun t => Fk t y z) (-Tk x y z + ex2 x y + ex2 x z) x := by
  have h1 := (hasDerivAt_Lk2 (x := z) (y := x) (z := y) (by tauto)).const_mul y
  have h2 := (hasDerivAt_Lk2 (x := y) (y := x) (z := z) (by tauto)).const_mul z
  have h3 := (hasDerivAt_id x).mul (hasDerivAt_Tk1 y z hx)
  refine ((h1.add h2).sub h3).congr_deriv ?_
  rw [inv_add_rad (by tauto), inv_add_rad (by tauto)]
  have hr : rad x y z ≠ 0 := by rw [Ne, rad_eq_zero]; tauto
  have e1 : x ^ 2 + y ^ 2 ≠ 0 := by positivity
  have e2 : x ^ 2 + z ^ 2 ≠ 0 := by positivity
  rw [rad_perm4 x y z, rad_perm1 x y z]
  simp only [id, ex2]
  field_simp
  ring

theorem hasDerivAt_Gk1 (x y z : ℝ) :
    HasDerivAt (fun t => Gk t y z) (-Sk x y z + ex2 x y + ex2 x z) x := by
  have := continuous_Sk1 y z
  have h1 := continuous_ex2 y
  have h2 := continuous_ex2 z
  refine hasDerivAt_of_hasDerivAt_of_ne' (x := 0) (g := fun x => -Sk x y z + ex2 x y + ex2 x z)
    ?_ (continuous_Gk1 y z).continuousAt ?_ x
  · intro x hx
    have h := (hasDerivAt_Fk1 y z hx).add
      ((((hasDerivAt_abs hx).mul_const (Real.sign y * Real.sign z))).const_mul (π / 2))
    refine (h.congr_deriv ?_).congr_of_eventuallyEq (Eventually.of_forall fun t => ?_)
    · rw [Tk_eq]
      have : (SignType.sign x : ℝ) = sg x := by
        unfold sg
        rcases lt_or_gt_of_ne hx with h | h
        · simp [h]
        · simp [h, h.le]
      rw [this]; ring
    · simp only [Pi.add_apply, Fk_eq]; ring
  · fun_prop

/-- across: mixed derivative -/
theorem hasDerivAt_Fk2 {x y : ℝ} (z : ℝ) (h : ¬(x = 0 ∧ y = 0)) :
    HasDerivAt (fun t => Fk x t z) (Lk z x y + y ^ 2 / (x ^ 2 + y ^ 2)) y := by
  have hr : rad x y z ≠ 0 := by rw [Ne, rad_eq_zero]; tauto
  have h1 := (hasDerivAt_id y).mul (hasDerivAt_Lk3 (x := z) (y := x) (z := y) h)
  have h2 := (hasDerivAt_Lk1 (x := y) (y := x) (z := z) (by rwa [rad_perm1])).const_mul z
  have e1 := (sq_add_sq_pos h).ne'
  have e3 : y / (rad z x y * (z + rad z x y)) = y * (rad x y z - z) / (rad x y z * (x ^ 2 + y ^ 2)) := by
    have := inv_add_rad (x := z) (y := y) (z := x) (by tauto)
    rw [rad_perm2 z x y, rad_perm4 x y z] at this
    rw [rad_perm4 x y z, this, add_comm (y ^ 2)]
  by_cases hx : x = 0
  · subst hx
    refine ((h1.add h2).congr_deriv ?_).congr_of_eventuallyEq (Eventually.of_forall fun t => ?_)
    · rw [rad_perm1 0 y z, e3]
      simp only [id]
      have hy : y ≠ 0 := by tauto
      field_simp
      ring
    · simp only [Fk, zero_mul, sub_zero]; rfl
  · have h3 := (hasDerivAt_Tk2 y z hx).const_mul x
    refine ((h1.add h2).sub h3).congr_deriv ?_
    rw [rad_perm1 x y z, e3]
    simp only [id]
    field_simp
    ring

/-- the mixed derivative of the difference along the third axis, also on the line through the
vertices provided these are on the same side -/
theorem hasDerivAt_Fk2_diff {x y z1 z2 : ℝ}
    (h : (x = 0 ∧ y = 0) → (0 < z1 ∧ 0 < z2) ∨ (z1 < 0 ∧ z2 < 0)) :
    HasDerivAt (fun t => Fk x t z2 - Fk x t z1) (Lk z2 x y - Lk z1 x y) y := by
  by_cases h0 : x = 0 ∧ y = 0
  · obtain ⟨rfl, rfl⟩ := h0
    have key : ∀ z : ℝ, z ≠ 0 → HasDerivAt (fun t => t * Qk z 0 t + z * Lk t 0 z)
        (Qk z 0 0 + z / |z|) 0 := by
      intro z hz
      have hr0 : rad 0 0 z = |z| := by
        unfold rad; rw [← Real.sqrt_sq_eq_abs]; congr 1; ring
      have hr : rad 0 0 z ≠ 0 := by rw [hr0]; simpa using hz
      have hr' : rad z 0 0 ≠ 0 := by rw [Ne, rad_eq_zero]; tauto
      have h2 := (hasDerivAt_Lk1 (x := 0) (y := 0) (z := z) hr).const_mul z
      have h3 := hasDerivAt_rad3 hr'
      rw [zero_div] at h3
      have hz0 : rad z 0 0 = |z| := by rw [← hr0, rad_perm4 0 0 z]
      have h1 : HasDerivAt (fun t => Qk z 0 t) 0 0 := by
        unfold Qk
        rcases lt_or_gt_of_ne hz with h | h
        · simp only [if_pos h]
          have := (h3.sub_const z).log (by rw [hz0, abs_of_neg h]; linarith)
          rw [zero_div] at this
          have := this.neg
          rw [neg_zero] at this
          exact this
        · simp only [if_neg h.le.not_gt]
          have := (h3.add_const z).log (by rw [hz0, abs_of_pos h]; linarith)
          rw [zero_div] at this
          exact this
      have h4 := ((hasDerivAt_id (0 : ℝ)).mul h1).add h2
      refine h4.congr_deriv ?_
      rw [hr0]; simp only [id]; ring
    have hz := h ⟨rfl, rfl⟩
    have hz1 : z1 ≠ 0 := by rcases hz with h | h <;> grind
    have hz2 : z2 ≠ 0 := by rcases hz with h | h <;> grind
    have := (key z2 hz2).sub (key z1 hz1)
    refine (this.congr_deriv ?_).congr_of_eventuallyEq (Eventually.of_forall fun t => ?_)
    · rw [Lk_eq, Lk_eq]
      rcases hz with h | h
      · rw [if_neg h.1.le.not_gt, if_neg h.2.le.not_gt, abs_of_pos h.1, abs_of_pos h.2]; field_simp; ring
      · rw [if_pos h.1, if_pos h.2, abs_of_neg h.1, abs_of_neg h.2]; field_simp; ring
    · simp only [Fk, Lk_eq z2 0 t, Lk_eq z1 0 t, Pi.sub_apply]
      rcases hz with h | h
      · rw [if_neg h.1.le.not_gt, if_neg h.2.le.not_gt]; ring
      · rw [if_pos h.1, if_pos h.2]; ring
  · refine ((hasDerivAt_Fk2 z2 h0).sub (hasDerivAt_Fk2 z1 h0)).congr_deriv ?_
    ring

/-! ### the potential kernel -/

theorem continuousAt_mul_Tk (x y z : ℝ) : ContinuousAt (fun t => t ^ 2 * Tk t y z) x := by
  have h := continuous_Fk1 y z
  have h1 := continuous_mul_Lk2 y z
  have h2 := continuous_mul_Lk2 z y
  have : (fun t => t ^ 2 * Tk t y z) = fun t => t * (y * Lk z t y + z * Lk y t z - Fk t y z) := by
    funext t; unfold Fk; ring
  rw [this]
  fun_prop

theorem continuous_sq_Tk1 (y z : ℝ) : Continuous fun t => t ^ 2 * Tk t y z :=
  continuous_iff_continuousAt.mpr fun x => continuousAt_mul_Tk x y z

theorem continuous_sq_Tk2 (x z : ℝ) : Continuous fun t => x ^ 2 * Tk x t z := by
  by_cases hx : x = 0
  · simp only [hx, ne_eq, OfNat.ofNat_ne_zero, not_false_eq_true, zero_pow, zero_mul]; exact continuous_const
  · exact continuous_iff_continuousAt.mpr fun y => (hasDerivAt_Tk2 y z hx).continuousAt.const_mul _

theorem continuous_mul_Lk1 (y z : ℝ) : Continuous fun t => y * z * Lk t y z := by
  by_cases h : y = 0 ∧ z = 0
  · simp only [h, zero_mul]; exact continuous_const
  · refine continuous_iff_continuousAt.mpr fun x => (hasDerivAt_Lk1 ?_).continuousAt.const_mul _
    rw [Ne, rad_eq_zero]; tauto

theorem continuous_Pk1 (y z : ℝ) : Continuous fun t => Pk t y z := by
  have h1 := continuous_mul_Lk2 y z
  have h2 := continuous_mul_Lk1 y z
  have h3 := continuous_mul_Lk2 z y
  have h4 := continuous_sq_Tk1 z y
  have h5 := continuous_sq_Tk2 y z
  have h6 := continuous_sq_Tk2 z y
  have : (fun t => Pk t y z) = fun t => t * (y * Lk z t y) + y * z * Lk t y z + t * (z * Lk y t z)
      - 1 / 2 * (t ^ 2 * Tk t z y) - 1 / 2 * (y ^ 2 * Tk y t z) - 1 / 2 * (z ^ 2 * Tk z t y) := by
    funext t; unfold Pk; rw [Lk_symm y t z, Tk_symm y t z]; ring
  rw [this]
  fun_prop

theorem hasDerivAt_Pk1 {x : ℝ} (y z : ℝ) (hx : x ≠ 0) :
    HasDerivAt (fun t => Pk t y z) (Fk x y z + x * ex2 x y + x * ex2 x z) x := by
  have hr : rad x y z ≠ 0 := by rw [Ne, rad_eq_zero]; tauto
  have h1 := ((hasDerivAt_id x).mul_const y).mul (hasDerivAt_Lk2 (x := z) (y := x) (z := y) (by tauto))
  have h2 := (hasDerivAt_Lk1 hr).const_mul (y * z)
  have h3 := ((hasDerivAt_id x).mul_const z).mul (hasDerivAt_Lk2 (x := y) (y := x) (z := z) (by tauto))
  have h4 := ((hasDerivAt_id x).pow 2).mul (hasDerivAt_Tk1 y z hx)
  have h5 : HasDerivAt (fun t => y ^ 2 * Tk y t z) (y ^ 3 * z / (rad x y z * (x ^ 2 + y ^ 2))) x := by
    by_cases hy : y = 0
    · subst hy; simpa using hasDerivAt_const x (0 : ℝ)
    · refine ((hasDerivAt_Tk2 x z hy).const_mul (y ^ 2)).congr_deriv ?_
      rw [rad_perm1 x y z, add_comm (y ^ 2)]; ring
  have h6 : HasDerivAt (fun t => z ^ 2 * Tk z t y) (z ^ 3 * y / (rad x y z * (x ^ 2 + z ^ 2))) x := by
    by_cases hz : z = 0
    · subst hz; simpa using hasDerivAt_const x (0 : ℝ)
    · refine ((hasDerivAt_Tk2 x y hz).const_mul (z ^ 2)).congr_deriv ?_
      rw [rad_perm4 x y z, add_comm (z ^ 2)]; ring
  have h := ((((h1.add h2).add h3).sub (h4.const_mul (1 / 2))).sub (h5.const_mul (1 / 2))).sub
    (h6.const_mul (1 / 2))
  refine (h.congr_deriv ?_).congr_of_eventuallyEq (Eventually.of_forall fun t => ?_)
  · rw [inv_add_rad (by tauto), inv_add_rad (by tauto), rad_perm4 x y z, rad_perm1 x y z]
    have e1 : x ^ 2 + y ^ 2 ≠ 0 := by positivity
    have e2 : x ^ 2 + z ^ 2 ≠ 0 := by positivity
    simp only [id, ex2, Fk, Pi.pow_apply]
    field_simp
    have := rad_sq x y z
    generalize rad x y z = r at *
    generalize Lk z x y = a
    generalize Lk y x z = b
    generalize Tk x y z = c
    ring
  · simp only [Pk, id, Pi.sub_apply, Pi.add_apply, Pi.mul_apply, Pi.pow_apply]
    rw [Lk_symm y t z, Tk_symm y t z, Tk_symm t y z]; ring

/-- second difference of the potential kernel: differentiable everywhere -/
theorem hasDerivAt_Pk1_diff (x y1 y2 z1 z2 : ℝ) :
    HasDerivAt (fun t => (Pk t y2 z2 - Pk t y2 z1) - (Pk t y1 z2 - Pk t y1 z1))
      ((Fk x y2 z2 - Fk x y2 z1) - (Fk x y1 z2 - Fk x y1 z1)) x := by
  have c := fun y z => continuous_Pk1 y z
  have d := fun y z => continuous_Fk1 y z
  refine hasDerivAt_of_hasDerivAt_of_ne' (x := 0)
    (g := fun x => (Fk x y2 z2 - Fk x y2 z1) - (Fk x y1 z2 - Fk x y1 z1))
    ?_ (Continuous.continuousAt (by fun_prop)) (Continuous.continuousAt (by fun_prop)) x
  intro x hx
  have h := fun y z => hasDerivAt_Pk1 y z hx
  refine (((h y2 z2).sub (h y2 z1)).sub ((h y1 z2).sub (h y1 z1))).congr_deriv ?_
  ring

end Choclo
