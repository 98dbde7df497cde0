import Verif.Lemmas.Mutual
import Mathlib.Analysis.SpecialFunctions.PolarCoord
import Mathlib.MeasureTheory.Integral.DivergenceTheorem
import Mathlib.MeasureTheory.Measure.Lebesgue.EqHaar

/-! # The integral of 1/r over a ball -/

namespace Choclo

open Real Set MeasureTheory Filter Topology

theorem integral_r_div_sqrt {a : ℝ} (ha : 0 ≤ a) (h : ℝ) :
    ∫ r in (0)..a, r / √(h ^ 2 + r ^ 2) = √(h ^ 2 + a ^ 2) - |h| := by
  have hc : Continuous fun r : ℝ => √(h ^ 2 + r ^ 2) := by fun_prop
  have hd : ∀ x ∈ Ioo 0 a, HasDerivAt (fun r : ℝ => √(h ^ 2 + r ^ 2)) (x / √(h ^ 2 + x ^ 2)) x := by
    intro x hx
    have hx0 := hx.1
    have := ((hasDerivAt_pow 2 x).const_add (h ^ 2)).sqrt (by positivity)
    refine this.congr_deriv ?_
    push_cast
    rw [div_eq_div_iff (by positivity) (by positivity)]; ring
  have hi : IntervalIntegrable (fun x : ℝ => x / √(h ^ 2 + x ^ 2)) volume 0 a := by
    refine intervalIntegral.intervalIntegrable_deriv_of_nonneg hc.continuousOn ?_ ?_
    · rw [min_eq_left ha, max_eq_right ha]; exact hd
    · rw [min_eq_left ha, max_eq_right ha]
      intro x hx
      have := hx.1
      positivity
  rw [intervalIntegral.integral_eq_sub_of_hasDerivAt_of_le ha hc.continuousOn hd hi]
  simp [Real.sqrt_sq_eq_abs]

/-- a disc seen from a point on its axis -/
theorem integral_disc {a : ℝ} (ha : 0 ≤ a) (h : ℝ) :
    ∫ v : ℝ × ℝ, {v : ℝ × ℝ | v.1 ^ 2 + v.2 ^ 2 ≤ a ^ 2}.indicator (fun v => 1 / √(h ^ 2 + v.1 ^ 2 + v.2 ^ 2)) v =
      2 * π * (√(h ^ 2 + a ^ 2) - |h|) := by
  rw [← integral_comp_polarCoord_symm]
  have e : ∀ p ∈ polarCoord.target,
      p.1 • {v : ℝ × ℝ | v.1 ^ 2 + v.2 ^ 2 ≤ a ^ 2}.indicator (fun v => 1 / √(h ^ 2 + v.1 ^ 2 + v.2 ^ 2))
        (polarCoord.symm p) = (Ioc 0 a).indicator (fun r => r / √(h ^ 2 + r ^ 2)) p.1 * 1 := by
    rintro ⟨r, t⟩ ⟨hr, -⟩
    have hr0 : 0 < r := hr
    have s := Real.cos_sq_add_sin_sq t
    have e1 : (r * cos t) ^ 2 + (r * sin t) ^ 2 = r ^ 2 := by linear_combination r ^ 2 * s
    have e2 : h ^ 2 + (r * cos t) ^ 2 + (r * sin t) ^ 2 = h ^ 2 + r ^ 2 := by linear_combination e1
    rw [polarCoord_symm_apply]
    by_cases hra : r ≤ a
    · rw [indicator_of_mem, indicator_of_mem (show r ∈ Ioc 0 a from ⟨hr0, hra⟩)]
      · simp only [e2, smul_eq_mul, mul_one]; ring
      · show (r * cos t) ^ 2 + (r * sin t) ^ 2 ≤ a ^ 2
        rw [e1]; gcongr
    · rw [indicator_of_notMem, indicator_of_notMem (fun h' : r ∈ Ioc 0 a => hra h'.2)]
      · simp
      · show ¬ (r * cos t) ^ 2 + (r * sin t) ^ 2 ≤ a ^ 2
        rw [e1, not_le]
        exact pow_lt_pow_left₀ (not_le.mp hra) ha (by norm_num)
  rw [setIntegral_congr_fun polarCoord.open_target.measurableSet e]
  rw [polarCoord_target]
  have := setIntegral_prod_mul (μ := (volume : Measure ℝ)) (ν := (volume : Measure ℝ))
    ((Ioc 0 a).indicator (fun r : ℝ => r / √(h ^ 2 + r ^ 2))) (fun _ : ℝ => (1 : ℝ)) (Ioi 0) (Ioo (-π) π)
  rw [← Measure.volume_eq_prod] at this
  rw [this, setIntegral_indicator measurableSet_Ioc, show Ioi (0 : ℝ) ∩ Ioc 0 a = Ioc 0 a by
    ext x; simp only [mem_inter_iff, mem_Ioi, mem_Ioc]; tauto, ← intervalIntegral.integral_of_le ha,
    integral_r_div_sqrt ha h]
  simp only [integral_const, smul_eq_mul, mul_one]
  rw [measureReal_restrict_apply_univ, Real.volume_real_Ioo_of_le (by linarith [Real.pi_pos])]
  ring

/-- the ball about the origin -/
def ball0 (R : ℝ) : Set Pt := {q | q.e ^ 2 + q.n ^ 2 + q.u ^ 2 ≤ R ^ 2}

theorem isClosed_ball0 (R : ℝ) : IsClosed (ball0 R) := isClosed_le (by fun_prop) (by fun_prop)

theorem measurableSet_ball0 (R : ℝ) : MeasurableSet (ball0 R) := (isClosed_ball0 R).measurableSet

/-- a cube around it -/
def cube (R : ℝ) : Box := ⟨-R, R, -R, R, -R, R⟩

theorem cube_ordered {R : ℝ} (hR : 0 ≤ R) : (cube R).Ordered := ⟨by simp [cube]; linarith, by simp [cube]; linarith, by simp [cube]; linarith⟩

theorem ball0_subset_cube {R : ℝ} (hR : 0 ≤ R) : ball0 R ⊆ (cube R).region := by
  intro q hq
  have hq' : q.e ^ 2 + q.n ^ 2 + q.u ^ 2 ≤ R ^ 2 := hq
  have h1 := abs_le.mp (abs_le_of_sq_le_sq (by nlinarith [sq_nonneg q.n, sq_nonneg q.u]) hR : |q.e| ≤ R)
  have h2 := abs_le.mp (abs_le_of_sq_le_sq (by nlinarith [sq_nonneg q.e, sq_nonneg q.u]) hR : |q.n| ≤ R)
  have h3 := abs_le.mp (abs_le_of_sq_le_sq (by nlinarith [sq_nonneg q.n, sq_nonneg q.e]) hR : |q.u| ≤ R)
  exact ⟨h1, h2, h3⟩

theorem isCompact_ball0 {R : ℝ} (hR : 0 ≤ R) : IsCompact (ball0 R) :=
  (isCompact_region (cube R)).of_isClosed_subset (isClosed_ball0 R) (ball0_subset_cube hR)

theorem integrableOn_ball0_pot {R : ℝ} (hR : 0 ≤ R) (p : Pt) : IntegrableOn (kpp .pot p) (ball0 R) :=
  (integrableOn_pot p (cube R)).mono_set (ball0_subset_cube hR)

theorem hasDerivAt_mul_abs {x : ℝ} (hx : x ≠ 0) : HasDerivAt (fun x : ℝ => x * |x| / 2) |x| x := by
  rcases lt_or_gt_of_ne hx with h | h
  · have : HasDerivAt (fun x : ℝ => x * (-x) / 2) (-x) x := by
      refine (((hasDerivAt_id' x).mul (hasDerivAt_neg' x)).div_const 2).congr_deriv ?_
      ring
    rw [abs_of_neg h]
    refine this.congr_of_eventuallyEq ?_
    filter_upwards [gt_mem_nhds h] with y hy
    rw [abs_of_neg hy]
  · have : HasDerivAt (fun x : ℝ => x * x / 2) x x := by
      refine (((hasDerivAt_id x).mul (hasDerivAt_id x)).div_const 2).congr_deriv ?_
      simp only [id]; ring
    rw [abs_of_pos h]
    refine this.congr_of_eventuallyEq ?_
    filter_upwards [lt_mem_nhds h] with y hy
    rw [abs_of_pos hy]

theorem integral_abs_sub (d R : ℝ) :
    ∫ x in (-R)..R, |d - x| = ((R - d) * |R - d| + (R + d) * |R + d|) / 2 := by
  have h := integral_eq_of_hasDerivAt_off_countable (fun x : ℝ => (x - d) * |x - d| / 2) (fun x => |x - d|)
    (a := -R) (b := R) (countable_singleton d) (by fun_prop)
    (fun x hx => by
      have hx' : x - d ≠ 0 := sub_ne_zero.mpr hx.2
      exact (hasDerivAt_mul_abs hx').comp_sub_const x d)
    (Continuous.intervalIntegrable (by fun_prop) _ _)
  have e : ∀ x : ℝ, |d - x| = |x - d| := fun x => abs_sub_comm d x
  simp only [e]
  rw [h, show -R - d = -(R + d) by ring, abs_neg]; ring

theorem integral_sqrt_lin {d R : ℝ} (hd : 0 < d) (hR : 0 ≤ R) :
    ∫ x in (-R)..R, √(d ^ 2 + R ^ 2 - 2 * d * x) = ((d + R) ^ 3 - |d - R| ^ 3) / (3 * d) := by
  have hc : Continuous fun x : ℝ => -(√(d ^ 2 + R ^ 2 - 2 * d * x)) ^ 3 / (3 * d) := by fun_prop
  have h := intervalIntegral.integral_eq_sub_of_hasDerivAt_of_le (a := -R) (b := R) (by linarith) hc.continuousOn
    (f' := fun x => √(d ^ 2 + R ^ 2 - 2 * d * x)) (fun x hx => by
      have hpos : 0 < d ^ 2 + R ^ 2 - 2 * d * x := by nlinarith [sq_nonneg (d - R), hx.2]
      have h1 := ((((hasDerivAt_id x).const_mul (2 * d)).const_sub (d ^ 2 + R ^ 2)).sqrt hpos.ne').pow 3
      have h2 := (h1.neg).div_const (3 * d)
      refine h2.congr_deriv ?_
      simp only [id]
      have hs := Real.sqrt_pos.mpr hpos
      push_cast
      field_simp) (Continuous.intervalIntegrable (by fun_prop) _ _)
  rw [h, show d ^ 2 + R ^ 2 - 2 * d * R = (d - R) ^ 2 by ring, show d ^ 2 + R ^ 2 - 2 * d * -R = (d + R) ^ 2 by ring,
    Real.sqrt_sq_eq_abs, Real.sqrt_sq (by linarith)]
  ring

theorem kpp_axis (d : ℝ) (q : Pt) : kpp .pot (d, 0, 0) q = 1 / √((d - q.1) ^ 2 + q.2.1 ^ 2 + q.2.2 ^ 2) := by
  rw [kpp_pot]; unfold rad; simp only [Pt.e, Pt.n, Pt.u]; congr 2; ring

/-- slicing the ball perpendicular to the direction of the point -/
theorem integral_ball_slices (d : ℝ) {R : ℝ} (hR : 0 ≤ R) :
    ∫ q in ball0 R, kpp .pot (d, 0, 0) q = ∫ x in (-R)..R, 2 * π * (√(d ^ 2 + R ^ 2 - 2 * d * x) - |d - x|) := by
  have hi := (integrable_indicator_iff (measurableSet_ball0 R)).2 (integrableOn_ball0_pot hR (d, 0, 0))
  rw [← integral_indicator (measurableSet_ball0 R)]
  rw [Measure.volume_eq_prod] at hi ⊢
  rw [integral_prod _ hi, intervalIntegral.integral_of_le (by linarith), ← integral_Icc_eq_integral_Ioc,
    ← integral_indicator measurableSet_Icc]
  congr 1; funext x
  by_cases hx : x ∈ Icc (-R) R
  · rw [indicator_of_mem hx]
    have hx2 : 0 ≤ R ^ 2 - x ^ 2 := by nlinarith [hx.1, hx.2]
    have h := integral_disc (Real.sqrt_nonneg (R ^ 2 - x ^ 2)) (d - x)
    rw [Real.sq_sqrt hx2] at h
    rw [show d ^ 2 + R ^ 2 - 2 * d * x = (d - x) ^ 2 + (R ^ 2 - x ^ 2) by ring, ← h]
    congr 1; funext v
    have e : ((x, v) : Pt) ∈ ball0 R ↔ v ∈ {v : ℝ × ℝ | v.1 ^ 2 + v.2 ^ 2 ≤ R ^ 2 - x ^ 2} := by
      show x ^ 2 + v.1 ^ 2 + v.2 ^ 2 ≤ R ^ 2 ↔ v.1 ^ 2 + v.2 ^ 2 ≤ R ^ 2 - x ^ 2
      constructor <;> intro h <;> linarith
    by_cases hv : v ∈ {v : ℝ × ℝ | v.1 ^ 2 + v.2 ^ 2 ≤ R ^ 2 - x ^ 2}
    · rw [indicator_of_mem hv, indicator_of_mem (e.2 hv), kpp_axis]
    · rw [indicator_of_notMem hv, indicator_of_notMem (fun h => hv (e.1 h))]
  · rw [indicator_of_notMem hx]
    have : ∀ v : ℝ × ℝ, (ball0 R).indicator (kpp .pot (d, 0, 0)) (x, v) = 0 := fun v => by
      apply indicator_of_notMem
      intro h
      apply hx
      exact (ball0_subset_cube hR h).1
    simp only [this, integral_zero]

/-- Newton: the ball from outside, -/
theorem integral_ball_outside {d R : ℝ} (hR : 0 ≤ R) (hd : 0 < d) (h : R ≤ d) :
    ∫ q in ball0 R, kpp .pot (d, 0, 0) q = 4 / 3 * π * R ^ 3 / d := by
  rw [integral_ball_slices d hR, intervalIntegral.integral_const_mul, intervalIntegral.integral_sub
    (Continuous.intervalIntegrable (by fun_prop) _ _) (Continuous.intervalIntegrable (by fun_prop) _ _),
    integral_sqrt_lin hd hR, integral_abs_sub d R, abs_of_nonneg (by linarith : 0 ≤ d - R),
    abs_of_nonpos (by linarith : R - d ≤ 0), abs_of_nonneg (by linarith : 0 ≤ R + d)]
  field_simp
  ring

/-- and from inside. -/
theorem integral_ball_inside {d R : ℝ} (hd : 0 ≤ d) (h : d ≤ R) :
    ∫ q in ball0 R, kpp .pot (d, 0, 0) q = 2 * π * (R ^ 2 - d ^ 2 / 3) := by
  have hR : 0 ≤ R := hd.trans h
  rw [integral_ball_slices d hR, intervalIntegral.integral_const_mul, intervalIntegral.integral_sub
    (Continuous.intervalIntegrable (by fun_prop) _ _) (Continuous.intervalIntegrable (by fun_prop) _ _),
    integral_abs_sub d R, abs_of_nonneg (by linarith : 0 ≤ R - d), abs_of_nonneg (by linarith : 0 ≤ R + d)]
  rcases hd.eq_or_lt with rfl | hd
  · simp [Real.sqrt_sq hR]; ring
  · rw [integral_sqrt_lin hd hR, abs_of_nonpos (by linarith : d - R ≤ 0)]
    field_simp
    ring

end Choclo
