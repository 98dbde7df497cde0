import Mathlib.Analysis.SpecialFunctions.PolarCoord
import Verif.Spec.Survey
import Verif.Lemmas.Plane

/-! # Integrals over discs in a plane -/

namespace Choclo

open Real Set MeasureTheory Filter Topology

theorem isClosed_disc (c : ℝ × ℝ) (R : ℝ) : IsClosed (discAt c R) := by
  refine isClosed_le ?_ continuous_const
  fun_prop

theorem measurable_disc (c : ℝ × ℝ) (R : ℝ) : MeasurableSet (discAt c R) := (isClosed_disc c R).measurableSet

theorem radial_integral {h R : ℝ} (hh : h ≠ 0) (hR : 0 ≤ R) :
    ∫ r in (0:ℝ)..R, r * (1 / √(h ^ 2 + r ^ 2) ^ 3) = 1 / |h| - 1 / √(h ^ 2 + R ^ 2) := by
  have p : ∀ r : ℝ, 0 < h ^ 2 + r ^ 2 := fun r => by positivity
  have d : ∀ r : ℝ, HasDerivAt (fun r => -(1 / √(h ^ 2 + r ^ 2))) (r * (1 / √(h ^ 2 + r ^ 2) ^ 3)) r := by
    intro r
    have s := Real.sqrt_pos.2 (p r)
    have e := Real.sq_sqrt (p r).le
    have h1 : HasDerivAt (fun r : ℝ => h ^ 2 + r ^ 2) (2 * r) r := by
      simpa using ((hasDerivAt_pow 2 r).const_add (h ^ 2))
    have h2 := ((h1.sqrt (p r).ne').fun_inv s.ne').fun_neg
    simp only [one_div]
    refine h2.congr_deriv ?_
    field_simp
  rw [intervalIntegral.integral_eq_sub_of_hasDerivAt (fun r _ => d r)]
  · rw [zero_pow two_ne_zero, add_zero, Real.sqrt_sq_eq_abs]; ring
  · refine Continuous.intervalIntegrable ?_ _ _
    refine continuous_id.mul (continuous_const.div ?_ fun r => (pow_pos (Real.sqrt_pos.2 (p r)) 3).ne')
    fun_prop

theorem disc_rad3 {h R : ℝ} (hh : h ≠ 0) (hR : 0 ≤ R) :
    ∫ s in discAt 0 R, 1 / rad h s.1 s.2 ^ 3 = 2 * π * (1 / |h| - 1 / √(h ^ 2 + R ^ 2)) := by
  rw [← integral_indicator (measurable_disc 0 R), ← integral_comp_polarCoord_symm]
  have tgt : polarCoord.target = Ioi (0:ℝ) ×ˢ Ioo (-π) π := rfl
  rw [tgt]
  have e : ∀ w ∈ Ioi (0:ℝ) ×ˢ Ioo (-π) π,
      w.1 • (discAt 0 R).indicator (fun s : ℝ × ℝ => 1 / rad h s.1 s.2 ^ 3) (polarCoord.symm w) =
        (Iic R).indicator (fun r : ℝ => r * (1 / √(h ^ 2 + r ^ 2) ^ 3)) w.1 * 1 := by
    rintro ⟨r, θ⟩ ⟨hr, -⟩
    have hr : 0 < r := hr
    have sq : (r * cos θ) ^ 2 + (r * sin θ) ^ 2 = r ^ 2 := by
      have := Real.sin_sq_add_cos_sq θ; linear_combination r ^ 2 * this
    rw [polarCoord_symm_apply]
    simp only [smul_eq_mul, mul_one]
    by_cases hl : r ≤ R
    · rw [indicator_of_mem (show r ∈ Iic R from hl), indicator_of_mem (show (r * cos θ, r * sin θ) ∈ discAt 0 R from ?_)]
      · simp only [rad]
        rw [show h ^ 2 + (r * cos θ) ^ 2 + (r * sin θ) ^ 2 = h ^ 2 + r ^ 2 by linarith]
      · show (r * cos θ - 0) ^ 2 + (r * sin θ - 0) ^ 2 ≤ R ^ 2
        rw [sub_zero, sub_zero, sq]
        exact pow_le_pow_left₀ hr.le hl 2
    · rw [indicator_of_notMem (show r ∉ Iic R from hl), indicator_of_notMem (show (r * cos θ, r * sin θ) ∉ discAt 0 R from ?_), mul_zero]
      show ¬((r * cos θ - 0) ^ 2 + (r * sin θ - 0) ^ 2 ≤ R ^ 2)
      rw [sub_zero, sub_zero, sq, not_le]
      exact pow_lt_pow_left₀ (not_le.1 hl) hR two_ne_zero
  rw [setIntegral_congr_fun (measurableSet_Ioi.prod measurableSet_Ioo) e, Measure.volume_eq_prod,
    setIntegral_prod_mul (fun r => (Iic R).indicator (fun r : ℝ => r * (1 / √(h ^ 2 + r ^ 2) ^ 3)) r) (fun _ => (1:ℝ)),
    setIntegral_indicator measurableSet_Iic, Ioi_inter_Iic, ← intervalIntegral.integral_of_le hR, radial_integral hh hR]
  have : ∫ _θ in Ioo (-π) π, (1:ℝ) = 2 * π := by
    rw [setIntegral_const, Measure.real, Real.volume_Ioo, ENNReal.toReal_ofReal (by linarith [Real.pi_pos])]
    simp; ring
  rw [this]; ring

theorem disc_shift (c : ℝ × ℝ) (R : ℝ) (f : ℝ × ℝ → ℝ) : ∫ s in discAt c R, f (s - c) = ∫ s in discAt 0 R, f s := by
  rw [← integral_indicator (measurable_disc c R), ← integral_indicator (measurable_disc 0 R),
    ← integral_sub_right_eq_self (fun s => (discAt 0 R).indicator f s) c]
  congr 1; funext s
  by_cases h : s ∈ discAt c R
  · rw [indicator_of_mem h, indicator_of_mem]
    simpa [discAt] using h
  · rw [indicator_of_notMem h, indicator_of_notMem]
    simpa [discAt] using h

theorem dist3_foot (a : Axis) (t : ℝ) (s : ℝ × ℝ) (q : Pt) : dist3 (Pt.onPlane a t s) q =
    rad (t - q.coord a) (s - q.foot a).1 (s - q.foot a).2 := by
  rw [dist3_onPlane]; cases a <;> rfl

/-- the normal acceleration of a unit source over the disc around its foot -/
theorem disc_kern1 (a : Axis) {t R : ℝ} {q : Pt} (h : q.coord a < t) (hR : 0 ≤ R) :
    ∫ s in discAt (q.foot a) R, kpp (kern1 a) (Pt.onPlane a t s) q = -(2 * π * (1 - missed (t - q.coord a) R)) := by
  have h0 : 0 < t - q.coord a := by linarith
  simp only [kern1_plane, dist3_foot]
  rw [integral_const_mul, disc_shift _ R (fun s => 1 / rad (t - q.coord a) s.1 s.2 ^ 3), disc_rad3 h0.ne' hR, abs_of_pos h0, missed]
  have : 0 < √((t - q.coord a) ^ 2 + R ^ 2) := Real.sqrt_pos.2 (by positivity)
  field_simp
  ring

theorem disc_subset {c c' : ℝ × ℝ} {R d : ℝ} (h : (c'.1 - c.1) ^ 2 + (c'.2 - c.2) ^ 2 ≤ d ^ 2) (hd : 0 ≤ d) (hR : 0 ≤ R) :
    discAt c' R ⊆ discAt c (R + d) := by
  intro s hs
  have hs : (s.1 - c'.1) ^ 2 + (s.2 - c'.2) ^ 2 ≤ R ^ 2 := hs
  show (s.1 - c.1) ^ 2 + (s.2 - c.2) ^ 2 ≤ (R + d) ^ 2
  have k : ((s.1 - c'.1) * (c'.1 - c.1) + (s.2 - c'.2) * (c'.2 - c.2)) ≤ R * d := by
    refine le_of_sq_le_sq ?_ (mul_nonneg hR hd)
    nlinarith [sq_nonneg ((s.1 - c'.1) * (c'.2 - c.2) - (s.2 - c'.2) * (c'.1 - c.1)),
      mul_le_mul hs h (by positivity) (by positivity)]
  nlinarith

theorem missed_nonneg {h R : ℝ} (hh : 0 ≤ h) : 0 ≤ missed h R := div_nonneg hh (Real.sqrt_nonneg _)

theorem missed_le_one {h R : ℝ} : missed h R ≤ 1 := by
  unfold missed
  rcases eq_or_lt_of_le (Real.sqrt_nonneg (h ^ 2 + R ^ 2)) with e | e
  · rw [← e, div_zero]; exact zero_le_one
  · rw [div_le_one e]
    exact Real.le_sqrt_of_sq_le (by nlinarith [sq_nonneg R])

theorem missed_mono {h h' R R' : ℝ} (h0 : 0 ≤ h) (hh : h ≤ h') (hR' : 0 < R') (hR : R' ≤ R) : missed h R ≤ missed h' R' := by
  unfold missed
  have s : 0 < √(h ^ 2 + R ^ 2) := Real.sqrt_pos.2 (by have := hR'.trans_le hR; positivity)
  have s' : 0 < √(h' ^ 2 + R' ^ 2) := Real.sqrt_pos.2 (by positivity)
  rw [div_le_div_iff₀ s s']
  refine le_of_sq_le_sq ?_ (mul_nonneg (h0.trans hh) s.le)
  rw [mul_pow, mul_pow, Real.sq_sqrt (by positivity), Real.sq_sqrt (by positivity)]
  have k1 : h ^ 2 ≤ h' ^ 2 := pow_le_pow_left₀ h0 hh 2
  have k2 : R' ^ 2 ≤ R ^ 2 := pow_le_pow_left₀ hR'.le hR 2
  nlinarith [mul_le_mul k1 k2 (by positivity) (by positivity)]

theorem missed_le {h R ε : ℝ} (h0 : 0 ≤ h) (hR : 0 < R) (hε : h ≤ ε * R) : missed h R ≤ ε := by
  unfold missed
  have s : R ≤ √(h ^ 2 + R ^ 2) := Real.le_sqrt_of_sq_le (by nlinarith [sq_nonneg h])
  rw [div_le_iff₀ (hR.trans_le s)]
  have : 0 ≤ ε := by
    by_contra hn
    nlinarith [mul_neg_of_neg_of_pos (not_le.1 hn) hR]
  exact hε.trans (mul_le_mul_of_nonneg_left s this)

theorem kern1_nonneg (a : Axis) {t : ℝ} {q : Pt} (h : q.coord a < t) (s : ℝ × ℝ) : 0 ≤ -kpp (kern1 a) (Pt.onPlane a t s) q := by
  rw [kern1_plane]
  have := Real.sqrt_nonneg (0 : ℝ)
  have d : 0 ≤ 1 / dist3 (Pt.onPlane a t s) q ^ 3 := one_div_nonneg.2 (pow_nonneg (Real.sqrt_nonneg _) 3)
  nlinarith

/-- how much of the flux of a unit source passes through a part of a plane -/
theorem window_kern1 (a : Axis) {t R d : ℝ} {q : Pt} (h : q.coord a < t) {c : ℝ × ℝ}
    (hc : ((q.foot a).1 - c.1) ^ 2 + ((q.foot a).2 - c.2) ^ 2 ≤ d ^ 2) (hd : 0 ≤ d) (S : Set (ℝ × ℝ)) :
    (d ≤ R → discAt c R ⊆ S → 2 * π * (1 - missed (t - q.coord a) (R - d)) ≤ -∫ s in S, kpp (kern1 a) (Pt.onPlane a t s) q) ∧
    (0 ≤ R → S ⊆ discAt c R → -∫ s in S, kpp (kern1 a) (Pt.onPlane a t s) q ≤ 2 * π * (1 - missed (t - q.coord a) (R + d))) := by
  have i := (plane_kern1 a h.ne').1.neg
  have mono : ∀ {S T : Set (ℝ × ℝ)}, S ⊆ T →
      -∫ s in S, kpp (kern1 a) (Pt.onPlane a t s) q ≤ -∫ s in T, kpp (kern1 a) (Pt.onPlane a t s) q := by
    intro S T hST
    rw [← integral_neg, ← integral_neg]
    exact integral_mono_measure (Measure.restrict_mono hST le_rfl) (Eventually.of_forall (kern1_nonneg a h)) i.integrableOn
  constructor
  · intro hR hS
    have sub := disc_subset (c := c) (c' := q.foot a) hc hd (sub_nonneg.2 hR)
    rw [sub_add_cancel] at sub
    have := mono (sub.trans hS)
    rwa [disc_kern1 a h (sub_nonneg.2 hR), neg_neg] at this
  · intro hR hS
    have hc' : (c.1 - (q.foot a).1) ^ 2 + (c.2 - (q.foot a).2) ^ 2 ≤ d ^ 2 := by nlinarith
    have := mono (hS.trans (disc_subset hc' hd hR))
    rwa [disc_kern1 a h (add_nonneg hR hd), neg_neg] at this

variable {P : Box}

theorem window_prism (hP : P.Ordered) (a : Axis) (t : ℝ) (S : Set (ℝ × ℝ)) :
    ∫ s in S, Vc a.acc (Pt.onPlane a t s) P = ∫ q in P.region, ∫ s in S, kpp (kern1 a) (Pt.onPlane a t s) q ∧
    IntegrableOn (fun q => ∫ s in S, kpp (kern1 a) (Pt.onPlane a t s) q) P.region := by
  have F := plane_prism_acc_integrable (P := P) a t
  have e : ∀ p, Vc a.acc p P = ∫ q in P.region, kpp (kern1 a) p q := fun p => by
    rw [← (integral_low hP a.acc (by cases a <;> decide) p).2, acc_toK]
  have F' : Integrable (fun w : (ℝ × ℝ) × Pt => kpp (kern1 a) (Pt.onPlane a t w.1) w.2)
      ((volume.restrict S).prod (volume.restrict P.region)) := by
    have := F.integrableOn (s := S ×ˢ univ)
    rwa [IntegrableOn, ← Measure.prod_restrict, Measure.restrict_univ] at this
  simp only [e]
  exact ⟨integral_integral_swap (f := fun s q => kpp (kern1 a) (Pt.onPlane a t s) q) F', F'.integral_prod_right⟩

theorem region_ae_ne (a : Axis) (t : ℝ) : ∀ᵐ q ∂(volume.restrict P.region : Measure Pt), q ∈ P.region ∧ t ≠ q.coord a := by
  filter_upwards [ae_restrict_mem (isCompact_region P).measurableSet, ae_restrict_of_ae (ae_coord_ne a t)] with q h1 h2
  exact ⟨h1, h2.symm⟩

/-- bounds for a prism from bounds for the sources it is made of -/
theorem region_bounds (hP : P.Ordered) (a : Axis) (t : ℝ) {f : Pt → ℝ} (hf : IntegrableOn f P.region) {A B : ℝ}
    (h : ∀ q ∈ P.region, t ≠ q.coord a → A ≤ f q ∧ f q ≤ B) :
    A * P.volume ≤ ∫ q in P.region, f q ∧ ∫ q in P.region, f q ≤ B * P.volume := by
  have fin : IsFiniteMeasure (volume.restrict P.region : Measure Pt) :=
    ⟨by rw [Measure.restrict_apply_univ]; exact (isCompact_region P).measure_lt_top⟩
  have vol : ∀ k : ℝ, ∫ _q in P.region, k = k * P.volume := fun k => by
    rw [setIntegral_const, volume_region hP, smul_eq_mul, mul_comm]
  have ae := region_ae_ne (P := P) a t
  rw [← vol, ← vol]
  exact ⟨integral_mono_ae (integrable_const _) hf (ae.mono fun q hq => (h q hq.1 hq.2).1),
    integral_mono_ae hf (integrable_const _) (ae.mono fun q hq => (h q hq.1 hq.2).2)⟩

end Choclo
