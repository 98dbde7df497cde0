import Verif.Lemmas.Flux

/-! # The acceleration of a prism as an integral over its slices; wide slabs -/

namespace Choclo

open Real Set MeasureTheory Filter Topology

variable {P : Box}

/-- the acceleration as an integral over the slices perpendicular to it -/
theorem Ve_slices (hP : P.Ordered) (p : Pt) : Vc .e p P =
    ∫ x in (P.west - p.e)..(P.east - p.e), D2 (Ar x) (P.south - p.n) (P.north - p.n) (P.bottom - p.u) (P.top - p.u) := by
  have h := integral_region p P (fun x y z => x / rad x y z ^ 3)
  have h' := integral_acc_e hP p
  simp only [kpp_e] at h'
  rw [← h', h]
  have hI := integrableOn_accel (P.west - p.e) (P.east - p.e) (P.south - p.n) (P.north - p.n) (P.bottom - p.u) (P.top - p.u)
  have hI' : IntegrableOn (fun v : Pt => v.1 / rad v.1 v.2.1 v.2.2 ^ 3)
      (Icc (P.west - p.e) (P.east - p.e) ×ˢ (Icc (P.south - p.n) (P.north - p.n) ×ˢ Icc (P.bottom - p.u) (P.top - p.u)))
    ((volume : Measure ℝ).prod (volume : Measure (ℝ × ℝ))) := hI
  have e := setIntegral_prod _ hI'
  refine e.trans ?_
  rw [integral_Icc_eq_integral_Ioc, ← intervalIntegral.integral_of_le (by linarith [hP.1])]
  congr 1
  funext x
  have := integral_face (x := x) (b := 0) (c := 0) (y1 := P.south - p.n) (y2 := P.north - p.n) (z1 := P.bottom - p.u)
    (z2 := P.top - p.u) (by linarith [hP.2.1]) (by linarith [hP.2.2])
  simp only [sub_zero] at this
  exact this

theorem abs_Ve_le (hP : P.Ordered) (p : Pt) : |Vc .e p P| ≤ 2 * π * (P.east - P.west) := by
  rw [Ve_slices hP p]
  have := intervalIntegral.norm_integral_le_of_norm_le_const (a := P.west - p.e) (b := P.east - p.e)
    (f := fun x => D2 (Ar x) (P.south - p.n) (P.north - p.n) (P.bottom - p.u) (P.top - p.u)) (C := 2 * π)
    (fun x _ => abs_D2_Ar_le _ _ _ _ _)
  rw [Real.norm_eq_abs] at this
  refine this.trans (le_of_eq ?_)
  rw [abs_of_nonneg (by linarith [hP.1])]
  ring

/-- far away along both other axes the solid angle fills the half space -/
theorem tendsto_Ar {x : ℝ} (hx : x ≠ 0) {ι : Type*} {l : Filter ι} {f g : ι → ℝ} (hf : Tendsto f l atTop)
    (hg : Tendsto g l atTop) : Tendsto (fun i => Ar x (f i) (g i)) l (𝓝 (π / 2 * Real.sign x)) := by
  have key : Tendsto (fun i => f i * g i / rad x (f i) (g i)) l atTop := by
    refine tendsto_atTop.2 fun b => ?_
    set c := max b 1 * (|x| + 2) with hc
    have hb : 0 < max b 1 := lt_max_of_lt_right one_pos
    filter_upwards [hf.eventually_ge_atTop (max c 1), hg.eventually_ge_atTop (max c 1)] with i h1 h2
    have f1 : 1 ≤ f i := (le_max_right _ _).trans h1
    have g1 : 1 ≤ g i := (le_max_right _ _).trans h2
    have f2 : c ≤ f i := (le_max_left _ _).trans h1
    have g2 : c ≤ g i := (le_max_left _ _).trans h2
    have hr0 : 0 < rad x (f i) (g i) := by
      unfold rad; apply Real.sqrt_pos.2; nlinarith [sq_nonneg x, sq_nonneg (g i)]
    have hr : rad x (f i) (g i) ≤ |x| + f i + g i := by
      unfold rad
      refine Real.sqrt_le_iff.2 ⟨by positivity, ?_⟩
      nlinarith [sq_abs x, abs_nonneg x, mul_nonneg (abs_nonneg x) (by linarith : 0 ≤ f i),
        mul_nonneg (abs_nonneg x) (by linarith : 0 ≤ g i), mul_nonneg (by linarith : 0 ≤ f i) (by linarith : 0 ≤ g i)]
    rw [le_div_iff₀ hr0]
    have hb1 : b ≤ max b 1 := le_max_left _ _
    calc b * rad x (f i) (g i) ≤ max b 1 * (|x| + f i + g i) :=
          (mul_le_mul_of_nonneg_right hb1 hr0.le).trans (mul_le_mul_of_nonneg_left hr hb.le)
      _ ≤ f i * g i := by
          rcases le_total (f i) (g i) with h | h
          · have : |x| + f i + g i ≤ (|x| + 2) * g i := by nlinarith [abs_nonneg x]
            calc _ ≤ max b 1 * ((|x| + 2) * g i) := mul_le_mul_of_nonneg_left this hb.le
              _ = c * g i := by rw [hc]; ring
              _ ≤ _ := mul_le_mul_of_nonneg_right f2 (by linarith)
          · have : |x| + f i + g i ≤ (|x| + 2) * f i := by nlinarith [abs_nonneg x]
            calc _ ≤ max b 1 * ((|x| + 2) * f i) := mul_le_mul_of_nonneg_left this hb.le
              _ = f i * c := by rw [hc]; ring
              _ ≤ _ := mul_le_mul_of_nonneg_left g2 (by linarith)
  have e : ∀ i, Ar x (f i) (g i) = Real.arctan (f i * g i / rad x (f i) (g i) / x) := fun i => by
    unfold Ar; rw [div_div, mul_comm x]
  simp only [e]
  rcases lt_or_gt_of_ne hx with h | h
  · rw [Real.sign_of_neg h, mul_neg_one]
    exact (tendsto_nhds_of_tendsto_nhdsWithin Real.tendsto_arctan_atBot).comp (key.atTop_div_const_of_neg h)
  · rw [Real.sign_of_pos h, mul_one]
    exact (tendsto_nhds_of_tendsto_nhdsWithin Real.tendsto_arctan_atTop).comp (key.atTop_div_const h)

theorem Ar_neg2 (x y z : ℝ) : Ar x (-y) z = -Ar x y z := by
  unfold Ar
  rw [show rad x (-y) z = rad x y z by unfold rad; congr 1; ring, neg_mul, neg_div, Real.arctan_neg]

theorem Ar_neg3 (x y z : ℝ) : Ar x y (-z) = -Ar x y z := by
  unfold Ar
  rw [show rad x y (-z) = rad x y z by unfold rad; congr 1; ring, mul_neg, neg_div, Real.arctan_neg]

theorem tendsto_D2_Ar {x : ℝ} (hx : x ≠ 0) {ι : Type*} {l : Filter ι} {y1 y2 z1 z2 : ι → ℝ} (h1 : Tendsto y1 l atBot)
    (h2 : Tendsto y2 l atTop) (h3 : Tendsto z1 l atBot) (h4 : Tendsto z2 l atTop) :
    Tendsto (fun i => D2 (Ar x) (y1 i) (y2 i) (z1 i) (z2 i)) l (𝓝 (2 * π * Real.sign x)) := by
  have h1' : Tendsto (fun i => -y1 i) l atTop := tendsto_neg_atBot_atTop.comp h1
  have h3' : Tendsto (fun i => -z1 i) l atTop := tendsto_neg_atBot_atTop.comp h3
  have k := ((tendsto_Ar hx h2 h4).add (tendsto_Ar hx h2 h3')).add ((tendsto_Ar hx h1' h4).add (tendsto_Ar hx h1' h3'))
  simp only [Ar_neg2, Ar_neg3] at k
  convert k using 2
  · unfold D2; ring
  · ring

theorem integral_sign {a b : ℝ} : ∫ x in a..b, Real.sign x = |b| - |a| := by
  have hm : ∀ c : ℝ, ∫ x in (0 : ℝ)..c, Real.sign x = |c| := by
    intro c
    rcases le_total 0 c with hc | hc
    · rw [intervalIntegral.integral_of_le hc, setIntegral_congr_fun (g := fun _ => (1 : ℝ)) measurableSet_Ioc
        (fun x hx => Real.sign_of_pos hx.1), ← intervalIntegral.integral_of_le hc]
      simp [abs_of_nonneg hc]
    · rw [intervalIntegral.integral_symm, intervalIntegral.integral_of_le hc, ← integral_Ico_eq_integral_Ioc,
        setIntegral_congr_fun (g := fun _ => (-1 : ℝ)) measurableSet_Ico
        (fun x hx => Real.sign_of_neg hx.2), integral_Ico_eq_integral_Ioc, ← intervalIntegral.integral_of_le hc]
      simp [abs_of_nonpos hc]
  have hi : ∀ c d : ℝ, IntervalIntegrable Real.sign volume c d := fun c d =>
    intervalIntegrable_const (c := (1 : ℝ)) |>.mono_fun (by
      have : Measurable Real.sign := by
        unfold Real.sign
        exact Measurable.ite (measurableSet_lt measurable_id measurable_const) measurable_const
          (Measurable.ite (measurableSet_lt measurable_const measurable_id) measurable_const measurable_const)
      exact this.aestronglyMeasurable) (Eventually.of_forall fun x => by
        rcases Real.sign_apply_eq x with h | h | h <;> simp [h])
  rw [← intervalIntegral.integral_interval_sub_left (hi 0 b) (hi 0 a), hm, hm]

theorem tendsto_Ve_slab {ι : Type*} {l : Filter ι} [l.IsCountablyGenerated] {w e : ℝ} (hwe : w ≤ e) {s n b t : ι → ℝ}
    (h1 : Tendsto s l atBot) (h2 : Tendsto n l atTop) (h3 : Tendsto b l atBot) (h4 : Tendsto t l atTop) (p : Pt) :
    Tendsto (fun i => Vc .e p ⟨w, e, s i, n i, b i, t i⟩) l (𝓝 (2 * π * (|e - p.e| - |w - p.e|))) := by
  have k : Tendsto (fun i => ∫ x in (w - p.e)..(e - p.e), D2 (Ar x) (s i - p.n) (n i - p.n) (b i - p.u) (t i - p.u)) l
      (𝓝 (∫ x in (w - p.e)..(e - p.e), 2 * π * Real.sign x)) := by
    refine intervalIntegral.tendsto_integral_filter_of_dominated_convergence (fun _ => 2 * π) ?_ ?_ ?_ ?_
    · refine Eventually.of_forall fun i => ?_
      have m : Measurable fun x => D2 (Ar x) (s i - p.n) (n i - p.n) (b i - p.u) (t i - p.u) := by
        have : ∀ y z, Measurable fun x => Ar x y z := fun y z => by
          unfold Ar
          refine Real.continuous_arctan.measurable.comp (measurable_const.div (measurable_id.mul ?_))
          exact (Continuous.rad continuous_id continuous_const continuous_const).measurable
        unfold D2
        exact ((this _ _).sub (this _ _)).sub ((this _ _).sub (this _ _))
      exact m.aestronglyMeasurable
    · exact Eventually.of_forall fun i => Eventually.of_forall fun x _ => abs_D2_Ar_le _ _ _ _ _
    · exact intervalIntegrable_const
    · filter_upwards [(Set.countable_singleton (0 : ℝ)).ae_notMem volume] with x hx _
      refine tendsto_D2_Ar (fun h => hx (by rw [h]; rfl)) ?_ ?_ ?_ ?_
      · exact tendsto_atBot_add_const_right _ _ h1
      · exact tendsto_atTop_add_const_right _ _ h2
      · exact tendsto_atBot_add_const_right _ _ h3
      · exact tendsto_atTop_add_const_right _ _ h4
  rw [intervalIntegral.integral_const_mul, integral_sign] at k
  refine k.congr' ?_
  filter_upwards [h1.eventually_le_atBot 0, h2.eventually_ge_atTop 0, h3.eventually_le_atBot 0, h4.eventually_ge_atTop 0]
    with i a1 a2 a3 a4
  rw [Ve_slices ⟨hwe, a1.trans a2, a3.trans a4⟩ p]

end Choclo
