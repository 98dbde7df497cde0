import Verif.Lemmas.Ball
import Verif.Spec.Ball
import Verif.Props.Mutual

/-! # Newton's theorem for every kernel, and the mean value property -/

namespace Choclo

open Real Set MeasureTheory Filter Topology

/-! ### the reflection that turns a vector into the first axis -/

/-- scalar product -/
def dot3 (v w : Pt) : ℝ := v.e * w.e + v.n * w.n + v.u * w.u

/-- reflection at the plane perpendicular to `u` -/
noncomputable def house (u : Pt) : Pt →ₗ[ℝ] Pt where
  toFun v := v - (2 * dot3 u v / dot3 u u) • u
  map_add' v w := by
    ext <;> simp only [dot3, Pt.e, Pt.n, Pt.u, Prod.fst_add, Prod.snd_add, Prod.fst_sub, Prod.snd_sub, Prod.smul_fst,
      Prod.smul_snd, smul_eq_mul] <;> ring
  map_smul' t v := by
    ext <;> simp only [dot3, Pt.e, Pt.n, Pt.u, Prod.fst_sub, Prod.snd_sub, Prod.smul_fst,
      Prod.smul_snd, smul_eq_mul, RingHom.id_apply] <;> ring

theorem house_apply (u v : Pt) : house u v = v - (2 * dot3 u v / dot3 u u) • u := rfl

theorem dot3_house (u v : Pt) (hu : dot3 u u ≠ 0) : dot3 (house u v) (house u v) = dot3 v v := by
  rw [house_apply]
  set k := 2 * dot3 u v / dot3 u u with hk
  have hk' : k * dot3 u u = 2 * dot3 u v := by rw [hk]; field_simp
  have : dot3 (v - k • u) (v - k • u) = dot3 v v + k * (k * dot3 u u - 2 * dot3 u v) := by
    simp only [dot3, Pt.e, Pt.n, Pt.u, Prod.fst_sub, Prod.snd_sub, Prod.smul_fst, Prod.smul_snd, smul_eq_mul]; ring
  rw [this, hk']; ring

theorem house_house (u v : Pt) (hu : dot3 u u ≠ 0) : house u (house u v) = v := by
  rw [house_apply u (house u v), house_apply u v]
  set k := 2 * dot3 u v / dot3 u u with hk
  have hk' : k * dot3 u u = 2 * dot3 u v := by rw [hk]; field_simp
  have e : dot3 u (v - k • u) = dot3 u v - k * dot3 u u := by
    simp only [dot3, Pt.e, Pt.n, Pt.u, Prod.fst_sub, Prod.snd_sub, Prod.smul_fst, Prod.smul_snd, smul_eq_mul]; ring
  have e2 : 2 * dot3 u (v - k • u) / dot3 u u = -k := by
    rw [e, div_eq_iff hu]; linarith
  rw [e2]; simp

theorem house_det (u : Pt) (hu : dot3 u u ≠ 0) : |LinearMap.det (house u)| = 1 := by
  have h : house u ∘ₗ house u = LinearMap.id := LinearMap.ext fun v => house_house u v hu
  have h2 := congrArg LinearMap.det h
  rw [LinearMap.det_comp, LinearMap.det_id] at h2
  have := abs_mul (LinearMap.det (house u)) (LinearMap.det (house u))
  rw [h2, abs_one] at this
  nlinarith [abs_nonneg (LinearMap.det (house u))]

theorem house_measurePreserving (u : Pt) (hu : dot3 u u ≠ 0) :
    MeasurePreserving (house u) (volume : Measure Pt) volume := by
  have hd := house_det u hu
  have hd0 : LinearMap.det (house u) ≠ 0 := fun h => by rw [h, abs_zero] at hd; norm_num at hd
  refine ⟨(house u).continuous_of_finiteDimensional.measurable, ?_⟩
  rw [Measure.map_linearMap_addHaar_eq_smul_addHaar _ hd0, abs_inv, hd]
  simp

theorem house_measurableEmbedding (u : Pt) (hu : dot3 u u ≠ 0) : MeasurableEmbedding (house u) := by
  have hm := (house u).continuous_of_finiteDimensional.measurable
  exact (MeasurableEquiv.mk ⟨house u, house u, fun v => house_house u v hu, fun v => house_house u v hu⟩
    hm hm).measurableEmbedding

theorem rad_dot (v : Pt) : rad v.e v.n v.u = √(dot3 v v) := by
  unfold rad dot3; congr 1; ring

theorem kpp_pot_rad (p q : Pt) : kpp .pot p q = 1 / √(dot3 (p - q) (p - q)) := by
  rw [← rad_dot]; simp only [kpp, kp, pow_one]; rfl

theorem mem_ball0 {R : ℝ} {q : Pt} : q ∈ ball0 R ↔ dot3 q q ≤ R ^ 2 := by
  show q.e ^ 2 + q.n ^ 2 + q.u ^ 2 ≤ R ^ 2 ↔ _
  unfold dot3; constructor <;> intro h <;> nlinarith

/-- the potential of the ball depends on the distance from its centre only -/
theorem integral_ball0_axis (w : Pt) (R : ℝ) :
    ∫ q in ball0 R, kpp .pot w q = ∫ q in ball0 R, kpp .pot (√(dot3 w w), 0, 0) q := by
  set d := √(dot3 w w) with hd
  have hww : 0 ≤ dot3 w w := by unfold dot3; nlinarith [sq_nonneg w.e, sq_nonneg w.n, sq_nonneg w.u]
  have hd2 : d ^ 2 = dot3 w w := Real.sq_sqrt hww
  set u : Pt := w - (d, 0, 0) with hu
  by_cases h0 : dot3 u u = 0
  · have e : w = (d, 0, 0) := by
      have h1 : u.e ^ 2 + u.n ^ 2 + u.u ^ 2 = 0 := by unfold dot3 at h0; linarith
      have a1 : u.e = 0 := by nlinarith [sq_nonneg u.e, sq_nonneg u.n, sq_nonneg u.u]
      have a2 : u.n = 0 := by nlinarith [sq_nonneg u.e, sq_nonneg u.n, sq_nonneg u.u]
      have a3 : u.u = 0 := by nlinarith [sq_nonneg u.e, sq_nonneg u.n, sq_nonneg u.u]
      have : u = 0 := Prod.ext a1 (Prod.ext a2 a3)
      rw [hu, sub_eq_zero] at this
      exact this
    rw [← e]
  · have hw : house u w = (d, 0, 0) := by
      rw [house_apply]
      have : 2 * dot3 u w = dot3 u u := by
        simp only [hu, dot3, Pt.e, Pt.n, Pt.u, Prod.fst_sub, Prod.snd_sub] at hd2 ⊢
        linear_combination -hd2
      rw [this, div_self h0, one_smul, hu]; abel
    have m := (house_measurePreserving u h0).setIntegral_preimage_emb (house_measurableEmbedding u h0)
      (kpp .pot (d, 0, 0)) (ball0 R)
    rw [← m]
    have e1 : house u ⁻¹' ball0 R = ball0 R := by
      ext q; rw [mem_preimage, mem_ball0, mem_ball0, dot3_house u q h0]
    rw [e1]
    congr 1; funext q
    rw [kpp_pot_rad, kpp_pot_rad, ← hw, ← map_sub, dot3_house u _ h0]

/-! ### balls about any centre -/

theorem ball3_eq {R : ℝ} (hR : 0 ≤ R) (c : Pt) : ball3 c R = (fun q : Pt => q - c) ⁻¹' ball0 R := by
  ext q
  rw [mem_preimage, mem_ball0]
  show dist3 c q ≤ R ↔ _
  have hn : 0 ≤ dot3 (q - c) (q - c) := by
    unfold dot3; nlinarith [sq_nonneg (q - c).e, sq_nonneg (q - c).n, sq_nonneg (q - c).u]
  have e : dist3 c q = √(dot3 (q - c) (q - c)) := by
    rw [← rad_dot, dist3_eq_rad, ← rad_sub_comm]; rfl
  rw [e]
  exact Real.sqrt_le_left hR

theorem ball3_mem {c q : Pt} {R : ℝ} : q ∈ ball3 c R ↔ dist3 c q ≤ R := Iff.rfl

theorem isClosed_ball3 (c : Pt) (R : ℝ) : IsClosed (ball3 c R) := by
  refine isClosed_le ?_ continuous_const
  unfold dist3; fun_prop

theorem isCompact_ball3 {R : ℝ} (hR : 0 ≤ R) (c : Pt) : IsCompact (ball3 c R) := by
  rw [ball3_eq hR]
  have : (fun q : Pt => q - c) = (Homeomorph.subRight c) := rfl
  rw [this, ← Homeomorph.image_symm]
  exact (isCompact_ball0 hR).image (Homeomorph.subRight c).symm.continuous

theorem integral_ball3 {R : ℝ} (hR : 0 ≤ R) (c : Pt) (f : Pt → ℝ) :
    ∫ q in ball3 c R, f q = ∫ q in ball0 R, f (q + c) := by
  have m := (measurePreserving_sub_right (volume : Measure Pt) c).setIntegral_preimage_emb
    (MeasurableEquiv.subRight c).measurableEmbedding (fun q => f (q + c)) (ball0 R)
  rw [ball3_eq hR, ← m]
  simp only [sub_add_cancel]

theorem kpp_shift (k : KComp) (p q c : Pt) : kpp k p (q + c) = kpp k (p - c) q := by
  unfold kpp; congr 1 <;> simp only [Pt.e, Pt.n, Pt.u, Prod.fst_add, Prod.snd_add, Prod.fst_sub, Prod.snd_sub] <;> ring

theorem dist3_dot (p c : Pt) : dist3 p c = √(dot3 (p - c) (p - c)) := by
  rw [← rad_dot, dist3_eq_rad]; rfl

theorem newton_outside {R : ℝ} (hR : 0 ≤ R) {p c : Pt} (hd : 0 < dist3 p c) (h : R ≤ dist3 p c) :
    ∫ q in ball3 c R, kpp .pot p q = ballVolume R / dist3 p c := by
  rw [integral_ball3 hR]
  simp only [kpp_shift]
  rw [integral_ball0_axis, ← dist3_dot, integral_ball_outside hR hd h, ballVolume]

theorem newton_inside {R : ℝ} {p c : Pt} (h : dist3 p c ≤ R) :
    ∫ q in ball3 c R, kpp .pot p q = 2 * π * (R ^ 2 - dist3 p c ^ 2 / 3) := by
  have h0 : 0 ≤ dist3 p c := Real.sqrt_nonneg _
  rw [integral_ball3 (h0.trans h)]
  simp only [kpp_shift]
  rw [integral_ball0_axis, ← dist3_dot, integral_ball_inside h0 h]

/-! ### every kernel -/

theorem integrableOn_kpp_set {S : Set Pt} (hS : IsCompact S) (c : KComp) {p : Pt} (h : p ∉ S) :
    IntegrableOn (kpp c p) S := by
  refine ContinuousOn.integrableOn_compact hS ?_
  exact (continuousOn_kpp c).comp (f := fun q : Pt => (p, q)) (by fun_prop)
    (fun q hq heq => h (by
      have : p = q := heq
      rw [this]; exact hq))

theorem hasDerivAt_integral_set {S : Set Pt} (hS : IsCompact S) {c c' : KComp} {a : Axis} (hc : c.Succ c' a)
    {p : Pt} (h : p ∉ S) :
    HasDerivAt (fun t => ∫ q in S, kpp c (p.set a t) q) (∫ q in S, kpp c' p q) (p.coord a) := by
  have hpp : p.set a (p.coord a) = p := Pt.set_coord p a
  have hev : ∀ᶠ t in 𝓝 (p.coord a), p.set a t ∉ S :=
    (Pt.continuous_set p a).continuousAt.eventually (hS.isClosed.isOpen_compl.mem_nhds (by show p.set a (p.coord a) ∈ Sᶜ; rw [hpp]; exact h))
  obtain ⟨ε, hε, hball⟩ := Metric.mem_nhds_iff.1 hev
  set s := Metric.closedBall (p.coord a) (ε / 2) with hs
  have hsm : s ∈ 𝓝 (p.coord a) := Metric.closedBall_mem_nhds _ (by linarith)
  have hsx : ∀ t ∈ s, p.set a t ∉ S := fun t ht => hball (by
    rw [hs, Metric.mem_closedBall] at ht
    rw [Metric.mem_ball]; linarith)
  have hne : ∀ t ∈ s, ∀ q ∈ S, p.set a t ≠ q := fun t ht q hq he => hsx t ht (he ▸ hq)
  have hset := Pt.continuous_set p a
  have hcont : ContinuousOn (fun w : ℝ × Pt => kpp c' (p.set a w.1) w.2) (s ×ˢ S) :=
    (continuousOn_kpp c').comp (f := fun w : ℝ × Pt => (p.set a w.1, w.2))
      ((by fun_prop : Continuous fun w : ℝ × Pt => (p.set a w.1, w.2)).continuousOn)
      (fun w hw => hne _ hw.1 _ hw.2)
  obtain ⟨C, hC⟩ := ((isCompact_closedBall _ _).prod hS).exists_bound_of_continuousOn hcont
  have key := hasDerivAt_integral_of_dominated_loc_of_deriv_le
    (μ := volume.restrict S) (F := fun t q => kpp c (p.set a t) q)
    (F' := fun t q => kpp c' (p.set a t) q) (bound := fun _ => C) (x₀ := p.coord a) (s := s) hsm
    (by
      filter_upwards [hsm] with t ht
      exact (integrableOn_kpp_set hS c (hsx t ht)).aestronglyMeasurable)
    (by rw [hpp]; exact integrableOn_kpp_set hS c h)
    (by
      simp only [hpp]
      exact (integrableOn_kpp_set hS c' h).aestronglyMeasurable)
    (by
      filter_upwards [ae_restrict_mem hS.measurableSet] with q hq t ht
      exact hC (t, q) ⟨ht, hq⟩)
    (integrableOn_const (by exact hS.measure_lt_top.ne) (by simp))
    (by
      filter_upwards [ae_restrict_mem hS.measurableSet] with q hq t ht
      have := kp_deriv c c' a hc (hne t ht q hq)
      have e : (p.set a t).coord a = t := by cases a <;> rfl
      have e2 : ∀ t', (p.set a t).set a t' = p.set a t' := fun t' => by cases a <;> rfl
      rw [e] at this
      simp only [e2] at this
      exact this)
  have h2 := key.2
  simp only [hpp] at h2
  exact h2

theorem notMem_ball3 {p c : Pt} {R : ℝ} (h : R < dist3 p c) : p ∉ ball3 c R := fun hp => by
  have : dist3 c p ≤ R := hp
  have e : dist3 c p = dist3 p c := by rw [dist3_eq_rad, dist3_eq_rad, rad_sub_comm]
  linarith

theorem newton_step {R : ℝ} (hR : 0 ≤ R) (c : Pt) {k k' : KComp} {a : Axis} (hk : k.Succ k' a)
    (ih : ∀ p, R < dist3 p c → ∫ q in ball3 c R, kpp k p q = ballVolume R * kpp k p c) (p : Pt)
    (h : R < dist3 p c) : ∫ q in ball3 c R, kpp k' p q = ballVolume R * kpp k' p c := by
  have hpc : p ≠ c := fun e => by rw [e, dist3_eq_zero.mpr rfl] at h; linarith
  have d1 := hasDerivAt_integral_set (isCompact_ball3 hR c) hk (notMem_ball3 h)
  have d2 := (kp_deriv k k' a hk hpc).const_mul (ballVolume R)
  refine d1.unique (d2.congr_of_eventuallyEq ?_)
  have hc : Continuous fun t => dist3 (p.set a t) c := by
    have := Pt.continuous_set p a
    unfold dist3; fun_prop
  have hev : ∀ᶠ t in 𝓝 (p.coord a), R < dist3 (p.set a t) c :=
    hc.continuousAt.eventually (lt_mem_nhds (by show R < dist3 (p.set a (p.coord a)) c; rw [Pt.set_coord]; exact h))
  filter_upwards [hev] with t ht
  exact ih _ ht

theorem kern1_succ (a : Axis) : KComp.pot.Succ (kern1 a) a := by cases a <;> rfl

theorem KComp.cases4 (k : KComp) : k = .pot ∨ (∃ a, k = kern1 a) ∨ (∃ a b, k = kern2 a b) ∨ ∃ a b c, k = kern3 a b c := by
  cases k
  · exact .inl rfl
  · exact .inr (.inl ⟨.e, rfl⟩)
  · exact .inr (.inl ⟨.n, rfl⟩)
  · exact .inr (.inl ⟨.u, rfl⟩)
  · exact .inr (.inr (.inl ⟨.e, .e, rfl⟩))
  · exact .inr (.inr (.inl ⟨.n, .n, rfl⟩))
  · exact .inr (.inr (.inl ⟨.u, .u, rfl⟩))
  · exact .inr (.inr (.inl ⟨.e, .n, rfl⟩))
  · exact .inr (.inr (.inl ⟨.e, .u, rfl⟩))
  · exact .inr (.inr (.inl ⟨.n, .u, rfl⟩))
  · exact .inr (.inr (.inr ⟨.e, .e, .e, rfl⟩))
  · exact .inr (.inr (.inr ⟨.n, .n, .n, rfl⟩))
  · exact .inr (.inr (.inr ⟨.u, .u, .u, rfl⟩))
  · exact .inr (.inr (.inr ⟨.e, .e, .n, rfl⟩))
  · exact .inr (.inr (.inr ⟨.e, .e, .u, rfl⟩))
  · exact .inr (.inr (.inr ⟨.n, .n, .e, rfl⟩))
  · exact .inr (.inr (.inr ⟨.n, .n, .u, rfl⟩))
  · exact .inr (.inr (.inr ⟨.u, .u, .e, rfl⟩))
  · exact .inr (.inr (.inr ⟨.u, .u, .n, rfl⟩))
  · exact .inr (.inr (.inr ⟨.e, .n, .u, rfl⟩))

/-- Newton's theorem for every kernel -/
theorem newton_kernel {R : ℝ} (hR : 0 ≤ R) (c : Pt) (k : KComp) (p : Pt) (h : R < dist3 p c) :
    ∫ q in ball3 c R, kpp k p q = ballVolume R * kpp k p c := by
  have h0 : ∀ p, R < dist3 p c → ∫ q in ball3 c R, kpp .pot p q = ballVolume R * kpp .pot p c := fun p h => by
    rw [newton_outside hR (hR.trans_lt h) h.le, kpp_pot_dist]; ring
  have h1 := fun a => newton_step hR c (kern1_succ a) h0
  have h2 := fun a b => newton_step hR c (kern_succ b a) (h1 b)
  have h3 := fun a b i => newton_step hR c (kern2_succ a b i) (h2 a i)
  rcases k.cases4 with rfl | ⟨a, rfl⟩ | ⟨a, b, rfl⟩ | ⟨a, b, i, rfl⟩
  · exact h0 p h
  · exact h1 a p h
  · exact h2 a b p h
  · exact h3 a b i p h

/-! ### parity, and the mean value property -/

/-- the number of letters of a kernel, odd or even -/
def KComp.parity (k : KComp) : ℝ := if (k.index.1 + k.index.2.1 + k.index.2.2) % 2 = 0 then 1 else -1

theorem KComp.parity_sq (k : KComp) : k.parity * k.parity = 1 := by
  unfold parity; split <;> norm_num

theorem kpp_exchange (k : KComp) (p q : Pt) : kpp k p q = k.parity * kpp k q p := by
  unfold kpp
  rw [← neg_sub q.e, ← neg_sub q.n, ← neg_sub q.u]
  cases k <;> simp only [kp, rad_neg, KComp.parity, KComp.index] <;> norm_num <;> ring

/-- the kernel averaged over the observation points in a ball -/
theorem mean_kernel {R : ℝ} (hR : 0 ≤ R) (c : Pt) (k : KComp) (q : Pt) (h : q ∉ ball3 c R) :
    ∫ p in ball3 c R, kpp k p q = ballVolume R * kpp k c q := by
  have h' : R < dist3 q c := by
    rw [dist3_eq_rad, rad_sub_comm, ← dist3_eq_rad]
    exact not_le.mp h
  simp only [kpp_exchange k _ q]
  rw [integral_const_mul, newton_kernel hR c k q h']; ring

theorem mean_region {P : Box} {R : ℝ} (hR : 0 ≤ R) (c : Pt) (k : KComp) (h : Disjoint (ball3 c R) P.region) :
    IntegrableOn (fun p => ∫ q in P.region, kpp k p q) (ball3 c R) ∧
    ∫ p in ball3 c R, ∫ q in P.region, kpp k p q = ballVolume R * ∫ q in P.region, kpp k c q := by
  have hi : Integrable (fun w : Pt × Pt => kpp k w.1 w.2)
      ((volume.restrict (ball3 c R)).prod (volume.restrict P.region)) := by
    rw [Measure.prod_restrict]
    refine ContinuousOn.integrableOn_compact ((isCompact_ball3 hR c).prod (isCompact_region P)) ?_
    exact (continuousOn_kpp k).mono fun w hw he => Set.disjoint_left.1 h hw.1 (he ▸ hw.2)
  refine ⟨hi.integral_prod_left, ?_⟩
  rw [integral_integral_swap (f := fun p q => kpp k p q) hi, ← integral_const_mul]
  refine setIntegral_congr_fun (measurableSet_region P) fun q hq => ?_
  exact mean_kernel hR c k q fun hq' => Set.disjoint_left.1 h hq' hq

theorem area_disc {a : ℝ} (ha : 0 ≤ a) :
    ∫ v : ℝ × ℝ, {v : ℝ × ℝ | v.1 ^ 2 + v.2 ^ 2 ≤ a ^ 2}.indicator (fun _ => (1 : ℝ)) v = π * a ^ 2 := by
  rw [← integral_comp_polarCoord_symm]
  have e : ∀ p ∈ polarCoord.target,
      p.1 • {v : ℝ × ℝ | v.1 ^ 2 + v.2 ^ 2 ≤ a ^ 2}.indicator (fun _ => (1 : ℝ))
        (polarCoord.symm p) = (Ioc 0 a).indicator (fun r => r) p.1 * 1 := by
    rintro ⟨r, t⟩ ⟨hr, -⟩
    have hr0 : 0 < r := hr
    have s := Real.cos_sq_add_sin_sq t
    have e1 : (r * cos t) ^ 2 + (r * sin t) ^ 2 = r ^ 2 := by linear_combination r ^ 2 * s
    rw [polarCoord_symm_apply]
    by_cases hra : r ≤ a
    · rw [indicator_of_mem, indicator_of_mem (show r ∈ Ioc 0 a from ⟨hr0, hra⟩)]
      · simp only [smul_eq_mul, mul_one]
      · show (r * cos t) ^ 2 + (r * sin t) ^ 2 ≤ a ^ 2
        rw [e1]; gcongr
    · rw [indicator_of_notMem, indicator_of_notMem (fun h' : r ∈ Ioc 0 a => hra h'.2)]
      · simp
      · show ¬ (r * cos t) ^ 2 + (r * sin t) ^ 2 ≤ a ^ 2
        rw [e1, not_le]
        exact pow_lt_pow_left₀ (not_le.mp hra) ha (by norm_num)
  rw [setIntegral_congr_fun polarCoord.open_target.measurableSet e]
  rw [polarCoord_target]
  have := setIntegral_prod_mul (μ := (volume : Measure ℝ)) (ν := (volume : Measure ℝ))
    ((Ioc 0 a).indicator (fun r : ℝ => r)) (fun _ : ℝ => (1 : ℝ)) (Ioi 0) (Ioo (-π) π)
  rw [← Measure.volume_eq_prod] at this
  rw [this, setIntegral_indicator measurableSet_Ioc, show Ioi (0 : ℝ) ∩ Ioc 0 a = Ioc 0 a by
    ext x; simp only [mem_inter_iff, mem_Ioi, mem_Ioc]; tauto, ← intervalIntegral.integral_of_le ha, integral_id]
  simp only [integral_const, smul_eq_mul, mul_one]
  rw [measureReal_restrict_apply_univ, Real.volume_real_Ioo_of_le (by linarith [Real.pi_pos])]
  ring

theorem volume_ball3 {R : ℝ} (hR : 0 ≤ R) (c : Pt) : volume.real (ball3 c R) = ballVolume R := by
  have h1 : volume.real (ball3 c R) = ∫ q in ball3 c R, (1 : ℝ) := by simp
  rw [h1, integral_ball3 hR c]
  have hi : Integrable ((ball0 R).indicator (fun _ : Pt => (1 : ℝ))) :=
    (integrable_indicator_iff (measurableSet_ball0 R)).2
      (integrableOn_const (isCompact_ball0 hR).measure_lt_top.ne (by simp))
  rw [← integral_indicator (measurableSet_ball0 R)]
  rw [Measure.volume_eq_prod] at hi ⊢
  rw [integral_prod _ hi]
  have e : ∀ x : ℝ, ∫ v : ℝ × ℝ, (ball0 R).indicator (fun _ : Pt => (1 : ℝ)) (x, v) =
      (Icc (-R) R).indicator (fun x => π * (R ^ 2 - x ^ 2)) x := fun x => by
    by_cases hx : x ∈ Icc (-R) R
    · rw [indicator_of_mem hx]
      have hx2 : 0 ≤ R ^ 2 - x ^ 2 := by nlinarith [hx.1, hx.2]
      have h := area_disc (Real.sqrt_nonneg (R ^ 2 - x ^ 2))
      rw [Real.sq_sqrt hx2] at h
      rw [← h]
      congr 1; funext v
      have e : ((x, v) : Pt) ∈ ball0 R ↔ v ∈ {v : ℝ × ℝ | v.1 ^ 2 + v.2 ^ 2 ≤ R ^ 2 - x ^ 2} := by
        show x ^ 2 + v.1 ^ 2 + v.2 ^ 2 ≤ R ^ 2 ↔ v.1 ^ 2 + v.2 ^ 2 ≤ R ^ 2 - x ^ 2
        constructor <;> intro h <;> linarith
      by_cases hv : v ∈ {v : ℝ × ℝ | v.1 ^ 2 + v.2 ^ 2 ≤ R ^ 2 - x ^ 2}
      · rw [indicator_of_mem hv, indicator_of_mem (e.2 hv)]
      · rw [indicator_of_notMem hv, indicator_of_notMem (fun h => hv (e.1 h))]
    · rw [indicator_of_notMem hx]
      have : ∀ v : ℝ × ℝ, (ball0 R).indicator (fun _ : Pt => (1 : ℝ)) (x, v) = 0 := fun v => by
        apply indicator_of_notMem
        intro h
        exact hx (ball0_subset_cube hR h).1
      simp only [this, integral_zero]
  refine Eq.trans (integral_congr_ae (.of_forall e)) ?_
  rw [integral_indicator measurableSet_Icc, integral_Icc_eq_integral_Ioc,
    ← intervalIntegral.integral_of_le (by linarith), intervalIntegral.integral_const_mul,
    intervalIntegral.integral_sub (Continuous.intervalIntegrable (by fun_prop) _ _)
      (Continuous.intervalIntegrable (by fun_prop) _ _), integral_pow]
  simp only [intervalIntegral.integral_const, smul_eq_mul, ballVolume]
  push_cast; ring

end Choclo
