import Verif.Lemmas.Ball2

/-! # C78: Newton's theorem on balls. C79: the mean value property -/

namespace Choclo

open Real Set MeasureTheory

/-! ## C78 -/

theorem center_ne {p c : Pt} {R : ℝ} (hR : 0 ≤ R) (h : R < dist3 p c) : p ≠ c := fun e => by
  rw [e, dist3_eq_zero.mpr rfl] at h; linarith

/-- `ballVolume` is the volume of the ball. -/
theorem C78_volume {R : ℝ} (hR : 0 ≤ R) (c : Pt) : volume.real (ball3 c R) = 4 / 3 * π * R ^ 3 :=
  volume_ball3 hR c

/-- **C78.** Newton's theorem: outside a homogeneous ball, summing (integrating) any of the ten
functions `choclo.point.gravity_*` over its mass elements gives what the same function returns for
its whole mass concentrated at the centre. -/
theorem C78_point_mass {R : ℝ} (hR : 0 ≤ R) (g : GComp) (p c : Pt) (ρ : ℝ) (h : R < dist3 p c) :
    IsVolumeIntegral (onPair (A := Exact) (pointGravity g) p c (ρ * (4 / 3 * π * R ^ 3) : ℝ))
      (fun q => onPair (A := Exact) (pointGravity g) p q ρ) (ball3 c R) p := by
  refine ⟨fun q => Gc * ρ * kpp g.toK p q, fun q _ hq => Ex.pointGravity_fin _ (Ne.symm hq) ρ,
    (integrableOn_kpp_set (isCompact_ball3 hR c) _ (notMem_ball3 h)).const_mul _, ?_⟩
  rw [integral_const_mul, newton_kernel hR c _ p h]
  have := Ex.pointGravity_fin g (center_ne hR h) (ρ * (4 / 3 * π * R ^ 3))
  unfold Returns
  rw [this]
  congr 2
  unfold ballVolume kpp; ring

/-- on the surface of the ball the potential still is that of the point mass -/
theorem C78_surface {R : ℝ} (hR : 0 < R) (p c : Pt) (ρ : ℝ) (h : dist3 p c = R) :
    IsVolumeIntegral (onPair (A := Exact) point.gravity_pot p c (ρ * (4 / 3 * π * R ^ 3) : ℝ))
      (fun q => onPair (A := Exact) point.gravity_pot p q ρ) (ball3 c R) p := by
  have hd : 0 < dist3 p c := by rw [h]; exact hR
  have hpc : p ≠ c := fun e => by rw [dist3_eq_zero.mpr e] at hd; exact lt_irrefl _ hd
  have hn := newton_outside hR.le hd h.ge
  refine ⟨fun q => Gc * ρ * kpp .pot p q, fun q _ hq => Ex.pointGravity_fin .pot (Ne.symm hq) ρ, ?_, ?_⟩
  · refine Integrable.const_mul ?_ _
    by_contra hi
    have := integral_undef hi
    rw [this] at hn
    have : 0 < ballVolume R / dist3 p c := by unfold ballVolume; positivity
    linarith
  · rw [integral_const_mul, hn]
    have := Ex.pointGravity_fin .pot hpc (ρ * (4 / 3 * π * R ^ 3))
    unfold Returns
    rw [show point.gravity_pot (A := Exact) = pointGravity .pot from rfl, this]
    congr 2
    rw [show kp GComp.pot.toK (p.e - c.e) (p.n - c.n) (p.u - c.u) = kpp .pot p c from rfl, kpp_pot_dist]
    unfold ballVolume; ring

/-- Inside the ball, the elements' potentials sum to `2 pi G rho (R^2 - d^2 / 3)`, `d` the distance
from the centre. -/
theorem C78_inside {R : ℝ} (hR : 0 < R) (p c : Pt) (ρ : ℝ) (h : dist3 p c ≤ R) :
    ∃ F : Pt → ℝ, (∀ q ∈ ball3 c R, q ≠ p → Returns (onPair (A := Exact) point.gravity_pot p q ρ) (F q)) ∧
      IntegrableOn F (ball3 c R) ∧
      ∫ q in ball3 c R, F q = 2 * π * 6.6743e-11 * ρ * (R ^ 2 - dist3 p c ^ 2 / 3) := by
  have hn := newton_inside h
  have h0 : 0 ≤ dist3 p c := Real.sqrt_nonneg _
  refine ⟨fun q => Gc * ρ * kpp .pot p q, fun q _ hq => Ex.pointGravity_fin .pot (Ne.symm hq) ρ, ?_, ?_⟩
  · refine Integrable.const_mul ?_ _
    by_contra hi
    have := integral_undef hi
    rw [this] at hn
    have : 0 < R ^ 2 - dist3 p c ^ 2 / 3 := by nlinarith
    have := Real.pi_pos
    nlinarith
  · rw [integral_const_mul, hn, Gc]; ring

/-- **C78.** Outside a uniformly magnetized ball, `choclo.dipole.magnetic_*` integrated over its
elements is what the function returns for its total moment at the centre. -/
theorem C78_dipole {R : ℝ} (hR : 0 ≤ R) (a : Axis) (p c : Pt) (M : Vec) (h : R < dist3 p c) :
    IsVolumeIntegral (onPair (A := Exact) (dipoleMagnetic a) p c (4 / 3 * π * R ^ 3 * M.e : ℝ)
        (4 / 3 * π * R ^ 3 * M.n : ℝ) (4 / 3 * π * R ^ 3 * M.u : ℝ))
      (fun q => onPair (A := Exact) (dipoleMagnetic a) p q M.e M.n M.u) (ball3 c R) p := by
  have i := fun k => integrableOn_kpp_set (isCompact_ball3 hR c) k (notMem_ball3 h)
  refine ⟨fun q => mu0 / 4 / π *
      (kpp (kern2 a .e) p q * M.e + kpp (kern2 a .n) p q * M.n + kpp (kern2 a .u) p q * M.u),
    fun q _ hq => dipole_fin a (Ne.symm hq) M,
    ((((i _).mul_const _).add ((i _).mul_const _)).add ((i _).mul_const _)).const_mul _, ?_⟩
  rw [integral_const_mul, integral_lin3 (i _) (i _) (i _)]
  simp only [newton_kernel hR c _ p h]
  have := dipole_fin a (center_ne hR h) (4 / 3 * π * R ^ 3 * M.e, 4 / 3 * π * R ^ 3 * M.n, 4 / 3 * π * R ^ 3 * M.u)
  unfold Returns
  rw [show onPair (A := Exact) (dipoleMagnetic a) p c (4 / 3 * π * R ^ 3 * M.e : ℝ)
        (4 / 3 * π * R ^ 3 * M.n : ℝ) (4 / 3 * π * R ^ 3 * M.u : ℝ) = _ from this]
  congr 2
  unfold Bd ballVolume kpp; simp only [Pt.e, Pt.n, Pt.u]; ring

/-- **C78.** The same for all twenty kernels `choclo.point.kernel_*`. -/
theorem C78_kernel {R : ℝ} (hR : 0 ≤ R) (k : KComp) (p c : Pt) (h : R < dist3 p c) :
    ∃ (F : Pt → ℝ) (v : ℝ), (∀ q ∈ ball3 c R, Returns (callKernel (A := Exact) k p q) (F q)) ∧
      Returns (callKernel (A := Exact) k p c) v ∧ IntegrableOn F (ball3 c R) ∧
      ∫ q in ball3 c R, F q = 4 / 3 * π * R ^ 3 * v :=
  ⟨fun q => kpp k p q, kpp k p c, fun _ hq => Ex.callKernel_fin k (fun e => notMem_ball3 h (e ▸ hq)),
    Ex.callKernel_fin k (center_ne hR h), integrableOn_kpp_set (isCompact_ball3 hR c) k (notMem_ball3 h),
    newton_kernel hR c k p h⟩

/-- a point outside, one on and one inside the unit ball -/
example : (1 : ℝ) < dist3 (2, 0, 0) (0, 0, 0) ∧ dist3 (1, 0, 0) (0, 0, 0) = 1 ∧
    dist3 (1 / 2, 0, 0) (0, 0, 0) ≤ 1 := by
  have e : ∀ t : ℝ, 0 ≤ t → dist3 (t, 0, 0) (0, 0, 0) = t := fun t ht => by
    unfold dist3; simp only [Pt.e, Pt.n, Pt.u]
    rw [show (t - 0) ^ 2 + (0 - 0) ^ 2 + (0 - 0) ^ 2 = t ^ 2 by ring]
    exact Real.sqrt_sq ht
  rw [e _ (by norm_num), e _ (by norm_num), e _ (by norm_num)]; norm_num

/-! ## C79 -/

/-- a function with the mean value property on a ball -/
def HasMean (F : Pt → ℝ) (c : Pt) (R : ℝ) : Prop :=
  IntegrableOn F (ball3 c R) ∧ ∫ p in ball3 c R, F p = ballVolume R * F c

theorem HasMean.average {F : Pt → ℝ} {c : Pt} {R : ℝ} (hR : 0 < R) (h : HasMean F c R) :
    ⨍ p in ball3 c R, F p = F c := by
  rw [setAverage_eq, h.2, volume_ball3 hR.le, smul_eq_mul]
  have : ballVolume R ≠ 0 := by unfold ballVolume; have := Real.pi_pos; positivity
  field_simp

theorem HasMean.const_mul {F : Pt → ℝ} {c : Pt} {R : ℝ} (h : HasMean F c R) (k : ℝ) :
    HasMean (fun p => k * F p) c R :=
  ⟨h.1.const_mul k, by rw [integral_const_mul, h.2]; ring⟩

theorem HasMean.add {F G : Pt → ℝ} {c : Pt} {R : ℝ} (h : HasMean F c R) (h' : HasMean G c R) :
    HasMean (fun p => F p + G p) c R :=
  ⟨h.1.add h'.1, by rw [integral_add h.1 h'.1, h.2, h'.2]; ring⟩

theorem centre_mem_ball {c : Pt} {R : ℝ} (hR : 0 ≤ R) : c ∈ ball3 c R := by
  show dist3 c c ≤ R
  rw [dist3_eq_zero.mpr rfl]; exact hR

theorem HasMean.congr {F G : Pt → ℝ} {c : Pt} {R : ℝ} (hR : 0 ≤ R) (h : HasMean F c R)
    (he : ∀ p ∈ ball3 c R, F p = G p) : HasMean G c R := by
  have hm := (isClosed_ball3 c R).measurableSet
  refine ⟨h.1.congr_fun he hm, ?_⟩
  rw [← setIntegral_congr_fun hm he, h.2, he c (centre_mem_ball hR)]

theorem HasMean.exists_le {F : Pt → ℝ} {c : Pt} {R : ℝ} (hR : 0 < R) (h : HasMean F c R) :
    ∃ p ∈ ball3 c R, p ≠ c ∧ F p ≤ F c := by
  by_contra hn
  push Not at hn
  have hm := (isClosed_ball3 c R).measurableSet
  have hv : volume.real (ball3 c R) ≠ 0 := by
    rw [volume_ball3 hR.le]; unfold ballVolume; have := Real.pi_pos; positivity
  have hfin : volume (ball3 c R) ≠ ⊤ := (isCompact_ball3 hR.le c).measure_lt_top.ne
  have hc : IntegrableOn (fun _ : Pt => F c) (ball3 c R) := integrableOn_const hfin (by simp)
  have h0 : ∫ p in ball3 c R, (F p - F c) = 0 := by
    rw [integral_sub h.1 hc, h.2, setIntegral_const, volume_ball3 hR.le, smul_eq_mul]; ring
  have hnn : 0 ≤ᵐ[volume.restrict (ball3 c R)] fun p => F p - F c := by
    filter_upwards [ae_restrict_mem hm] with p hp
    by_cases hpc : p = c
    · rw [hpc]; simp
    · exact sub_nonneg.mpr (hn p hp hpc).le
  have hz := (setIntegral_eq_zero_iff_of_nonneg_ae hnn (h.1.sub hc)).1 h0
  have hne : ∀ᵐ p ∂(volume.restrict (ball3 c R)), p ≠ c :=
    ae_restrict_of_ae (by
      rw [ae_iff]; simp only [ne_eq, not_not]
      exact measure_singleton c)
  have hff : ∀ᵐ p ∂(volume.restrict (ball3 c R)), False := by
    filter_upwards [hz, hne, ae_restrict_mem hm] with p h1 h2 h3
    have h1' : F p - F c = 0 := h1
    have := hn p h3 h2
    linarith
  have : volume.restrict (ball3 c R) = 0 := ae_eq_bot.1 (Filter.eventually_false_iff_eq_bot.1 hff)
  apply hv
  rw [← measureReal_restrict_apply_univ, this]; simp

theorem HasMean.exists_ge {F : Pt → ℝ} {c : Pt} {R : ℝ} (hR : 0 < R) (h : HasMean F c R) :
    ∃ p ∈ ball3 c R, p ≠ c ∧ F c ≤ F p := by
  obtain ⟨p, h1, h2, h3⟩ := (h.const_mul (-1)).exists_le hR
  exact ⟨p, h1, h2, by linarith⟩

variable {P : Box}

theorem Vc_exterior_integral (hP : P.Ordered) (g : GComp) {p : Pt} (h : p ∉ P.region) :
    Vc g p P = ∫ q in P.region, kpp g.toK p q := by
  cases g
  · exact (integral_low hP .pot (by decide) p).2.symm
  · exact (integral_low hP .e (by decide) p).2.symm
  · exact (integral_low hP .n (by decide) p).2.symm
  · exact (integral_low hP .u (by decide) p).2.symm
  · exact Vc_tensor_integral hP .e .e h
  · exact Vc_tensor_integral hP .n .n h
  · exact Vc_tensor_integral hP .u .u h
  · exact Vc_tensor_integral hP .e .n h
  · exact Vc_tensor_integral hP .e .u h
  · exact Vc_tensor_integral hP .n .u h

theorem mean_gravity (hP : P.Ordered) (g : GComp) {c : Pt} {R : ℝ} (hR : 0 ≤ R)
    (h : Disjoint (ball3 c R) P.region) : HasMean (fun p => Vc g p P) c R := by
  have hx : ∀ p ∈ ball3 c R, p ∉ P.region := fun p hp hp' => Set.disjoint_left.1 h hp hp'
  have m := mean_region hR c g.toK h
  exact HasMean.congr hR (F := fun p => ∫ q in P.region, kpp g.toK p q) m
    fun p hp => (Vc_exterior_integral hP g (hx p hp)).symm

theorem mean_magnetic (hP : P.Ordered) (g : MComp) {c : Pt} {R : ℝ} (hR : 0 ≤ R)
    (h : Disjoint (ball3 c R) P.region) (M : Vec) :
    HasMean (fun p => mu0 / 4 / π * Bc g p P M.e M.n M.u) c R := by
  have hx : ∀ p ∈ ball3 c R, p ∉ P.region := fun p hp hp' => Set.disjoint_left.1 h hp hp'
  have m : ∀ k, HasMean (fun p => ∫ q in P.region, kpp k p q) c R := fun k => mean_region hR c k h
  have hf : ∀ a : Axis, HasMean (fun p => mu0 / 4 / π * Bc a.field p P M.e M.n M.u) c R := fun a => by
    refine HasMean.congr hR (((((m (kern2 a .e)).const_mul M.e).add ((m (kern2 a .n)).const_mul M.n)).add
      ((m (kern2 a .u)).const_mul M.u)).const_mul (mu0 / 4 / π)) fun p hp => ?_
    have i := fun c => integrableOn_kpp (P := P) c (hx p hp)
    rw [Bc_field_integral hP a (hx p hp) M, integral_const_mul, integral_lin3 (i _) (i _) (i _)]
    ring
  have hg : ∀ a b : Axis, HasMean (fun p => mu0 / 4 / π * Bc (gradComp a b) p P M.e M.n M.u) c R := fun a b => by
    refine HasMean.congr hR (((((m (kern3 a b .e)).const_mul M.e).add ((m (kern3 a b .n)).const_mul M.n)).add
      ((m (kern3 a b .u)).const_mul M.u)).const_mul (mu0 / 4 / π)) fun p hp => ?_
    have i := fun c => integrableOn_kpp (P := P) c (hx p hp)
    rw [Bc_grad_integral hP a b (hx p hp) M, integral_lin3 (i _) (i _) (i _)]
    ring
  cases g
  · exact hf .e
  · exact hf .n
  · exact hf .u
  · exact hg .e .e
  · exact hg .n .n
  · exact hg .u .u
  · exact hg .e .n
  · exact hg .e .u
  · exact hg .n .u

/-- **C79.** Mean value property: outside a prism, every component `choclo.prism.gravity_*` averaged
over the observation points of any ball not touching the prism equals its value at the centre of the
ball; it therefore has neither a strict maximum nor a strict minimum there. -/
theorem C79_gravity (hP : P.Ordered) (g : GComp) (c : Pt) {R : ℝ} (hR : 0 < R)
    (h : Disjoint (ball3 c R) P.region) (ρ : ℝ) :
    ∃ F : Pt → ℝ, (∀ p ∈ ball3 c R, Returns (onPrism (A := Exact) (prismGravity g) p P ρ) (F p)) ∧
      IntegrableOn F (ball3 c R) ∧ ⨍ p in ball3 c R, F p = F c ∧
      (∃ p ∈ ball3 c R, p ≠ c ∧ F p ≤ F c) ∧ ∃ p ∈ ball3 c R, p ≠ c ∧ F c ≤ F p := by
  have m := (mean_gravity hP g hR.le h).const_mul (Gc * ρ)
  exact ⟨fun p => Gc * ρ * Vc g p P, fun p hp => Ex.gravity_returns hP
    (exterior_singular hP (fun hp' => Set.disjoint_left.1 h hp hp') _) ρ, m.1, m.average hR,
    m.exists_le hR, m.exists_ge hR⟩

/-- **C79.** The same for every component `choclo.prism.magnetic_*`: field and gradients. -/
theorem C79_magnetic (hP : P.Ordered) (g : MComp) (c : Pt) {R : ℝ} (hR : 0 < R)
    (h : Disjoint (ball3 c R) P.region) (M : Vec) :
    ∃ F : Pt → ℝ, (∀ p ∈ ball3 c R, Returns (onPrism (A := Exact) (prismMagnetic g) p P M.e M.n M.u) (F p)) ∧
      IntegrableOn F (ball3 c R) ∧ ⨍ p in ball3 c R, F p = F c ∧
      (∃ p ∈ ball3 c R, p ≠ c ∧ F p ≤ F c) ∧ ∃ p ∈ ball3 c R, p ≠ c ∧ F c ≤ F p := by
  have m := mean_magnetic hP g hR.le h M
  have hx : ∀ p ∈ ball3 c R, p ∉ P.region := fun p hp hp' => Set.disjoint_left.1 h hp hp'
  exact ⟨fun p => mu0 / 4 / π * Bc g p P M.e M.n M.u, fun p hp => Ex.magnetic_returns hP
    (exterior_edges hP (hx p hp)) (fun h' => hx p hp (inside_subset_region h')) _ _ _, m.1, m.average hR,
    m.exists_le hR, m.exists_ge hR⟩

/-- **C79.** And for the point mass: the components `choclo.point.gravity_*` averaged over a ball of
observation points not containing it. -/
theorem C79_point (g : GComp) (c q : Pt) {R : ℝ} (hR : 0 < R) (h : q ∉ ball3 c R) (m : ℝ) :
    ∃ F : Pt → ℝ, (∀ p ∈ ball3 c R, Returns (onPair (A := Exact) (pointGravity g) p q m) (F p)) ∧
      IntegrableOn F (ball3 c R) ∧ ⨍ p in ball3 c R, F p = F c := by
  have hn : ∀ p ∈ ball3 c R, p ≠ q := fun p hp e => h (e ▸ hp)
  have hm : HasMean (fun p => kpp g.toK p q) c R := by
    refine ⟨?_, mean_kernel hR.le c _ q h⟩
    simp only [kpp_exchange g.toK _ q]
    exact (integrableOn_kpp_set (isCompact_ball3 hR.le c) _ h).const_mul _
  have m' := hm.const_mul (Gc * m)
  exact ⟨fun p => Gc * m * kpp g.toK p q, fun p hp => Ex.pointGravity_fin g (hn p hp) m, m'.1, m'.average hR⟩

theorem vec_exists_ge {F : Axis → Pt → ℝ} {c : Pt} {R : ℝ} (hR : 0 < R) (h : ∀ a, HasMean (F a) c R) :
    ∃ p ∈ ball3 c R, p ≠ c ∧
      F .e c ^ 2 + F .n c ^ 2 + F .u c ^ 2 ≤ F .e p ^ 2 + F .n p ^ 2 + F .u p ^ 2 := by
  obtain ⟨p, h1, h2, h3⟩ := ((((h .e).const_mul (F .e c)).add ((h .n).const_mul (F .n c))).add
    ((h .u).const_mul (F .u c))).exists_ge hR
  refine ⟨p, h1, h2, ?_⟩
  nlinarith [sq_nonneg (F .e c - F .e p), sq_nonneg (F .n c - F .n p), sq_nonneg (F .u c - F .u p)]

/-- **C79.** The strength of gravity and of the magnetic field have no strict maximum outside the
prism. -/
theorem C79_strength (hP : P.Ordered) (c : Pt) {R : ℝ} (hR : 0 < R)
    (h : Disjoint (ball3 c R) P.region) (ρ : ℝ) (M : Vec) :
    ∃ g B : Axis → Pt → ℝ,
      (∀ a, ∀ p ∈ ball3 c R, Returns (onPrism (A := Exact) (prismGravity a.acc) p P ρ) (g a p) ∧
        Returns (onPrism (A := Exact) (prismMagnetic a.field) p P M.e M.n M.u) (B a p)) ∧
      (∃ p ∈ ball3 c R, p ≠ c ∧
        g .e c ^ 2 + g .n c ^ 2 + g .u c ^ 2 ≤ g .e p ^ 2 + g .n p ^ 2 + g .u p ^ 2) ∧
      ∃ p ∈ ball3 c R, p ≠ c ∧
        B .e c ^ 2 + B .n c ^ 2 + B .u c ^ 2 ≤ B .e p ^ 2 + B .n p ^ 2 + B .u p ^ 2 := by
  have hx : ∀ p ∈ ball3 c R, p ∉ P.region := fun p hp hp' => Set.disjoint_left.1 h hp hp'
  exact ⟨fun a p => Gc * ρ * Vc a.acc p P, fun a p => mu0 / 4 / π * Bc a.field p P M.e M.n M.u,
    fun a p hp => ⟨acc_returns a p P ρ, Ex.magnetic_returns hP
      (exterior_edges hP (hx p hp)) (fun h' => hx p hp (inside_subset_region h')) _ _ _⟩,
    vec_exists_ge hR fun a => (mean_gravity hP a.acc hR.le h).const_mul (Gc * ρ),
    vec_exists_ge hR fun a => mean_magnetic hP a.field hR.le h M⟩

/-- a ball that does not touch a prism -/
example : exBox.Ordered ∧ Disjoint (ball3 (5, 0, 0) 1) exBox.region := by
  refine ⟨exBox_ordered, Set.disjoint_left.2 fun q hq hq' => ?_⟩
  have h1 : dist3 (5, 0, 0) q ≤ 1 := hq
  have h2 : q.e ≤ exBox.east := hq'.1.2
  have h3 : |(5 : ℝ) - q.e| ≤ dist3 (5, 0, 0) q := by
    unfold dist3
    refine Real.abs_le_sqrt ?_
    simp only [Pt.e, Pt.n, Pt.u]
    nlinarith [sq_nonneg (0 - q.2.1), sq_nonneg (0 - q.2.2)]
  have h4 := le_abs_self ((5 : ℝ) - q.e)
  simp only [exBox] at h2
  linarith

end Choclo
