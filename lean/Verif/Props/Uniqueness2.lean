import Verif.Props.Uniqueness
import Verif.Props.Euler
import Verif.Lemmas.Taylor

/-! # C117: point sources are determined by a patch of data, and no prism looks like a point source -/

namespace Choclo

open Real Set MeasureTheory Filter Topology

variable {P Q : Box}

/-- a point as a degenerate box -/
def pointBox (q : Pt) : Box := ⟨q.e, q.e, q.n, q.n, q.u, q.u⟩

theorem region_pointBox (q p : Pt) : p ∈ (pointBox q).region ↔ p = q := by
  simp only [Box.region, pointBox, Icc_self, mem_prod, mem_singleton_iff]
  constructor
  · rintro ⟨h1, h2, h3⟩; exact Prod.ext h1 (Prod.ext h2 h3)
  · rintro rfl; exact ⟨rfl, rfl, rfl⟩

theorem lineAnalytic_kpp (c : KComp) (q : Pt) : LineAnalytic (fun p => kpp c p q) (pointBox q).regionᶜ := by
  intro p d t ht
  have hne : lineR p d t ≠ q := fun h => ht ((region_pointBox q _).2 h)
  have hs : sqC p d ((t : ℂ), q) ∈ Complex.slitPlane := by
    have e : sqC p d ((t : ℂ), q) = ((rad ((lineR p d t).e - q.e) ((lineR p d t).n - q.n) ((lineR p d t).u - q.u) ^ 2 : ℝ) : ℂ) := by
      rw [rad_sq]
      simp only [sqC, lineR, Pt.e, Pt.n, Pt.u]
      push_cast
      rfl
    rw [e, Complex.ofReal_mem_slitPlane]
    have := rad_ne hne
    positivity
  have ho : {z : ℂ | sqC p d (z, q) ∈ Complex.slitPlane} ∈ 𝓝 (t : ℂ) :=
    (Complex.isOpen_slitPlane.preimage ((continuous_sqC p d).comp (by fun_prop : Continuous fun z : ℂ => (z, q)))).mem_nhds hs
  have key : AnalyticAt ℂ (fun z => lineC c p d z q) (t : ℂ) :=
    DifferentiableOn.analyticAt (s := {z : ℂ | sqC p d (z, q) ∈ Complex.slitPlane})
      (fun z hz => (differentiableAt_lineC c p d hz).differentiableWithinAt) ho
  refine key.re_ofReal.congr (Eventually.of_forall fun s => ?_)
  simp only [lineC_real, Complex.ofReal_re]

theorem continuousAt_kpp (c : KComp) {p q : Pt} (h : p ≠ q) : ContinuousAt (fun p => kpp c p q) p :=
  (smooth_kpp c h).continuousAt

/-- degree of homogeneity -/
def GComp.deg (c : GComp) : ℕ := c.letters + 1

theorem kpp_ray (c : GComp) (q : Pt) {t : ℝ} (ht : 0 < t) :
    kpp c.toK (lineR q (1, 2, 3) t) q * t ^ c.deg = kp c.toK 1 2 3 := by
  have hr : rad (t * 1) (t * 2) (t * 3) = t * rad 1 2 3 := by
    unfold rad
    rw [show (t * 1) ^ 2 + (t * 2) ^ 2 + (t * 3) ^ 2 = t ^ 2 * (1 ^ 2 + 2 ^ 2 + 3 ^ 2) by ring,
      Real.sqrt_mul (sq_nonneg t), Real.sqrt_sq ht.le]
  have h0 : rad 1 2 3 ≠ 0 := by
    unfold rad
    exact (Real.sqrt_pos.2 (by norm_num)).ne'
  have e : ∀ x y : ℝ, x + y - x = y := fun x y => by ring
  unfold kpp
  simp only [lineR, Pt.e, Pt.n, Pt.u, e]
  cases c <;> simp only [GComp.toK, kp, hr, GComp.deg, GComp.letters, GComp.index] <;> field_simp <;> ring

theorem kp_123 (c : GComp) : kp c.toK 1 2 3 ≠ 0 := by
  have h2 : rad 1 2 3 ^ 2 = 14 := by rw [rad_sq]; norm_num
  have h0 : rad 1 2 3 ≠ 0 := fun h => by rw [h] at h2; norm_num at h2
  cases c <;> simp only [GComp.toK, kp]
  all_goals (intro h; field_simp at h; nlinarith)

/-- a function that is `K / t ^ n` on a ray, with `K ≠ 0`, has no limit -/
theorem no_limit_ray {f : Pt → ℝ} {q : Pt} {K : ℝ} (hK : K ≠ 0) {n : ℕ} (hn : n ≠ 0)
    (h : ∀ t > 0, f (lineR q (1, 2, 3) t) * t ^ n = K) (w : ℝ) : ¬Tendsto f (𝓝[≠] q) (𝓝 w) := by
  intro hw
  have hp : Tendsto (lineR q (1, 2, 3)) (𝓝[>] 0) (𝓝[≠] q) := by
    refine tendsto_nhdsWithin_of_tendsto_nhds_of_eventually_within _ ?_ ?_
    · have := (continuous_lineR q (1, 2, 3)).tendsto 0
      rw [lineR_zero] at this
      exact this.mono_left nhdsWithin_le_nhds
    · filter_upwards [self_mem_nhdsWithin] with t ht
      intro h'
      have h1 := congrArg Prod.fst (show lineR q (1, 2, 3) t = q from h')
      simp only [lineR, Pt.e, mul_one] at h1
      have ht' : (0:ℝ) < t := ht
      linarith
  have hz : Tendsto (fun t : ℝ => t ^ n) (𝓝[>] 0) (𝓝 0) := by
    have := (continuous_pow n).tendsto (0 : ℝ)
    rw [zero_pow hn] at this
    exact this.mono_left nhdsWithin_le_nhds
  have h1 := (hw.comp hp).mul hz
  rw [mul_zero] at h1
  have h2 : Tendsto (fun _ : ℝ => K) (𝓝[>] 0) (𝓝 0) := h1.congr' (by
    filter_upwards [self_mem_nhdsWithin] with t ht
    exact h t ht)
  exact hK (tendsto_nhds_unique tendsto_const_nhds h2)

theorem point_call_eq (c : GComp) {p q q' : Pt} (h : p ≠ q) (h' : p ≠ q') (m m' : ℝ) :
    onPair (A := Exact) (pointGravity c) p q m = onPair (A := Exact) (pointGravity c) p q' m' ↔
      Gc * m * kpp c.toK p q = Gc * m' * kpp c.toK p q' := by
  have r1 : Returns _ _ := Ex.pointGravity_fin c h m
  have r2 : Returns _ _ := Ex.pointGravity_fin c h' m'
  constructor
  · intro e
    rw [e] at r1
    exact r1.inj r2
  · intro e
    unfold Returns at r1 r2
    rw [r1, r2]
    exact congrArg (fun x => Except.ok (Fl.fin x)) e

/-- One gravity component on any open patch determines position and mass of a point source. -/
theorem C117_point (c : GComp) (q q' : Pt) {m m' : ℝ} (hm : m ≠ 0) (U : Set Pt) (hU : IsOpen U)
    (hne : ∃ p ∈ U, p ≠ q ∧ p ≠ q')
    (h : ∀ p ∈ U, p ≠ q → p ≠ q' →
      onPair (A := Exact) (pointGravity c) p q m = onPair (A := Exact) (pointGravity c) p q' m') :
    q = q' ∧ m = m' := by
  have hk : Gc * m ≠ 0 := mul_ne_zero Gc_pos.ne' hm
  have nr : ∀ q p : Pt, p ∈ (pointBox q).regionᶜ ↔ p ≠ q := fun q p => not_congr (region_pointBox q p)
  have all : ∀ p, p ≠ q → p ≠ q' → Gc * m * kpp c.toK p q = Gc * m' * kpp c.toK p q' := by
    intro p h1 h2
    obtain ⟨p0, hp0, hp1, hp2⟩ := hne
    exact unique_continuation (isOpen_outside (pointBox q) (pointBox q')) (isPreconnected_outside (pointBox q) (pointBox q'))
      (((lineAnalytic_kpp c.toK q).mono inter_subset_left).const_mul (Gc * m))
      (((lineAnalytic_kpp c.toK q').mono inter_subset_right).const_mul (Gc * m')) hU
      ⟨p0, hp0, (nr q p0).2 hp1, (nr q' p0).2 hp2⟩
      (fun p hp => (point_call_eq c ((nr q p).1 hp.2.1) ((nr q' p).1 hp.2.2) m m').1
        (h p hp.1 ((nr q p).1 hp.2.1) ((nr q' p).1 hp.2.2))) p ⟨(nr q p).2 h1, (nr q' p).2 h2⟩
  have e : q = q' := by
    by_contra hqq
    refine no_limit_ray (f := fun p => kpp c.toK p q) (kp_123 c) (n := c.deg) (Nat.succ_ne_zero _)
      (fun t ht => kpp_ray c q ht) (Gc * m' * kpp c.toK q q' / (Gc * m)) ?_
    have hc : Tendsto (fun p => Gc * m' * kpp c.toK p q' / (Gc * m)) (𝓝[≠] q) (𝓝 (Gc * m' * kpp c.toK q q' / (Gc * m))) :=
      ((continuousAt_const.mul (continuousAt_kpp c.toK hqq)).div_const _).mono_left nhdsWithin_le_nhds
    refine hc.congr' ?_
    filter_upwards [self_mem_nhdsWithin, nhdsWithin_le_nhds (eventually_ne_source hqq)] with p h1 h2
    rw [← all p h1 h2, mul_div_cancel_left₀ _ hk]
  subst e
  refine ⟨rfl, ?_⟩
  have h1 : lineR q (1, 2, 3) 1 ≠ q := by
    intro h'
    have h1 := congrArg Prod.fst h'
    simp only [lineR, Pt.e, mul_one] at h1
    linarith
  have h2 := kpp_ray c q one_pos
  rw [one_pow, mul_one] at h2
  have h3 := all _ h1 h1
  rw [h2] at h3
  exact mul_left_cancel₀ Gc_pos.ne' (mul_right_cancel₀ (kp_123 c) h3)

theorem corner_ne (hP : P.Proper) (q : Pt) : ∃ v, (v = P.lowCorner ∨ v = P.highCorner) ∧ v ≠ q := by
  by_cases h : P.lowCorner = q
  · refine ⟨P.highCorner, .inr rfl, fun h' => ?_⟩
    have := congrArg Prod.fst (h.trans h'.symm)
    exact absurd this (ne_of_lt hP.1)
  · exact ⟨P.lowCorner, .inl rfl, h⟩

theorem prism_point_call_eq (hP : P.Ordered) (c : GComp) {p q : Pt} (h : p ∉ P.region) (h' : p ≠ q) (ρ m : ℝ) :
    onPrism (A := Exact) (prismGravity c) p P ρ = onPair (A := Exact) (pointGravity c) p q m ↔
      Gc * ρ * Vc c p P = Gc * m * kpp c.toK p q := by
  have r1 : Returns _ _ := Ex.gravity_returns hP (exterior_singular hP h c) ρ
  have r2 : Returns _ _ := Ex.pointGravity_fin c h' m
  constructor
  · intro e
    rw [e] at r1
    exact r1.inj r2
  · intro e
    unfold Returns at r1 r2
    rw [r1, r2]
    exact congrArg (fun x => Except.ok (Fl.fin x)) e

/-- No homogeneous prism has the gravity data of a point mass on an open patch. -/
theorem C117_prism_not_point (hP : P.Proper) (c : GComp) {ρ : ℝ} (hρ : ρ ≠ 0) (q : Pt) (m : ℝ) (U : Set Pt)
    (hU : IsOpen U) (hne : ∃ p ∈ U, p ∉ P.region ∧ p ≠ q) :
    ∃ p ∈ U, p ∉ P.region ∧ p ≠ q ∧
      onPrism (A := Exact) (prismGravity c) p P ρ ≠ onPair (A := Exact) (pointGravity c) p q m := by
  by_contra hn
  push Not at hn
  have hO := hP.ordered
  have hk : Gc * ρ ≠ 0 := mul_ne_zero Gc_pos.ne' hρ
  have nr : ∀ q p : Pt, p ∈ (pointBox q).regionᶜ ↔ p ≠ q := fun q p => not_congr (region_pointBox q p)
  have all : ∀ p, p ∉ P.region → p ≠ q → Gc * ρ * Vc c p P = Gc * m * kpp c.toK p q := by
    intro p h1 h2
    obtain ⟨p0, hp0, hp1, hp2⟩ := hne
    exact unique_continuation (isOpen_outside P (pointBox q)) (isPreconnected_outside P (pointBox q))
      (((lineAnalytic_Vc hO c).mono inter_subset_left).const_mul (Gc * ρ))
      (((lineAnalytic_kpp c.toK q).mono inter_subset_right).const_mul (Gc * m)) hU
      ⟨p0, hp0, hp1, (nr q p0).2 hp2⟩
      (fun p hp => (prism_point_call_eq hO c hp.2.1 ((nr q p).1 hp.2.2) ρ m).1
        (hn p hp.1 hp.2.1 ((nr q p).1 hp.2.2))) p ⟨h1, (nr q p).2 h2⟩
  -- pass to a second derivative
  have ev : ∀ (b : Axis) {p : Pt}, p ∉ P.region → p ≠ q →
      ∀ᶠ t in 𝓝 (p.coord b), p.set b t ∉ P.region ∧ p.set b t ≠ q := by
    intro b p h1 h2
    have ho := (isOpen_outside P (pointBox q)).mem_nhds
      (show p ∈ P.regionᶜ ∩ (pointBox q).regionᶜ from ⟨h1, (nr q p).2 h2⟩)
    have hc := (Pt.continuous_set p b).tendsto (p.coord b)
    rw [Pt.set_coord] at hc
    exact (hc.eventually ho).mono fun t ht => ⟨ht.1, (nr q _).1 ht.2⟩
  have kd : ∀ {c c' : KComp} {b : Axis}, c.Succ c' b → ∀ {p : Pt}, p ≠ q →
      HasDerivAt (fun t => kpp c (p.set b t) q) (kpp c' p q) (p.coord b) := by
    intro c c' b hc p h
    have := kpp_deriv hc (p := p) (q := q) (t := p.coord b) (by rwa [Pt.set_coord])
    rwa [Pt.set_coord] at this
  have acc : ∀ a : Axis, (∀ p, p ∉ P.region → p ≠ q → Gc * ρ * Vc a.acc p P = Gc * m * kpp a.acc.toK p q) →
      ∃ a b, ∀ p, p ∉ P.region → p ≠ q → Gc * ρ * Vc (tensor a b) p P = Gc * m * kpp (tensor a b).toK p q := by
    intro a h
    obtain ⟨b, hab⟩ : ∃ b, a ≠ b := by
      cases a
      · exact ⟨.n, by decide⟩
      · exact ⟨.e, by decide⟩
      · exact ⟨.e, by decide⟩
    refine ⟨a, b, fun p h1 h2 => ?_⟩
    have d1 := (hasDerivAt_Vacc_off hab hO (exterior_singular hO h1 _)).const_mul (Gc * ρ)
    have d2 := (kd (c := a.acc.toK) (c' := (tensor a b).toK) (b := b) (by cases a <;> cases b <;> rfl) h2).const_mul (Gc * m)
    refine d1.unique (d2.congr_of_eventuallyEq ?_)
    filter_upwards [ev b h1 h2] with t ht
    exact h _ ht.1 ht.2
  have hc : c = .pot ∨ (∃ a : Axis, c = a.acc) ∨ ∃ a b, c = tensor a b := by
    rcases gcomp_cases c with h | h
    · cases c
      case pot => exact .inl rfl
      case e => exact .inr (.inl ⟨.e, rfl⟩)
      case n => exact .inr (.inl ⟨.n, rfl⟩)
      case u => exact .inr (.inl ⟨.u, rfl⟩)
      all_goals exact absurd h (by decide)
    · exact .inr (.inr h)
  obtain ⟨a, b, hab⟩ : ∃ a b, ∀ p, p ∉ P.region → p ≠ q →
      Gc * ρ * Vc (tensor a b) p P = Gc * m * kpp (tensor a b).toK p q := by
    rcases hc with rfl | ⟨a, rfl⟩ | ⟨a, b, rfl⟩
    · refine acc .e fun p h1 h2 => ?_
      have d1 := (hasDerivAt_Vpot .e p P).const_mul (Gc * ρ)
      have d2 := (kd (c := GComp.pot.toK) (c' := Axis.e.acc.toK) (b := .e) rfl h2).const_mul (Gc * m)
      refine d1.unique (d2.congr_of_eventuallyEq ?_)
      filter_upwards [ev .e h1 h2] with t ht
      exact all _ ht.1 ht.2
    · exact acc a all
    · exact ⟨a, b, all⟩
  obtain ⟨v, hv, hvq⟩ := corner_ne hP q
  refine no_limit_corner hP a b hv (Gc * m * kpp (tensor a b).toK v q / (Gc * ρ)) ?_
  have hcont : Tendsto (fun p => Gc * m * kpp (tensor a b).toK p q / (Gc * ρ)) (𝓝[P.regionᶜ] v)
      (𝓝 (Gc * m * kpp (tensor a b).toK v q / (Gc * ρ))) :=
    ((continuousAt_const.mul (continuousAt_kpp _ hvq)).div_const _).mono_left nhdsWithin_le_nhds
  refine hcont.congr' ?_
  filter_upwards [self_mem_nhdsWithin, nhdsWithin_le_nhds (eventually_ne_source hvq)] with p h1 h2
  rw [← hab p h1 h2, mul_div_cancel_left₀ _ hk]

/-! ## Dipoles -/

theorem lineAnalytic_Bd (a : Axis) (q m : Pt) : LineAnalytic (fun p => Bd a p q m) (pointBox q).regionᶜ := by
  intro p d t ht
  have k := fun c => lineAnalytic_kpp c q p d t ht
  exact analyticAt_const.mul ((((k (kern2 a .e)).mul analyticAt_const).add ((k (kern2 a .n)).mul analyticAt_const)).add
    ((k (kern2 a .u)).mul analyticAt_const))

theorem continuousAt_Bd (a : Axis) {p q : Pt} (h : p ≠ q) (m : Pt) : ContinuousAt (fun p => Bd a p q m) p := by
  have k := fun c => continuousAt_kpp c h
  exact continuousAt_const.mul ((((k (kern2 a .e)).mul continuousAt_const).add ((k (kern2 a .n)).mul continuousAt_const)).add
    ((k (kern2 a .u)).mul continuousAt_const))

theorem Bd_sub (a : Axis) (p q m m' : Pt) : Bd a p q m - Bd a p q m' = Bd a p q (m - m') := by
  unfold Bd
  simp only [Pt.e, Pt.n, Pt.u, Prod.fst_sub, Prod.snd_sub]
  ring

/-- the field of a dipole on the ray in direction (1, 2, 3) -/
theorem Bd_ray (a : Axis) (q m : Pt) {t : ℝ} (ht : 0 < t) :
    Bd a (lineR q (1, 2, 3) t) q m * t ^ 3 = Bd a (lineR q (1, 2, 3) 1) q m := by
  have k : ∀ b, kpp (kern2 a b) (lineR q (1, 2, 3) t) q * t ^ 3 = kpp (kern2 a b) (lineR q (1, 2, 3) 1) q := by
    intro b
    have h1 := kpp_ray (tensor b a) q ht
    have h2 := kpp_ray (tensor b a) q one_pos
    rw [one_pow, mul_one] at h2
    rw [tensor_toK, show (tensor b a).deg = 3 by cases a <;> cases b <;> rfl] at h1
    rw [tensor_toK] at h2
    rw [h1, h2]
  have e : ∀ p : Pt, Bd a p q m = mu0 / 4 / π * (kpp (kern2 a .e) p q * m.e + kpp (kern2 a .n) p q * m.n
    + kpp (kern2 a .u) p q * m.u) := fun p => rfl
  rw [e, e, ← k .e, ← k .n, ← k .u]
  ring

theorem lineR_ne (q : Pt) : lineR q (1, 2, 3) 1 ≠ q := by
  intro h'
  have h1 := congrArg Prod.fst h'
  simp only [lineR, Pt.e, mul_one] at h1
  linarith

theorem Bd_ne (q : Pt) {m : Pt} (hm : m ≠ (0, 0, 0)) : ∃ a, Bd a (lineR q (1, 2, 3) 1) q m ≠ 0 := by
  by_contra hn
  push Not at hn
  obtain ⟨B, hB, -, h2⟩ := C96_dipole _ q (lineR_ne q) m
  have hB' : ∀ a, B a = 0 := fun a => by
    rw [Returns.inj (hB a) (show Returns _ _ from dipole_fin a (lineR_ne q) m)]; exact hn a
  simp only [hB'] at h2
  have hd : dist3 (lineR q (1, 2, 3) 1) q ≠ 0 := rad_ne (lineR_ne q)
  have hk : (1.25663706212e-06 / 4 / π : ℝ) ≠ 0 := mag_const_ne
  have hs : 0 < m.e ^ 2 + m.n ^ 2 + m.u ^ 2 := by
    by_contra h0
    push Not at h0
    refine hm (Prod.ext ?_ (Prod.ext ?_ ?_))
    · show m.e = 0
      nlinarith [sq_nonneg m.e, sq_nonneg m.n, sq_nonneg m.u]
    · show m.n = 0
      nlinarith [sq_nonneg m.e, sq_nonneg m.n, sq_nonneg m.u]
    · show m.u = 0
      nlinarith [sq_nonneg m.e, sq_nonneg m.n, sq_nonneg m.u]
  have : 0 < (1.25663706212e-06 / 4 / π : ℝ) ^ 2 * (3 * (along (lineR q (1, 2, 3) 1) q m.coord /
      dist3 (lineR q (1, 2, 3) 1) q) ^ 2 + (m.e ^ 2 + m.n ^ 2 + m.u ^ 2)) / dist3 (lineR q (1, 2, 3) 1) q ^ 6 := by
    positivity
  rw [← h2] at this
  norm_num at this

theorem dipole_call_eq (a : Axis) {p q q' : Pt} (h : p ≠ q) (h' : p ≠ q') (m m' : Pt) :
    onPair (A := Exact) (dipoleMagnetic a) p q m.e m.n m.u = onPair (A := Exact) (dipoleMagnetic a) p q' m'.e m'.n m'.u ↔
      Bd a p q m = Bd a p q' m' := by
  have r1 : Returns _ _ := dipole_fin a h m
  have r2 : Returns _ _ := dipole_fin a h' m'
  constructor
  · intro e
    rw [e] at r1
    exact r1.inj r2
  · intro e
    unfold Returns at r1 r2
    rw [r1, r2, e]

/-- The magnetic field on any open patch determines position and moment of a dipole. -/
theorem C117_dipole (q q' : Pt) {m m' : Vec} (hm : m ≠ (0, 0, 0)) (U : Set Pt) (hU : IsOpen U)
    (hne : ∃ p ∈ U, p ≠ q ∧ p ≠ q')
    (h : ∀ a : Axis, ∀ p ∈ U, p ≠ q → p ≠ q' →
      onPair (A := Exact) (dipoleMagnetic a) p q m.e m.n m.u
        = onPair (A := Exact) (dipoleMagnetic a) p q' m'.e m'.n m'.u) :
    q = q' ∧ m = m' := by
  have nr : ∀ q p : Pt, p ∈ (pointBox q).regionᶜ ↔ p ≠ q := fun q p => not_congr (region_pointBox q p)
  have all : ∀ a p, p ≠ q → p ≠ q' → Bd a p q m = Bd a p q' m' := by
    intro a p h1 h2
    obtain ⟨p0, hp0, hp1, hp2⟩ := hne
    exact unique_continuation (isOpen_outside (pointBox q) (pointBox q')) (isPreconnected_outside (pointBox q) (pointBox q'))
      ((lineAnalytic_Bd a q m).mono inter_subset_left) ((lineAnalytic_Bd a q' m').mono inter_subset_right) hU
      ⟨p0, hp0, (nr q p0).2 hp1, (nr q' p0).2 hp2⟩
      (fun p hp => (dipole_call_eq a ((nr q p).1 hp.2.1) ((nr q' p).1 hp.2.2) m m').1
        (h a p hp.1 ((nr q p).1 hp.2.1) ((nr q' p).1 hp.2.2))) p ⟨(nr q p).2 h1, (nr q' p).2 h2⟩
  have e : q = q' := by
    by_contra hqq
    obtain ⟨a, ha⟩ := Bd_ne q hm
    refine no_limit_ray (f := fun p => Bd a p q m) ha (n := 3) (by norm_num) (fun t ht => Bd_ray a q m ht) (Bd a q q' m') ?_
    refine ((continuousAt_Bd a hqq m').tendsto.mono_left nhdsWithin_le_nhds).congr' ?_
    filter_upwards [self_mem_nhdsWithin, nhdsWithin_le_nhds (eventually_ne_source hqq)] with p h1 h2
    exact (all a p h1 h2).symm
  subst e
  refine ⟨rfl, ?_⟩
  by_contra hmm
  obtain ⟨a, ha⟩ := Bd_ne q (m := m - m') (fun h0 => hmm (sub_eq_zero.1 h0))
  rw [← Bd_sub, all a _ (lineR_ne q) (lineR_ne q), sub_self] at ha
  exact ha rfl

/-- No magnetized prism has the magnetic field of a dipole on an open patch. -/
theorem C117_prism_not_dipole (hP : P.Proper) {M : Vec} (hM : M ≠ (0, 0, 0)) (q : Pt) (m : Vec) (U : Set Pt)
    (hU : IsOpen U) (hne : ∃ p ∈ U, p ∉ P.region ∧ p ≠ q) :
    ∃ a : Axis, ∃ p ∈ U, p ∉ P.region ∧ p ≠ q ∧
      onPrism (A := Exact) (prismMagnetic a.field) p P M.e M.n M.u
        ≠ onPair (A := Exact) (dipoleMagnetic a) p q m.e m.n m.u := by
  by_contra hn
  push Not at hn
  have hO := hP.ordered
  have nr : ∀ q p : Pt, p ∈ (pointBox q).regionᶜ ↔ p ≠ q := fun q p => not_congr (region_pointBox q p)
  have eqv : ∀ (a : Axis) {p : Pt}, p ∉ P.region → p ≠ q →
      onPrism (A := Exact) (prismMagnetic a.field) p P M.e M.n M.u = onPair (A := Exact) (dipoleMagnetic a) p q m.e m.n m.u →
      mu0 / 4 / π * Bc a.field p P M.e M.n M.u = Bd a p q m := by
    intro a p h1 h2 e
    have r1 := Ex.magnetic_returns hO (c := a.field) (exterior_edges hO h1) (fun h => h1 (inside_subset_region h)) M.e M.n M.u
    rw [e] at r1
    exact r1.inj (show Returns _ _ from dipole_fin a h2 m)
  have all : ∀ a p, p ∉ P.region → p ≠ q → mu0 / 4 / π * Bc a.field p P M.e M.n M.u = Bd a p q m := by
    intro a p h1 h2
    obtain ⟨p0, hp0, hp1, hp2⟩ := hne
    exact unique_continuation (isOpen_outside P (pointBox q)) (isPreconnected_outside P (pointBox q))
      (((lineAnalytic_Bc hO a.field M).mono inter_subset_left).const_mul (mu0 / 4 / π))
      ((lineAnalytic_Bd a q m).mono inter_subset_right) hU ⟨p0, hp0, hp1, (nr q p0).2 hp2⟩
      (fun p hp => eqv a hp.2.1 ((nr q p).1 hp.2.2) (hn a p hp.1 hp.2.1 ((nr q p).1 hp.2.2))) p ⟨h1, (nr q p).2 h2⟩
  obtain ⟨v, hv, hvq⟩ := corner_ne hP q
  refine mag_mismatch hP hv hM (eventually_ne_source hvq) (fun a p => Bd a p q m / (mu0 / 4 / π))
    (fun a => (continuousAt_Bd a hvq m).div_const _) (fun a p h2 h1 => ?_)
  rw [← all a p h1 h2, mul_div_cancel_left₀ _ mag_const_ne]

/-- non-vacuity: two sources, a prism, and a patch off all of them -/
example : exBox.Proper ∧ ∃ p ∈ Metric.ball ((0, 0, 2) : Pt) 1,
    p ≠ (0, 0, 0) ∧ p ≠ (1, 0, 0) ∧ p ∉ exBox.region := by
  refine ⟨exBox_proper, (0, 0, 2), Metric.mem_ball_self one_pos, ?_, ?_, ?_⟩
  · simp
  · simp
  · norm_num [exBox, Box.region]

end Choclo
