import Verif.Lemmas.Continuation
import Verif.Props.Smooth
import Verif.Props.Warranted
import Verif.Props.EdgeField

/-! # C116: a patch of data determines the field, and the prism -/

namespace Choclo

open Real Set MeasureTheory Filter Topology

variable {P Q : Box}

theorem gcomp_cases (c : GComp) : c.letters ≤ 1 ∨ ∃ a b, c = tensor a b := by
  cases c
  case pot => exact .inl (by decide)
  case e => exact .inl (by decide)
  case n => exact .inl (by decide)
  case u => exact .inl (by decide)
  case ee => exact .inr ⟨.e, .e, rfl⟩
  case nn => exact .inr ⟨.n, .n, rfl⟩
  case uu => exact .inr ⟨.u, .u, rfl⟩
  case en => exact .inr ⟨.e, .n, rfl⟩
  case eu => exact .inr ⟨.e, .u, rfl⟩
  case nu => exact .inr ⟨.n, .u, rfl⟩

theorem Vc_outside (hP : P.Ordered) (c : GComp) {p : Pt} (h : p ∉ P.region) :
    Vc c p P = ∫ q in P.region, kpp c.toK p q := by
  rcases gcomp_cases c with hc | ⟨a, b, rfl⟩
  · exact (integral_low hP c hc p).2.symm
  · exact Vc_tensor_integral hP a b h

theorem lineAnalytic_Vc (hP : P.Ordered) (c : GComp) : LineAnalytic (fun q => Vc c q P) P.regionᶜ := by
  intro p d t ht
  refine (analytic_line c.toK (isCompact_region P) p d ht).congr ?_
  filter_upwards [(continuous_lineR p d).continuousAt.eventually
    ((isCompact_region P).isClosed.isOpen_compl.mem_nhds ht)] with s hs
  exact (Vc_outside hP c hs).symm

theorem LineAnalytic.mono {f : Pt → ℝ} {Ω Ω' : Set Pt} (h : LineAnalytic f Ω) (hs : Ω' ⊆ Ω) : LineAnalytic f Ω' :=
  fun p d t ht => h p d t (hs ht)

theorem LineAnalytic.const_mul {f : Pt → ℝ} {Ω : Set Pt} (h : LineAnalytic f Ω) (k : ℝ) :
    LineAnalytic (fun q => k * f q) Ω := fun p d t ht => analyticAt_const.mul (h p d t ht)

theorem LineAnalytic.add {f g : Pt → ℝ} {Ω : Set Pt} (h : LineAnalytic f Ω) (h' : LineAnalytic g Ω) :
    LineAnalytic (fun q => f q + g q) Ω := fun p d t ht => (h p d t ht).add (h' p d t ht)

theorem continuousAt_Vc_outside (hP : P.Ordered) (c : GComp) {p : Pt} (h : p ∉ P.region) :
    ContinuousAt (fun q => Vc c q P) p := by
  have := (smooth_integral_set c.toK (isCompact_region P) h).continuousAt
  refine this.congr ?_
  filter_upwards [(isCompact_region P).isClosed.isOpen_compl.mem_nhds h] with q hq
  exact (Vc_outside hP c hq).symm

/-- equal results outside both prisms, in terms of the closed form -/
theorem gravity_call_eq (hP : P.Ordered) (hQ : Q.Ordered) (c : GComp) (ρ σ : ℝ) {q : Pt} (h1 : q ∉ P.region)
    (h2 : q ∉ Q.region) : onPrism (A := Exact) (prismGravity c) q P ρ = onPrism (A := Exact) (prismGravity c) q Q σ ↔
      Gc * ρ * Vc c q P = Gc * σ * Vc c q Q := by
  have r1 := Ex.gravity_returns hP (exterior_singular hP h1 c) ρ
  have r2 := Ex.gravity_returns hQ (exterior_singular hQ h2 c) σ
  constructor
  · intro h
    rw [h] at r1
    exact r1.inj r2
  · intro h
    unfold Returns at r1 r2
    rw [r1, r2, h]

/-- Gravity data on any open patch outside two prisms determine whether the two fields agree everywhere outside. -/
theorem C116_continuation (hP : P.Ordered) (hQ : Q.Ordered) (c : GComp) (ρ σ : ℝ) (U : Set Pt) (hU : IsOpen U)
    (hne : ∃ q ∈ U, q ∉ P.region ∧ q ∉ Q.region)
    (h : ∀ q ∈ U, q ∉ P.region → q ∉ Q.region →
      onPrism (A := Exact) (prismGravity c) q P ρ = onPrism (A := Exact) (prismGravity c) q Q σ) :
    ∀ q, q ∉ P.region → q ∉ Q.region →
      onPrism (A := Exact) (prismGravity c) q P ρ = onPrism (A := Exact) (prismGravity c) q Q σ := by
  obtain ⟨q0, hq0, hq1, hq2⟩ := hne
  intro q h1 h2
  rw [gravity_call_eq hP hQ c ρ σ h1 h2]
  exact unique_continuation (isOpen_outside P Q) (isPreconnected_outside P Q)
    (((lineAnalytic_Vc hP c).mono inter_subset_left).const_mul (Gc * ρ))
    (((lineAnalytic_Vc hQ c).mono inter_subset_right).const_mul (Gc * σ)) hU ⟨q0, hq0, hq1, hq2⟩
    (fun q hq => (gravity_call_eq hP hQ c ρ σ hq.2.1 hq.2.2).1 (h q hq.1 hq.2.1 hq.2.2)) q ⟨h1, h2⟩

/-- the two opposite corners of a prism -/
def Box.lowCorner (P : Box) : Pt := (P.west, P.south, P.bottom)
def Box.highCorner (P : Box) : Pt := (P.east, P.north, P.top)

theorem corner_singular (hP : P.Proper) (a b : Axis) {v : Pt} (hv : v = P.lowCorner ∨ v = P.highCorner) :
    v ∈ P.singular (tensor a b) := by
  obtain ⟨h1, h2, h3⟩ := hP
  rcases hv with rfl | rfl <;> cases a <;> cases b <;>
    simp only [tensor, Box.singular, Box.edgesE, Box.edgesN, Box.edgesU, Box.lowCorner, Box.highCorner, Pt.e, Pt.n, Pt.u,
      mem_union, mem_ofPred_eq, mem_Icc, true_or, or_true, le_refl, and_true, h1.le, h2.le, h3.le]

theorem corners_determine (hP : P.Proper) (hQ : Q.Proper) (h : P ≠ Q) :
    (∃ v, (v = P.lowCorner ∨ v = P.highCorner) ∧ v ∉ Q.region) ∨
    (∃ v, (v = Q.lowCorner ∨ v = Q.highCorner) ∧ v ∉ P.region) := by
  by_contra hn
  push Not at hn
  obtain ⟨h1, h2⟩ := hn
  obtain ⟨⟨a1, a2⟩, ⟨a3, a4⟩, a5, a6⟩ := h1 _ (.inl rfl)
  obtain ⟨⟨b1, b2⟩, ⟨b3, b4⟩, b5, b6⟩ := h1 _ (.inr rfl)
  obtain ⟨⟨c1, c2⟩, ⟨c3, c4⟩, c5, c6⟩ := h2 _ (.inl rfl)
  obtain ⟨⟨d1, d2⟩, ⟨d3, d4⟩, d5, d6⟩ := h2 _ (.inr rfl)
  simp only [Box.lowCorner, Box.highCorner] at *
  refine h ?_
  cases P; cases Q
  simp only at *
  congr 1 <;> linarith

theorem neBot_corner (hP : P.Proper) (a b : Axis) {v : Pt} (hv : v ∈ P.singular (tensor a b)) : (𝓝[P.regionᶜ] v).NeBot :=
  C95_approachable hP (tensor a b) (ρ := 1) v ((C26_nan_iff hP.ordered (tensor a b) v 1).1.2 hv)

/-- no second derivative has a limit at a corner -/
theorem no_limit_corner (hP : P.Proper) (a b : Axis) {v : Pt} (hv : v = P.lowCorner ∨ v = P.highCorner) (w : ℝ) :
    ¬Tendsto (fun q => Vc (tensor a b) q P) (𝓝[P.regionᶜ] v) (𝓝 w) := by
  have hs := corner_singular hP a b hv
  by_cases hab : a = b
  · subst hab; exact no_limit_diag hP a hs w
  · intro h
    have := neBot_corner hP a b hs
    have h2 := (tendsto_abs_Voff hP hab hs).mono_left (nhdsWithin_mono v (s := P.regionᶜ)
      (fun q hq => exterior_singular hP.ordered hq (tensor a b)))
    exact not_tendsto_nhds_of_tendsto_atTop h2 _ h.abs

theorem mismatch (hP : P.Proper) (hQ : Q.Ordered) (a b : Axis) {v : Pt} (hv : v = P.lowCorner ∨ v = P.highCorner)
    (hvQ : v ∉ Q.region) {k l : ℝ} (hk : k ≠ 0)
    (h : ∀ q, q ∉ P.region → q ∉ Q.region → k * Vc (tensor a b) q P = l * Vc (tensor a b) q Q) : False := by
  refine no_limit_corner hP a b hv (l * Vc (tensor a b) v Q / k) ?_
  have hc : Tendsto (fun q => l * Vc (tensor a b) q Q / k) (𝓝[P.regionᶜ] v) (𝓝 (l * Vc (tensor a b) v Q / k)) :=
    ((continuousAt_const.mul (continuousAt_Vc_outside hQ (tensor a b) hvQ)).div_const k).mono_left nhdsWithin_le_nhds
  refine hc.congr' ?_
  filter_upwards [self_mem_nhdsWithin, nhdsWithin_le_nhds (eventually_off_region hvQ)] with q h1 h2
  rw [← h q h1 h2, mul_div_cancel_left₀ _ hk]

/-- agreement of the potential or of one component of the acceleration implies agreement of a second derivative -/
theorem agree_tensor (hP : P.Ordered) (hQ : Q.Ordered) (c : GComp) {k l : ℝ}
    (h : ∀ q, q ∉ P.region → q ∉ Q.region → k * Vc c q P = l * Vc c q Q) :
    ∃ a b, ∀ q, q ∉ P.region → q ∉ Q.region → k * Vc (tensor a b) q P = l * Vc (tensor a b) q Q := by
  have ev : ∀ (b : Axis) {q : Pt}, q ∉ P.region → q ∉ Q.region →
      ∀ᶠ t in 𝓝 (q.coord b), q.set b t ∉ P.region ∧ q.set b t ∉ Q.region := by
    intro b q h1 h2
    have ho := (isOpen_outside P Q).mem_nhds (show q ∈ P.regionᶜ ∩ Q.regionᶜ from ⟨h1, h2⟩)
    have hc := (Pt.continuous_set q b).tendsto (q.coord b)
    rw [Pt.set_coord] at hc
    exact hc.eventually ho
  have acc : ∀ a : Axis, (∀ q, q ∉ P.region → q ∉ Q.region → k * Vc a.acc q P = l * Vc a.acc q Q) →
      ∃ a b, ∀ q, q ∉ P.region → q ∉ Q.region → k * Vc (tensor a b) q P = l * Vc (tensor a b) q Q := by
    intro a h
    obtain ⟨b, hab⟩ : ∃ b, a ≠ b := by
      cases a
      · exact ⟨.n, by decide⟩
      · exact ⟨.e, by decide⟩
      · exact ⟨.e, by decide⟩
    refine ⟨a, b, fun q h1 h2 => ?_⟩
    have d1 := (hasDerivAt_Vacc_off hab hP (exterior_singular hP h1 _)).const_mul k
    have d2 := (hasDerivAt_Vacc_off hab hQ (exterior_singular hQ h2 _)).const_mul l
    refine d1.unique (d2.congr_of_eventuallyEq ?_)
    filter_upwards [ev b h1 h2] with t ht
    exact h _ ht.1 ht.2
  have hc : c = .pot ∨ (∃ a : Axis, c = a.acc) ∨ ∃ a b, c = tensor a b := by
    cases c
    case pot => exact .inl rfl
    case e => exact .inr (.inl ⟨.e, rfl⟩)
    case n => exact .inr (.inl ⟨.n, rfl⟩)
    case u => exact .inr (.inl ⟨.u, rfl⟩)
    case ee => exact .inr (.inr ⟨.e, .e, rfl⟩)
    case nn => exact .inr (.inr ⟨.n, .n, rfl⟩)
    case uu => exact .inr (.inr ⟨.u, .u, rfl⟩)
    case en => exact .inr (.inr ⟨.e, .n, rfl⟩)
    case eu => exact .inr (.inr ⟨.e, .u, rfl⟩)
    case nu => exact .inr (.inr ⟨.n, .u, rfl⟩)
  rcases hc with rfl | ⟨a, rfl⟩ | ⟨a, b, rfl⟩
  · refine acc .e fun q h1 h2 => ?_
    have d1 := (hasDerivAt_Vpot .e q P).const_mul k
    have d2 := (hasDerivAt_Vpot .e q Q).const_mul l
    refine d1.unique (d2.congr_of_eventuallyEq ?_)
    filter_upwards [ev .e h1 h2] with t ht
    exact h _ ht.1 ht.2
  · exact acc a h
  · exact ⟨a, b, h⟩

/-- One gravity component (the potential, one component of the acceleration or of the tensor) on any open patch outside
determines the prism: a homogeneous prism of another shape, place or density gives other data. -/
theorem C116_gravity_unique (hP : P.Proper) (hQ : Q.Proper) (c : GComp) {ρ σ : ℝ} (hρ : ρ ≠ 0) (hσ : σ ≠ 0)
    (U : Set Pt) (hU : IsOpen U) (hne : ∃ q ∈ U, q ∉ P.region ∧ q ∉ Q.region)
    (h : ∀ q ∈ U, q ∉ P.region → q ∉ Q.region →
      onPrism (A := Exact) (prismGravity c) q P ρ = onPrism (A := Exact) (prismGravity c) q Q σ) :
    P = Q ∧ ρ = σ := by
  have all := C116_continuation hP.ordered hQ.ordered c ρ σ U hU hne h
  have all' : ∀ q, q ∉ P.region → q ∉ Q.region → Gc * ρ * Vc c q P = Gc * σ * Vc c q Q := fun q h1 h2 =>
    (gravity_call_eq hP.ordered hQ.ordered c ρ σ h1 h2).1 (all q h1 h2)
  obtain ⟨a, b, hab⟩ := agree_tensor hP.ordered hQ.ordered c all'
  have hk : Gc * ρ ≠ 0 := mul_ne_zero Gc_pos.ne' hρ
  have hl : Gc * σ ≠ 0 := mul_ne_zero Gc_pos.ne' hσ
  have e : P = Q := by
    by_contra hPQ
    rcases corners_determine hP hQ hPQ with ⟨v, hv, hv'⟩ | ⟨v, hv, hv'⟩
    · exact mismatch hP hQ.ordered a b hv hv' hk hab
    · exact mismatch hQ hP.ordered a b hv hv' hl (fun q h1 h2 => (hab q h2 h1).symm)
  subst e
  refine ⟨rfl, ?_⟩
  by_contra hρσ
  refine no_limit_corner hP a b (.inl rfl) 0 (tendsto_const_nhds.congr' ?_)
  filter_upwards [self_mem_nhdsWithin] with q hq
  have := hab q hq hq
  have h0 : Gc * (ρ - σ) * Vc (tensor a b) q P = 0 := by linear_combination this
  rcases mul_eq_zero.1 h0 with h0 | h0
  · exact absurd h0 (mul_ne_zero Gc_pos.ne' (sub_ne_zero.2 hρσ))
  · exact h0.symm

/-! ## Magnetics -/

theorem mcomp_cases (c : MComp) : (∃ a : Axis, c = a.field) ∨ ∃ a b, c = gradComp a b := by
  cases c
  · exact .inl ⟨.e, rfl⟩
  · exact .inl ⟨.n, rfl⟩
  · exact .inl ⟨.u, rfl⟩
  · exact .inr ⟨.e, .e, rfl⟩
  · exact .inr ⟨.n, .n, rfl⟩
  · exact .inr ⟨.u, .u, rfl⟩
  · exact .inr ⟨.e, .n, rfl⟩
  · exact .inr ⟨.e, .u, rfl⟩
  · exact .inr ⟨.n, .u, rfl⟩

/-- outside, magnetic field and gradient are integrals of point kernels -/
theorem Bc_outside (hP : P.Ordered) (c : MComp) : ∃ k1 k2 k3 : KComp, ∀ (M : Vec) {q : Pt}, q ∉ P.region →
    Bc c q P M.e M.n M.u = M.e * (∫ s in P.region, kpp k1 q s) + M.n * (∫ s in P.region, kpp k2 q s)
      + M.u * ∫ s in P.region, kpp k3 q s := by
  rcases mcomp_cases c with ⟨a, rfl⟩ | ⟨a, b, rfl⟩
  · refine ⟨(tensor a .e).toK, (tensor a .n).toK, (tensor a .u).toK, fun M q hq => ?_⟩
    rw [Bc_field, Vc_tensor_integral hP a _ hq, Vc_tensor_integral hP a _ hq, Vc_tensor_integral hP a _ hq]
  · refine ⟨kern3 a b .e, kern3 a b .n, kern3 a b .u, fun M q hq => ?_⟩
    have i := fun c => integrableOn_kpp (P := P) c hq
    rw [Bc_grad_integral hP a b hq, integral_lin3 (i _) (i _) (i _)]
    ring

theorem lineAnalytic_Bc (hP : P.Ordered) (c : MComp) (M : Vec) :
    LineAnalytic (fun q => Bc c q P M.e M.n M.u) P.regionᶜ := by
  obtain ⟨k1, k2, k3, hk⟩ := Bc_outside hP c
  intro p d t ht
  have an := fun k => analytic_line k (isCompact_region P) p d ht
  refine ((((analyticAt_const (v := M.e)).mul (an k1)).add ((analyticAt_const (v := M.n)).mul (an k2))).add
    ((analyticAt_const (v := M.u)).mul (an k3))).congr ?_
  filter_upwards [(continuous_lineR p d).continuousAt.eventually
    ((isCompact_region P).isClosed.isOpen_compl.mem_nhds ht)] with s hs
  exact (hk M hs).symm

theorem continuousAt_Bc_outside (hP : P.Ordered) (c : MComp) (M : Vec) {p : Pt} (h : p ∉ P.region) :
    ContinuousAt (fun q => Bc c q P M.e M.n M.u) p := by
  obtain ⟨k1, k2, k3, hk⟩ := Bc_outside hP c
  have an := fun k => (smooth_integral_set k (isCompact_region P) h).continuousAt
  refine ((((continuousAt_const (y := M.e)).mul (an k1)).add ((continuousAt_const (y := M.n)).mul (an k2))).add
    ((continuousAt_const (y := M.u)).mul (an k3))).congr ?_
  filter_upwards [eventually_off_region h] with q hq
  exact (hk M hq).symm

theorem mag_const_ne : mu0 / 4 / π ≠ 0 := div_ne_zero (div_ne_zero mu0_pos.ne' (by norm_num)) Real.pi_ne_zero

theorem magnetic_call_eq (hP : P.Ordered) (hQ : Q.Ordered) (c : MComp) (M N : Vec) {q : Pt} (h1 : q ∉ P.region)
    (h2 : q ∉ Q.region) : onPrism (A := Exact) (prismMagnetic c) q P M.e M.n M.u
      = onPrism (A := Exact) (prismMagnetic c) q Q N.e N.n N.u ↔
      Bc c q P M.e M.n M.u = Bc c q Q N.e N.n N.u := by
  have r1 := Ex.magnetic_returns hP (c := c) (exterior_edges hP h1) (fun h => h1 (inside_subset_region h)) M.e M.n M.u
  have r2 := Ex.magnetic_returns hQ (c := c) (exterior_edges hQ h2) (fun h => h2 (inside_subset_region h)) N.e N.n N.u
  constructor
  · intro h
    rw [h] at r1
    exact mul_left_cancel₀ mag_const_ne (r1.inj r2)
  · intro h
    unfold Returns at r1 r2
    rw [r1, r2, h]

/-- The same for every component of the magnetic field and of its gradient. -/
theorem C116_magnetic_continuation (hP : P.Ordered) (hQ : Q.Ordered) (c : MComp) (M N : Vec) (U : Set Pt)
    (hU : IsOpen U) (hne : ∃ q ∈ U, q ∉ P.region ∧ q ∉ Q.region)
    (h : ∀ q ∈ U, q ∉ P.region → q ∉ Q.region → onPrism (A := Exact) (prismMagnetic c) q P M.e M.n M.u
      = onPrism (A := Exact) (prismMagnetic c) q Q N.e N.n N.u) :
    ∀ q, q ∉ P.region → q ∉ Q.region → onPrism (A := Exact) (prismMagnetic c) q P M.e M.n M.u
      = onPrism (A := Exact) (prismMagnetic c) q Q N.e N.n N.u := by
  obtain ⟨q0, hq0, hq1, hq2⟩ := hne
  intro q h1 h2
  rw [magnetic_call_eq hP hQ c M N h1 h2]
  exact unique_continuation (isOpen_outside P Q) (isPreconnected_outside P Q)
    ((lineAnalytic_Bc hP c M).mono inter_subset_left) ((lineAnalytic_Bc hQ c N).mono inter_subset_right) hU
    ⟨q0, hq0, hq1, hq2⟩
    (fun q hq => (magnetic_call_eq hP hQ c M N hq.2.1 hq.2.2).1 (h q hq.1 hq.2.1 hq.2.2)) q ⟨h1, h2⟩

theorem corner_edges (hP : P.Proper) (a : Axis) {v : Pt} (hv : v = P.lowCorner ∨ v = P.highCorner) :
    v ∈ P.edgesAlong a := by
  obtain ⟨h1, h2, h3⟩ := hP
  rcases hv with rfl | rfl <;> cases a <;>
    simp only [Box.edgesAlong, Box.edgesE, Box.edgesN, Box.edgesU, Box.lowCorner, Box.highCorner, Pt.e, Pt.n, Pt.u,
      mem_ofPred_eq, mem_Icc, true_or, or_true, le_refl, and_true, h1.le, h2.le, h3.le]

/-- near a corner the field of a magnetized prism is unbounded, so it differs from every continuous function -/
theorem mag_mismatch (hP : P.Proper) {v : Pt} (hv : v = P.lowCorner ∨ v = P.highCorner) {M : Vec}
    (hM : M ≠ (0, 0, 0)) {Ω : Set Pt} (hΩ : Ω ∈ 𝓝 v) (f : Axis → Pt → ℝ) (hf : ∀ c, ContinuousAt (f c) v)
    (h : ∀ c : Axis, ∀ q ∈ Ω, q ∉ P.region → Bc c.field q P M.e M.n M.u = f c q) : False := by
  obtain ⟨c, hc⟩ := C105_warranted hP .e v (corner_edges hP .e hv) M
    (.inr ⟨⟨.n, by decide, corner_edges hP .n hv⟩, hM⟩)
  have hg : ContinuousAt (fun q => |mu0 / 4 / π * f c q|) v := (continuousAt_const.mul (hf c)).abs
  obtain ⟨q, ⟨hq1, hq2⟩, hq, w, hw, hK⟩ := hc (|mu0 / 4 / π * f c v| + 1) _
    (inter_mem hΩ (hg.eventually (gt_mem_nhds (lt_add_one _))))
  have e := hw.inj (Ex.magnetic_returns hP.ordered (c := c.field) (exterior_edges hP.ordered hq)
    (fun h => hq (inside_subset_region h)) M.e M.n M.u)
  rw [e, h c q hq1 hq] at hK
  exact absurd hK (not_lt.2 (le_of_lt hq2))

/-- The magnetic field on any open patch outside determines the prism and its magnetization. -/
theorem C116_magnetic_unique (hP : P.Proper) (hQ : Q.Proper) {M N : Vec} (hM : M ≠ (0, 0, 0)) (hN : N ≠ (0, 0, 0))
    (U : Set Pt) (hU : IsOpen U) (hne : ∃ q ∈ U, q ∉ P.region ∧ q ∉ Q.region)
    (h : ∀ c : Axis, ∀ q ∈ U, q ∉ P.region → q ∉ Q.region →
      onPrism (A := Exact) (prismMagnetic c.field) q P M.e M.n M.u
        = onPrism (A := Exact) (prismMagnetic c.field) q Q N.e N.n N.u) :
    P = Q ∧ M = N := by
  have hO := hP.ordered
  have hO' := hQ.ordered
  have all : ∀ (c : Axis) q, q ∉ P.region → q ∉ Q.region →
      Bc c.field q P M.e M.n M.u = Bc c.field q Q N.e N.n N.u := fun c q h1 h2 =>
    (magnetic_call_eq hO hO' c.field M N h1 h2).1
      (C116_magnetic_continuation hO hO' c.field M N U hU hne (h c) q h1 h2)
  have e : P = Q := by
    by_contra hPQ
    rcases corners_determine hP hQ hPQ with ⟨v, hv, hv'⟩ | ⟨v, hv, hv'⟩
    · exact mag_mismatch hP hv hM (eventually_off_region hv') (fun c q => Bc c.field q Q N.e N.n N.u)
        (fun c => continuousAt_Bc_outside hO' c.field N hv') (fun c q h2 h1 => all c q h1 h2)
    · exact mag_mismatch hQ hv hN (eventually_off_region hv') (fun c q => Bc c.field q P M.e M.n M.u)
        (fun c => continuousAt_Bc_outside hO c.field M hv') (fun c q h2 h1 => (all c q h2 h1).symm)
  subst e
  refine ⟨rfl, ?_⟩
  by_contra hMN
  have hd : ((M.e - N.e, M.n - N.n, M.u - N.u) : Vec) ≠ (0, 0, 0) := by
    intro h0
    simp only [Prod.mk.injEq, sub_eq_zero] at h0
    exact hMN (Prod.ext h0.1 (Prod.ext h0.2.1 h0.2.2))
  refine mag_mismatch hP (.inl rfl) hd univ_mem (fun _ _ => 0) (fun _ => continuousAt_const) (fun c q _ hq => ?_)
  have := all c q hq hq
  rw [Bc_field, Bc_field] at this
  rw [Bc_field]
  simp only [Pt.e, Pt.n, Pt.u] at this ⊢
  linarith

/-- A homogeneous prism produces a field everywhere: none of its gravity components vanishes on an open patch. -/
theorem C116_visible (hP : P.Proper) (c : GComp) {ρ : ℝ} (hρ : ρ ≠ 0) (U : Set Pt) (hU : IsOpen U)
    (hne : ∃ q ∈ U, q ∉ P.region) :
    ∃ q ∈ U, q ∉ P.region ∧ ∃ v, v ≠ 0 ∧ Returns (onPrism (A := Exact) (prismGravity c) q P ρ) v := by
  by_contra hn
  push Not at hn
  obtain ⟨q0, h0, h0'⟩ := hne
  have z : ∀ q ∈ U, q ∉ P.region → Vc c q P = 0 := by
    intro q hq hq'
    by_contra h
    exact hn q hq hq' _ (mul_ne_zero (mul_ne_zero Gc_pos.ne' hρ) h)
      (Ex.gravity_returns hP.ordered (exterior_singular hP.ordered hq' c) ρ)
  have := (C116_gravity_unique hP hP c (ρ := ρ) (σ := 2 * ρ) hρ (by simpa using hρ) U hU ⟨q0, h0, h0', h0'⟩
    (fun q hq h1 _ => by
      rw [gravity_call_eq hP.ordered hP.ordered c ρ (2 * ρ) h1 h1, z q hq h1, mul_zero, mul_zero])).2
  exact hρ (by linarith)

/-- non-vacuity: the example prism, another one, and the ball-shaped patch one metre above both -/
example : exBox.Proper ∧ (⟨3, 4, -1, 1, -2, 0⟩ : Box).Proper ∧
    ∃ q ∈ Metric.ball ((0, 0, 2) : Pt) 1, q ∉ exBox.region ∧ q ∉ (⟨3, 4, -1, 1, -2, 0⟩ : Box).region := by
  refine ⟨exBox_proper, by norm_num [Box.Proper], (0, 0, 2), Metric.mem_ball_self one_pos, ?_, ?_⟩ <;>
    norm_num [exBox, Box.region]

end Choclo
