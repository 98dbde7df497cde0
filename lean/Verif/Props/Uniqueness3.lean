import Verif.Props.Uniqueness2
import Verif.Props.Decay

/-! # C118: one magnetic component is enough -/

namespace Choclo

open Real Set MeasureTheory Filter Topology

variable {P Q : Box}

/-- A magnetic field outside a box: three components, their gradient, which is symmetric, everything analytic along
lines, and the components vanish at infinity in the direction of every axis. -/
structure PotField (P : Box) (F : Axis → Pt → ℝ) (J : Axis → Axis → Pt → ℝ) : Prop where
  symm : ∀ a b p, J a b p = J b a p
  deriv : ∀ (a b : Axis) (p : Pt), p ∉ P.region → HasDerivAt (fun t => F a (p.set b t)) (J a b p) (p.coord b)
  anaF : ∀ a, LineAnalytic (F a) P.regionᶜ
  anaJ : ∀ a b, LineAnalytic (J a b) P.regionᶜ
  decay : ∀ (a b : Axis) (p : Pt), Tendsto (fun t => F a (p.set b t)) atTop (𝓝 0)

theorem set_not_region {p : Pt} {b : Axis} {t : ℝ} (h : P.hi b < t) : p.set b t ∉ P.region := by
  intro hm
  obtain ⟨⟨_, h1⟩, ⟨_, h2⟩, ⟨_, h3⟩⟩ := hm
  cases b
  · exact absurd h1 (not_le.2 h)
  · exact absurd h2 (not_le.2 h)
  · exact absurd h3 (not_le.2 h)

/-- beyond the box along an axis, the gradient determines the field -/
theorem PotField.beyond {F G : Axis → Pt → ℝ} {J K : Axis → Axis → Pt → ℝ} (hF : PotField P F J) (hG : PotField Q G K)
    (a b : Axis) (h : ∀ p, p ∉ P.region → p ∉ Q.region → J a b p = K a b p) {p : Pt} (hp : max (P.hi b) (Q.hi b) < p.coord b) :
    F a p = G a p := by
  set m := max (P.hi b) (Q.hi b) with hm
  set f : ℝ → ℝ := fun t => F a (p.set b t) - G a (p.set b t) with hf
  have d : ∀ t ∈ Ioi m, HasDerivAt f 0 t := by
    intro t ht
    have h1 : p.set b t ∉ P.region := set_not_region (lt_of_le_of_lt (le_max_left _ _) ht)
    have h2 : p.set b t ∉ Q.region := set_not_region (lt_of_le_of_lt (le_max_right _ _) ht)
    have e : (p.set b t).coord b = t := by cases b <;> rfl
    have e2 : ∀ x, (p.set b t).set b x = p.set b x := fun x => by cases b <;> rfl
    have d1 := (hF.deriv a b _ h1).fun_sub (hG.deriv a b _ h2)
    rw [e, h _ h1 h2, sub_self] at d1
    simpa only [e2] using d1
  have c : ∀ t ∈ Ioi m, f t = f (p.coord b) := by
    intro t ht
    exact (convex_Ioi m).is_const_of_fderivWithin_eq_zero (𝕜 := ℝ)
      (fun x hx => (d x hx).differentiableAt.differentiableWithinAt)
      (fun x hx => by
        have := (d x hx).hasFDerivAt.hasFDerivWithinAt (s := Ioi m)
        rw [this.fderivWithin ((isOpen_Ioi).uniqueDiffWithinAt hx)]
        simp) ht hp
  have l1 : Tendsto f atTop (𝓝 (0 - 0)) := (hF.decay a b p).sub (hG.decay a b p)
  have l2 : Tendsto f atTop (𝓝 (f (p.coord b))) := by
    refine tendsto_const_nhds.congr' ?_
    filter_upwards [eventually_gt_atTop m] with t ht
    exact (c t ht).symm
  have := tendsto_nhds_unique l2 l1
  simp only [hf, Pt.set_coord, sub_self] at this
  linarith

theorem isOpen_beyond (b : Axis) (m : ℝ) : IsOpen {p : Pt | m < p.coord b} := by
  have : Continuous fun p : Pt => p.coord b := by
    cases b
    · exact continuous_fst
    · exact continuous_fst.comp continuous_snd
    · exact continuous_snd.comp continuous_snd
  exact isOpen_lt continuous_const this

theorem PotField.of_grad {F G : Axis → Pt → ℝ} {J K : Axis → Axis → Pt → ℝ} (hF : PotField P F J) (hG : PotField Q G K)
    (a b : Axis) (h : ∀ p, p ∉ P.region → p ∉ Q.region → J a b p = K a b p) :
    ∀ p, p ∉ P.region → p ∉ Q.region → F a p = G a p := by
  intro p h1 h2
  set m := max (P.hi b) (Q.hi b) with hm
  refine unique_continuation (isOpen_outside P Q) (isPreconnected_outside P Q)
    ((hF.anaF a).mono inter_subset_left) ((hG.anaF a).mono inter_subset_right) (isOpen_beyond b m)
    ⟨p.set b (m + 1), ?_, ?_, ?_⟩ (fun q hq => hF.beyond hG a b h hq.1) p ⟨h1, h2⟩
  · have e : (p.set b (m + 1)).coord b = m + 1 := by cases b <;> rfl
    show m < _
    rw [e]; exact lt_add_one m
  · exact set_not_region (lt_of_le_of_lt (le_max_left _ _) (lt_add_one m))
  · exact set_not_region (lt_of_le_of_lt (le_max_right _ _) (lt_add_one m))

theorem PotField.to_grad {F G : Axis → Pt → ℝ} {J K : Axis → Axis → Pt → ℝ} (hF : PotField P F J) (hG : PotField Q G K)
    (a b : Axis) (h : ∀ p, p ∉ P.region → p ∉ Q.region → F a p = G a p) :
    ∀ p, p ∉ P.region → p ∉ Q.region → J a b p = K a b p := by
  intro p h1 h2
  refine (hF.deriv a b p h1).unique ((hG.deriv a b p h2).congr_of_eventuallyEq ?_)
  filter_upwards [eventually_exterior b h1, eventually_exterior b h2] with t ht ht'
  exact h _ ht ht'

/-- one component everywhere gives all components -/
theorem PotField.all {F G : Axis → Pt → ℝ} {J K : Axis → Axis → Pt → ℝ} (hF : PotField P F J) (hG : PotField Q G K)
    (a : Axis) (h : ∀ p, p ∉ P.region → p ∉ Q.region → F a p = G a p) (b : Axis) :
    ∀ p, p ∉ P.region → p ∉ Q.region → F b p = G b p := by
  refine hF.of_grad hG b a fun p h1 h2 => ?_
  rw [hF.symm b a, hG.symm b a]
  exact hF.to_grad hG a b h p h1 h2

/-- ... and so does one component of field or gradient on a patch -/
theorem PotField.patch {F G : Axis → Pt → ℝ} {J K : Axis → Axis → Pt → ℝ} (hF : PotField P F J) (hG : PotField Q G K)
    {f g : Pt → ℝ} (hc : (∃ a, f = F a ∧ g = G a) ∨ ∃ a b, f = J a b ∧ g = K a b)
    {U : Set Pt} (hU : IsOpen U) (hne : ∃ p ∈ U, p ∉ P.region ∧ p ∉ Q.region)
    (h : ∀ p ∈ U, p ∉ P.region → p ∉ Q.region → f p = g p) (b : Axis) :
    ∀ p, p ∉ P.region → p ∉ Q.region → F b p = G b p := by
  obtain ⟨p0, h0, h1, h2⟩ := hne
  rcases hc with ⟨a, rfl, rfl⟩ | ⟨a, a', rfl, rfl⟩
  · refine hF.all hG a (fun p h1' h2' => ?_) b
    exact unique_continuation (isOpen_outside P Q) (isPreconnected_outside P Q)
      ((hF.anaF a).mono inter_subset_left) ((hG.anaF a).mono inter_subset_right) hU ⟨p0, h0, h1, h2⟩
      (fun q hq => h q hq.1 hq.2.1 hq.2.2) p ⟨h1', h2'⟩
  · refine hF.all hG a (hF.of_grad hG a a' fun p h1' h2' => ?_) b
    exact unique_continuation (isOpen_outside P Q) (isPreconnected_outside P Q)
      ((hF.anaJ a a').mono inter_subset_left) ((hG.anaJ a a').mono inter_subset_right) hU ⟨p0, h0, h1, h2⟩
      (fun q hq => h q hq.1 hq.2.1 hq.2.2) p ⟨h1', h2'⟩

/-! ## Instances -/

theorem dist3_set_ge {q s : Pt} {b : Axis} {t : ℝ} : t - s.coord b ≤ dist3 (q.set b t) s := by
  have h : |(q.set b t).coord b - s.coord b| ≤ dist3 (q.set b t) s := by
    have := rad_sq ((q.set b t).e - s.e) ((q.set b t).n - s.n) ((q.set b t).u - s.u)
    refine abs_le_of_sq_le_sq ?_ (Real.sqrt_nonneg _)
    show _ ≤ rad _ _ _ ^ 2
    rw [this]
    cases b <;> simp only [Pt.coord] <;>
      nlinarith [sq_nonneg ((q.set .e t).n - s.n), sq_nonneg ((q.set .e t).u - s.u), sq_nonneg ((q.set .n t).e - s.e),
        sq_nonneg ((q.set .n t).u - s.u), sq_nonneg ((q.set .u t).e - s.e), sq_nonneg ((q.set .u t).n - s.n)]
  have e : (q.set b t).coord b = t := by cases b <;> rfl
  rw [e] at h
  exact (le_abs_self _).trans h

theorem region_le_hi {s : Pt} (h : s ∈ P.region) (b : Axis) : s.coord b ≤ P.hi b := by
  obtain ⟨⟨_, h1⟩, ⟨_, h2⟩, ⟨_, h3⟩⟩ := h
  cases b
  · exact h1
  · exact h2
  · exact h3

theorem tendsto_tail (K m : ℝ) : Tendsto (fun t : ℝ => K / (t - m) ^ 3) atTop (𝓝 0) :=
  tendsto_const_nhds.div_atTop ((tendsto_pow_atTop (by norm_num)).comp (tendsto_atTop_add_const_right _ (-m) tendsto_id))

theorem decay_tensor (hP : P.Ordered) (a c b : Axis) (p : Pt) :
    Tendsto (fun t => Vc (tensor a c) (p.set b t) P) atTop (𝓝 0) := by
  refine squeeze_zero_norm' ?_ (tendsto_tail (2 * P.volume) (P.hi b))
  filter_upwards [eventually_gt_atTop (P.hi b)] with t ht
  have hx : p.set b t ∉ P.region := set_not_region ht
  rw [Vc_tensor_integral hP a c hx, show (tensor a c).toK = kern2 a c by cases a <;> cases c <;> rfl, Real.norm_eq_abs]
  have hd : 0 < t - P.hi b := sub_pos.2 ht
  refine (abs_integral_region_le hP (C := 2 / (t - P.hi b) ^ 3) fun s hs => ?_).trans (le_of_eq (by ring))
  exact abs_kern2_le' a c hd ((sub_le_sub_left (region_le_hi hs b) t).trans dist3_set_ge)

theorem potField_prism (hP : P.Ordered) (M : Vec) :
    PotField P (fun a p => mu0 / 4 / π * Bc a.field p P M.e M.n M.u)
      (fun a b p => mu0 / 4 / π * Bc (gradComp a b) p P M.e M.n M.u) where
  symm a b p := by
    have : gradComp a b = gradComp b a := by cases a <;> cases b <;> rfl
    rw [this]
  deriv a b p h := (hasDerivAt_Bfield a b hP h M).const_mul _
  anaF a := (lineAnalytic_Bc hP a.field M).const_mul _
  anaJ a b := (lineAnalytic_Bc hP (gradComp a b) M).const_mul _
  decay a b p := by
    simp only [Bc_field]
    have d := fun c => decay_tensor hP a c b p
    have := ((((d .e).const_mul M.e).add ((d .n).const_mul M.n)).add ((d .u).const_mul M.u)).const_mul (mu0 / 4 / π)
    simpa using this

theorem potField_dipole (q : Pt) (m : Vec) :
    PotField (pointBox q) (fun a p => Bd a p q m) (fun a b p => Jd a b p q m) where
  symm a b p := by
    have : ∀ c, kern3 a b c = kern3 b a c := fun c => by cases a <;> cases b <;> cases c <;> rfl
    unfold Jd
    rw [this, this, this]
  deriv a b p h := by
    have hne : p ≠ q := fun h' => h ((region_pointBox q p).2 h')
    have k : ∀ i, HasDerivAt (fun t => kpp (kern2 a i) (p.set b t) q) (kpp (kern3 a b i) p q) (p.coord b) := by
      intro i
      have := kpp_deriv (kern2_succ a b i) (p := p) (q := q) (t := p.coord b) (by rw [Pt.set_coord]; exact hne)
      rwa [Pt.set_coord] at this
    exact ((((k .e).mul_const m.e).add ((k .n).mul_const m.n)).add ((k .u).mul_const m.u)).const_mul (mu0 / 4 / π)
  anaF a := lineAnalytic_Bd a q m
  anaJ a b := by
    intro p d t ht
    have k := fun c => lineAnalytic_kpp c q p d t ht
    exact analyticAt_const.mul ((((k (kern3 a b .e)).mul analyticAt_const).add ((k (kern3 a b .n)).mul analyticAt_const)).add
      ((k (kern3 a b .u)).mul analyticAt_const))
  decay a b p := by
    have k : ∀ i, Tendsto (fun t => kpp (kern2 a i) (p.set b t) q) atTop (𝓝 0) := by
      intro i
      refine squeeze_zero_norm' ?_ (tendsto_tail 2 (q.coord b))
      filter_upwards [eventually_gt_atTop (q.coord b)] with t ht
      exact abs_kern2_le' a i (sub_pos.2 ht) dist3_set_ge
    have := ((((k .e).mul_const m.e).add ((k .n).mul_const m.n)).add ((k .u).mul_const m.u)).const_mul (mu0 / 4 / π)
    simp only [zero_mul, add_zero, mul_zero] at this
    exact this

theorem magnetic_call_val (hP : P.Ordered) (c : MComp) (M : Vec) {q : Pt} (h : q ∉ P.region) :
    Returns (onPrism (A := Exact) (prismMagnetic c) q P M.e M.n M.u) (mu0 / 4 / π * Bc c q P M.e M.n M.u) :=
  Ex.magnetic_returns hP (exterior_edges hP h) (fun h' => h (inside_subset_region h')) _ _ _

/-- A single component of the magnetic field or of its gradient on any open patch outside two prisms determines the prism
and its magnetization. -/
theorem C118_prism (hP : P.Proper) (hQ : Q.Proper) (c : MComp) {M N : Vec} (hM : M ≠ (0, 0, 0)) (hN : N ≠ (0, 0, 0))
    (U : Set Pt) (hU : IsOpen U) (hne : ∃ p ∈ U, p ∉ P.region ∧ p ∉ Q.region)
    (h : ∀ p ∈ U, p ∉ P.region → p ∉ Q.region →
      onPrism (A := Exact) (prismMagnetic c) p P M.e M.n M.u
        = onPrism (A := Exact) (prismMagnetic c) p Q N.e N.n N.u) :
    P = Q ∧ M = N := by
  have hO := hP.ordered
  have hO' := hQ.ordered
  have all := (potField_prism hO M).patch (potField_prism hO' N)
    (f := fun p => mu0 / 4 / π * Bc c p P M.e M.n M.u) (g := fun p => mu0 / 4 / π * Bc c p Q N.e N.n N.u)
    (by
      rcases mcomp_cases c with ⟨a, rfl⟩ | ⟨a, b, rfl⟩
      · exact .inl ⟨a, rfl, rfl⟩
      · exact .inr ⟨a, b, rfl, rfl⟩) hU hne
    (fun p hp h1 h2 => by
      have r := magnetic_call_val hO c M h1
      rw [h p hp h1 h2] at r
      exact r.inj (magnetic_call_val hO' c N h2))
  refine C116_magnetic_unique hP hQ hM hN U hU hne fun a p _ h1 h2 => ?_
  have r1 := magnetic_call_val hO a.field M h1
  have r2 := magnetic_call_val hO' a.field N h2
  unfold Returns at r1 r2
  rw [r1, r2]
  exact congrArg (fun x => Except.ok (Fl.fin x)) (all a p h1 h2)

/-- No component of the magnetic field or gradient of a magnetized prism vanishes on an open patch outside it. -/
theorem C118_visible (hP : P.Proper) (c : MComp) {M : Vec} (hM : M ≠ (0, 0, 0)) (U : Set Pt) (hU : IsOpen U)
    (hne : ∃ p ∈ U, p ∉ P.region) :
    ∃ p ∈ U, p ∉ P.region ∧ ∃ v, v ≠ 0 ∧ Returns (onPrism (A := Exact) (prismMagnetic c) p P M.e M.n M.u) v := by
  by_contra hn
  push Not at hn
  obtain ⟨q0, h0, h0'⟩ := hne
  have hO := hP.ordered
  have z : ∀ p ∈ U, p ∉ P.region → mu0 / 4 / π * Bc c p P M.e M.n M.u = 0 := by
    intro p hp hp'
    by_contra h
    exact hn p hp hp' _ h (magnetic_call_val hO c M hp')
  have all := (potField_prism hO M).patch (potField_prism hO (0, 0, 0))
    (f := fun p => mu0 / 4 / π * Bc c p P M.e M.n M.u) (g := fun p => mu0 / 4 / π * Bc c p P 0 0 0)
    (by
      rcases mcomp_cases c with ⟨a, rfl⟩ | ⟨a, b, rfl⟩
      · exact .inl ⟨a, rfl, rfl⟩
      · exact .inr ⟨a, b, rfl, rfl⟩) hU ⟨q0, h0, h0', h0'⟩
    (fun p hp h1 _ => by
      rw [z p hp h1]
      obtain ⟨k1, k2, k3, hk⟩ := Bc_outside hO c
      have := hk (0, 0, 0) h1
      simp only [Pt.e, Pt.n, Pt.u, zero_mul, add_zero] at this
      rw [this, mul_zero])
  refine mag_mismatch hP (.inl rfl) hM univ_mem (fun _ _ => 0) (fun _ => continuousAt_const) (fun a p _ hp => ?_)
  have := all a p hp hp
  rw [Bc_field a p P (0, 0, 0)] at this
  simp only [Pt.e, Pt.n, Pt.u, zero_mul, add_zero, mul_zero] at this
  exact (mul_eq_zero.1 this).resolve_left mag_const_ne

/-- A single component of the magnetic field on any open patch determines a dipole. -/
theorem C118_dipole (a : Axis) (q q' : Pt) {m m' : Vec} (hm : m ≠ (0, 0, 0)) (U : Set Pt) (hU : IsOpen U)
    (hne : ∃ p ∈ U, p ≠ q ∧ p ≠ q')
    (h : ∀ p ∈ U, p ≠ q → p ≠ q' →
      onPair (A := Exact) (dipoleMagnetic a) p q m.e m.n m.u
        = onPair (A := Exact) (dipoleMagnetic a) p q' m'.e m'.n m'.u) :
    q = q' ∧ m = m' := by
  have nr : ∀ q p : Pt, p ∉ (pointBox q).region ↔ p ≠ q := fun q p => not_congr (region_pointBox q p)
  have all := (potField_dipole q m).patch (potField_dipole q' m') (.inl ⟨a, rfl, rfl⟩) hU (by simpa only [nr] using hne)
    (fun p hp h1 h2 => (dipole_call_eq a ((nr q p).1 h1) ((nr q' p).1 h2) m m').1 (h p hp ((nr q p).1 h1) ((nr q' p).1 h2)))
  exact C117_dipole q q' hm U hU hne fun b p _ h1 h2 =>
    (dipole_call_eq b h1 h2 m m').2 (all b p ((nr q p).2 h1) ((nr q' p).2 h2))

/-- No single component of the field of a magnetized prism is that of a dipole on an open patch. -/
theorem C118_prism_not_dipole (hP : P.Proper) (a : Axis) {M : Vec} (hM : M ≠ (0, 0, 0)) (q : Pt) (m : Vec) (U : Set Pt)
    (hU : IsOpen U) (hne : ∃ p ∈ U, p ∉ P.region ∧ p ≠ q) :
    ∃ p ∈ U, p ∉ P.region ∧ p ≠ q ∧
      onPrism (A := Exact) (prismMagnetic a.field) p P M.e M.n M.u
        ≠ onPair (A := Exact) (dipoleMagnetic a) p q m.e m.n m.u := by
  by_contra hn
  push Not at hn
  have hO := hP.ordered
  have nr : ∀ q p : Pt, p ∉ (pointBox q).region ↔ p ≠ q := fun q p => not_congr (region_pointBox q p)
  have all := (potField_prism hO M).patch (potField_dipole q m) (.inl ⟨a, rfl, rfl⟩) hU (by simpa only [nr] using hne)
    (fun p hp h1 h2 => by
      have r := magnetic_call_val hO a.field M h1
      rw [hn p hp h1 ((nr q p).1 h2)] at r
      exact r.inj (show Returns _ _ from dipole_fin a ((nr q p).1 h2) m))
  obtain ⟨b, p, -, h1, h2, hx⟩ := C117_prism_not_dipole hP hM q m U hU hne
  refine hx ?_
  have r1 := magnetic_call_val hO b.field M h1
  unfold Returns at r1
  rw [r1, dipole_fin b h2 m]
  exact congrArg (fun x => Except.ok (Fl.fin x)) (all b p h1 ((nr q p).2 h2))

/-- non-vacuity: prisms, dipoles and a patch off all of them -/
example : exBox.Proper ∧ (⟨3, 4, -1, 1, -2, 0⟩ : Box).Proper ∧ ∃ p ∈ Metric.ball ((0, 0, 2) : Pt) 1,
    p ∉ exBox.region ∧ p ∉ (⟨3, 4, -1, 1, -2, 0⟩ : Box).region ∧ p ≠ (0, 0, 0) ∧ p ≠ (1, 0, 0) := by
  refine ⟨exBox_proper, by norm_num [Box.Proper], (0, 0, 2), Metric.mem_ball_self one_pos, ?_, ?_, ?_, ?_⟩
  · norm_num [exBox, Box.region]
  · norm_num [Box.region]
  · simp
  · simp

end Choclo
