import Verif.Props.Independence
import Mathlib.Analysis.Normed.Module.Connected
import Mathlib.Data.Finsupp.Basic

/-! # C124, C125: magnetizations, point masses and dipoles are determined by the data -/

namespace Choclo

open Real Set MeasureTheory Filter Topology

variable {ι : Type*} {P : ι → Box} {B : Box}

theorem PotField.mono {Q : Box} {F : Axis → Pt → ℝ} {J : Axis → Axis → Pt → ℝ} (h : PotField Q F J)
    (hB : Q.region ⊆ B.region) : PotField B F J where
  symm := h.symm
  deriv a b p hp := h.deriv a b p fun hm => hp (hB hm)
  anaF a := (h.anaF a).mono (compl_subset_compl.2 hB)
  anaJ a b := (h.anaJ a b).mono (compl_subset_compl.2 hB)
  decay := h.decay

theorem PotField.zero (B : Box) : PotField B (fun _ _ => 0) (fun _ _ _ => 0) where
  symm _ _ _ := rfl
  deriv _ _ _ _ := hasDerivAt_const _ _
  anaF _ _ _ _ _ := analyticAt_const
  anaJ _ _ _ _ _ _ := analyticAt_const
  decay _ _ _ := tendsto_const_nhds

theorem PotField.sum (S : Finset ι) {F : ι → Axis → Pt → ℝ} {J : ι → Axis → Axis → Pt → ℝ}
    (h : ∀ i ∈ S, PotField B (F i) (J i)) :
    PotField B (fun a p => ∑ i ∈ S, F i a p) (fun a b p => ∑ i ∈ S, J i a b p) where
  symm a b p := Finset.sum_congr rfl fun i hi => (h i hi).symm a b p
  deriv a b p hp := HasDerivAt.fun_sum fun i hi => (h i hi).deriv a b p hp
  anaF a := lineAnalytic_sum S fun i hi => (h i hi).anaF a
  anaJ a b := lineAnalytic_sum S fun i hi => (h i hi).anaJ a b
  decay a b p := by
    have := tendsto_finsetSum S fun i hi => (h i hi).decay a b p
    rwa [Finset.sum_const_zero] at this

theorem Bc_sub {Q : Box} (hQ : Q.Ordered) (c : MComp) {q : Pt} (h : q ∉ Q.region) (M N : Vec) :
    Bc c q Q (M - N).e (M - N).n (M - N).u = Bc c q Q M.e M.n M.u - Bc c q Q N.e N.n N.u := by
  obtain ⟨k1, k2, k3, hk⟩ := Bc_outside hQ c
  rw [hk _ h, hk _ h, hk _ h]
  simp only [Pt.e, Pt.n, Pt.u, Prod.fst_sub, Prod.snd_sub]
  ring

/-- the magnetic fields of prisms with different high corners are linearly independent on every patch -/
theorem independent_mag (hP : ∀ i, (P i).Proper) (hd : Function.Injective fun i => (P i).highCorner) (M : ι → Vec)
    (S : Finset ι) (hM : ∀ i ∈ S, M i ≠ (0, 0, 0)) (c : MComp) (hB : ∀ i ∈ S, (P i).region ⊆ B.region) {U : Set Pt}
    (hU : IsOpen U) (hne : ∃ q ∈ U, q ∉ B.region)
    (h : ∀ q ∈ U, q ∉ B.region → ∑ i ∈ S, mu0 / 4 / π * Bc c q (P i) (M i).e (M i).n (M i).u = 0) : S = ∅ := by
  by_contra hS
  obtain ⟨i, hi, hx⟩ := exists_extreme (Finset.nonempty_iff_ne_empty.2 hS) P
  set v := (P i).highCorner with hvd
  have hO := fun i => (hP i).ordered
  have pf := PotField.sum S fun j hj => (potField_prism (hO j) (M j)).mono (hB j hj)
  obtain ⟨q0, h0, h0'⟩ := id hne
  have all := pf.patch (PotField.zero B)
    (f := fun q => ∑ i ∈ S, mu0 / 4 / π * Bc c q (P i) (M i).e (M i).n (M i).u) (g := fun _ => 0)
    (by
      rcases mcomp_cases c with ⟨a, rfl⟩ | ⟨a, b, rfl⟩
      · exact .inl ⟨a, rfl, rfl⟩
      · exact .inr ⟨a, b, rfl, rfl⟩) hU ⟨q0, h0, h0', h0'⟩ (fun p hp h1 _ => h p hp h1)
  have hv : ∀ j ∈ S, j ≠ i → v ∉ (P j).region := fun j hj hji => hx.not_mem hj fun e => hji (hd e)
  have ev : ∀ a : Axis, ∀ᶠ q in 𝓝 v, q ∈ (P i).regionᶜ →
      ∑ j ∈ S, mu0 / 4 / π * Bc a.field q (P j) (M j).e (M j).n (M j).u = 0 := by
    intro a
    rw [← eventually_nhdsWithin_iff]
    exact vanish_corner (f := fun q => ∑ j ∈ S, mu0 / 4 / π * Bc a.field q (P j) (M j).e (M j).n (M j).u) hi hx (hP i) hv
      hB
      (lineAnalytic_sum S fun j hj => ((lineAnalytic_Bc (hO j) a.field (M j)).const_mul _).mono fun q hq => hq j hj) hU hne
      (fun q _ hq' => all a q hq' hq')
  classical
  refine mag_mismatch (hP i) (.inr rfl) (hM i hi) ((ev .e).and ((ev .n).and (ev .u)))
    (fun a q => -∑ j ∈ S.erase i, Bc a.field q (P j) (M j).e (M j).n (M j).u)
    (fun a => ContinuousAt.neg (tendsto_finsetSum _ fun j hj =>
      continuousAt_Bc_outside (hO j) a.field (M j) (hv j (Finset.mem_of_mem_erase hj) (Finset.ne_of_mem_erase hj))))
    (fun a q hq hq' => ?_)
  have hz : ∑ j ∈ S, mu0 / 4 / π * Bc a.field q (P j) (M j).e (M j).n (M j).u = 0 := by
    obtain ⟨h1, h2, h3⟩ := hq
    cases a
    · exact h1 hq'
    · exact h2 hq'
    · exact h3 hq'
  rw [← Finset.mul_sum] at hz
  have hz := (mul_eq_zero.1 hz).resolve_left mag_const_ne
  rw [← Finset.add_sum_erase S _ hi] at hz
  linarith

/-- **C124.** The magnetizations of finitely many prisms, no two of which have the same high corner, are determined by one
component of their total magnetic field or gradient on any patch outside a box around them. -/
theorem C124_corners [Fintype ι] (hP : ∀ i, (P i).Proper) (hd : Function.Injective fun i => (P i).highCorner) (c : MComp)
    {M N : ι → Vec} (hB : ∀ i, (P i).region ⊆ B.region) {U : Set Pt} (hU : IsOpen U) (hne : ∃ q ∈ U, q ∉ B.region)
    (h : ∀ q ∈ U, q ∉ B.region → ∃ f g : ι → ℝ,
      (∀ i, Returns (onPrism (A := Exact) (prismMagnetic c) q (P i) (M i).e (M i).n (M i).u) (f i)) ∧
      (∀ i, Returns (onPrism (A := Exact) (prismMagnetic c) q (P i) (N i).e (N i).n (N i).u) (g i)) ∧
      ∑ i, f i = ∑ i, g i) : M = N := by
  classical
  have hO := fun i => (hP i).ordered
  have key := independent_mag hP hd (fun i => M i - N i) (Finset.univ.filter fun i => M i ≠ N i)
    (fun i hi => sub_ne_zero.2 (Finset.mem_filter.1 hi).2) c (fun i _ => hB i) hU hne (fun q hq hq' => by
      obtain ⟨f, g, hf, hg, e⟩ := h q hq hq'
      have off : ∀ i, q ∉ (P i).region := fun i hm => hq' (hB i hm)
      rw [Finset.sum_congr rfl fun i _ => (hf i).inj (magnetic_call_val (hO i) c (M i) (off i)),
        Finset.sum_congr rfl fun i _ => (hg i).inj (magnetic_call_val (hO i) c (N i) (off i)), ← sub_eq_zero,
        ← Finset.sum_sub_distrib] at e
      refine Eq.trans ?_ e
      rw [Finset.sum_filter]
      refine Finset.sum_congr rfl fun i _ => ?_
      split_ifs with hi
      · rw [Bc_sub (hO i) c (off i)]
        ring
      · rw [not_not] at hi
        rw [hi, sub_self])
  rw [Finset.filter_eq_empty_iff] at key
  funext i
  by_contra hi
  exact key (Finset.mem_univ i) hi

/-- **C124.** The magnetizations of finitely many prisms that do not overlap are determined by one component of their total
magnetic field or gradient on any patch outside a box around them. -/
theorem C124_magnetizations [Fintype ι] (hP : ∀ i, (P i).Proper)
    (hd : Pairwise fun i j => Disjoint (P i).inside (P j).inside) (c : MComp)
    {M N : ι → Vec} (hB : ∀ i, (P i).region ⊆ B.region) {U : Set Pt} (hU : IsOpen U) (hne : ∃ q ∈ U, q ∉ B.region)
    (h : ∀ q ∈ U, q ∉ B.region → ∃ f g : ι → ℝ,
      (∀ i, Returns (onPrism (A := Exact) (prismMagnetic c) q (P i) (M i).e (M i).n (M i).u) (f i)) ∧
      (∀ i, Returns (onPrism (A := Exact) (prismMagnetic c) q (P i) (N i).e (N i).n (N i).u) (g i)) ∧
      ∑ i, f i = ∑ i, g i) : M = N :=
  C124_corners hP (corners_of_disjoint hP hd) c hB hU hne h

/-- the field is linear in the magnetization -/
theorem Bc_expand {Q : Box} (hQ : Q.Ordered) (c : MComp) {q : Pt} (h : q ∉ Q.region) (M : Vec) :
    Bc c q Q M.e M.n M.u = M.e * Bc c q Q 1 0 0 + M.n * Bc c q Q 0 1 0 + M.u * Bc c q Q 0 0 1 := by
  obtain ⟨k1, k2, k3, hk⟩ := Bc_outside hQ c
  have e1 := hk (1, 0, 0) h
  have e2 := hk (0, 1, 0) h
  have e3 := hk (0, 0, 1) h
  simp only [Pt.e, Pt.n, Pt.u] at e1 e2 e3
  rw [hk _ h, e1, e2, e3]
  ring

/-- **C124.** Three well-chosen observation points for each prism are enough. -/
theorem C124_points [Fintype ι] (hP : ∀ i, (P i).Proper)
    (hd : Pairwise fun i j => Disjoint (P i).inside (P j).inside) (c : MComp)
    (hB : ∀ i, (P i).region ⊆ B.region) {U : Set Pt} (hU : IsOpen U) (hne : ∃ q ∈ U, q ∉ B.region) :
    ∃ q : ι × Fin 3 → Pt, (∀ k, q k ∈ U ∧ q k ∉ B.region) ∧ ∀ M N : ι → Vec,
      (∀ k, ∃ f g : ι → ℝ,
        (∀ i, Returns (onPrism (A := Exact) (prismMagnetic c) (q k) (P i) (M i).e (M i).n (M i).u) (f i)) ∧
        (∀ i, Returns (onPrism (A := Exact) (prismMagnetic c) (q k) (P i) (N i).e (N i).n (N i).u) (g i)) ∧
        ∑ i, f i = ∑ i, g i) → M = N := by
  classical
  have hO := fun i => (hP i).ordered
  set E : Fin 3 → Vec := ![(1, 0, 0), (0, 1, 0), (0, 0, 1)] with hE
  set F : ι × Fin 3 → Pt → ℝ := fun k q => mu0 / 4 / π * Bc c q (P k.1) (E k.2).e (E k.2).n (E k.2).u with hF
  have val : ∀ (M : ι → Vec) {q : Pt}, (∀ i, q ∉ (P i).region) →
      ∑ k : ι × Fin 3, ![(M k.1).e, (M k.1).n, (M k.1).u] k.2 * F k q
        = ∑ i, mu0 / 4 / π * Bc c q (P i) (M i).e (M i).n (M i).u := by
    intro M q hq
    rw [Fintype.sum_prod_type]
    refine Finset.sum_congr rfl fun i _ => ?_
    rw [Fin.sum_univ_three, Bc_expand (hO i) c (hq i) (M i)]
    simp only [hF, hE, Matrix.cons_val_zero, Matrix.cons_val_one, Matrix.cons_val, Pt.e, Pt.n, Pt.u]
    ring
  obtain ⟨q, hq, hdet⟩ := exists_points F (U ∩ B.regionᶜ) (fun k hk => by
    have := C124_magnetizations (M := fun i => (k (i, 0), k (i, 1), k (i, 2))) (N := fun _ => (0, 0, 0)) hP hd c hB hU hne
      (fun q hq hq' => by
        have off : ∀ i, q ∉ (P i).region := fun i hm => hq' (hB i hm)
        refine ⟨_, _, fun i => magnetic_call_val (hO i) c (k (i, 0), k (i, 1), k (i, 2)) (off i),
          fun i => magnetic_call_val (hO i) c (0, 0, 0) (off i), ?_⟩
        rw [← val (fun i => (k (i, 0), k (i, 1), k (i, 2))) off, ← val (fun _ => (0, 0, 0)) off]
        have hz := hk q ⟨hq, hq'⟩
        have e1 : ∀ x : ι × Fin 3, ![k (x.1, 0), k (x.1, 1), k (x.1, 2)] x.2 = k x := by
          rintro ⟨i, j⟩
          fin_cases j <;> rfl
        have e2 : ∀ x : Fin 3, ![(0 : ℝ), 0, 0] x = 0 := fun x => by fin_cases x <;> rfl
        simp only [Pt.e, Pt.n, Pt.u, e1, e2, hz, zero_mul, Finset.sum_const_zero])
    funext x
    obtain ⟨i, j⟩ := x
    have hi := congrFun this i
    simp only [Prod.mk.injEq] at hi
    fin_cases j
    · exact hi.1
    · exact hi.2.1
    · exact hi.2.2)
  refine ⟨q, hq, fun M N h => ?_⟩
  have hz : Matrix.mulVec (Matrix.of fun i j => F j (q i))
      (fun k => ![(M k.1).e, (M k.1).n, (M k.1).u] k.2 - ![(N k.1).e, (N k.1).n, (N k.1).u] k.2) = 0 := by
    funext i
    have off : ∀ j, q i ∉ (P j).region := fun j hm => (hq i).2 (hB j hm)
    obtain ⟨f, g, hf, hg, e⟩ := h i
    rw [Finset.sum_congr rfl fun j _ => (hf j).inj (magnetic_call_val (hO j) c (M j) (off j)),
      Finset.sum_congr rfl fun j _ => (hg j).inj (magnetic_call_val (hO j) c (N j) (off j)), ← val M off, ← val N off,
      ← sub_eq_zero, ← Finset.sum_sub_distrib] at e
    simp only [Matrix.mulVec, dotProduct, Matrix.of_apply, Pi.zero_apply]
    refine Eq.trans ?_ e
    exact Finset.sum_congr rfl fun j _ => by ring
  have hz := Matrix.eq_zero_of_mulVec_eq_zero hdet hz
  funext i
  have z := fun j => sub_eq_zero.1 (congrFun hz (i, j))
  exact Prod.ext (z 0) (Prod.ext (z 1) (z 2))

/-! ## Point masses and dipoles -/

theorem preconnected_compl (T : Finset Pt) : IsPreconnected ((T : Set Pt)ᶜ) := by
  refine (T.countable_toSet.isConnected_compl_of_one_lt_rank ?_).isPreconnected
  rw [← Module.finrank_eq_rank, Module.finrank_prod, Module.finrank_prod, Module.finrank_self]
  norm_num

theorem continue_points (T : Finset Pt) {f : Pt → ℝ} (hf : LineAnalytic f ((T : Set Pt)ᶜ)) {U : Set Pt} (hU : IsOpen U)
    (hne : ∃ p ∈ U, p ∉ T) (h : ∀ p ∈ U, p ∉ T → f p = 0) : ∀ p, p ∉ T → f p = 0 := by
  obtain ⟨p0, h0, h1⟩ := hne
  exact fun p hp => unique_continuation (T.finite_toSet.isClosed.isOpen_compl) (preconnected_compl T) hf
    (g := fun _ => 0) (fun _ _ _ _ => analyticAt_const) hU ⟨p0, h0, fun hm => h1 (Finset.mem_coe.1 hm)⟩
    (fun q hq => h q hq.1 fun hm => hq.2 (Finset.mem_coe.2 hm)) p fun hm => hp (Finset.mem_coe.1 hm)

/-- a nonempty open set is not contained in a finite one -/
theorem exists_off (T : Finset Pt) {U : Set Pt} (hU : IsOpen U) (hne : U.Nonempty) : ∃ p ∈ U, p ∉ T := by
  obtain ⟨p, hp⟩ := hne
  have : (U \ (T : Set Pt)).Nonempty := by
    have hd : Dense ((T : Set Pt)ᶜ) := T.finite_toSet.countable.dense_compl ℝ
    obtain ⟨q, hq, hq'⟩ := hd.inter_open_nonempty U hU ⟨p, hp⟩
    exact ⟨q, hq, hq'⟩
  obtain ⟨q, hq, hq'⟩ := this
  exact ⟨q, hq, fun hm => hq' (Finset.mem_coe.2 hm)⟩

theorem not_mem_pointBox {T : Finset Pt} {q : Pt} (hq : q ∈ T) : ((T : Set Pt)ᶜ) ⊆ (pointBox q).regionᶜ := by
  intro p hp hm
  rw [region_pointBox] at hm
  subst hm
  exact hp (Finset.mem_coe.2 hq)

/-- a sum that vanishes off the sources, whose summands other than `q` are continuous at `q`, and whose summand `q` has no
limit there: contradiction -/
theorem points_mismatch {T : Finset Pt} {f : Pt → Pt → ℝ} (h : ∀ p, p ∉ T → ∑ q ∈ T, f q p = 0) {q : Pt} (hq : q ∈ T)
    (hc : ∀ q' ∈ T, q' ≠ q → ContinuousAt (f q') q) (hl : ∀ w, ¬Tendsto (f q) (𝓝[≠] q) (𝓝 w)) : False := by
  classical
  have hcont : ContinuousAt (fun p => -∑ q' ∈ T.erase q, f q' p) q := ContinuousAt.neg
    (tendsto_finsetSum _ fun j hj => hc j (Finset.mem_of_mem_erase hj) (Finset.ne_of_mem_erase hj))
  refine hl _ ((hcont.mono_left nhdsWithin_le_nhds).congr' ?_)
  have ev : ∀ᶠ p in 𝓝 q, ∀ q' ∈ T, q' ≠ q → p ≠ q' := by
    rw [Filter.eventually_all_finset]
    intro q' _
    by_cases hqq : q' = q
    · exact Eventually.of_forall fun _ h => absurd hqq h
    · filter_upwards [eventually_ne_source (Ne.symm hqq)] with p hp _ using hp
  filter_upwards [self_mem_nhdsWithin, nhdsWithin_le_nhds ev] with p h1 h2
  have hp : p ∉ T := fun hm => h2 p hm h1 rfl
  have := h p hp
  rw [← Finset.add_sum_erase T _ hq] at this
  linarith

theorem sum_supports {V : Type*} [Zero V] {m : Pt →₀ V} {T : Finset Pt} {F : Pt → V → ℝ} (h : m.support ⊆ T)
    (hz : ∀ q, F q 0 = 0) : ∑ q ∈ m.support, F q (m q) = ∑ q ∈ T, F q (m q) :=
  Finset.sum_subset h fun q _ hq => by rw [Finsupp.notMem_support_iff.1 hq, hz]

/-- **C125.** A finite distribution of point masses is determined, in number, places and masses, by one component of its
total gravity on any patch. -/
theorem C125_masses (c : GComp) (m m' : Pt →₀ ℝ) {U : Set Pt} (hU : IsOpen U) (hne : U.Nonempty)
    (h : ∀ p ∈ U, p ∉ m.support → p ∉ m'.support → ∃ f g : Pt → ℝ,
      (∀ q ∈ m.support, Returns (onPair (A := Exact) (pointGravity c) p q (m q)) (f q)) ∧
      (∀ q ∈ m'.support, Returns (onPair (A := Exact) (pointGravity c) p q (m' q)) (g q)) ∧
      ∑ q ∈ m.support, f q = ∑ q ∈ m'.support, g q) : m = m' := by
  classical
  set T := m.support ∪ m'.support with hT
  have z := continue_points T (f := fun p => ∑ q ∈ T, Gc * (m q - m' q) * kpp c.toK p q)
    (lineAnalytic_sum T fun q hq => ((lineAnalytic_kpp c.toK q).mono (not_mem_pointBox hq)).const_mul _) hU
    (exists_off T hU hne) (fun p hp hpT => by
      have n1 : p ∉ m.support := fun hm => hpT (Finset.mem_union_left _ hm)
      have n2 : p ∉ m'.support := fun hm => hpT (Finset.mem_union_right _ hm)
      obtain ⟨f, g, hf, hg, e⟩ := h p hp n1 n2
      have v : ∀ (q : Pt) (x : ℝ), p ≠ q → Returns (onPair (A := Exact) (pointGravity c) p q x) (Gc * x * kpp c.toK p q) :=
        fun q x hpq => Ex.pointGravity_fin c hpq x
      rw [Finset.sum_congr rfl fun q hq => (hf q hq).inj (v q (m q) fun hpq => n1 (hpq ▸ hq)),
        Finset.sum_congr rfl fun q hq => (hg q hq).inj (v q (m' q) fun hpq => n2 (hpq ▸ hq)),
        sum_supports (m := m) (T := T) (F := fun q x => Gc * x * kpp c.toK p q) Finset.subset_union_left (fun q => by ring),
        sum_supports (m := m') (T := T) (F := fun q x => Gc * x * kpp c.toK p q) Finset.subset_union_right (fun q => by ring),
        ← sub_eq_zero, ← Finset.sum_sub_distrib] at e
      refine Eq.trans ?_ e
      exact Finset.sum_congr rfl fun q _ => by ring)
  ext q
  by_contra hq
  have hk : Gc * (m q - m' q) ≠ 0 := mul_ne_zero Gc_pos.ne' (sub_ne_zero.2 hq)
  have hqT : q ∈ T := by
    rw [hT, Finset.mem_union, Finsupp.mem_support_iff, Finsupp.mem_support_iff]
    by_contra hn
    push Not at hn
    exact hq (hn.1.trans hn.2.symm)
  refine points_mismatch z hqT (fun q' _ hqq => continuousAt_const.mul (continuousAt_kpp c.toK (Ne.symm hqq))) fun w => ?_
  refine no_limit_ray (mul_ne_zero hk (kp_123 c)) (n := c.deg) (Nat.succ_ne_zero _) (fun t ht => ?_) w
  rw [mul_assoc, kpp_ray c q ht]

theorem exists_box (T : Finset Pt) : ∃ B : Box, ∀ q ∈ T, (pointBox q).region ⊆ B.region := by
  obtain ⟨R, hR⟩ := T.finite_toSet.isBounded.subset_closedBall 0
  refine ⟨⟨-R, R, -R, R, -R, R⟩, fun q hq p hp => ?_⟩
  rw [region_pointBox] at hp
  subst hp
  have h := hR (Finset.mem_coe.2 hq)
  rw [mem_closedBall_zero_iff, Prod.norm_def, Prod.norm_def] at h
  have h1 : |p.e| ≤ R := (le_max_left _ _).trans h
  have h2 : |p.n| ≤ R := ((le_max_left _ _).trans (le_max_right _ _)).trans h
  have h3 : |p.u| ≤ R := ((le_max_right _ _).trans (le_max_right _ _)).trans h
  exact ⟨abs_le.1 h1, abs_le.1 h2, abs_le.1 h3⟩

/-- **C125.** A finite distribution of dipoles is determined, in number, places and moments, by one component of its total
magnetic field on any patch. -/
theorem C125_dipoles (a : Axis) (m m' : Pt →₀ Vec) {U : Set Pt} (hU : IsOpen U) (hne : U.Nonempty)
    (h : ∀ p ∈ U, p ∉ m.support → p ∉ m'.support → ∃ f g : Pt → ℝ,
      (∀ q ∈ m.support, Returns (onPair (A := Exact) (dipoleMagnetic a) p q (m q).e (m q).n (m q).u) (f q)) ∧
      (∀ q ∈ m'.support, Returns (onPair (A := Exact) (dipoleMagnetic a) p q (m' q).e (m' q).n (m' q).u) (g q)) ∧
      ∑ q ∈ m.support, f q = ∑ q ∈ m'.support, g q) : m = m' := by
  classical
  set T := m.support ∪ m'.support with hT
  have ana : ∀ b : Axis, LineAnalytic (fun p => ∑ q ∈ T, Bd b p q (m q - m' q)) ((T : Set Pt)ᶜ) := fun b =>
    lineAnalytic_sum T fun q hq => (lineAnalytic_Bd b q (m q - m' q)).mono (not_mem_pointBox hq)
  have z0 := continue_points T (ana a) hU
    (exists_off T hU hne) (fun p hp hpT => by
      have n1 : p ∉ m.support := fun hm => hpT (Finset.mem_union_left _ hm)
      have n2 : p ∉ m'.support := fun hm => hpT (Finset.mem_union_right _ hm)
      obtain ⟨f, g, hf, hg, e⟩ := h p hp n1 n2
      have v : ∀ (q : Pt) (x : Vec), p ≠ q →
          Returns (onPair (A := Exact) (dipoleMagnetic a) p q x.e x.n x.u) (Bd a p q x) :=
        fun q x hpq => dipole_fin a hpq x
      have z : ∀ q, Bd a p q 0 = 0 := fun q => by have := Bd_sub a p q 0 0; rw [sub_self, sub_self] at this; exact this.symm
      rw [Finset.sum_congr rfl fun q hq => (hf q hq).inj (v q (m q) fun hpq => n1 (hpq ▸ hq)),
        Finset.sum_congr rfl fun q hq => (hg q hq).inj (v q (m' q) fun hpq => n2 (hpq ▸ hq)),
        sum_supports (m := m) (T := T) (F := fun q x => Bd a p q x) Finset.subset_union_left z,
        sum_supports (m := m') (T := T) (F := fun q x => Bd a p q x) Finset.subset_union_right z,
        ← sub_eq_zero, ← Finset.sum_sub_distrib] at e
      refine Eq.trans ?_ e
      exact Finset.sum_congr rfl fun q _ => (Bd_sub a p q _ _).symm)
  obtain ⟨B, hB⟩ := exists_box T
  have offB : ∀ p, p ∉ B.region → p ∉ T := fun p hp hm => hp (hB p hm ((region_pointBox p p).2 rfl))
  have pf := PotField.sum T fun q hq => (potField_dipole q (m q - m' q)).mono (hB q hq)
  have all := pf.all (PotField.zero B) a fun p h1 _ => z0 p (offB p h1)
  have z : ∀ b p, p ∉ T → ∑ q ∈ T, Bd b p q (m q - m' q) = 0 := fun b =>
    continue_points T (ana b) (isCompact_region B).isClosed.isOpen_compl
      (by
        have o : ((B.east + 1, 0, 0) : Pt) ∉ B.region := fun hm => absurd hm.1.2 (not_le.2 (lt_add_one _))
        exact ⟨_, o, offB _ o⟩)
      (fun p hp _ => all b p hp hp)
  ext1 q
  by_contra hq
  have hqT : q ∈ T := by
    rw [hT, Finset.mem_union, Finsupp.mem_support_iff, Finsupp.mem_support_iff]
    by_contra hn
    push Not at hn
    exact hq (hn.1.trans hn.2.symm)
  obtain ⟨b, hb⟩ := Bd_ne q (m := m q - m' q) (fun h0 => hq (sub_eq_zero.1 h0))
  refine points_mismatch (z b) hqT (fun q' _ hqq => continuousAt_Bd b (Ne.symm hqq) _) fun w => ?_
  exact no_limit_ray hb (n := 3) (by norm_num) (fun t ht => Bd_ray b q _ ht) w

/-- **C125.** Equivalent sources: for finitely many sources at different places there are as many observation points, in any
patch, at which the data determine the masses. -/
theorem C125_points [Fintype ι] (c : GComp) {q : ι → Pt} (hq : Function.Injective q) {U : Set Pt} (hU : IsOpen U)
    (hne : U.Nonempty) :
    ∃ p : ι → Pt, (∀ k, p k ∈ U ∧ ∀ i, p k ≠ q i) ∧ ∀ m m' : ι → ℝ,
      (∀ k, ∃ f g : ι → ℝ, (∀ i, Returns (onPair (A := Exact) (pointGravity c) (p k) (q i) (m i)) (f i)) ∧
        (∀ i, Returns (onPair (A := Exact) (pointGravity c) (p k) (q i) (m' i)) (g i)) ∧ ∑ i, f i = ∑ i, g i) → m = m' := by
  classical
  set T : Finset Pt := Finset.univ.image q with hT
  have hqT : ∀ i, q i ∈ T := fun i => Finset.mem_image_of_mem q (Finset.mem_univ i)
  have offT : ∀ {p : Pt}, p ∉ T → ∀ i, p ≠ q i := fun hp i h => hp (h ▸ hqT i)
  have v : ∀ {p : Pt} (i : ι) (x : ℝ), p ≠ q i →
      Returns (onPair (A := Exact) (pointGravity c) p (q i) x) (Gc * x * kpp c.toK p (q i)) :=
    fun i x hpq => Ex.pointGravity_fin c hpq x
  obtain ⟨p, hp, hdet⟩ := exists_points (fun i p => Gc * kpp c.toK p (q i)) (U ∩ (T : Set Pt)ᶜ) (fun k hk => by
    have z := continue_points T (f := fun p => ∑ i, k i * (Gc * kpp c.toK p (q i)))
      (lineAnalytic_sum _ fun i _ => ((((lineAnalytic_kpp c.toK (q i)).mono (not_mem_pointBox (hqT i))).const_mul Gc).const_mul _))
      hU (exists_off T hU hne) (fun p hp hpT => hk p ⟨hp, fun hm => hpT (Finset.mem_coe.1 hm)⟩)
    funext i
    by_contra hi
    have : Nonempty ι := ⟨i⟩
    have hinj : Set.InjOn q (Finset.univ : Finset ι) := fun _ _ _ _ h => hq h
    have inv : ∀ j, Function.invFunOn q Set.univ (q j) = j := fun j => hq (Function.invFunOn_eq ⟨j, Set.mem_univ j, rfl⟩)
    refine points_mismatch (T := T) (q := q i)
      (f := fun s p => k (Function.invFunOn q Set.univ s) * (Gc * kpp c.toK p s)) (fun p hp => ?_) (hqT i)
      (fun q' _ hqq => continuousAt_const.mul (continuousAt_const.mul (continuousAt_kpp c.toK (Ne.symm hqq)))) fun w => ?_
    · rw [hT, Finset.sum_image hinj]
      simp only [inv]
      exact z p hp
    · refine no_limit_ray (K := k i * (Gc * kp c.toK 1 2 3))
        (mul_ne_zero hi (mul_ne_zero Gc_pos.ne' (kp_123 c))) (n := c.deg) (Nat.succ_ne_zero _) (fun t ht => ?_) w
      rw [inv, mul_assoc, mul_assoc, kpp_ray c (q i) ht])
  have off : ∀ k i, p k ≠ q i := fun k => offT fun hm => (hp k).2 (Finset.mem_coe.2 hm)
  refine ⟨p, fun k => ⟨(hp k).1, off k⟩, fun m m' h => ?_⟩
  have hz : Matrix.mulVec (Matrix.of fun i j => Gc * kpp c.toK (p i) (q j)) (m - m') = 0 := by
    funext k
    obtain ⟨f, g, hf, hg, e⟩ := h k
    rw [Finset.sum_congr rfl fun j _ => (hf j).inj (v j (m j) (off k j)),
      Finset.sum_congr rfl fun j _ => (hg j).inj (v j (m' j) (off k j)), ← sub_eq_zero, ← Finset.sum_sub_distrib] at e
    simp only [Matrix.mulVec, dotProduct, Matrix.of_apply, Pi.sub_apply, Pi.zero_apply]
    refine Eq.trans ?_ e
    exact Finset.sum_congr rfl fun j _ => by ring
  exact sub_eq_zero.1 (Matrix.eq_zero_of_mulVec_eq_zero hdet hz)

/-- non-vacuity: two different distributions of masses, and a patch -/
example : ∃ (m m' : Pt →₀ ℝ) (U : Set Pt), m ≠ m' ∧ m.support.Nonempty ∧ IsOpen U ∧ U.Nonempty := by
  classical
  refine ⟨Finsupp.single (0, 0, 0) 1, Finsupp.single (1, 0, 0) 2, Metric.ball (0, 0, 5) 1, ?_, ?_, Metric.isOpen_ball,
    ⟨(0, 0, 5), Metric.mem_ball_self one_pos⟩⟩
  · intro h
    have := DFunLike.congr_fun h ((0, 0, 0) : Pt)
    rw [Finsupp.single_eq_same, Finsupp.single_eq_of_ne (by simp)] at this
    exact one_ne_zero this
  · rw [Finsupp.support_single]
    · exact Finset.singleton_nonempty _
    · exact one_ne_zero

end Choclo
