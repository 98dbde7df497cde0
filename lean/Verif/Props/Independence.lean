import Verif.Lemmas.Family
import Verif.Props.Jacobian
import Mathlib.LinearAlgebra.Matrix.NonsingularInverse
import Mathlib.LinearAlgebra.Basis.VectorSpace
import Mathlib.LinearAlgebra.FiniteDimensional.Lemmas
import Mathlib.LinearAlgebra.Dual.Lemmas
import Mathlib.LinearAlgebra.Matrix.ToLin

/-! # C123: the densities of a family of prisms are determined by the data -/

namespace Choclo

open Real Set MeasureTheory Filter Topology

variable {ι : Type*} {P : ι → Box}

theorem eventually_patch {U : Set Pt} (hU : IsOpen U) {q : Pt} (hq : q ∈ U) (b : Axis) :
    ∀ᶠ t in 𝓝 (q.coord b), q.set b t ∈ U := by
  have hc := (Pt.continuous_set q b).tendsto (q.coord b)
  rw [Pt.set_coord] at hc
  exact hc.eventually (hU.mem_nhds hq)

/-- if one component of the total vanishes on an open set then so does some component of the tensor -/
theorem vanish_tensor (hP : ∀ i, (P i).Ordered) (S : Finset ι) (k : ι → ℝ) (c : GComp) {U : Set Pt} (hU : IsOpen U)
    (hoff : ∀ q ∈ U, ∀ i ∈ S, q ∉ (P i).region) (h : ∀ q ∈ U, ∑ i ∈ S, k i * Vc c q (P i) = 0) :
    ∃ a b, ∀ q ∈ U, ∑ i ∈ S, k i * Vc (tensor a b) q (P i) = 0 := by
  have acc : ∀ a : Axis, (∀ q ∈ U, ∑ i ∈ S, k i * Vc a.acc q (P i) = 0) →
      ∃ a b, ∀ q ∈ U, ∑ i ∈ S, k i * Vc (tensor a b) q (P i) = 0 := by
    intro a h
    obtain ⟨b, hab⟩ : ∃ b, a ≠ b := by
      cases a
      · exact ⟨.n, by decide⟩
      · exact ⟨.e, by decide⟩
      · exact ⟨.e, by decide⟩
    refine ⟨a, b, fun q hq => ?_⟩
    have d1 : HasDerivAt (fun t => ∑ i ∈ S, k i * Vc a.acc (q.set b t) (P i))
        (∑ i ∈ S, k i * Vc (tensor a b) q (P i)) (q.coord b) := HasDerivAt.fun_sum fun i hi =>
      (hasDerivAt_Vacc_off hab (hP i) (exterior_singular (hP i) (hoff q hq i hi) _)).const_mul (k i)
    refine d1.unique ((hasDerivAt_const (q.coord b) (0 : ℝ)).congr_of_eventuallyEq ?_)
    filter_upwards [eventually_patch hU hq b] with t ht
    exact h _ ht
  have hc : c = .pot ∨ (∃ a : Axis, c = a.acc) ∨ ∃ a b, c = tensor a b := by
    cases c
    case pot => exact .inl rfl
    case e => exact .inr (.inl ⟨.e, rfl⟩)
    case n => exact .inr (.inl ⟨.n, rfl⟩)
    case u => exact .inr (.inl ⟨.u, rfl⟩)
    case ee => exact .inr (.inr ⟨.e, .e, rfl⟩)
    case nn => exact .inr (.inr ⟨.n, .n, rfl⟩)
    case uu => exact .inr (.inr ⟨.u, .u, rfl⟩)
    case en => exact .inr (.inr ⟨.e, .n, rfl⟩)
    case eu => exact .inr (.inr ⟨.e, .u, rfl⟩)
    case nu => exact .inr (.inr ⟨.n, .u, rfl⟩)
  rcases hc with rfl | ⟨a, rfl⟩ | ⟨a, b, rfl⟩
  · refine acc .e fun q hq => ?_
    have d1 : HasDerivAt (fun t => ∑ i ∈ S, k i * Vc .pot (q.set .e t) (P i))
        (∑ i ∈ S, k i * Vc (Axis.acc .e) q (P i)) (q.coord .e) := HasDerivAt.fun_sum fun i hi =>
      (hasDerivAt_Vpot .e q (P i)).const_mul (k i)
    refine d1.unique ((hasDerivAt_const (q.coord .e) (0 : ℝ)).congr_of_eventuallyEq ?_)
    filter_upwards [eventually_patch hU hq .e] with t ht
    exact h _ ht
  · exact acc a h
  · exact ⟨a, b, h⟩

/-- the gravity fields of prisms with different high corners are linearly independent on every patch -/
theorem independent (hP : ∀ i, (P i).Proper) (hd : Function.Injective fun i => (P i).highCorner) (k : ι → ℝ)
    (S : Finset ι) (hk : ∀ i ∈ S, k i ≠ 0) (c : GComp) {B : Box} (hB : ∀ i ∈ S, (P i).region ⊆ B.region) {U : Set Pt}
    (hU : IsOpen U) (hne : ∃ q ∈ U, q ∉ B.region)
    (h : ∀ q ∈ U, q ∉ B.region → ∑ i ∈ S, k i * Vc c q (P i) = 0) : S = ∅ := by
  by_contra hS
  obtain ⟨i, hi, hx⟩ := exists_extreme (Finset.nonempty_iff_ne_empty.2 hS) P
  set v := (P i).highCorner with hvd
  have hO := fun i => (hP i).ordered
  have oU : IsOpen (U ∩ B.regionᶜ) := hU.inter (isCompact_region B).isClosed.isOpen_compl
  have hoff : ∀ q ∈ U ∩ B.regionᶜ, ∀ i ∈ S, q ∉ (P i).region := fun q hq i hi hm => hq.2 (hB i hi hm)
  obtain ⟨a, b, hab⟩ := vanish_tensor hO S k c oU hoff fun q hq => h q hq.1 hq.2
  have hv : ∀ j ∈ S, j ≠ i → v ∉ (P j).region := fun j hj hji => hx.not_mem hj fun e => hji (hd e)
  have ev := vanish_corner (f := fun q => ∑ i ∈ S, k i * Vc (tensor a b) q (P i)) hi hx (hP i) hv hB
    (lineAnalytic_sum S fun j hj => ((lineAnalytic_Vc (hO j) (tensor a b)).const_mul (k j)).mono fun q hq => hq j hj) hU hne
    (fun q hq hq' => hab q ⟨hq, hq'⟩)
  classical
  have hc : ContinuousAt (fun q => -(∑ j ∈ S.erase i, k j * Vc (tensor a b) q (P j)) / k i) v := by
    refine ContinuousAt.div_const (ContinuousAt.neg ?_) _
    exact tendsto_finsetSum _ fun j hj => continuousAt_const.mul
      (continuousAt_Vc_outside (hO j) (tensor a b) (hv j (Finset.mem_of_mem_erase hj) (Finset.ne_of_mem_erase hj)))
  refine no_limit_corner (hP i) a b (.inr rfl) _ ((hc.mono_left nhdsWithin_le_nhds).congr' ?_)
  filter_upwards [ev] with q hq
  rw [← Finset.add_sum_erase S _ hi] at hq
  rw [div_eq_iff (hk i hi)]
  linarith

theorem corners_of_disjoint (hP : ∀ i, (P i).Proper) (hd : Pairwise fun i j => Disjoint (P i).inside (P j).inside) :
    Function.Injective fun i => (P i).highCorner := by
  intro i j e
  by_contra hij
  obtain ⟨a1, a2, a3⟩ := hP i
  obtain ⟨b1, b2, b3⟩ := hP j
  have e1 : (P i).east = (P j).east := congrArg Pt.e e
  have e2 : (P i).north = (P j).north := congrArg Pt.n e
  have e3 : (P i).top = (P j).top := congrArg Pt.u e
  have m : ∀ {x y z : ℝ}, x < z → y < z → x < (max x y + z) / 2 ∧ y < (max x y + z) / 2 ∧ (max x y + z) / 2 < z := by
    intro x y z h1 h2
    have := max_lt h1 h2
    have := le_max_left x y
    have := le_max_right x y
    exact ⟨by linarith, by linarith, by linarith⟩
  obtain ⟨x1, x2, x3⟩ := m a1 (e1 ▸ b1)
  obtain ⟨y1, y2, y3⟩ := m a2 (e2 ▸ b2)
  obtain ⟨z1, z2, z3⟩ := m a3 (e3 ▸ b3)
  have l := Set.disjoint_left.1 (hd hij)
  exact @l ((max (P i).west (P j).west + (P i).east) / 2, (max (P i).south (P j).south + (P i).north) / 2,
      (max (P i).bottom (P j).bottom + (P i).top) / 2)
    ⟨⟨x1, x3⟩, ⟨y1, y3⟩, ⟨z1, z3⟩⟩ ⟨⟨x2, e1 ▸ x3⟩, ⟨y2, e2 ▸ y3⟩, ⟨z2, e3 ▸ z3⟩⟩

/-- **C123.** The densities of finitely many prisms, no two of which have the same high corner, are determined by one
component of their total gravity on any patch outside a box around them. -/
theorem C123_corners [Fintype ι] (hP : ∀ i, (P i).Proper) (hd : Function.Injective fun i => (P i).highCorner) (c : GComp)
    {ρ σ : ι → ℝ} {B : Box} (hB : ∀ i, (P i).region ⊆ B.region) {U : Set Pt} (hU : IsOpen U)
    (hne : ∃ q ∈ U, q ∉ B.region)
    (h : ∀ q ∈ U, q ∉ B.region → ∃ f g : ι → ℝ,
      (∀ i, Returns (onPrism (A := Exact) (prismGravity c) q (P i) (ρ i)) (f i)) ∧
      (∀ i, Returns (onPrism (A := Exact) (prismGravity c) q (P i) (σ i)) (g i)) ∧ ∑ i, f i = ∑ i, g i) : ρ = σ := by
  classical
  have hO := fun i => (hP i).ordered
  have key := independent hP hd (fun i => Gc * (ρ i - σ i)) (Finset.univ.filter fun i => ρ i ≠ σ i)
    (fun i hi => mul_ne_zero Gc_pos.ne' (sub_ne_zero.2 (Finset.mem_filter.1 hi).2)) c (fun i _ => hB i) hU hne (fun q hq hq' => by
      obtain ⟨f, g, hf, hg, e⟩ := h q hq hq'
      have v : ∀ (τ : ι → ℝ) i, Returns (onPrism (A := Exact) (prismGravity c) q (P i) (τ i)) (Gc * τ i * Vc c q (P i)) :=
        fun τ i => Ex.gravity_returns (hO i) (exterior_singular (hO i) (fun hm => hq' (hB i hm)) c) (τ i)
      rw [Finset.sum_congr rfl fun i _ => (hf i).inj (v ρ i), Finset.sum_congr rfl fun i _ => (hg i).inj (v σ i)] at e
      rw [← sub_eq_zero, ← Finset.sum_sub_distrib] at e
      refine Eq.trans ?_ e
      rw [Finset.sum_filter]
      refine Finset.sum_congr rfl fun i _ => ?_
      split_ifs with hi
      · ring
      · rw [not_not] at hi
        rw [hi, sub_self])
  rw [Finset.filter_eq_empty_iff] at key
  funext i
  by_contra hi
  exact key (Finset.mem_univ i) hi

/-- **C123.** The densities of finitely many prisms that do not overlap are determined by one component of their total
gravity on any patch outside a box around them. -/
theorem C123_densities [Fintype ι] (hP : ∀ i, (P i).Proper)
    (hd : Pairwise fun i j => Disjoint (P i).inside (P j).inside) (c : GComp)
    {ρ σ : ι → ℝ} {B : Box} (hB : ∀ i, (P i).region ⊆ B.region) {U : Set Pt} (hU : IsOpen U)
    (hne : ∃ q ∈ U, q ∉ B.region)
    (h : ∀ q ∈ U, q ∉ B.region → ∃ f g : ι → ℝ,
      (∀ i, Returns (onPrism (A := Exact) (prismGravity c) q (P i) (ρ i)) (f i)) ∧
      (∀ i, Returns (onPrism (A := Exact) (prismGravity c) q (P i) (σ i)) (g i)) ∧ ∑ i, f i = ∑ i, g i) : ρ = σ :=
  C123_corners hP (corners_of_disjoint hP hd) c hB hU hne h

/-! ## Finitely many points -/

/-- linearly independent functions are so on as many well-chosen points -/
theorem exists_points {α κ : Type*} [Fintype κ] [DecidableEq κ] (f : κ → α → ℝ) (U : Set α)
    (h : ∀ k : κ → ℝ, (∀ x ∈ U, ∑ i, k i * f i x = 0) → k = 0) :
    ∃ x : κ → α, (∀ i, x i ∈ U) ∧ (Matrix.of fun i j => f j (x i)).det ≠ 0 := by
  set t : Set (κ → ℝ) := (fun x i => f i x) '' U with ht
  have hspan : Submodule.span ℝ t = ⊤ := by
    by_contra hne
    obtain ⟨φ, hφ, hle⟩ := Submodule.exists_le_ker_of_lt_top _ (lt_top_iff_ne_top.2 hne)
    refine hφ ?_
    have hk := h (fun i => φ fun j => if i = j then 1 else 0) (fun x hx => by
      have := hle (Submodule.subset_span (mem_image_of_mem _ hx))
      rw [LinearMap.mem_ker, LinearMap.pi_apply_eq_sum_univ] at this
      refine Eq.trans ?_ this
      exact Finset.sum_congr rfl fun i _ => by rw [smul_eq_mul, mul_comm])
    ext i
    have := congrFun hk i
    simp only [Pi.zero_apply] at this
    simp only [LinearMap.coe_comp, LinearMap.coe_single, Function.comp_apply, LinearMap.zero_apply]
    convert this using 2
    funext j
    simp only [Pi.single_apply, eq_comm]
  obtain ⟨b, hb, hs, hl⟩ := exists_linearIndependent ℝ t
  rw [hspan] at hs
  have B : Module.Basis b ℝ (κ → ℝ) := Module.Basis.mk hl (by rw [Subtype.range_coe, hs])
  have e := (Pi.basisFun ℝ (κ)).indexEquiv B
  choose x hx hx' using fun i : κ => hb (e i).2
  refine ⟨x, hx, ?_⟩
  have li : LinearIndependent ℝ (fun i j => f j (x i)) := by
    have : (fun i j => f j (x i)) = fun i => ((e i : b) : κ → ℝ) := funext fun i => hx' i
    rw [this]
    exact hl.comp e e.injective
  have hu : IsUnit (Matrix.of fun i j => f j (x i)) := Matrix.linearIndependent_rows_iff_isUnit.1 li
  rw [Matrix.isUnit_iff_isUnit_det] at hu
  exact hu.ne_zero

open userguide in
/-- **C123.** For finitely many prisms that do not overlap there are as many observation points, in any patch outside a box
around them, at which the Jacobian of the user guide is invertible, whatever the schedule, and the densities can be
recovered from the forward model. -/
theorem C123_jacobian {M : ℕ} {P : Fin M → Box} (hP : ∀ i, (P i).Proper)
    (hd : Pairwise fun i j => Disjoint (P i).inside (P j).inside) {B : Box} (hB : ∀ i, (P i).region ⊆ B.region)
    {U : Set Pt} (hU : IsOpen U) (hne : ∃ q ∈ U, q ∉ B.region) :
    ∃ q : Fin M → Pt, (∀ i, q i ∈ U ∧ q i ∉ B.region) ∧
      (∀ (T : ℕ) (chunks : Fin T → List (Fin M)), Distribution chunks → ∀ J,
        build_jacobian (A := Exact) (points q) (boxes P) chunks J →
          ∃ J' : Matrix (Fin M) (Fin M) ℝ, (∀ i j, J i j = Fl.fin (J' i j)) ∧ IsUnit J') ∧
      ∀ ρ σ : Fin M → ℝ, gravity_upward (A := Exact) (points q) (boxes P) (values ρ)
        = gravity_upward (A := Exact) (points q) (boxes P) (values σ) → ρ = σ := by
  have hO := fun i => (hP i).ordered
  obtain ⟨q, hq, hdet⟩ := exists_points (fun i q => Gc * 1 * Vc .u q (P i)) (U ∩ B.regionᶜ) (fun k hk => by
    refine C123_densities hP hd .u (σ := 0) hB hU hne fun p hp hp' => ?_
    have v : ∀ (τ : Fin M → ℝ) i, Returns (onPrism (A := Exact) (prismGravity .u) p (P i) (τ i)) (Gc * τ i * Vc .u p (P i)) :=
      fun τ i => Ex.gravity_returns (hO i) (exterior_singular (hO i) (fun hm => hp' (hB i hm)) .u) (τ i)
    refine ⟨_, _, v k, v 0, ?_⟩
    have := hk p ⟨hp, hp'⟩
    simp only [Pi.zero_apply, mul_zero, zero_mul, Finset.sum_const_zero]
    rw [← this]
    exact Finset.sum_congr rfl fun i _ => by ring)
  refine ⟨q, hq, fun T chunks hc J hJ => ⟨Matrix.of fun i j => Gc * 1 * Vc .u (q i) (P j), fun i j => ?_, ?_⟩,
    fun ρ σ h => ?_⟩
  · have h1 := (C85_entries hc J).1 hJ i j
    have h2 : fieldOf (A := Exact) (points q) (boxes P) (fun _ => 1) i j = _ := fieldOf_exact hO q (fun _ => ((1 : ℕ) : ℝ)) i j
    rw [Nat.cast_one] at h2
    exact Except.ok.inj (h1.symm.trans h2)
  · rw [Matrix.isUnit_iff_isUnit_det]
    exact isUnit_iff_ne_zero.2 hdet
  · obtain ⟨g, hg, h1⟩ := C83_exact hO q ρ
    obtain ⟨g', hg', h2⟩ := C83_exact hO q σ
    rw [h1, h2] at h
    have e := Except.ok.inj h
    have hz : Matrix.mulVec (Matrix.of fun i j => Gc * 1 * Vc .u (q i) (P j)) (ρ - σ) = 0 := by
      funext i
      have ei : ∑ j, g i j = ∑ j, g' i j := Ex.fin_inj.mp (congrFun e i)
      rw [Finset.sum_congr rfl fun j _ => (hg i j).inj (fieldOf_exact hO q ρ i j),
        Finset.sum_congr rfl fun j _ => (hg' i j).inj (fieldOf_exact hO q σ i j), ← sub_eq_zero,
        ← Finset.sum_sub_distrib] at ei
      simp only [Matrix.mulVec, dotProduct, Matrix.of_apply, Pi.sub_apply, Pi.zero_apply]
      rw [← ei]
      exact Finset.sum_congr rfl fun j _ => by ring
    exact sub_eq_zero.1 (Matrix.eq_zero_of_mulVec_eq_zero hdet hz)

theorem below_subset {Q : Box} {a : Axis} {m : ℝ} (hm : Q.lo a ≤ m ∧ m ≤ Q.hi a) : (Q.below m a).region ⊆ Q.region := by
  rintro q ⟨⟨h1, h2⟩, ⟨h3, h4⟩, ⟨h5, h6⟩⟩
  cases a
  · exact ⟨⟨h1, h2.trans hm.2⟩, ⟨h3, h4⟩, ⟨h5, h6⟩⟩
  · exact ⟨⟨h1, h2⟩, ⟨h3, h4.trans hm.2⟩, ⟨h5, h6⟩⟩
  · exact ⟨⟨h1, h2⟩, ⟨h3, h4⟩, ⟨h5, h6.trans hm.2⟩⟩

theorem above_subset {Q : Box} {a : Axis} {m : ℝ} (hm : Q.lo a ≤ m ∧ m ≤ Q.hi a) : (Q.above m a).region ⊆ Q.region := by
  rintro q ⟨⟨h1, h2⟩, ⟨h3, h4⟩, ⟨h5, h6⟩⟩
  cases a
  · exact ⟨⟨hm.1.trans h1, h2⟩, ⟨h3, h4⟩, ⟨h5, h6⟩⟩
  · exact ⟨⟨h1, h2⟩, ⟨hm.1.trans h3, h4⟩, ⟨h5, h6⟩⟩
  · exact ⟨⟨h1, h2⟩, ⟨h3, h4⟩, ⟨hm.1.trans h5, h6⟩⟩

theorem faceHi_subset {Q : Box} (hQ : Q.Ordered) (a : Axis) : Q.faceHi a ⊆ Q.region := by
  obtain ⟨o1, o2, o3⟩ := hQ
  cases a
  · rintro q ⟨h1, h2, h3⟩
    exact ⟨⟨h1 ▸ o1, h1.le⟩, Set.Ioo_subset_Icc_self h2, Set.Ioo_subset_Icc_self h3⟩
  · rintro q ⟨h1, h2, h3⟩
    exact ⟨Set.Ioo_subset_Icc_self h1, ⟨h2 ▸ o2, h2.le⟩, Set.Ioo_subset_Icc_self h3⟩
  · rintro q ⟨h1, h2, h3⟩
    exact ⟨Set.Ioo_subset_Icc_self h1, Set.Ioo_subset_Icc_self h2, ⟨h3 ▸ o3, h3.le⟩⟩

/-- **C123.** Overlap matters: a prism and its two halves have the same total for different densities, everywhere. -/
theorem C123_overlap {Q : Box} (hQ : Q.Ordered) (c : GComp) (a : Axis) {m : ℝ} (hm : Q.lo a ≤ m ∧ m ≤ Q.hi a) {p : Pt}
    (hp : p ∉ Q.region) : ∃ f : Fin 3 → ℝ,
      (∀ i, Returns (onPrism (A := Exact) (prismGravity c) p (![Q, Q.below m a, Q.above m a] i) ((![1, -1, -1] : Fin 3 → ℝ) i)) (f i)) ∧
      ∑ i, f i = 0 := by
  have h1 : (Q.below m a).Ordered := hQ.below a hm
  have h2 : (Q.above m a).Ordered := hQ.above a hm
  have s1 : p ∉ (Q.below m a).region := fun h => hp (below_subset hm h)
  have s2 : p ∉ (Q.above m a).region := fun h => hp (above_subset hm h)
  obtain ⟨v, v₁, v₂, r, r1, r2, e⟩ := C30_cut hQ c a hm p 1 (exterior_singular hQ hp c) (exterior_singular h1 s1 c)
    (exterior_singular h2 s2 c)
  rw [if_neg (fun h => s1 (faceHi_subset h1 a h.2)), add_zero] at e
  have w := Ex.gravity_returns hQ (exterior_singular hQ hp c) 1
  have w1 := fun ρ => Ex.gravity_returns h1 (exterior_singular h1 s1 c) ρ
  have w2 := fun ρ => Ex.gravity_returns h2 (exterior_singular h2 s2 c) ρ
  rw [r.inj w, r1.inj (w1 1), r2.inj (w2 1)] at e
  refine ⟨![Gc * 1 * Vc c p Q, Gc * (-1) * Vc c p (Q.below m a), Gc * (-1) * Vc c p (Q.above m a)], fun i => ?_, ?_⟩
  · fin_cases i
    · exact w
    · exact w1 (-1)
    · exact w2 (-1)
  · rw [Fin.sum_univ_three]
    simp only [Matrix.cons_val_zero, Matrix.cons_val_one, Matrix.cons_val]
    linarith

/-- non-vacuity: three prisms side by side, a box around them, and a ball above -/
example : ∃ (P : Fin 3 → Box) (B : Box), (∀ i, (P i).Proper) ∧ (Pairwise fun i j => Disjoint (P i).inside (P j).inside) ∧
    (∀ i, (P i).region ⊆ B.region) ∧ ∃ q ∈ Metric.ball ((0, 0, 2) : Pt) 1, q ∉ B.region := by
  refine ⟨fun i => ⟨i, i + 1, 0, 1, -1, 0⟩, ⟨0, 3, 0, 1, -1, 0⟩, fun i => ?_, ?_, ?_, (0, 0, 2), Metric.mem_ball_self one_pos, ?_⟩
  · norm_num [Box.Proper]
  · intro i j hij
    rw [Set.disjoint_left]
    rintro q ⟨⟨h1, h2⟩, _⟩ ⟨⟨h3, h4⟩, _⟩
    have h14 : (((i : ℕ) : ℝ)) < ((j : ℕ) : ℝ) + 1 := h1.trans h4
    have h32 : (((j : ℕ) : ℝ)) < ((i : ℕ) : ℝ) + 1 := h3.trans h2
    have g1 : (i : ℕ) < (j : ℕ) + 1 := by exact_mod_cast h14
    have g2 : (j : ℕ) < (i : ℕ) + 1 := by exact_mod_cast h32
    exact hij (Fin.ext (by omega))
  · rintro i q ⟨⟨h1, h2⟩, h3, h4⟩
    have : ((i : ℕ) : ℝ) ≤ 2 := by exact_mod_cast Nat.le_of_lt_succ i.2
    have : (0 : ℝ) ≤ ((i : ℕ) : ℝ) := Nat.cast_nonneg _
    exact ⟨⟨by simp only at h1 ⊢; linarith, by simp only at h2 ⊢; linarith⟩, h3, h4⟩
  · norm_num [Box.region]

end Choclo
