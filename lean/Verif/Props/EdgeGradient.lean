import Verif.Props.EdgeField
import Verif.Props.PrismMagCalc
import Verif.Props.PrismSym

/-! # C128: the gradient of the magnetic field at the edges of a prism -/

namespace Choclo

open Real Set Filter Topology

variable {P : Box} {p : Pt}

/-- between the ends of an edge parallel to `a` all third derivatives that involve `a` are continuous -/
theorem continuousAt_W3_edge {a : Axis} (h1 : P.lo a < p.coord a) (h2 : p.coord a < P.hi a) {x y z : Axis}
    (hx : a = x ∨ a = y ∨ a = z) : ContinuousAt (fun q => W3 x y z q P) p := by
  have key : ∀ t : TComp, (match (generalizing := false) a with
      | .e => t ≠ .nnn ∧ t ≠ .uuu ∧ t ≠ .nnu ∧ t ≠ .nuu
      | .n => t ≠ .eee ∧ t ≠ .uuu ∧ t ≠ .eeu ∧ t ≠ .euu
      | .u => t ≠ .eee ∧ t ≠ .nnn ∧ t ≠ .een ∧ t ≠ .enn) → ContinuousAt (fun q => Dv (K3 t) q P) p := by
    intro t ht
    refine ContinuousAt.Dv fun α β γ hα hβ hγ => ?_
    have c1 : ContinuousAt (fun q : Pt => α - q.1) p := by fun_prop
    have c2 : ContinuousAt (fun q : Pt => β - q.2.1) p := by fun_prop
    have c3 : ContinuousAt (fun q : Pt => γ - q.2.2) p := by fun_prop
    have n : match (generalizing := false) a with
      | .e => α - p.1 ≠ 0
      | .n => β - p.2.1 ≠ 0
      | .u => γ - p.2.2 ≠ 0 := by
      cases a
      · change P.west < p.1 at h1
        change p.1 < P.east at h2
        rcases hα with rfl | rfl <;> dsimp only <;> intro h0 <;> linarith
      · change P.south < p.2.1 at h1
        change p.2.1 < P.north at h2
        rcases hβ with rfl | rfl <;> dsimp only <;> intro h0 <;> linarith
      · change P.bottom < p.2.2 at h1
        change p.2.2 < P.top at h2
        rcases hγ with rfl | rfl <;> dsimp only <;> intro h0 <;> linarith
    have r : rad (α - p.1) (β - p.2.1) (γ - p.2.2) ≠ 0 := by
      rw [Ne, rad_eq_zero]
      cases a <;> dsimp only at n <;> tauto
    have pick : ∀ {u v : ℝ}, (match (generalizing := false) a with
        | .e => u = α - p.1 ∨ v = α - p.1 ∨ False
        | .n => u = β - p.2.1 ∨ v = β - p.2.1 ∨ False
        | .u => u = γ - p.2.2 ∨ v = γ - p.2.2 ∨ False) → ¬(u = 0 ∧ v = 0) := by
      rintro u v h ⟨rfl, rfl⟩
      cases a <;> dsimp only at n h <;> rcases h with h | h | h <;> first | exact n h.symm | exact h
    clear h1 h2 hα hβ hγ hx
    cases t
    · exact ContinuousAt.Kiii c1 c2 c3 (pick (by cases a <;> simp at ht ⊢)) (pick (by cases a <;> simp at ht ⊢))
    · exact ContinuousAt.Kiii c2 c3 c1 (pick (by cases a <;> simp at ht ⊢)) (pick (by cases a <;> simp at ht ⊢))
    · exact ContinuousAt.Kiii c3 c2 c1 (pick (by cases a <;> simp at ht ⊢)) (pick (by cases a <;> simp at ht ⊢))
    · exact ContinuousAt.Kiij c1 c2 c3 (pick (by cases a <;> simp at ht ⊢))
    · exact ContinuousAt.Kiij c1 c3 c2 (pick (by cases a <;> simp at ht ⊢))
    · exact ContinuousAt.Kiij c2 c1 c3 (pick (by cases a <;> simp at ht ⊢))
    · exact ContinuousAt.Kiij c2 c3 c1 (pick (by cases a <;> simp at ht ⊢))
    · exact ContinuousAt.Kiij c3 c1 c2 (pick (by cases a <;> simp at ht ⊢))
    · exact ContinuousAt.Kiij c3 c2 c1 (pick (by cases a <;> simp at ht ⊢))
    · exact continuousAt_const.div (ContinuousAt.rad c1 c2 c3) r
  clear h1 h2
  cases a <;> cases x <;> cases y <;> cases z <;> simp only [reduceCtorEq, or_false, false_or, or_self] at hx
  all_goals
    simp only [W3, gradComp, unitVec, Bc, Wc, Pt.e, Pt.n, Pt.u, zero_mul, one_mul, add_zero, zero_add]
    exact key _ (by simp)

/-- points of the open edge in every neighbourhood of a point of the edge -/
theorem exists_open_edge {a b c : Axis} (hab : a ≠ b) (hac : a ≠ c) (hbc : b ≠ c) (hP : P.Proper) (h : p ∈ P.edgesAlong a)
    {V : Set Pt} (hV : IsOpen V) (hpV : p ∈ V) : ∃ p' ∈ V, p' ∈ P.edgesAlong a ∧ p' ∉ P.edgesAlong b := by
  set m := (P.lo a + P.hi a) / 2 with hm
  have hc : Continuous fun t : ℝ => p.set a (p.coord a + t * (m - p.coord a)) := by
    cases a <;> simp only [Pt.set] <;> fun_prop
  have h0 : p.set a (p.coord a + 0 * (m - p.coord a)) = p := by
    rw [zero_mul, add_zero]; cases a <;> rfl
  have hev : ∀ᶠ t in 𝓝[>] (0 : ℝ), p.set a (p.coord a + t * (m - p.coord a)) ∈ V :=
    nhdsWithin_le_nhds ((hc.tendsto 0).eventually (hV.mem_nhds (by rw [h0]; exact hpV)))
  have hlt : ∀ᶠ t in 𝓝[>] (0 : ℝ), t < 1 := nhdsWithin_le_nhds (gt_mem_nhds one_pos)
  obtain ⟨t, ht1, ht2, ht3⟩ := (hev.and (hlt.and self_mem_nhdsWithin)).exists
  have ht3 : 0 < t := ht3
  refine ⟨_, ht1, ?_⟩
  have hlh : P.lo a < P.hi a := by
    obtain ⟨o1, o2, o3⟩ := hP
    cases a <;> assumption
  have hin : P.lo a ≤ p.coord a ∧ p.coord a ≤ P.hi a := by
    cases a
    · exact h.1
    · exact h.2.1
    · exact h.2.2
  have g1 : P.lo a < p.coord a + t * (m - p.coord a) := by nlinarith
  have g2 : p.coord a + t * (m - p.coord a) < P.hi a := by nlinarith
  clear_value m
  generalize p.coord a + t * (m - p.coord a) = x at g1 g2
  clear hV hpV hev ht1 hc h0
  cases a <;> cases b <;> cases c <;> first | exact absurd rfl hab | exact absurd rfl hac | exact absurd rfl hbc | skip
  all_goals
    simp only [Box.edgesAlong, Box.edgesE, Box.edgesN, Box.edgesU, Set.mem_ofPred_eq, Set.mem_Icc, Box.lo, Box.hi,
      Pt.coord, Pt.set, Pt.e, Pt.n, Pt.u] at *
    grind

/-- a ray along a coordinate axis that leaves the prism at a point of an edge -/
theorem exists_ray {a k : Axis} (hak : a ≠ k) (h : p ∈ P.edgesAlong a) :
    ∃ s : ℝ, |s| = 1 ∧ ∀ t > 0, p.set k (p.coord k + s * t) ∉ P.region := by
  have hk : p.coord k = P.lo k ∨ p.coord k = P.hi k := by
    cases a <;> cases k <;> first | exact absurd rfl hak | skip
    all_goals
      simp only [Box.edgesAlong, Box.edgesE, Box.edgesN, Box.edgesU, Set.mem_ofPred_eq] at h
      simp only [Pt.coord, Box.lo, Box.hi]
      tauto
  have reg : ∀ x, p.set k x ∈ P.region → P.lo k ≤ x ∧ x ≤ P.hi k := by
    intro x hx
    cases k
    · exact hx.1
    · exact hx.2.1
    · exact hx.2.2
  rcases hk with hk | hk
  · refine ⟨-1, by norm_num, fun t ht hm => ?_⟩
    have := (reg _ hm).1
    rw [hk] at this
    linarith
  · refine ⟨1, by norm_num, fun t ht hm => ?_⟩
    have := (reg _ hm).2
    rw [hk] at this
    linarith

/-- if the magnetization has a component along `b`, the derivative of the component along `c` in the directions `b` and `c` is
unbounded near the edge parallel to `a` -/
theorem gradient_unbounded {a b c k : Axis} (hab : a ≠ b) (hac : a ≠ c) (hbc : b ≠ c) (hak : a ≠ k) (hP : P.Proper)
    (h : p ∈ P.edgesAlong a) (h1 : p ∉ P.edgesAlong b) (M : Vec) (hM : M.coord b ≠ 0) (K : ℝ) {U : Set Pt} (hU : U ∈ 𝓝 p) :
    ∃ q ∈ U, q ∉ P.region ∧ K < |Bc (gradComp c k) q P M.e M.n M.u| := by
  have hO := hP.ordered
  by_contra hcon
  push Not at hcon
  obtain ⟨s, hs, hray⟩ := exists_ray hak h
  set γ : ℝ → Pt := fun t => p.set k (p.coord k + s * t) with hγ
  have hc : Continuous γ := by
    cases k <;> simp only [hγ, Pt.set] <;> fun_prop
  have h0 : γ 0 = p := by
    simp only [hγ, mul_zero, add_zero, Pt.set_coord]
  have lim : Tendsto γ (𝓝[>] 0) (𝓝[P.regionᶜ] p) := by
    refine tendsto_nhdsWithin_iff.2 ⟨?_, ?_⟩
    · have := (hc.tendsto 0).mono_left (nhdsWithin_le_nhds (s := Ioi 0))
      rwa [h0] at this
    · filter_upwards [self_mem_nhdsWithin] with t ht
      exact hray t ht
  have hinf := (tendsto_field_open hab hac hbc hP h h1 M hM).comp lim
  have hmem : γ ⁻¹' U ∈ 𝓝 (0 : ℝ) := hc.continuousAt.preimage_mem_nhds (by rw [h0]; exact hU)
  obtain ⟨δ, hδ, hball⟩ := Metric.mem_nhds_iff.1 hmem
  have inU : ∀ t, 0 < t → t ≤ δ / 2 → γ t ∈ U := fun t h1 h2 => hball (by
    rw [Metric.mem_ball, Real.dist_eq, sub_zero, abs_of_pos h1]; linarith)
  have der : ∀ t, 0 < t → HasDerivAt (fun t => Bc c.field (γ t) P M.e M.n M.u)
      (Bc (gradComp c k) (γ t) P M.e M.n M.u * s) t := by
    intro t ht
    have h2 := hasDerivAt_Bfield c k hO (hray t ht) M
    have e1 : (γ t).coord k = p.coord k + s * t := by cases k <;> rfl
    have e2 : ∀ x, (γ t).set k x = p.set k x := fun x => by cases k <;> rfl
    change HasDerivAt (fun x => Bc c.field ((γ t).set k x) P M.e M.n M.u) _ ((γ t).coord k) at h2
    simp only [e1, e2] at h2
    have h3 : HasDerivAt (fun t => p.coord k + s * t) s t := by
      simpa using ((hasDerivAt_id t).const_mul s).const_add (p.coord k)
    exact h2.comp t h3
  have bd : ∀ t ∈ Ioc (0 : ℝ) (δ / 2), |Bc c.field (γ t) P M.e M.n M.u|
      ≤ |Bc c.field (γ (δ / 2)) P M.e M.n M.u| + K * (δ / 2) := by
    intro t ht
    have hK : 0 ≤ K := (abs_nonneg _).trans (hcon _ (inU t ht.1 ht.2) (hray t ht.1))
    have := (convex_Ioc (0 : ℝ) (δ / 2)).norm_image_sub_le_of_norm_hasDerivWithin_le (C := K)
      (f := fun t => Bc c.field (γ t) P M.e M.n M.u) (f' := fun t => Bc (gradComp c k) (γ t) P M.e M.n M.u * s)
      (fun x hx => (der x hx.1).hasDerivWithinAt) (fun x hx => by
        rw [Real.norm_eq_abs, abs_mul, hs, mul_one]
        exact hcon _ (inU x hx.1 hx.2) (hray x hx.1)) (x := δ / 2) (y := t) ⟨half_pos hδ, le_rfl⟩ ht
    simp only [Real.norm_eq_abs] at this
    have h2 : |t - δ / 2| ≤ δ / 2 := by
      rw [abs_le]; constructor <;> linarith [ht.1, ht.2]
    have h3 := abs_sub_abs_le_abs_sub (Bc c.field (γ t) P M.e M.n M.u) (Bc c.field (γ (δ / 2)) P M.e M.n M.u)
    have h4 := mul_le_mul_of_nonneg_left h2 hK
    linarith
  have ev : ∀ᶠ t in 𝓝[>] (0 : ℝ), |mu0 / 4 / π * Bc c.field (γ t) P M.e M.n M.u|
      ≤ |mu0 / 4 / π| * (|Bc c.field (γ (δ / 2)) P M.e M.n M.u| + K * (δ / 2)) := by
    filter_upwards [Ioc_mem_nhdsGT (half_pos hδ)] with t ht
    rw [abs_mul]
    exact mul_le_mul_of_nonneg_left (bd t ht) (abs_nonneg _)
  obtain ⟨t, t1, t2⟩ := (ev.and (hinf.eventually (eventually_gt_atTop _))).exists
  exact absurd t1 (not_le.2 t2)

theorem third_axis {a b : Axis} (hab : a ≠ b) : ∃ c, a ≠ c ∧ b ≠ c := by
  cases a <;> cases b <;> first | exact absurd rfl hab | skip
  · exact ⟨.u, by decide, by decide⟩
  · exact ⟨.n, by decide, by decide⟩
  · exact ⟨.u, by decide, by decide⟩
  · exact ⟨.e, by decide, by decide⟩
  · exact ⟨.n, by decide, by decide⟩
  · exact ⟨.e, by decide, by decide⟩

theorem trace_Bc {a b c : Axis} (hab : a ≠ b) (hac : a ≠ c) (hbc : b ≠ c) (hO : P.Ordered) {q : Pt} (hq : q ∉ P.region)
    (M : Vec) : Bc (gradComp a a) q P M.e M.n M.u + Bc (gradComp b b) q P M.e M.n M.u
      + Bc (gradComp c c) q P M.e M.n M.u = 0 := by
  have he := exterior_edges hO hq
  have hi : q ∉ P.inside := fun h' => hq (inside_subset_region h')
  obtain ⟨x, y, z, h1, h2, h3, e⟩ := C42_traceless hO q M he hi
  rw [h1.inj (Ex.magnetic_returns hO he hi _ _ _), h2.inj (Ex.magnetic_returns hO he hi _ _ _),
    h3.inj (Ex.magnetic_returns hO he hi _ _ _), ← mul_add, ← mul_add] at e
  have hmu : mu0 / 4 / π ≠ 0 := (div_pos (div_pos mu0_pos (by norm_num)) pi_pos).ne'
  have e := (mul_eq_zero.1 e).resolve_left hmu
  cases a <;> cases b <;> cases c <;> first | exact absurd rfl hab | exact absurd rfl hac | exact absurd rfl hbc | skip
  all_goals
    simp only [gradComp]
    linarith

/-- every gradient component that involves the direction of the edge is bounded near the open edge -/
theorem tendsto_gradient_edge {a : Axis} (h1 : P.lo a < p.coord a) (h2 : p.coord a < P.hi a) (x : Axis) (M : Vec) :
    Tendsto (fun q => Bc (gradComp a x) q P M.e M.n M.u) (𝓝 p) (𝓝 (Bc (gradComp a x) p P M.e M.n M.u)) := by
  simp only [Bc_grad]
  have c := fun y => continuousAt_W3_edge (x := a) (y := y) (z := x) h1 h2 (.inl rfl)
  exact ((continuousAt_const.mul (c .e)).add (continuousAt_const.mul (c .n))).add (continuousAt_const.mul (c .u))

/-- **C128.** On an edge parallel to axis `a`, corners included: if the magnetization has a component along another axis `b`,
and `c` is the third axis, the values the gradient functions `bb`, `bc` and `cc` return at exterior points near it exceed every
bound. -/
theorem C128_unbounded {a b c : Axis} (hab : a ≠ b) (hac : a ≠ c) (hbc : b ≠ c) (hP : P.Proper) (p : Pt)
    (h : p ∈ P.edgesAlong a) (M : Vec) (hM : M.coord b ≠ 0) (g : MComp)
    (hg : g ∈ [gradComp b b, gradComp b c, gradComp c c]) (K : ℝ) (U : Set Pt) (hU : U ∈ 𝓝 p) :
    ∃ q ∈ U, q ∉ P.region ∧ ∃ v, Returns (onPrism (A := Exact) (prismMagnetic g) q P M.e M.n M.u) v ∧ K < |v| := by
  have hO := hP.ordered
  have hmu : 0 < mu0 / 4 / π := div_pos (div_pos mu0_pos (by norm_num)) pi_pos
  obtain ⟨V, hVU, hV, hpV⟩ := mem_nhds_iff.1 hU
  obtain ⟨p', hp'V, hp', hp1⟩ := exists_open_edge hab hac hbc hP h hV hpV
  have main : ∃ q ∈ V, q ∉ P.region ∧ K / (mu0 / 4 / π) < |Bc g q P M.e M.n M.u| := by
    simp only [List.mem_cons, List.not_mem_nil, or_false] at hg
    rcases hg with rfl | rfl | rfl
    · -- the trace vanishes and the component along the edge is bounded
      have ho := open_edge_off hab hac hbc hP hp' hp1
      have hlim := tendsto_gradient_edge ho.1 ho.2 a M
      set L := |Bc (gradComp a a) p' P M.e M.n M.u| + 1 with hL
      have hev : ∀ᶠ q in 𝓝 p', |Bc (gradComp a a) q P M.e M.n M.u| < L :=
        hlim.abs.eventually (gt_mem_nhds (by rw [hL]; linarith))
      obtain ⟨q, ⟨hq1, hq2⟩, hq3, hq4⟩ := gradient_unbounded hab hac hbc hac hP hp' hp1 M hM (L + K / (mu0 / 4 / π))
        (Filter.inter_mem hev (hV.mem_nhds hp'V))
      refine ⟨q, hq2, hq3, ?_⟩
      have tr := trace_Bc hab hac hbc hO hq3 M
      have e : Bc (gradComp b b) q P M.e M.n M.u
        = -(Bc (gradComp a a) q P M.e M.n M.u + Bc (gradComp c c) q P M.e M.n M.u) := by linarith
      rw [e, abs_neg]
      have hq1 : |Bc (gradComp a a) q P M.e M.n M.u| < L := hq1
      have tri := abs_sub_abs_le_abs_sub (Bc (gradComp c c) q P M.e M.n M.u) (-Bc (gradComp a a) q P M.e M.n M.u)
      rw [abs_neg, sub_neg_eq_add, add_comm (Bc (gradComp c c) q P M.e M.n M.u)] at tri
      linarith
    · rw [gradComp_comm b c]
      exact gradient_unbounded hab hac hbc hab hP hp' hp1 M hM _ (hV.mem_nhds hp'V)
    · exact gradient_unbounded hab hac hbc hac hP hp' hp1 M hM _ (hV.mem_nhds hp'V)
  obtain ⟨q, h1, h2, h3⟩ := main
  refine ⟨q, hVU h1, h2, _, Ex.magnetic_returns hO (exterior_edges hO h2) (fun h' => h2 (inside_subset_region h')) _ _ _, ?_⟩
  rw [abs_mul, abs_of_pos hmu]
  rwa [div_lt_iff₀ hmu, mul_comm] at h3

/-- **C128.** On an open edge parallel to axis `a` the gradient functions that involve `a` return NaN although they have finite
limits there, whatever the magnetization. -/
theorem C128_along (hP : P.Proper) (a : Axis) (p : Pt) (h : p ∈ P.edgesAlong a) (h1 : ∀ b, b ≠ a → p ∉ P.edgesAlong b)
    (M : Vec) (x : Axis) :
    ReturnsNaN (onPrism (A := Exact) (prismMagnetic (gradComp a x)) p P M.e M.n M.u) ∧
    ∃ (F : Pt → ℝ) (v : ℝ),
      (∀ q ∉ P.region, Returns (onPrism (A := Exact) (prismMagnetic (gradComp a x)) q P M.e M.n M.u) (F q)) ∧
      Tendsto F (𝓝[P.regionᶜ] p) (𝓝 v) := by
  have hO := hP.ordered
  obtain ⟨b, hb⟩ : ∃ b, a ≠ b := by
    cases a
    · exact ⟨.n, by decide⟩
    · exact ⟨.e, by decide⟩
    · exact ⟨.e, by decide⟩
  obtain ⟨c, hc1, hc2⟩ := third_axis hb
  have ho := open_edge_off hb hc1 hc2 hP h (h1 b hb.symm)
  exact ⟨Ex.magnetic_returns_nan hO (.inl (edge_region h)) _ _ _, _, _,
    fun q hq => Ex.magnetic_returns hO (exterior_edges hO hq) (fun h' => hq (inside_subset_region h')) _ _ _,
    Tendsto.const_mul _ ((tendsto_gradient_edge ho.1 ho.2 x M).mono_left nhdsWithin_le_nhds)⟩

/-- **C128.** On an open edge that is parallel to the magnetization all six gradient functions return NaN although they have
finite limits there. -/
theorem C128_parallel (hP : P.Proper) (a : Axis) (p : Pt) (h : p ∈ P.edgesAlong a) (h1 : ∀ b, b ≠ a → p ∉ P.edgesAlong b)
    (M : Vec) (hM : ∀ b, b ≠ a → M.coord b = 0) (x y : Axis) :
    ReturnsNaN (onPrism (A := Exact) (prismMagnetic (gradComp x y)) p P M.e M.n M.u) ∧
    ∃ (F : Pt → ℝ) (v : ℝ),
      (∀ q ∉ P.region, Returns (onPrism (A := Exact) (prismMagnetic (gradComp x y)) q P M.e M.n M.u) (F q)) ∧
      Tendsto F (𝓝[P.regionᶜ] p) (𝓝 v) := by
  have hO := hP.ordered
  obtain ⟨b, hb⟩ : ∃ b, a ≠ b := by
    cases a
    · exact ⟨.n, by decide⟩
    · exact ⟨.e, by decide⟩
    · exact ⟨.e, by decide⟩
  obtain ⟨c, hc1, hc2⟩ := third_axis hb
  have ho := open_edge_off hb hc1 hc2 hP h (h1 b hb.symm)
  have e : ∀ q, Bc (gradComp x y) q P M.e M.n M.u = M.coord a * W3 x a y q P := by
    intro q
    rw [Bc_grad]
    cases a
    · have g1 : M.n = 0 := hM .n (by decide)
      have g2 : M.u = 0 := hM .u (by decide)
      simp [Pt.coord, g1, g2]
    · have g1 : M.e = 0 := hM .e (by decide)
      have g2 : M.u = 0 := hM .u (by decide)
      simp [Pt.coord, g1, g2]
    · have g1 : M.e = 0 := hM .e (by decide)
      have g2 : M.n = 0 := hM .n (by decide)
      simp [Pt.coord, g1, g2]
  refine ⟨Ex.magnetic_returns_nan hO (.inl (edge_region h)) _ _ _, _, mu0 / 4 / π * (M.coord a * W3 x a y p P),
    fun q hq => Ex.magnetic_returns hO (exterior_edges hO hq) (fun h' => hq (inside_subset_region h')) _ _ _, ?_⟩
  simp only [e]
  exact Tendsto.const_mul _ (Tendsto.const_mul _
    ((continuousAt_W3_edge (x := x) (y := a) (z := y) ho.1 ho.2 (.inr (.inl rfl))).tendsto.mono_left nhdsWithin_le_nhds))

/-- The middle of the north-east vertical edge of the example prism, magnetized eastward: `magnetic_ee` is unbounded,
`magnetic_eu` has a limit. -/
example : (∀ K : ℝ, ∀ U ∈ 𝓝 ((1, 1, -1) : Pt), ∃ q ∈ U, q ∉ exBox.region ∧
    ∃ v, Returns (onPrism (A := Exact) prism.magnetic_ee q exBox (1 : ℝ) (0 : ℝ) (0 : ℝ)) v ∧ K < |v|) ∧
    ReturnsNaN (onPrism (A := Exact) prism.magnetic_eu (1, 1, -1) exBox (1 : ℝ) (0 : ℝ) (0 : ℝ)) ∧
    ∃ (F : Pt → ℝ) (v : ℝ),
      (∀ q ∉ exBox.region, Returns (onPrism (A := Exact) prism.magnetic_eu q exBox (1 : ℝ) (0 : ℝ) (0 : ℝ)) (F q)) ∧
      Tendsto F (𝓝[exBox.regionᶜ] (1, 1, -1)) (𝓝 v) := by
  refine ⟨fun K U hU => C128_unbounded (a := .u) (b := .e) (c := .n) (by decide) (by decide) (by decide) exBox_proper
    (1, 1, -1) (by norm_num [Box.edgesAlong, Box.edgesU, exBox]) (1, 0, 0) (by norm_num [Pt.coord]) .ee
    (by simp [gradComp]) K U hU, ?_⟩
  refine C128_along exBox_proper .u (1, 1, -1) (by norm_num [Box.edgesAlong, Box.edgesU, exBox]) ?_ (1, 0, 0) .e
  intro b hb
  cases b
  · norm_num [Box.edgesAlong, Box.edgesE, exBox]
  · norm_num [Box.edgesAlong, Box.edgesN, exBox]
  · exact absurd rfl hb

end Choclo
