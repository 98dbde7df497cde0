import Verif.Props.FaceValues
import Verif.Props.Warranted

/-! # C105: the magnetic field at the edges of a prism -/

namespace Choclo

open Real Set Filter Topology

variable {P : Box} {p : Pt}

/-- The four (closed) edges of a prism parallel to an axis. -/
def Box.edgesAlong (P : Box) : Axis → Set Pt
  | .e => P.edgesE
  | .n => P.edgesN
  | .u => P.edgesU

theorem Bc_axes {a b c : Axis} (hab : a ≠ b) (hac : a ≠ c) (hbc : b ≠ c) (q : Pt) (P : Box) (M : Vec) :
    Bc c.field q P M.e M.n M.u = M.coord b * Vc (tensor b c) q P +
      (M.coord a * Vc (tensor a c) q P + M.coord c * Vc (tensor c c) q P) := by
  cases a <;> cases b <;> cases c <;> first | exact absurd rfl hab | exact absurd rfl hac | exact absurd rfl hbc | skip
  all_goals
    simp only [Bc, Wc, Axis.field, tensor, Pt.coord]
    ring

theorem singular_along {a b c : Axis} (hab : a ≠ b) (hac : a ≠ c) (hbc : b ≠ c) :
    P.singular (tensor b c) = P.edgesAlong a := by
  cases a <;> cases b <;> cases c <;> first | exact absurd rfl hab | exact absurd rfl hac | exact absurd rfl hbc | rfl

/-- the diagonal components are bounded -/
theorem abs_Vdiag_le (a : Axis) (q : Pt) (P : Box) : |Vc (tensor a a) q P| ≤ 8 * π := by
  have h := abs_Tk_le
  have hc : |corr (tensor a a) q P| ≤ 4 * π := by
    cases a <;> simp only [tensor, corr] <;> split_ifs <;> simp [abs_of_pos pi_pos, pi_pos.le]
  unfold Vc Dv D3
  have k : ∀ x y z, |Kc (tensor a a) x y z| ≤ π / 2 := by
    intro x y z
    cases a <;> simp only [tensor, Kc, abs_neg] <;> exact abs_Tk_le _ _ _
  have k' := fun x y z => abs_le.1 (k x y z)
  rw [abs_le] at hc ⊢
  constructor <;> linarith [k' (P.east - q.e) (P.north - q.n) (P.top - q.u), k' (P.east - q.e) (P.north - q.n) (P.bottom - q.u), k' (P.east - q.e) (P.south - q.n) (P.top - q.u), k' (P.east - q.e) (P.south - q.n) (P.bottom - q.u), k' (P.west - q.e) (P.north - q.n) (P.top - q.u), k' (P.west - q.e) (P.north - q.n) (P.bottom - q.u), k' (P.west - q.e) (P.south - q.n) (P.top - q.u), k' (P.west - q.e) (P.south - q.n) (P.bottom - q.u)]

/-- on the open part of an edge -/
theorem open_edge_off {a b c : Axis} (hab : a ≠ b) (hac : a ≠ c) (hbc : b ≠ c) (hP : P.Proper)
    (h : p ∈ P.edgesAlong a) (h1 : p ∉ P.edgesAlong b) : P.lo a < p.coord a ∧ p.coord a < P.hi a := by
  obtain ⟨o1, o2, o3⟩ := hP
  cases a <;> cases b <;> cases c <;> first | exact absurd rfl hab | exact absurd rfl hac | exact absurd rfl hbc | skip
  all_goals
    simp only [Box.edgesAlong, Box.edgesE, Box.edgesN, Box.edgesU, Set.mem_ofPred_eq, Set.mem_Icc, Box.lo, Box.hi,
      Pt.coord] at *
    grind

theorem tendsto_field_open {a b c : Axis} (hab : a ≠ b) (hac : a ≠ c) (hbc : b ≠ c) (hP : P.Proper)
    (h : p ∈ P.edgesAlong a) (h1 : p ∉ P.edgesAlong b) (M : Vec) (hM : M.coord b ≠ 0) :
    Tendsto (fun q => |mu0 / 4 / π * Bc c.field q P M.e M.n M.u|) (𝓝[P.regionᶜ] p) atTop := by
  have hO := hP.ordered
  have hcm : 0 < |mu0 / 4 / π| := by
    rw [abs_pos]
    have : (0 : ℝ) < mu0 := mu0_pos
    positivity
  simp only [abs_mul (mu0 / 4 / π)]
  refine Tendsto.const_mul_atTop hcm ?_
  have t1 : Tendsto (fun q => |Vc (tensor b c) q P|) (𝓝[P.regionᶜ] p) atTop := by
    refine (tendsto_abs_Voff hP hbc (by rw [singular_along hab hac hbc]; exact h)).mono_left (nhdsWithin_mono _ ?_)
    intro q hq
    exact exterior_singular hO hq _
  -- the component along the edge is continuous, hence bounded
  have hs : p ∉ P.singular (tensor a c) := by
    rw [singular_along hab.symm hbc hac]; exact h1
  have t2 : ContinuousAt (fun q => |Vc (tensor a c) q P|) p := (continuousAt_Voff hO hac hs).abs
  have t3 : ∀ᶠ q in 𝓝[P.regionᶜ] p, |Vc (tensor a c) q P| ≤ |Vc (tensor a c) p P| + 1 :=
    nhdsWithin_le_nhds ((t2.eventually (gt_mem_nhds (lt_add_one _))).mono fun q hq => hq.le)
  set B := |M.coord a| * (|Vc (tensor a c) p P| + 1) + |M.coord c| * (8 * π) with hB
  have t4 : Tendsto (fun q => |M.coord b| * |Vc (tensor b c) q P| + -B) (𝓝[P.regionᶜ] p) atTop :=
    tendsto_atTop_add_const_right _ _ (t1.const_mul_atTop (abs_pos.2 hM))
  refine tendsto_atTop_mono' _ ?_ t4
  filter_upwards [t3] with q hq
  rw [Bc_axes hab hac hbc]
  have k1 := abs_sub_abs_le_abs_sub (M.coord b * Vc (tensor b c) q P)
    (-(M.coord a * Vc (tensor a c) q P + M.coord c * Vc (tensor c c) q P))
  have k2 := abs_add_le (M.coord a * Vc (tensor a c) q P) (M.coord c * Vc (tensor c c) q P)
  rw [sub_neg_eq_add, abs_neg, abs_mul (M.coord b)] at k1
  rw [abs_mul, abs_mul] at k2
  have k3 := mul_le_mul_of_nonneg_left hq (abs_nonneg (M.coord a))
  have k4 := mul_le_mul_of_nonneg_left (abs_Vdiag_le c q P) (abs_nonneg (M.coord c))
  linarith

theorem edge_region {a : Axis} (h : p ∈ P.edgesAlong a) : p ∈ P.edges := by
  cases a
  · exact .inl (.inl h)
  · exact .inl (.inr h)
  · exact .inr h

/-- **C105.** At a point of an edge parallel to axis `a` that is not a corner, with a magnetization that has a component along
another axis `b`, the values the magnetic function of the third axis `c` returns at exterior points grow beyond every bound: no
number could be returned on the edge, where the function returns NaN. -/
theorem C105_diverges {a b c : Axis} (hab : a ≠ b) (hac : a ≠ c) (hbc : b ≠ c) (hP : P.Proper) (p : Pt)
    (h : p ∈ P.edgesAlong a) (h1 : p ∉ P.edgesAlong b) (M : Vec) (hM : M.coord b ≠ 0) :
    ReturnsNaN (onPrism (A := Exact) (prismMagnetic c.field) p P M.e M.n M.u) ∧
    ∃ F : Pt → ℝ, (∀ q ∉ P.region, Returns (onPrism (A := Exact) (prismMagnetic c.field) q P M.e M.n M.u) (F q)) ∧
      Tendsto (fun q => |F q|) (𝓝[P.regionᶜ] p) atTop := by
  have hO := hP.ordered
  exact ⟨Ex.magnetic_returns_nan hO (.inl (edge_region h)) _ _ _, _, fun q hq =>
    Ex.magnetic_returns hO (exterior_edges hO hq) (fun h' => hq (inside_subset_region h')) _ _ _,
    tendsto_field_open hab hac hbc hP h h1 M hM⟩

theorem singular_returns_nan {a b c : Axis} (hab : a ≠ b) (hac : a ≠ c) (hbc : b ≠ c) (hP : P.Proper)
    (h : p ∈ P.edgesAlong a) : (𝓝[P.regionᶜ] p).NeBot := by
  refine C95_approachable hP (tensor b c) (ρ := 1) p ?_
  rw [(C26_nan_iff hP.ordered (tensor b c) p 1).1, singular_along hab hac hbc]
  exact h

/-- **C105.** Corners included: in every neighbourhood of a point of an edge parallel to axis `a` there are exterior points where
the magnetic function of axis `c` exceeds any bound, if the magnetization has a component along `b`. -/
theorem C105_unbounded {a b c : Axis} (hab : a ≠ b) (hac : a ≠ c) (hbc : b ≠ c) (hP : P.Proper) (p : Pt)
    (h : p ∈ P.edgesAlong a) (M : Vec) (hM : M.coord b ≠ 0) (K : ℝ) (U : Set Pt) (hU : U ∈ 𝓝 p) :
    ∃ q ∈ U, q ∉ P.region ∧ ∃ v, Returns (onPrism (A := Exact) (prismMagnetic c.field) q P M.e M.n M.u) v ∧ K < |v| := by
  have hO := hP.ordered
  obtain ⟨V, hVU, hV, hpV⟩ := mem_nhds_iff.1 hU
  -- a point of the open edge in the neighbourhood
  obtain ⟨p', hp'V, hp', hp1⟩ : ∃ p' ∈ V, p' ∈ P.edgesAlong a ∧ p' ∉ P.edgesAlong b := by
    set m := (P.lo a + P.hi a) / 2 with hm
    have hc : Continuous fun t : ℝ => p.set a (p.coord a + t * (m - p.coord a)) := by
      cases a <;> simp only [Pt.set] <;> fun_prop
    have h0 : p.set a (p.coord a + 0 * (m - p.coord a)) = p := by
      rw [zero_mul, add_zero]; cases a <;> rfl
    have hev : ∀ᶠ t in 𝓝[>] (0 : ℝ), p.set a (p.coord a + t * (m - p.coord a)) ∈ V :=
      nhdsWithin_le_nhds ((hc.tendsto 0).eventually (hV.mem_nhds (by rw [h0]; exact hpV)))
    have hlt : ∀ᶠ t in 𝓝[>] (0 : ℝ), t < 1 := nhdsWithin_le_nhds (gt_mem_nhds one_pos)
    obtain ⟨t, ht1, ht2, ht3⟩ := (hev.and (hlt.and self_mem_nhdsWithin)).exists
    have ht3 : 0 < t := ht3
    refine ⟨_, ht1, ?_⟩
    have hlh : P.lo a < P.hi a := by
      obtain ⟨o1, o2, o3⟩ := hP
      cases a <;> assumption
    have hin : P.lo a ≤ p.coord a ∧ p.coord a ≤ P.hi a := by
      cases a
      · exact h.1
      · exact h.2.1
      · exact h.2.2
    have g1 : P.lo a < p.coord a + t * (m - p.coord a) := by nlinarith
    have g2 : p.coord a + t * (m - p.coord a) < P.hi a := by nlinarith
    clear_value m
    generalize p.coord a + t * (m - p.coord a) = x at g1 g2
    clear hV hpV hVU hev ht1 hc h0 hU hM
    cases a <;> cases b <;> cases c <;> first | exact absurd rfl hab | exact absurd rfl hac | exact absurd rfl hbc | skip
    all_goals
      simp only [Box.edgesAlong, Box.edgesE, Box.edgesN, Box.edgesU, Set.mem_ofPred_eq, Set.mem_Icc, Box.lo, Box.hi,
        Pt.coord, Pt.set, Pt.e, Pt.n, Pt.u] at *
      grind
  have := singular_returns_nan hab hac hbc hP hp'
  obtain ⟨-, F, hF, ht⟩ := C105_diverges hab hac hbc hP p' hp' hp1 M hM
  have e1 : ∀ᶠ q in 𝓝[P.regionᶜ] p', K < |F q| := ht.eventually (eventually_gt_atTop K)
  have e2 : ∀ᶠ q in 𝓝[P.regionᶜ] p', q ∈ V := nhdsWithin_le_nhds (hV.mem_nhds hp'V)
  obtain ⟨q, h1, h2, h3⟩ := (e1.and (e2.and self_mem_nhdsWithin)).exists
  exact ⟨q, hVU h2, h3, F q, hF q h3, h1⟩

/-- **C105.** So NaN is warranted on every edge, for every magnetization that is not parallel to it, and at every corner for
every magnetization but zero: some component of the field is unbounded nearby. -/
theorem C105_warranted (hP : P.Proper) (a : Axis) (p : Pt) (h : p ∈ P.edgesAlong a) (M : Vec)
    (hM : (∃ b, b ≠ a ∧ M.coord b ≠ 0) ∨ (∃ b, b ≠ a ∧ p ∈ P.edgesAlong b) ∧ M ≠ (0, 0, 0)) :
    ∃ c : Axis, ∀ K : ℝ, ∀ U ∈ 𝓝 p, ∃ q ∈ U, q ∉ P.region ∧
      ∃ v, Returns (onPrism (A := Exact) (prismMagnetic c.field) q P M.e M.n M.u) v ∧ K < |v| := by
  have third : ∀ a b : Axis, a ≠ b → ∃ c, a ≠ c ∧ b ≠ c := by
    intro a b hab
    cases a <;> cases b <;> first | exact absurd rfl hab | skip
    · exact ⟨.u, by decide, by decide⟩
    · exact ⟨.n, by decide, by decide⟩
    · exact ⟨.u, by decide, by decide⟩
    · exact ⟨.e, by decide, by decide⟩
    · exact ⟨.n, by decide, by decide⟩
    · exact ⟨.e, by decide, by decide⟩
  rcases hM with ⟨b, hb, hM⟩ | ⟨⟨b, hb, hpb⟩, hM⟩
  · obtain ⟨c, h1, h2⟩ := third a b hb.symm
    exact ⟨c, fun K U hU => C105_unbounded hb.symm h1 h2 hP p h M hM K U hU⟩
  · obtain ⟨d, hd⟩ : ∃ d, M.coord d ≠ 0 := by
      by_contra hne
      push Not at hne
      exact hM (Prod.ext (hne .e) (Prod.ext (hne .n) (hne .u)))
    -- one of the two edges is not parallel to `d`
    by_cases hda : d = a
    · subst hda
      obtain ⟨c, h1, h2⟩ := third b d hb
      exact ⟨c, fun K U hU => C105_unbounded hb h1 h2 hP p hpb M hd K U hU⟩
    · obtain ⟨c, h1, h2⟩ := third a d (Ne.symm hda)
      exact ⟨c, fun K U hU => C105_unbounded (Ne.symm hda) h1 h2 hP p h M hd K U hU⟩

/-- **C105.** On an edge that is parallel to the magnetization, corners excluded, NaN is returned although all three components
have finite limits there. -/
theorem C105_parallel (hP : P.Proper) (a : Axis) (p : Pt) (h : p ∈ P.edgesAlong a) (h1 : ∀ b, b ≠ a → p ∉ P.edgesAlong b)
    (M : Vec) (hM : ∀ b, b ≠ a → M.coord b = 0) (c : Axis) :
    ReturnsNaN (onPrism (A := Exact) (prismMagnetic c.field) p P M.e M.n M.u) ∧
    ∃ (F : Pt → ℝ) (v : ℝ),
      (∀ q ∉ P.region, Returns (onPrism (A := Exact) (prismMagnetic c.field) q P M.e M.n M.u) (F q)) ∧
      Tendsto F (𝓝[P.regionᶜ] p) (𝓝 v) := by
  have hO := hP.ordered
  refine ⟨Ex.magnetic_returns_nan hO (.inl (edge_region h)) _ _ _, _, mu0 / 4 / π * (M.coord a * Vc (tensor a c) p P),
    fun q hq => Ex.magnetic_returns hO (exterior_edges hO hq) (fun h' => hq (inside_subset_region h')) _ _ _, ?_⟩
  have hB : ∀ q, Bc c.field q P M.e M.n M.u = M.coord a * Vc (tensor a c) q P := by
    intro q
    have g : ∀ b, b ≠ a → M.coord b = 0 := hM
    cases a
    · have g1 : M.n = 0 := hM .n (by decide)
      have g2 : M.u = 0 := hM .u (by decide)
      cases c <;> simp [Bc, Wc, Axis.field, tensor, Pt.coord, g1, g2]
    · have g1 : M.e = 0 := hM .e (by decide)
      have g2 : M.u = 0 := hM .u (by decide)
      cases c <;> simp [Bc, Wc, Axis.field, tensor, Pt.coord, g1, g2]
    · have g1 : M.e = 0 := hM .e (by decide)
      have g2 : M.n = 0 := hM .n (by decide)
      cases c <;> simp [Bc, Wc, Axis.field, tensor, Pt.coord, g1, g2]
  simp only [hB]
  refine Tendsto.const_mul _ (Tendsto.const_mul _ ?_)
  have third : ∀ a c : Axis, a ≠ c → ∃ b, b ≠ a ∧ b ≠ c := by
    intro a b hab
    cases a <;> cases b <;> first | exact absurd rfl hab | skip
    · exact ⟨.u, by decide, by decide⟩
    · exact ⟨.n, by decide, by decide⟩
    · exact ⟨.u, by decide, by decide⟩
    · exact ⟨.e, by decide, by decide⟩
    · exact ⟨.n, by decide, by decide⟩
    · exact ⟨.e, by decide, by decide⟩
  by_cases hac : a = c
  · subst hac
    refine (continuousAt_Vdiag hO a ?_).tendsto.mono_left nhdsWithin_le_nhds
    rintro ⟨-, hf⟩
    obtain ⟨b, hb, -⟩ : ∃ b, b ≠ a ∧ b ≠ a := by
      cases a
      · exact ⟨.n, by decide, by decide⟩
      · exact ⟨.e, by decide, by decide⟩
      · exact ⟨.e, by decide, by decide⟩
    obtain ⟨d, hd1, hd2⟩ := third a b hb.symm
    have := open_edge_off hb.symm hd1.symm hd2.symm hP h (h1 b hb)
    rcases hf with hf | hf <;> linarith [this.1, this.2]
  · obtain ⟨b, hb, hbc⟩ := third a c hac
    refine (continuousAt_Voff hO hac ?_).tendsto.mono_left nhdsWithin_le_nhds
    rw [singular_along hb hbc hac]
    exact h1 b hb

/-- The middle of the north-east vertical edge of the example prism, magnetized eastward: `magnetic_n` diverges. -/
example : ReturnsNaN (onPrism (A := Exact) prism.magnetic_n (1, 1, -1) exBox (1 : ℝ) (0 : ℝ) (0 : ℝ)) ∧
    ∃ F : Pt → ℝ, (∀ q ∉ exBox.region, Returns (onPrism (A := Exact) prism.magnetic_n q exBox (1 : ℝ) (0 : ℝ) (0 : ℝ)) (F q)) ∧
      Tendsto (fun q => |F q|) (𝓝[exBox.regionᶜ] (1, 1, -1)) atTop :=
  C105_diverges (a := .u) (b := .e) (c := .n) (by decide) (by decide) (by decide) exBox_proper (1, 1, -1)
    (by norm_num [Box.edgesAlong, Box.edgesU, exBox]) (by norm_num [Box.edgesAlong, Box.edgesE, exBox]) (1, 0, 0)
    (by norm_num [Pt.coord])

/-- Magnetized upward: the limits exist. -/
example (c : Axis) : ∃ (F : Pt → ℝ) (v : ℝ),
    (∀ q ∉ exBox.region, Returns (onPrism (A := Exact) (prismMagnetic c.field) q exBox (0 : ℝ) (0 : ℝ) (1 : ℝ)) (F q)) ∧
      Tendsto F (𝓝[exBox.regionᶜ] (1, 1, -1)) (𝓝 v) := by
  refine (C105_parallel exBox_proper .u (1, 1, -1) (by norm_num [Box.edgesAlong, Box.edgesU, exBox]) ?_ (0, 0, 1) ?_ c).2
  · intro b hb
    cases b
    · norm_num [Box.edgesAlong, Box.edgesE, exBox]
    · norm_num [Box.edgesAlong, Box.edgesN, exBox]
    · exact absurd rfl hb
  · intro b hb
    cases b
    · rfl
    · rfl
    · exact absurd rfl hb

/-- A corner of the example prism and any magnetization: warranted. -/
example : ∃ c : Axis, ∀ K : ℝ, ∀ U ∈ 𝓝 ((1, 1, 0) : Pt), ∃ q ∈ U, q ∉ exBox.region ∧
    ∃ v, Returns (onPrism (A := Exact) (prismMagnetic c.field) q exBox (0 : ℝ) (0 : ℝ) (1 : ℝ)) v ∧ K < |v| :=
  C105_warranted exBox_proper .u (1, 1, 0) (by norm_num [Box.edgesAlong, Box.edgesU, exBox]) (0, 0, 1)
    (.inr ⟨⟨.e, by decide, by norm_num [Box.edgesAlong, Box.edgesE, exBox]⟩, by norm_num⟩)

end Choclo
