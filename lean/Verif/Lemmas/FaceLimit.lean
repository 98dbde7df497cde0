import Verif.Lemmas.VcCalc

/-! # Limits of the diagonal components on the faces -/

namespace Choclo

open Real Filter Topology Classical

@[fun_prop]
theorem ContinuousAt.Sk {X : Type*} [TopologicalSpace X] {f g h : X → ℝ} {x : X}
    (hf : ContinuousAt f x) (hg : ContinuousAt g x) (hh : ContinuousAt h x) (h0 : g x * h x ≠ 0) :
    ContinuousAt (fun t => Sk (f t) (g t) (h t)) x := by
  unfold Choclo.Sk
  have : ContinuousAt (fun t => f t * Choclo.rad (f t) (g t) (h t) / (g t * h t)) x := by
    refine ContinuousAt.div ?_ ?_ ?_
    · fun_prop
    · fun_prop
    · exact h0
  exact (Real.continuous_arctan.continuousAt.comp this).neg

theorem ContinuousAt.Tk {X : Type*} [TopologicalSpace X] {f g h : X → ℝ} {x : X}
    (hf : ContinuousAt f x) (hg : ContinuousAt g x) (hh : ContinuousAt h x) (h0 : f x ≠ 0) :
    ContinuousAt (fun t => Tk (f t) (g t) (h t)) x := by
  have hr : Choclo.rad (f x) (g x) (h x) ≠ 0 := by rw [Ne, rad_eq_zero]; tauto
  have : ContinuousAt (fun t => g t * h t / (f t * Choclo.rad (f t) (g t) (h t))) x := by
    refine ContinuousAt.div ?_ ?_ ?_
    · fun_prop
    · fun_prop
    · exact mul_ne_zero h0 hr
  refine (Real.continuous_arctan.continuousAt.comp this).congr ?_
  filter_upwards [hf.eventually_ne h0] with t ht
  simp only [Choclo.Tk, if_neg ht, Function.comp]

theorem ContinuousAt.Dv {K : ℝ → ℝ → ℝ → ℝ} {p : Pt} {P : Box}
    (h : ∀ a b c, (a = P.west ∨ a = P.east) → (b = P.south ∨ b = P.north) → (c = P.bottom ∨ c = P.top) →
      ContinuousAt (fun q : Pt => K (a - q.1) (b - q.2.1) (c - q.2.2)) p) :
    ContinuousAt (fun q => Dv K q P) p := by
  unfold Choclo.Dv D3
  have h1 := h _ _ _ (Or.inl rfl) (Or.inl rfl) (Or.inl rfl)
  have h2 := h _ _ _ (Or.inl rfl) (Or.inl rfl) (Or.inr rfl)
  have h3 := h _ _ _ (Or.inl rfl) (Or.inr rfl) (Or.inl rfl)
  have h4 := h _ _ _ (Or.inl rfl) (Or.inr rfl) (Or.inr rfl)
  have h5 := h _ _ _ (Or.inr rfl) (Or.inl rfl) (Or.inl rfl)
  have h6 := h _ _ _ (Or.inr rfl) (Or.inl rfl) (Or.inr rfl)
  have h7 := h _ _ _ (Or.inr rfl) (Or.inr rfl) (Or.inl rfl)
  have h8 := h _ _ _ (Or.inr rfl) (Or.inr rfl) (Or.inr rfl)
  exact (((h8.sub h7).sub (h6.sub h5)).sub ((h4.sub h3).sub (h2.sub h1)))

theorem edges_subset_region {p : Pt} {P : Box} (hP : P.Ordered) (h : p ∈ P.edges) : p ∈ P.region := by
  obtain ⟨h1, h2, h3⟩ := hP
  simp only [Box.edges, Set.mem_union, Box.edgesE, Box.edgesN, Box.edgesU, Set.mem_ofPred_eq, Set.mem_Icc] at h
  simp only [Box.region, Set.mem_prod, Set.mem_Icc]
  grind

theorem singular_subset_edges {p : Pt} {P : Box} {c : GComp} (h : p ∈ P.singular c) : p ∈ P.edges := by
  by_contra hc; exact edges_singular c hc h

variable {p : Pt} {P : Box}

/-- nearby points of an east or west face project into the open face -/
theorem eventually_proj (hn : p.n ∈ Set.Ioo P.south P.north) (hu : p.u ∈ Set.Ioo P.bottom P.top) :
    ∀ᶠ q : Pt in 𝓝 p, q.n ∈ Set.Ioo P.south P.north ∧ q.u ∈ Set.Ioo P.bottom P.top := by
  have c1 : ContinuousAt (fun q : Pt => q.n) p := by fun_prop
  have c2 : ContinuousAt (fun q : Pt => q.u) p := by fun_prop
  exact (c1.eventually (isOpen_Ioo.mem_nhds hn)).and (c2.eventually (isOpen_Ioo.mem_nhds hu))

theorem tendsto_Vee_face (hP : P.Ordered) (hx : P.west < P.east) (he : p.e = P.west ∨ p.e = P.east)
    (hn : p.n ∈ Set.Ioo P.south P.north) (hu : p.u ∈ Set.Ioo P.bottom P.top) :
    Tendsto (fun q => Vc .ee q P) (𝓝[P.regionᶜ] p) (𝓝 (Vc .ee p P)) := by
  have hs : p ∉ P.singular .ee := by
    simp only [Box.singular, Set.mem_union, Box.edgesN, Box.edgesU, Set.mem_ofPred_eq]
    rw [Set.mem_Ioo] at hn hu
    grind
  have hnot : p.e ∉ Set.Ioo P.west P.east := by rcases he with h | h <;> rw [h] <;> simp
  rw [Vee_eq hP hx hs, if_neg hnot, sub_zero]
  have hc : ContinuousAt (fun q => -Dv Sk q P) p := by
    apply ContinuousAt.neg
    apply ContinuousAt.Dv
    intro a b c _ hb hc
    have h1 : b - p.2.1 ≠ 0 := by
      have := hn.1; have := hn.2
      rcases hb with h | h <;> rw [h]
      · exact (by linarith : P.south - p.n < 0).ne
      · exact (by linarith : 0 < P.north - p.n).ne'
    have h2 : c - p.2.2 ≠ 0 := by
      have := hu.1; have := hu.2
      rcases hc with h | h <;> rw [h]
      · exact (by linarith : P.bottom - p.u < 0).ne
      · exact (by linarith : 0 < P.top - p.u).ne'
    exact ContinuousAt.Sk (by fun_prop) (by fun_prop) (by fun_prop) (mul_ne_zero h1 h2)
  refine (hc.tendsto.mono_left nhdsWithin_le_nhds).congr' ?_
  filter_upwards [self_mem_nhdsWithin, nhdsWithin_le_nhds (eventually_proj hn hu)] with q hq hq'
  have hq1 : q ∉ P.singular .ee := fun h => hq (edges_subset_region hP (singular_subset_edges h))
  rw [Vee_eq hP hx hq1, if_neg, sub_zero]
  intro h
  exact hq ⟨Set.Ioo_subset_Icc_self h, Set.Ioo_subset_Icc_self hq'.1, Set.Ioo_subset_Icc_self hq'.2⟩

theorem tendsto_Vnn_face (hP : P.Ordered) (he : p.e = P.west ∨ p.e = P.east)
    (hn : p.n ∈ Set.Ioo P.south P.north) (hu : p.u ∈ Set.Ioo P.bottom P.top) :
    Tendsto (fun q => Vc .nn q P) (𝓝[P.regionᶜ] p) (𝓝 (Vc .nn p P)) := by
  have hc : ContinuousAt (fun q => Dv (Kc .nn) q P) p := by
    apply ContinuousAt.Dv
    intro a b c _ hb hc
    have h1 : b - p.2.1 ≠ 0 := by
      have := hn.1; have := hn.2
      rcases hb with h | h <;> rw [h]
      · exact (by linarith : P.south - p.n < 0).ne
      · exact (by linarith : 0 < P.north - p.n).ne'
    exact (ContinuousAt.Tk (f := fun q : Pt => b - q.2.1) (g := fun q : Pt => a - q.1)
      (h := fun q : Pt => c - q.2.2) (by fun_prop) (by fun_prop) (by fun_prop) h1).neg
  have hp : corr .nn p P = 0 := by
    simp only [corr]
    rw [if_neg]
    rintro ⟨h, _⟩
    rcases he with h' | h'
    · exact h.1.ne' h'
    · exact h.2.ne h'
  simp only [Vc]
  rw [hp, add_zero]
  refine (hc.tendsto.mono_left nhdsWithin_le_nhds).congr' ?_
  filter_upwards [self_mem_nhdsWithin] with q hq
  have : corr .nn q P = 0 := by
    simp only [corr]
    rw [if_neg]
    rintro ⟨h, h', h''⟩
    rw [Set.mem_singleton_iff] at h'
    exact hq ⟨Set.Ioo_subset_Icc_self h, ⟨by rw [h']; exact hP.2.1, by rw [h']⟩, Set.Ioo_subset_Icc_self h''⟩
  rw [this, add_zero]

theorem Pt.continuous_swap (s : Swap) : Continuous fun p : Pt => p.swap s := by
  cases s <;> simp only [Pt.swap] <;> fun_prop

theorem tendsto_swap {c : GComp} (s : Swap)
    (h : Tendsto (fun q => Vc (c.swap s) q (P.swap s)) (𝓝[(P.swap s).regionᶜ] (p.swap s))
      (𝓝 (Vc (c.swap s) (p.swap s) (P.swap s)))) :
    Tendsto (fun q => Vc c q P) (𝓝[P.regionᶜ] p) (𝓝 (Vc c p P)) := by
  rw [Vc_swap] at h
  have hs : Tendsto (fun q : Pt => q.swap s) (𝓝[P.regionᶜ] p) (𝓝[(P.swap s).regionᶜ] (p.swap s)) := by
    apply tendsto_nhdsWithin_of_tendsto_nhds_of_eventually_within
    · exact ((Pt.continuous_swap s).tendsto p).mono_left nhdsWithin_le_nhds
    · filter_upwards [self_mem_nhdsWithin] with q hq h'
      exact hq ((region_swap q P s).mp h')
  refine (h.comp hs).congr fun q => ?_
  simp only [Function.comp, Vc_swap]

theorem tendsto_Vdiag_e (hP : P.Ordered) (hx : P.west < P.east) (he : p.e = P.west ∨ p.e = P.east)
    (hn : p.n ∈ Set.Ioo P.south P.north) (hu : p.u ∈ Set.Ioo P.bottom P.top) (a : Axis) :
    Tendsto (fun q => Vc a.diag q P) (𝓝[P.regionᶜ] p) (𝓝 (Vc a.diag p P)) := by
  cases a
  · exact tendsto_Vee_face hP hx he hn hu
  · exact tendsto_Vnn_face hP he hn hu
  · exact tendsto_swap (c := .uu) .nu (tendsto_Vnn_face (p := p.swap .nu) (hP.swap .nu) he hu hn)

/-- on every open face, for every diagonal component -/
theorem tendsto_Vdiag (hP : P.Proper) (h : p ∈ P.faces) (a : Axis) :
    Tendsto (fun q => Vc a.diag q P) (𝓝[P.regionᶜ] p) (𝓝 (Vc a.diag p P)) := by
  have hO : P.Ordered := ⟨hP.1.le, hP.2.1.le, hP.2.2.le⟩
  have ds : ∀ (s : Swap) (a : Axis), a.diag.swap s = (a.swap s).diag := by
    intro s a; cases s <;> cases a <;> rfl
  rcases h with ((((h | h) | h) | h) | h) | h
  · exact tendsto_Vdiag_e hO hP.1 (Or.inr h.1) h.2.1 h.2.2 a
  · exact tendsto_Vdiag_e hO hP.1 (Or.inl h.1) h.2.1 h.2.2 a
  · apply tendsto_swap .en
    rw [ds]
    exact tendsto_Vdiag_e (p := p.swap .en) (hO.swap .en) (hP.swap .en).1 (Or.inr h.2.1) h.1 h.2.2 _
  · apply tendsto_swap .en
    rw [ds]
    exact tendsto_Vdiag_e (p := p.swap .en) (hO.swap .en) (hP.swap .en).1 (Or.inl h.2.1) h.1 h.2.2 _
  · apply tendsto_swap .eu
    rw [ds]
    exact tendsto_Vdiag_e (p := p.swap .eu) (hO.swap .eu) (hP.swap .eu).1 (Or.inr h.2.2) h.2.1 h.1 _
  · apply tendsto_swap .eu
    rw [ds]
    exact tendsto_Vdiag_e (p := p.swap .eu) (hO.swap .eu) (hP.swap .eu).1 (Or.inl h.2.2) h.2.1 h.1 _

end Choclo
