import Verif.Lemmas.Continuity
import Verif.Lemmas.FaceLimit
import Verif.Lemmas.MagCalc2
import Verif.Lemmas.Flux2
import Verif.Props.PrismIntegral

/-! # Continuity of the tensor and of the magnetic gradient at points of the closed prism -/

namespace Choclo

open Real Set MeasureTheory Filter Topology

variable {P : Box} {p : Pt}

theorem Lk_off_axis {x y z : ℝ} (h : ¬(y = 0 ∧ z = 0)) : Lk x y z = Real.log (x + rad x y z) := by
  have hr : rad x y z ≠ 0 := by rw [Ne, rad_eq_zero]; tauto
  have h2 := rad_sq x y z
  have hp := sq_add_sq_pos h
  have hr0 := rad_nonneg x y z
  rw [Lk, if_neg hr]
  split_ifs with h1
  · congr 1
    rw [div_eq_iff (by linarith)]
    nlinarith
  · rfl

theorem ContinuousAt.Lk {X : Type*} [TopologicalSpace X] {f g h : X → ℝ} {x : X}
    (hf : ContinuousAt f x) (hg : ContinuousAt g x) (hh : ContinuousAt h x) (h0 : ¬(g x = 0 ∧ h x = 0)) :
    ContinuousAt (fun t => Lk (f t) (g t) (h t)) x := by
  have hp := sq_add_sq_pos h0
  have pos : 0 < f x + Choclo.rad (f x) (g x) (h x) := by
    have h2 := rad_sq (f x) (g x) (h x)
    have hr0 := rad_nonneg (f x) (g x) (h x)
    by_contra hn
    push Not at hn
    nlinarith
  have c : ContinuousAt (fun t => Real.log (f t + Choclo.rad (f t) (g t) (h t))) x := by
    refine ContinuousAt.log ?_ pos.ne'
    fun_prop
  refine c.congr ?_
  have hs : ContinuousAt (fun t => g t ^ 2 + h t ^ 2) x := by fun_prop
  filter_upwards [hs.eventually (lt_mem_nhds hp)] with t ht
  rw [Lk_off_axis]
  rintro ⟨a, b⟩
  rw [a, b] at ht
  norm_num at ht

theorem ContinuousAt.Kiij {X : Type*} [TopologicalSpace X] {f g h : X → ℝ} {x : X}
    (hf : ContinuousAt f x) (hg : ContinuousAt g x) (hh : ContinuousAt h x) (h0 : ¬(f x = 0 ∧ g x = 0)) :
    ContinuousAt (fun t => Kiij (f t) (g t) (h t)) x := by
  have hp := sq_add_sq_pos h0
  have hr : Choclo.rad (f x) (g x) (h x) ≠ 0 := by rw [Ne, rad_eq_zero]; tauto
  have c : ContinuousAt (fun t => f t * h t / ((f t ^ 2 + g t ^ 2) * Choclo.rad (f t) (g t) (h t))) x := by
    refine ContinuousAt.div (by fun_prop) (by fun_prop) (mul_ne_zero hp.ne' hr)
  refine c.congr ?_
  have hs : ContinuousAt (fun t => f t ^ 2 + g t ^ 2) x := by fun_prop
  filter_upwards [hs.eventually (lt_mem_nhds hp)] with t ht
  rw [Choclo.Kiij, if_neg]
  rintro ⟨a, b⟩
  rw [a, b] at ht
  norm_num at ht

theorem ContinuousAt.Kiii {X : Type*} [TopologicalSpace X] {f g h : X → ℝ} {x : X}
    (hf : ContinuousAt f x) (hg : ContinuousAt g x) (hh : ContinuousAt h x) (h0 : ¬(f x = 0 ∧ g x = 0))
    (h1 : ¬(f x = 0 ∧ h x = 0)) :
    ContinuousAt (fun t => Kiii (f t) (g t) (h t)) x := by
  have hp := sq_add_sq_pos h0
  have hq := sq_add_sq_pos h1
  have hr : Choclo.rad (f x) (g x) (h x) ≠ 0 := by rw [Ne, rad_eq_zero]; tauto
  have c : ContinuousAt (fun t => -g t * h t * (2 * f t ^ 2 + g t ^ 2 + h t ^ 2) /
      ((f t ^ 2 + g t ^ 2) * (f t ^ 2 + h t ^ 2) * Choclo.rad (f t) (g t) (h t))) x := by
    refine ContinuousAt.div (by fun_prop) (by fun_prop) (mul_ne_zero (mul_ne_zero hp.ne' hq.ne') hr)
  refine c.congr ?_
  have hs : ContinuousAt (fun t => f t ^ 2 + g t ^ 2) x := by fun_prop
  have hs' : ContinuousAt (fun t => f t ^ 2 + h t ^ 2) x := by fun_prop
  filter_upwards [hs.eventually (lt_mem_nhds hp), hs'.eventually (lt_mem_nhds hq)] with t ht ht'
  rw [Choclo.Kiii, if_neg]
  rintro (⟨a, b⟩ | ⟨a, b⟩)
  · rw [a, b] at ht; norm_num at ht
  · rw [a, b] at ht'; norm_num at ht'

theorem continuousOn_Vtensor (hP : P.Ordered) (a b : Axis) :
    ContinuousOn (fun p => Vc (tensor a b) p P) P.regionᶜ :=
  (continuousOn_integral_kpp (kern2 a b)).congr fun _ hp => Vtensor_eq hP a b hp

/-- the off-diagonal tensor components are continuous off their edges -/
theorem continuousAt_Ven (hP : P.Ordered) (h : p ∉ P.singular .en) : ContinuousAt (fun q => Vc .en q P) p := by
  by_cases hr : p ∈ P.region
  · simp only [Vc, corr, add_zero]
    refine ContinuousAt.Dv fun a b c ha hb hc => ?_
    refine ContinuousAt.Lk (f := fun q : Pt => c - q.2.2) (g := fun q : Pt => a - q.1) (h := fun q : Pt => b - q.2.1)
      (by fun_prop) (by fun_prop) (by fun_prop) ?_
    rintro ⟨e1, e2⟩
    refine h ?_
    obtain ⟨_, _, h3⟩ := hr
    have e1' : p.e = a := by simp only [Pt.e]; linarith
    have e2' : p.n = b := by simp only [Pt.n]; linarith
    simp only [Box.singular, Box.edgesU, Set.mem_ofPred_eq]
    rw [e1', e2']
    exact ⟨ha, hb, h3⟩
  · exact (continuousOn_Vtensor hP .e .n).continuousAt ((isClosed_region P).isOpen_compl.mem_nhds hr)

theorem continuousAt_swap {c : GComp} (s : Swap)
    (h : ContinuousAt (fun q => Vc (c.swap s) q (P.swap s)) (p.swap s)) : ContinuousAt (fun q => Vc c q P) p := by
  have h' : ContinuousAt (fun q : Pt => Vc (c.swap s) (q.swap s) (P.swap s)) p :=
    ContinuousAt.comp (f := fun q : Pt => q.swap s) h (Pt.continuous_swap s).continuousAt
  simpa only [Vc_swap] using h'

theorem continuousAt_Voff (hP : P.Ordered) {a b : Axis} (hab : a ≠ b) (h : p ∉ P.singular (tensor a b)) :
    ContinuousAt (fun q => Vc (tensor a b) q P) p := by
  have en : ∀ {p P}, P.Ordered → p ∉ P.singular .en → ContinuousAt (fun q => Vc .en q P) p := continuousAt_Ven
  have eu : ∀ {p P}, P.Ordered → p ∉ P.singular .eu → ContinuousAt (fun q => Vc .eu q P) p := fun {p P} hP h =>
    continuousAt_swap .nu (en (hP.swap .nu) (by rwa [← singular_swap p P .eu .nu] at h))
  have nu : ∀ {p P}, P.Ordered → p ∉ P.singular .nu → ContinuousAt (fun q => Vc .nu q P) p := fun {p P} hP h =>
    continuousAt_swap .eu (en (hP.swap .eu) (by rwa [← singular_swap p P .nu .eu] at h))
  cases a <;> cases b
  · exact absurd rfl hab
  · exact en hP h
  · exact eu hP h
  · exact en hP h
  · exact absurd rfl hab
  · exact nu hP h
  · exact eu hP h
  · exact nu hP h
  · exact absurd rfl hab

/-- the diagonal tensor components are continuous off the faces perpendicular to their axis -/
theorem continuousAt_Vee (hP : P.Ordered) (h : p ∉ P.closedFaces .e) : ContinuousAt (fun q => Vc .ee q P) p := by
  by_cases hr : p ∈ P.region
  · have hne : ∀ a, (a = P.west ∨ a = P.east) → a - p.1 ≠ 0 := fun a ha h0 => h ⟨hr, by
      have : p.1 = a := by linarith
      change p.1 = P.west ∨ p.1 = P.east
      rwa [this]⟩
    have c : ContinuousAt (fun q => Dv (Kc .ee) q P) p := by
      refine ContinuousAt.Dv fun a b c ha hb hc => ?_
      exact (ContinuousAt.Tk (f := fun q : Pt => a - q.1) (g := fun q : Pt => b - q.2.1) (h := fun q : Pt => c - q.2.2)
        (by fun_prop) (by fun_prop) (by fun_prop) (hne a ha)).neg
    refine c.congr ?_
    have h1 : ContinuousAt (fun q : Pt => P.east - q.1) p := by fun_prop
    filter_upwards [h1.eventually_ne (hne _ (Or.inr rfl))] with q hq
    have : q ∉ P.faceEast := fun hf => hq (by rw [hf.1]; ring)
    simp only [Vc, corr, if_neg this, add_zero]
  · exact (continuousOn_Vtensor hP .e .e).continuousAt ((isClosed_region P).isOpen_compl.mem_nhds hr)

theorem continuousAt_Vdiag (hP : P.Ordered) (a : Axis) (h : p ∉ P.closedFaces a) :
    ContinuousAt (fun q => Vc (tensor a a) q P) p := by
  cases a
  · exact continuousAt_Vee hP h
  · exact continuousAt_swap (c := .nn) .en (continuousAt_Vee (hP.swap .en) fun h' =>
      h ((closedFaces_swap p P .n .en).mp h'))
  · exact continuousAt_swap (c := .uu) .eu (continuousAt_Vee (hP.swap .eu) fun h' =>
      h ((closedFaces_swap p P .u .eu).mp h'))

/-- no vertex is seen from a point off the edges along two axes at once -/
theorem off_edges (h : p ∉ P.edges) (hr : p ∈ P.region) {a b c : ℝ} (ha : a = P.west ∨ a = P.east)
    (hb : b = P.south ∨ b = P.north) (hc : c = P.bottom ∨ c = P.top) :
    ¬(a - p.1 = 0 ∧ b - p.2.1 = 0) ∧ ¬(a - p.1 = 0 ∧ c - p.2.2 = 0) ∧ ¬(b - p.2.1 = 0 ∧ c - p.2.2 = 0) := by
  obtain ⟨h1, h2, h3⟩ := hr
  refine ⟨?_, ?_, ?_⟩ <;> rintro ⟨x, y⟩ <;> apply h
  · have e1 : p.1 = a := by linarith
    have e2 : p.2.1 = b := by linarith
    refine Or.inr ⟨?_, ?_, h3⟩
    · change p.1 = _ ∨ p.1 = _; rwa [e1]
    · change p.2.1 = _ ∨ p.2.1 = _; rwa [e2]
  · have e1 : p.1 = a := by linarith
    have e2 : p.2.2 = c := by linarith
    refine Or.inl (Or.inr ⟨?_, h2, ?_⟩)
    · change p.1 = _ ∨ p.1 = _; rwa [e1]
    · change p.2.2 = _ ∨ p.2.2 = _; rwa [e2]
  · have e1 : p.2.1 = b := by linarith
    have e2 : p.2.2 = c := by linarith
    refine Or.inl (Or.inl ⟨h1, ?_, ?_⟩)
    · change p.2.1 = _ ∨ p.2.1 = _; rwa [e1]
    · change p.2.2 = _ ∨ p.2.2 = _; rwa [e2]

/-- the expressions of the magnetic gradient are continuous on the closed prism off the edges -/
theorem continuousAt_DvK3 (h : p ∉ P.edges) (hr : p ∈ P.region) (t : TComp) :
    ContinuousAt (fun q => Dv (K3 t) q P) p := by
  refine ContinuousAt.Dv fun a b c ha hb hc => ?_
  obtain ⟨n1, n2, n3⟩ := off_edges h hr ha hb hc
  have c1 : ContinuousAt (fun q : Pt => a - q.1) p := by fun_prop
  have c2 : ContinuousAt (fun q : Pt => b - q.2.1) p := by fun_prop
  have c3 : ContinuousAt (fun q : Pt => c - q.2.2) p := by fun_prop
  cases t
  · exact ContinuousAt.Kiii c1 c2 c3 n1 n2
  · exact ContinuousAt.Kiii c2 c3 c1 n3 (by tauto)
  · exact ContinuousAt.Kiii c3 c2 c1 (by tauto) (by tauto)
  · exact ContinuousAt.Kiij c1 c2 c3 n1
  · exact ContinuousAt.Kiij c1 c3 c2 n2
  · exact ContinuousAt.Kiij c2 c1 c3 (by tauto)
  · exact ContinuousAt.Kiij c2 c3 c1 n3
  · exact ContinuousAt.Kiij c3 c1 c2 (by tauto)
  · exact ContinuousAt.Kiij c3 c2 c1 (by tauto)
  · refine continuousAt_const.div (ContinuousAt.rad c1 c2 c3) ?_
    rw [Ne, rad_eq_zero]; tauto

end Choclo
