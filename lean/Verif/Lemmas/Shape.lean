import Verif.Spec.Shape
import Verif.Lemmas.Flux
import Verif.Props.PrismIntegral
import Mathlib.Analysis.Calculus.ParametricIntegral

/-! # Derivatives of volume integrals with respect to the position of a face -/

namespace Choclo

open Real MeasureTheory Set Filter Topology

variable {P : Box}

theorem slice_e (hP : P.Ordered) {f : Pt → ℝ} (hf : IntegrableOn f P.region) :
    IntervalIntegrable (fun t => P.faceIntegral .e t f) volume P.west P.east ∧
      ∫ q in P.region, f q = ∫ t in P.west..P.east, P.faceIntegral .e t f := by
  have hI : Integrable f (((volume : Measure ℝ).restrict (Icc P.west P.east)).prod
      ((volume : Measure (ℝ × ℝ)).restrict (P.cross .e))) := by
    rw [Measure.prod_restrict]; exact hf
  constructor
  · rw [intervalIntegrable_iff_integrableOn_Ioc_of_le hP.1]
    have hL : IntegrableOn (fun t => P.faceIntegral .e t f) (Icc P.west P.east) := hI.integral_prod_left
    exact hL.mono_set Ioc_subset_Icc_self
  · rw [show (volume : Measure Pt) = (volume : Measure ℝ).prod (volume : Measure (ℝ × ℝ)) from rfl]
    have hf' : IntegrableOn f (Icc P.west P.east ×ˢ P.cross .e)
      ((volume : Measure ℝ).prod (volume : Measure (ℝ × ℝ))) := hf
    have : P.region = Icc P.west P.east ×ˢ P.cross .e := rfl
    rw [this, setIntegral_prod _ hf', intervalIntegral.integral_of_le hP.1, integral_Icc_eq_integral_Ioc]
    rfl

/-- Integrating over a prism slice by slice, along any axis. -/
theorem slice (hP : P.Ordered) (a : Axis) {f : Pt → ℝ} (hf : IntegrableOn f P.region) :
    IntervalIntegrable (fun t => P.faceIntegral a t f) volume (P.lo a) (P.hi a) ∧
      ∫ q in P.region, f q = ∫ t in P.lo a..P.hi a, P.faceIntegral a t f := by
  have key : ∀ {Q : Box} (s : Swap), Q.Ordered → IntegrableOn f Q.region →
      IntegrableOn (fun q : Pt => f (q.swap s)) (Q.swap s).region ∧
      ∫ q in Q.region, f q = ∫ q in (Q.swap s).region, f (q.swap s) := by
    intro Q s hQ h
    refine ⟨(integrableOn_swap (Q.swap s) s f).2 (by rwa [Box.swap_swap]), ?_⟩
    rw [integral_swap (Q.swap s) s f, Box.swap_swap]
  cases a with
  | e => exact slice_e hP hf
  | n =>
    obtain ⟨k1, k2⟩ := key .en hP hf
    have h := slice_e (hP.swap .en) k1
    rw [← k2] at h
    exact h
  | u =>
    obtain ⟨k1, k2⟩ := key .nu hP hf
    have l1 := (integrableOn_swap ((P.swap .nu).swap .en) .en (fun q : Pt => f (q.swap .nu))).2 (by rwa [Box.swap_swap])
    have l2 := integral_swap ((P.swap .nu).swap .en) .en (fun q : Pt => f (q.swap .nu))
    rw [Box.swap_swap] at l2
    have h := slice_e ((hP.swap .nu).swap .en) l1
    rw [l2, ← k2] at h
    exact h

theorem Box.cross_moveHi (P : Box) (a : Axis) (t : ℝ) : (P.moveHi a t).cross a = P.cross a := by cases a <;> rfl
theorem Box.cross_moveLo (P : Box) (a : Axis) (t : ℝ) : (P.moveLo a t).cross a = P.cross a := by cases a <;> rfl
theorem Box.lo_moveHi (P : Box) (a : Axis) (t : ℝ) : (P.moveHi a t).lo a = P.lo a := by cases a <;> rfl
theorem Box.hi_moveHi (P : Box) (a : Axis) (t : ℝ) : (P.moveHi a t).hi a = t := by cases a <;> rfl
theorem Box.lo_moveLo (P : Box) (a : Axis) (t : ℝ) : (P.moveLo a t).lo a = t := by cases a <;> rfl
theorem Box.hi_moveLo (P : Box) (a : Axis) (t : ℝ) : (P.moveLo a t).hi a = P.hi a := by cases a <;> rfl
theorem Box.moveHi_hi (P : Box) (a : Axis) : P.moveHi a (P.hi a) = P := by cases a <;> rfl
theorem Box.moveLo_lo (P : Box) (a : Axis) : P.moveLo a (P.lo a) = P := by cases a <;> rfl

theorem Box.Ordered.moveHi (hP : P.Ordered) {a : Axis} {t : ℝ} (h : P.lo a ≤ t) : (P.moveHi a t).Ordered := by
  cases a
  · exact ⟨h, hP.2.1, hP.2.2⟩
  · exact ⟨hP.1, h, hP.2.2⟩
  · exact ⟨hP.1, hP.2.1, h⟩
theorem Box.Ordered.moveLo (hP : P.Ordered) {a : Axis} {t : ℝ} (h : t ≤ P.hi a) : (P.moveLo a t).Ordered := by
  cases a
  · exact ⟨h, hP.2.1, hP.2.2⟩
  · exact ⟨hP.1, h, hP.2.2⟩
  · exact ⟨hP.1, hP.2.1, h⟩

theorem Pt.continuous_onPlane2 (a : Axis) : Continuous fun x : ℝ × ℝ × ℝ => Pt.onPlane a x.1 x.2 := by
  cases a <;> simp only [Pt.onPlane] <;> fun_prop

theorem continuousAt_faceIntegral {a : Axis} {t₀ : ℝ} {p : Pt} (hp : p ∉ P.sheet a t₀) {f : Pt → ℝ}
    (hf : ContinuousOn f {q | q ≠ p}) : ContinuousAt (fun t => P.faceIntegral a t f) t₀ := by
  have hK := isCompact_cross P a
  have hU : IsOpen {x : ℝ × ℝ × ℝ | Pt.onPlane a x.1 x.2 ≠ p} :=
    isOpen_ne.preimage (Pt.continuous_onPlane2 a)
  have hg : ContinuousOn (fun x : ℝ × ℝ × ℝ => f (Pt.onPlane a x.1 x.2)) {x | Pt.onPlane a x.1 x.2 ≠ p} :=
    hf.comp (Pt.continuous_onPlane2 a).continuousOn fun x hx => hx
  obtain ⟨u, v, hu, hv, h1, h2, huv⟩ := generalized_tube_lemma (isCompact_singleton (x := t₀)) hK hU (by
    rintro ⟨t, s⟩ ⟨ht, hs⟩ h
    rw [mem_singleton_iff] at ht
    subst ht
    exact hp ⟨s, hs, h⟩)
  obtain ⟨N, hN, hNu, hNc⟩ := local_compact_nhds (hu.mem_nhds (h1 rfl))
  obtain ⟨C, hC⟩ := (hNc.prod hK).exists_bound_of_continuousOn
    (hg.mono fun x hx => huv ⟨hNu hx.1, h2 hx.2⟩)
  have hslice : ∀ t ∈ N, ContinuousOn (fun s => f (Pt.onPlane a t s)) (P.cross a) := fun t ht =>
    hg.comp (by fun_prop : Continuous fun s : ℝ × ℝ => (t, s)).continuousOn fun s hs => huv ⟨hNu ht, h2 hs⟩
  refine continuousAt_of_dominated (bound := fun _ => C) ?_ ?_ ?_ ?_
  · filter_upwards [hN] with t ht
    exact (hslice t ht).aestronglyMeasurable (measurableSet_cross P a)
  · filter_upwards [hN] with t ht
    rw [ae_restrict_iff' (measurableSet_cross P a)]
    exact Eventually.of_forall fun s hs => hC (t, s) ⟨ht, hs⟩
  · exact (integrableOn_const (hs := hK.measure_lt_top.ne))
  · rw [ae_restrict_iff' (measurableSet_cross P a)]
    refine Eventually.of_forall fun s hs => ?_
    have := hg.continuousAt (x := (t₀, s)) (hU.mem_nhds (huv ⟨h1 rfl, h2 hs⟩))
    exact this.comp (f := fun t : ℝ => (t, s)) (by fun_prop)

/-- Moving the high face. -/
theorem hasDerivAt_moveHi (hP : P.Ordered) {a : Axis} (hlt : P.lo a < P.hi a) {p : Pt} (hp : p ∉ P.sheet a (P.hi a))
    {f : Pt → ℝ} (hf : ContinuousOn f {q | q ≠ p}) {t₁ : ℝ} (ht : P.hi a < t₁)
    (hi : IntegrableOn f (P.moveHi a t₁).region) :
    HasDerivAt (fun t => ∫ q in (P.moveHi a t).region, f q) (P.faceIntegral a (P.hi a) f) (P.hi a) := by
  have hface : ∀ t x, (P.moveHi a t).faceIntegral a x f = P.faceIntegral a x f := fun t x => by
    unfold Box.faceIntegral; rw [Box.cross_moveHi]
  have hsub : ∀ t ≤ t₁, (P.moveHi a t).region ⊆ (P.moveHi a t₁).region := by
    intro t h q hq
    cases a
    · exact ⟨⟨hq.1.1, hq.1.2.trans h⟩, hq.2⟩
    · exact ⟨hq.1, ⟨hq.2.1.1, hq.2.1.2.trans h⟩, hq.2.2⟩
    · exact ⟨hq.1, hq.2.1, hq.2.2.1, hq.2.2.2.trans h⟩
  have hs : ∀ t, P.lo a ≤ t → t ≤ t₁ →
      IntervalIntegrable (fun x => P.faceIntegral a x f) volume (P.lo a) t ∧
      ∫ q in (P.moveHi a t).region, f q = ∫ x in P.lo a..t, P.faceIntegral a x f := by
    intro t h1 h2
    have := slice (hP.moveHi h1) a (hi.mono_set (hsub t h2))
    simpa only [Box.lo_moveHi, Box.hi_moveHi, hface] using this
  have hd := intervalIntegral.integral_hasDerivAt_right (hs _ hlt.le ht.le).1 ?_ (continuousAt_faceIntegral hp hf)
  · refine hd.congr_of_eventuallyEq ?_
    filter_upwards [eventually_gt_nhds hlt, eventually_lt_nhds ht] with t h1 h2
    exact (hs t h1.le h2.le).2
  · have h := (hs t₁ (hlt.le.trans ht.le) le_rfl).1
    rw [intervalIntegrable_iff_integrableOn_Ioc_of_le (hlt.le.trans ht.le)] at h
    exact ⟨_, Ioc_mem_nhds hlt ht, h.aestronglyMeasurable⟩

/-- Moving the low face. -/
theorem hasDerivAt_moveLo (hP : P.Ordered) {a : Axis} (hlt : P.lo a < P.hi a) {p : Pt} (hp : p ∉ P.sheet a (P.lo a))
    {f : Pt → ℝ} (hf : ContinuousOn f {q | q ≠ p}) {t₁ : ℝ} (ht : t₁ < P.lo a)
    (hi : IntegrableOn f (P.moveLo a t₁).region) :
    HasDerivAt (fun t => ∫ q in (P.moveLo a t).region, f q) (-P.faceIntegral a (P.lo a) f) (P.lo a) := by
  have hface : ∀ t x, (P.moveLo a t).faceIntegral a x f = P.faceIntegral a x f := fun t x => by
    unfold Box.faceIntegral; rw [Box.cross_moveLo]
  have hsub : ∀ t, t₁ ≤ t → (P.moveLo a t).region ⊆ (P.moveLo a t₁).region := by
    intro t h q hq
    cases a
    · exact ⟨⟨h.trans hq.1.1, hq.1.2⟩, hq.2⟩
    · exact ⟨hq.1, ⟨h.trans hq.2.1.1, hq.2.1.2⟩, hq.2.2⟩
    · exact ⟨hq.1, hq.2.1, h.trans hq.2.2.1, hq.2.2.2⟩
  have hs : ∀ t, t ≤ P.hi a → t₁ ≤ t →
      IntervalIntegrable (fun x => P.faceIntegral a x f) volume t (P.hi a) ∧
      ∫ q in (P.moveLo a t).region, f q = ∫ x in t..P.hi a, P.faceIntegral a x f := by
    intro t h1 h2
    have := slice (hP.moveLo h1) a (hi.mono_set (hsub t h2))
    simpa only [Box.lo_moveLo, Box.hi_moveLo, hface] using this
  have hd := intervalIntegral.integral_hasDerivAt_left (hs _ hlt.le ht.le).1 ?_ (continuousAt_faceIntegral hp hf)
  · refine hd.congr_of_eventuallyEq ?_
    filter_upwards [eventually_lt_nhds hlt, eventually_gt_nhds ht] with t h1 h2
    exact (hs t h1.le h2.le).2
  · have h := (hs t₁ (ht.le.trans hlt.le) le_rfl).1
    rw [intervalIntegrable_iff_integrableOn_Ioc_of_le (ht.le.trans hlt.le)] at h
    exact ⟨_, Ioc_mem_nhds ht hlt, h.aestronglyMeasurable⟩

/-- A point outside a closed prism stays outside when a face moves a little. -/
theorem moveHi_exterior {a : Axis} {p : Pt} (h : p ∉ P.region) : ∀ᶠ t in 𝓝 (P.hi a), p ∉ (P.moveHi a t).region := by
  have hc : IsClosed {t | p ∈ (P.moveHi a t).region} := by
    cases a <;> simp only [Box.moveHi, Box.region, mem_prod, mem_Icc] <;>
      exact ((isClosed_const.and (isClosed_le (by fun_prop) (by fun_prop))).and
        ((isClosed_const.and (isClosed_le (by fun_prop) (by fun_prop))).and
          (isClosed_const.and (isClosed_le (by fun_prop) (by fun_prop)))))
  have := hc.isOpen_compl.mem_nhds (x := P.hi a) (by
    rw [mem_compl_iff, mem_ofPred_eq, Box.moveHi_hi]; exact h)
  exact this

theorem moveLo_exterior {a : Axis} {p : Pt} (h : p ∉ P.region) : ∀ᶠ t in 𝓝 (P.lo a), p ∉ (P.moveLo a t).region := by
  have hc : IsClosed {t | p ∈ (P.moveLo a t).region} := by
    cases a <;> simp only [Box.moveLo, Box.region, mem_prod, mem_Icc] <;>
      exact (((isClosed_le (by fun_prop) (by fun_prop)).and isClosed_const).and
        (((isClosed_le (by fun_prop) (by fun_prop)).and isClosed_const).and
          ((isClosed_le (by fun_prop) (by fun_prop)).and isClosed_const)))
  have := hc.isOpen_compl.mem_nhds (x := P.lo a) (by
    rw [mem_compl_iff, mem_ofPred_eq, Box.moveLo_lo]; exact h)
  exact this

end Choclo
