import Verif.Lemmas.Integral2
import Verif.Lemmas.MagCalc2
import Verif.Props.Point
import Mathlib.Analysis.Calculus.ParametricIntegral

/-! # Differentiation under the integral sign at exterior points -/

namespace Choclo

open Real Set MeasureTheory Filter Topology

theorem continuousAt_kp (c : KComp) {x y z : ℝ} (h : rad x y z ≠ 0) :
    ContinuousAt (fun v : Pt => kp c v.1 v.2.1 v.2.2) (x, y, z) := by
  have hr : ContinuousAt (fun v : Pt => rad v.1 v.2.1 v.2.2) (x, y, z) := continuous_rad.continuousAt
  have hp : ∀ n : ℕ, (fun v : Pt => rad v.1 v.2.1 v.2.2) (x, y, z) ^ n ≠ 0 := fun n => pow_ne_zero n h
  have e1 : ContinuousAt (fun v : Pt => v.1) (x, y, z) := by fun_prop
  have e2 : ContinuousAt (fun v : Pt => v.2.1) (x, y, z) := by fun_prop
  have e3 : ContinuousAt (fun v : Pt => v.2.2) (x, y, z) := by fun_prop
  cases c <;> simp only [kp] <;> fun_prop (disch := exact hp _)

theorem continuousOn_kpp (c : KComp) :
    ContinuousOn (fun w : Pt × Pt => kpp c w.1 w.2) {w | w.1 ≠ w.2} := by
  rintro ⟨p, q⟩ hw
  have hw' : p ≠ q := hw
  apply ContinuousAt.continuousWithinAt
  have h := continuousAt_kp c (rad_ne hw')
  have hd : ContinuousAt (fun w : Pt × Pt => ((w.1.e - w.2.e, w.1.n - w.2.n, w.1.u - w.2.u) : Pt)) (p, q) := by
    fun_prop
  have := ContinuousAt.comp_of_eq (g := fun v : Pt => kp c v.1 v.2.1 v.2.2) h hd rfl
  simp only [Function.comp_def] at this
  simp only [kpp]
  exact this

theorem isCompact_region (P : Box) : IsCompact P.region :=
  isCompact_Icc.prod (isCompact_Icc.prod isCompact_Icc)

theorem measurableSet_region (P : Box) : MeasurableSet P.region := (isCompact_region P).measurableSet

variable {P : Box}

/-- outside the prism every kernel is integrable over it -/
theorem integrableOn_kpp (c : KComp) {p : Pt} (h : p ∉ P.region) : IntegrableOn (kpp c p) P.region := by
  refine ContinuousOn.integrableOn_compact (isCompact_region P) ?_
  exact (continuousOn_kpp c).comp (f := fun q : Pt => (p, q)) (by fun_prop)
    (fun q hq heq => h (by
      have : p = q := heq
      rw [this]; exact hq))

theorem hasDerivAt_integral_kpp {c c' : KComp} {a : Axis} (hc : c.Succ c' a) {p : Pt} (h : p ∉ P.region) :
    HasDerivAt (fun t => ∫ q in P.region, kpp c (p.set a t) q) (∫ q in P.region, kpp c' p q)
      (p.coord a) := by
  obtain ⟨ε, hε, hball⟩ := Metric.mem_nhds_iff.1 (eventually_exterior (P := P) a h)
  set s := Metric.closedBall (p.coord a) (ε / 2) with hs
  have hsm : s ∈ 𝓝 (p.coord a) := Metric.closedBall_mem_nhds _ (by linarith)
  have hsx : ∀ t ∈ s, p.set a t ∉ P.region := fun t ht => hball (by
    rw [hs, Metric.mem_closedBall] at ht
    rw [Metric.mem_ball]; linarith)
  have hne : ∀ t ∈ s, ∀ q ∈ P.region, p.set a t ≠ q := fun t ht q hq he => hsx t ht (he ▸ hq)
  have hset := Pt.continuous_set p a
  have hcont : ContinuousOn (fun w : ℝ × Pt => kpp c' (p.set a w.1) w.2) (s ×ˢ P.region) :=
    (continuousOn_kpp c').comp (f := fun w : ℝ × Pt => (p.set a w.1, w.2))
      ((by fun_prop : Continuous fun w : ℝ × Pt => (p.set a w.1, w.2)).continuousOn)
      (fun w hw => hne _ hw.1 _ hw.2)
  obtain ⟨C, hC⟩ := ((isCompact_closedBall _ _).prod (isCompact_region P)).exists_bound_of_continuousOn hcont
  have hpp : p.set a (p.coord a) = p := Pt.set_coord p a
  have key := hasDerivAt_integral_of_dominated_loc_of_deriv_le
    (μ := volume.restrict P.region) (F := fun t q => kpp c (p.set a t) q)
    (F' := fun t q => kpp c' (p.set a t) q) (bound := fun _ => C) (x₀ := p.coord a) (s := s) hsm
    (by
      filter_upwards [hsm] with t ht
      exact (integrableOn_kpp c (hsx t ht)).aestronglyMeasurable)
    (by rw [hpp]; exact integrableOn_kpp c h)
    (by
      simp only [hpp]
      exact (integrableOn_kpp c' h).aestronglyMeasurable)
    (by
      filter_upwards [ae_restrict_mem (measurableSet_region P)] with q hq t ht
      exact hC (t, q) ⟨ht, hq⟩)
    (integrableOn_const (by exact (isCompact_region P).measure_lt_top.ne) (by simp))
    (by
      filter_upwards [ae_restrict_mem (measurableSet_region P)] with q hq t ht
      have := kp_deriv c c' a hc (hne t ht q hq)
      have e : (p.set a t).coord a = t := by cases a <;> rfl
      have e2 : ∀ t', (p.set a t).set a t' = p.set a t' := fun t' => by cases a <;> rfl
      rw [e] at this
      simp only [e2] at this
      exact this)
  have h2 := key.2
  simp only [hpp] at h2
  exact h2

end Choclo
