import Verif.Lemmas.FarField
import Verif.Lemmas.Continuity
import Mathlib.Analysis.Convolution

/-! # Double integrals of the kernels over two prisms, which may overlap -/

namespace Choclo

open Real Set MeasureTheory Filter Topology

variable {P Q : Box}

/-- all differences of points of two prisms -/
def Box.diff (Q P : Box) : Box :=
  ⟨Q.west - P.east, Q.east - P.west, Q.south - P.north, Q.north - P.south, Q.bottom - P.top, Q.top - P.bottom⟩

theorem integrableOn_kp_low (hP : P.Ordered) (c : GComp) (hc : c.letters ≤ 1) :
    IntegrableOn (fun v : Pt => kp c.toK v.e v.n v.u) P.region := by
  have h := (integral_low (P := ⟨-P.east, -P.west, -P.north, -P.south, -P.top, -P.bottom⟩)
    ⟨by simpa using hP.1, by simpa using hP.2.1, by simpa using hP.2.2⟩ c hc (0, 0, 0)).1
  have m := measurePreserving_refl (0 : Pt)
  have he : MeasurableEmbedding (fun q : Pt => 0 - q) := (MeasurableEquiv.subLeft (0 : Pt)).measurableEmbedding
  have := (m.integrableOn_comp_preimage he (f := kpp c.toK (0, 0, 0))).2 h
  have e1 : (fun q : Pt => 0 - q) ⁻¹' (Box.region ⟨-P.east, -P.west, -P.north, -P.south, -P.top, -P.bottom⟩) =
      P.region := by
    ext q
    simp only [Box.region, mem_preimage, mem_prod, mem_Icc, Prod.fst_sub, Prod.snd_sub, Prod.fst_zero, Prod.snd_zero]
    constructor <;> rintro ⟨⟨h1, h2⟩, ⟨h3, h4⟩, h5, h6⟩ <;>
      exact ⟨⟨by linarith, by linarith⟩, ⟨by linarith, by linarith⟩, by linarith, by linarith⟩
  rw [e1] at this
  refine this.congr_fun (fun q _ => ?_) (measurableSet_region P)
  simp [kpp, Function.comp, Pt.e, Pt.n, Pt.u]

/-- the kernels of potential and acceleration are integrable over pairs of points of two prisms -/
theorem integrable_pair (hQ : Q.Ordered) (hP : P.Ordered) (c : GComp) (hc : c.letters ≤ 1) :
    Integrable (fun w : Pt × Pt => kpp c.toK w.1 w.2)
      ((volume.restrict Q.region).prod (volume.restrict P.region)) := by
  have hD : (Q.diff P).Ordered := ⟨by simp only [Box.diff]; linarith [hQ.1, hP.1],
    by simp only [Box.diff]; linarith [hQ.2.1, hP.2.1], by simp only [Box.diff]; linarith [hQ.2.2, hP.2.2]⟩
  have hg : Integrable ((Q.diff P).region.indicator fun v : Pt => kp c.toK v.e v.n v.u) :=
    (integrable_indicator_iff (measurableSet_region _)).2 (integrableOn_kp_low hD c hc)
  have hf : Integrable (P.region.indicator fun _ : Pt => (1 : ℝ)) :=
    (integrable_indicator_iff (measurableSet_region _)).2
      (integrableOn_const (isCompact_region P).measure_lt_top.ne)
  have h := hf.convolution_integrand (ContinuousLinearMap.mul ℝ ℝ) hg
  rw [Measure.prod_restrict]
  have h' : IntegrableOn _ (Q.region ×ˢ P.region) _ := h.integrableOn
  refine h'.congr_fun (fun w hw => ?_) ((measurableSet_region Q).prod (measurableSet_region P))
  obtain ⟨⟨⟨a1, a2⟩, ⟨a3, a4⟩, a5, a6⟩, hp⟩ := hw
  have hp' := hp
  obtain ⟨⟨b1, b2⟩, ⟨b3, b4⟩, b5, b6⟩ := hp'
  have hm : w.1 - w.2 ∈ (Q.diff P).region :=
    ⟨⟨by simp only [Box.diff, Prod.fst_sub]; linarith, by simp only [Box.diff, Prod.fst_sub]; linarith⟩,
      ⟨by simp only [Box.diff, Prod.fst_sub, Prod.snd_sub]; linarith,
        by simp only [Box.diff, Prod.fst_sub, Prod.snd_sub]; linarith⟩,
      by simp only [Box.diff, Prod.snd_sub]; linarith, by simp only [Box.diff, Prod.snd_sub]; linarith⟩
  simp only [ContinuousLinearMap.mul_apply', indicator_of_mem hp, indicator_of_mem hm, one_mul]
  rfl

theorem bounded_coord (P : Box) (a : Axis) : ∃ C, ∀ q ∈ P.region, ‖q.coord a‖ ≤ C := by
  have : ContinuousOn (fun q : Pt => q.coord a) P.region := by
    cases a <;> exact Continuous.continuousOn (by simp only [Pt.coord]; fun_prop)
  exact (isCompact_region P).exists_bound_of_continuousOn this

theorem continuous_coord (a : Axis) : Continuous fun q : Pt => q.coord a := by
  cases a <;> simp only [Pt.coord] <;> fun_prop

theorem integrable_pair_mul {φ : Pt × Pt → ℝ} (hφ : Continuous φ) {k : Pt × Pt → ℝ}
    (h : Integrable k ((volume.restrict Q.region).prod (volume.restrict P.region))) :
    Integrable (fun w => φ w * k w) ((volume.restrict Q.region).prod (volume.restrict P.region)) := by
  obtain ⟨C, hC⟩ := ((isCompact_region Q).prod (isCompact_region P)).exists_bound_of_continuousOn hφ.continuousOn
  refine h.bdd_mul (c := C) hφ.aestronglyMeasurable ?_
  rw [Measure.prod_restrict]
  exact (ae_restrict_mem ((measurableSet_region Q).prod (measurableSet_region P))).mono hC

theorem kp1_neg (a : Axis) (x y z : ℝ) : kp a.acc.toK (-x) (-y) (-z) = -kp a.acc.toK x y z := by
  cases a <;> simp only [Axis.acc, GComp.toK, kp, rad_neg] <;> ring

theorem kpp_acc_exchange (a : Axis) (p q : Pt) : kpp a.acc.toK q p = -kpp a.acc.toK p q := by
  unfold kpp
  rw [← kp1_neg]; congr 1 <;> ring

theorem kpp_pot_exchange (p q : Pt) : kpp .pot q p = kpp .pot p q := by
  rw [kpp_pot, kpp_pot, ← rad_neg]; congr 2 <;> ring

/-- central forces -/
theorem kpp_central (a b : Axis) (p q : Pt) :
    (p.coord a - q.coord a) * kpp b.acc.toK p q = (p.coord b - q.coord b) * kpp a.acc.toK p q := by
  have e : ∀ c : Axis, kpp c.acc.toK p q = (-1) * ((p.coord c - q.coord c) *
      (1 / rad (p.e - q.e) (p.n - q.n) (p.u - q.u) ^ 3)) := fun c => by
    have := kp_kern1 c (p.e - q.e, p.n - q.n, p.u - q.u)
    cases c <;> exact this
  rw [e, e]; ring

end Choclo
