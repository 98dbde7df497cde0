import Verif.Lemmas.Calc
import Verif.Lemmas.PrismEval
import Mathlib.MeasureTheory.Constructions.HaarToSphere
import Mathlib.MeasureTheory.Integral.Prod
import Mathlib.MeasureTheory.Integral.DivergenceTheorem
import Mathlib.MeasureTheory.Measure.Haar.NormedSpace
import Mathlib.MeasureTheory.Measure.Lebesgue.EqHaar

/-! # Triple integrals over boxes -/

namespace Choclo

open Real Set MeasureTheory Filter Topology

/-- a box given by its six boundaries -/
abbrev rbox (x1 x2 y1 y2 z1 z2 : ℝ) : Set Pt := Icc x1 x2 ×ˢ Icc y1 y2 ×ˢ Icc z1 z2

theorem abs_le_rad1 (x y z : ℝ) : |x| ≤ rad x y z := by
  unfold rad
  apply Real.abs_le_sqrt
  nlinarith [sq_nonneg y, sq_nonneg z]

theorem abs_le_rad2 (x y z : ℝ) : |y| ≤ rad x y z := by
  unfold rad
  apply Real.abs_le_sqrt
  nlinarith [sq_nonneg x, sq_nonneg z]

theorem abs_le_rad3 (x y z : ℝ) : |z| ≤ rad x y z := by
  unfold rad
  apply Real.abs_le_sqrt
  nlinarith [sq_nonneg y, sq_nonneg x]

theorem norm_le_rad (v : Pt) : ‖v‖ ≤ rad v.1 v.2.1 v.2.2 := by
  rw [Prod.norm_def, Prod.norm_def]
  exact max_le (abs_le_rad1 _ _ _) (max_le (abs_le_rad2 _ _ _) (abs_le_rad3 _ _ _))

theorem rad_nonneg' (x y z : ℝ) : 0 ≤ rad x y z := Real.sqrt_nonneg _

theorem measurable_rad3 : Measurable fun v : Pt => rad v.1 v.2.1 v.2.2 := continuous_rad.measurable

instance haarPt : (volume : Measure Pt).IsAddHaarMeasure :=
  haveI : ((volume : Measure ℝ).prod (volume : Measure ℝ)).IsAddHaarMeasure :=
    Measure.prod.instIsAddHaarMeasure _ _
  haveI : (volume : Measure (ℝ × ℝ)).IsAddHaarMeasure := this
  (Measure.prod.instIsAddHaarMeasure (volume : Measure ℝ) (volume : Measure (ℝ × ℝ)) :
    ((volume : Measure ℝ).prod (volume : Measure (ℝ × ℝ))).IsAddHaarMeasure)

theorem integrableOn_inv_norm_sq (R : ℝ) :
    IntegrableOn (fun v : Pt => 1 / ‖v‖ ^ 2) (Metric.ball 0 R) := by
  have h := (integrableOn_fun_norm_addHaar (E := Pt) (volume : Measure Pt)
    (f := fun y : ℝ => 1 / y ^ 2) (r := R)).2
  apply h
  have hd : Module.finrank ℝ Pt = 3 := by
    simp [Pt]
  rw [hd]
  have : IntegrableOn (fun _ : ℝ => (1 : ℝ)) (Ioo 0 R) := by
    apply integrableOn_const <;> simp
  refine this.congr_fun ?_ measurableSet_Ioo
  intro y hy
  have hy : y ≠ 0 := hy.1.ne'
  simp only [smul_eq_mul]
  field_simp

theorem isBounded_rbox (x1 x2 y1 y2 z1 z2 : ℝ) : Bornology.IsBounded (rbox x1 x2 y1 y2 z1 z2) :=
  (Metric.isBounded_Icc _ _).prod ((Metric.isBounded_Icc _ _).prod (Metric.isBounded_Icc _ _))

theorem isCompact_rbox (x1 x2 y1 y2 z1 z2 : ℝ) : IsCompact (rbox x1 x2 y1 y2 z1 z2) :=
  isCompact_Icc.prod (isCompact_Icc.prod isCompact_Icc)

theorem measurableSet_rbox (x1 x2 y1 y2 z1 z2 : ℝ) : MeasurableSet (rbox x1 x2 y1 y2 z1 z2) :=
  (isCompact_rbox _ _ _ _ _ _).measurableSet

/-- functions of order `1/r²` are integrable on boxes -/
theorem integrableOn_of_le_inv_sq {f : Pt → ℝ} (hm : Measurable f) (C : ℝ) {s : Set Pt}
    (hs : Bornology.IsBounded s)
    (hf : ∀ v ∈ s, v ≠ 0 → |f v| ≤ C * (1 / (rad v.1 v.2.1 v.2.2) ^ 2)) (hC : 0 ≤ C) :
    IntegrableOn f s := by
  obtain ⟨R, hR⟩ := hs.subset_ball 0
  have h1 := ((integrableOn_inv_norm_sq R).mono_set hR).const_mul C
  have h0 : ∀ᵐ v ∂(volume.restrict s : Measure Pt), v ≠ 0 := by
    apply ae_restrict_of_ae
    rw [ae_iff]
    simp only [ne_eq, not_not]
    exact measure_singleton 0
  have hmem : ∀ᵐ v ∂(volume.restrict s : Measure Pt), ‖f v‖ ≤ C * (1 / ‖v‖ ^ 2) := by
    have : ∀ v ∈ s, v ≠ 0 → ‖f v‖ ≤ C * (1 / ‖v‖ ^ 2) := by
      intro v hv h0
      refine (hf v hv h0).trans ?_
      have hpos : 0 < ‖v‖ := norm_pos_iff.2 h0
      have := norm_le_rad v
      gcongr
    have hset : {v : Pt | ¬ (v ∈ s → v ≠ 0 → ‖f v‖ ≤ C * (1 / ‖v‖ ^ 2))} = ∅ := by
      ext v
      simp only [mem_ofPred_eq, mem_empty_iff_false, iff_false, not_not]
      exact this v
    -- a.e. on the restriction, without measurability of `s`
    have hT : MeasurableSet {v : Pt | v ≠ 0 → ‖f v‖ ≤ C * (1 / ‖v‖ ^ 2)} := by
      have a : MeasurableSet {v : Pt | v = 0} := measurableSet_singleton 0
      have b : MeasurableSet {v : Pt | ‖f v‖ ≤ C * (1 / ‖v‖ ^ 2)} :=
        measurableSet_le hm.norm (by fun_prop)
      have : {v : Pt | v ≠ 0 → ‖f v‖ ≤ C * (1 / ‖v‖ ^ 2)} =
          {v : Pt | v = 0} ∪ {v : Pt | ‖f v‖ ≤ C * (1 / ‖v‖ ^ 2)} := by
        ext v
        simp only [mem_ofPred_eq, mem_union]
        tauto
      rw [this]
      exact a.union b
    have h2 : ∀ᵐ v ∂(volume.restrict s : Measure Pt), v ≠ 0 → ‖f v‖ ≤ C * (1 / ‖v‖ ^ 2) := by
      rw [ae_restrict_iff hT]
      exact Eventually.of_forall fun v hv => this v hv
    filter_upwards [h2, h0] with v h2 h0 using h2 h0
  exact Integrable.mono' h1 hm.aestronglyMeasurable hmem

/-- The integral over a box as an iterated integral. -/
theorem integral_rbox {x1 x2 y1 y2 z1 z2 : ℝ} (hx : x1 ≤ x2) (hy : y1 ≤ y2) (hz : z1 ≤ z2)
    {f : ℝ → ℝ → ℝ → ℝ}
    (hf : IntegrableOn (fun v : Pt => f v.1 v.2.1 v.2.2) (rbox x1 x2 y1 y2 z1 z2)) :
    ∫ v in rbox x1 x2 y1 y2 z1 z2, f v.1 v.2.1 v.2.2 =
      ∫ x in x1..x2, ∫ y in y1..y2, ∫ z in z1..z2, f x y z := by
  have hf' : IntegrableOn (fun v : Pt => f v.1 v.2.1 v.2.2) (rbox x1 x2 y1 y2 z1 z2)
    ((volume : Measure ℝ).prod (volume : Measure (ℝ × ℝ))) := hf
  rw [show (volume : Measure Pt) = (volume : Measure ℝ).prod (volume : Measure (ℝ × ℝ)) from rfl,
    setIntegral_prod _ hf', intervalIntegral.integral_of_le hx, integral_Icc_eq_integral_Ioc]
  have hI : Integrable (fun v : Pt => f v.1 v.2.1 v.2.2)
      (((volume : Measure ℝ).restrict (Icc x1 x2)).prod
        ((volume : Measure (ℝ × ℝ)).restrict (Icc y1 y2 ×ˢ Icc z1 z2))) := by
    rw [Measure.prod_restrict]; exact hf'
  have hae := hI.prod_right_ae
  have hae' : ∀ᵐ x ∂((volume : Measure ℝ).restrict (Ioc x1 x2)), IntegrableOn
      (fun w : ℝ × ℝ => f x w.1 w.2) (Icc y1 y2 ×ˢ Icc z1 z2)
      ((volume : Measure ℝ).prod (volume : Measure ℝ)) :=
    ae_mono (Measure.restrict_mono Ioc_subset_Icc_self le_rfl) hae
  refine integral_congr_ae ?_
  filter_upwards [hae'] with x hx'
  rw [show (volume : Measure (ℝ × ℝ)) = (volume : Measure ℝ).prod (volume : Measure ℝ) from rfl,
    setIntegral_prod _ hx', intervalIntegral.integral_of_le hy, integral_Icc_eq_integral_Ioc]
  refine integral_congr_ae (Eventually.of_forall fun y => ?_)
  simp only
  rw [intervalIntegral.integral_of_le hz, integral_Icc_eq_integral_Ioc]

/-- Three applications of the fundamental theorem of calculus: the innermost and the middle one are
needed off the coordinate plane only. -/
theorem triple_integral {x1 x2 y1 y2 z1 z2 : ℝ} (hx : x1 ≤ x2) (hy : y1 ≤ y2) (hz : z1 ≤ z2)
    {f g h k : ℝ → ℝ → ℝ → ℝ}
    (hf : IntegrableOn (fun v : Pt => f v.1 v.2.1 v.2.2) (rbox x1 x2 y1 y2 z1 z2))
    (h1 : ∀ x ∈ Icc x1 x2, x ≠ 0 → ∀ y ∈ Icc y1 y2,
      ∫ z in z1..z2, f x y z = g x y z2 - g x y z1)
    (h2 : ∀ x ∈ Icc x1 x2, x ≠ 0 → ∫ y in y1..y2, (g x y z2 - g x y z1) =
      (h x y2 z2 - h x y2 z1) - (h x y1 z2 - h x y1 z1))
    (h3 : IntervalIntegrable
        (fun x => (h x y2 z2 - h x y2 z1) - (h x y1 z2 - h x y1 z1)) volume x1 x2 →
      ∫ x in x1..x2, ((h x y2 z2 - h x y2 z1) - (h x y1 z2 - h x y1 z1)) =
        D3 k x1 x2 y1 y2 z1 z2) :
    ∫ v in rbox x1 x2 y1 y2 z1 z2, f v.1 v.2.1 v.2.2 = D3 k x1 x2 y1 y2 z1 z2 := by
  have key : ∀ x ∈ Icc x1 x2, x ≠ 0 → ∫ y in y1..y2, ∫ z in z1..z2, f x y z =
      (h x y2 z2 - h x y2 z1) - (h x y1 z2 - h x y1 z1) := by
    intro x hxm hx0
    rw [← h2 x hxm hx0]
    refine intervalIntegral.integral_congr fun y hym => ?_
    rw [uIcc_of_le hy] at hym
    exact h1 x hxm hx0 y hym
  have h0 : ∀ᵐ x : ℝ ∂volume, x ≠ 0 := by
    rw [ae_iff]; simp
  have hae : ∀ᵐ x : ℝ ∂((volume : Measure ℝ).restrict (Ioc x1 x2)),
      ∫ y in y1..y2, ∫ z in z1..z2, f x y z =
      (h x y2 z2 - h x y2 z1) - (h x y1 z2 - h x y1 z1) := by
    rw [ae_restrict_iff' measurableSet_Ioc]
    filter_upwards [h0] with x hx0 hxm using key x (Ioc_subset_Icc_self hxm) hx0
  rw [integral_rbox hx hy hz hf, ← h3]
  · rw [intervalIntegral.integral_of_le hx, intervalIntegral.integral_of_le hx]
    exact integral_congr_ae hae
  · -- integrability of the last integrand comes from Fubini
    rw [intervalIntegrable_iff_integrableOn_Ioc_of_le hx]
    have hI : Integrable (fun v : Pt => f v.1 v.2.1 v.2.2)
        (((volume : Measure ℝ).restrict (Icc x1 x2)).prod
          ((volume : Measure (ℝ × ℝ)).restrict (Icc y1 y2 ×ˢ Icc z1 z2))) := by
      rw [Measure.prod_restrict]; exact hf
    have hL := hI.integral_prod_left
    have hL' : IntegrableOn (fun x => ∫ w in Icc y1 y2 ×ˢ Icc z1 z2, f x w.1 w.2) (Ioc x1 x2) :=
      IntegrableOn.mono_set (t := Icc x1 x2) hL Ioc_subset_Icc_self
    refine hL'.congr ?_
    have hae2 := hI.prod_right_ae
    have hae' : ∀ᵐ x ∂((volume : Measure ℝ).restrict (Ioc x1 x2)), IntegrableOn
        (fun w : ℝ × ℝ => f x w.1 w.2) (Icc y1 y2 ×ˢ Icc z1 z2)
        ((volume : Measure ℝ).prod (volume : Measure ℝ)) :=
      ae_mono (Measure.restrict_mono Ioc_subset_Icc_self le_rfl) hae2
    filter_upwards [hae, hae'] with x hx1 hx2
    rw [← hx1, show (volume : Measure (ℝ × ℝ)) = (volume : Measure ℝ).prod (volume : Measure ℝ)
      from rfl, setIntegral_prod _ hx2, intervalIntegral.integral_of_le hy,
      integral_Icc_eq_integral_Ioc]
    refine integral_congr_ae (Eventually.of_forall fun y => ?_)
    simp only
    rw [intervalIntegral.integral_of_le hz, integral_Icc_eq_integral_Ioc]

/-! ### Potential -/

theorem integrableOn_inv_rad (x1 x2 y1 y2 z1 z2 : ℝ) :
    IntegrableOn (fun v : Pt => 1 / rad v.1 v.2.1 v.2.2) (rbox x1 x2 y1 y2 z1 z2) := by
  obtain ⟨R, hR⟩ := (isBounded_rbox x1 x2 y1 y2 z1 z2).subset_ball 0
  have hb : ∃ C : ℝ, 0 ≤ C ∧ ∀ v ∈ rbox x1 x2 y1 y2 z1 z2, rad v.1 v.2.1 v.2.2 ≤ C := by
    obtain ⟨C, hC⟩ := (isCompact_rbox x1 x2 y1 y2 z1 z2).bddAbove_image
      (continuous_rad.continuousOn)
    refine ⟨max C 0, le_max_right _ _, fun v hv => le_trans ?_ (le_max_left _ _)⟩
    exact hC (mem_image_of_mem _ hv)
  obtain ⟨C, hC0, hC⟩ := hb
  refine integrableOn_of_le_inv_sq (measurable_rad3.const_div 1) C (isBounded_rbox _ _ _ _ _ _) ?_ hC0
  intro v hv h0
  have hpos : 0 < rad v.1 v.2.1 v.2.2 := lt_of_lt_of_le (norm_pos_iff.2 h0) (norm_le_rad v)
  rw [abs_of_pos (by positivity), div_le_iff₀ hpos]
  have := hC v hv
  rw [mul_assoc, div_mul_eq_mul_div, one_mul, sq, div_mul_cancel_left₀ hpos.ne']
  rw [← div_eq_mul_inv, le_div_iff₀ hpos, one_mul]
  exact this

theorem integral_inv_rad {x1 x2 y1 y2 z1 z2 : ℝ} (hx : x1 ≤ x2) (hy : y1 ≤ y2) (hz : z1 ≤ z2) :
    ∫ v in rbox x1 x2 y1 y2 z1 z2, 1 / rad v.1 v.2.1 v.2.2 = D3 Pk x1 x2 y1 y2 z1 z2 := by
  refine triple_integral (f := fun x y z => 1 / rad x y z) (g := fun x y z => Lk z x y) (h := Fk) hx hy hz
    (integrableOn_inv_rad _ _ _ _ _ _) ?_ ?_ ?_
  · intro x _ hx0 y _
    have hr : ∀ z, rad x y z ≠ 0 := fun z => by rw [Ne, rad_eq_zero]; tauto
    refine intervalIntegral.integral_eq_sub_of_hasDerivAt (f := fun z => Lk z x y) ?_ ?_
    · intro z _
      have := hasDerivAt_Lk1 (x := z) (y := x) (z := y) (by
        rw [Ne, rad_eq_zero]; tauto)
      refine this.congr_deriv ?_
      congr 1
      unfold rad; congr 1; ring
    · apply Continuous.intervalIntegrable
      fun_prop (disch := exact hr _)
  · intro x _ hx0
    refine intervalIntegral.integral_eq_sub_of_hasDerivAt
      (f := fun y => Fk x y z2 - Fk x y z1) ?_ ?_
    · intro y _
      exact hasDerivAt_Fk2_diff (by tauto)
    · apply Continuous.intervalIntegrable
      have : ∀ z, Continuous fun y => Lk z x y := fun z =>
        continuous_iff_continuousAt.2 fun y => (hasDerivAt_Lk3 (by tauto)).continuousAt
      exact (this _).sub (this _)
  · intro hI
    have := intervalIntegral.integral_eq_sub_of_hasDerivAt (a := x1) (b := x2)
      (fun x _ => hasDerivAt_Pk1_diff x y1 y2 z1 z2) hI
    rw [this]
    rfl

/-! ### Acceleration -/

theorem integrableOn_accel (x1 x2 y1 y2 z1 z2 : ℝ) :
    IntegrableOn (fun v : Pt => v.1 / rad v.1 v.2.1 v.2.2 ^ 3) (rbox x1 x2 y1 y2 z1 z2) := by
  refine integrableOn_of_le_inv_sq (f := fun v : Pt => v.1 / rad v.1 v.2.1 v.2.2 ^ 3)
    (measurable_fst.div (measurable_rad3.pow_const 3)) 1
    (isBounded_rbox _ _ _ _ _ _) ?_ zero_le_one
  intro v hv h0
  have hpos : 0 < rad v.1 v.2.1 v.2.2 := lt_of_lt_of_le (norm_pos_iff.2 h0) (norm_le_rad v)
  rw [abs_div, abs_of_pos (by positivity : 0 < rad v.1 v.2.1 v.2.2 ^ 3), one_mul,
    div_le_div_iff₀ (by positivity) (by positivity)]
  have := abs_le_rad1 v.1 v.2.1 v.2.2
  calc |v.1| * rad v.1 v.2.1 v.2.2 ^ 2 ≤ rad v.1 v.2.1 v.2.2 * rad v.1 v.2.1 v.2.2 ^ 2 := by gcongr
    _ = _ := by ring

theorem rad_deriv_aux {x y z : ℝ} (h : rad x y z ≠ 0) :
    HasDerivAt (fun t => t / rad x y t) ((x ^ 2 + y ^ 2) / rad x y z ^ 3) z := by
  have h1 := (hasDerivAt_id z).div (hasDerivAt_rad3 h) h
  refine h1.congr_deriv ?_
  have := rad_sq x y z
  simp only [id]
  field_simp
  rw [this]; ring

theorem integral_accel {x1 x2 y1 y2 z1 z2 : ℝ} (hx : x1 ≤ x2) (hy : y1 ≤ y2) (hz : z1 ≤ z2) :
    ∫ v in rbox x1 x2 y1 y2 z1 z2, v.1 / rad v.1 v.2.1 v.2.2 ^ 3 =
      D3 (fun x y z => -Fk x y z) x1 x2 y1 y2 z1 z2 := by
  refine triple_integral (f := fun x y z => x / rad x y z ^ 3)
    (g := fun x y z => x / (x ^ 2 + y ^ 2) * (z / rad x y z)) (h := Tk) hx hy hz
    (integrableOn_accel _ _ _ _ _ _) ?_ ?_ ?_
  · intro x _ hx0 y _
    have hr : ∀ z, rad x y z ≠ 0 := fun z => by rw [Ne, rad_eq_zero]; tauto
    refine intervalIntegral.integral_eq_sub_of_hasDerivAt
      (f := fun z => x / (x ^ 2 + y ^ 2) * (z / rad x y z)) ?_ ?_
    · intro z _
      refine ((rad_deriv_aux (hr z)).const_mul (x / (x ^ 2 + y ^ 2))).congr_deriv ?_
      have : x ^ 2 + y ^ 2 ≠ 0 := by positivity
      have := hr z
      field_simp
    · apply Continuous.intervalIntegrable
      have : ∀ z, rad x y z ^ 3 ≠ 0 := fun z => pow_ne_zero 3 (hr z)
      fun_prop (disch := exact this _)
  · intro x _ hx0
    have hr : ∀ y z, rad x y z ≠ 0 := fun y z => by rw [Ne, rad_eq_zero]; tauto
    have hs : ∀ y : ℝ, x ^ 2 + y ^ 2 ≠ 0 := fun y => by positivity
    refine intervalIntegral.integral_eq_sub_of_hasDerivAt
      (f := fun y => Tk x y z2 - Tk x y z1) ?_ ?_
    · intro y _
      refine ((hasDerivAt_Tk2 y z2 hx0).sub (hasDerivAt_Tk2 y z1 hx0)).congr_deriv ?_
      have := hr y z1
      have := hr y z2
      have := hs y
      field_simp
    · apply Continuous.intervalIntegrable
      have h1 : ∀ y, rad x y z2 ≠ 0 := fun y => hr y z2
      have h2 : ∀ y, rad x y z1 ≠ 0 := fun y => hr y z1
      have c1 : Continuous fun y => x / (x ^ 2 + y ^ 2) := by fun_prop (disch := exact hs _)
      have c2 : Continuous fun y => z2 / rad x y z2 := by fun_prop (disch := exact h1 _)
      have c3 : Continuous fun y => z1 / rad x y z1 := by fun_prop (disch := exact h2 _)
      exact (c1.mul c2).sub (c1.mul c3)
  · intro hI
    have := integral_eq_of_hasDerivAt_off_countable
      (fun x => (-Fk x y2 z2 - -Fk x y2 z1) - (-Fk x y1 z2 - -Fk x y1 z1))
      (fun x => (Tk x y2 z2 - Tk x y2 z1) - (Tk x y1 z2 - Tk x y1 z1))
      (a := x1) (b := x2) (s := {0}) (countable_singleton 0) ?_ ?_ hI
    · rw [this]; rfl
    · apply Continuous.continuousOn
      have := continuous_Fk1
      exact (((this y2 z2).neg).sub ((this y2 z1).neg)).sub (((this y1 z2).neg).sub ((this y1 z1).neg))
    · intro x hxm
      have hx0 : x ≠ 0 := by simpa using hxm.2
      have d := fun y z => (hasDerivAt_Fk1 y z hx0).neg
      refine (((d y2 z2).sub (d y2 z1)).sub ((d y1 z2).sub (d y1 z1))).congr_deriv ?_
      ring

end Choclo
