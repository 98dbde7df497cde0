import Verif.Lemmas.Ball2
import Verif.Props.PrismBounds
import Mathlib.MeasureTheory.Integral.Layercake
import Mathlib.Analysis.SpecialFunctions.ImproperIntegrals

/-! # Among all bodies of a given volume the ball has the largest potential -/

namespace Choclo

open Real Set MeasureTheory Filter Topology

/-- an integral is bounded through the sizes of its superlevel sets -/
theorem layer_bound {α : Type*} [MeasurableSpace α] {μ : Measure α} {f : α → ℝ} (hf : Integrable f μ) (h0 : ∀ x, 0 ≤ f x)
    {K D t0 a : ℝ} (ht0 : 0 < t0) (ha : a < -1) (hK : ∀ t, 0 < t → μ.real {x | t < f x} ≤ K)
    (hD : ∀ t, t0 < t → μ.real {x | t < f x} ≤ D * t ^ a) :
    ∫ x, f x ∂μ ≤ K * t0 + D * (-t0 ^ (a + 1) / (a + 1)) := by
  rw [hf.integral_eq_integral_meas_lt (.of_forall h0)]
  set h : ℝ → ℝ := fun t => if t ≤ t0 then K else D * t ^ a with hh
  have e1 : ∀ t ∈ Ioc 0 t0, h t = K := fun t ht => if_pos ht.2
  have e2 : ∀ t ∈ Ioi t0, h t = D * t ^ a := fun t ht => if_neg (not_le.2 ht)
  have i1 : IntegrableOn h (Ioc 0 t0) := by
    rw [integrableOn_congr_fun e1 measurableSet_Ioc]
    exact integrableOn_const (by simp)
  have i2 : IntegrableOn h (Ioi t0) := by
    rw [integrableOn_congr_fun e2 measurableSet_Ioi]
    exact (integrableOn_Ioi_rpow_of_lt ha ht0).const_mul D
  have iu : IntegrableOn h (Ioi 0) := by
    rw [← Ioc_union_Ioi_eq_Ioi ht0.le]
    exact i1.union i2
  have le : ∫ t in Ioi 0, μ.real {x | t < f x} ≤ ∫ t in Ioi 0, h t := by
    refine integral_mono_of_nonneg (.of_forall fun t => measureReal_nonneg) iu ?_
    refine (ae_restrict_iff' measurableSet_Ioi).2 (.of_forall fun t ht => ?_)
    by_cases htt : t ≤ t0
    · simp only [hh, if_pos htt]; exact hK t ht
    · simp only [hh, if_neg htt]; exact hD t (not_le.1 htt)
  refine le.trans (le_of_eq ?_)
  rw [← Ioc_union_Ioi_eq_Ioi ht0.le, setIntegral_union (show Disjoint (Ioc 0 t0) (Ioi t0) from Set.disjoint_left.2 fun t h1 h2 => not_lt.2 h1.2 h2)
    measurableSet_Ioi i1 i2, setIntegral_congr_fun measurableSet_Ioc e1, setIntegral_congr_fun measurableSet_Ioi e2,
    integral_const_mul, integral_Ioi_rpow_of_lt ha ht0]
  simp [mul_comm, ht0.le]

variable {S : Set Pt} {p : Pt} {R : ℝ}

theorem volume_null (hfin : volume S ≠ ⊤) (hv : volume.real S ≤ ballVolume 0) : volume S = 0 := by
  have h : volume.real S ≤ 0 := by simpa [ballVolume] using hv
  have := le_antisymm h measureReal_nonneg
  rwa [measureReal_def, ENNReal.toReal_eq_zero_iff, or_iff_left hfin] at this

theorem level_bound (hfin : volume S ≠ ⊤) {f : Pt → ℝ} {t r : ℝ} (hr : 0 ≤ r) (h : ∀ q, t < f q → dist3 p q ≤ r) :
    (volume.restrict S).real {q | t < f q} ≤ ballVolume r := by
  rw [← volume_ball3 hr p]
  refine (measureReal_mono (s₂ := ball3 p r) (fun q hq => h q hq) ?_).trans ?_
  · exact ((Measure.restrict_apply_le _ _).trans_lt (isCompact_ball3 hr p).measure_lt_top).ne
  · rw [measureReal_def, measureReal_def]
    exact ENNReal.toReal_mono (isCompact_ball3 hr p).measure_lt_top.ne (Measure.restrict_apply_le _ _)

theorem level_le (hfin : volume S ≠ ⊤) (hv : volume.real S ≤ ballVolume R) (A : Set Pt) :
    (volume.restrict S).real A ≤ ballVolume R := by
  refine le_trans ?_ hv
  have : (volume.restrict S).real A ≤ (volume.restrict S).real univ :=
    measureReal_mono (subset_univ A) (by rw [Measure.restrict_apply_univ]; exact hfin)
  rwa [measureReal_def (s := univ), Measure.restrict_apply_univ] at this

theorem ball_bound_inv (hfin : volume S ≠ ⊤) (hI : IntegrableOn (fun q => 1 / dist3 p q) S) (hR : 0 ≤ R)
    (hv : volume.real S ≤ ballVolume R) : ∫ q in S, 1 / dist3 p q ≤ 2 * π * R ^ 2 := by
  rcases hR.eq_or_lt with rfl | hR
  · rw [setIntegral_measure_zero _ (volume_null hfin hv)]; positivity
  have d0 : ∀ q, 0 ≤ dist3 p q := fun q => Real.sqrt_nonneg _
  refine (layer_bound hI (fun q => div_nonneg zero_le_one (d0 q)) (t0 := 1 / R) (a := -3) (D := 4 / 3 * π) (by positivity)
    (by norm_num) (fun t _ => level_le hfin hv _) (fun t ht => ?_)).trans (le_of_eq ?_)
  · have ht' : 0 < t := lt_trans (by positivity) ht
    refine (level_bound (p := p) hfin (r := 1 / t) (by positivity) fun q hq => ?_).trans (le_of_eq ?_)
    · rcases (d0 q).eq_or_lt with h | h
      · rw [← h]; positivity
      · rw [le_div_iff₀ ht']
        rw [lt_div_iff₀ h] at hq
        linarith
    · rw [ballVolume, Real.rpow_neg ht'.le, div_pow, one_pow]
      norm_cast
      rw [one_div]
  · have e : (1 / R : ℝ) ^ (2 : ℝ) = (1 / R) ^ 2 := by norm_cast
    rw [show (-3 : ℝ) + 1 = -2 by norm_num, Real.rpow_neg (by positivity), e, ballVolume]
    field_simp
    ring

theorem ball_bound_inv_sq (hfin : volume S ≠ ⊤) (hI : IntegrableOn (fun q => 1 / dist3 p q ^ 2) S) (hR : 0 ≤ R)
    (hv : volume.real S ≤ ballVolume R) : ∫ q in S, 1 / dist3 p q ^ 2 ≤ 4 * π * R := by
  rcases hR.eq_or_lt with rfl | hR
  · rw [setIntegral_measure_zero _ (volume_null hfin hv)]; positivity
  have d0 : ∀ q, 0 ≤ dist3 p q := fun q => Real.sqrt_nonneg _
  refine (layer_bound hI (fun q => div_nonneg zero_le_one (sq_nonneg _)) (t0 := (R ^ 2)⁻¹) (a := -(3 / 2)) (D := 4 / 3 * π)
    (by positivity) (by norm_num) (fun t _ => level_le hfin hv _) (fun t ht => ?_)).trans (le_of_eq ?_)
  · have ht' : 0 < t := lt_trans (by positivity) ht
    refine (level_bound (p := p) hfin (r := t ^ (-(1 / 2) : ℝ)) (by positivity) fun q hq => ?_).trans (le_of_eq ?_)
    · rcases (d0 q).eq_or_lt with h | h
      · rw [← h]; positivity
      · rw [lt_div_iff₀ (by positivity)] at hq
        refine le_of_sq_le_sq ?_ (by positivity)
        rw [← Real.rpow_natCast (t ^ _), ← Real.rpow_mul ht'.le]
        norm_num
        rw [Real.rpow_neg_one, ← one_div, le_div_iff₀ ht']
        linarith
    · rw [ballVolume, ← Real.rpow_natCast (t ^ _), ← Real.rpow_mul ht'.le]
      norm_num
  · rw [show (-(3 / 2) : ℝ) + 1 = -(1 / 2) by norm_num, Real.rpow_neg (by positivity), ← Real.sqrt_eq_rpow, Real.sqrt_inv,
      Real.sqrt_sq hR.le, ballVolume]
    field_simp
    ring

end Choclo
