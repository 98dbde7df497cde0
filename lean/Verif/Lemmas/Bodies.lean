import Verif.Spec.Models
import Verif.Lemmas.Integral3
import Verif.Lemmas.Flux
import Verif.Lemmas.Decay

/-! # Models made of prisms and bodies of variable density -/

namespace Choclo

open MeasureTheory Set

variable {ι : Type*} [Fintype ι] {P : ι → Box} {B : Box}

open Classical in
theorem totalAt_eq_sum (w : ι → ℝ) : totalAt P w = fun s => ∑ i, (P i).region.indicator (fun _ => w i) s := by
  funext s
  unfold totalAt
  exact Finset.sum_congr rfl fun i _ => rfl

theorem measurable_totalAt (w : ι → ℝ) : Measurable (totalAt P w) := by
  rw [totalAt_eq_sum]
  exact Finset.measurable_fun_sum _ fun i _ => measurable_const.indicator (measurableSet_region _)

theorem totalAt_mul (w : ι → ℝ) (K : Pt → ℝ) (s : Pt) :
    totalAt P w s * K s = ∑ i, (P i).region.indicator (fun s => w i * K s) s := by
  rw [totalAt_eq_sum, Finset.sum_mul]
  refine Finset.sum_congr rfl fun i _ => ?_
  by_cases h : s ∈ (P i).region
  · rw [indicator_of_mem h, indicator_of_mem h]
  · rw [indicator_of_notMem h, indicator_of_notMem h, zero_mul]

theorem integrableOn_totalAt {K : Pt → ℝ} (hK : IntegrableOn K B.region) (w : ι → ℝ) :
    IntegrableOn (fun s => totalAt P w s * K s) B.region := by
  simp only [totalAt_mul]
  exact integrable_finsetSum _ fun i _ => (hK.const_mul (w i)).indicator (measurableSet_region _)

theorem integral_totalAt (hB : ∀ i, (P i).region ⊆ B.region) {K : Pt → ℝ} (hK : IntegrableOn K B.region) (w : ι → ℝ) :
    ∫ s in B.region, totalAt P w s * K s = ∑ i, w i * ∫ s in (P i).region, K s := by
  simp only [totalAt_mul]
  rw [integral_finsetSum _ fun i _ => (hK.const_mul (w i)).indicator (measurableSet_region _)]
  refine Finset.sum_congr rfl fun i _ => ?_
  rw [setIntegral_indicator (measurableSet_region _), inter_eq_right.2 (hB i), integral_const_mul]

/-- a body whose density is `σ` and a model of prisms whose density differs from it by at most `δ` -/
theorem body_error (hB : ∀ i, (P i).region ⊆ B.region) {K : Pt → ℝ} (hK : IntegrableOn K B.region) {w : ι → ℝ} {σ : Pt → ℝ}
    (hσ : AEStronglyMeasurable σ (volume.restrict B.region)) {δ : ℝ}
    (hδ : ∀ᵐ s ∂(volume.restrict B.region : Measure Pt), |totalAt P w s - σ s| ≤ δ) :
    IntegrableOn (fun s => σ s * K s) B.region ∧
      |(∑ i, w i * ∫ s in (P i).region, K s) - ∫ s in B.region, σ s * K s| ≤ δ * ∫ s in B.region, |K s| := by
  have hD : IntegrableOn (fun s => (totalAt P w s - σ s) * K s) B.region := by
    refine Integrable.mono' (hK.norm.const_mul δ)
      (((measurable_totalAt w).aestronglyMeasurable.sub hσ).mul hK.aestronglyMeasurable) ?_
    filter_upwards [hδ] with s hs
    rw [norm_mul]
    exact mul_le_mul_of_nonneg_right hs (norm_nonneg _)
  have hT := integrableOn_totalAt hK (P := P) w
  have hS : IntegrableOn (fun s => σ s * K s) B.region := by
    refine (Integrable.sub hT hD).congr (.of_forall fun s => ?_)
    show totalAt P w s * K s - (totalAt P w s - σ s) * K s = _
    ring
  refine ⟨hS, ?_⟩
  rw [← integral_totalAt hB hK, ← integral_sub hT hS, ← Real.norm_eq_abs, ← integral_const_mul]
  refine norm_integral_le_of_norm_le (hK.norm.const_mul δ) ?_
  filter_upwards [hδ] with s hs
  rw [← sub_mul, norm_mul]
  exact mul_le_mul_of_nonneg_right hs (norm_nonneg _)

open Classical in
theorem totalAt_e (M : ι → Vec) (s : Pt) : (totalAt P M s).e = totalAt P (fun i => (M i).e) s := by
  unfold totalAt
  rw [show Pt.e (∑ i, if s ∈ (P i).region then M i else 0) = (∑ i, if s ∈ (P i).region then M i else 0).1 from rfl, Prod.fst_sum]
  exact Finset.sum_congr rfl fun i _ => by split_ifs <;> rfl

open Classical in
theorem totalAt_n (M : ι → Vec) (s : Pt) : (totalAt P M s).n = totalAt P (fun i => (M i).n) s := by
  unfold totalAt
  rw [show Pt.n (∑ i, if s ∈ (P i).region then M i else 0) = (∑ i, if s ∈ (P i).region then M i else 0).2.1 from rfl, Prod.snd_sum,
    Prod.fst_sum]
  exact Finset.sum_congr rfl fun i _ => by split_ifs <;> rfl

open Classical in
theorem totalAt_u (M : ι → Vec) (s : Pt) : (totalAt P M s).u = totalAt P (fun i => (M i).u) s := by
  unfold totalAt
  rw [show Pt.u (∑ i, if s ∈ (P i).region then M i else 0) = (∑ i, if s ∈ (P i).region then M i else 0).2.2 from rfl, Prod.snd_sum,
    Prod.snd_sum]
  exact Finset.sum_congr rfl fun i _ => by split_ifs <;> rfl

/-- the same for a vector: kernels `K` contracted with a magnetization -/
theorem body_error3 (hB : ∀ i, (P i).region ⊆ B.region) {K : Axis → Pt → ℝ} (hK : ∀ a, IntegrableOn (K a) B.region)
    {C : ℝ} (hC : ∀ s ∈ B.region, ∀ v : Vec, |K .e s * v.e + K .n s * v.n + K .u s * v.u| ≤ C * len v)
    {M : ι → Vec} {S : Pt → Vec} (hσ : AEStronglyMeasurable S (volume.restrict B.region)) {δ : ℝ}
    (hδ : ∀ᵐ s ∂(volume.restrict B.region : Measure Pt), len (totalAt P M s - S s) ≤ δ) (hC0 : 0 ≤ C) :
    IntegrableOn (fun s => K .e s * (S s).e + K .n s * (S s).n + K .u s * (S s).u) B.region ∧
      |(∑ i, ∫ s in (P i).region, (K .e s * (M i).e + K .n s * (M i).n + K .u s * (M i).u))
        - ∫ s in B.region, (K .e s * (S s).e + K .n s * (S s).n + K .u s * (S s).u)| ≤ C * δ * (volume : Measure Pt).real B.region := by
  have fin : (volume : Measure Pt) B.region < ⊤ := (isCompact_region B).measure_lt_top
  have me : AEStronglyMeasurable (fun s => (S s).e) (volume.restrict B.region) := hσ.fst
  have mn : AEStronglyMeasurable (fun s => (S s).n) (volume.restrict B.region) := hσ.snd.fst
  have mu : AEStronglyMeasurable (fun s => (S s).u) (volume.restrict B.region) := hσ.snd.snd
  have te := (integrableOn_totalAt (hK .e) (P := P) fun i => (M i).e)
  have tn := (integrableOn_totalAt (hK .n) (P := P) fun i => (M i).n)
  have tu := (integrableOn_totalAt (hK .u) (P := P) fun i => (M i).u)
  have hT := (te.add tn).add tu
  set T : Pt → ℝ := fun s => K .e s * (totalAt P M s).e + K .n s * (totalAt P M s).n + K .u s * (totalAt P M s).u with hTd
  have hT' : IntegrableOn T B.region := hT.congr (.of_forall fun s => by
    simp only [Pi.add_apply, hTd, totalAt_e, totalAt_n, totalAt_u]; ring)
  have iT : ∫ s in B.region, T s = ∑ i, ∫ s in (P i).region, (K .e s * (M i).e + K .n s * (M i).n + K .u s * (M i).u) := by
    have e1 : ∫ s in B.region, T s = (∫ s in B.region, totalAt P (fun i => (M i).e) s * K .e s)
        + (∫ s in B.region, totalAt P (fun i => (M i).n) s * K .n s) + ∫ s in B.region, totalAt P (fun i => (M i).u) s * K .u s := by
      have ten : IntegrableOn (fun s => totalAt P (fun i => (M i).e) s * K .e s + totalAt P (fun i => (M i).n) s * K .n s) B.region :=
        te.add tn
      rw [← integral_add te tn, ← integral_add ten tu]
      refine integral_congr_ae (.of_forall fun s => ?_)
      simp only [hTd, totalAt_e, totalAt_n, totalAt_u]; ring
    rw [e1, integral_totalAt hB (hK .e), integral_totalAt hB (hK .n), integral_totalAt hB (hK .u), ← Finset.sum_add_distrib,
      ← Finset.sum_add_distrib]
    refine Finset.sum_congr rfl fun i _ => ?_
    have j := fun a => (hK a).mono_set (hB i)
    have jen : IntegrableOn (fun s => K .e s * (M i).e + K .n s * (M i).n) (P i).region := ((j .e).mul_const _).add ((j .n).mul_const _)
    rw [integral_add jen ((j .u).mul_const _), integral_add ((j .e).mul_const _) ((j .n).mul_const _), integral_mul_const, integral_mul_const, integral_mul_const]
    ring
  have bd : ∀ᵐ s ∂(volume.restrict B.region : Measure Pt),
      ‖T s - (K .e s * (S s).e + K .n s * (S s).n + K .u s * (S s).u)‖ ≤ C * δ := by
    filter_upwards [hδ, ae_restrict_mem (measurableSet_region B)] with s hs hs'
    have := hC s hs' (totalAt P M s - S s)
    have e : K .e s * (totalAt P M s - S s).e + K .n s * (totalAt P M s - S s).n + K .u s * (totalAt P M s - S s).u
        = T s - (K .e s * (S s).e + K .n s * (S s).n + K .u s * (S s).u) := by
      simp only [hTd, Pt.e, Pt.n, Pt.u, Prod.fst_sub, Prod.snd_sub]; ring
    rw [e] at this
    exact this.trans (mul_le_mul_of_nonneg_left hs hC0)
  have hD : IntegrableOn (fun s => T s - (K .e s * (S s).e + K .n s * (S s).n + K .u s * (S s).u)) B.region := by
    refine Integrable.mono' (integrableOn_const fin.ne) (hT'.aestronglyMeasurable.sub ?_) bd
    exact (((hK .e).aestronglyMeasurable.mul me).add ((hK .n).aestronglyMeasurable.mul mn)).add ((hK .u).aestronglyMeasurable.mul mu)
  have hS : IntegrableOn (fun s => K .e s * (S s).e + K .n s * (S s).n + K .u s * (S s).u) B.region :=
    (Integrable.sub hT' hD).congr (.of_forall fun s => by
      show T s - (T s - _) = _
      ring)
  refine ⟨hS, ?_⟩
  rw [← iT, ← integral_sub hT' hS, ← Real.norm_eq_abs]
  exact norm_setIntegral_le_of_norm_le_const_ae fin bd

/-- almost every point of the whole is in the interior of one cell -/
theorem ae_one_cell (hd : Pairwise fun i j => Disjoint (P i).inside (P j).inside)
    (hcov : B.region ⊆ ⋃ i, (P i).region) :
    ∀ᵐ s ∂(volume.restrict B.region : Measure Pt), ∃ i, s ∈ (P i).region ∧ ∀ w : ι → ℝ, totalAt P w s = w i := by
  have h1 : ∀ᵐ s : Pt, ∀ i, ∀ a : Axis, s.coord a ≠ (P i).lo a ∧ s.coord a ≠ (P i).hi a :=
    ae_all_iff.2 fun i => by
      have := fun a => (ae_coord_ne a ((P i).lo a)).and (ae_coord_ne a ((P i).hi a))
      filter_upwards [this .e, this .n, this .u] with s he hn hu a
      cases a
      exacts [he, hn, hu]
  filter_upwards [ae_restrict_of_ae h1, ae_restrict_mem (measurableSet_region B)] with s hs hB
  obtain ⟨i, hi⟩ := mem_iUnion.1 (hcov hB)
  have ins : ∀ j, s ∈ (P j).region → s ∈ (P j).inside := by
    rintro j ⟨⟨a1, a2⟩, ⟨a3, a4⟩, ⟨a5, a6⟩⟩
    have e := hs j .e
    have n := hs j .n
    have u := hs j .u
    exact ⟨⟨lt_of_le_of_ne a1 (Ne.symm e.1), lt_of_le_of_ne a2 e.2⟩, ⟨lt_of_le_of_ne a3 (Ne.symm n.1), lt_of_le_of_ne a4 n.2⟩,
      lt_of_le_of_ne a5 (Ne.symm u.1), lt_of_le_of_ne a6 u.2⟩
  refine ⟨i, hi, fun w => ?_⟩
  unfold totalAt
  rw [Finset.sum_eq_single i, if_pos hi]
  · intro j _ hj
    rw [if_neg fun h => Set.disjoint_left.1 (hd hj) (ins j h) (ins i hi)]
  · exact fun h => absurd (Finset.mem_univ i) h

end Choclo
