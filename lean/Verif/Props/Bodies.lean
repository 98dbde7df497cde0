import Verif.Lemmas.Bodies
import Verif.Props.Stability
import Verif.Props.Grid

/-! # C146: models made of prisms and the bodies they stand for -/

namespace Choclo

open MeasureTheory Set Real

variable {ι : Type*} [Fintype ι] {P : ι → Box} {B : Box} {ρ : ι → ℝ} {σ : Pt → ℝ} {δ : ℝ}

/-- The potential of any model made of prisms — overlapping or with holes — is that of the body it stands for, up to the
potential of the whole region filled with the largest difference of the densities; at every observation point. -/
theorem C146_potential (hB : B.Ordered) (hP : ∀ i, (P i).Ordered) (hi : ∀ i, (P i).region ⊆ B.region)
    (hσ : AEStronglyMeasurable σ (volume.restrict B.region))
    (hδ : ∀ᵐ s ∂(volume.restrict B.region : Measure Pt), |totalAt P ρ s - σ s| ≤ δ) (p : Pt) :
    IntegrableOn (fun s => 6.6743e-11 * σ s / dist3 p s) B.region ∧
    ∃ (f : ι → ℝ) (w : ℝ), (∀ i, Returns (onPrism (A := Exact) prism.gravity_pot p (P i) (ρ i)) (f i)) ∧
      Returns (onPrism (A := Exact) prism.gravity_pot p B δ) w ∧
      |(∑ i, f i) - ∫ s in B.region, 6.6743e-11 * σ s / dist3 p s| ≤ w := by
  obtain ⟨h1, h2⟩ := body_error hi (integrableOn_inv p B) hσ hδ
  have e : (fun s : Pt => 6.6743e-11 * σ s / dist3 p s) = fun s => Gc * (σ s * (1 / dist3 p s)) := by
    funext s; unfold Gc; ring
  rw [e]
  refine ⟨h1.const_mul _, _, _, fun i => gravity_low_returns (hP i) .pot (by decide) p (ρ i),
    gravity_low_returns hB .pot (by decide) p δ, ?_⟩
  have v : ∀ {Q : Box}, Q.Ordered → Vc .pot p Q = ∫ s in Q.region, 1 / dist3 p s := fun hQ => by
    rw [Vc_low_integral hQ .pot (by decide)]
    exact integral_congr_ae (.of_forall fun s => kpp_pot_dist p s)
  have a : ∀ s, |1 / dist3 p s| = 1 / dist3 p s := fun s => abs_of_nonneg (div_nonneg zero_le_one (Real.sqrt_nonneg _))
  simp only [a] at h2
  rw [integral_const_mul, v hB]
  simp only [v (hP _), mul_assoc]
  rw [← Finset.mul_sum, ← mul_sub, abs_mul, abs_of_pos Gc_pos]
  exact mul_le_mul_of_nonneg_left h2 Gc_pos.le

/-- ... and every component of the acceleration up to `4 π G δ R`, where a ball of radius `R` has at least the volume of the
region; at every observation point. -/
theorem C146_acceleration (hB : B.Ordered) (hP : ∀ i, (P i).Ordered) (hi : ∀ i, (P i).region ⊆ B.region)
    (hσ : AEStronglyMeasurable σ (volume.restrict B.region)) (hδ0 : 0 ≤ δ)
    (hδ : ∀ᵐ s ∂(volume.restrict B.region : Measure Pt), |totalAt P ρ s - σ s| ≤ δ) (a : Axis) (p : Pt) {R : ℝ} (hR : 0 ≤ R)
    (hv : B.volume ≤ 4 / 3 * π * R ^ 3) :
    IntegrableOn (fun s => 6.6743e-11 * σ s * (s.coord a - p.coord a) / dist3 p s ^ 3) B.region ∧
    ∃ f : ι → ℝ, (∀ i, Returns (onPrism (A := Exact) (prismGravity a.acc) p (P i) (ρ i)) (f i)) ∧
      |(∑ i, f i) - ∫ s in B.region, 6.6743e-11 * σ s * (s.coord a - p.coord a) / dist3 p s ^ 3| ≤ 4 * π * 6.6743e-11 * δ * R := by
  have hl : a.acc.letters ≤ 1 := by cases a <;> decide
  have k := (integral_low hB a.acc hl p).1
  obtain ⟨h1, h2⟩ := body_error hi k hσ hδ
  have e : (fun s : Pt => 6.6743e-11 * σ s * (s.coord a - p.coord a) / dist3 p s ^ 3) = fun s => Gc * (σ s * kpp a.acc.toK p s) := by
    funext s; rw [kpp_acc_dist]; unfold Gc; ring
  rw [e]
  refine ⟨h1.const_mul _, _, fun i => gravity_low_returns (hP i) a.acc hl p (ρ i), ?_⟩
  rw [integral_const_mul]
  simp only [Vc_low_integral (hP _) a.acc hl, mul_assoc]
  rw [← Finset.mul_sum, ← mul_sub, abs_mul, abs_of_pos Gc_pos]
  have b1 : ∫ s in B.region, |kpp a.acc.toK p s| ≤ ∫ s in B.region, 1 / dist3 p s ^ 2 := by
    refine integral_mono_ae k.abs (integrableOn_inv_sq p B) (.of_forall fun s => ?_)
    have := acc_dir_le (p := p) (q := s) (w := unitVec a)
    rw [len_unit, mul_one] at this
    refine le_trans (le_of_eq ?_) this
    cases a <;> simp [unitVec, Pt.e, Pt.n, Pt.u]
  have b2 := ball_bound_inv_sq (S := B.region) (isCompact_region B).measure_lt_top.ne (integrableOn_inv_sq p B) hR
    (by rw [volume_region hB]; exact hv)
  refine (mul_le_mul_of_nonneg_left (h2.trans (mul_le_mul_of_nonneg_left (b1.trans b2) hδ0)) Gc_pos.le).trans (le_of_eq ?_)
  unfold Gc; ring

/-- ... every component of the gravity gradient tensor, where the region is at distance `d` or more. -/
theorem C146_tensor (hB : B.Ordered) (hP : ∀ i, (P i).Ordered) (hi : ∀ i, (P i).region ⊆ B.region)
    (hσ : AEStronglyMeasurable σ (volume.restrict B.region)) (hδ0 : 0 ≤ δ)
    (hδ : ∀ᵐ s ∂(volume.restrict B.region : Measure Pt), |totalAt P ρ s - σ s| ≤ δ) (a b : Axis) (p : Pt) {d : ℝ} (hd : 0 < d)
    (h : ∀ s ∈ B.region, d ≤ dist3 p s) :
    ∃ k : Pt → ℝ, (∀ s ∈ B.region, Returns (onPair (A := Exact) (pointGravity (tensor a b)) p s (σ s)) (k s)) ∧
    IntegrableOn k B.region ∧
    ∃ f : ι → ℝ, (∀ i, Returns (onPrism (A := Exact) (prismGravity (tensor a b)) p (P i) (ρ i)) (f i)) ∧
      |(∑ i, f i) - ∫ s in B.region, k s| ≤ 2 * 6.6743e-11 * δ * B.volume / d ^ 3 := by
  have hx := not_mem_of_dist hd h
  have hx' := fun i => fun h' => hx (hi i h')
  have k := integrableOn_kpp (tensor a b).toK hx
  obtain ⟨h1, h2⟩ := body_error hi k hσ hδ
  refine ⟨fun s => Gc * σ s * kpp (tensor a b).toK p s,
    fun s hs => Ex.pointGravity_fin _ (fun e => hx (by rw [e]; exact hs)) _, ?_, _,
    fun i => Ex.gravity_returns (hP i) (exterior_singular (hP i) (hx' i) _) (ρ i), ?_⟩
  · simp only [mul_assoc]; exact h1.const_mul _
  simp only [Vc_tensor_integral (hP _) a b (hx' _), mul_assoc]
  rw [integral_const_mul, ← Finset.mul_sum, ← mul_sub, abs_mul, abs_of_pos Gc_pos]
  have b1 : ∫ s in B.region, |kpp (tensor a b).toK p s| ≤ 2 / d ^ 3 * B.volume := by
    refine (le_abs_self _).trans (abs_integral_region_le hB fun q hq => ?_)
    rw [abs_abs, show (tensor a b).toK = kern2 a b by cases a <;> cases b <;> rfl]
    exact abs_kern2_le' a b hd (h q hq)
  refine (mul_le_mul_of_nonneg_left (h2.trans (mul_le_mul_of_nonneg_left b1 hδ0)) Gc_pos.le).trans (le_of_eq ?_)
  unfold Gc; ring

/-- ... every component of the magnetic field of a magnetized body: its magnetization, a vector, may vary from point to point
in length and direction. -/
theorem C146_magnetic (hB : B.Ordered) (hP : ∀ i, (P i).Ordered) (hi : ∀ i, (P i).region ⊆ B.region) {M : ι → Vec} {S : Pt → Vec}
    (hS : AEStronglyMeasurable S (volume.restrict B.region))
    (hδ : ∀ᵐ s ∂(volume.restrict B.region : Measure Pt), √(((totalAt P M s).e - (S s).e) ^ 2 + ((totalAt P M s).n - (S s).n) ^ 2
      + ((totalAt P M s).u - (S s).u) ^ 2) ≤ δ) (a : Axis) (p : Pt) {d : ℝ} (hd : 0 < d)
    (h : ∀ s ∈ B.region, d ≤ dist3 p s) :
    ∃ k : Pt → ℝ, (∀ s ∈ B.region, Returns (onPair (A := Exact) (dipoleMagnetic a) p s (S s).e (S s).n (S s).u) (k s)) ∧
    IntegrableOn k B.region ∧
    ∃ f : ι → ℝ, (∀ i, Returns (onPrism (A := Exact) (prismMagnetic a.field) p (P i) (M i).e (M i).n (M i).u) (f i)) ∧
      |(∑ i, f i) - ∫ s in B.region, k s| ≤ 2 * (1.25663706212e-06 / (4 * π)) * δ * B.volume / d ^ 3 := by
  have hx := not_mem_of_dist hd h
  have hx' := fun i => fun h' => hx (hi i h')
  have hmu : 0 < mu0 / 4 / π := div_pos (div_pos mu0_pos (by norm_num)) Real.pi_pos
  have e : (1.25663706212e-06 / (4 * π) : ℝ) = mu0 / 4 / π := by rw [mu0, div_div]
  obtain ⟨h1, h2⟩ := body_error3 hi (K := fun c => kpp (kern2 a c) p) (fun c => integrableOn_kpp _ hx) (C := 2 / d ^ 3)
    (fun q hq M => by
      have hne : p ≠ q := fun h' => hx (by rw [h']; exact hq)
      have f := form2_le hne (unitVec a) M
      rw [len_unit, mul_one] at f
      have e' : row2 .e p q M * (unitVec a).e + row2 .n p q M * (unitVec a).n + row2 .u p q M * (unitVec a).u = row2 a p q M := by
        cases a <;> simp [unitVec, Pt.e, Pt.n, Pt.u]
      rw [e'] at f
      refine f.trans ?_
      have := h q hq
      have := len_nonneg M
      rw [div_mul_eq_mul_div]
      gcongr) hS (M := M) hδ (by positivity)
  refine ⟨fun q => mu0 / 4 / π * (kpp (kern2 a .e) p q * (S q).e + kpp (kern2 a .n) p q * (S q).n + kpp (kern2 a .u) p q * (S q).u),
    fun s hs => dipole_fin a (fun e => hx (by rw [e]; exact hs)) (S s), h1.const_mul _, _,
    fun i => Ex.magnetic_returns (hP i) (exterior_edges (hP i) (hx' i)) (fun h' => hx' i (inside_subset_region h')) _ _ _, ?_⟩
  simp only [Bc_field_integral (hP _) a (hx' _)]
  simp only [integral_const_mul]
  rw [← Finset.mul_sum, ← mul_sub, abs_mul, abs_of_pos hmu, e]
  rw [volume_region hB] at h2
  refine (mul_le_mul_of_nonneg_left h2 hmu.le).trans (le_of_eq ?_)
  ring

/-- Cut the region into cells with no common interior points, of half diagonal `h` or less, and give each the density of the
body at its centre: if the density changes by at most `K` per metre, the difference is at most `K h`. -/
theorem C146_sampled (hi : ∀ i, (P i).region ⊆ B.region) (hc : B.region ⊆ ⋃ i, (P i).region)
    (hd : Pairwise fun i j => Disjoint (P i).inside (P j).inside) {h K : ℝ} (hK : 0 ≤ K) (hh : ∀ i, (P i).halfDiagonal ≤ h)
    (hL : ∀ s ∈ B.region, ∀ t ∈ B.region, |σ s - σ t| ≤ K * dist3 s t) (hP : ∀ i, (P i).Ordered) :
    ∀ᵐ s ∂(volume.restrict B.region : Measure Pt), |totalAt P (fun i => σ (P i).centrePt) s - σ s| ≤ K * h := by
  filter_upwards [ae_one_cell hd hc] with s ⟨i, hs, hw⟩
  rw [hw, abs_sub_comm]
  exact (hL s (hi i hs) _ (hi i (centre_mem_region (hP i)))).trans
    (mul_le_mul_of_nonneg_left ((dist_centre_le hs).trans (hh i)) hK)

/-- So the sum of the values that `gravity_u` returns for the cells converges to the value for the body, at every observation
point, inside the body too, and the error is at most `4 π G K h R`. -/
theorem C146_convergence (hB : B.Ordered) (hP : ∀ i, (P i).Ordered) (hi : ∀ i, (P i).region ⊆ B.region)
    (hc : B.region ⊆ ⋃ i, (P i).region) (hd : Pairwise fun i j => Disjoint (P i).inside (P j).inside) {h K : ℝ} (hK : 0 ≤ K)
    (hh0 : 0 ≤ h) (hh : ∀ i, (P i).halfDiagonal ≤ h) (hL : ∀ s ∈ B.region, ∀ t ∈ B.region, |σ s - σ t| ≤ K * dist3 s t)
    (a : Axis) (p : Pt) {R : ℝ} (hR : 0 ≤ R) (hv : B.volume ≤ 4 / 3 * π * R ^ 3) :
    ∃ f : ι → ℝ, (∀ i, Returns (onPrism (A := Exact) (prismGravity a.acc) p (P i) (σ (P i).centrePt)) (f i)) ∧
      |(∑ i, f i) - ∫ s in B.region, 6.6743e-11 * σ s * (s.coord a - p.coord a) / dist3 p s ^ 3|
        ≤ 4 * π * 6.6743e-11 * (K * h) * R := by
  refine (C146_acceleration hB hP hi ?_ (mul_nonneg hK hh0) (C146_sampled hi hc hd hK hh hL hP) a p hR hv).2
  refine ContinuousOn.aestronglyMeasurable ?_ (measurableSet_region B)
  intro s hs
  have c : Filter.Tendsto (fun t => K * dist3 t s) (nhdsWithin s B.region) (nhds 0) := by
    have : Continuous fun t : Pt => K * dist3 t s := by
      unfold dist3 Pt.e Pt.n Pt.u
      fun_prop
    have := (this.tendsto s).mono_left (nhdsWithin_le_nhds (s := B.region))
    rwa [dist3_eq_zero.mpr rfl, mul_zero] at this
  refine tendsto_iff_dist_tendsto_zero.2 (squeeze_zero' (.of_forall fun _ => dist_nonneg) ?_ c)
  filter_upwards [self_mem_nhdsWithin] with t ht
  rw [Real.dist_eq]
  exact hL t ht s hs

/-- The sum over any model, overlapping prisms and prisms of negative density (holes) included, is exactly the value of the body
whose density is, point by point, the sum of those of the prisms that contain the point. -/
theorem C146_exact (hP : ∀ i, (P i).Ordered) (hi : ∀ i, (P i).region ⊆ B.region) (hB : B.Ordered) (p : Pt) :
    ∃ f : ι → ℝ, (∀ i, Returns (onPrism (A := Exact) prism.gravity_pot p (P i) (ρ i)) (f i)) ∧
      ∑ i, f i = ∫ s in B.region, 6.6743e-11 * totalAt P ρ s / dist3 p s := by
  obtain ⟨_, f, w, hf, hw, h⟩ := C146_potential hB hP hi (ρ := ρ) (σ := totalAt P ρ) (δ := 0)
    (measurable_totalAt ρ).aestronglyMeasurable (.of_forall fun s => by rw [sub_self, abs_zero]) p
  have : w = Gc * 0 * Vc .pot p B := Returns.inj hw (gravity_low_returns hB .pot (by decide) p 0)
  rw [mul_zero, zero_mul] at this
  exact ⟨f, hf, sub_eq_zero.1 (abs_eq_zero.1 (le_antisymm (h.trans this.le) (abs_nonneg _)))⟩

/-! ## Example: the example prism with a density that grows with depth, cut into two cells -/

/-- the two halves of the example prism -/
noncomputable def halves : Fin 2 → Box := ![⟨-1, 1, -1, 1, -1, 0⟩, ⟨-1, 1, -1, 1, -2, -1⟩]

/-- `gravity_u` inside the body, with an explicit error -/
example : ∃ f : Fin 2 → ℝ, (∀ i, Returns (onPrism (A := Exact) (prismGravity .u) ((0, 0, -1 / 2) : Pt) (halves i)
      (2000 - 50 * (halves i).centrePt.u)) (f i)) ∧
    |(∑ i, f i) - ∫ s in exBox.region, 6.6743e-11 * (2000 - 50 * s.u) * (s.coord .u - (-1 / 2)) / dist3 (0, 0, -1 / 2) s ^ 3|
      ≤ 4 * π * 6.6743e-11 * (50 * (3 / 2)) * 2 := by
  have sub : ∀ i, (halves i).region ⊆ exBox.region := by
    intro i s hs
    fin_cases i <;>
    · obtain ⟨⟨a1, a2⟩, ⟨a3, a4⟩, a5, a6⟩ := hs
      simp only [halves, Matrix.cons_val_zero, Matrix.cons_val_one, Fin.mk_one, Fin.zero_eta] at a1 a2 a3 a4 a5 a6
      refine ⟨⟨?_, ?_⟩, ⟨?_, ?_⟩, ?_, ?_⟩ <;> simp only [exBox] <;> linarith
  refine C146_convergence (B := exBox) (P := halves) (σ := fun s => 2000 - 50 * s.u) exBox_ordered ?_ sub ?_ ?_
    (K := 50) (h := 3 / 2) (by norm_num) (by norm_num) ?_ ?_ .u (0, 0, -1 / 2) (by norm_num) ?_
  · intro i; fin_cases i <;> norm_num [halves, Box.Ordered]
  · rintro s ⟨⟨a1, a2⟩, ⟨a3, a4⟩, a5, a6⟩
    simp only [exBox] at a1 a2 a3 a4 a5 a6
    rcases le_total (-1) s.2.2 with h | h
    · exact mem_iUnion.2 ⟨0, ⟨a1, a2⟩, ⟨a3, a4⟩, h, a6⟩
    · exact mem_iUnion.2 ⟨1, ⟨a1, a2⟩, ⟨a3, a4⟩, a5, h⟩
  · intro i j hij
    fin_cases i <;> fin_cases j <;> simp only [ne_eq, not_true_eq_false, Fin.mk_one, Fin.zero_eta] at hij <;>
      refine Set.disjoint_left.2 fun s hs ht => ?_ <;>
      · obtain ⟨_, _, a5, a6⟩ := hs
        obtain ⟨_, _, b5, b6⟩ := ht
        simp only [halves, Matrix.cons_val_zero, Matrix.cons_val_one, Fin.mk_one, Fin.zero_eta] at a5 a6 b5 b6
        linarith
  · intro i
    have : √(3 ^ 2 : ℝ) = 3 := Real.sqrt_sq (by norm_num)
    fin_cases i <;> unfold Box.halfDiagonal <;> norm_num [halves] at this ⊢ <;> linarith
  · intro s _ t _
    have h : |s.u - t.u| ≤ dist3 s t := by
      unfold dist3
      refine Real.abs_le_sqrt ?_
      nlinarith [sq_nonneg (s.e - t.e), sq_nonneg (s.n - t.n)]
    rw [show (2000 - 50 * s.u) - (2000 - 50 * t.u) = -(50 * (s.u - t.u)) by ring, abs_neg, abs_mul, abs_of_pos (by norm_num : (0 : ℝ) < 50)]
    exact mul_le_mul_of_nonneg_left h (by norm_num)
  · have := Real.pi_gt_three
    norm_num [exBox, Box.volume]
    nlinarith

end Choclo
