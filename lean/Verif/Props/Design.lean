import Verif.Props.Models
import Verif.Props.SumError

/-! # C127: at which observation points the forward model of the user guide can be inverted -/

namespace Choclo

open Real Set Filter Topology

/-- functions that are linearly independent on each of the sets `U i` are so on points of these sets -/
theorem exists_points_of_patches {α : Type*} {M : ℕ} (f : Fin M → α → ℝ) (U : ℕ → Set α)
    (h : ∀ n, ∀ k : Fin M → ℝ, (∀ x ∈ U n, ∑ i, k i * f i x = 0) → k = 0) {n : ℕ} (hn : n ≤ M) :
    ∃ x : Fin n → α, (∀ i : Fin n, x i ∈ U i) ∧ LinearIndependent ℝ (fun i j => f j (x i)) := by
  induction n with
  | zero => exact ⟨Fin.elim0, fun i => i.elim0, linearIndependent_empty_type⟩
  | succ n ih =>
    obtain ⟨x, hx, hl⟩ := ih (Nat.le_of_succ_le hn)
    by_cases hy : ∃ y ∈ U n, (fun j => f j y) ∉ Submodule.span ℝ (range fun i j => f j (x i))
    · obtain ⟨y, hy, hs⟩ := hy
      refine ⟨Fin.snoc x y, fun i => ?_, ?_⟩
      · refine Fin.lastCases ?_ (fun i => ?_) i
        · rw [Fin.snoc_last]
          exact hy
        · rw [Fin.snoc_castSucc]
          exact hx i
      · have this := linearIndependent_finSnoc.2 ⟨hl, hs⟩
        have e : (fun i j => f j ((Fin.snoc x y : Fin (n + 1) → α) i))
            = (Fin.snoc (fun i j => f j (x i)) fun j => f j y : Fin (n + 1) → Fin M → ℝ) := ?_
        · rw [e]
          exact this
        funext i
        refine Fin.lastCases ?_ (fun i => ?_) i
        · simp only [Fin.snoc_last]
        · simp only [Fin.snoc_castSucc]
    · exfalso
      push Not at hy
      have htop : Submodule.span ℝ (range fun i j => f j (x i)) = ⊤ := by
        by_contra hne
        obtain ⟨φ, hφ, hle⟩ := Submodule.exists_le_ker_of_lt_top _ (lt_top_iff_ne_top.2 hne)
        refine hφ ?_
        have hk := h n (fun i => φ fun j => if i = j then 1 else 0) (fun y hyU => by
          have := hle (hy y hyU)
          rw [LinearMap.mem_ker, LinearMap.pi_apply_eq_sum_univ] at this
          refine Eq.trans ?_ this
          exact Finset.sum_congr rfl fun i _ => by rw [smul_eq_mul, mul_comm])
        ext i
        have := congrFun hk i
        simp only [Pi.zero_apply] at this
        simp only [LinearMap.coe_comp, LinearMap.coe_single, Function.comp_apply, LinearMap.zero_apply]
        convert this using 2
        funext j
        simp only [Pi.single_apply, eq_comm]
      have h1 := finrank_span_eq_card hl
      rw [htop, finrank_top, Module.finrank_fin_fun, Fintype.card_fin] at h1
      omega

variable {M N : ℕ} {P : Fin M → Box} {B : Box}

open userguide

theorem forward_eq (hO : ∀ i, (P i).Ordered) (q : Fin N → Pt) (ρ : Fin M → ℝ) :
    gravity_upward (A := Exact) (points q) (boxes P) (values ρ)
      = .ok fun i => Fl.fin (∑ j, ρ j * (Gc * 1 * Vc .u (q i) (P j))) := by
  obtain ⟨g, hg, h⟩ := C83_exact hO q ρ
  rw [h]
  refine congrArg Except.ok (funext fun i => congrArg Fl.fin (Finset.sum_congr rfl fun j _ => ?_))
  rw [(hg i j).inj (fieldOf_exact hO q ρ i j)]
  ring

theorem resolves_iff (hO : ∀ i, (P i).Ordered) (q : Fin N → Pt) :
    Resolves q P ↔ LinearIndependent ℝ fun (j : Fin M) (i : Fin N) => Gc * 1 * Vc .u (q i) (P j) := by
  rw [Fintype.linearIndependent_iff]
  constructor
  · intro h k hk
    refine congrFun (h k 0 ?_)
    rw [forward_eq hO, forward_eq hO]
    refine congrArg Except.ok (funext fun i => congrArg Fl.fin ?_)
    have := congrFun hk i
    simp only [Finset.sum_apply, Pi.smul_apply, smul_eq_mul, Pi.zero_apply] at this
    rw [this]
    simp
  · intro h ρ σ e
    rw [forward_eq hO, forward_eq hO] at e
    have e := Except.ok.inj e
    refine sub_eq_zero.1 (funext (h (ρ - σ) ?_))
    funext i
    have ei := Ex.fin_inj.mp (congrFun e i)
    rw [← sub_eq_zero, ← Finset.sum_sub_distrib] at ei
    simp only [Finset.sum_apply, Pi.smul_apply, smul_eq_mul, Pi.zero_apply, Pi.sub_apply]
    refine Eq.trans ?_ ei
    exact Finset.sum_congr rfl fun j _ => sub_mul _ _ _

/-- **C127.** The data determine the densities if and only if the columns of the Jacobian the user guide builds, whatever
the schedule, are linearly independent. -/
theorem C127_jacobian (hO : ∀ i, (P i).Ordered) (q : Fin N → Pt) {T : ℕ} {chunks : Fin T → List (Fin N)}
    (hc : Distribution chunks) {J : Fin N → Fin M → Fl Exact}
    (hJ : build_jacobian (A := Exact) (points q) (boxes P) chunks J) :
    ∃ J' : Fin N → Fin M → ℝ, (∀ i j, J i j = Fl.fin (J' i j)) ∧
      (Resolves q P ↔ LinearIndependent ℝ fun j i => J' i j) := by
  refine ⟨fun i j => Gc * 1 * Vc .u (q i) (P j), fun i j => ?_, resolves_iff hO q⟩
  have h1 := (C85_entries hc J).1 hJ i j
  have h2 : fieldOf (A := Exact) (points q) (boxes P) (fun _ => 1) i j = _ := fieldOf_exact hO q (fun _ => ((1 : ℕ) : ℝ)) i j
  rw [Nat.cast_one] at h2
  exact Except.ok.inj (h1.symm.trans h2)

/-- **C127.** With fewer observation points than prisms the data never determine the densities, wherever the points are. -/
theorem C127_few (hO : ∀ i, (P i).Ordered) (q : Fin N → Pt) (h : N < M) : ¬ Resolves q P := by
  rw [resolves_iff hO]
  intro hl
  have := hl.fintype_card_le_finrank
  rw [Module.finrank_fin_fun, Fintype.card_fin] at this
  omega

/-- **C127.** With at least as many observation points as prisms, which must not overlap, there are points arbitrarily
close to any given ones for which the data determine the densities. -/
theorem C127_dense (hP : ∀ i, (P i).Proper) (hd : Pairwise fun i j => Disjoint (P i).inside (P j).inside)
    (hB : ∀ i, (P i).region ⊆ B.region) (h : M ≤ N) {q : Fin N → Pt} (hq : ∀ i, q i ∉ B.region) {ε : ℝ} (hε : 0 < ε) :
    ∃ q' : Fin N → Pt, (∀ i, dist (q' i) (q i) < ε) ∧ (∀ i, q' i ∉ B.region) ∧ Resolves q' P := by
  have hO := fun i => (hP i).ordered
  rcases Nat.eq_zero_or_pos M with rfl | hM
  · exact ⟨q, fun i => by rw [dist_self]; exact hε, hq, fun ρ σ _ => funext fun i => i.elim0⟩
  set c : ℕ → Pt := fun n => if hn : n < N then q ⟨n, hn⟩ else q ⟨0, by omega⟩ with hcd
  have hc : ∀ n, c n ∉ B.region := fun n => by
    simp only [hcd]
    split_ifs <;> exact hq _
  obtain ⟨x, hx, hl⟩ := exists_points_of_patches (fun i q => Gc * 1 * Vc .u q (P i))
    (fun n => Metric.ball (c n) ε ∩ B.regionᶜ) (fun n k hk => by
      refine C123_densities hP hd .u (σ := 0) hB Metric.isOpen_ball ⟨c n, Metric.mem_ball_self hε, hc n⟩ fun p hp hp' => ?_
      have v : ∀ (τ : Fin M → ℝ) i, Returns (onPrism (A := Exact) (prismGravity .u) p (P i) (τ i)) (Gc * τ i * Vc .u p (P i)) :=
        fun τ i => Ex.gravity_returns (hO i) (exterior_singular (hO i) (fun hm => hp' (hB i hm)) .u) (τ i)
      refine ⟨_, _, v k, v 0, ?_⟩
      have := hk p ⟨hp, hp'⟩
      simp only [Pi.zero_apply, mul_zero, zero_mul, Finset.sum_const_zero]
      rw [← this]
      exact Finset.sum_congr rfl fun i _ => by ring) (le_refl M)
  refine ⟨fun i => if hi : (i : ℕ) < M then x ⟨i, hi⟩ else q i, fun i => ?_, fun i => ?_, (resolves_iff hO _).2 ?_⟩
  · dsimp only
    split_ifs with hi
    · have := (hx ⟨i, hi⟩).1
      rw [Metric.mem_ball] at this
      simpa only [hcd, i.2, dif_pos] using this
    · rw [dist_self]
      exact hε
  · dsimp only
    split_ifs with hi
    · exact (hx ⟨i, hi⟩).2
    · exact hq i
  · have hu : IsUnit (Matrix.of fun i j => Gc * 1 * Vc .u (x i) (P j)) := Matrix.linearIndependent_rows_iff_isUnit.1 hl
    have hcol := Matrix.linearIndependent_cols_iff_isUnit.2 hu
    rw [Fintype.linearIndependent_iff] at hcol ⊢
    intro k hk
    refine hcol k ?_
    funext i
    have := congrFun hk (Fin.castLE h i)
    simp only [Finset.sum_apply, Pi.smul_apply, smul_eq_mul, Pi.zero_apply, Fin.val_castLE, i.2, dif_pos] at this
    simp only [Finset.sum_apply, Pi.smul_apply, smul_eq_mul, Pi.zero_apply, Matrix.col_apply, Matrix.of_apply]
    exact this

/-- **C127.** If the data at some points outside determine the densities, so do the data at all points near them. -/
theorem C127_open (hO : ∀ i, (P i).Ordered) (hB : ∀ i, (P i).region ⊆ B.region) {q : Fin N → Pt}
    (hq : ∀ i, q i ∉ B.region) (h : Resolves q P) :
    ∃ ε > 0, ∀ q' : Fin N → Pt, (∀ i, dist (q' i) (q i) < ε) → Resolves q' P := by
  rw [resolves_iff hO] at h
  have ho : IsOpen {f : Fin M → Fin N → ℝ | LinearIndependent ℝ f} := isOpen_setOfPred_linearIndependent
  have hcont : ContinuousAt (fun (q : Fin N → Pt) (j : Fin M) (i : Fin N) => Gc * 1 * Vc .u (q i) (P j)) q := by
    refine continuousAt_pi.2 fun j => continuousAt_pi.2 fun i => ?_
    exact continuousAt_const.mul ((continuousAt_Vc_outside (hO j) .u fun hm => hq i (hB j hm)).comp_of_eq
      (continuous_apply i).continuousAt rfl)
  have := hcont.preimage_mem_nhds (ho.mem_nhds h)
  obtain ⟨ε, hε, hball⟩ := Metric.mem_nhds_iff.1 this
  exact ⟨ε, hε, fun q' hq' => (resolves_iff hO q').2 (hball (by
    rw [Metric.mem_ball, dist_pi_lt_iff hε]
    exact hq'))⟩

/-- **C127, in double precision.** Let `J` be the matrix of Newton's integrals for unit density and `X` a matrix that inverts
it, or, with more points than prisms, any left inverse (that of least squares, for instance). Applied to the data the forward
model of the user guide returns in double precision, `X` recovers the densities up to `|X|` times the error of the data (C86). -/
theorem C127_recovery (hP : ∀ j, (P j).Ordered) (q : Fin N → Pt) (ρ : Fin M → ℝ)
    (hm : ∀ i j, ModerateOffsets (q i) (P j)) (hρ : ∀ j, ModerateSize (ρ j)) {r : Fin N → Fl Binary64}
    (h : gravity_upward (points q) (boxes P) (values ρ) = .ok r) {y : Fin N → ℝ} (hy : ∀ i, r i = (y i : Fl Binary64))
    {J : Matrix (Fin N) (Fin M) ℝ}
    (hJ : ∀ i j, J i j = ∫ s in (P j).region, 6.6743e-11 * (s.u - (q i).u) / dist3 (q i) s ^ 3)
    {X : Matrix (Fin M) (Fin N) ℝ} (hX : X * J = 1) {δ : Fin N → Fin M → ℝ}
    (hδ : ∀ i j, δ i j = 2 ^ (-46 : ℤ) * (6.6743e-11 * |ρ j| * totalSize .u (q i) (P j))) {ε : Fin N → ℝ}
    (hε : ∀ i, ε i = ∑ j, δ i j + ((1 + 2 ^ (-53 : ℤ)) ^ (M - 1) - 1) * ∑ j, (|ρ j * J i j| + δ i j)) (j : Fin M) :
    |X.mulVec y j - ρ j| ≤ ∑ i, |X j i| * ε i := by
  have hd : ∀ i, |y i - J.mulVec ρ i| ≤ ε i := by
    intro i
    have := C86_newton hP q ρ hm hρ h (hy i) (x := fun j => ρ j * J i j) (δ := δ i) (fun j => by
      rw [hJ, ← MeasureTheory.integral_const_mul]
      refine MeasureTheory.integral_congr_ae (.of_forall fun s => ?_)
      dsimp only
      ring) (hδ i)
    rw [hε i]
    have e : J.mulVec ρ i = ∑ j, ρ j * J i j := by
      simp only [Matrix.mulVec, dotProduct]
      exact Finset.sum_congr rfl fun j _ => mul_comm _ _
    rw [e]
    exact this
  have e : X.mulVec y j - ρ j = ∑ i, X j i * (y i - J.mulVec ρ i) := by
    have h1 : X.mulVec (J.mulVec ρ) = ρ := by rw [Matrix.mulVec_mulVec, hX, Matrix.one_mulVec]
    have h2 := congrFun h1 j
    simp only [mul_sub, Finset.sum_sub_distrib]
    rw [← h2]
    rfl
  rw [e]
  refine (Finset.abs_sum_le_sum_abs _ _).trans (Finset.sum_le_sum fun i _ => ?_)
  rw [abs_mul]
  exact mul_le_mul_of_nonneg_left (hd i) (abs_nonneg _)

/-- non-vacuity: two prisms side by side and three points, two of them the same, outside a box around the prisms -/
example : ∃ (P : Fin 2 → Box) (B : Box) (q : Fin 3 → Pt), (∀ i, (P i).Proper) ∧
    (Pairwise fun i j => Disjoint (P i).inside (P j).inside) ∧ (∀ i, (P i).region ⊆ B.region) ∧ 2 ≤ 3 ∧
    ∀ i, q i ∉ B.region := by
  refine ⟨![⟨0, 1, 0, 1, -1, 0⟩, ⟨1, 2, 0, 1, -1, 0⟩], ⟨0, 2, 0, 1, -1, 0⟩, ![(0, 0, 1), (0, 0, 1), (1, 1, 2)], ?_, ?_, ?_,
    by norm_num, ?_⟩
  · intro i; fin_cases i <;> norm_num [Box.Proper]
  · have key : Disjoint (Box.inside ⟨0, 1, 0, 1, -1, 0⟩) (Box.inside ⟨1, 2, 0, 1, -1, 0⟩) := by
      rw [Set.disjoint_left]
      rintro s ⟨⟨_, h1⟩, _⟩ ⟨⟨h2, _⟩, _⟩
      exact absurd (h2.trans h1) (lt_irrefl _)
    intro i j hij
    fin_cases i <;> fin_cases j
    · exact absurd rfl hij
    · exact key
    · exact key.symm
    · exact absurd rfl hij
  · intro i
    fin_cases i
    · exact prod_mono (Icc_subset_Icc (by norm_num) (by norm_num)) Subset.rfl
    · exact prod_mono (Icc_subset_Icc (by norm_num) (by norm_num)) Subset.rfl
  · intro i; fin_cases i <;> norm_num [Box.region]

end Choclo
