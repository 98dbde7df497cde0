import Verif.Lemmas.Refine
import Verif.Spec.Models

/-! # C126: what gravity and magnetic data determine about a model made of prisms -/

namespace Choclo

open Real Set MeasureTheory Filter Topology Classical

variable {ι κ : Type*} {P : ι → Box} {Q : κ → Box} {B : Box} {g : Grid}

/-- in the middle of a cell one is inside all prisms that contain the cell and outside all others -/
theorem exists_centre (hg : g.Strict) (t : ℕ × ℕ × ℕ) :
    ∃ s : Pt, ∀ {R : Box} (k : Block g R), (s ∈ R.region → s ∈ R.inside) ∧ (s ∈ R.region ↔ t ∈ k.cells) := by
  have m : ∀ {x : ℕ → ℝ}, StrictMono x → ∀ i, x i < (x i + x (i + 1)) / 2 ∧ (x i + x (i + 1)) / 2 < x (i + 1) := by
    intro x hx i
    have := hx (Nat.lt_succ_self i)
    constructor <;> linarith
  obtain ⟨i1, i2⟩ := m hg.1 t.1
  obtain ⟨j1, j2⟩ := m hg.2.1 t.2.1
  obtain ⟨l1, l2⟩ := m hg.2.2 t.2.2
  refine ⟨((g.x t.1 + g.x (t.1 + 1)) / 2, (g.y t.2.1 + g.y (t.2.1 + 1)) / 2, (g.z t.2.2 + g.z (t.2.2 + 1)) / 2),
    fun {R} k => ?_⟩
  set s : Pt := ((g.x t.1 + g.x (t.1 + 1)) / 2, (g.y t.2.1 + g.y (t.2.1 + 1)) / 2, (g.z t.2.2 + g.z (t.2.2 + 1)) / 2) with hs
  have e := k.eq
  have up : ∀ {x : ℕ → ℝ}, StrictMono x → ∀ {a i : ℕ} {t : ℝ}, x a ≤ t → t < x (i + 1) → a ≤ i := fun {_} hx {_ _ _} h1 h2 =>
    Nat.lt_succ_iff.1 (hx.lt_iff_lt.1 (h1.trans_lt h2))
  have dn : ∀ {x : ℕ → ℝ}, StrictMono x → ∀ {a i : ℕ} {t : ℝ}, x i < t → t ≤ x a → i < a := fun {_} hx {_ _ _} h1 h2 =>
    hx.lt_iff_lt.1 (h1.trans_le h2)
  have fwd : s ∈ R.region → t ∈ k.cells := by
    intro h
    rw [e] at h
    obtain ⟨⟨q1, q2⟩, ⟨q3, q4⟩, ⟨q5, q6⟩⟩ := h
    exact (k.mem_cells t).2
      ⟨⟨up hg.1 q1 i2, dn hg.1 i1 q2⟩, ⟨up hg.2.1 q3 j2, dn hg.2.1 j1 q4⟩, up hg.2.2 q5 l2, dn hg.2.2 l1 q6⟩
  have bwd : t ∈ k.cells → s ∈ R.inside := by
    intro h
    obtain ⟨⟨q1, q2⟩, ⟨q3, q4⟩, q5, q6⟩ := (k.mem_cells t).1 h
    rw [e]
    exact ⟨⟨(hg.1.monotone q1).trans_lt i1, i2.trans_le (hg.1.monotone q2)⟩,
      ⟨(hg.2.1.monotone q3).trans_lt j1, j2.trans_le (hg.2.1.monotone q4)⟩,
      ⟨(hg.2.2.monotone q5).trans_lt l1, l2.trans_le (hg.2.2.monotone q6)⟩⟩
  exact ⟨fun h => bwd (fwd h), fwd, fun h => inside_subset_region (bwd h)⟩

/-- sums over prisms as sums over the cells of a grid -/
theorem sum_cells [Fintype ι] {V : Type*} [AddCommMonoid V] (k : ∀ i, Block g (P i)) (w : ι → V) (G : V → ℕ × ℕ × ℕ → ℝ)
    (hz : ∀ t, G 0 t = 0) (hadd : ∀ x y t, G (x + y) t = G x t + G y t) :
    ∑ i, ∑ t ∈ (k i).cells, G (w i) t
      = ∑ t ∈ Finset.univ.biUnion fun i => (k i).cells, G (∑ i, if t ∈ (k i).cells then w i else 0) t := by
  have hsum : ∀ (s : Finset ι) (f : ι → V) t, G (∑ i ∈ s, f i) t = ∑ i ∈ s, G (f i) t := by
    intro s f t
    induction s using Finset.induction_on with
    | empty => simp [hz]
    | insert a s ha ih => rw [Finset.sum_insert ha, Finset.sum_insert ha, hadd, ih]
  simp only [hsum]
  rw [Finset.sum_comm]
  refine Finset.sum_congr rfl fun i _ => ?_
  rw [← Finset.sum_subset (Finset.subset_biUnion_of_mem (fun i => (k i).cells) (Finset.mem_univ i)) (fun t _ ht => by
    rw [if_neg ht, hz])]
  exact Finset.sum_congr rfl fun t ht => by rw [if_pos ht]

/-- the total density (or magnetization) at a point of cell `t` -/
theorem density_cell [Fintype ι] {V : Type*} [AddCommMonoid V] (k : ∀ i, Block g (P i)) (w : ι → V)
    {t : ℕ × ℕ × ℕ} {s : Pt} (hs : ∀ i, s ∈ (P i).region ↔ t ∈ (k i).cells) :
    totalAt P w s = ∑ i, if t ∈ (k i).cells then w i else 0 :=
  Finset.sum_congr rfl fun i _ => by simp only [hs]

theorem density_zero [Fintype ι] {V : Type*} [AddCommMonoid V] (hg : g.Strict) (k : ∀ i, Block g (P i)) (w : ι → V) :
    (∀ s, OffFaces P s → totalAt P w s = 0) ↔ ∀ t, (∑ i, if t ∈ (k i).cells then w i else 0) = 0 := by
  constructor
  · intro h t
    obtain ⟨s, hs⟩ := exists_centre hg t
    rw [← density_cell k w fun i => (hs (k i)).2]
    exact h s fun i => (hs (k i)).1
  · intro h s hs
    by_cases hin : ∃ i, s ∈ (P i).region
    · obtain ⟨i, hi⟩ := hin
      obtain ⟨t, ht⟩ := exists_cell hg (k i) hi
      rw [density_cell k w fun i => ht (k i) (hs i)]
      exact h t
    · push Not at hin
      exact Finset.sum_eq_zero fun i _ => if_neg (hin i)

theorem Vc_cells {R : Box} (k : Block g R) (hg : g.Strict) (c : GComp) {q : Pt} (hq : q ∉ R.region) :
    Vc c q R = ∑ t ∈ k.cells, Vc c q (g.cell t.1 t.2.1 t.2.2) :=
  (k.sum (fun R => Vc c q R) (fun _ hg' e => Vc_grid hg' (.inr (.inl (e ▸ hq)))) hg).symm

theorem Bc_cells {R : Box} (k : Block g R) (hg : g.Strict) (c : MComp) {q : Pt} (hq : q ∉ R.region) (M : Vec) :
    Bc c q R M.e M.n M.u = ∑ t ∈ k.cells, Bc c q (g.cell t.1 t.2.1 t.2.2) M.e M.n M.u :=
  (k.sum (fun R => Bc c q R M.e M.n M.u) (fun _ hg' e => Bc_grid hg' c (e ▸ hq) M) hg).symm

/-- one component of the total vanishes on a patch outside if and only if the total density vanishes -/
theorem model_zero [Fintype ι] (hP : ∀ i, (P i).Proper) (k : ι → ℝ) (c : GComp) (hB : ∀ i, (P i).region ⊆ B.region)
    {U : Set Pt} (hU : IsOpen U) (hne : ∃ q ∈ U, q ∉ B.region) :
    (∀ q ∈ U, q ∉ B.region → ∑ i, k i * Vc c q (P i) = 0) ↔ ∀ s, OffFaces P s → totalAt P k s = 0 := by
  obtain ⟨g, hg, bl⟩ := exists_grid P hP
  have bk : ∀ i, Block g (P i) := fun i => (bl i).some
  set T := Finset.univ.biUnion fun i => (bk i).cells with hT
  have sub : ∀ t ∈ T, (g.cell t.1 t.2.1 t.2.2).region ⊆ B.region := by
    intro t ht
    obtain ⟨i, _, hi⟩ := Finset.mem_biUnion.1 ht
    exact ((bk i).cell_subset hg hi).trans (hB i)
  have tot : ∀ q, q ∉ B.region → ∑ i, k i * Vc c q (P i)
      = ∑ t ∈ T, (∑ i, if t ∈ (bk i).cells then k i else 0) * Vc c q (g.cell t.1 t.2.1 t.2.2) := by
    intro q hq
    rw [← sum_cells bk k (fun x t => x * Vc c q (g.cell t.1 t.2.1 t.2.2)) (fun _ => zero_mul _) (fun _ _ _ => add_mul _ _ _)]
    refine Finset.sum_congr rfl fun i _ => ?_
    rw [Vc_cells (bk i) hg c (fun hm => hq (hB i hm)), Finset.mul_sum]
  rw [density_zero hg bk k]
  constructor
  · intro h t
    by_contra ht
    have key := independent (P := fun t : ℕ × ℕ × ℕ => g.cell t.1 t.2.1 t.2.2) hg.proper hg.corners
      (fun t => ∑ i, if t ∈ (bk i).cells then k i else 0)
      (T.filter fun t => (∑ i, if t ∈ (bk i).cells then k i else 0) ≠ 0) (fun t ht => (Finset.mem_filter.1 ht).2) c
      (fun t ht => sub t (Finset.mem_filter.1 ht).1) hU hne (fun q hq hq' => by
        rw [Finset.sum_filter_of_ne, ← tot q hq']
        · exact h q hq hq'
        · intro t _ h0 h1
          exact h0 (by rw [h1, zero_mul]))
    rw [Finset.filter_eq_empty_iff] at key
    have htT : t ∈ T := by
      by_contra hn
      refine ht (Finset.sum_eq_zero fun i _ => if_neg fun hi => hn (Finset.mem_biUnion.2 ⟨i, Finset.mem_univ i, hi⟩))
    exact key htT ht
  · intro h q _ hq'
    rw [tot q hq']
    exact Finset.sum_eq_zero fun t _ => by rw [h t, zero_mul]

theorem Bc_add {Q : Box} (hQ : Q.Ordered) (c : MComp) {q : Pt} (h : q ∉ Q.region) (M N : Vec) :
    Bc c q Q (M + N).e (M + N).n (M + N).u = Bc c q Q M.e M.n M.u + Bc c q Q N.e N.n N.u := by
  obtain ⟨k1, k2, k3, hk⟩ := Bc_outside hQ c
  rw [hk _ h, hk _ h, hk _ h]
  simp only [Pt.e, Pt.n, Pt.u, Prod.fst_add, Prod.snd_add]
  ring

theorem Bc_none {Q : Box} (hQ : Q.Ordered) (c : MComp) {q : Pt} (h : q ∉ Q.region) :
    Bc c q Q (0 : Vec).e (0 : Vec).n (0 : Vec).u = 0 := by
  have := Bc_add hQ c h 0 0
  rw [add_zero] at this
  linarith

/-- one component of the total vanishes on a patch outside if and only if the total magnetization vanishes -/
theorem model_zero_mag [Fintype ι] (hP : ∀ i, (P i).Proper) (M : ι → Vec) (c : MComp)
    (hB : ∀ i, (P i).region ⊆ B.region) {U : Set Pt} (hU : IsOpen U) (hne : ∃ q ∈ U, q ∉ B.region) :
    (∀ q ∈ U, q ∉ B.region → ∑ i, Bc c q (P i) (M i).e (M i).n (M i).u = 0) ↔
      ∀ s, OffFaces P s → totalAt P M s = 0 := by
  obtain ⟨g, hg, bl⟩ := exists_grid P hP
  have bk : ∀ i, Block g (P i) := fun i => (bl i).some
  set T := Finset.univ.biUnion fun i => (bk i).cells with hT
  have sub : ∀ t ∈ T, (g.cell t.1 t.2.1 t.2.2).region ⊆ B.region := by
    intro t ht
    obtain ⟨i, _, hi⟩ := Finset.mem_biUnion.1 ht
    exact ((bk i).cell_subset hg hi).trans (hB i)
  set N : ℕ × ℕ × ℕ → Vec := fun t => ∑ i, if t ∈ (bk i).cells then M i else 0 with hN
  have tot : ∀ q, q ∉ B.region → ∑ i, Bc c q (P i) (M i).e (M i).n (M i).u
      = ∑ t ∈ T, Bc c q (g.cell t.1 t.2.1 t.2.2) (N t).e (N t).n (N t).u := by
    intro q hq
    have ho : ∀ t, t ∈ T → q ∉ (g.cell t.1 t.2.1 t.2.2).region := fun t ht hm => hq (sub t ht hm)
    have hs := sum_cells bk M
      (fun x t => if t ∈ T then Bc c q (g.cell t.1 t.2.1 t.2.2) x.e x.n x.u else 0)
      (fun t => by
        split_ifs with h
        · exact Bc_none (hg.proper t).ordered c (ho t h)
        · rfl)
      (fun x y t => by
        split_ifs with h
        · exact Bc_add (hg.proper t).ordered c (ho t h) x y
        · rw [add_zero])
    refine Eq.trans ?_ (hs.trans ?_)
    · refine Finset.sum_congr rfl fun i _ => ?_
      rw [Bc_cells (bk i) hg c (fun hm => hq (hB i hm))]
      exact Finset.sum_congr rfl fun t ht => (if_pos (Finset.mem_biUnion.2 ⟨i, Finset.mem_univ i, ht⟩)).symm
    · exact Finset.sum_congr rfl fun t ht => if_pos ht
  rw [density_zero hg bk M]
  constructor
  · intro h t
    by_contra ht
    have key := independent_mag (P := fun t : ℕ × ℕ × ℕ => g.cell t.1 t.2.1 t.2.2) hg.proper hg.corners
      N (T.filter fun t => N t ≠ 0) (fun t ht => (Finset.mem_filter.1 ht).2) c
      (fun t ht => sub t (Finset.mem_filter.1 ht).1) hU hne (fun q hq hq' => by
        rw [← Finset.mul_sum, Finset.sum_filter_of_ne, ← tot q hq', h q hq hq', mul_zero]
        intro t ht h0 h1
        refine h0 ?_
        rw [h1]
        exact Bc_none (hg.proper t).ordered c fun hm => hq' (sub t ht hm))
    rw [Finset.filter_eq_empty_iff] at key
    have htT : t ∈ T := by
      by_contra hn
      refine ht (Finset.sum_eq_zero fun i _ => if_neg fun hi => hn (Finset.mem_biUnion.2 ⟨i, Finset.mem_univ i, hi⟩))
    exact key htT ht
  · intro h q _ hq'
    rw [tot q hq']
    refine Finset.sum_eq_zero fun t ht => ?_
    have e : N t = 0 := h t
    rw [e]
    exact Bc_none (hg.proper t).ordered c fun hm => hq' (sub t ht hm)

theorem offFaces_two {s : Pt} : OffFaces (Sum.elim P Q) s ↔ OffFaces P s ∧ OffFaces Q s := Sum.forall

theorem totalAt_two [Fintype ι] [Fintype κ] {V : Type*} [AddCommGroup V] (w : ι → V) (w' : κ → V) (s : Pt) :
    totalAt (Sum.elim P Q) (Sum.elim w fun j => -w' j) s = totalAt P w s - totalAt Q w' s := by
  unfold totalAt
  rw [Fintype.sum_sum_type, sub_eq_add_neg, ← Finset.sum_neg_distrib]
  congr 1
  refine Finset.sum_congr rfl fun j _ => ?_
  by_cases h : s ∈ (Q j).region
  · rw [if_pos h, if_pos (show s ∈ (Sum.elim P Q (Sum.inr j)).region from h)]
    rfl
  · rw [if_neg h, if_neg (show s ∉ (Sum.elim P Q (Sum.inr j)).region from h), neg_zero]

/-- **C126.** Two models made of prisms, of whatever number and shape, overlapping or not, have the same total of one
gravity component on a patch outside if and only if they are the same density distribution: the total density is the same
at every point that is on no face. -/
theorem C126_density [Fintype ι] [Fintype κ] (hP : ∀ i, (P i).Proper) (hQ : ∀ j, (Q j).Proper) (c : GComp) {ρ : ι → ℝ}
    {σ : κ → ℝ} (hB : ∀ i, (P i).region ⊆ B.region) (hB' : ∀ j, (Q j).region ⊆ B.region) {U : Set Pt} (hU : IsOpen U)
    (hne : ∃ q ∈ U, q ∉ B.region) :
    (∀ q ∈ U, q ∉ B.region → ∃ (f : ι → ℝ) (f' : κ → ℝ),
      (∀ i, Returns (onPrism (A := Exact) (prismGravity c) q (P i) (ρ i)) (f i)) ∧
      (∀ j, Returns (onPrism (A := Exact) (prismGravity c) q (Q j) (σ j)) (f' j)) ∧ ∑ i, f i = ∑ j, f' j) ↔
    ∀ s, OffFaces P s → OffFaces Q s → totalAt P ρ s = totalAt Q σ s := by
  have hO := fun i => (hP i).ordered
  have hO' := fun j => (hQ j).ordered
  have key := model_zero (P := Sum.elim P Q) (Sum.rec hP hQ) (Sum.elim ρ fun j => -σ j) c (Sum.rec hB hB') hU hne
  have e1 : ∀ q, ∑ x, Sum.elim ρ (fun j => -σ j) x * Vc c q (Sum.elim P Q x)
      = ∑ i, ρ i * Vc c q (P i) - ∑ j, σ j * Vc c q (Q j) := by
    intro q
    rw [Fintype.sum_sum_type]
    simp only [Sum.elim_inl, Sum.elim_inr, neg_mul, Finset.sum_neg_distrib, sub_eq_add_neg]
  simp only [e1, totalAt_two, sub_eq_zero, offFaces_two, and_imp] at key
  rw [← key]
  refine forall₃_congr fun q _ hq' => ?_
  have v : ∀ i, Returns (onPrism (A := Exact) (prismGravity c) q (P i) (ρ i)) (Gc * ρ i * Vc c q (P i)) :=
    fun i => Ex.gravity_returns (hO i) (exterior_singular (hO i) (fun hm => hq' (hB i hm)) c) (ρ i)
  have v' : ∀ i, Returns (onPrism (A := Exact) (prismGravity c) q (Q i) (σ i)) (Gc * σ i * Vc c q (Q i)) :=
    fun i => Ex.gravity_returns (hO' i) (exterior_singular (hO' i) (fun hm => hq' (hB' i hm)) c) (σ i)
  have m1 : ∑ i, Gc * ρ i * Vc c q (P i) = Gc * ∑ i, ρ i * Vc c q (P i) := by
    rw [Finset.mul_sum]; exact Finset.sum_congr rfl fun i _ => by ring
  have m2 : ∑ i, Gc * σ i * Vc c q (Q i) = Gc * ∑ i, σ i * Vc c q (Q i) := by
    rw [Finset.mul_sum]; exact Finset.sum_congr rfl fun i _ => by ring
  constructor
  · rintro ⟨f, f', hf, hf', e⟩
    rw [Finset.sum_congr rfl fun i _ => (hf i).inj (v i), Finset.sum_congr rfl fun j _ => (hf' j).inj (v' j), m1, m2] at e
    exact mul_left_cancel₀ Gc_pos.ne' e
  · intro e
    exact ⟨_, _, v, v', by rw [m1, m2, e]⟩

theorem Bc_minus {Q : Box} (hQ : Q.Ordered) (c : MComp) {q : Pt} (h : q ∉ Q.region) (M : Vec) :
    Bc c q Q (-M).e (-M).n (-M).u = -Bc c q Q M.e M.n M.u := by
  have := Bc_add hQ c h M (-M)
  rw [add_neg_cancel, Bc_none hQ c h] at this
  linarith

/-- **C126.** Two models made of uniformly magnetized prisms, of whatever number and shape, overlapping or not, have the
same total of one component of the magnetic field or of its gradient on a patch outside if and only if they are the same
magnetization distribution. -/
theorem C126_magnetization [Fintype ι] [Fintype κ] (hP : ∀ i, (P i).Proper) (hQ : ∀ j, (Q j).Proper) (c : MComp)
    {M : ι → Vec} {N : κ → Vec} (hB : ∀ i, (P i).region ⊆ B.region) (hB' : ∀ j, (Q j).region ⊆ B.region) {U : Set Pt}
    (hU : IsOpen U) (hne : ∃ q ∈ U, q ∉ B.region) :
    (∀ q ∈ U, q ∉ B.region → ∃ (f : ι → ℝ) (f' : κ → ℝ),
      (∀ i, Returns (onPrism (A := Exact) (prismMagnetic c) q (P i) (M i).e (M i).n (M i).u) (f i)) ∧
      (∀ j, Returns (onPrism (A := Exact) (prismMagnetic c) q (Q j) (N j).e (N j).n (N j).u) (f' j)) ∧
      ∑ i, f i = ∑ j, f' j) ↔
    ∀ s, OffFaces P s → OffFaces Q s → totalAt P M s = totalAt Q N s := by
  have hO := fun i => (hP i).ordered
  have hO' := fun j => (hQ j).ordered
  have key := model_zero_mag (P := Sum.elim P Q) (Sum.rec hP hQ) (Sum.elim M fun j => -N j) c (Sum.rec hB hB') hU hne
  simp only [totalAt_two, sub_eq_zero, offFaces_two, and_imp] at key
  rw [← key]
  refine forall₃_congr fun q _ hq' => ?_
  have o : ∀ i, q ∉ (P i).region := fun i hm => hq' (hB i hm)
  have o' : ∀ i, q ∉ (Q i).region := fun i hm => hq' (hB' i hm)
  have v := fun i => magnetic_call_val (hO i) c (M i) (o i)
  have v' := fun j => magnetic_call_val (hO' j) c (N j) (o' j)
  have e1 : ∑ x, Bc c q (Sum.elim P Q x) (Sum.elim M (fun j => -N j) x).e (Sum.elim M (fun j => -N j) x).n
        (Sum.elim M (fun j => -N j) x).u
      = ∑ i, Bc c q (P i) (M i).e (M i).n (M i).u - ∑ j, Bc c q (Q j) (N j).e (N j).n (N j).u := by
    rw [Fintype.sum_sum_type, sub_eq_add_neg, ← Finset.sum_neg_distrib]
    congr 1
    exact Finset.sum_congr rfl fun j _ => Bc_minus (hO' j) c (o' j) (N j)
  have hmu : mu0 / 4 / π ≠ 0 := (div_pos (div_pos mu0_pos (by norm_num)) pi_pos).ne'
  rw [e1, sub_eq_zero]
  constructor
  · rintro ⟨f, f', hf, hf', e⟩
    rw [Finset.sum_congr rfl fun i _ => (hf i).inj (v i), Finset.sum_congr rfl fun j _ => (hf' j).inj (v' j),
      ← Finset.mul_sum, ← Finset.mul_sum] at e
    exact mul_left_cancel₀ hmu e
  · intro e
    exact ⟨_, _, v, v', by rw [← Finset.mul_sum, ← Finset.mul_sum, e]⟩

/-- non-vacuity: one prism, and the same prism as two halves -/
example : ∃ (P : Fin 1 → Box) (Q : Fin 2 → Box) (B : Box), (∀ i, (P i).Proper) ∧ (∀ j, (Q j).Proper) ∧
    (∀ i, (P i).region ⊆ B.region) ∧ (∀ j, (Q j).region ⊆ B.region) ∧
    (∀ s, OffFaces P s → OffFaces Q s → totalAt P (fun _ => (3 : ℝ)) s = totalAt Q (fun _ => (3 : ℝ)) s) ∧
    ¬ ∀ s, OffFaces P s → OffFaces Q s → totalAt P (fun _ => (3 : ℝ)) s = totalAt Q (fun j => if j = 0 then (3 : ℝ) else 4) s := by
  refine ⟨![⟨0, 2, 0, 1, -1, 0⟩], ![⟨0, 1, 0, 1, -1, 0⟩, ⟨1, 2, 0, 1, -1, 0⟩], ⟨0, 2, 0, 1, -1, 0⟩, ?_, ?_, ?_, ?_, ?_, ?_⟩
  · intro i; fin_cases i; norm_num [Box.Proper]
  · intro i; fin_cases i <;> norm_num [Box.Proper]
  · intro i; fin_cases i; exact Subset.rfl
  · intro i
    fin_cases i
    · exact prod_mono (Icc_subset_Icc (by norm_num) (by norm_num)) Subset.rfl
    · exact prod_mono (Icc_subset_Icc (by norm_num) (by norm_num)) Subset.rfl
  · rintro ⟨x, y, z⟩ hp hq
    have h1 := hq 0
    have h2 := hq 1
    simp only [totalAt, Fin.sum_univ_two, Fin.sum_univ_one, Box.region, Box.inside, Matrix.cons_val_zero, Matrix.cons_val_one,
      mem_prod, mem_Icc, mem_Ioo] at h1 h2 ⊢
    by_cases hyz : (0 ≤ y ∧ y ≤ 1) ∧ (-1 ≤ z ∧ z ≤ 0)
    · simp only [hyz, and_true] at h1 h2 ⊢
      rcases lt_trichotomy x 1 with h | h | h
      · have a1 : ¬ (1 ≤ x ∧ x ≤ 2) := fun h' => absurd h'.1 (not_le.2 h)
        have a2 : (0 ≤ x ∧ x ≤ 1) ↔ (0 ≤ x ∧ x ≤ 2) := ⟨fun h' => ⟨h'.1, by linarith⟩, fun h' => ⟨h'.1, h.le⟩⟩
        simp only [a1, a2, if_false, add_zero]
      · exact absurd (h1 ⟨by linarith, by linarith⟩).1.2 (by linarith)
      · have a1 : ¬ (0 ≤ x ∧ x ≤ 1) := fun h' => absurd h'.2 (not_le.2 h)
        have a2 : (1 ≤ x ∧ x ≤ 2) ↔ (0 ≤ x ∧ x ≤ 2) := ⟨fun h' => ⟨by linarith, h'.2⟩, fun h' => ⟨h.le, h'.2⟩⟩
        simp only [a1, a2, if_false, zero_add]
    · simp only [hyz, and_false, if_false, add_zero]
  · intro h
    have h1 := h (3 / 2, 1 / 2, -1 / 2)
      (fun i _ => by fin_cases i; norm_num [Box.inside])
      (fun i hi => by
        fin_cases i
        · norm_num [Box.region] at hi
        · norm_num [Box.inside])
    norm_num [totalAt, Box.region, Fin.sum_univ_two] at h1

end Choclo
