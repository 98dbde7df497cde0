import Verif.Props.Independence2
import Verif.Props.Grid

/-! # Finite families of prisms as blocks of one grid -/

namespace Choclo

open Real Set

/-- the elements of a finite set of numbers in increasing order -/
theorem exists_enum (X : Finset ℝ) : ∃ (x : ℕ → ℝ) (n : ℕ), StrictMono x ∧ ∀ t, t ∈ X ↔ ∃ i < n, x i = t := by
  induction X using Finset.induction_on_max with
  | empty => exact ⟨fun i => i, 0, fun _ _ h => Nat.cast_lt.2 h, fun t => by simp⟩
  | insert a s ha ih =>
    obtain ⟨x, n, hx, hs⟩ := ih
    refine ⟨fun i => if i < n then x i else a + ((i : ℝ) - n), n + 1, fun i j hij => ?_, fun t => ?_⟩
    · have hij' : (i : ℝ) < j := Nat.cast_lt.2 hij
      dsimp only
      split_ifs with h1 h2
      · exact hx hij
      · have := ha _ ((hs (x i)).2 ⟨i, h1, rfl⟩)
        have : (n : ℝ) ≤ j := Nat.cast_le.2 (not_lt.1 h2)
        linarith
      · omega
      · linarith
    · rw [Finset.mem_insert, hs]
      constructor
      · rintro (rfl | ⟨i, hi, rfl⟩)
        · exact ⟨n, Nat.lt_succ_self n, by simp⟩
        · exact ⟨i, hi.trans (Nat.lt_succ_self n), by simp [hi]⟩
      · rintro ⟨i, hi, e⟩
        dsimp only at e
        split_ifs at e with h
        · exact .inr ⟨i, h, e⟩
        · left
          obtain rfl : i = n := by omega
          rw [← e]; ring

/-- strictly ordered planes in all three directions -/
def Grid.Strict (g : Grid) : Prop := StrictMono g.x ∧ StrictMono g.y ∧ StrictMono g.z

/-- which block of cells of the grid a prism is -/
structure Block (g : Grid) (P : Box) where
  a : ℕ
  a' : ℕ
  b : ℕ
  b' : ℕ
  c : ℕ
  c' : ℕ
  ha : a < a'
  hb : b < b'
  hc : c < c'
  eq : P = g.block a a' b b' c c'

/-- the cells of a block -/
def Block.cells {g : Grid} {P : Box} (k : Block g P) : Finset (ℕ × ℕ × ℕ) :=
  Finset.Ico k.a k.a' ×ˢ Finset.Ico k.b k.b' ×ˢ Finset.Ico k.c k.c'

variable {g : Grid} {P : Box}

theorem Block.sum (k : Block g P) (F : Box → ℝ) (hF : ∀ g' : Grid, g'.Valid → g'.whole = P →
      ∑ t ∈ g'.indices, F (g'.cell t.1 t.2.1 t.2.2) = F g'.whole) (hg : g.Strict) :
    ∑ t ∈ k.cells, F (g.cell t.1 t.2.1 t.2.2) = F P := by
  obtain ⟨a, a', b, b', c, c', ha, hb, hc, rfl⟩ := k
  have sh : ∀ n : ℕ, StrictMono fun i => n + i := fun n _ _ h => Nat.add_lt_add_left h n
  have h := hF ⟨fun i => g.x (a + i), fun i => g.y (b + i), fun i => g.z (c + i), a' - a, b' - b, c' - c⟩
    ⟨(hg.1.comp (sh a)).monotone, (hg.2.1.comp (sh b)).monotone, (hg.2.2.comp (sh c)).monotone, by dsimp only; omega,
      by dsimp only; omega, by dsimp only; omega⟩
    (by simp only [Grid.whole, Grid.block, Nat.add_sub_cancel' ha.le, Nat.add_sub_cancel' hb.le,
      Nat.add_sub_cancel' hc.le, Nat.add_zero])
  simp only [Grid.whole, Nat.add_sub_cancel' ha.le, Nat.add_sub_cancel' hb.le, Nat.add_sub_cancel' hc.le,
    Nat.add_zero] at h
  change _ = F (g.block a a' b b' c c') at h
  rw [← h]
  simp only [Block.cells, Grid.indices, Finset.sum_product, Finset.sum_Ico_eq_sum_range]
  rfl

/-- all prisms of a finite family are blocks of one grid -/
theorem exists_grid {ι : Type*} [Fintype ι] (P : ι → Box) (hP : ∀ i, (P i).Proper) :
    ∃ g : Grid, g.Strict ∧ ∀ i, Nonempty (Block g (P i)) := by
  classical
  have key : ∀ lo hi : ι → ℝ, ∃ x : ℕ → ℝ, StrictMono x ∧ ∀ i, (∃ j, x j = lo i) ∧ ∃ j, x j = hi i := by
    intro lo hi
    obtain ⟨x, n, hx, h⟩ := exists_enum (Finset.univ.image lo ∪ Finset.univ.image hi)
    refine ⟨x, hx, fun i => ⟨?_, ?_⟩⟩
    · obtain ⟨j, _, e⟩ := (h (lo i)).1 (Finset.mem_union_left _ (Finset.mem_image_of_mem lo (Finset.mem_univ i)))
      exact ⟨j, e⟩
    · obtain ⟨j, _, e⟩ := (h (hi i)).1 (Finset.mem_union_right _ (Finset.mem_image_of_mem hi (Finset.mem_univ i)))
      exact ⟨j, e⟩
  obtain ⟨x, hx, h1⟩ := key (fun i => (P i).west) fun i => (P i).east
  obtain ⟨y, hy, h2⟩ := key (fun i => (P i).south) fun i => (P i).north
  obtain ⟨z, hz, h3⟩ := key (fun i => (P i).bottom) fun i => (P i).top
  refine ⟨⟨x, y, z, 0, 0, 0⟩, ⟨hx, hy, hz⟩, fun i => ?_⟩
  obtain ⟨⟨a, e1⟩, ⟨a', e1'⟩⟩ := h1 i
  obtain ⟨⟨b, e2⟩, ⟨b', e2'⟩⟩ := h2 i
  obtain ⟨⟨c, e3⟩, ⟨c', e3'⟩⟩ := h3 i
  obtain ⟨o1, o2, o3⟩ := hP i
  refine ⟨⟨a, a', b, b', c, c', hx.lt_iff_lt.1 ?_, hy.lt_iff_lt.1 ?_, hz.lt_iff_lt.1 ?_, ?_⟩⟩
  · rw [e1, e1']; exact o1
  · rw [e2, e2']; exact o2
  · rw [e3, e3']; exact o3
  · simp only [Grid.block, e1, e1', e2, e2', e3, e3']

theorem Grid.Strict.proper (hg : g.Strict) (t : ℕ × ℕ × ℕ) : (g.cell t.1 t.2.1 t.2.2).Proper :=
  ⟨hg.1 (Nat.lt_succ_self _), hg.2.1 (Nat.lt_succ_self _), hg.2.2 (Nat.lt_succ_self _)⟩

theorem Grid.Strict.corners (hg : g.Strict) : Function.Injective fun t : ℕ × ℕ × ℕ => (g.cell t.1 t.2.1 t.2.2).highCorner := by
  intro s t h
  have h1 : g.x (s.1 + 1) = g.x (t.1 + 1) := congrArg Pt.e h
  have h2 : g.y (s.2.1 + 1) = g.y (t.2.1 + 1) := congrArg Pt.n h
  have h3 : g.z (s.2.2 + 1) = g.z (t.2.2 + 1) := congrArg Pt.u h
  exact Prod.ext (Nat.succ_injective (hg.1.injective h1)) (Prod.ext (Nat.succ_injective (hg.2.1.injective h2))
    (Nat.succ_injective (hg.2.2.injective h3)))

theorem Block.mem_cells (k : Block g P) (t : ℕ × ℕ × ℕ) :
    t ∈ k.cells ↔ (k.a ≤ t.1 ∧ t.1 < k.a') ∧ (k.b ≤ t.2.1 ∧ t.2.1 < k.b') ∧ k.c ≤ t.2.2 ∧ t.2.2 < k.c' := by
  simp only [Block.cells, Finset.mem_product, Finset.mem_Ico]

theorem Block.cell_subset (k : Block g P) (hg : g.Strict) {t : ℕ × ℕ × ℕ} (ht : t ∈ k.cells) :
    (g.cell t.1 t.2.1 t.2.2).region ⊆ P.region := by
  obtain ⟨⟨h1, h2⟩, ⟨h3, h4⟩, h5, h6⟩ := (k.mem_cells t).1 ht
  have e := k.eq
  rw [e]
  exact prod_mono (Icc_subset_Icc (hg.1.monotone h1) (hg.1.monotone h2))
    (prod_mono (Icc_subset_Icc (hg.2.1.monotone h3) (hg.2.1.monotone h4))
      (Icc_subset_Icc (hg.2.2.monotone h5) (hg.2.2.monotone h6)))

/-- the cell of a point: the same for all blocks -/
theorem exists_cell (hg : g.Strict) {s : Pt} (k0 : Block g P) (h0 : s ∈ P.region) :
    ∃ t : ℕ × ℕ × ℕ, ∀ {Q : Box} (k : Block g Q), (s ∈ Q.region → s ∈ Q.inside) → (s ∈ Q.region ↔ t ∈ k.cells) := by
  have key : ∀ (x : ℕ → ℝ) (hx : StrictMono x) {a a' : ℕ} {t : ℝ}, x a ≤ t → t ≤ x a' →
      ∃ i, x i ≤ t ∧ t < x (i + 1) := by
    intro x hx a a' t h1 h2
    have hb : ∀ j, x j ≤ t → j ≤ a' := fun j hj => hx.le_iff_le.1 (hj.trans h2)
    classical
    refine ⟨Nat.findGreatest (fun j => x j ≤ t) a', Nat.findGreatest_spec (P := fun j => x j ≤ t) (hb a h1) h1, ?_⟩
    by_contra hn
    have h3 := not_lt.1 hn
    have := Nat.le_findGreatest (P := fun j => x j ≤ t) (hb _ h3) h3
    omega
  have e0 := k0.eq
  rw [e0] at h0
  obtain ⟨⟨p1, p2⟩, ⟨p3, p4⟩, ⟨p5, p6⟩⟩ := h0
  obtain ⟨i, i1, i2⟩ := key g.x hg.1 p1 p2
  obtain ⟨j, j1, j2⟩ := key g.y hg.2.1 p3 p4
  obtain ⟨l, l1, l2⟩ := key g.z hg.2.2 p5 p6
  refine ⟨(i, j, l), fun {Q} k hk => ?_⟩
  have e := k.eq
  rw [k.mem_cells]
  constructor
  · intro h
    have h := hk h
    rw [e] at h
    obtain ⟨⟨q1, q2⟩, ⟨q3, q4⟩, ⟨q5, q6⟩⟩ := h
    have up : ∀ {x : ℕ → ℝ}, StrictMono x → ∀ {a i : ℕ} {t : ℝ}, x a < t → t < x (i + 1) → a ≤ i := fun {_} hx {_ _ _} h1 h2 =>
      Nat.lt_succ_iff.1 (hx.lt_iff_lt.1 (h1.trans h2))
    have dn : ∀ {x : ℕ → ℝ}, StrictMono x → ∀ {a i : ℕ} {t : ℝ}, x i ≤ t → t < x a → i < a := fun {_} hx {_ _ _} h1 h2 =>
      hx.lt_iff_lt.1 (h1.trans_lt h2)
    exact ⟨⟨up hg.1 q1 i2, dn hg.1 i1 q2⟩, ⟨up hg.2.1 q3 j2, dn hg.2.1 j1 q4⟩, up hg.2.2 q5 l2, dn hg.2.2 l1 q6⟩
  · rintro ⟨⟨q1, q2⟩, ⟨q3, q4⟩, q5, q6⟩
    rw [e]
    exact ⟨⟨(hg.1.monotone q1).trans i1, i2.le.trans (hg.1.monotone q2)⟩,
      ⟨(hg.2.1.monotone q3).trans j1, j2.le.trans (hg.2.1.monotone q4)⟩,
      ⟨(hg.2.2.monotone q5).trans l1, l2.le.trans (hg.2.2.monotone q6)⟩⟩

end Choclo
