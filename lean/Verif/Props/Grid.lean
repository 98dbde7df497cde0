import Verif.Spec.Grid
import Verif.Props.FarField
import Verif.Props.PrismSym

/-! # C76: prisms subdivided into cells, and into point masses and dipoles -/

namespace Choclo

open Real Set MeasureTheory

variable {g : Grid} {p : Pt}

/-- any block of consecutive cells -/
def Grid.block (g : Grid) (i i' j j' k k' : ℕ) : Box := ⟨g.x i, g.x i', g.y j, g.y j', g.z k, g.z k'⟩

theorem Grid.block_ordered (hg : g.Valid) {i i' j j' k k' : ℕ} (hi : i ≤ i') (hj : j ≤ j') (hk : k ≤ k') :
    (g.block i i' j j' k k').Ordered := ⟨hg.1 hi, hg.2.1 hj, hg.2.2.1 hk⟩

theorem Grid.block_region (hg : g.Valid) {i i' j j' k k' : ℕ} (hi : i' ≤ g.nx) (hj : j' ≤ g.ny) (hk : k' ≤ g.nz) :
    (g.block i i' j j' k k').region ⊆ g.whole.region := by
  obtain ⟨mx, my, mz, -⟩ := hg
  exact prod_mono (Icc_subset_Icc (mx (Nat.zero_le _)) (mx hi))
    (prod_mono (Icc_subset_Icc (my (Nat.zero_le _)) (my hj)) (Icc_subset_Icc (mz (Nat.zero_le _)) (mz hk)))

theorem range_add {n : ℕ} (hn : 0 < n) {f : ℕ → ℝ} {F : ℕ → ℝ} (h1 : F 1 = f 0)
    (h : ∀ i, 0 < i → i < n → F i + f i = F (i + 1)) : ∑ i ∈ Finset.range n, f i = F n := by
  have : ∀ m, 0 < m → m ≤ n → ∑ i ∈ Finset.range m, f i = F m := by
    intro m
    induction m with
    | zero => intro h; exact absurd h (lt_irrefl _)
    | succ m ih =>
      intro _ hm
      rcases Nat.eq_zero_or_pos m with rfl | h0
      · simp [h1]
      · rw [Finset.sum_range_succ, ih h0 (by omega), h m h0 (by omega)]
  exact this n hn le_rfl

/-- A function of prisms that is additive for each cut of a block by a plane of the grid is the sum
of its values for the cells. -/
theorem grid_sum (hg : g.Valid) (F : Box → ℝ)
    (he : ∀ i, 0 < i → i < g.nx → F (g.block 0 i 0 g.ny 0 g.nz) + F (g.block i (i + 1) 0 g.ny 0 g.nz) =
      F (g.block 0 (i + 1) 0 g.ny 0 g.nz))
    (hn : ∀ i j, i < g.nx → 0 < j → j < g.ny →
      F (g.block i (i + 1) 0 j 0 g.nz) + F (g.block i (i + 1) j (j + 1) 0 g.nz) = F (g.block i (i + 1) 0 (j + 1) 0 g.nz))
    (hu : ∀ i j k, i < g.nx → j < g.ny → 0 < k → k < g.nz →
      F (g.block i (i + 1) j (j + 1) 0 k) + F (g.block i (i + 1) j (j + 1) k (k + 1)) =
        F (g.block i (i + 1) j (j + 1) 0 (k + 1))) :
    ∑ t ∈ g.indices, F (g.cell t.1 t.2.1 t.2.2) = F g.whole := by
  obtain ⟨-, -, -, n1, n2, n3⟩ := hg
  rw [Grid.indices, Finset.sum_product]
  simp only [Finset.sum_product]
  have s3 : ∀ i < g.nx, ∀ j < g.ny, ∑ k ∈ Finset.range g.nz, F (g.cell i j k) =
      F (g.block i (i + 1) j (j + 1) 0 g.nz) := fun i hi j hj =>
    range_add n3 (F := fun k => F (g.block i (i + 1) j (j + 1) 0 k)) rfl (fun k => hu i j k hi hj)
  have s2 : ∀ i < g.nx, ∑ j ∈ Finset.range g.ny, ∑ k ∈ Finset.range g.nz, F (g.cell i j k) =
      F (g.block i (i + 1) 0 g.ny 0 g.nz) := fun i hi => by
    rw [Finset.sum_congr rfl (fun j hj => s3 i hi j (Finset.mem_range.mp hj))]
    exact range_add n2 (F := fun j => F (g.block i (i + 1) 0 j 0 g.nz)) rfl (fun j => hn i j hi)
  rw [Finset.sum_congr rfl (fun i hi => s2 i (Finset.mem_range.mp hi))]
  exact range_add n1 (F := fun i => F (g.block 0 i 0 g.ny 0 g.nz)) rfl he

/-- where the components of all blocks are defined and the cutting planes do no harm -/
def Grid.Regular (g : Grid) (c : GComp) (p : Pt) : Prop :=
  c.letters ≤ 1 ∨ p ∉ g.whole.region ∨ (g.OffPlanes p ∧ p ∉ g.whole.singular c)

theorem low_singular (hc : c.letters ≤ 1) (Q : Box) : p ∉ Q.singular c := by
  cases c <;> simp [GComp.letters, GComp.index] at hc <;> simp [Box.singular]

theorem Grid.block_singular (hg : g.Valid) {c : GComp} (h : g.Regular c p) {i i' j j' k k' : ℕ} (hi : i ≤ i')
    (hj : j ≤ j') (hk : k ≤ k') (hi' : i' ≤ g.nx) (hj' : j' ≤ g.ny) (hk' : k' ≤ g.nz) :
    p ∉ (g.block i i' j j' k k').singular c := by
  rcases h with h | h | ⟨⟨o1, o2, o3⟩, h⟩
  · exact low_singular h _
  · exact exterior_singular (Grid.block_ordered hg hi hj hk) (fun h' => h (Grid.block_region hg hi' hj' hk' h')) c
  · intro hs
    apply h
    obtain ⟨mx, my, mz, -⟩ := hg
    have a1 := mx (Nat.zero_le i)
    have a2 := mx hi'
    have b1 := my (Nat.zero_le j)
    have b2 := my hj'
    have c1 := mz (Nat.zero_le k)
    have c2 := mz hk'
    have e1 : ∀ {l}, l ≤ g.nx → p.e = g.x l → p.e = g.x 0 ∨ p.e = g.x g.nx := fun {l} hl h => by
      by_contra hh
      rw [not_or] at hh
      rcases Nat.eq_zero_or_pos l with rfl | h0
      · exact hh.1 h
      · rcases hl.lt_or_eq with h1 | rfl
        · exact o1 l h0 h1 h
        · exact hh.2 h
    have e2 : ∀ {l}, l ≤ g.ny → p.n = g.y l → p.n = g.y 0 ∨ p.n = g.y g.ny := fun {l} hl h => by
      by_contra hh
      rw [not_or] at hh
      rcases Nat.eq_zero_or_pos l with rfl | h0
      · exact hh.1 h
      · rcases hl.lt_or_eq with h1 | rfl
        · exact o2 l h0 h1 h
        · exact hh.2 h
    have e3 : ∀ {l}, l ≤ g.nz → p.u = g.z l → p.u = g.z 0 ∨ p.u = g.z g.nz := fun {l} hl h => by
      by_contra hh
      rw [not_or] at hh
      rcases Nat.eq_zero_or_pos l with rfl | h0
      · exact hh.1 h
      · rcases hl.lt_or_eq with h1 | rfl
        · exact o3 l h0 h1 h
        · exact hh.2 h
    have f1 : p.e = g.x i ∨ p.e = g.x i' → p.e = g.x 0 ∨ p.e = g.x g.nx :=
      fun h => h.elim (e1 (hi.trans hi')) (e1 hi')
    have f2 : p.n = g.y j ∨ p.n = g.y j' → p.n = g.y 0 ∨ p.n = g.y g.ny :=
      fun h => h.elim (e2 (hj.trans hj')) (e2 hj')
    have f3 : p.u = g.z k ∨ p.u = g.z k' → p.u = g.z 0 ∨ p.u = g.z g.nz :=
      fun h => h.elim (e3 (hk.trans hk')) (e3 hk')
    have i1 : p.e ∈ Icc (g.x i) (g.x i') → p.e ∈ Icc (g.x 0) (g.x g.nx) := fun h => Icc_subset_Icc a1 a2 h
    have i2 : p.n ∈ Icc (g.y j) (g.y j') → p.n ∈ Icc (g.y 0) (g.y g.ny) := fun h => Icc_subset_Icc b1 b2 h
    have i3 : p.u ∈ Icc (g.z k) (g.z k') → p.u ∈ Icc (g.z 0) (g.z g.nz) := fun h => Icc_subset_Icc c1 c2 h
    cases c <;>
      simp only [Box.singular, Box.edgesE, Box.edgesN, Box.edgesU, Grid.block, Grid.whole, Set.mem_union,
        Set.mem_ofPred_eq, Set.mem_empty_iff_false] at hs ⊢
    · exact hs.imp (fun h => ⟨f1 h.1, i2 h.2.1, f3 h.2.2⟩) (fun h => ⟨f1 h.1, f2 h.2.1, i3 h.2.2⟩)
    · exact hs.imp (fun h => ⟨i1 h.1, f2 h.2.1, f3 h.2.2⟩) (fun h => ⟨f1 h.1, f2 h.2.1, i3 h.2.2⟩)
    · exact hs.imp (fun h => ⟨i1 h.1, f2 h.2.1, f3 h.2.2⟩) (fun h => ⟨f1 h.1, i2 h.2.1, f3 h.2.2⟩)
    · exact ⟨f1 hs.1, f2 hs.2.1, i3 hs.2.2⟩
    · exact ⟨f1 hs.1, i2 hs.2.1, f3 hs.2.2⟩
    · exact ⟨i1 hs.1, f2 hs.2.1, f3 hs.2.2⟩

theorem Grid.block_face (hg : g.Valid) {c : GComp} (h : g.Regular c p) (a : Axis) {i i' j j' k k' : ℕ}
    (hi' : i' ≤ g.nx) (hj' : j' ≤ g.ny) (hk' : k' ≤ g.nz) (hi : i < i') (hj : j < j') (hk : k < k')
    (hl : match a with | .e => i' < g.nx | .n => j' < g.ny | .u => k' < g.nz) :
    ¬ (c = a.diag ∧ p ∈ (g.block i i' j j' k k').faceHi a) := by
  rintro ⟨hc, hf⟩
  rcases h with h | h | ⟨⟨o1, o2, o3⟩, -⟩
  · subst hc; cases a <;> simp [GComp.letters, GComp.index, Axis.diag] at h
  · refine h (Grid.block_region hg hi' hj' hk' (i := i) (j := j) (k := k) ?_)
    have m1 := hg.1 hi.le
    have m2 := hg.2.1 hj.le
    have m3 := hg.2.2.1 hk.le
    cases a
    · exact ⟨⟨by rw [hf.1]; exact m1, hf.1.le⟩, Ioo_subset_Icc_self hf.2.1, Ioo_subset_Icc_self hf.2.2⟩
    · exact ⟨Ioo_subset_Icc_self hf.1, ⟨by rw [hf.2.1]; exact m2, hf.2.1.le⟩, Ioo_subset_Icc_self hf.2.2⟩
    · exact ⟨Ioo_subset_Icc_self hf.1, Ioo_subset_Icc_self hf.2.1, by rw [hf.2.2]; exact m3, hf.2.2.le⟩
  · cases a
    · exact o1 i' (by omega) hl hf.1
    · exact o2 j' (by omega) hl hf.2.1
    · exact o3 k' (by omega) hl hf.2.2

theorem Vc_grid (hg : g.Valid) {c : GComp} (h : g.Regular c p) :
    ∑ t ∈ g.indices, Vc c p (g.cell t.1 t.2.1 t.2.2) = Vc c p g.whole := by
  have hg' := hg
  obtain ⟨mx, my, mz, n1, n2, n3⟩ := hg
  refine grid_sum hg' (fun Q => Vc c p Q) ?_ ?_ ?_
  · intro i h0 hi
    have := Vc_cut c .e (P := g.block 0 (i + 1) 0 g.ny 0 g.nz) (m := g.x i) ⟨mx (Nat.zero_le _), mx (Nat.le_succ _)⟩
      (Grid.block_singular hg' h (i := 0) (i' := i) (j := 0) (j' := g.ny) (k := 0) (k' := g.nz)
        h0.le n2.le n3.le hi.le le_rfl le_rfl)
    exact this.trans ((congrArg _ (if_neg (Grid.block_face hg' h .e hi.le le_rfl le_rfl h0 n2 n3 hi))).trans (add_zero _))
  · intro i j hi h0 hj
    have := Vc_cut c .n (P := g.block i (i + 1) 0 (j + 1) 0 g.nz) (m := g.y j) ⟨my (Nat.zero_le _), my (Nat.le_succ _)⟩
      (Grid.block_singular hg' h (i := i) (i' := i + 1) (j := 0) (j' := j) (k := 0) (k' := g.nz)
        (Nat.le_succ _) h0.le n3.le hi hj.le le_rfl)
    exact this.trans ((congrArg _ (if_neg (Grid.block_face hg' h .n hi hj.le le_rfl (Nat.lt_succ_self _) h0 n3 hj))).trans (add_zero _))
  · intro i j k hi hj h0 hk
    have := Vc_cut c .u (P := g.block i (i + 1) j (j + 1) 0 (k + 1)) (m := g.z k)
      ⟨mz (Nat.zero_le _), mz (Nat.le_succ _)⟩
      (Grid.block_singular hg' h (i := i) (i' := i + 1) (j := j) (j' := j + 1) (k := 0) (k' := k)
        (Nat.le_succ _) (Nat.le_succ _) h0.le hi hj hk.le)
    exact this.trans ((congrArg _ (if_neg (Grid.block_face hg' h .u hi hj hk.le (Nat.lt_succ_self _) (Nat.lt_succ_self _) h0 hk))).trans (add_zero _))

theorem mem_indices {t : ℕ × ℕ × ℕ} : t ∈ g.indices ↔ t.1 < g.nx ∧ t.2.1 < g.ny ∧ t.2.2 < g.nz := by
  simp [Grid.indices]

theorem Grid.cell_ordered (hg : g.Valid) (i j k : ℕ) : (g.cell i j k).Ordered :=
  Grid.block_ordered hg (Nat.le_succ _) (Nat.le_succ _) (Nat.le_succ _)

theorem Grid.whole_ordered (hg : g.Valid) : g.whole.Ordered :=
  Grid.block_ordered (i := 0) (j := 0) (k := 0) hg (Nat.zero_le _) (Nat.zero_le _) (Nat.zero_le _)

theorem gravity_grid (hg : g.Valid) {c : GComp} (h : g.Regular c p) (ρ : ℝ) :
    ∃ v : ℕ × ℕ × ℕ → ℝ,
      (∀ t ∈ g.indices, Returns (onPrism (A := Exact) (prismGravity c) p (g.cell t.1 t.2.1 t.2.2) ρ) (v t)) ∧
      Returns (onPrism (A := Exact) (prismGravity c) p g.whole ρ) (∑ t ∈ g.indices, v t) := by
  refine ⟨fun t => Gc * ρ * Vc c p (g.cell t.1 t.2.1 t.2.2), fun t ht => ?_, ?_⟩
  · obtain ⟨h1, h2, h3⟩ := mem_indices.mp ht
    exact Ex.gravity_returns (Grid.cell_ordered hg _ _ _)
      (Grid.block_singular hg h (Nat.le_succ _) (Nat.le_succ _) (Nat.le_succ _) h1 h2 h3) ρ
  · rw [← Finset.mul_sum, Vc_grid hg h]
    exact Ex.gravity_returns (Grid.whole_ordered hg) (Grid.block_singular hg h (i := 0) (j := 0) (k := 0)
      (Nat.zero_le _) (Nat.zero_le _) (Nat.zero_le _) le_rfl le_rfl le_rfl) ρ

/-- Potential and acceleration of a prism are the sums of those of its cells, at every point. -/
theorem C76_cells_field (hg : g.Valid) (c : GComp) (hc : c.letters ≤ 1) (p : Pt) (ρ : ℝ) :
    ∃ v : ℕ × ℕ × ℕ → ℝ,
      (∀ t ∈ g.indices, Returns (onPrism (A := Exact) (prismGravity c) p (g.cell t.1 t.2.1 t.2.2) ρ) (v t)) ∧
      Returns (onPrism (A := Exact) (prismGravity c) p g.whole ρ) (∑ t ∈ g.indices, v t) :=
  gravity_grid hg (.inl hc) ρ

/-- The tensor components too, off the cutting planes wherever the whole prism has a value, and
everywhere outside the prism. -/
theorem C76_cells_tensor (hg : g.Valid) (c : GComp) (p : Pt) (ρ : ℝ)
    (h : p ∉ g.whole.region ∨ (g.OffPlanes p ∧ p ∉ g.whole.singular c)) :
    ∃ v : ℕ × ℕ × ℕ → ℝ,
      (∀ t ∈ g.indices, Returns (onPrism (A := Exact) (prismGravity c) p (g.cell t.1 t.2.1 t.2.2) ρ) (v t)) ∧
      Returns (onPrism (A := Exact) (prismGravity c) p g.whole ρ) (∑ t ∈ g.indices, v t) :=
  gravity_grid hg (.inr h) ρ

theorem Bc_grid (hg : g.Valid) (c : MComp) (h : p ∉ g.whole.region) (M : Vec) :
    ∑ t ∈ g.indices, Bc c p (g.cell t.1 t.2.1 t.2.2) M.e M.n M.u = Bc c p g.whole M.e M.n M.u := by
  have hg' := hg
  obtain ⟨mx, my, mz, n1, n2, n3⟩ := hg
  have hr : g.Regular .ee p := .inr (.inl h)
  have ex : ∀ {i i' j j' k k' : ℕ}, i ≤ i' → j ≤ j' → k ≤ k' → i' ≤ g.nx → j' ≤ g.ny → k' ≤ g.nz →
      p ∉ (g.block i i' j j' k k').edges := fun a1 a2 a3 b1 b2 b3 =>
    exterior_edges (Grid.block_ordered hg' a1 a2 a3) (fun h' => h (Grid.block_region hg' b1 b2 b3 h'))
  have fc : ∀ (a : Axis) {i i' j j' k k' : ℕ}, i' ≤ g.nx → j' ≤ g.ny → k' ≤ g.nz → i < i' → j < j' → k < k' →
      (match a with | .e => i' < g.nx | .n => j' < g.ny | .u => k' < g.nz) →
      p ∉ (g.block i i' j j' k k').faceHi a := fun a {_ _ _ _ _ _} b1 b2 b3 a1 a2 a3 hl hf =>
    Grid.block_face hg' (c := a.diag) (.inr (.inl h)) a b1 b2 b3 a1 a2 a3 hl ⟨rfl, hf⟩
  refine grid_sum hg' (fun Q => Bc c p Q M.e M.n M.u) ?_ ?_ ?_
  · intro i h0 hi
    exact Bc_cut c .e (P := g.block 0 (i + 1) 0 g.ny 0 g.nz) (m := g.x i) ⟨mx (Nat.zero_le _), mx (Nat.le_succ _)⟩ p M
      (ex (i := 0) (i' := i) (j := 0) (j' := g.ny) (k := 0) (k' := g.nz) h0.le n2.le n3.le hi.le le_rfl le_rfl)
      (fc .e hi.le le_rfl le_rfl h0 n2 n3 hi)
  · intro i j hi h0 hj
    exact Bc_cut c .n (P := g.block i (i + 1) 0 (j + 1) 0 g.nz) (m := g.y j) ⟨my (Nat.zero_le _), my (Nat.le_succ _)⟩ p M
      (ex (i := i) (i' := i + 1) (j := 0) (j' := j) (k := 0) (k' := g.nz) (Nat.le_succ _) h0.le n3.le hi hj.le le_rfl)
      (fc .n hi hj.le le_rfl (Nat.lt_succ_self _) h0 n3 hj)
  · intro i j k hi hj h0 hk
    exact Bc_cut c .u (P := g.block i (i + 1) j (j + 1) 0 (k + 1)) (m := g.z k)
      ⟨mz (Nat.zero_le _), mz (Nat.le_succ _)⟩ p M
      (ex (i := i) (i' := i + 1) (j := j) (j' := j + 1) (k := 0) (k' := k)
        (Nat.le_succ _) (Nat.le_succ _) h0.le hi hj hk.le)
      (fc .u hi hj hk.le (Nat.lt_succ_self _) (Nat.lt_succ_self _) h0 hk)

theorem Grid.cell_exterior (hg : g.Valid) (h : p ∉ g.whole.region) {t : ℕ × ℕ × ℕ} (ht : t ∈ g.indices) :
    p ∉ (g.cell t.1 t.2.1 t.2.2).region := fun h' =>
  h (Grid.block_region hg (mem_indices.mp ht).1 (mem_indices.mp ht).2.1 (mem_indices.mp ht).2.2 h')

/-- All nine magnetic functions: outside the prism, the sum over the cells. -/
theorem C76_cells_magnetic (hg : g.Valid) (c : MComp) (p : Pt) (M : Vec) (h : p ∉ g.whole.region) :
    ∃ v : ℕ × ℕ × ℕ → ℝ,
      (∀ t ∈ g.indices,
        Returns (onPrism (A := Exact) (prismMagnetic c) p (g.cell t.1 t.2.1 t.2.2) M.e M.n M.u) (v t)) ∧
      Returns (onPrism (A := Exact) (prismMagnetic c) p g.whole M.e M.n M.u) (∑ t ∈ g.indices, v t) := by
  refine ⟨fun t => mu0 / 4 / π * Bc c p (g.cell t.1 t.2.1 t.2.2) M.e M.n M.u, fun t ht => ?_, ?_⟩
  · have hx := Grid.cell_exterior hg h ht
    have hO := Grid.cell_ordered hg t.1 t.2.1 t.2.2
    exact Ex.magnetic_returns hO (exterior_edges hO hx) (fun h' => hx (inside_subset_region h')) _ _ _
  · rw [← Finset.mul_sum, Bc_grid hg c h]
    have hO := Grid.whole_ordered hg
    exact Ex.magnetic_returns hO (exterior_edges hO h) (fun h' => h (inside_subset_region h')) _ _ _

/-! ## Cells replaced by point masses and dipoles at their centres -/

theorem grid_volume (hg : g.Valid) : ∑ t ∈ g.indices, (g.cell t.1 t.2.1 t.2.2).volume = g.whole.volume :=
  grid_sum hg Box.volume (fun i _ _ => by simp only [Box.volume, Grid.block]; ring)
    (fun i j _ _ _ => by simp only [Box.volume, Grid.block]; ring)
    (fun i j k _ _ _ _ => by simp only [Box.volume, Grid.block]; ring)

theorem Box.volume_nonneg {P : Box} (hP : P.Ordered) : 0 ≤ P.volume := by
  rw [← volume_region hP]; exact measureReal_nonneg

theorem centre_mem_region {P : Box} (hP : P.Ordered) : P.centrePt ∈ P.region := by
  obtain ⟨h1, h2, h3⟩ := hP
  refine ⟨⟨?_, ?_⟩, ⟨?_, ?_⟩, ?_, ?_⟩ <;> simp only [Box.centrePt, Box.centre, Box.lo, Box.hi] <;> linarith

theorem sum_diff_le (hg : g.Valid) {v m : ℕ × ℕ × ℕ → ℝ} {K : ℝ}
    (h : ∀ t ∈ g.indices, |v t - m t| ≤ K * (g.cell t.1 t.2.1 t.2.2).volume) :
    |∑ t ∈ g.indices, v t - ∑ t ∈ g.indices, m t| ≤ K * g.whole.volume := by
  rw [← Finset.sum_sub_distrib, ← grid_volume hg, Finset.mul_sum]
  exact (Finset.abs_sum_le_sum_abs _ _).trans (Finset.sum_le_sum h)

/-- the observation point is at least `d` from the prism, the cells have half-diagonals at most `h < d` -/
structure Grid.Fine (g : Grid) (p : Pt) (d h : ℝ) : Prop where
  far : ∀ q ∈ g.whole.region, d ≤ dist3 p q
  fine : ∀ t ∈ g.indices, (g.cell t.1 t.2.1 t.2.2).halfDiagonal ≤ h
  lt : h < d

theorem Grid.Fine.cell (hg : g.Valid) {d h : ℝ} (hf : g.Fine p d h) {t : ℕ × ℕ × ℕ} (ht : t ∈ g.indices) :
    0 ≤ (g.cell t.1 t.2.1 t.2.2).halfDiagonal ∧ (g.cell t.1 t.2.1 t.2.2).halfDiagonal ≤ h ∧
      d ≤ dist3 p (g.cell t.1 t.2.1 t.2.2).centrePt ∧
      (g.cell t.1 t.2.1 t.2.2).halfDiagonal < dist3 p (g.cell t.1 t.2.1 t.2.2).centrePt := by
  have h1 := hf.fine t ht
  have h2 := hf.far _ (Grid.block_region hg (mem_indices.mp ht).1 (mem_indices.mp ht).2.1 (mem_indices.mp ht).2.2
    (centre_mem_region (Grid.cell_ordered hg t.1 t.2.1 t.2.2)))
  exact ⟨by unfold Box.halfDiagonal; positivity, h1, h2, h1.trans_lt (hf.lt.trans_le h2)⟩

theorem Grid.Fine.exterior {d h : ℝ} (hg : g.Valid) (hf : g.Fine p d h) : p ∉ g.whole.region := fun hp => by
  have h1 := hf.far p hp
  rw [dist3_eq_zero.mpr rfl] at h1
  have ht : ((0, 0, 0) : ℕ × ℕ × ℕ) ∈ g.indices := mem_indices.mpr hg.2.2.2
  have := (hf.cell hg ht).1
  linarith [(hf.cell hg ht).2.1, hf.lt]

theorem point_grid (hg : g.Valid) {c : GComp} {d h K : ℝ} (hf : g.Fine p d h) (ρ : ℝ)
    (hK : ∀ t ∈ g.indices, ∃ v m, Returns (onPrism (A := Exact) (prismGravity c) p (g.cell t.1 t.2.1 t.2.2) ρ) v ∧
      Returns (onPair (A := Exact) (pointGravity c) p (g.cell t.1 t.2.1 t.2.2).centrePt
        (ρ * (g.cell t.1 t.2.1 t.2.2).volume : ℝ)) m ∧ |v - m| ≤ K * (g.cell t.1 t.2.1 t.2.2).volume) :
    ∃ (v : ℝ) (m : ℕ × ℕ × ℕ → ℝ), Returns (onPrism (A := Exact) (prismGravity c) p g.whole ρ) v ∧
      (∀ t ∈ g.indices, Returns (onPair (A := Exact) (pointGravity c) p (g.cell t.1 t.2.1 t.2.2).centrePt
        (ρ * (g.cell t.1 t.2.1 t.2.2).volume : ℝ)) (m t)) ∧
      |v - ∑ t ∈ g.indices, m t| ≤ K * g.whole.volume := by
  obtain ⟨v, hv, hw⟩ := gravity_grid hg (c := c) (.inr (.inl (hf.exterior hg))) ρ
  have : ∀ t, ∃ m, t ∈ g.indices → Returns (onPair (A := Exact) (pointGravity c) p
      (g.cell t.1 t.2.1 t.2.2).centrePt (ρ * (g.cell t.1 t.2.1 t.2.2).volume : ℝ)) m ∧
      |v t - m| ≤ K * (g.cell t.1 t.2.1 t.2.2).volume := by
    intro t
    by_cases ht : t ∈ g.indices
    · obtain ⟨v', m, h1, h2, h3⟩ := hK t ht
      rw [(hv t ht).inj h1]
      exact ⟨m, fun _ => ⟨h2, h3⟩⟩
    · exact ⟨0, fun h' => absurd h' ht⟩
  choose m hm using this
  exact ⟨_, m, hw, fun t ht => (hm t ht).1, sum_diff_le hg fun t ht => (hm t ht).2⟩

/-- The potential of a prism, all of whose points are at least `d` away, differs from the sum of the
potentials of point masses at the centres of the cells by at most
`3 G |density| volume h² / (d² (d - h))`, where `h < d` bounds the half-diagonals of the cells. -/
theorem C76_points_potential (hg : g.Valid) (p : Pt) (ρ : ℝ) {d h : ℝ}
    (far : ∀ q ∈ g.whole.region, d ≤ dist3 p q)
    (fine : ∀ t ∈ g.indices, (g.cell t.1 t.2.1 t.2.2).halfDiagonal ≤ h) (lt : h < d) :
    ∃ (v : ℝ) (m : ℕ × ℕ × ℕ → ℝ), Returns (onPrism (A := Exact) (prismGravity .pot) p g.whole ρ) v ∧
      (∀ t ∈ g.indices, Returns (onPair (A := Exact) (pointGravity .pot) p (g.cell t.1 t.2.1 t.2.2).centrePt
        (ρ * (g.cell t.1 t.2.1 t.2.2).volume : ℝ)) (m t)) ∧
      |v - ∑ t ∈ g.indices, m t| ≤ 3 * 6.6743e-11 * |ρ| * h ^ 2 / (d ^ 2 * (d - h)) * g.whole.volume := by
  have hf : g.Fine p d h := ⟨far, fine, lt⟩
  refine point_grid hg hf ρ fun t ht => ?_
  obtain ⟨h0, h1, h2, h3⟩ := hf.cell hg ht
  have hO := Grid.cell_ordered hg t.1 t.2.1 t.2.2
  obtain ⟨v, m, hv, hm, hb⟩ := C53_far_field hO p ρ h3
  refine ⟨v, m, hv, hm, hb.trans ?_⟩
  have hpc : p ≠ (g.cell t.1 t.2.1 t.2.2).centrePt := fun h' => by
    rw [← h', dist3_eq_zero.mpr rfl] at h3; linarith
  have hm' := hm.inj (C09_potential _ _ hpc _)
  have hvol := Box.volume_nonneg hO
  have em : |m| = 6.6743e-11 * |ρ| * (g.cell t.1 t.2.1 t.2.2).volume / dist3 p (g.cell t.1 t.2.1 t.2.2).centrePt := by
    rw [hm', abs_div, abs_mul, abs_mul, abs_of_nonneg hvol, abs_of_nonneg (h0.trans h3.le), abs_of_pos (by norm_num)]; ring
  rw [em]
  generalize dist3 p (g.cell t.1 t.2.1 t.2.2).centrePt = R at *
  generalize (g.cell t.1 t.2.1 t.2.2).halfDiagonal = k at *
  generalize (g.cell t.1 t.2.1 t.2.2).volume = V at *
  have hh : 0 ≤ h := h0.trans h1
  have hd : 0 < d := hh.trans_lt lt
  have hR : 0 < R := hd.trans_le h2
  calc 6.6743e-11 * |ρ| * V / R * (3 * k ^ 2 / (R * (R - k)))
      = 3 * 6.6743e-11 * |ρ| * V * (k ^ 2 / (R ^ 2 * (R - k))) := by
        have := sub_pos.mpr h3
        field_simp
    _ ≤ 3 * 6.6743e-11 * |ρ| * V * (h ^ 2 / (d ^ 2 * (d - h))) := by
        apply mul_le_mul_of_nonneg_left _ (by positivity)
        apply div_le_div₀ (by positivity) (by gcongr) (by have := sub_pos.mpr lt; positivity)
        apply mul_le_mul (by gcongr) (by linarith) (by linarith) (by positivity)
    _ = _ := by ring

/-- The same for the acceleration: `9 G |density| volume h² / (d - h)⁴`. -/
theorem C76_points_acceleration (hg : g.Valid) (a : Axis) (p : Pt) (ρ : ℝ) {d h : ℝ}
    (far : ∀ q ∈ g.whole.region, d ≤ dist3 p q)
    (fine : ∀ t ∈ g.indices, (g.cell t.1 t.2.1 t.2.2).halfDiagonal ≤ h) (lt : h < d) :
    ∃ (v : ℝ) (m : ℕ × ℕ × ℕ → ℝ), Returns (onPrism (A := Exact) (prismGravity a.acc) p g.whole ρ) v ∧
      (∀ t ∈ g.indices, Returns (onPair (A := Exact) (pointGravity a.acc) p (g.cell t.1 t.2.1 t.2.2).centrePt
        (ρ * (g.cell t.1 t.2.1 t.2.2).volume : ℝ)) (m t)) ∧
      |v - ∑ t ∈ g.indices, m t| ≤ 9 * 6.6743e-11 * |ρ| * h ^ 2 / (d - h) ^ 4 * g.whole.volume := by
  have hf : g.Fine p d h := ⟨far, fine, lt⟩
  refine point_grid hg hf ρ fun t ht => ?_
  obtain ⟨h0, h1, h2, h3⟩ := hf.cell hg ht
  have hO := Grid.cell_ordered hg t.1 t.2.1 t.2.2
  obtain ⟨v, m, hv, hm, hb⟩ := C67_acceleration hO a p ρ h3
  refine ⟨v, m, hv, hm, hb.trans ?_⟩
  rw [abs_mul, abs_of_nonneg (Box.volume_nonneg hO)]
  have hvol := Box.volume_nonneg hO
  generalize dist3 p (g.cell t.1 t.2.1 t.2.2).centrePt = R at *
  generalize (g.cell t.1 t.2.1 t.2.2).halfDiagonal = k at *
  generalize (g.cell t.1 t.2.1 t.2.2).volume = V at *
  have := sub_pos.mpr lt
  calc _ = 9 * 6.6743e-11 * |ρ| * V * (k ^ 2 / (R - k) ^ 4) := by ring
    _ ≤ 9 * 6.6743e-11 * |ρ| * V * (h ^ 2 / (d - h) ^ 4) := by gcongr
    _ = _ := by ring

/-- The same for the tensor: `84 G |density| volume h² / (d - h)⁵`. -/
theorem C76_points_tensor (hg : g.Valid) (a b : Axis) (p : Pt) (ρ : ℝ) {d h : ℝ}
    (far : ∀ q ∈ g.whole.region, d ≤ dist3 p q)
    (fine : ∀ t ∈ g.indices, (g.cell t.1 t.2.1 t.2.2).halfDiagonal ≤ h) (lt : h < d) :
    ∃ (v : ℝ) (m : ℕ × ℕ × ℕ → ℝ), Returns (onPrism (A := Exact) (prismGravity (tensor a b)) p g.whole ρ) v ∧
      (∀ t ∈ g.indices, Returns (onPair (A := Exact) (pointGravity (tensor a b)) p (g.cell t.1 t.2.1 t.2.2).centrePt
        (ρ * (g.cell t.1 t.2.1 t.2.2).volume : ℝ)) (m t)) ∧
      |v - ∑ t ∈ g.indices, m t| ≤ 84 * 6.6743e-11 * |ρ| * h ^ 2 / (d - h) ^ 5 * g.whole.volume := by
  have hf : g.Fine p d h := ⟨far, fine, lt⟩
  refine point_grid hg hf ρ fun t ht => ?_
  obtain ⟨h0, h1, h2, h3⟩ := hf.cell hg ht
  have hO := Grid.cell_ordered hg t.1 t.2.1 t.2.2
  obtain ⟨v, m, hv, hm, hb⟩ := C67_tensor hO a b p ρ h3
  refine ⟨v, m, hv, hm, hb.trans ?_⟩
  rw [abs_mul, abs_of_nonneg (Box.volume_nonneg hO)]
  have hvol := Box.volume_nonneg hO
  generalize dist3 p (g.cell t.1 t.2.1 t.2.2).centrePt = R at *
  generalize (g.cell t.1 t.2.1 t.2.2).halfDiagonal = k at *
  generalize (g.cell t.1 t.2.1 t.2.2).volume = V at *
  have := sub_pos.mpr lt
  calc _ = 84 * 6.6743e-11 * |ρ| * V * (k ^ 2 / (R - k) ^ 5) := by ring
    _ ≤ 84 * 6.6743e-11 * |ρ| * V * (h ^ 2 / (d - h) ^ 5) := by gcongr
    _ = _ := by ring

/-- The magnetic field of a prism and the sum of the fields of dipoles at the centres of the cells. -/
theorem C76_dipoles (hg : g.Valid) (a : Axis) (p : Pt) (M : Vec) {d h : ℝ}
    (far : ∀ q ∈ g.whole.region, d ≤ dist3 p q)
    (fine : ∀ t ∈ g.indices, (g.cell t.1 t.2.1 t.2.2).halfDiagonal ≤ h) (lt : h < d) :
    ∃ (v : ℝ) (m : ℕ × ℕ × ℕ → ℝ), Returns (onPrism (A := Exact) (prismMagnetic a.field) p g.whole M.e M.n M.u) v ∧
      (∀ t ∈ g.indices, Returns (onPair (A := Exact) (dipoleMagnetic a) p (g.cell t.1 t.2.1 t.2.2).centrePt
        ((g.cell t.1 t.2.1 t.2.2).volume * M.e : ℝ) ((g.cell t.1 t.2.1 t.2.2).volume * M.n : ℝ)
        ((g.cell t.1 t.2.1 t.2.2).volume * M.u : ℝ)) (m t)) ∧
      |v - ∑ t ∈ g.indices, m t| ≤ 1.25663706212e-06 / (4 * π) *
        (84 * (|M.e| + |M.n| + |M.u|) * h ^ 2 / (d - h) ^ 5) * g.whole.volume := by
  have hf : g.Fine p d h := ⟨far, fine, lt⟩
  obtain ⟨v, hv, hw⟩ := C76_cells_magnetic hg a.field p M (hf.exterior hg)
  have : ∀ t, ∃ m, t ∈ g.indices → Returns (onPair (A := Exact) (dipoleMagnetic a) p
      (g.cell t.1 t.2.1 t.2.2).centrePt
        ((g.cell t.1 t.2.1 t.2.2).volume * M.e : ℝ) ((g.cell t.1 t.2.1 t.2.2).volume * M.n : ℝ)
        ((g.cell t.1 t.2.1 t.2.2).volume * M.u : ℝ)) m ∧
      |v t - m| ≤ 1.25663706212e-06 / (4 * π) *
        (84 * (|M.e| + |M.n| + |M.u|) * h ^ 2 / (d - h) ^ 5) * (g.cell t.1 t.2.1 t.2.2).volume := by
    intro t
    by_cases ht : t ∈ g.indices
    · obtain ⟨h0, h1, h2, h3⟩ := hf.cell hg ht
      have hO := Grid.cell_ordered hg t.1 t.2.1 t.2.2
      obtain ⟨v', m, i1, i2, i3⟩ := C68_dipole hO a p M h3
      rw [(hv t ht).inj i1]
      refine ⟨m, fun _ => ⟨i2, i3.trans ?_⟩⟩
      have hvol := Box.volume_nonneg hO
      have := sub_pos.mpr lt
      clear i1 i2 i3
      generalize dist3 p (g.cell t.1 t.2.1 t.2.2).centrePt = R at *
      generalize (g.cell t.1 t.2.1 t.2.2).halfDiagonal = k at *
      generalize (g.cell t.1 t.2.1 t.2.2).volume = V at *
      calc _ = 1.25663706212e-06 / (4 * π) * (84 * (V * (|M.e| + |M.n| + |M.u|)) * (k ^ 2 / (R - k) ^ 5)) := by ring
        _ ≤ 1.25663706212e-06 / (4 * π) * (84 * (V * (|M.e| + |M.n| + |M.u|)) * (h ^ 2 / (d - h) ^ 5)) := by gcongr
        _ = _ := by ring
    · exact ⟨0, fun h' => absurd h' ht⟩
  choose m hm using this
  exact ⟨_, m, hw, fun t ht => (hm t ht).1, sum_diff_le hg fun t ht => (hm t ht).2⟩

/-- a grid of 2 x 3 x 4 unit cubes, seen from 100 above its corner -/
example : let g : Grid := ⟨fun i => i, fun i => i, fun i => i, 2, 3, 4⟩
    g.Valid ∧ g.OffPlanes (1 / 2, 1 / 2, 1 / 2) ∧ ((1 / 2, 1 / 2, 1 / 2) : Pt) ∉ g.whole.singular .uu ∧
    (∀ q ∈ g.whole.region, (90 : ℝ) ≤ dist3 (0, 0, 100) q) ∧
    (∀ t ∈ g.indices, (g.cell t.1 t.2.1 t.2.2).halfDiagonal ≤ 1) ∧ (1 : ℝ) < 90 := by
  refine ⟨⟨Nat.mono_cast, Nat.mono_cast, Nat.mono_cast, by norm_num, by norm_num, by norm_num⟩, ?_, ?_, ?_, ?_, by norm_num⟩
  · have k : ∀ i : ℕ, 0 < i → (1 / 2 : ℝ) ≠ i := fun i hi => by
      have : (1 : ℝ) ≤ i := by exact_mod_cast hi
      linarith
    exact ⟨fun i h _ => k i h, fun i h _ => k i h, fun i h _ => k i h⟩
  · norm_num [Box.singular, Box.edgesE, Box.edgesN, Grid.whole]
  · intro q hq
    apply Real.le_sqrt_of_sq_le
    have h1 := hq.2.2.2
    simp only [Grid.whole] at h1
    push_cast at h1
    nlinarith [sq_nonneg (0 - q.e), sq_nonneg (0 - q.n), show (96 : ℝ) ≤ 100 - q.u by linarith]
  · intro t _
    unfold Box.halfDiagonal Grid.cell
    rw [div_le_iff₀ (by norm_num)]
    apply Real.sqrt_le_iff.mpr
    push_cast
    norm_num

end Choclo
