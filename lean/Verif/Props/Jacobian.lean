import Verif.Props.UserGuide

/-! # The sensitivity matrix of the user guide: C85 -/

namespace Choclo

open userguide

variable {A : Arith} {N M T : ℕ} {c : Coordinates A N} {p : Prisms A M} {chunks : Fin T → List (Fin N)}

theorem jacobianLoop_within (i : Fin N) (l : List (Fin M)) : (jacobianLoop c p i l).Within {x | x.1 = i} := by
  induction l with
  | nil => trivial
  | cons j l ih => exact fun g => ⟨rfl, ih⟩

theorem jacobian_raceFree : RaceFree (jacobianBody c p) fun i => {x | x.1 = i} :=
  ⟨fun i => jacobianLoop_within i _, fun _ _ h _ ha ha' => h (Eq.trans (Eq.symm ha) ha')⟩

theorem jacobianLoop_hasLen (i : Fin N) (l : List (Fin M)) : (jacobianLoop c p i l).HasLen (2 * l.length) := by
  induction l with
  | nil => rfl
  | cons j l ih =>
    exact ⟨2 * l.length + 1, by rw [List.length_cons]; ring, fun g => ⟨2 * l.length, rfl, ih⟩⟩

theorem jacobianLoop_run {i : Fin N} {l : List (Fin M)} {m r : Fin N × Fin M → Fl A}
    (h : (jacobianLoop c p i l).run m = .ok r) (hl : l.Nodup) :
    (∀ j ∈ l, fieldOf c p (fun _ => 1) i j = .ok (r (i, j))) ∧ ∀ j ∉ l, r (i, j) = m (i, j) := by
  induction l generalizing m with
  | nil =>
    obtain rfl : m = r := Except.ok.inj h
    exact ⟨fun j hj => absurd hj List.not_mem_nil, fun _ _ => rfl⟩
  | cons j l ih =>
    obtain ⟨hl1, hl2⟩ := List.nodup_cons.1 hl
    have h' : (do ((Prog.write (i, j) (← fieldOf c p (fun _ => 1) i j) (jacobianLoop c p i l)).run m) : Py _) = .ok r := h
    cases hf : fieldOf c p (fun _ => 1) i j with
    | error e => rw [hf] at h'; cases h'
    | ok v =>
      rw [hf] at h'
      obtain ⟨h1, h2⟩ := ih h' hl2
      refine ⟨fun k hk => ?_, fun k hk => ?_⟩
      · rcases List.mem_cons.1 hk with rfl | hk
        · rw [h2 k hl1, Function.update_self]; exact hf
        · exact h1 k hk
      · rw [List.mem_cons, not_or] at hk
        rw [h2 k hk.2, Function.update_of_ne]
        intro e
        exact hk.1 (congrArg Prod.snd e)

theorem jacobianLoop_noRaise (h : ∀ i j, ∃ v, fieldOf c p (fun _ => 1) i j = .ok v) (i : Fin N) (l : List (Fin M)) :
    (jacobianLoop c p i l).NoRaise := by
  induction l with
  | nil => trivial
  | cons j l ih => exact ⟨h i j, fun g => ih⟩

/-- **C85.** Whatever the number of threads, the distribution of the points, the interleaving and the
garbage in the new array, `build_jacobian` returns `J` if and only if each `J[i, j]` is the field
`gravity_u` of prism `j` at point `i` for unit density. -/
theorem C85_entries (hc : Distribution chunks) (J : Fin N → Fin M → Fl A) :
    build_jacobian c p chunks J ↔ ∀ i j, fieldOf c p (fun _ => 1) i j = .ok (J i j) := by
  have key : ∀ {garbage : Fin N × Fin M → Fl A} {s : ParState (Fin N × Fin M) (Fl A) (Fin N) T},
      (ParState.start (jacobianBody c p) chunks garbage).Reaches s → s.Finished →
      ∀ i j, fieldOf c p (fun _ => 1) i j = .ok (s.mem (i, j)) := by
    intro garbage s hs hf i j
    obtain ⟨r0, h1, h2⟩ := (parallel_parts jacobian_raceFree hc hs hf).1 i
    rw [← h2 (i, j) rfl]
    exact (jacobianLoop_run h1 (List.nodup_finRange M)).1 j (List.mem_finRange j)
  constructor
  · rintro ⟨garbage, s, hs, hf, hJ⟩ i j
    rw [← hJ]
    exact key hs hf i j
  · intro h
    have h1 : AllNoRaise (ParState.start (jacobianBody c p) chunks fun _ => 0) := by
      intro t x hx
      obtain ⟨i, -, rfl⟩ := List.mem_map.1 hx
      exact jacobianLoop_noRaise (fun i j => ⟨_, h i j⟩) i _
    have h2 := TotalLen.start (body := jacobianBody c p) (L := 2 * M) (fun i => by
      have := jacobianLoop_hasLen (c := c) (p := p) i (List.finRange M)
      rwa [List.length_finRange] at this) chunks fun _ => 0
    obtain ⟨s, hs, hf⟩ := can_finish h2 h1
    exact ⟨_, s, hs, hf, fun i j => Except.ok.inj ((key hs hf i j).symm.trans (h i j))⟩

/-- **C85.** In every monotone arithmetic `build_jacobian` returns, and what it returns is unique. -/
theorem C85_returns (hA : A.Monotone) (hc : Distribution chunks) : ∃! J, build_jacobian c p chunks J := by
  choose J hJ using fun i j => fieldOf_ok (c := c) (p := p) (d := fun _ => 1) hA i j
  refine ⟨J, (C85_entries hc J).2 hJ, fun J' hJ' => ?_⟩
  funext i j
  exact Except.ok.inj (((C85_entries hc J').1 hJ' i j).symm.trans (hJ i j))

/-- **C85.** No execution of `build_jacobian` makes more than `N (2 M + 1)` steps. -/
theorem C85_terminates (hc : Distribution chunks) {garbage : Fin N × Fin M → Fl A} {k : ℕ}
    {s : ParState (Fin N × Fin M) (Fl A) (Fin N) T}
    (h : ParSteps k (ParState.start (jacobianBody c p) chunks garbage) s) :
    k ≤ N * (2 * M + 1) ∧ (s.Finished ↔ k = N * (2 * M + 1)) := by
  have h2 := TotalLen.start (body := jacobianBody c p) (L := 2 * M) (fun i => by
      have := jacobianLoop_hasLen (c := c) (p := p) i (List.finRange M)
      rwa [List.length_finRange] at this) chunks garbage
  rw [hc.sum_length] at h2
  obtain ⟨m, hm, hm'⟩ := h2.steps h
  refine ⟨by omega, hm'.finished.trans ?_⟩
  omega

/-- the real number behind a finite number -/
def realOf : Fl A → ℝ
  | .fin x => x
  | _ => 0

theorem dotsTo_exact' {s : Multiset (Fl Exact × Fl Exact)} {x : Fl Exact} (h : DotsTo s x) :
    (∀ y ∈ s, y = (Fl.fin (realOf y.1), Fl.fin (realOf y.2))) → x = Fl.fin (s.map fun y => realOf y.1 * realOf y.2).sum := by
  induction h with
  | zero =>
    intro _
    show (Fl.fin ((0 : ℕ) : ℝ) : Fl Exact) = _
    rw [Nat.cast_zero, Multiset.map_zero, Multiset.sum_zero]
  | mul a b =>
    intro hm
    rw [Multiset.map_singleton, Multiset.sum_singleton]
    have := hm (a, b) (Multiset.mem_singleton_self _)
    obtain ⟨h1, h2⟩ := Prod.mk.inj this
    rw [h1, h2]
    rfl
  | add _ _ ih1 ih2 =>
    intro hm
    rw [ih1 fun y hy => hm y (Multiset.mem_add.2 (.inl hy)), ih2 fun y hy => hm y (Multiset.mem_add.2 (.inr hy)),
      Multiset.map_add, Multiset.sum_add]
    rfl
  | fma a b _ ih =>
    intro hm
    rw [ih fun y hy => hm y (Multiset.mem_cons_of_mem hy), Multiset.map_cons, Multiset.sum_cons]
    have := hm (a, b) (Multiset.mem_cons_self _ _)
    obtain ⟨h1, h2⟩ := Prod.mk.inj this
    rw [h1, h2]
    rfl

/-- **C85.** In exact arithmetic the product of the Jacobian and the densities is the forward model,
in whatever order the products are added up, with or without fused multiply-adds. -/
theorem C85_product {P : Fin M → Box} (hP : ∀ j, (P j).Ordered) (q : Fin N → Pt) (ρ : Fin M → ℝ) (hc : Distribution chunks)
    {J : Fin N → Fin M → Fl Exact} (hJ : build_jacobian (points q) (boxes P) chunks J) {r : Fin N → Fl Exact}
    (hr : matmul J (values ρ) r) : gravity_upward (points q) (boxes P) (values ρ) = .ok r := by
  have hJ' : ∀ i j, J i j = Fl.fin (Gc * 1 * Vc .u (q i) (P j)) := by
    intro i j
    have h1 := (C85_entries hc J).1 hJ i j
    have h2 : fieldOf (A := Exact) (points q) (boxes P) (fun _ => 1) i j = _ := fieldOf_exact hP q (fun _ => ((1 : ℕ) : ℝ)) i j
    rw [Nat.cast_one] at h2
    exact Except.ok.inj (h1.symm.trans h2)
  obtain ⟨g, hg, h⟩ := C83_exact hP q ρ
  rw [h]
  congr 1
  funext i
  rw [dotsTo_exact' (hr i)]
  · rw [Multiset.map_map]
    congr 1
    show ∑ j, g i j = ∑ j, realOf (J i j) * ρ j
    refine Finset.sum_congr rfl fun j _ => ?_
    rw [hJ' i j, Returns.inj (hg i j) (fieldOf_exact hP q ρ i j)]
    show _ = Gc * 1 * Vc .u (q i) (P j) * ρ j
    ring
  · intro y hy
    obtain ⟨j, -, rfl⟩ := Multiset.mem_map.1 hy
    rw [hJ' i j]
    rfl

/-- **C85.** In exact arithmetic the entries of the Jacobian are the partial derivatives of the forward
model with respect to the densities. -/
theorem C85_derivative {P : Fin M → Box} (hP : ∀ j, (P j).Ordered) (q : Fin N → Pt) (hc : Distribution chunks)
    {J : Fin N → Fin M → Fl Exact} (hJ : build_jacobian (points q) (boxes P) chunks J) :
    ∃ (F : (Fin M → ℝ) → Fin N → ℝ) (J' : Fin N → Fin M → ℝ),
      (∀ ρ, gravity_upward (A := Exact) (points q) (boxes P) (values ρ) = .ok fun i => Fl.fin (F ρ i)) ∧
      (∀ i j, J i j = Fl.fin (J' i j)) ∧
      ∀ ρ i j, HasDerivAt (fun t => F (Function.update ρ j t) i) (J' i j) (ρ j) := by
  refine ⟨fun ρ i => ∑ j, Gc * ρ j * Vc .u (q i) (P j), fun i j => Gc * 1 * Vc .u (q i) (P j), fun ρ => ?_, fun i j => ?_,
    fun ρ i j => ?_⟩
  · obtain ⟨g, hg, h⟩ := C83_exact hP q ρ
    rw [h]
    congr 1
    funext i
    congr 1
    exact Finset.sum_congr rfl fun j _ => Returns.inj (hg i j) (fieldOf_exact hP q ρ i j)
  · have h1 := (C85_entries hc J).1 hJ i j
    have h2 : fieldOf (A := Exact) (points q) (boxes P) (fun _ => 1) i j = _ := fieldOf_exact hP q (fun _ => ((1 : ℕ) : ℝ)) i j
    rw [Nat.cast_one] at h2
    exact Except.ok.inj (h1.symm.trans h2)
  · have hs : HasDerivAt (fun t => ∑ k, Gc * Function.update ρ j t k * Vc .u (q i) (P k))
        (∑ k, if k = j then Gc * 1 * Vc .u (q i) (P j) else 0) (ρ j) := by
      refine HasDerivAt.fun_sum fun k _ => ?_
      by_cases e : k = j
      · subst e
        rw [if_pos rfl]
        simp only [Function.update_self]
        exact ((hasDerivAt_id' (ρ k)).const_mul Gc).mul_const _
      · rw [if_neg e]
        simp only [Function.update_of_ne e]
        exact hasDerivAt_const _ _
    rwa [Finset.sum_ite_eq' Finset.univ j, if_pos (Finset.mem_univ j)] at hs

/-! ### Concrete cases -/

/-- three points on two threads -/
theorem demo_distribution : Distribution (![[2, 0], [1]] : Fin 2 → List (Fin 3)) := by
  refine ⟨fun i => ?_, fun t => ?_, fun t t' h i => ?_⟩
  · fin_cases i
    · exact ⟨0, by simp⟩
    · exact ⟨1, by simp⟩
    · exact ⟨0, by simp⟩
  · fin_cases t <;> simp
  · fin_cases t <;> fin_cases t' <;> fin_cases i <;> simp_all

/-- two prisms -/
def demoBoxes : Fin 2 → Box := ![⟨-1, 1, -1, 1, -2, 0⟩, ⟨2, 3, 0, 5, -4, -1⟩]

theorem demoBoxes_ordered (j : Fin 2) : (demoBoxes j).Ordered := by
  fin_cases j <;> norm_num [demoBoxes, Box.Ordered]

/-- `build_jacobian` on three points, two prisms, two threads, in exact arithmetic, returns a matrix, its product
with the densities `(2670, -300)` is the forward model, and its entries are derivatives. -/
example (q : Fin 3 → Pt) : ∃ J : Fin 3 → Fin 2 → Fl Exact,
    build_jacobian (points q) (boxes demoBoxes) ![[2, 0], [1]] J ∧
    (∀ r, matmul J (values ![2670, -300]) r →
      gravity_upward (points q) (boxes demoBoxes) (values ![2670, -300]) = .ok r) ∧
    ∃ (F : (Fin 2 → ℝ) → Fin 3 → ℝ) (J' : Fin 3 → Fin 2 → ℝ),
      (∀ ρ, gravity_upward (A := Exact) (points q) (boxes demoBoxes) (values ρ) = .ok fun i => Fl.fin (F ρ i)) ∧
      (∀ i j, J i j = Fl.fin (J' i j)) ∧
      ∀ ρ i j, HasDerivAt (fun t => F (Function.update ρ j t) i) (J' i j) (ρ j) := by
  obtain ⟨J, hJ, -⟩ := C85_returns (c := points q) (p := boxes demoBoxes)
    (show Exact.Monotone from ⟨fun _ _ h => h, fun x y h => ⟨rfl, rfl⟩, rfl⟩) demo_distribution
  exact ⟨J, hJ, fun r => C85_product demoBoxes_ordered q _ demo_distribution hJ,
    C85_derivative demoBoxes_ordered q demo_distribution hJ⟩

end Choclo
