import Verif.Lemmas.UserGuide
import Verif.Props.NoRaise
import Verif.Props.Grid
import Verif.Props.PrismSym
import Verif.Props.PrismBounds

/-! # The programs of the user guide: C83, C84, C85 -/

namespace Choclo

open userguide

variable {A : Arith} {N M : ℕ} {c : Coordinates A N} {p : Prisms A M} {d : Fin M → Fl A}

/-! ## C83 the forward model of a set of prisms -/

/-- **C83.** `gravity_upward` returns `r` if and only if every call of `gravity_u` returns a number and
each `r[i]` is the left-to-right sum, from zero, of the fields of the prisms at that observation
point: no point and no prism is skipped, counted twice or mixed up. -/
theorem C83_forward (r : Fin N → Fl A) : gravity_upward c p d = .ok r ↔
    ∃ G : Fin N → Fin M → Fl A, (∀ i j, fieldOf c p d i j = .ok (G i j)) ∧
      ∀ i, r i = (List.ofFn (G i)).foldl (fun a b => a + b) 0 := by
  have key : ∀ G : Fin N → Fin M → Fl A, (∀ i j, fieldOf c p d i j = .ok (G i j)) →
      gravity_upward c p d = .ok fun i => (List.ofFn (G i)).foldl (fun a b => a + b) 0 := by
    intro G hG
    rw [gravity_upward_eq, serial_run hG _ (List.nodup_finRange N)]
    congr 1
    funext i
    rw [if_pos (List.mem_finRange i), List.ofFn_eq_map, List.foldl_map]
  constructor
  · intro h
    have h' := h
    rw [gravity_upward_eq] at h'
    have hok := fun i j => serial_ok h' i (List.mem_finRange i) j
    choose G hG using hok
    refine ⟨G, hG, fun i => ?_⟩
    exact congrFun (Except.ok.inj (h.symm.trans (key G hG))) i
  · rintro ⟨G, hG, hr⟩
    rw [key G hG]
    exact congrArg Except.ok (funext fun i => (hr i).symm)

theorem fieldOf_ok (hA : A.Monotone) (i : Fin N) (j : Fin M) : ∃ v, fieldOf c p d i j = .ok v :=
  C52_gravity hA .u _ _ _ _ _ _ _ _ _ _

/-- **C83.** In every monotone arithmetic (such as IEEE double precision) `gravity_upward` does not
raise, whatever numbers are in the arrays. -/
theorem C83_total (hA : A.Monotone) : ∃ r, gravity_upward c p d = .ok r := by
  choose G hG using fun i j => fieldOf_ok (c := c) (p := p) (d := d) hA i j
  exact ⟨_, (C83_forward _).2 ⟨G, hG, fun _ => rfl⟩⟩

/-- **C83.** The result at an observation point depends on the coordinates of that point only: NaN or
garbage at other points has no influence, nor has the number of other points or their order. -/
theorem C83_pointwise {N' : ℕ} {c' : Coordinates A N'} {r : Fin N → Fl A} {r' : Fin N' → Fl A} {i : Fin N} {i' : Fin N'}
    (he : c.easting i = c'.easting i') (hn : c.northing i = c'.northing i') (hu : c.upward i = c'.upward i')
    (h : gravity_upward c p d = .ok r) (h' : gravity_upward c' p d = .ok r') : r i = r' i' := by
  obtain ⟨G, hG, hr⟩ := (C83_forward r).1 h
  obtain ⟨G', hG', hr'⟩ := (C83_forward r').1 h'
  have e : G i = G' i' := by
    funext j
    have h1 := hG i j
    unfold fieldOf at h1
    rw [he, hn, hu] at h1
    exact Except.ok.inj (h1.symm.trans (hG' i' j))
  rw [hr, hr', e]

/-- **C83.** Without prisms the result is zero everywhere. -/
theorem C83_empty {c : Coordinates A N} {p : Prisms A 0} {d : Fin 0 → Fl A} :
    gravity_upward c p d = .ok fun _ => 0 :=
  (C83_forward _).2 ⟨fun _ j => j.elim0, fun _ j => j.elim0, fun _ => rfl⟩

/-- what a prism does to one point -/
theorem fieldOf_exact {P : Fin M → Box} (hP : ∀ j, (P j).Ordered) (q : Fin N → Pt) (ρ : Fin M → ℝ) (i : Fin N) (j : Fin M) :
    fieldOf (A := Exact) (points q) (boxes P) (values ρ) i j = .ok (Fl.fin (Gc * ρ j * Vc .u (q i) (P j))) :=
  Ex.gravity_returns (hP j) (low_singular (c := .u) (by simp [GComp.letters, GComp.index]) _) (ρ j)

theorem foldl_exact (l : List ℝ) (a : ℝ) :
    (l.map fun x => (Fl.fin x : Fl Exact)).foldl (fun a b => a + b) (Fl.fin a) = Fl.fin (a + l.sum) := by
  induction l generalizing a with
  | nil => simp
  | cons x l ih =>
    rw [List.map_cons, List.foldl_cons, List.sum_cons, ← add_assoc]
    exact ih (a + x)

/-- **C83.** In exact arithmetic the result is the sum over the prisms of what `gravity_u` returns for
each of them. -/
theorem C83_exact {P : Fin M → Box} (hP : ∀ j, (P j).Ordered) (q : Fin N → Pt) (ρ : Fin M → ℝ) :
    ∃ g : Fin N → Fin M → ℝ, (∀ i j, Returns (onPrism (A := Exact) prism.gravity_u (q i) (P j) (ρ j)) (g i j)) ∧
      gravity_upward (A := Exact) (points q) (boxes P) (values ρ) = .ok fun i => Fl.fin (∑ j, g i j) := by
  refine ⟨fun i j => Gc * ρ j * Vc .u (q i) (P j), fun i j => fieldOf_exact hP q ρ i j, ?_⟩
  refine (C83_forward _).2 ⟨_, fieldOf_exact hP q ρ, fun i => ?_⟩
  have := foldl_exact (List.ofFn fun j => Gc * ρ j * Vc .u (q i) (P j)) 0
  rw [List.sum_ofFn, zero_add, List.map_ofFn] at this
  refine this.symm.trans ?_
  show _ = List.foldl (fun a b => a + b) (Fl.fin ((0 : ℕ) : ℝ)) _
  rw [Nat.cast_zero]
  rfl

/-- **C83.** In exact arithmetic the order of the prisms does not matter. -/
theorem C83_reorder {P : Fin M → Box} (hP : ∀ j, (P j).Ordered) (q : Fin N → Pt) (ρ : Fin M → ℝ)
    (σ : Equiv.Perm (Fin M)) :
    gravity_upward (A := Exact) (points q) (boxes (P ∘ σ)) (values (ρ ∘ σ)) =
      gravity_upward (A := Exact) (points q) (boxes P) (values ρ) := by
  obtain ⟨g, hg, h⟩ := C83_exact hP q ρ
  obtain ⟨g', hg', h'⟩ := C83_exact (P := P ∘ σ) (fun j => hP (σ j)) q (ρ ∘ σ)
  rw [h, h']
  congr 1
  funext i
  congr 1
  rw [← Equiv.sum_comp σ (g i)]
  refine Finset.sum_congr rfl fun j _ => ?_
  exact Returns.inj (hg' i j) (hg i (σ j))

/-- **C83.** In exact arithmetic the result is linear in the densities. -/
theorem C83_linear {P : Fin M → Box} (hP : ∀ j, (P j).Ordered) (q : Fin N → Pt) (ρ ρ' : Fin M → ℝ) (a b : ℝ) :
    ∃ x y : Fin N → ℝ, gravity_upward (A := Exact) (points q) (boxes P) (values ρ) = .ok (fun i => Fl.fin (x i)) ∧
      gravity_upward (A := Exact) (points q) (boxes P) (values ρ') = .ok (fun i => Fl.fin (y i)) ∧
      gravity_upward (A := Exact) (points q) (boxes P) (values fun j => a * ρ j + b * ρ' j) =
        .ok fun i => Fl.fin (a * x i + b * y i) := by
  have key : ∀ ρ : Fin M → ℝ, gravity_upward (A := Exact) (points q) (boxes P) (values ρ) =
      .ok fun i => Fl.fin (∑ j, Gc * ρ j * Vc .u (q i) (P j)) := by
    intro ρ
    obtain ⟨g, hg, h⟩ := C83_exact hP q ρ
    rw [h]
    congr 1
    funext i
    congr 1
    exact Finset.sum_congr rfl fun j _ => Returns.inj (hg i j) (fieldOf_exact hP q ρ i j)
  refine ⟨_, _, key ρ, key ρ', ?_⟩
  rw [key]
  congr 1
  funext i
  congr 1
  rw [Finset.mul_sum, Finset.mul_sum, ← Finset.sum_add_distrib]
  exact Finset.sum_congr rfl fun j _ => by ring

example : ∀ j : Fin 2, ((fun _ => exBox) j : Box).Ordered := fun _ => exBox_ordered

/-! ## C84 the parallel forward model -/

variable {T : ℕ} {chunks : Fin T → List (Fin N)}

/-- **C84.** Whatever the number of threads, the distribution of the points and the interleaving, the
parallel loop returns exactly what the serial loop returns: bit for bit the same numbers. -/
theorem C84_deterministic (hc : Distribution chunks) {r : Fin N → Fl A}
    (h : gravity_upward_parallel c p d chunks r) : gravity_upward c p d = .ok r := by
  obtain ⟨s, hs, hf, rfl⟩ := h
  rw [gravity_upward_eq]
  exact parallel_eq_serial upward_raceFree hc hs hf (List.nodup_finRange N) List.mem_finRange

theorem upward_totalLen (hc : Distribution chunks) (m : Fin N → Fl A) :
    TotalLen (ParState.start (upwardBody c p d) chunks m) (N * (3 * M + 1)) := by
  have := TotalLen.start (body := upwardBody c p d) (L := 3 * M) (fun i => by
    have := upwardLoop_hasLen (c := c) (p := p) (d := d) i (List.finRange M)
    rwa [List.length_finRange] at this) chunks m
  rwa [hc.sum_length] at this

/-- **C84.** Every execution ends: it has at most `N (3 M + 1)` steps, and has run all iterations
exactly when it has made that many. -/
theorem C84_terminates (hc : Distribution chunks) {k : ℕ} {s : ParState (Fin N) (Fl A) (Fin N) T}
    (h : ParSteps k (ParState.start (upwardBody c p d) chunks fun _ => 0) s) :
    k ≤ N * (3 * M + 1) ∧ (s.Finished ↔ k = N * (3 * M + 1)) := by
  obtain ⟨m, hm, hm'⟩ := (upward_totalLen (c := c) (p := p) (d := d) hc fun _ => 0).steps h
  refine ⟨by omega, hm'.finished.trans ?_⟩
  omega

theorem AllNoRaise.reaches {Addr Val ι : Type} [DecidableEq Addr] {s s' : ParState Addr Val ι T} (h : AllNoRaise s)
    (hs : s.Reaches s') : AllNoRaise s' := by
  induction hs with
  | refl => exact h
  | tail _ hst ih => exact ih.step hst

theorem upward_noRaise (hA : A.Monotone) (m : Fin N → Fl A) :
    AllNoRaise (ParState.start (upwardBody c p d) chunks m) := by
  intro t x hx
  obtain ⟨i, -, rfl⟩ := List.mem_map.1 hx
  exact upwardLoop_noRaise (fun i j => fieldOf_ok hA i j) i _

/-- **C84.** No thread ever blocks: every execution that has not run all iterations can go on, and
can be completed. -/
theorem C84_progress (hA : A.Monotone) (hc : Distribution chunks) {s : ParState (Fin N) (Fl A) (Fin N) T}
    (h : (ParState.start (upwardBody c p d) chunks fun _ => 0).Reaches s) :
    (s.Finished ∨ ∃ s', ParStep s s') ∧ ∃ s', s.Reaches s' ∧ s'.Finished := by
  have h1 := AllNoRaise.reaches (upward_noRaise hA _) h
  obtain ⟨k, hk⟩ := steps_of_reaches h
  obtain ⟨m, -, hm⟩ := (upward_totalLen hc fun _ => 0).steps hk
  refine ⟨?_, can_finish hm h1⟩
  by_cases hf : s.Finished
  · exact .inl hf
  · exact .inr (h1.progress hf)

/-- **C84.** The parallel loop returns, and what it returns is unique. -/
theorem C84_returns (hA : A.Monotone) (hc : Distribution chunks) : ∃! r, gravity_upward_parallel c p d chunks r := by
  obtain ⟨s, hs, hf⟩ := (C84_progress (c := c) (p := p) (d := d) hA hc Relation.ReflTransGen.refl).2
  refine ⟨s.mem, ⟨s, hs, hf, rfl⟩, fun r hr => ?_⟩
  exact Except.ok.inj ((C84_deterministic hc hr).symm.trans (C84_deterministic hc ⟨s, hs, hf, rfl⟩))

/-- three points on two threads -/
example : Distribution (![[2, 0], [1]] : Fin 2 → List (Fin 3)) := by
  refine ⟨fun i => ?_, fun t => ?_, fun t t' h i => ?_⟩
  · fin_cases i
    · exact ⟨0, by simp⟩
    · exact ⟨1, by simp⟩
    · exact ⟨0, by simp⟩
  · fin_cases t <;> simp
  · fin_cases t <;> fin_cases t' <;> fin_cases i <;> simp_all

/-- **C84.** Running the loop over the prisms in parallel instead is wrong: two threads with one
prism each can lose the contribution of the first prism. -/
theorem C84_prisms_lose_update {p : Prisms A 2} {d : Fin 2 → Fl A} (i : Fin N) {g₀ g₁ : Fl A}
    (h₀ : fieldOf c p d i 0 = .ok g₀) (h₁ : fieldOf c p d i 1 = .ok g₁) :
    ∃ s, (ParState.start (upwardPrismBody c p d i) ![[0], [1]] fun _ => 0).Reaches s ∧ s.Finished ∧
      s.mem i = 0 + g₁ := by
  let W : Fl A → Prog (Fin N) (Fl A) := fun v => .write i v .done
  let K : Fin 2 → Fl A → Prog (Fin N) (Fl A) := fun j r => .call (fieldOf c p d i j) fun g => W (r + g)
  have hb : ∀ j, upwardPrismBody c p d i j = .read i (K j) := fun _ => rfl
  have e0 : ∀ (a b a' : List (Fin 2 × Prog (Fin N) (Fl A))), Function.update ![a, b] 0 a' = ![a', b] := by
    intro a b a'; funext t; fin_cases t <;> rfl
  have e1 : ∀ (a b b' : List (Fin 2 × Prog (Fin N) (Fl A))), Function.update ![a, b] 1 b' = ![a, b'] := by
    intro a b b'; funext t; fin_cases t <;> rfl
  have s0 : ParState.start (upwardPrismBody c p d i) ![[0], [1]] (fun _ => 0) =
      ⟨fun _ => 0, ![[(0, .read i (K 0))], [(1, .read i (K 1))]]⟩ := by
    unfold ParState.start
    congr 1
    funext t; fin_cases t <;> rfl
  rw [s0]
  let m0 : Fin N → Fl A := fun _ => 0
  let m1 := Function.update m0 i (0 + g₀)
  let m2 := Function.update m1 i (0 + g₁)
  have r1 : ParStep (⟨m0, ![[(0, .read i (K 0))], [(1, .read i (K 1))]]⟩ : ParState (Fin N) (Fl A) (Fin 2) 2)
      ⟨m0, ![[(0, K 0 0)], [(1, .read i (K 1))]]⟩ := by
    have := ParStep.read (s := (⟨m0, ![[(0, .read i (K 0))], [(1, .read i (K 1))]]⟩ : ParState (Fin N) (Fl A) (Fin 2) 2)) 0 rfl
    rwa [e0] at this
  have r2 : ParStep (⟨m0, ![[(0, K 0 0)], [(1, .read i (K 1))]]⟩ : ParState (Fin N) (Fl A) (Fin 2) 2)
      ⟨m0, ![[(0, K 0 0)], [(1, K 1 0)]]⟩ := by
    have := ParStep.read (s := (⟨m0, ![[(0, K 0 0)], [(1, .read i (K 1))]]⟩ : ParState (Fin N) (Fl A) (Fin 2) 2)) 1 rfl
    rwa [e1] at this
  have r3 : ParStep (⟨m0, ![[(0, K 0 0)], [(1, K 1 0)]]⟩ : ParState (Fin N) (Fl A) (Fin 2) 2)
      ⟨m0, ![[(0, W (0 + g₀))], [(1, K 1 0)]]⟩ := by
    have := ParStep.call (s := (⟨m0, ![[(0, K 0 0)], [(1, K 1 0)]]⟩ : ParState (Fin N) (Fl A) (Fin 2) 2)) 0 rfl h₀
    rwa [e0] at this
  have r4 : ParStep (⟨m0, ![[(0, W (0 + g₀))], [(1, K 1 0)]]⟩ : ParState (Fin N) (Fl A) (Fin 2) 2)
      ⟨m0, ![[(0, W (0 + g₀))], [(1, W (0 + g₁))]]⟩ := by
    have := ParStep.call (s := (⟨m0, ![[(0, W (0 + g₀))], [(1, K 1 0)]]⟩ : ParState (Fin N) (Fl A) (Fin 2) 2)) 1 rfl h₁
    rwa [e1] at this
  have r5 : ParStep (⟨m0, ![[(0, W (0 + g₀))], [(1, W (0 + g₁))]]⟩ : ParState (Fin N) (Fl A) (Fin 2) 2)
      ⟨m1, ![[(0, .done)], [(1, W (0 + g₁))]]⟩ := by
    have := ParStep.write (s := (⟨m0, ![[(0, W (0 + g₀))], [(1, W (0 + g₁))]]⟩ : ParState (Fin N) (Fl A) (Fin 2) 2)) 0 rfl
    rwa [e0] at this
  have r6 : ParStep (⟨m1, ![[(0, .done)], [(1, W (0 + g₁))]]⟩ : ParState (Fin N) (Fl A) (Fin 2) 2)
      ⟨m2, ![[(0, .done)], [(1, .done)]]⟩ := by
    have := ParStep.write (s := (⟨m1, ![[(0, .done)], [(1, W (0 + g₁))]]⟩ : ParState (Fin N) (Fl A) (Fin 2) 2)) 1 rfl
    rwa [e1] at this
  have r7 : ParStep (⟨m2, ![[(0, .done)], [(1, .done)]]⟩ : ParState (Fin N) (Fl A) (Fin 2) 2) ⟨m2, ![[], [(1, .done)]]⟩ := by
    have := ParStep.next (s := (⟨m2, ![[(0, .done)], [(1, .done)]]⟩ : ParState (Fin N) (Fl A) (Fin 2) 2)) 0 rfl
    rwa [e0] at this
  have r8 : ParStep (⟨m2, ![[], [(1, .done)]]⟩ : ParState (Fin N) (Fl A) (Fin 2) 2) ⟨m2, ![[], []]⟩ := by
    have := ParStep.next (s := (⟨m2, ![[], [(1, .done)]]⟩ : ParState (Fin N) (Fl A) (Fin 2) 2)) 1 rfl
    rwa [e1] at this
  refine ⟨⟨m2, ![[], []]⟩, ?_, fun t => by fin_cases t <;> rfl, ?_⟩
  · exact (((((((Relation.ReflTransGen.single r1).tail r2).tail r3).tail r4).tail r5).tail r6).tail r7).tail r8
  · show Function.update m1 i (0 + g₁) i = _
    rw [Function.update_self]

/-- **C84.** The number obtained that way is wrong: in exact arithmetic it differs from what the
serial loop returns whenever the first prism has any effect at all. -/
theorem C84_prisms_wrong {P : Fin 2 → Box} (hP : ∀ j, (P j).Ordered) (q : Fin N → Pt) (ρ : Fin 2 → ℝ) (i : Fin N)
    (h : ¬ Returns (onPrism (A := Exact) prism.gravity_u (q i) (P 0) (ρ 0)) 0) :
    ∃ s, (ParState.start (upwardPrismBody (A := Exact) (points q) (boxes P) (values ρ) i) ![[0], [1]] fun _ => 0).Reaches s ∧
      s.Finished ∧ ∀ r, gravity_upward (A := Exact) (points q) (boxes P) (values ρ) = .ok r → s.mem i ≠ r i := by
  obtain ⟨g, hg, hr⟩ := C83_exact hP q ρ
  obtain ⟨s, hs, hf, hm⟩ := C84_prisms_lose_update (A := Exact) (c := points q) (p := boxes P) (d := values ρ) i (hg i 0) (hg i 1)
  refine ⟨s, hs, hf, fun r h' e => ?_⟩
  have e1 : r i = Fl.fin (∑ j, g i j) := (congrFun (Except.ok.inj (hr.symm.trans h')) i).symm
  have e2 : s.mem i = Fl.fin (0 + g i 1) := by
    rw [hm]
    show (Fl.fin (((0 : ℕ) : ℝ) + g i 1) : Fl Exact) = _
    rw [Nat.cast_zero]
  rw [e1, e2] at e
  have e3 : 0 + g i 1 = ∑ j, g i j := Raw.fin.inj e
  rw [Fin.sum_univ_two] at e3
  have : g i 0 = 0 := by linarith
  exact h (this ▸ hg i 0)

/-- the field of a dense prism just below the observation point is not zero -/
example : ¬ Returns (onPrism (A := Exact) prism.gravity_u (0, 0, 1) exBox (1 : ℝ)) 0 := by
  intro h
  obtain ⟨g, hg, h1, -⟩ := C35_attractive exBox_proper .u (0, 0, 1) (ρ := 1) one_pos
  have := h1 (by norm_num [Box.centre, Box.lo, Box.hi, exBox, Pt.coord])
  have e : g = 0 := Returns.inj hg h
  linarith

end Choclo
