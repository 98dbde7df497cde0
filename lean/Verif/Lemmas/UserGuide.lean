import Verif.Spec.UserGuide
import Verif.Lemmas.Parallel

/-! # The loops of the user guide -/

namespace Choclo.userguide

variable {A : Arith} {N M : ℕ} {c : Coordinates A N} {p : Prisms A M} {d : Fin M → Fl A}

theorem upwardLoop_within (i : Fin N) (l : List (Fin M)) : (upwardLoop c p d i l).Within {i} := by
  induction l with
  | nil => trivial
  | cons j l ih => exact ⟨rfl, fun r g => ⟨rfl, ih⟩⟩

theorem upward_raceFree : RaceFree (upwardBody c p d) fun i => {i} :=
  ⟨fun i => upwardLoop_within i _, fun i i' h a ha ha' => h (by
    rw [Set.mem_singleton_iff] at ha ha'; exact ha.symm.trans ha')⟩

theorem upwardLoop_hasLen (i : Fin N) (l : List (Fin M)) : (upwardLoop c p d i l).HasLen (3 * l.length) := by
  induction l with
  | nil => rfl
  | cons j l ih =>
    exact ⟨3 * l.length + 2, by rw [List.length_cons]; ring, fun r => ⟨3 * l.length + 1, rfl, fun g => ⟨3 * l.length, rfl, ih⟩⟩⟩

theorem upwardLoop_noRaise (h : ∀ i j, ∃ v, fieldOf c p d i j = .ok v) (i : Fin N) (l : List (Fin M)) :
    (upwardLoop c p d i l).NoRaise := by
  induction l with
  | nil => trivial
  | cons j l ih => exact fun r => ⟨h i j, fun g => ih⟩

theorem upwardLoop_run {G : Fin N → Fin M → Fl A} (h : ∀ i j, fieldOf c p d i j = .ok (G i j)) (i : Fin N)
    (l : List (Fin M)) (m : Fin N → Fl A) :
    (upwardLoop c p d i l).run m = .ok (Function.update m i (l.foldl (fun a j => a + G i j) (m i))) := by
  induction l generalizing m with
  | nil => show Except.ok m = _; rw [List.foldl_nil, Function.update_eq_self]
  | cons j l ih =>
    show (do ((Prog.write i (m i + (← fieldOf c p d i j)) (upwardLoop c p d i l)).run m) : Py _) = _
    rw [h i j]
    show (upwardLoop c p d i l).run (Function.update m i (m i + G i j)) = _
    rw [ih, Function.update_self, Function.update_idem, List.foldl_cons]

theorem upwardLoop_ok {i : Fin N} {l : List (Fin M)} {m r : Fin N → Fl A}
    (h : (upwardLoop c p d i l).run m = .ok r) : ∀ j ∈ l, ∃ v, fieldOf c p d i j = .ok v := by
  induction l generalizing m with
  | nil => intro j hj; cases hj
  | cons j l ih =>
    have h' : (do ((Prog.write i (m i + (← fieldOf c p d i j)) (upwardLoop c p d i l)).run m) : Py _) = .ok r := h
    cases hf : fieldOf c p d i j with
    | error e => rw [hf] at h'; cases h'
    | ok v =>
      rw [hf] at h'
      intro k hk
      rcases List.mem_cons.1 hk with rfl | hk
      · exact ⟨v, hf⟩
      · exact ih h' k hk

theorem serial_run {G : Fin N → Fin M → Fl A} (h : ∀ i j, fieldOf c p d i j = .ok (G i j)) (l : List (Fin N))
    (hl : l.Nodup) (m : Fin N → Fl A) :
    runSerial (upwardBody c p d) l m =
      .ok fun i => if i ∈ l then (List.finRange M).foldl (fun a j => a + G i j) (m i) else m i := by
  induction l generalizing m with
  | nil => simp [runSerial]
  | cons i l ih =>
    show (do runSerial (upwardBody c p d) l (← (upwardBody c p d i).run m)) = _
    obtain ⟨h1, h2⟩ := List.nodup_cons.1 hl
    rw [show (upwardBody c p d i).run m = _ from upwardLoop_run h i (List.finRange M) m]
    show runSerial (upwardBody c p d) l _ = _
    rw [ih h2]
    congr 1
    funext k
    by_cases e : k = i
    · subst e; simp [h1]
    · simp [e]

theorem serial_ok {l : List (Fin N)} {m r : Fin N → Fl A} (h : runSerial (upwardBody c p d) l m = .ok r) :
    ∀ i ∈ l, ∀ j, ∃ v, fieldOf c p d i j = .ok v := by
  induction l generalizing m with
  | nil => intro i hi; cases hi
  | cons k l ih =>
    have h' : (do runSerial (upwardBody c p d) l (← (upwardBody c p d k).run m)) = .ok r := h
    cases hf : (upwardBody c p d k).run m with
    | error e => rw [hf] at h'; cases h'
    | ok m' =>
      rw [hf] at h'
      intro i hi j
      rcases List.mem_cons.1 hi with rfl | hi
      · exact upwardLoop_ok hf j (List.mem_finRange j)
      · exact ih h' i hi j

theorem inner_eq (i : Fin N) (l : List (Fin M)) (m : Fin N → Fl A) :
    (forIn l m fun j r => do
      let g ← fieldOf c p d i j
      pure (ForInStep.yield (Function.update r i (r i + g))) : Py (Fin N → Fl A)) = (upwardLoop c p d i l).run m := by
  induction l generalizing m with
  | nil => rfl
  | cons j l ih =>
    rw [List.forIn_cons]
    show _ = (do ((Prog.write i (m i + (← fieldOf c p d i j)) (upwardLoop c p d i l)).run m) : Py _)
    cases hf : fieldOf c p d i j with
    | error e => rfl
    | ok v => exact ih _

theorem outer_eq (l : List (Fin N)) (m : Fin N → Fl A) :
    (forIn l m fun i r => do
      let r ← (forIn (List.finRange M) r fun j r => do
        let g ← fieldOf c p d i j
        pure (ForInStep.yield (Function.update r i (r i + g))) : Py (Fin N → Fl A))
      pure (ForInStep.yield r) : Py (Fin N → Fl A)) = runSerial (upwardBody c p d) l m := by
  induction l generalizing m with
  | nil => rfl
  | cons i l ih =>
    rw [List.forIn_cons, inner_eq]
    show _ = (do runSerial (upwardBody c p d) l (← (upwardBody c p d i).run m))
    unfold upwardBody
    cases hf : (upwardLoop c p d i (List.finRange M)).run m with
    | error e => rfl
    | ok v => exact ih _

/-- `range` and `prange` without parallelism are the same -/
theorem gravity_upward_eq : gravity_upward c p d = runSerial (upwardBody c p d) (List.finRange N) fun _ => 0 := by
  rw [← outer_eq]
  exact bind_pure (m := Except PyErr) _

end Choclo.userguide
