import Verif.Model.Mixed.UserGuide
import Verif.Lemmas.UserGuide

/-! # The loops of the user guide for float32 arrays -/

namespace Choclo.Mixed.userguide

variable {S D : Arith} {N M : ℕ} {c : Coordinates S D N} {p : Prisms S D M} {d : Fin M → MFl S D}

theorem upwardLoop_within (i : Fin N) (l : List (Fin M)) : (upwardLoop c p d i l).Within {i} := by
  induction l with
  | nil => trivial
  | cons j l ih => exact ⟨rfl, fun r g => ⟨rfl, ih⟩⟩

theorem upward_raceFree : RaceFree (upwardBody c p d) fun i => {i} :=
  ⟨fun i => upwardLoop_within i _, fun i i' h a ha ha' => h (by
    rw [Set.mem_singleton_iff] at ha ha'; exact ha.symm.trans ha')⟩

theorem upwardLoop_hasLen (i : Fin N) (l : List (Fin M)) : (upwardLoop c p d i l).HasLen (3 * l.length) := by
  induction l with
  | nil => rfl
  | cons j l ih =>
    exact ⟨3 * l.length + 2, by rw [List.length_cons]; ring, fun r => ⟨3 * l.length + 1, rfl, fun g => ⟨3 * l.length, rfl, ih⟩⟩⟩

theorem upwardLoop_noRaise (h : ∀ i j, ∃ v, term c p d i j = .ok v) (i : Fin N) (l : List (Fin M)) :
    (upwardLoop c p d i l).NoRaise := by
  induction l with
  | nil => trivial
  | cons j l ih => exact fun r => ⟨h i j, fun g => ih⟩

theorem upwardLoop_run {G : Fin N → Fin M → Fl D} (h : ∀ i j, term c p d i j = .ok (G i j)) (i : Fin N)
    (l : List (Fin M)) (m : Fin N → Fl D) :
    (upwardLoop c p d i l).run m = .ok (Function.update m i (l.foldl (fun a j => a + G i j) (m i))) := by
  induction l generalizing m with
  | nil => show Except.ok m = _; rw [List.foldl_nil, Function.update_eq_self]
  | cons j l ih =>
    show (do ((Prog.write i (m i + (← term c p d i j)) (upwardLoop c p d i l)).run m) : Py _) = _
    rw [h i j]
    show (upwardLoop c p d i l).run (Function.update m i (m i + G i j)) = _
    rw [ih, Function.update_self, Function.update_idem, List.foldl_cons]

theorem upwardLoop_ok {i : Fin N} {l : List (Fin M)} {m r : Fin N → Fl D}
    (h : (upwardLoop c p d i l).run m = .ok r) : ∀ j ∈ l, ∃ v, term c p d i j = .ok v := by
  induction l generalizing m with
  | nil => intro j hj; cases hj
  | cons j l ih =>
    have h' : (do ((Prog.write i (m i + (← term c p d i j)) (upwardLoop c p d i l)).run m) : Py _) = .ok r := h
    cases hf : term c p d i j with
    | error e => rw [hf] at h'; cases h'
    | ok v =>
      rw [hf] at h'
      intro k hk
      rcases List.mem_cons.1 hk with rfl | hk
      · exact ⟨v, hf⟩
      · exact ih h' k hk

theorem serial_run {G : Fin N → Fin M → Fl D} (h : ∀ i j, term c p d i j = .ok (G i j)) (l : List (Fin N))
    (hl : l.Nodup) (m : Fin N → Fl D) :
    runSerial (upwardBody c p d) l m =
      .ok fun i => if i ∈ l then (List.finRange M).foldl (fun a j => a + G i j) (m i) else m i := by
  induction l generalizing m with
  | nil => simp [runSerial]
  | cons i l ih =>
    show (do runSerial (upwardBody c p d) l (← (upwardBody c p d i).run m)) = _
    obtain ⟨h1, h2⟩ := List.nodup_cons.1 hl
    rw [show (upwardBody c p d i).run m = _ from upwardLoop_run h i (List.finRange M) m]
    show runSerial (upwardBody c p d) l _ = _
    rw [ih h2]
    congr 1
    funext k
    by_cases e : k = i
    · subst e; simp [h1]
    · simp [e]

theorem serial_ok {l : List (Fin N)} {m r : Fin N → Fl D} (h : runSerial (upwardBody c p d) l m = .ok r) :
    ∀ i ∈ l, ∀ j, ∃ v, term c p d i j = .ok v := by
  induction l generalizing m with
  | nil => intro i hi; cases hi
  | cons k l ih =>
    have h' : (do runSerial (upwardBody c p d) l (← (upwardBody c p d k).run m)) = .ok r := h
    cases hf : (upwardBody c p d k).run m with
    | error e => rw [hf] at h'; cases h'
    | ok m' =>
      rw [hf] at h'
      intro i hi j
      rcases List.mem_cons.1 hi with rfl | hi
      · exact upwardLoop_ok hf j (List.mem_finRange j)
      · exact ih h' i hi j

theorem inner_eq (i : Fin N) (l : List (Fin M)) (m : Fin N → Fl D) :
    (forIn l m fun j r => do
      let g ← term c p d i j
      pure (ForInStep.yield (Function.update r i (r i + g))) : Py (Fin N → Fl D)) = (upwardLoop c p d i l).run m := by
  induction l generalizing m with
  | nil => rfl
  | cons j l ih =>
    rw [List.forIn_cons]
    show _ = (do ((Prog.write i (m i + (← term c p d i j)) (upwardLoop c p d i l)).run m) : Py _)
    cases hf : term c p d i j with
    | error e => rfl
    | ok v => exact ih _

theorem outer_eq (l : List (Fin N)) (m : Fin N → Fl D) :
    (forIn l m fun i r => do
      let r ← (forIn (List.finRange M) r fun j r => do
        let g ← term c p d i j
        pure (ForInStep.yield (Function.update r i (r i + g))) : Py (Fin N → Fl D))
      pure (ForInStep.yield r) : Py (Fin N → Fl D)) = runSerial (upwardBody c p d) l m := by
  induction l generalizing m with
  | nil => rfl
  | cons i l ih =>
    rw [List.forIn_cons, inner_eq]
    show _ = (do runSerial (upwardBody c p d) l (← (upwardBody c p d i).run m))
    unfold upwardBody
    cases hf : (upwardLoop c p d i (List.finRange M)).run m with
    | error e => rfl
    | ok v => exact ih _

theorem gravity_upward_eq : gravity_upward c p d = runSerial (upwardBody c p d) (List.finRange N) fun _ => 0 := by
  rw [← outer_eq]
  exact bind_pure (m := Except PyErr) _

theorem jacobianLoop_within (i : Fin N) (l : List (Fin M)) : (jacobianLoop c p i l).Within {x | x.1 = i} := by
  induction l with
  | nil => trivial
  | cons j l ih => exact fun g => ⟨rfl, ih⟩

theorem jacobian_raceFree : RaceFree (jacobianBody c p) fun i => {x | x.1 = i} :=
  ⟨fun i => jacobianLoop_within i _, fun _ _ h _ ha ha' => h (Eq.trans (Eq.symm ha) ha')⟩

theorem jacobianLoop_hasLen (i : Fin N) (l : List (Fin M)) : (jacobianLoop c p i l).HasLen (2 * l.length) := by
  induction l with
  | nil => rfl
  | cons j l ih =>
    exact ⟨2 * l.length + 1, by rw [List.length_cons]; ring, fun g => ⟨2 * l.length, rfl, ih⟩⟩

theorem jacobianLoop_run {i : Fin N} {l : List (Fin M)} {m r : Fin N × Fin M → Fl D}
    (h : (jacobianLoop c p i l).run m = .ok r) (hl : l.Nodup) :
    (∀ j ∈ l, term c p (fun _ => MFl.f64 1) i j = .ok (r (i, j))) ∧ ∀ j ∉ l, r (i, j) = m (i, j) := by
  induction l generalizing m with
  | nil =>
    obtain rfl : m = r := Except.ok.inj h
    exact ⟨fun j hj => absurd hj List.not_mem_nil, fun _ _ => rfl⟩
  | cons j l ih =>
    obtain ⟨hl1, hl2⟩ := List.nodup_cons.1 hl
    have h' : (do ((Prog.write (i, j) (← term c p (fun _ => MFl.f64 1) i j) (jacobianLoop c p i l)).run m) : Py _) = .ok r := h
    cases hf : term c p (fun _ => MFl.f64 1) i j with
    | error e => rw [hf] at h'; cases h'
    | ok v =>
      rw [hf] at h'
      obtain ⟨h1, h2⟩ := ih h' hl2
      refine ⟨fun k hk => ?_, fun k hk => ?_⟩
      · rcases List.mem_cons.1 hk with rfl | hk
        · rw [h2 k hl1, Function.update_self]; exact hf
        · exact h1 k hk
      · rw [List.mem_cons, not_or] at hk
        rw [h2 k hk.2, Function.update_of_ne]
        intro e
        exact hk.1 (congrArg Prod.snd e)

theorem jacobianLoop_noRaise (h : ∀ i j, ∃ v, term c p (fun _ => MFl.f64 1) i j = .ok v) (i : Fin N) (l : List (Fin M)) :
    (jacobianLoop c p i l).NoRaise := by
  induction l with
  | nil => trivial
  | cons j l ih => exact ⟨h i j, fun g => ih⟩

end Choclo.Mixed.userguide
