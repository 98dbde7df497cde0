import Verif.Spec.Parallel
import Mathlib.Algebra.BigOperators.Fin
import Mathlib.Tactic.Ring

/-! # Race-free parallel loops are deterministic -/

namespace Choclo

set_option linter.unusedSectionVars false

variable {Addr Val ι : Type} [DecidableEq Addr]

theorem Prog.run_congr {F : Set Addr} : ∀ {p : Prog Addr Val}, p.Within F → ∀ {m m' r : Addr → Val},
    (∀ a ∈ F, m' a = m a) → p.run m = .ok r →
    ∃ r', p.run m' = .ok r' ∧ (∀ a ∈ F, r' a = r a) ∧ ∀ a ∉ F, r' a = m' a := by
  intro p
  induction p with
  | done =>
    intro _ m m' r h hr
    obtain rfl : m = r := Except.ok.inj hr
    exact ⟨m', rfl, h, fun _ _ => rfl⟩
  | read a k ih =>
    intro hw m m' r h hr
    have hr' : (k (m a)).run m = .ok r := hr
    rw [← h a hw.1] at hr'
    exact ih (m' a) (hw.2 _) h hr'
  | write a v k ih =>
    intro hw m m' r h hr
    obtain ⟨r', h1, h2, h3⟩ := ih hw.2 (m := Function.update m a v) (m' := Function.update m' a v) (by
      intro b hb
      by_cases hab : b = a
      · subst hab; simp
      · simp [hab, h b hb]) hr
    refine ⟨r', h1, h2, fun b hb => ?_⟩
    rw [h3 b hb, Function.update_of_ne]
    rintro rfl; exact hb hw.1
  | call c k ih =>
    intro hw m m' r h hr
    cases c with
    | error e => exact absurd hr (by simp [Prog.run, bind, Except.bind])
    | ok v => exact ih v (hw v) h hr

theorem Prog.run_frame {F : Set Addr} {p : Prog Addr Val} (hp : p.Within F) {m r : Addr → Val} (h : p.run m = .ok r) :
    ∀ a ∉ F, r a = m a := by
  obtain ⟨r', h1, -, h3⟩ := Prog.run_congr hp (fun _ _ => rfl) h
  obtain rfl : r = r' := Except.ok.inj (h.symm.trans h1)
  exact h3

/-- iterations access disjoint cells -/
def RaceFree (body : ι → Prog Addr Val) (F : ι → Set Addr) : Prop :=
  (∀ i, (body i).Within (F i)) ∧ ∀ i i', i ≠ i' → ∀ a, a ∈ F i → a ∉ F i'

variable {T : ℕ}

/-- ids of the iterations still to be run by a thread -/
def ids (l : List (ι × Prog Addr Val)) : List ι := l.map Prod.fst

structure ParInv (body : ι → Prog Addr Val) (F : ι → Set Addr) (mem0 : Addr → Val) (s : ParState Addr Val ι T) : Prop where
  nodup : ∀ t, (ids (s.threads t)).Nodup
  disj : ∀ t t', t ≠ t' → ∀ i, i ∈ ids (s.threads t) → i ∉ ids (s.threads t')
  live : ∀ t i p, (i, p) ∈ s.threads t → p.Within (F i) ∧ ∀ r, p.run s.mem = .ok r →
    ∃ r0, (body i).run mem0 = .ok r0 ∧ ∀ a ∈ F i, r0 a = r a
  dead : ∀ i, (∀ t, i ∉ ids (s.threads t)) → ∃ r0, (body i).run mem0 = .ok r0 ∧ ∀ a ∈ F i, r0 a = s.mem a
  out : ∀ a, (∀ i, a ∉ F i) → s.mem a = mem0 a

variable {body : ι → Prog Addr Val} {F : ι → Set Addr} {mem0 : Addr → Val}

theorem mem_ids {l : List (ι × Prog Addr Val)} {i : ι} {p : Prog Addr Val} (h : (i, p) ∈ l) : i ∈ ids l :=
  List.mem_map_of_mem (f := Prod.fst) h

theorem ParInv.head {s : ParState Addr Val ι T} (h : ParInv body F mem0 s) (hF : RaceFree body F) (t : Fin T)
    {i : ι} {p p' : Prog Addr Val} {rest} (ht : s.threads t = (i, p) :: rest) {mem' : Addr → Val}
    (hw : p.Within (F i) → p'.Within (F i)) (hm : ∀ a ∉ F i, mem' a = s.mem a)
    (hrun : p'.run mem' = p.run s.mem) :
    ParInv body F mem0 ⟨mem', Function.update s.threads t ((i, p') :: rest)⟩ := by
  have hids : ∀ t', ids ((Function.update s.threads t ((i, p') :: rest)) t') = ids (s.threads t') := by
    intro t'
    by_cases e : t' = t
    · subst e; simp [ht, ids]
    · simp [e]
  have hi : (i, p) ∈ s.threads t := by rw [ht]; exact List.mem_cons_self
  have hne : ∀ i', i' ≠ i → ∀ a ∈ F i', mem' a = s.mem a := fun i' e a ha => hm a (hF.2 i' i e a ha)
  have hother : ∀ t' i' q, (i', q) ∈ s.threads t' → i' ≠ i → q.Within (F i') ∧ ∀ r, q.run mem' = .ok r →
      ∃ r0, (body i').run mem0 = .ok r0 ∧ ∀ a ∈ F i', r0 a = r a := by
    intro t' i' q hq e
    obtain ⟨w, hr⟩ := h.live t' i' q hq
    refine ⟨w, fun r hr' => ?_⟩
    obtain ⟨r', h1, h2, -⟩ := Prog.run_congr w (m' := s.mem) (fun a ha => (hne i' e a ha).symm) hr'
    obtain ⟨r0, h3, h4⟩ := hr r' h1
    exact ⟨r0, h3, fun a ha => (h4 a ha).trans (h2 a ha)⟩
  refine ⟨fun t' => by rw [hids]; exact h.nodup t', fun a b hab j => by rw [hids, hids]; exact h.disj a b hab j, ?_, ?_, ?_⟩
  · intro t' i' q hq
    have hq0 : (i', q) ∈ Function.update s.threads t ((i, p') :: rest) t' := hq
    by_cases e : t' = t
    · subst e
      rw [Function.update_self] at hq0
      rcases List.mem_cons.1 hq0 with hq1 | hq1
      · obtain ⟨rfl, rfl⟩ := Prod.ext_iff.1 hq1
        obtain ⟨w, hr⟩ := h.live t' i' p hi
        exact ⟨hw w, fun r hr' => hr r (hrun ▸ hr')⟩
      · have hn := h.nodup t'
        rw [ht] at hn
        have : i' ≠ i := by
          rintro rfl
          exact (List.nodup_cons.1 hn).1 (mem_ids hq1)
        exact hother t' i' q (by rw [ht]; exact List.mem_cons_of_mem _ hq1) this
    · rw [Function.update_of_ne e] at hq0
      have : i' ≠ i := by
        rintro rfl
        exact h.disj t t' (Ne.symm e) i' (mem_ids hi) (mem_ids hq0)
      exact hother t' i' q hq0 this
  · intro i' hi'
    have hi2 : ∀ t', i' ∉ ids (s.threads t') := fun t' => by rw [← hids]; exact hi' t'
    have : i' ≠ i := by rintro rfl; exact hi2 t (mem_ids hi)
    obtain ⟨r0, h1, h2⟩ := h.dead i' hi2
    exact ⟨r0, h1, fun a ha => (h2 a ha).trans (hne i' this a ha).symm⟩
  · intro a ha
    exact (hm a (ha i)).trans (h.out a ha)

theorem ParInv.step {s s' : ParState Addr Val ι T} (h : ParInv body F mem0 s) (hF : RaceFree body F)
    (hs : ParStep s s') : ParInv body F mem0 s' := by
  cases hs with
  | read t ht => exact h.head hF t ht (fun w => w.2 _) (fun _ _ => rfl) rfl
  | @write t i a v k rest ht =>
    have w := (h.live t i _ (by rw [ht]; exact List.mem_cons_self)).1
    refine h.head hF t ht (fun w => w.2) (fun b hb => ?_) rfl
    rw [Function.update_of_ne]
    rintro rfl; exact hb w.1
  | call t ht hc => subst hc; exact h.head hF t ht (fun w => w _) (fun _ _ => rfl) rfl
  | @next t i rest ht =>
    have hsub : ∀ t' x, x ∈ Function.update s.threads t rest t' → x ∈ s.threads t' := by
      intro t' x hx
      by_cases e : t' = t
      · subst e; rw [Function.update_self] at hx; rw [ht]; exact List.mem_cons_of_mem _ hx
      · rwa [Function.update_of_ne e] at hx
    have hsub' : ∀ t' j, j ∈ ids (Function.update s.threads t rest t') → j ∈ ids (s.threads t') := by
      intro t' j hj
      obtain ⟨x, hx, rfl⟩ := List.mem_map.1 hj
      exact List.mem_map_of_mem (f := Prod.fst) (hsub t' x hx)
    have hi : (i, Prog.done) ∈ s.threads t := by rw [ht]; exact List.mem_cons_self
    refine ⟨fun t' => ?_, fun a b hab j hj hj' => h.disj a b hab j (hsub' a j hj) (hsub' b j hj'),
      fun t' i' q hq => h.live t' i' q (hsub t' _ hq), fun i' hi' => ?_, h.out⟩
    · by_cases e : t' = t
      · subst e
        have := h.nodup t'
        rw [ht] at this
        show (ids (Function.update s.threads t' rest t')).Nodup
        rw [Function.update_self]
        exact (List.nodup_cons.1 this).2
      · show (ids (Function.update s.threads t rest t')).Nodup
        rw [Function.update_of_ne e]; exact h.nodup t'
    · by_cases e : i' = i
      · subst e
        obtain ⟨r0, h1, h2⟩ := (h.live t i' _ hi).2 s.mem rfl
        exact ⟨r0, h1, h2⟩
      · refine h.dead i' fun t' ht' => ?_
        refine hi' t' ?_
        show i' ∈ ids (Function.update s.threads t rest t')
        by_cases e' : t' = t
        · subst e'
          rw [ht] at ht'
          rw [Function.update_self]
          rcases List.mem_cons.1 ht' with h' | h'
          · exact absurd h' e
          · exact h'
        · rwa [Function.update_of_ne e']

theorem ids_start (body : ι → Prog Addr Val) (l : List ι) : ids (l.map fun i => (i, body i)) = l := by
  simp [ids, Function.comp_def]

theorem ParInv.start (hF : RaceFree body F) {chunks : Fin T → List ι} (hc : Distribution chunks) (mem0 : Addr → Val) :
    ParInv body F mem0 (ParState.start body chunks mem0) := by
  obtain ⟨h1, h2, h3⟩ := hc
  refine ⟨fun t => ?_, fun t t' e i hi hi' => ?_, fun t i p hp => ?_, fun i hi => ?_, fun _ _ => rfl⟩
  · show (ids ((chunks t).map fun i => (i, body i))).Nodup
    rw [ids_start]; exact h2 t
  · have a : i ∈ ids ((chunks t).map fun i => (i, body i)) := hi
    have b : i ∈ ids ((chunks t').map fun i => (i, body i)) := hi'
    rw [ids_start] at a b
    exact h3 t t' e i a b
  · have hp' : (i, p) ∈ (chunks t).map fun i => (i, body i) := hp
    obtain ⟨j, -, hj⟩ := List.mem_map.1 hp'
    obtain ⟨rfl, rfl⟩ := Prod.ext_iff.1 hj
    exact ⟨hF.1 _, fun r hr => ⟨r, hr, fun _ _ => rfl⟩⟩
  · obtain ⟨t, ht⟩ := h1 i
    refine absurd ?_ (hi t)
    show i ∈ ids ((chunks t).map fun i => (i, body i))
    rwa [ids_start]

theorem ParInv.reaches (hF : RaceFree body F) {chunks : Fin T → List ι} (hc : Distribution chunks) {mem0 : Addr → Val}
    {s : ParState Addr Val ι T} (hs : (ParState.start body chunks mem0).Reaches s) : ParInv body F mem0 s := by
  induction hs with
  | refl => exact ParInv.start hF hc mem0
  | tail _ h ih => exact ih.step hF h

/-- run alone, each iteration produces its part of the final array -/
theorem parallel_parts (hF : RaceFree body F) {chunks : Fin T → List ι} (hc : Distribution chunks) {mem0 : Addr → Val}
    {s : ParState Addr Val ι T} (hs : (ParState.start body chunks mem0).Reaches s) (hfin : s.Finished) :
    (∀ i, ∃ r0, (body i).run mem0 = .ok r0 ∧ ∀ a ∈ F i, r0 a = s.mem a) ∧ ∀ a, (∀ i, a ∉ F i) → s.mem a = mem0 a := by
  have h := ParInv.reaches hF hc hs
  refine ⟨fun i => h.dead i fun t => ?_, h.out⟩
  rw [hfin t]; exact List.not_mem_nil

theorem serial_of_parts (hF : RaceFree body F) : ∀ (l : List ι), l.Nodup → ∀ (m target : Addr → Val),
    (∀ i ∈ l, ∃ r0, (body i).run m = .ok r0 ∧ ∀ a ∈ F i, r0 a = target a) →
    (∀ a, (∀ i ∈ l, a ∉ F i) → m a = target a) → runSerial body l m = .ok target := by
  intro l
  induction l with
  | nil =>
    intro _ m target _ h
    have : m = target := funext fun a => h a (fun i hi => absurd hi List.not_mem_nil)
    rw [this]; rfl
  | cons i l ih =>
    intro hn m target h1 h2
    obtain ⟨r0, hr, hr2⟩ := h1 i List.mem_cons_self
    obtain ⟨hn1, hn2⟩ := List.nodup_cons.1 hn
    have hfr := Prog.run_frame (hF.1 i) hr
    have e : runSerial body (i :: l) m = runSerial body l r0 := by
      show (do runSerial body l (← (body i).run m)) = _
      rw [hr]; rfl
    rw [e]
    refine ih hn2 r0 target (fun j hj => ?_) fun a ha => ?_
    · obtain ⟨r1, k1, k2⟩ := h1 j (List.mem_cons_of_mem _ hj)
      have hji : j ≠ i := by rintro rfl; exact hn1 hj
      obtain ⟨r', k3, k4, -⟩ := Prog.run_congr (hF.1 j) (m' := r0)
        (fun a ha => hfr a (hF.2 j i hji a ha)) k1
      exact ⟨r', k3, fun a ha => (k4 a ha).trans (k2 a ha)⟩
    · by_cases hai : a ∈ F i
      · exact hr2 a hai
      · rw [hfr a hai]
        exact h2 a fun j hj => by
          rcases List.mem_cons.1 hj with rfl | hj
          · exact hai
          · exact ha j hj

/-- every interleaving gives the array of the serial loop -/
theorem parallel_eq_serial (hF : RaceFree body F) {chunks : Fin T → List ι} (hc : Distribution chunks)
    {mem0 : Addr → Val} {s : ParState Addr Val ι T} (hs : (ParState.start body chunks mem0).Reaches s)
    (hfin : s.Finished) {l : List ι} (hl : l.Nodup) (hall : ∀ i, i ∈ l) : runSerial body l mem0 = .ok s.mem := by
  obtain ⟨h1, h2⟩ := parallel_parts hF hc hs hfin
  exact serial_of_parts hF l hl mem0 s.mem (fun i _ => h1 i) fun a ha => (h2 a fun i => ha i (hall i)).symm

/-! ### progress -/

def AllNoRaise (s : ParState Addr Val ι T) : Prop := ∀ t x, x ∈ s.threads t → x.2.NoRaise

theorem AllNoRaise.step {s s' : ParState Addr Val ι T} (h : AllNoRaise s) (hs : ParStep s s') : AllNoRaise s' := by
  have key : ∀ (t : Fin T) {x rest} (l' : List (ι × Prog Addr Val)), s.threads t = x :: rest →
      (∀ y ∈ l', y.2.NoRaise) → ∀ t' y, y ∈ Function.update s.threads t l' t' → y.2.NoRaise := by
    intro t x rest l' ht hl t' y hy
    by_cases e : t' = t
    · subst e; rw [Function.update_self] at hy; exact hl y hy
    · rw [Function.update_of_ne e] at hy; exact h t' y hy
  have hrest : ∀ {t : Fin T} {x rest}, s.threads t = x :: rest → ∀ y ∈ rest, y.2.NoRaise := fun {t x rest} ht y hy =>
    h t y (by rw [ht]; exact List.mem_cons_of_mem _ hy)
  have hhead : ∀ {t : Fin T} {x rest}, s.threads t = x :: rest → x.2.NoRaise := fun {t x rest} ht =>
    h t x (by rw [ht]; exact List.mem_cons_self)
  cases hs with
  | read t ht =>
    refine key t _ ht fun y hy => ?_
    rcases List.mem_cons.1 hy with rfl | hy
    · exact hhead ht _
    · exact hrest ht y hy
  | write t ht =>
    refine key t _ ht fun y hy => ?_
    rcases List.mem_cons.1 hy with rfl | hy
    · have h2 := hhead ht
      exact h2
    · exact hrest ht y hy
  | call t ht hc =>
    refine key t _ ht fun y hy => ?_
    rcases List.mem_cons.1 hy with rfl | hy
    · exact (hhead ht).2 _
    · exact hrest ht y hy
  | next t ht => exact key t _ ht fun y hy => hrest ht y hy

theorem AllNoRaise.progress {s : ParState Addr Val ι T} (h : AllNoRaise s) (hf : ¬ s.Finished) : ∃ s', ParStep s s' := by
  unfold ParState.Finished at hf
  push Not at hf
  obtain ⟨t, ht⟩ := hf
  obtain ⟨⟨i, p⟩, rest, e⟩ := List.exists_cons_of_ne_nil ht
  have hp := h t (i, p) (by rw [e]; exact List.mem_cons_self)
  cases p with
  | done => exact ⟨_, ParStep.next t e⟩
  | read a k => exact ⟨_, ParStep.read t e⟩
  | write a v k => exact ⟨_, ParStep.write t e⟩
  | call c k =>
    obtain ⟨⟨v, hv⟩, -⟩ := hp
    exact ⟨_, ParStep.call t e hv⟩

/-! ### number of steps -/

def ListLen : List (ι × Prog Addr Val) → ℕ → Prop
  | [], n => n = 0
  | x :: l, n => ∃ a b, x.2.HasLen a ∧ ListLen l b ∧ n = a + 1 + b

def TotalLen (s : ParState Addr Val ι T) (n : ℕ) : Prop :=
  ∃ f : Fin T → ℕ, (∀ t, ListLen (s.threads t) (f t)) ∧ n = ∑ t, f t

theorem sum_update_succ (f : Fin T → ℕ) (t : Fin T) {a : ℕ} (h : f t = a + 1) :
    ∑ x, f x = (∑ x, Function.update f t a x) + 1 := by
  rw [Finset.sum_update_of_mem (Finset.mem_univ t), ← Finset.add_sum_erase _ _ (Finset.mem_univ t), h,
    Finset.sdiff_singleton_eq_erase]
  ring

theorem TotalLen.step {s s' : ParState Addr Val ι T} {n : ℕ} (h : TotalLen s n) (hs : ParStep s s') :
    ∃ m, n = m + 1 ∧ TotalLen s' m := by
  obtain ⟨f, hf, rfl⟩ := h
  have key : ∀ (t : Fin T) (l' : List (ι × Prog Addr Val)) (mem : Addr → Val) (a : ℕ), f t = a + 1 → ListLen l' a →
      ∃ m, ∑ t, f t = m + 1 ∧ TotalLen (⟨mem, Function.update s.threads t l'⟩ : ParState Addr Val ι T) m := by
    intro t l' mem a ha hl
    refine ⟨_, sum_update_succ f t ha, Function.update f t a, fun t' => ?_, rfl⟩
    show ListLen (Function.update s.threads t l' t') (Function.update f t a t')
    by_cases e : t' = t
    · subst e; rw [Function.update_self, Function.update_self]; exact hl
    · rw [Function.update_of_ne e, Function.update_of_ne e]; exact hf t'
  cases hs with
  | read t ht =>
    have := hf t
    rw [ht] at this
    obtain ⟨a, b, ⟨m, rfl, h1⟩, h2, h3⟩ := this
    exact key t _ _ (m + 1 + b) (by omega) ⟨m, b, h1 _, h2, rfl⟩
  | write t ht =>
    have := hf t
    rw [ht] at this
    obtain ⟨a, b, ⟨m, rfl, h1⟩, h2, h3⟩ := this
    exact key t _ _ (m + 1 + b) (by omega) ⟨m, b, h1, h2, rfl⟩
  | call t ht hc =>
    have := hf t
    rw [ht] at this
    obtain ⟨a, b, ⟨m, rfl, h1⟩, h2, h3⟩ := this
    exact key t _ _ (m + 1 + b) (by omega) ⟨m, b, h1 _, h2, rfl⟩
  | next t ht =>
    have := hf t
    rw [ht] at this
    obtain ⟨a, b, h1, h2, h3⟩ := this
    have h1' : a = 0 := h1
    exact key t _ _ b (by omega) h2

theorem TotalLen.steps {s s' : ParState Addr Val ι T} {n k : ℕ} (h : TotalLen s n) (hs : ParSteps k s s') :
    ∃ m, n = m + k ∧ TotalLen s' m := by
  induction hs with
  | refl => exact ⟨n, rfl, h⟩
  | step _ hst ih =>
    obtain ⟨m, rfl, hm⟩ := ih h
    obtain ⟨m', rfl, hm'⟩ := hm.step hst
    exact ⟨m', by ring, hm'⟩

theorem TotalLen.finished {s : ParState Addr Val ι T} {n : ℕ} (h : TotalLen s n) : s.Finished ↔ n = 0 := by
  obtain ⟨f, hf, rfl⟩ := h
  constructor
  · intro hs
    refine Finset.sum_eq_zero fun t _ => ?_
    have := hf t
    rw [hs t] at this
    exact this
  · intro h0 t
    have h1 : f t = 0 := Finset.sum_eq_zero_iff.1 h0 t (Finset.mem_univ t)
    have := hf t
    rw [h1] at this
    cases hl : s.threads t with
    | nil => rfl
    | cons x l =>
      rw [hl] at this
      obtain ⟨a, b, -, -, h3⟩ := this
      omega

theorem ListLen.start {L : ℕ} (hL : ∀ i, (body i).HasLen L) (l : List ι) :
    ListLen (l.map fun i => (i, body i)) (l.length * (L + 1)) := by
  induction l with
  | nil => show 0 * (L + 1) = 0; rw [zero_mul]
  | cons i l ih => exact ⟨L, _, hL i, ih, by rw [List.length_cons]; ring⟩

theorem TotalLen.start {L : ℕ} (hL : ∀ i, (body i).HasLen L) (chunks : Fin T → List ι) (mem0 : Addr → Val) :
    TotalLen (ParState.start body chunks mem0) ((∑ t, (chunks t).length) * (L + 1)) :=
  ⟨fun t => (chunks t).length * (L + 1), fun t => ListLen.start hL _, by rw [Finset.sum_mul]⟩

theorem Distribution.sum_length {N : ℕ} {chunks : Fin T → List (Fin N)} (hc : Distribution chunks) :
    ∑ t, (chunks t).length = N := by
  obtain ⟨h1, h2, h3⟩ := hc
  have e : ∀ t, (chunks t).length = (chunks t).toFinset.card := fun t => (List.toFinset_card_of_nodup (h2 t)).symm
  simp only [e]
  rw [← Finset.card_biUnion]
  · have : (Finset.univ.biUnion fun t => (chunks t).toFinset) = (Finset.univ : Finset (Fin N)) := by
      ext i
      simp only [Finset.mem_biUnion, Finset.mem_univ, true_and, List.mem_toFinset, iff_true]
      exact h1 i
    rw [this, Finset.card_univ, Fintype.card_fin]
  · intro t _ t' _ hne
    rw [Function.onFun, Finset.disjoint_left]
    intro i hi hi'
    exact h3 t t' hne i (List.mem_toFinset.1 hi) (List.mem_toFinset.1 hi')

theorem reaches_of_steps {k : ℕ} {s s' : ParState Addr Val ι T} (h : ParSteps k s s') : s.Reaches s' := by
  induction h with
  | refl => exact Relation.ReflTransGen.refl
  | step _ hst ih => exact ih.tail hst

theorem steps_of_reaches {s s' : ParState Addr Val ι T} (h : s.Reaches s') : ∃ k, ParSteps k s s' := by
  induction h with
  | refl => exact ⟨0, .refl _⟩
  | tail _ hst ih => obtain ⟨k, hk⟩ := ih; exact ⟨k + 1, hk.step hst⟩

/-- with calls that do not raise, every unfinished execution can be finished -/
theorem can_finish {s : ParState Addr Val ι T} {n : ℕ} (h : TotalLen s n) (hr : AllNoRaise s) :
    ∃ s', s.Reaches s' ∧ s'.Finished := by
  induction n generalizing s with
  | zero => exact ⟨s, Relation.ReflTransGen.refl, h.finished.2 rfl⟩
  | succ n ih =>
    have : ¬ s.Finished := fun hf => absurd (h.finished.1 hf) (Nat.succ_ne_zero n)
    obtain ⟨s', hs'⟩ := hr.progress this
    obtain ⟨m, hm, hm'⟩ := h.step hs'
    obtain rfl : n = m := by omega
    obtain ⟨s'', h1, h2⟩ := ih hm' (hr.step hs')
    exact ⟨s'', Relation.ReflTransGen.head hs' h1, h2⟩

end Choclo
