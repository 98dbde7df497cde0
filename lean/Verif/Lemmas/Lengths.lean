import Verif.Model.Lengths
import Verif.Props.UserGuide

/-! # Loops that stop at the first error -/

namespace Choclo.userguide

variable {A : Arith}

/-- a `for` loop whose first iterations succeed -/
theorem forIn_prefix {α β ε : Type} {f : α → β → Except ε (ForInStep β)} {g : α → β → β} {l₁ : List α}
    (h : ∀ a ∈ l₁, ∀ b, f a b = .ok (.yield (g a b))) (l₂ : List α) (b : β) :
    forIn (l₁ ++ l₂) b f = forIn l₂ (l₁.foldl (fun b a => g a b) b) f := by
  induction l₁ generalizing b with
  | nil => rfl
  | cons a l₁ ih =>
    rw [List.cons_append, List.forIn_cons, h a (List.mem_cons_self ..)]
    exact ih (fun a ha => h a (List.mem_cons_of_mem _ ha)) _

/-- a `for` loop with an error -/
theorem forIn_error {α β ε : Type} {f : α → β → Except ε (ForInStep β)} {g : α → β → β} {l₁ : List α}
    (h : ∀ a ∈ l₁, ∀ b, f a b = .ok (.yield (g a b))) {a : α} {e : ε} (ha : ∀ b, f a b = .error e) (l₂ : List α) (b : β) :
    forIn (l₁ ++ a :: l₂) b f = .error e := by
  rw [forIn_prefix h, List.forIn_cons, ha]
  rfl

theorem forIn_ok {α β ε : Type} {f : α → β → Except ε (ForInStep β)} {g : α → β → β} {l : List α}
    (h : ∀ a ∈ l, ∀ b, f a b = .ok (.yield (g a b))) (b : β) :
    forIn l b f = .ok (l.foldl (fun b a => g a b) b) := by
  have := forIn_prefix h [] b
  rw [List.append_nil] at this
  rw [this]
  rfl

/-- the part of `finRange` before an index -/
theorem finRange_split {N k : ℕ} (hk : k < N) : ∃ l₁ l₂ : List (Fin N), List.finRange N = l₁ ++ ⟨k, hk⟩ :: l₂ ∧
    ∀ i ∈ l₁, i.val < k := by
  refine ⟨(List.finRange N).take k, (List.finRange N).drop (k + 1), ?_, ?_⟩
  · have h1 := List.take_append_drop k (List.finRange N)
    have h2 : (List.finRange N).drop k = ⟨k, hk⟩ :: (List.finRange N).drop (k + 1) := by
      rw [List.drop_eq_getElem_cons (by rw [List.length_finRange]; exact hk)]
      simp
    rw [← h2, h1]
  · intro i hi
    obtain ⟨m, hm, rfl⟩ := List.mem_take_iff_getElem.1 hi
    simp only [List.getElem_finRange, Fin.val_cast]
    omega

variable {e n u d : List (Fl A)} {P : Table A}

/-- the inner loop -/
noncomputable def slowInner (e n u : List (Fl A)) (P : Table A) (d : List (Fl A)) (i : Fin e.length)
    (r : Fin e.length → Fl A) : Except GuideErr (ForInStep (Fin e.length → Fl A)) := do
  let mut result := r
  for j in List.finRange P.rows.length do
    result := Function.update result i (result i + (← slow_term e n u P d i j))
  return .yield result

theorem slow_loop_eq : slow_loop e n u P d = forIn (List.finRange e.length) (fun _ => 0) (slowInner e n u P d) := by
  unfold slow_loop
  exact bind_pure (m := Except GuideErr) _

theorem foldl_update {N : ℕ} {J : Type} (i : Fin N) (G : J → Fl A) (l : List J) (r : Fin N → Fl A) :
    l.foldl (fun r j => Function.update r i (r i + G j)) r = Function.update r i (l.foldl (fun a j => a + G j) (r i)) := by
  induction l generalizing r with
  | nil => simp
  | cons j l ih => rw [List.foldl_cons, ih, List.foldl_cons]; simp

theorem slowInner_ok {i : Fin e.length} {G : Fin P.rows.length → Fl A} (h : ∀ j : Fin P.rows.length, slow_term e n u P d i j = .ok (G j))
    (r : Fin e.length → Fl A) : slowInner e n u P d i r =
      .ok (.yield (Function.update r i ((List.finRange P.rows.length).foldl (fun a j => a + G j) (r i)))) := by
  unfold slowInner
  simp only
  rw [forIn_ok (g := fun j r => Function.update r i (r i + G j)) (fun j _ b => by rw [h j]; rfl), foldl_update]
  rfl

theorem slowInner_error {i : Fin e.length} {k : ℕ} (hk : k < P.rows.length) {x : GuideErr}
    (h : ∀ j : Fin P.rows.length, j.val < k → ∃ g, slow_term e n u P d i j = .ok g) (hx : slow_term e n u P d i k = .error x)
    (r : Fin e.length → Fl A) : slowInner e n u P d i r = .error x := by
  obtain ⟨l₁, l₂, hl, hl1⟩ := finRange_split hk
  classical
  let G : Fin P.rows.length → Fl A := fun j => if hj : j.val < k then (h j hj).choose else 0
  unfold slowInner
  simp only
  rw [hl, forIn_error (g := fun j r => Function.update r i (r i + G j)) (e := x)]
  · rfl
  · intro j hj b
    have hG : slow_term e n u P d i j = .ok (G j) := by
      simp only [G, dif_pos (hl1 j hj)]
      exact (h j (hl1 j hj)).choose_spec
    rw [hG]; rfl
  · intro b
    show (do let g ← slow_term e n u P d i k; pure (ForInStep.yield (Function.update b i (b i + g)))) = _
    rw [hx]; rfl

theorem slow_loop_ok {G : Fin e.length → Fin P.rows.length → Fl A}
    (h : ∀ (i : Fin e.length) (j : Fin P.rows.length), slow_term e n u P d i j = .ok (G i j)) :
    slow_loop e n u P d = .ok fun i => (List.ofFn (G i)).foldl (fun a b => a + b) 0 := by
  rw [slow_loop_eq, forIn_ok (g := fun i r => Function.update r i ((List.finRange P.rows.length).foldl (fun a j => a + G i j) (r i)))
    (fun i _ b => slowInner_ok (h i) b)]
  congr 1
  have key : ∀ (l : List (Fin e.length)) (r : Fin e.length → Fl A), l.Nodup →
      l.foldl (fun r i => Function.update r i ((List.finRange P.rows.length).foldl (fun a j => a + G i j) (r i))) r =
        fun i => if i ∈ l then (List.finRange P.rows.length).foldl (fun a j => a + G i j) (r i) else r i := by
    intro l
    induction l with
    | nil => intro r _; simp
    | cons k l ih =>
      intro r hl
      obtain ⟨h1, h2⟩ := List.nodup_cons.1 hl
      rw [List.foldl_cons, ih _ h2]
      funext i
      rcases eq_or_ne i k with rfl | hik
      · simp [h1]
      · simp [hik]
  rw [key _ _ (List.nodup_finRange _)]
  funext i
  rw [if_pos (List.mem_finRange i), List.ofFn_eq_map, List.foldl_map]

theorem slow_loop_error {k : ℕ} (hk : k < e.length) {x : GuideErr}
    (h : ∀ i : Fin e.length, i.val < k → ∀ j : Fin P.rows.length, ∃ g, slow_term e n u P d i j = .ok g) {m : ℕ} (hm : m < P.rows.length)
    (h' : ∀ j : Fin P.rows.length, j.val < m → ∃ g, slow_term e n u P d k j = .ok g) (hx : slow_term e n u P d k m = .error x) :
    slow_loop e n u P d = .error x := by
  obtain ⟨l₁, l₂, hl, hl1⟩ := finRange_split hk
  classical
  let G : Fin e.length → Fin P.rows.length → Fl A := fun i j => if hi : i.val < k then (h i hi j).choose else 0
  rw [slow_loop_eq, hl]
  refine forIn_error (g := fun i r => Function.update r i ((List.finRange P.rows.length).foldl (fun a j => a + G i j) (r i))) ?_ ?_ _ _
  · intro i hi b
    refine slowInner_ok (fun j => ?_) b
    simp only [G, dif_pos (hl1 i hi)]
    exact (h i (hl1 i hi) j).choose_spec
  · intro b
    exact slowInner_error (i := ⟨k, hk⟩) hm h' hx b

end Choclo.userguide
