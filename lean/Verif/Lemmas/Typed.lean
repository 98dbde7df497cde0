import Verif.Spec.Typed
import Mathlib.Tactic.Linarith
import Mathlib.Tactic.Ring

/-! # Integer arguments: no overflow, no rounding -/

set_option linter.unusedSimpArgs false
set_option linter.unusedTactic false
set_option linter.unreachableTactic false
set_option linter.unusedVariables false

namespace Choclo

variable {A : Arith}

/-- `t` is the float `f`, or an integer of magnitude at most `B` (at most `L`) that `f` represents. -/
def Rep (L B : ℕ) (t : TFl A) (f : Fl A) : Prop :=
  t = .flt f ∨ ∃ n : ℤ, t = .int n ∧ |n| ≤ B ∧ B ≤ L ∧ f = Fl.fin n

/-- What is required of the arithmetic. -/
def IntOK (A : Arith) (L : ℕ) : Prop := A.ExactInts L ∧ L < 2 ^ 63

theorem wrap64_eq {n : ℤ} {L : ℕ} (hL : L < 2 ^ 63) (h : |n| ≤ L) : wrap64 n = n := by
  have h1 := abs_le.1 h
  have hL' : (L : ℤ) < 2 ^ 63 := by exact_mod_cast hL
  unfold wrap64
  apply Int.bmod_eq_of_le <;> norm_num <;> omega

namespace Rep

variable {L B C : ℕ} {s t : TFl A} {f g : Fl A}

theorem flt (f : Fl A) : Rep L 0 (.flt f) f := Or.inl rfl

theorem int (h : B ≤ L) {n : ℤ} (hn : |n| ≤ B) : Rep L B (.int n : TFl A) (Fl.fin n) := Or.inr ⟨n, rfl, hn, h, rfl⟩

theorem mono (h : Rep L B t f) (hBC : B ≤ C) (hC : C ≤ L) : Rep L C t f := by
  rcases h with h | ⟨n, h1, h2, h3, h4⟩
  · exact Or.inl h
  · exact Or.inr ⟨n, h1, h2.trans (by exact_mod_cast hBC), hC, h4⟩

theorem toFl (ok : IntOK A L) (h : Rep L B t f) : t.toFl = f := by
  rcases h with h | ⟨n, h1, h2, h3, h4⟩
  · subst h; rfl
  · subst h1; subst h4
    show Fl.ofRaw (A.rnd n) = _
    rw [ok.1.1 n (h2.trans (by exact_mod_cast h3))]
    rfl

theorem of_upTo (ok : IntOK A L) (hC : C ≤ L) (h : UpTo C t) : Rep L C t t.toFl := by
  cases t with
  | flt x => exact Or.inl rfl
  | int n =>
    refine Or.inr ⟨n, rfl, h, hC, ?_⟩
    show Fl.ofRaw (A.rnd n) = _
    rw [ok.1.1 n (le_trans h (by exact_mod_cast hC))]
    rfl

theorem lit (n : ℕ) (h : n ≤ L) : Rep L n (.int n : TFl A) (Fl.fin n) := by
  have := int (A := A) (L := L) h (n := (n : ℤ)) (by simp)
  simpa using this

theorem intCast {n : ℤ} (hn : |n| ≤ B) (h : B ≤ L) : Rep L B ((n : TFl A)) ((n : Fl A)) := int h hn

theorem neg (ok : IntOK A L) (h : Rep L B t f) : Rep L B (-t) (-f) := by
  rcases h with h | ⟨n, h1, h2, h3, h4⟩
  · subst h; exact Or.inl rfl
  · subst h1; subst h4
    refine Or.inr ⟨-n, ?_, by rwa [abs_neg], h3, ?_⟩
    · show TFl.int (wrap64 (-n)) = _
      rw [wrap64_eq ok.2 (L := L)]
      rw [abs_neg]; exact h2.trans (by exact_mod_cast h3)
    · show Fl.fin (-(n : ℝ)) = _
      push_cast; rfl

/-- The common pattern of the binary operations. -/
theorem bin (ok : IntOK A L) (opT : TFl A → TFl A → TFl A) (opF : Fl A → Fl A → Fl A) (op : ℤ → ℤ → ℤ) (D : ℕ)
    (hint : ∀ n m, opT (.int n) (.int m) = .int (wrap64 (op n m)))
    (hif : ∀ a b : TFl A, (∀ n m, ¬ (a = .int n ∧ b = .int m)) → opT a b = .flt (opF a.toFl b.toFl))
    (hF : ∀ n m : ℤ, opF (Fl.fin n) (Fl.fin m) = Fl.ofRaw (A.rnd ((op n m : ℤ) : ℝ)))
    (hb : ∀ n m : ℤ, |n| ≤ B → |m| ≤ C → |op n m| ≤ D)
    (h : Rep L B s f) (h' : Rep L C t g) (hD : D ≤ L) : Rep L D (opT s t) (opF f g) := by
  have e1 := h.toFl ok
  have e2 := h'.toFl ok
  rcases h with h | ⟨n, h1, h2, h3, h4⟩
  · refine Or.inl ?_
    rw [hif s t (by intro n m hh; rw [h] at hh; exact absurd hh.1 (by intro h; cases h)), e1, e2]
  · rcases h' with h | ⟨m, k1, k2, k3, k4⟩
    · refine Or.inl ?_
      rw [hif s t (by intro n m hh; rw [h] at hh; exact absurd hh.2 (by intro h; cases h)), e1, e2]
    · have hD' : |op n m| ≤ (L : ℤ) := (hb n m h2 k2).trans (by exact_mod_cast hD)
      refine Or.inr ⟨op n m, ?_, hb n m h2 k2, hD, ?_⟩
      · rw [h1, k1, hint, wrap64_eq ok.2 hD']
      · rw [h4, k4, hF, ok.1.1 _ hD']
        rfl

theorem add (ok : IntOK A L) (h : Rep L B s f) (h' : Rep L C t g) (hD : B + C ≤ L) :
    Rep L (B + C) (s + t) (f + g) := by
  refine bin ok (· + ·) (· + ·) (· + ·) (B + C) (fun _ _ => rfl) ?_ ?_ ?_ h h' hD
  · intro a b hh
    cases a <;> cases b <;> first | rfl | exact absurd ⟨rfl, rfl⟩ (hh _ _)
  · intro n m
    show Fl.ofRaw (A.rnd ((n : ℝ) + m)) = _
    push_cast; rfl
  · intro n m hn hm
    push_cast
    exact (abs_add_le _ _).trans (add_le_add hn hm)

theorem sub (ok : IntOK A L) (h : Rep L B s f) (h' : Rep L C t g) (hD : B + C ≤ L) :
    Rep L (B + C) (s - t) (f - g) := by
  refine bin ok (· - ·) (· - ·) (· - ·) (B + C) (fun _ _ => rfl) ?_ ?_ ?_ h h' hD
  · intro a b hh
    cases a <;> cases b <;> first | rfl | exact absurd ⟨rfl, rfl⟩ (hh _ _)
  · intro n m
    show Fl.ofRaw (A.rnd ((n : ℝ) + -m)) = _
    push_cast
    rw [sub_eq_add_neg]
  · intro n m hn hm
    push_cast
    exact (abs_sub _ _).trans (add_le_add hn hm)

theorem mul (ok : IntOK A L) (h : Rep L B s f) (h' : Rep L C t g) (hD : B * C ≤ L) :
    Rep L (B * C) (s * t) (f * g) := by
  refine bin ok (· * ·) (· * ·) (· * ·) (B * C) (fun _ _ => rfl) ?_ ?_ ?_ h h' hD
  · intro a b hh
    cases a <;> cases b <;> first | rfl | exact absurd ⟨rfl, rfl⟩ (hh _ _)
  · intro n m
    show Fl.ofRaw (A.rnd ((n : ℝ) * m)) = _
    push_cast; rfl
  · intro n m hn hm
    push_cast
    rw [abs_mul]
    exact mul_le_mul hn hm (abs_nonneg _) (by positivity)

theorem pow (ok : IntOK A L) (k : ℕ) (h : Rep L B t f) (hD : B ^ k ≤ L) : Rep L (B ^ k) (t ^ k) (f ^ k) := by
  rcases h with h | ⟨n, h1, h2, h3, h4⟩
  · subst h; exact Or.inl rfl
  · subst h1; subst h4
    have hb : |n ^ k| ≤ ((B ^ k : ℕ) : ℤ) := by
      rw [abs_pow]
      push_cast
      exact pow_le_pow_left₀ (abs_nonneg _) h2 k
    have hL : |n ^ k| ≤ (L : ℤ) := hb.trans (by exact_mod_cast hD)
    refine Or.inr ⟨n ^ k, ?_, hb, hD, ?_⟩
    · show TFl.int (wrap64 (n ^ k)) = _
      rw [wrap64_eq ok.2 hL]
    · show Fl.ofRaw (A.pow n k) = _
      rw [ok.1.2 n k hL]
      push_cast; rfl

theorem ite {p : Prop} [Decidable p] (h : Rep L B s f) (h' : Rep L C t g) (hD : max B C ≤ L) :
    Rep L (max B C) (if p then s else t) (if p then f else g) := by
  split
  · exact h.mono (le_max_left _ _) hD
  · exact h'.mono (le_max_right _ _) hD

theorem sqrt (ok : IntOK A L) (h : Rep L B t f) : TFl.sqrt t = .flt (Fl.sqrt f) := by
  rw [← h.toFl ok]; rfl
theorem log (ok : IntOK A L) (h : Rep L B t f) : TFl.log t = .flt (Fl.log f) := by
  rw [← h.toFl ok]; rfl

theorem cmp (ok : IntOK A L) (opT : TFl A → TFl A → Bool) (opF : Fl A → Fl A → Bool) (op : ℤ → ℤ → Bool)
    (hint : ∀ n m, opT (.int n) (.int m) = op n m)
    (hif : ∀ a b : TFl A, (∀ n m, ¬ (a = .int n ∧ b = .int m)) → opT a b = opF a.toFl b.toFl)
    (hF : ∀ n m : ℤ, opF (Fl.fin n) (Fl.fin m) = op n m)
    (h : Rep L B s f) (h' : Rep L C t g) : opT s t = opF f g := by
  have e1 := h.toFl ok
  have e2 := h'.toFl ok
  rcases h with h | ⟨n, h1, h2, h3, h4⟩
  · rw [hif s t (by intro n m hh; rw [h] at hh; exact absurd hh.1 (by intro h; cases h)), e1, e2]
  · rcases h' with h | ⟨m, k1, k2, k3, k4⟩
    · rw [hif s t (by intro n m hh; rw [h] at hh; exact absurd hh.2 (by intro h; cases h)), e1, e2]
    · rw [h1, k1, hint, h4, k4, hF]

theorem lt (ok : IntOK A L) (h : Rep L B s f) (h' : Rep L C t g) : TFl.lt s t = Fl.lt f g := by
  refine cmp ok TFl.lt Fl.lt (fun n m => decide (n < m)) (fun _ _ => rfl) ?_ ?_ h h'
  · intro a b hh
    cases a <;> cases b <;> first | rfl | exact absurd ⟨rfl, rfl⟩ (hh _ _)
  · intro n m
    show decide ((n : ℝ) < m) = decide (n < m)
    simp only [Int.cast_lt]

theorem le (ok : IntOK A L) (h : Rep L B s f) (h' : Rep L C t g) : TFl.le s t = Fl.le f g := by
  refine cmp ok TFl.le Fl.le (fun n m => decide (n ≤ m)) (fun _ _ => rfl) ?_ ?_ h h'
  · intro a b hh
    cases a <;> cases b <;> first | rfl | exact absurd ⟨rfl, rfl⟩ (hh _ _)
  · intro n m
    show decide ((n : ℝ) ≤ m) = decide (n ≤ m)
    simp only [Int.cast_le]

theorem eq (ok : IntOK A L) (h : Rep L B s f) (h' : Rep L C t g) : TFl.eq s t = Fl.eq f g := by
  refine cmp ok TFl.eq Fl.eq (fun n m => decide (n = m)) (fun _ _ => rfl) ?_ ?_ h h'
  · intro a b hh
    cases a <;> cases b <;> first | rfl | exact absurd ⟨rfl, rfl⟩ (hh _ _)
  · intro n m
    show decide ((n : ℝ) = m) = decide (n = m)
    simp only [Int.cast_inj]

end Rep

/-! ## Computations -/

namespace Rep

variable {L B C : ℕ} {s t : TFl A} {f g : Fl A}

theorem of_eq (h : t = .flt f) : Rep L 0 t f := Or.inl h

theorem of_eq' (h : t = .flt f) : Rep L B t f := Or.inl h

theorem sign (m : ℕ) (h : 1 ≤ L) : Rep L 1 ((((-1 : ℤ) ^ m : ℤ) : TFl A)) ((((-1 : ℤ) ^ m : ℤ) : Fl A)) :=
  intCast (by simp) h

theorem ite' {p : Prop} {inst : Decidable p} (h : Rep L B s f) (h' : Rep L B t g) :
    Rep L B (if p then s else t) (if p then f else g) := by
  split
  · exact h
  · exact h'

theorem arctan (ok : IntOK A L) (h : Rep L B t f) : TFl.arctan t = .flt (Fl.arctan f) := by
  rw [← h.toFl ok]; rfl
theorem sin (ok : IntOK A L) (h : Rep L B t f) : TFl.sin t = .flt (Fl.sin f) := by
  rw [← h.toFl ok]; rfl
theorem cos (ok : IntOK A L) (h : Rep L B t f) : TFl.cos t = .flt (Fl.cos f) := by
  rw [← h.toFl ok]; rfl
theorem radians (ok : IntOK A L) (h : Rep L B t f) : TFl.radians t = .flt (Fl.radians f) := by
  rw [← h.toFl ok]; rfl

end Rep

/-! ### Expressions that are floats -/

namespace RF

variable {L B C : ℕ} {s t : TFl A} {f g : Fl A}

theorem addL (ok : IntOK A L) (h : s = .flt f) (h' : Rep L B t g) : s + t = .flt (f + g) := by
  rw [← h'.toFl ok, h]; cases t <;> rfl
theorem addR (ok : IntOK A L) (h : Rep L B s f) (h' : t = .flt g) : s + t = .flt (f + g) := by
  rw [← h.toFl ok, h']; cases s <;> rfl
theorem subL (ok : IntOK A L) (h : s = .flt f) (h' : Rep L B t g) : s - t = .flt (f - g) := by
  rw [← h'.toFl ok, h]; cases t <;> rfl
theorem subR (ok : IntOK A L) (h : Rep L B s f) (h' : t = .flt g) : s - t = .flt (f - g) := by
  rw [← h.toFl ok, h']; cases s <;> rfl
theorem mulL (ok : IntOK A L) (h : s = .flt f) (h' : Rep L B t g) : s * t = .flt (f * g) := by
  rw [← h'.toFl ok, h]; cases t <;> rfl
theorem mulR (ok : IntOK A L) (h : Rep L B s f) (h' : t = .flt g) : s * t = .flt (f * g) := by
  rw [← h.toFl ok, h']; cases s <;> rfl
theorem neg (h : s = .flt f) : -s = .flt (-f) := by
  rw [h]; rfl

end RF

/-- Closes a bound on integers. -/
syntax "bnd" : tactic
macro_rules
  | `(tactic| bnd) => `(tactic| first | assumption | linarith | omega | nlinarith)

/-- Proves that an expression represents another. -/
syntax "rep" : tactic
/-- Proves that an expression is the given float. -/
syntax "rf" : tactic

macro_rules
  | `(tactic| rep) => `(tactic| first
    | assumption
    | (with_reducible refine Rep.sign _ ?h1
       case h1 => bnd)
    | (with_reducible refine Rep.neg (B := ?B) ‹IntOK _ _› ?h1
       case h1 => rep)
    | (with_reducible refine Rep.ite' (B := ?B) ?h1 ?h2
       case h1 => rep
       case h2 => rep)
    | (with_reducible refine Rep.add (B := ?B) (C := ?C) ‹IntOK _ _› ?h1 ?h2 ?h3
       case h1 => rep
       case h2 => rep
       case h3 => bnd)
    | (with_reducible refine Rep.sub (B := ?B) (C := ?C) ‹IntOK _ _› ?h1 ?h2 ?h3
       case h1 => rep
       case h2 => rep
       case h3 => bnd)
    | (with_reducible refine Rep.mul (B := ?B) (C := ?C) ‹IntOK _ _› ?h1 ?h2 ?h3
       case h1 => rep
       case h2 => rep
       case h3 => bnd)
    | (with_reducible refine Rep.pow (B := ?B) ‹IntOK _ _› _ ?h1 ?h2
       case h1 => rep
       case h2 => bnd)
    | with_reducible exact Rep.flt _
    | (refine Rep.lit 0 ?h1
       case h1 => bnd)
    | (refine Rep.lit 1 ?h1
       case h1 => bnd)
    | (refine Rep.lit 2 ?h1
       case h1 => bnd)
    | (refine Rep.lit 3 ?h1
       case h1 => bnd)
    | (refine Rep.lit 4 ?h1
       case h1 => bnd)
    | (refine Rep.lit 9 ?h1
       case h1 => bnd)
    | (refine Rep.lit 15 ?h1
       case h1 => bnd)
    | (refine Rep.of_eq ?h1
       case h1 => rf)
    | (refine Rep.of_eq' ?h1
       case h1 => rf))

macro_rules
  | `(tactic| rf) => `(tactic| first
    | assumption
    | rfl
    | (with_reducible refine Rep.sqrt (B := ?B) ‹IntOK _ _› ?h1
       case h1 => rep)
    | (with_reducible refine Rep.log (B := ?B) ‹IntOK _ _› ?h1
       case h1 => rep)
    | (with_reducible refine Rep.arctan (B := ?B) ‹IntOK _ _› ?h1
       case h1 => rep)
    | (with_reducible refine Rep.sin (B := ?B) ‹IntOK _ _› ?h1
       case h1 => rep)
    | (with_reducible refine Rep.cos (B := ?B) ‹IntOK _ _› ?h1
       case h1 => rep)
    | (with_reducible refine Rep.radians (B := ?B) ‹IntOK _ _› ?h1
       case h1 => rep)
    | (with_reducible refine RF.neg ?h1
       case h1 => rf)
    | (with_reducible refine RF.addR (B := ?B) ‹IntOK _ _› ?h1 ?h2
       case h2 => rf
       case h1 => rep)
    | (with_reducible refine RF.addL (B := ?B) ‹IntOK _ _› ?h1 ?h2
       case h1 => rf
       case h2 => rep)
    | (with_reducible refine RF.subR (B := ?B) ‹IntOK _ _› ?h1 ?h2
       case h2 => rf
       case h1 => rep)
    | (with_reducible refine RF.subL (B := ?B) ‹IntOK _ _› ?h1 ?h2
       case h1 => rf
       case h2 => rep)
    | (with_reducible refine RF.mulR (B := ?B) ‹IntOK _ _› ?h1 ?h2
       case h2 => rf
       case h1 => rep)
    | (with_reducible refine RF.mulL (B := ?B) ‹IntOK _ _› ?h1 ?h2
       case h1 => rf
       case h2 => rep))

/-- `x` is the computation `y`, returning values embedded by `e`. -/
def ET {α β : Type} (e : β → α) (x : Py α) (y : Py β) : Prop := x = y.map e

theorem ET.bind {α β γ δ : Type} (e : β → α) {e' : δ → γ} {x : Py α} {y : Py β} {f : α → Py γ} {g : β → Py δ}
    (h : ET e x y) (hf : ∀ b, ET e' (f (e b)) (g b)) : ET e' (x >>= f) (y >>= g) := by
  rw [h]
  cases y with
  | error e => rfl
  | ok a => exact hf a

theorem ET.ok {α β : Type} {e : β → α} {a : α} {b : β} (h : a = e b) : ET e (pure a) (pure b) := by
  subst h; rfl

theorem ET.div {L B C : ℕ} (ok : IntOK A L) {s t : TFl A} {f g : Fl A} (h : Rep L B s f) (h' : Rep L C t g) :
    ET TFl.flt (s /ᵢ t) (f /. g) := by
  rw [← h.toFl ok, ← h'.toFl ok]; rfl

theorem ET.ite {α β : Type} {e : β → α} {b : Bool} {c : Bool} {x x' : Py α} {y y' : Py β} (hb : b = c)
    (h : ET e x y) (h' : ET e x' y') :
    ET e (if b = true then x else x') (if c = true then y else y') := by
  subst hb
  split
  · exact h
  · exact h'

/-- `e` under the loop control. -/
def stepMapT {α β : Type} (e : β → α) : ForInStep β → ForInStep α
  | .done a => .done (e a)
  | .yield a => .yield (e a)

theorem ET.forIn {α β γ : Type} {e : β → α} {f : γ → α → Py (ForInStep α)} {g : γ → β → Py (ForInStep β)}
    (h : ∀ i b, ET (stepMapT e) (f i (e b)) (g i b)) :
    ∀ (l : List γ) {a : α} (b : β), a = e b → ET e (forIn l a f) (forIn l b g) := by
  intro l
  induction l with
  | nil => intro a b hb; subst hb; rfl
  | cons i l ih =>
    intro a b hb
    subst hb
    simp only [List.forIn_cons]
    refine ET.bind (stepMapT e) (h i b) fun r => ?_
    cases r with
    | done a => rfl
    | yield a => exact ih a rfl

/-- Three floats. -/
def TFl.flt3 (r : Fl A × Fl A × Fl A) : TFl A × TFl A × TFl A := (.flt r.1, .flt r.2.1, .flt r.2.2)

theorem flt3_eq {a b c : TFl A} {a' b' c' : Fl A} (h : a = .flt a') (h' : b = .flt b') (h'' : c = .flt c') :
    (a, b, c) = TFl.flt3 (a', b', c') := by
  subst h; subst h'; subst h''; rfl

theorem step_eq {α β : Type} {e : β → α} {a : α} {b : β} (h : a = e b) :
    ForInStep.yield a = stepMapT e (ForInStep.yield b) := by
  subst h; rfl

theorem Bool.and_congr {a b c d : Bool} (h : a = b) (h' : c = d) : (a && c) = (b && d) := by rw [h, h']
theorem Bool.or_congr {a b c d : Bool} (h : a = b) (h' : c = d) : (a || c) = (b || d) := by rw [h, h']

/-- Proves that two tests agree. -/
syntax "tst" : tactic
macro_rules
  | `(tactic| tst) => `(tactic| first
    | assumption
    | (with_reducible refine Rep.lt (B := ?B) (C := ?C) ‹IntOK _ _› ?h1 ?h2
       case h1 => rep
       case h2 => rep)
    | (with_reducible refine Rep.le (B := ?B) (C := ?C) ‹IntOK _ _› ?h1 ?h2
       case h1 => rep
       case h2 => rep)
    | (with_reducible refine Rep.eq (B := ?B) (C := ?C) ‹IntOK _ _› ?h1 ?h2
       case h1 => rep
       case h2 => rep)
    | (with_reducible refine Bool.and_congr ?h1 ?h2
       case h1 => tst
       case h2 => tst)
    | (with_reducible refine Bool.or_congr ?h1 ?h2
       case h1 => tst
       case h2 => tst))

/-- The value returned. -/
syntax "ret" : tactic
macro_rules
  | `(tactic| ret) => `(tactic| first
    | rf
    | (with_reducible refine flt3_eq ?h1 ?h2 ?h3
       case h1 => rf
       case h2 => rf
       case h3 => rf)
    | (with_reducible refine step_eq ?h1
       case h1 => ret))

/-- One step through two computations of the same form. -/
macro "et_step" : tactic => `(tactic| first
  | (with_reducible refine ET.ite ?hb ?_ ?_
     case hb => tst)
  | (with_reducible refine ET.div (B := ?B) (C := ?C) ‹IntOK _ _› ?h1 ?h2
     case h1 => rep
     case h2 => rep)
  | (with_reducible refine ET.ok ?h1
     case h1 => ret)
  | (with_reducible refine ET.forIn (fun _ _ => ?_) _ _ ?h1
     case h1 => ret)
  | with_reducible refine ET.bind TFl.flt ?_ fun _ => ?_
  | with_reducible refine ET.bind TFl.flt3 ?_ fun _ => ?_)

namespace Typed

variable {L C : ℕ}

namespace utils

theorem et_distance_cartesian (ok : IntOK A L) (hC : 12 * C ^ 2 ≤ L) (h2 : 2 * C ≤ L)
    {a b c d e f : TFl A} {a' b' c' d' e' f' : Fl A}
    (h_a : Rep L (C) a a') (h_b : Rep L (C) b b') (h_c : Rep L (C) c c') (h_d : Rep L (C) d d') (h_e : Rep L (C) e e') (h_f : Rep L (C) f f') :
    ET TFl.flt (distance_cartesian a b c d e f) (Choclo.utils.distance_cartesian a' b' c' d' e' f') := by
  unfold distance_cartesian Choclo.utils.distance_cartesian
  (try dsimp only)
  repeat' (first
    | et_step)

theorem et_distance_spherical_core (ok : IntOK A L) (hC : 4 * C ^ 2 ≤ L) (h2 : 2 * C ≤ L) (hL : 2 ≤ L)
    {a b c d e f g h : TFl A} {a' b' c' d' e' f' g' h' : Fl A}
    (h_a : Rep L (C) a a') (h_b : Rep L (C) b b') (h_c : Rep L (C) c c') (h_d : Rep L (C) d d') (h_e : Rep L (C) e e') (h_f : Rep L (C) f f') (h_g : Rep L (C) g g') (h_h : Rep L (C) h h') :
    ET TFl.flt3 (distance_spherical_core a b c d e f g h) (Choclo.utils.distance_spherical_core a' b' c' d' e' f' g' h') := by
  unfold distance_spherical_core Choclo.utils.distance_spherical_core
  (try dsimp only)
  repeat' (first
    | et_step)

theorem et_distance_spherical (ok : IntOK A L) (hC : 4 * C ^ 2 ≤ L) (h2 : 2 * C ≤ L) (hL : 2 ≤ L)
    {a b c d e f : TFl A} {a' b' c' d' e' f' : Fl A}
    (h_a : Rep L (C) a a') (h_b : Rep L (C) b b') (h_c : Rep L (C) c c') (h_d : Rep L (C) d d') (h_e : Rep L (C) e e') (h_f : Rep L (C) f f') :
    ET TFl.flt (distance_spherical a b c d e f) (Choclo.utils.distance_spherical a' b' c' d' e' f') := by
  unfold distance_spherical Choclo.utils.distance_spherical
  (try dsimp only)
  repeat' (first
    | (refine et_distance_spherical_core ok (C := C) hC h2 hL ?_ ?_ ?_ ?_ ?_ ?_ ?_ ?_ <;> first | rep | rf)
    | et_step)

end utils

namespace point

theorem et_kernel_pot (ok : IntOK A L) (hC : 12 * C ^ 2 ≤ L) (h2 : 2 * C ≤ L) (hL : 15 ≤ L)
    {a b c d e f r : TFl A} {a' b' c' d' e' f' r' : Fl A}
    (h_a : Rep L (C) a a') (h_b : Rep L (C) b b') (h_c : Rep L (C) c c') (h_d : Rep L (C) d d') (h_e : Rep L (C) e e') (h_f : Rep L (C) f f') (h_r : r = TFl.flt r') :
    ET TFl.flt (kernel_pot a b c d e f r) (Choclo.point.kernel_pot a' b' c' d' e' f' r') := by
  unfold kernel_pot Choclo.point.kernel_pot
  (try dsimp only)
  repeat' (first
    | et_step)

theorem et_kernel_e (ok : IntOK A L) (hC : 12 * C ^ 2 ≤ L) (h2 : 2 * C ≤ L) (hL : 15 ≤ L)
    {a b c d e f r : TFl A} {a' b' c' d' e' f' r' : Fl A}
    (h_a : Rep L (C) a a') (h_b : Rep L (C) b b') (h_c : Rep L (C) c c') (h_d : Rep L (C) d d') (h_e : Rep L (C) e e') (h_f : Rep L (C) f f') (h_r : r = TFl.flt r') :
    ET TFl.flt (kernel_e a b c d e f r) (Choclo.point.kernel_e a' b' c' d' e' f' r') := by
  unfold kernel_e Choclo.point.kernel_e
  (try dsimp only)
  repeat' (first
    | et_step)

theorem et_kernel_n (ok : IntOK A L) (hC : 12 * C ^ 2 ≤ L) (h2 : 2 * C ≤ L) (hL : 15 ≤ L)
    {a b c d e f r : TFl A} {a' b' c' d' e' f' r' : Fl A}
    (h_a : Rep L (C) a a') (h_b : Rep L (C) b b') (h_c : Rep L (C) c c') (h_d : Rep L (C) d d') (h_e : Rep L (C) e e') (h_f : Rep L (C) f f') (h_r : r = TFl.flt r') :
    ET TFl.flt (kernel_n a b c d e f r) (Choclo.point.kernel_n a' b' c' d' e' f' r') := by
  unfold kernel_n Choclo.point.kernel_n
  (try dsimp only)
  repeat' (first
    | et_step)

theorem et_kernel_u (ok : IntOK A L) (hC : 12 * C ^ 2 ≤ L) (h2 : 2 * C ≤ L) (hL : 15 ≤ L)
    {a b c d e f r : TFl A} {a' b' c' d' e' f' r' : Fl A}
    (h_a : Rep L (C) a a') (h_b : Rep L (C) b b') (h_c : Rep L (C) c c') (h_d : Rep L (C) d d') (h_e : Rep L (C) e e') (h_f : Rep L (C) f f') (h_r : r = TFl.flt r') :
    ET TFl.flt (kernel_u a b c d e f r) (Choclo.point.kernel_u a' b' c' d' e' f' r') := by
  unfold kernel_u Choclo.point.kernel_u
  (try dsimp only)
  repeat' (first
    | et_step)

theorem et_kernel_ee (ok : IntOK A L) (hC : 12 * C ^ 2 ≤ L) (h2 : 2 * C ≤ L) (hL : 15 ≤ L)
    {a b c d e f r : TFl A} {a' b' c' d' e' f' r' : Fl A}
    (h_a : Rep L (C) a a') (h_b : Rep L (C) b b') (h_c : Rep L (C) c c') (h_d : Rep L (C) d d') (h_e : Rep L (C) e e') (h_f : Rep L (C) f f') (h_r : r = TFl.flt r') :
    ET TFl.flt (kernel_ee a b c d e f r) (Choclo.point.kernel_ee a' b' c' d' e' f' r') := by
  unfold kernel_ee Choclo.point.kernel_ee
  (try dsimp only)
  repeat' (first
    | et_step)

theorem et_kernel_nn (ok : IntOK A L) (hC : 12 * C ^ 2 ≤ L) (h2 : 2 * C ≤ L) (hL : 15 ≤ L)
    {a b c d e f r : TFl A} {a' b' c' d' e' f' r' : Fl A}
    (h_a : Rep L (C) a a') (h_b : Rep L (C) b b') (h_c : Rep L (C) c c') (h_d : Rep L (C) d d') (h_e : Rep L (C) e e') (h_f : Rep L (C) f f') (h_r : r = TFl.flt r') :
    ET TFl.flt (kernel_nn a b c d e f r) (Choclo.point.kernel_nn a' b' c' d' e' f' r') := by
  unfold kernel_nn Choclo.point.kernel_nn
  (try dsimp only)
  repeat' (first
    | et_step)

theorem et_kernel_uu (ok : IntOK A L) (hC : 12 * C ^ 2 ≤ L) (h2 : 2 * C ≤ L) (hL : 15 ≤ L)
    {a b c d e f r : TFl A} {a' b' c' d' e' f' r' : Fl A}
    (h_a : Rep L (C) a a') (h_b : Rep L (C) b b') (h_c : Rep L (C) c c') (h_d : Rep L (C) d d') (h_e : Rep L (C) e e') (h_f : Rep L (C) f f') (h_r : r = TFl.flt r') :
    ET TFl.flt (kernel_uu a b c d e f r) (Choclo.point.kernel_uu a' b' c' d' e' f' r') := by
  unfold kernel_uu Choclo.point.kernel_uu
  (try dsimp only)
  repeat' (first
    | et_step)

theorem et_kernel_en (ok : IntOK A L) (hC : 12 * C ^ 2 ≤ L) (h2 : 2 * C ≤ L) (hL : 15 ≤ L)
    {a b c d e f r : TFl A} {a' b' c' d' e' f' r' : Fl A}
    (h_a : Rep L (C) a a') (h_b : Rep L (C) b b') (h_c : Rep L (C) c c') (h_d : Rep L (C) d d') (h_e : Rep L (C) e e') (h_f : Rep L (C) f f') (h_r : r = TFl.flt r') :
    ET TFl.flt (kernel_en a b c d e f r) (Choclo.point.kernel_en a' b' c' d' e' f' r') := by
  unfold kernel_en Choclo.point.kernel_en
  (try dsimp only)
  repeat' (first
    | et_step)

theorem et_kernel_eu (ok : IntOK A L) (hC : 12 * C ^ 2 ≤ L) (h2 : 2 * C ≤ L) (hL : 15 ≤ L)
    {a b c d e f r : TFl A} {a' b' c' d' e' f' r' : Fl A}
    (h_a : Rep L (C) a a') (h_b : Rep L (C) b b') (h_c : Rep L (C) c c') (h_d : Rep L (C) d d') (h_e : Rep L (C) e e') (h_f : Rep L (C) f f') (h_r : r = TFl.flt r') :
    ET TFl.flt (kernel_eu a b c d e f r) (Choclo.point.kernel_eu a' b' c' d' e' f' r') := by
  unfold kernel_eu Choclo.point.kernel_eu
  (try dsimp only)
  repeat' (first
    | et_step)

theorem et_kernel_nu (ok : IntOK A L) (hC : 12 * C ^ 2 ≤ L) (h2 : 2 * C ≤ L) (hL : 15 ≤ L)
    {a b c d e f r : TFl A} {a' b' c' d' e' f' r' : Fl A}
    (h_a : Rep L (C) a a') (h_b : Rep L (C) b b') (h_c : Rep L (C) c c') (h_d : Rep L (C) d d') (h_e : Rep L (C) e e') (h_f : Rep L (C) f f') (h_r : r = TFl.flt r') :
    ET TFl.flt (kernel_nu a b c d e f r) (Choclo.point.kernel_nu a' b' c' d' e' f' r') := by
  unfold kernel_nu Choclo.point.kernel_nu
  (try dsimp only)
  repeat' (first
    | et_step)

theorem et_kernel_eee (ok : IntOK A L) (hC : 120 * C ^ 3 ≤ L) (hC2 : 12 * C ^ 2 ≤ L) (h2 : 18 * C ≤ L) (h30 : 30 * C ≤ L) (h60 : 60 * C ^ 2 ≤ L) (hL : 15 ≤ L)
    {a b c d e f r : TFl A} {a' b' c' d' e' f' r' : Fl A}
    (h_a : Rep L (C) a a') (h_b : Rep L (C) b b') (h_c : Rep L (C) c c') (h_d : Rep L (C) d d') (h_e : Rep L (C) e e') (h_f : Rep L (C) f f') (h_r : r = TFl.flt r') :
    ET TFl.flt (kernel_eee a b c d e f r) (Choclo.point.kernel_eee a' b' c' d' e' f' r') := by
  unfold kernel_eee Choclo.point.kernel_eee
  (try dsimp only)
  repeat' (first
    | et_step)

theorem et_kernel_nnn (ok : IntOK A L) (hC : 120 * C ^ 3 ≤ L) (hC2 : 12 * C ^ 2 ≤ L) (h2 : 18 * C ≤ L) (h30 : 30 * C ≤ L) (h60 : 60 * C ^ 2 ≤ L) (hL : 15 ≤ L)
    {a b c d e f r : TFl A} {a' b' c' d' e' f' r' : Fl A}
    (h_a : Rep L (C) a a') (h_b : Rep L (C) b b') (h_c : Rep L (C) c c') (h_d : Rep L (C) d d') (h_e : Rep L (C) e e') (h_f : Rep L (C) f f') (h_r : r = TFl.flt r') :
    ET TFl.flt (kernel_nnn a b c d e f r) (Choclo.point.kernel_nnn a' b' c' d' e' f' r') := by
  unfold kernel_nnn Choclo.point.kernel_nnn
  (try dsimp only)
  repeat' (first
    | et_step)

theorem et_kernel_uuu (ok : IntOK A L) (hC : 120 * C ^ 3 ≤ L) (hC2 : 12 * C ^ 2 ≤ L) (h2 : 18 * C ≤ L) (h30 : 30 * C ≤ L) (h60 : 60 * C ^ 2 ≤ L) (hL : 15 ≤ L)
    {a b c d e f r : TFl A} {a' b' c' d' e' f' r' : Fl A}
    (h_a : Rep L (C) a a') (h_b : Rep L (C) b b') (h_c : Rep L (C) c c') (h_d : Rep L (C) d d') (h_e : Rep L (C) e e') (h_f : Rep L (C) f f') (h_r : r = TFl.flt r') :
    ET TFl.flt (kernel_uuu a b c d e f r) (Choclo.point.kernel_uuu a' b' c' d' e' f' r') := by
  unfold kernel_uuu Choclo.point.kernel_uuu
  (try dsimp only)
  repeat' (first
    | et_step)

theorem et_kernel_een (ok : IntOK A L) (hC : 120 * C ^ 3 ≤ L) (hC2 : 12 * C ^ 2 ≤ L) (h2 : 18 * C ≤ L) (h30 : 30 * C ≤ L) (h60 : 60 * C ^ 2 ≤ L) (hL : 15 ≤ L)
    {a b c d e f r : TFl A} {a' b' c' d' e' f' r' : Fl A}
    (h_a : Rep L (C) a a') (h_b : Rep L (C) b b') (h_c : Rep L (C) c c') (h_d : Rep L (C) d d') (h_e : Rep L (C) e e') (h_f : Rep L (C) f f') (h_r : r = TFl.flt r') :
    ET TFl.flt (kernel_een a b c d e f r) (Choclo.point.kernel_een a' b' c' d' e' f' r') := by
  unfold kernel_een Choclo.point.kernel_een
  (try dsimp only)
  repeat' (first
    | et_step)

theorem et_kernel_eeu (ok : IntOK A L) (hC : 120 * C ^ 3 ≤ L) (hC2 : 12 * C ^ 2 ≤ L) (h2 : 18 * C ≤ L) (h30 : 30 * C ≤ L) (h60 : 60 * C ^ 2 ≤ L) (hL : 15 ≤ L)
    {a b c d e f r : TFl A} {a' b' c' d' e' f' r' : Fl A}
    (h_a : Rep L (C) a a') (h_b : Rep L (C) b b') (h_c : Rep L (C) c c') (h_d : Rep L (C) d d') (h_e : Rep L (C) e e') (h_f : Rep L (C) f f') (h_r : r = TFl.flt r') :
    ET TFl.flt (kernel_eeu a b c d e f r) (Choclo.point.kernel_eeu a' b' c' d' e' f' r') := by
  unfold kernel_eeu Choclo.point.kernel_eeu
  (try dsimp only)
  repeat' (first
    | et_step)

theorem et_kernel_nne (ok : IntOK A L) (hC : 120 * C ^ 3 ≤ L) (hC2 : 12 * C ^ 2 ≤ L) (h2 : 18 * C ≤ L) (h30 : 30 * C ≤ L) (h60 : 60 * C ^ 2 ≤ L) (hL : 15 ≤ L)
    {a b c d e f r : TFl A} {a' b' c' d' e' f' r' : Fl A}
    (h_a : Rep L (C) a a') (h_b : Rep L (C) b b') (h_c : Rep L (C) c c') (h_d : Rep L (C) d d') (h_e : Rep L (C) e e') (h_f : Rep L (C) f f') (h_r : r = TFl.flt r') :
    ET TFl.flt (kernel_nne a b c d e f r) (Choclo.point.kernel_nne a' b' c' d' e' f' r') := by
  unfold kernel_nne Choclo.point.kernel_nne
  (try dsimp only)
  repeat' (first
    | et_step)

theorem et_kernel_nnu (ok : IntOK A L) (hC : 120 * C ^ 3 ≤ L) (hC2 : 12 * C ^ 2 ≤ L) (h2 : 18 * C ≤ L) (h30 : 30 * C ≤ L) (h60 : 60 * C ^ 2 ≤ L) (hL : 15 ≤ L)
    {a b c d e f r : TFl A} {a' b' c' d' e' f' r' : Fl A}
    (h_a : Rep L (C) a a') (h_b : Rep L (C) b b') (h_c : Rep L (C) c c') (h_d : Rep L (C) d d') (h_e : Rep L (C) e e') (h_f : Rep L (C) f f') (h_r : r = TFl.flt r') :
    ET TFl.flt (kernel_nnu a b c d e f r) (Choclo.point.kernel_nnu a' b' c' d' e' f' r') := by
  unfold kernel_nnu Choclo.point.kernel_nnu
  (try dsimp only)
  repeat' (first
    | et_step)

theorem et_kernel_uue (ok : IntOK A L) (hC : 120 * C ^ 3 ≤ L) (hC2 : 12 * C ^ 2 ≤ L) (h2 : 18 * C ≤ L) (h30 : 30 * C ≤ L) (h60 : 60 * C ^ 2 ≤ L) (hL : 15 ≤ L)
    {a b c d e f r : TFl A} {a' b' c' d' e' f' r' : Fl A}
    (h_a : Rep L (C) a a') (h_b : Rep L (C) b b') (h_c : Rep L (C) c c') (h_d : Rep L (C) d d') (h_e : Rep L (C) e e') (h_f : Rep L (C) f f') (h_r : r = TFl.flt r') :
    ET TFl.flt (kernel_uue a b c d e f r) (Choclo.point.kernel_uue a' b' c' d' e' f' r') := by
  unfold kernel_uue Choclo.point.kernel_uue
  (try dsimp only)
  repeat' (first
    | et_step)

theorem et_kernel_uun (ok : IntOK A L) (hC : 120 * C ^ 3 ≤ L) (hC2 : 12 * C ^ 2 ≤ L) (h2 : 18 * C ≤ L) (h30 : 30 * C ≤ L) (h60 : 60 * C ^ 2 ≤ L) (hL : 15 ≤ L)
    {a b c d e f r : TFl A} {a' b' c' d' e' f' r' : Fl A}
    (h_a : Rep L (C) a a') (h_b : Rep L (C) b b') (h_c : Rep L (C) c c') (h_d : Rep L (C) d d') (h_e : Rep L (C) e e') (h_f : Rep L (C) f f') (h_r : r = TFl.flt r') :
    ET TFl.flt (kernel_uun a b c d e f r) (Choclo.point.kernel_uun a' b' c' d' e' f' r') := by
  unfold kernel_uun Choclo.point.kernel_uun
  (try dsimp only)
  repeat' (first
    | et_step)

theorem et_kernel_enu (ok : IntOK A L) (hC : 120 * C ^ 3 ≤ L) (hC2 : 12 * C ^ 2 ≤ L) (h2 : 18 * C ≤ L) (h30 : 30 * C ≤ L) (h60 : 60 * C ^ 2 ≤ L) (hL : 15 ≤ L)
    {a b c d e f r : TFl A} {a' b' c' d' e' f' r' : Fl A}
    (h_a : Rep L (C) a a') (h_b : Rep L (C) b b') (h_c : Rep L (C) c c') (h_d : Rep L (C) d d') (h_e : Rep L (C) e e') (h_f : Rep L (C) f f') (h_r : r = TFl.flt r') :
    ET TFl.flt (kernel_enu a b c d e f r) (Choclo.point.kernel_enu a' b' c' d' e' f' r') := by
  unfold kernel_enu Choclo.point.kernel_enu
  (try dsimp only)
  repeat' (first
    | et_step)

theorem et_gravity_pot (ok : IntOK A L) (hC : 12 * C ^ 2 ≤ L) (h2 : 2 * C ≤ L) (hL : 15 ≤ L)
    {a b c d e f m : TFl A} {a' b' c' d' e' f' m' : Fl A}
    (h_a : Rep L (C) a a') (h_b : Rep L (C) b b') (h_c : Rep L (C) c c') (h_d : Rep L (C) d d') (h_e : Rep L (C) e e') (h_f : Rep L (C) f f') (h_m : Rep L (L) m m') :
    ET TFl.flt (gravity_pot a b c d e f m) (Choclo.point.gravity_pot a' b' c' d' e' f' m') := by
  unfold gravity_pot Choclo.point.gravity_pot
  (try dsimp only)
  repeat' (first
    | (refine utils.et_distance_cartesian ok (C := C) hC h2 ?_ ?_ ?_ ?_ ?_ ?_ <;> first | rep | rf)
    | (refine et_kernel_pot ok (C := C) hC h2 hL ?_ ?_ ?_ ?_ ?_ ?_ ?_ <;> first | rep | rf)
    | et_step)

theorem et_gravity_e (ok : IntOK A L) (hC : 12 * C ^ 2 ≤ L) (h2 : 2 * C ≤ L) (hL : 15 ≤ L)
    {a b c d e f m : TFl A} {a' b' c' d' e' f' m' : Fl A}
    (h_a : Rep L (C) a a') (h_b : Rep L (C) b b') (h_c : Rep L (C) c c') (h_d : Rep L (C) d d') (h_e : Rep L (C) e e') (h_f : Rep L (C) f f') (h_m : Rep L (L) m m') :
    ET TFl.flt (gravity_e a b c d e f m) (Choclo.point.gravity_e a' b' c' d' e' f' m') := by
  unfold gravity_e Choclo.point.gravity_e
  (try dsimp only)
  repeat' (first
    | (refine utils.et_distance_cartesian ok (C := C) hC h2 ?_ ?_ ?_ ?_ ?_ ?_ <;> first | rep | rf)
    | (refine et_kernel_e ok (C := C) hC h2 hL ?_ ?_ ?_ ?_ ?_ ?_ ?_ <;> first | rep | rf)
    | et_step)

theorem et_gravity_n (ok : IntOK A L) (hC : 12 * C ^ 2 ≤ L) (h2 : 2 * C ≤ L) (hL : 15 ≤ L)
    {a b c d e f m : TFl A} {a' b' c' d' e' f' m' : Fl A}
    (h_a : Rep L (C) a a') (h_b : Rep L (C) b b') (h_c : Rep L (C) c c') (h_d : Rep L (C) d d') (h_e : Rep L (C) e e') (h_f : Rep L (C) f f') (h_m : Rep L (L) m m') :
    ET TFl.flt (gravity_n a b c d e f m) (Choclo.point.gravity_n a' b' c' d' e' f' m') := by
  unfold gravity_n Choclo.point.gravity_n
  (try dsimp only)
  repeat' (first
    | (refine utils.et_distance_cartesian ok (C := C) hC h2 ?_ ?_ ?_ ?_ ?_ ?_ <;> first | rep | rf)
    | (refine et_kernel_n ok (C := C) hC h2 hL ?_ ?_ ?_ ?_ ?_ ?_ ?_ <;> first | rep | rf)
    | et_step)

theorem et_gravity_u (ok : IntOK A L) (hC : 12 * C ^ 2 ≤ L) (h2 : 2 * C ≤ L) (hL : 15 ≤ L)
    {a b c d e f m : TFl A} {a' b' c' d' e' f' m' : Fl A}
    (h_a : Rep L (C) a a') (h_b : Rep L (C) b b') (h_c : Rep L (C) c c') (h_d : Rep L (C) d d') (h_e : Rep L (C) e e') (h_f : Rep L (C) f f') (h_m : Rep L (L) m m') :
    ET TFl.flt (gravity_u a b c d e f m) (Choclo.point.gravity_u a' b' c' d' e' f' m') := by
  unfold gravity_u Choclo.point.gravity_u
  (try dsimp only)
  repeat' (first
    | (refine utils.et_distance_cartesian ok (C := C) hC h2 ?_ ?_ ?_ ?_ ?_ ?_ <;> first | rep | rf)
    | (refine et_kernel_u ok (C := C) hC h2 hL ?_ ?_ ?_ ?_ ?_ ?_ ?_ <;> first | rep | rf)
    | et_step)

theorem et_gravity_ee (ok : IntOK A L) (hC : 12 * C ^ 2 ≤ L) (h2 : 2 * C ≤ L) (hL : 15 ≤ L)
    {a b c d e f m : TFl A} {a' b' c' d' e' f' m' : Fl A}
    (h_a : Rep L (C) a a') (h_b : Rep L (C) b b') (h_c : Rep L (C) c c') (h_d : Rep L (C) d d') (h_e : Rep L (C) e e') (h_f : Rep L (C) f f') (h_m : Rep L (L) m m') :
    ET TFl.flt (gravity_ee a b c d e f m) (Choclo.point.gravity_ee a' b' c' d' e' f' m') := by
  unfold gravity_ee Choclo.point.gravity_ee
  (try dsimp only)
  repeat' (first
    | (refine utils.et_distance_cartesian ok (C := C) hC h2 ?_ ?_ ?_ ?_ ?_ ?_ <;> first | rep | rf)
    | (refine et_kernel_ee ok (C := C) hC h2 hL ?_ ?_ ?_ ?_ ?_ ?_ ?_ <;> first | rep | rf)
    | et_step)

theorem et_gravity_nn (ok : IntOK A L) (hC : 12 * C ^ 2 ≤ L) (h2 : 2 * C ≤ L) (hL : 15 ≤ L)
    {a b c d e f m : TFl A} {a' b' c' d' e' f' m' : Fl A}
    (h_a : Rep L (C) a a') (h_b : Rep L (C) b b') (h_c : Rep L (C) c c') (h_d : Rep L (C) d d') (h_e : Rep L (C) e e') (h_f : Rep L (C) f f') (h_m : Rep L (L) m m') :
    ET TFl.flt (gravity_nn a b c d e f m) (Choclo.point.gravity_nn a' b' c' d' e' f' m') := by
  unfold gravity_nn Choclo.point.gravity_nn
  (try dsimp only)
  repeat' (first
    | (refine utils.et_distance_cartesian ok (C := C) hC h2 ?_ ?_ ?_ ?_ ?_ ?_ <;> first | rep | rf)
    | (refine et_kernel_nn ok (C := C) hC h2 hL ?_ ?_ ?_ ?_ ?_ ?_ ?_ <;> first | rep | rf)
    | et_step)

theorem et_gravity_uu (ok : IntOK A L) (hC : 12 * C ^ 2 ≤ L) (h2 : 2 * C ≤ L) (hL : 15 ≤ L)
    {a b c d e f m : TFl A} {a' b' c' d' e' f' m' : Fl A}
    (h_a : Rep L (C) a a') (h_b : Rep L (C) b b') (h_c : Rep L (C) c c') (h_d : Rep L (C) d d') (h_e : Rep L (C) e e') (h_f : Rep L (C) f f') (h_m : Rep L (L) m m') :
    ET TFl.flt (gravity_uu a b c d e f m) (Choclo.point.gravity_uu a' b' c' d' e' f' m') := by
  unfold gravity_uu Choclo.point.gravity_uu
  (try dsimp only)
  repeat' (first
    | (refine utils.et_distance_cartesian ok (C := C) hC h2 ?_ ?_ ?_ ?_ ?_ ?_ <;> first | rep | rf)
    | (refine et_kernel_uu ok (C := C) hC h2 hL ?_ ?_ ?_ ?_ ?_ ?_ ?_ <;> first | rep | rf)
    | et_step)

theorem et_gravity_en (ok : IntOK A L) (hC : 12 * C ^ 2 ≤ L) (h2 : 2 * C ≤ L) (hL : 15 ≤ L)
    {a b c d e f m : TFl A} {a' b' c' d' e' f' m' : Fl A}
    (h_a : Rep L (C) a a') (h_b : Rep L (C) b b') (h_c : Rep L (C) c c') (h_d : Rep L (C) d d') (h_e : Rep L (C) e e') (h_f : Rep L (C) f f') (h_m : Rep L (L) m m') :
    ET TFl.flt (gravity_en a b c d e f m) (Choclo.point.gravity_en a' b' c' d' e' f' m') := by
  unfold gravity_en Choclo.point.gravity_en
  (try dsimp only)
  repeat' (first
    | (refine utils.et_distance_cartesian ok (C := C) hC h2 ?_ ?_ ?_ ?_ ?_ ?_ <;> first | rep | rf)
    | (refine et_kernel_en ok (C := C) hC h2 hL ?_ ?_ ?_ ?_ ?_ ?_ ?_ <;> first | rep | rf)
    | et_step)

theorem et_gravity_eu (ok : IntOK A L) (hC : 12 * C ^ 2 ≤ L) (h2 : 2 * C ≤ L) (hL : 15 ≤ L)
    {a b c d e f m : TFl A} {a' b' c' d' e' f' m' : Fl A}
    (h_a : Rep L (C) a a') (h_b : Rep L (C) b b') (h_c : Rep L (C) c c') (h_d : Rep L (C) d d') (h_e : Rep L (C) e e') (h_f : Rep L (C) f f') (h_m : Rep L (L) m m') :
    ET TFl.flt (gravity_eu a b c d e f m) (Choclo.point.gravity_eu a' b' c' d' e' f' m') := by
  unfold gravity_eu Choclo.point.gravity_eu
  (try dsimp only)
  repeat' (first
    | (refine utils.et_distance_cartesian ok (C := C) hC h2 ?_ ?_ ?_ ?_ ?_ ?_ <;> first | rep | rf)
    | (refine et_kernel_eu ok (C := C) hC h2 hL ?_ ?_ ?_ ?_ ?_ ?_ ?_ <;> first | rep | rf)
    | et_step)

theorem et_gravity_nu (ok : IntOK A L) (hC : 12 * C ^ 2 ≤ L) (h2 : 2 * C ≤ L) (hL : 15 ≤ L)
    {a b c d e f m : TFl A} {a' b' c' d' e' f' m' : Fl A}
    (h_a : Rep L (C) a a') (h_b : Rep L (C) b b') (h_c : Rep L (C) c c') (h_d : Rep L (C) d d') (h_e : Rep L (C) e e') (h_f : Rep L (C) f f') (h_m : Rep L (L) m m') :
    ET TFl.flt (gravity_nu a b c d e f m) (Choclo.point.gravity_nu a' b' c' d' e' f' m') := by
  unfold gravity_nu Choclo.point.gravity_nu
  (try dsimp only)
  repeat' (first
    | (refine utils.et_distance_cartesian ok (C := C) hC h2 ?_ ?_ ?_ ?_ ?_ ?_ <;> first | rep | rf)
    | (refine et_kernel_nu ok (C := C) hC h2 hL ?_ ?_ ?_ ?_ ?_ ?_ ?_ <;> first | rep | rf)
    | et_step)

end point

end Typed

end Choclo
