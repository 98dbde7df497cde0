import Verif.Lemmas.Python

/-! # The interpreter and the compiled code: computations -/

namespace Choclo

variable {A : Arith}

/-- related values of the two executions, and the values that are not finite -/
class Rl (α : outParam Type) (β : Type) where
  rel : α → β → Prop
  bad : β → Prop

instance : Rl (Fl A) (PNum A) := ⟨Sam, PNum.Bad⟩
instance : Rl (Fl A × Fl A × Fl A) (PNum A × PNum A × PNum A) :=
  ⟨fun v w => Sam v.1 w.1 ∧ Sam v.2.1 w.2.1 ∧ Sam v.2.2 w.2.2, fun w => w.1.Bad ∨ w.2.1.Bad ∨ w.2.2.Bad⟩
instance {α β : Type} [Rl α β] : Rl (ForInStep α) (ForInStep β) :=
  ⟨fun
    | .done v, .done w => Rl.rel v w
    | .yield v, .yield w => Rl.rel v w
    | _, _ => False,
   fun
    | .done w => Rl.bad w
    | .yield w => Rl.bad w⟩

/-- an interpreted computation with overflow allowed if `P`, division by zero allowed if `Q`, that
does not return a finite number -/
def Rub {α β : Type} [Rl α β] (P Q : Prop) (y : PyX β) : Prop :=
  match y with
  | .ok w => Rl.bad w
  | .error .zeroDivision => Q
  | .error .overflow => P

/-- the exceptions an interpreted computation may raise -/
def Errs {β : Type} (P Q : Prop) (y : PyX β) : Prop :=
  match y with
  | .ok _ => True
  | .error .zeroDivision => Q
  | .error .overflow => P

/-- agreement of a compiled and an interpreted computation -/
def PAg {α β : Type} [Rl α β] (P Q : Prop) (x : Py α) (y : PyX β) : Prop :=
  match y with
  | .ok w => match x with
    | .ok v => Rl.rel v w
    | .error _ => Rl.bad w
  | .error .zeroDivision => x = .error .zeroDivision ∧ Q
  | .error .overflow => P

section
variable {α β γ δ ι : Type} [Rl α β] [Rl γ δ] {P Q : Prop}

theorem PAg.errs {x : Py α} {y : PyX β} (h : PAg P Q x y) : Errs P Q y := by
  cases y with
  | ok w => trivial
  | error e =>
    cases e with
    | zeroDivision => exact h.2
    | overflow => exact h

theorem PAg.bind {x : Py α} {y : PyX β} {f : α → Py γ} {g : β → PyX δ} (h : PAg P Q x y)
    (hf : ∀ v w, Rl.rel v w → PAg P Q (f v) (g w)) (hb : ∀ w, Rl.bad w → Rub P Q (g w)) :
    PAg P Q (x >>= f) (y >>= g) := by
  cases y with
  | ok w =>
    cases x with
    | ok v => exact hf v w h
    | error e =>
      have hw := hb w h
      cases e
      show PAg P Q (.error _) (g w)
      revert hw
      cases g w with
      | ok w' => exact id
      | error e =>
        cases e with
        | zeroDivision => exact fun hw => ⟨rfl, hw⟩
        | overflow => exact id
  | error e =>
    cases e with
    | zeroDivision =>
      obtain ⟨rfl, hq⟩ := h
      exact ⟨rfl, hq⟩
    | overflow => exact h

theorem PAg.ok {v : α} {w : β} (h : Rl.rel v w) : PAg P Q (pure v) (pure w) := h

theorem PAg.ite {b c : Bool} {x x' : Py α} {y y' : PyX β} (hb : b = c) (h : b = true → PAg P Q x y)
    (h' : ¬b = true → PAg P Q x' y') : PAg P Q (if b = true then x else x') (if c = true then y else y') := by
  subst hb
  split
  · exact h ‹_›
  · exact h' ‹_›

theorem Rub.ok {w : β} (h : Rl.bad w) : Rub P Q (pure w) := h

theorem Rub.bind {y : PyX δ} {g : δ → PyX β} (h : Errs P Q y) (hg : ∀ w, Rub P Q (g w)) : Rub P Q (y >>= g) := by
  cases y with
  | ok w => exact hg w
  | error e => cases e <;> exact h

theorem Rub.bind' {y : PyX δ} {g : δ → PyX β} (h : Rub P Q y) (hg : ∀ w, Rl.bad w → Rub P Q (g w)) :
    Rub P Q (y >>= g) := by
  cases y with
  | ok w => exact hg w h
  | error e => cases e <;> exact h

theorem Rub.ite {b : Prop} [Decidable b] {y y' : PyX β} (h : Rub P Q y) (h' : Rub P Q y') :
    Rub P Q (if b then y else y') := by
  split
  · exact h
  · exact h'

theorem Rub.loop {g : ι → β → PyX (ForInStep β)} (h : ∀ i w, Rl.bad w → Rub P Q (g i w)) :
    ∀ (l : List ι) (w : β), Rl.bad w → Rub P Q (forIn l w g) := by
  intro l
  induction l with
  | nil => intro w hw; exact hw
  | cons i l ih =>
    intro w hw
    simp only [List.forIn_cons]
    refine Rub.bind' (h i w hw) fun r hr => ?_
    cases r with
    | done a => exact hr
    | yield a => exact ih a hr

theorem PAg.loop {f : ι → α → Py (ForInStep α)} {g : ι → β → PyX (ForInStep β)}
    (h : ∀ i v w, Rl.rel v w → PAg P Q (f i v) (g i w)) (hb : ∀ i w, Rl.bad w → Rub P Q (g i w)) :
    ∀ (l : List ι) (v : α) (w : β), Rl.rel v w → PAg P Q (forIn l v f) (forIn l w g) := by
  intro l
  induction l with
  | nil => intro v w hw; exact hw
  | cons i l ih =>
    intro v w hw
    simp only [List.forIn_cons]
    refine PAg.bind (h i v w hw) (fun r s hr => ?_) (fun r hr => ?_)
    · cases r with
      | done a =>
        cases s with
        | done b => exact hr
        | yield b => exact hr.elim
      | yield a =>
        cases s with
        | done b => exact hr.elim
        | yield b => exact ih a b hr
    · cases r with
      | done a => exact hr
      | yield a => exact Rub.loop hb l a hr

end

/-! ## Powers and divisions -/

open PNum

theorem powOverflows_of {a : PNum A} {n : ℕ} (h : PowRaises a n → False) (hi : a.isInt = false) :
    ∃ w, (a ^! n) = .ok w ∧ w.number = a.number ^ n ∧ w.isInt = false ∧ w.isNumpy = a.isNumpy := by
  cases a with
  | int m => cases hi
  | np64 x => exact ⟨_, rfl, SFl.erase_pow x n, rfl, rfl⟩
  | float x =>
    have hx : powOverflows x n = false := by
      cases x with
      | num y hy =>
        show (match A.pow y n with | .inf _ => true | _ => false) = false
        cases hp : A.pow y n with
        | inf s => exact (h ⟨y, hy, s, rfl, hp⟩).elim
        | nan => rfl
        | fin z => rfl
      | _ => rfl
    refine ⟨.float (x ^ n), ?_, SFl.erase_pow x n, rfl, rfl⟩
    show (if powOverflows x n = true then _ else _) = _
    rw [hx]
    rfl

theorem pow_cases {a : PNum A} {n : ℕ} (hi : a.isInt = false) :
    ((a ^! n) = .error .overflow ∧ PowRaises a n)
    ∨ ∃ w, (a ^! n) = .ok w ∧ w.number = a.number ^ n ∧ w.isInt = false ∧ w.isNumpy = a.isNumpy := by
  by_cases h : PowRaises a n
  · left
    refine ⟨?_, h⟩
    obtain ⟨x, hx, s, rfl, hp⟩ := h
    have : powOverflows (A := A) (SRaw.num x hx) n = true := by
      show (match A.pow x n with | .inf _ => true | _ => false) = true
      rw [hp]
    show (if powOverflows (A := A) (SRaw.num x hx) n = true then _ else _) = _
    rw [if_pos this]
  · exact .inr (powOverflows_of h hi)

theorem not_powRaises_numpy {a : PNum A} {n : ℕ} (h : a.isNumpy = true) : ¬PowRaises a n := by
  rintro ⟨x, hx, s, rfl, -⟩
  cases h

section
variable {α β : Type} [Rl α β] {P Q : Prop}

theorem PAg.pow {v : Fl A} {a : PNum A} {n : ℕ} {x : Py α} {g : PNum A → PyX β} (hv : Sam v a)
    (hi : a.isInt = false) (hP : PowRaises a n → P)
    (hg : ∀ w, Sam (v ^ n) w → w.isInt = false → w.isNumpy = a.isNumpy → PAg P Q x (g w)) :
    PAg P Q x ((a ^! n) >>= g) := by
  rcases pow_cases (n := n) hi with ⟨e, h⟩ | ⟨w, e, hw, hwi, hwn⟩
  · rw [e]; exact hP h
  · rw [e]; exact hg w (.of_float (by rw [hw, hv.num]) hwi) hwi hwn

theorem Rub.pow {a : PNum A} {n : ℕ} {g : PNum A → PyX β} (hi : a.isInt = false) (hP : PowRaises a n → P)
    (hg : ∀ w, w.isInt = false → w.isNumpy = a.isNumpy → Rub P Q (g w)) : Rub P Q ((a ^! n) >>= g) := by
  rcases pow_cases (n := n) hi with ⟨e, h⟩ | ⟨w, e, hw, hwi, hwn⟩
  · rw [e]; exact hP h
  · rw [e]; exact hg w hwi hwn

theorem eq_zero_num (w : PNum A) : SFl.eq w.value 0 = Fl.eq w.number 0 :=
  (SFl.eq_erase w.value 0).trans (by rw [SFl.erase_lit0]; rfl)

/-- division: not by zero, or by zero -/
theorem div_cases (a b : PNum A) :
    (∃ w, (a /! b) = .ok w ∧ w.isInt = false ∧ w.isNumpy = (a.isNumpy || b.isNumpy)
      ∧ (Fl.eq b.number 0 = false → (a.number /. b.number) = .ok w.number)
      ∧ (Fl.eq b.number 0 = true → (a.number /. b.number) = .error .zeroDivision ∧ w.Bad))
    ∨ ((a /! b) = .error .zeroDivision ∧ (a.isNumpy || b.isNumpy) = false ∧ Fl.eq b.number 0 = true
      ∧ (a.number /. b.number) = .error .zeroDivision) := by
  have hag : Ag (a.value /± b.value) (a.value /∞ b.value) := Ag.div _ _
  have her : (a.value /± b.value).map SFl.erase = (a.number /. b.number) := SFl.erase_div _ _
  have hz : ∀ x : SFl A, SFl.eq x 0 = true → ∀ y : SFl A, (y /± x) = .error .zeroDivision := by
    intro x hx y
    have h0 : (0 : SFl A) = SRaw.zero false := dif_pos Nat.cast_zero
    rw [h0] at hx
    cases x with
    | zero s => cases y <;> rfl
    | nan => cases hx
    | inf s => cases hx
    | num x h => exact absurd (of_decide_eq_true hx) h
  by_cases hb : Fl.eq b.number 0 = true
  · have hv : SFl.eq b.value 0 = true := by rw [eq_zero_num, hb]
    have e := hz _ hv a.value
    rw [e] at hag her
    have he : (a.number /. b.number) = .error .zeroDivision := her.symm
    cases hk : (a.isNumpy || b.isNumpy) with
    | true =>
      left
      refine ⟨mk a b (SFl.ndiv a.value b.value), ?_, isInt_mk _ _ _, by rw [isNumpy_mk, hk], ?_, ?_⟩
      · show (if (SFl.eq b.value 0 && !(a.isNumpy || b.isNumpy)) = true then _ else _) = _
        rw [hk]
        simp
      · intro h; rw [hb] at h; cases h
      · intro _
        refine ⟨he, ?_⟩
        obtain ⟨w, hw, hbad⟩ := hag
        have : w = SFl.ndiv a.value b.value := by
          have := hw
          unfold SFl.interpDiv at this
          injection this with this
          exact this.symm
        show SFl.Bad _
        rw [value_mk, ← this]
        exact hbad
    | false =>
      right
      refine ⟨?_, rfl, hb, he⟩
      show (if (SFl.eq b.value 0 && !(a.isNumpy || b.isNumpy)) = true then _ else _) = _
      rw [hk, hv]
      rfl
  · left
    have hb' : Fl.eq b.number 0 = false := by simpa using hb
    have hv : SFl.eq b.value 0 = false := by rw [eq_zero_num, hb']
    refine ⟨mk a b (SFl.ndiv a.value b.value), ?_, isInt_mk _ _ _, isNumpy_mk _ _ _, ?_, ?_⟩
    · show (if (SFl.eq b.value 0 && !(a.isNumpy || b.isNumpy)) = true then _ else _) = _
      rw [hv]
      rfl
    · intro _
      rw [← her, div_eq_of_ne (by rw [hv]; simp)]
      show Except.ok _ = Except.ok _
      rw [number, value_mk]
    · intro h; exact absurd h hb

theorem PAg.div {v v' : Fl A} {a b : PNum A} {f : Fl A → Py α} {g : PNum A → PyX β} (ha : a.number = v) (hb : b.number = v')
    (hQ : (a.isNumpy || b.isNumpy) = false → Fl.eq v' 0 = true → Q)
    (hf : ∀ u w, Sam u w → w.isInt = false → w.isNumpy = (a.isNumpy || b.isNumpy) → PAg P Q (f u) (g w))
    (hbad : ∀ w, w.Bad → w.isNumpy = (a.isNumpy || b.isNumpy) → Fl.eq v' 0 = true → Rub P Q (g w)) :
    PAg P Q ((v /. v') >>= f) ((a /! b) >>= g) := by
  subst ha; subst hb
  rcases div_cases a b with ⟨w, e, hi, hn, h1, h2⟩ | ⟨e, hk, hz, e'⟩
  · rw [e]
    cases hz : Fl.eq b.number 0 with
    | false =>
      rw [h1 hz]
      exact hf _ w (.arg hi) hi hn
    | true =>
      obtain ⟨e', hw⟩ := h2 hz
      rw [e']
      have := hbad w hw hn hz
      show PAg P Q (.error _) (g w)
      revert this
      cases g w with
      | ok w' => exact id
      | error e =>
        cases e with
        | zeroDivision => exact fun hw => ⟨rfl, hw⟩
        | overflow => exact id
  · rw [e, e']
    exact ⟨rfl, hQ hk hz⟩

theorem PAg.div' {v v' : Fl A} {a b : PNum A} (ha : a.number = v) (hb : b.number = v')
    (hQ : (a.isNumpy || b.isNumpy) = false → Fl.eq v' 0 = true → Q) : PAg P Q (v /. v') (a /! b) := by
  have h := PAg.div (P := P) (f := pure) (g := pure) ha hb hQ (fun u w h _ _ => PAg.ok h) (fun w h _ _ => Rub.ok h)
  rwa [bind_pure, bind_pure] at h

theorem Rub.div {a b : PNum A} {g : PNum A → PyX β} (hQ : (a.isNumpy || b.isNumpy) = false → Fl.eq b.number 0 = true → Q)
    (hg : ∀ w, w.isInt = false → w.isNumpy = (a.isNumpy || b.isNumpy) → Rub P Q (g w)) : Rub P Q ((a /! b) >>= g) := by
  rcases div_cases a b with ⟨w, e, hi, hn, -⟩ | ⟨e, hk, hz, -⟩
  · rw [e]; exact hg w hi hn
  · rw [e]; exact hQ hk hz

end

end Choclo
