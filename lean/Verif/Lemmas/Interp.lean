import Verif.Spec.Interp

/-! # Compiled and interpreted calls agree: proofs

The lemmas about the single functions are of one form; they were written by a script. -/

namespace Choclo

variable {A : Arith}

namespace SFl

/-- not a finite number -/
def Bad (a : SFl A) : Prop := ¬a.IsNumber

theorem bad_nan : (nan : SFl A).Bad := by
  rintro (⟨s, h⟩ | ⟨x, hx, h⟩) <;> cases h

theorem bad_inf (s : Bool) : (inf s : SFl A).Bad := by
  rintro (⟨s, h⟩ | ⟨x, hx, h⟩) <;> cases h

theorem bad_cases {a : SFl A} (h : a.Bad) : a = nan ∨ ∃ s, a = inf s := by
  cases a with
  | nan => exact .inl rfl
  | inf s => exact .inr ⟨s, rfl⟩
  | zero s => exact absurd (.inl ⟨s, rfl⟩) h
  | num x hx => exact absurd (.inr ⟨x, hx, rfl⟩) h

theorem bad_neg {a : SFl A} (h : a.Bad) : (-a).Bad := by
  rcases bad_cases h with rfl | ⟨s, rfl⟩
  · exact bad_nan
  · exact bad_inf _

theorem bad_add_left {a b : SFl A} (h : a.Bad) : (a + b).Bad := by
  rcases bad_cases h with rfl | ⟨s, rfl⟩
  · exact bad_nan
  · cases b with
    | nan => exact bad_nan
    | inf t =>
      show (if s = t then inf s else nan : SFl A).Bad
      split
      · exact bad_inf _
      · exact bad_nan
    | zero t => exact bad_inf _
    | num x hx => exact bad_inf _

theorem bad_add_right {a b : SFl A} (h : b.Bad) : (a + b).Bad := by
  rcases bad_cases h with rfl | ⟨t, rfl⟩
  · cases a <;> exact bad_nan
  · cases a with
    | nan => exact bad_nan
    | inf s =>
      show (if s = t then inf s else nan : SFl A).Bad
      split
      · exact bad_inf _
      · exact bad_nan
    | zero t => exact bad_inf _
    | num x hx => exact bad_inf _

theorem bad_sub_left {a b : SFl A} (h : a.Bad) : (a - b).Bad := bad_add_left (b := -b) h
theorem bad_sub_right {a b : SFl A} (h : b.Bad) : (a - b).Bad := bad_add_right (b := -b) (bad_neg h)

theorem bad_mul_left {a b : SFl A} (h : a.Bad) : (a * b).Bad := by
  rcases bad_cases h with rfl | ⟨s, rfl⟩
  · exact bad_nan
  · cases b with
    | nan => exact bad_nan
    | inf t => exact bad_inf _
    | zero t => exact bad_nan
    | num x hx =>
      show (if 0 < x then inf s else inf (!s) : SFl A).Bad
      split <;> exact bad_inf _

theorem bad_mul_right {a b : SFl A} (h : b.Bad) : (a * b).Bad := by
  rcases bad_cases h with rfl | ⟨s, rfl⟩
  · cases a <;> exact bad_nan
  · cases a with
    | nan => exact bad_nan
    | inf t => exact bad_inf _
    | zero t => exact bad_nan
    | num x hx =>
      show (if 0 < x then inf s else inf (!s) : SFl A).Bad
      split <;> exact bad_inf _

theorem bad_log {a : SFl A} (h : a.Bad) : (log a).Bad := by
  rcases bad_cases h with rfl | ⟨s, rfl⟩
  · exact bad_nan
  · show (if s then nan else inf false : SFl A).Bad
    split
    · exact bad_nan
    · exact bad_inf _

theorem bad_ndiv {a : SFl A} (h : a.Bad) {b : SFl A} (hb : ¬b.Bad) : (ndiv a b).Bad := by
  rcases bad_cases h with rfl | ⟨s, rfl⟩
  · exact bad_nan
  · cases b with
    | nan => exact absurd bad_nan hb
    | inf t => exact absurd (bad_inf _) hb
    | zero t => exact bad_inf _
    | num y hy =>
      show (if 0 < y then inf s else inf (!s) : SFl A).Bad
      split <;> exact bad_inf _

end SFl

/-! ## Computations -/

/-- Which values are not finite numbers. -/
class Junk (α : Type) where
  bad : α → Prop

instance : Junk (SFl A) := ⟨SFl.Bad⟩
instance : Junk (SFl A × SFl A × SFl A) := ⟨fun r => r.1.Bad ∨ r.2.1.Bad ∨ r.2.2.Bad⟩
instance {α : Type} [Junk α] : Junk (ForInStep α) := ⟨fun
  | .done a => Junk.bad a
  | .yield a => Junk.bad a⟩

/-- the interpreted computation returns something that is not finite -/
def Rubbish {α : Type} [Junk α] (y : Py α) : Prop := ∃ w, y = .ok w ∧ Junk.bad w

/-- compiled and interpreted computation agree -/
def Ag {α : Type} [Junk α] (x y : Py α) : Prop :=
  match x with
  | .ok v => y = .ok v
  | .error _ => Rubbish y

/-- the computation returns -/
def Tot {α : Type} (y : Py α) : Prop := ∃ w, y = .ok w

section
variable {α β γ : Type} [Junk α] [Junk β]

theorem Ag.tot {x y : Py α} (h : Ag x y) : Tot y := by
  cases x with
  | ok v => exact ⟨v, h⟩
  | error e => obtain ⟨w, hw, -⟩ := h; exact ⟨w, hw⟩

theorem Ag.bind {x y : Py α} {f g : α → Py β} (h : Ag x y) (hf : ∀ a, Ag (f a) (g a))
    (hb : ∀ w, Junk.bad w → Rubbish (g w)) : Ag (x >>= f) (y >>= g) := by
  cases x with
  | ok v =>
    have : y = .ok v := h
    subst this
    exact hf v
  | error e =>
    obtain ⟨w, rfl, hw⟩ := h
    exact hb w hw

theorem Ag.ok (a : α) : Ag (pure a) (pure a) := rfl

theorem Ag.ite {b : Prop} [Decidable b] {x x' y y' : Py α} (h : b → Ag x y) (h' : ¬b → Ag x' y') :
    Ag (if b then x else x') (if b then y else y') := by
  split
  · exact h ‹_›
  · exact h' ‹_›

theorem Rubbish.ok {a : α} (h : Junk.bad a) : Rubbish (pure a) := ⟨a, rfl, h⟩

theorem Rubbish.bind {y : Py γ} {g : γ → Py α} (h : Tot y) (hg : ∀ v, Rubbish (g v)) : Rubbish (y >>= g) := by
  obtain ⟨w, rfl⟩ := h
  exact hg w

theorem Rubbish.bind' {y : Py β} {g : β → Py α} (h : Rubbish y) (hg : ∀ v, Junk.bad v → Rubbish (g v)) :
    Rubbish (y >>= g) := by
  obtain ⟨w, rfl, hw⟩ := h
  exact hg w hw

theorem Rubbish.ite {b : Prop} [Decidable b] {y y' : Py α} (h : Rubbish y) (h' : Rubbish y') :
    Rubbish (if b then y else y') := by
  split
  · exact h
  · exact h'

theorem Tot.ok (a : γ) : Tot (pure a : Py γ) := ⟨a, rfl⟩

theorem Tot.div (a b : SFl A) : Tot (a /∞ b) := ⟨_, rfl⟩

theorem Rubbish.loop {g : γ → α → Py (ForInStep α)} (h : ∀ i a, Junk.bad a → Rubbish (g i a)) :
    ∀ (l : List γ) (a : α), Junk.bad a → Rubbish (forIn l a g) := by
  intro l
  induction l with
  | nil => intro a ha; exact ⟨a, rfl, ha⟩
  | cons i l ih =>
    intro a ha
    simp only [List.forIn_cons]
    refine Rubbish.bind' (h i a ha) fun r hr => ?_
    cases r with
    | done a => exact ⟨a, rfl, hr⟩
    | yield a => exact ih a hr

theorem Ag.loop {f g : γ → α → Py (ForInStep α)} (h : ∀ i a, Ag (f i a) (g i a))
    (hb : ∀ i a, Junk.bad a → Rubbish (g i a)) :
    ∀ (l : List γ) (a : α), Ag (forIn l a f) (forIn l a g) := by
  intro l
  induction l with
  | nil => intro a; rfl
  | cons i l ih =>
    intro a
    simp only [List.forIn_cons]
    refine Ag.bind (h i a) (fun r => ?_) (fun r hr => ?_)
    · cases r with
      | done a => rfl
      | yield a => exact ih a
    · cases r with
      | done a => exact ⟨a, rfl, hr⟩
      | yield a => exact Rubbish.loop hb l a hr

end

theorem Ag.div (a b : SFl A) : Ag (a /± b) (a /∞ b) := by
  cases b with
  | zero t =>
    cases a with
    | nan => exact ⟨_, rfl, SFl.bad_nan⟩
    | inf s => exact ⟨_, rfl, SFl.bad_inf _⟩
    | zero s => exact ⟨_, rfl, SFl.bad_nan⟩
    | num x hx => exact ⟨_, rfl, SFl.bad_inf _⟩
  | nan => cases a <;> rfl
  | inf t => cases a <;> rfl
  | num y hy =>
    cases a with
    | nan => rfl
    | inf s =>
      show Ag (if 0 < y then .ok (SFl.inf s) else .ok (SFl.inf (!s)))
        (.ok (if 0 < y then SFl.inf s else SFl.inf (!s) : SFl A))
      split <;> rfl
    | zero s => rfl
    | num x hx => rfl

/-- a division by a number that is not zero -/
theorem div_eq_of_ne {a b : SFl A} (h : ¬SFl.eq b 0 = true) : (a /± b) = (a /∞ b) := by
  have hz : (0 : SFl A) = SRaw.zero false := dif_pos Nat.cast_zero
  rw [hz] at h
  cases b with
  | zero t => exact absurd rfl h
  | nan => cases a <;> rfl
  | inf t => cases a <;> rfl
  | num y hy =>
    cases a with
    | inf s =>
      show (if 0 < y then .ok (SFl.inf s) else .ok (SFl.inf (!s)) : Py (SFl A)) = .ok (if 0 < y then SFl.inf s else SFl.inf (!s) : SFl A)
      split <;> rfl
    | _ => rfl

theorem Ag.bind_eq {x y : Py (SFl A)} {f g : SFl A → Py (SFl A)} (h : x = y) (hy : Tot y) (hf : ∀ a, Ag (f a) (g a)) :
    Ag (x >>= f) (y >>= g) := by
  subst h
  obtain ⟨w, rfl⟩ := hy
  exact hf w

/-- an expression with an operand that is not finite is not finite -/
syntax "bad_expr" : tactic
macro_rules
  | `(tactic| bad_expr) => `(tactic| first
    | assumption
    | exact SFl.bad_nan
    | (refine SFl.bad_neg ?_; bad_expr; done)
    | (refine SFl.bad_log ?_; bad_expr; done)
    | (refine SFl.bad_add_left ?_; bad_expr; done)
    | (refine SFl.bad_add_right ?_; bad_expr; done)
    | (refine SFl.bad_sub_left ?_; bad_expr; done)
    | (refine SFl.bad_sub_right ?_; bad_expr; done)
    | (refine SFl.bad_mul_left ?_; bad_expr; done)
    | (refine SFl.bad_mul_right ?_; bad_expr; done))

/-- goal: the value is not finite -/
macro "bad_goal" : tactic => `(tactic| first
  | (with_reducible_and_instances show SFl.Bad _; bad_expr; done)
  | (show SFl.Bad _; bad_expr; done)
  | (refine Or.inl ?_; bad_expr; done)
  | (refine Or.inr (Or.inl ?_); bad_expr; done)
  | (refine Or.inr (Or.inr ?_); bad_expr; done))

set_option linter.unusedTactic false
set_option linter.unreachableTactic false

section
variable {β γ : Type} [Junk β]

theorem Ag.bind1 {x y : Py (SFl A)} {f g : SFl A → Py β} (h : Ag x y) (hf : ∀ a, Ag (f a) (g a))
    (hb : ∀ w : SFl A, w.Bad → Rubbish (g w)) : Ag (x >>= f) (y >>= g) := Ag.bind h hf hb

theorem Ag.bind3 {x y : Py (SFl A × SFl A × SFl A)} {f g : SFl A × SFl A × SFl A → Py β} (h : Ag x y)
    (hf : ∀ a, Ag (f a) (g a)) (h1 : ∀ w : SFl A × SFl A × SFl A, w.1.Bad → Rubbish (g w))
    (h2 : ∀ w : SFl A × SFl A × SFl A, w.2.1.Bad → Rubbish (g w))
    (h3 : ∀ w : SFl A × SFl A × SFl A, w.2.2.Bad → Rubbish (g w)) : Ag (x >>= f) (y >>= g) :=
  Ag.bind h hf fun w hw => hw.elim (h1 w) fun hw => hw.elim (h2 w) (h3 w)

theorem Rubbish.bind1 {y : Py (SFl A)} {g : SFl A → Py β} (h : Rubbish y) (hg : ∀ v : SFl A, v.Bad → Rubbish (g v)) :
    Rubbish (y >>= g) := Rubbish.bind' h hg

theorem Rubbish.bind3 {y : Py (SFl A × SFl A × SFl A)} {g : SFl A × SFl A × SFl A → Py β} (h : Rubbish y)
    (h1 : ∀ w : SFl A × SFl A × SFl A, w.1.Bad → Rubbish (g w))
    (h2 : ∀ w : SFl A × SFl A × SFl A, w.2.1.Bad → Rubbish (g w))
    (h3 : ∀ w : SFl A × SFl A × SFl A, w.2.2.Bad → Rubbish (g w)) :
    Rubbish (y >>= g) := Rubbish.bind' h fun w hw => hw.elim (h1 w) fun hw => hw.elim (h2 w) (h3 w)

theorem Ag.loop1 {f g : γ → SFl A → Py (ForInStep (SFl A))} (h : ∀ i a, Ag (f i a) (g i a))
    (hb : ∀ i (a : SFl A), a.Bad → Rubbish (g i a)) (l : List γ) (a : SFl A) : Ag (forIn l a f) (forIn l a g) :=
  Ag.loop h hb l a

theorem Rubbish.loop1 {g : γ → SFl A → Py (ForInStep (SFl A))} (hb : ∀ i (a : SFl A), a.Bad → Rubbish (g i a))
    (l : List γ) {a : SFl A} (ha : a.Bad) : Rubbish (forIn l a g) := Rubbish.loop hb l a ha

theorem Ag.loop3 {f g : γ → SFl A × SFl A × SFl A → Py (ForInStep (SFl A × SFl A × SFl A))}
    (h : ∀ i a, Ag (f i a) (g i a))
    (h1 : ∀ i (a : SFl A × SFl A × SFl A), a.1.Bad → Rubbish (g i a))
    (h2 : ∀ i (a : SFl A × SFl A × SFl A), a.2.1.Bad → Rubbish (g i a))
    (h3 : ∀ i (a : SFl A × SFl A × SFl A), a.2.2.Bad → Rubbish (g i a)) (l : List γ) (a : SFl A × SFl A × SFl A) :
    Ag (forIn l a f) (forIn l a g) :=
  Ag.loop h (fun i a ha => ha.elim (h1 i a) fun ha => ha.elim (h2 i a) (h3 i a)) l a

theorem Rubbish.loop3 {g : γ → SFl A × SFl A × SFl A → Py (ForInStep (SFl A × SFl A × SFl A))}
    (h1 : ∀ i (a : SFl A × SFl A × SFl A), a.1.Bad → Rubbish (g i a))
    (h2 : ∀ i (a : SFl A × SFl A × SFl A), a.2.1.Bad → Rubbish (g i a))
    (h3 : ∀ i (a : SFl A × SFl A × SFl A), a.2.2.Bad → Rubbish (g i a)) (l : List γ) {a : SFl A × SFl A × SFl A}
    (ha : a.1.Bad ∨ a.2.1.Bad ∨ a.2.2.Bad) : Rubbish (forIn l a g) :=
  Rubbish.loop (α := SFl A × SFl A × SFl A) (fun i a (ha : a.1.Bad ∨ a.2.1.Bad ∨ a.2.2.Bad) => ha.elim (h1 i a) fun ha => ha.elim (h2 i a) (h3 i a)) l a ha

end

macro "rub_step" : tactic => `(tactic| first
  | (with_reducible refine Rubbish.ite ?_ ?_)
  | (refine Rubbish.ok ?_; bad_goal; done)
  | (with_reducible refine Rubbish.bind (Tot.div _ _) fun _ => ?_)
  | (with_reducible refine Rubbish.bind1 (Rubbish.loop1 (fun _ _ _ => ?_) _ (by bad_expr)) fun _ _ => ?_)
  | (with_reducible refine Rubbish.bind3 (Rubbish.loop3 (fun _ _ _ => ?_) (fun _ _ _ => ?_) (fun _ _ _ => ?_) _ (by bad_goal)) (fun _ _ => ?_) (fun _ _ => ?_) (fun _ _ => ?_)))

theorem ne_zero_four : ¬SFl.eq (4 : SFl A) 0 = true := by
  have hz : (0 : SFl A) = SRaw.zero false := dif_pos Nat.cast_zero
  have h4 : (4 : SFl A) = SRaw.num ((4 : ℕ) : ℝ) (by norm_num) := dif_neg (by norm_num)
  rw [hz, h4]
  show ¬(decide (((4 : ℕ) : ℝ) = 0) = true)
  norm_num

/-- dividing by the literal 4 does not raise -/
theorem Ag.bind4 {β : Type} [Junk β] {x : SFl A} {f g : SFl A → Py β} (hf : ∀ a, Ag (f a) (g a)) :
    Ag ((x /± 4) >>= f) ((x /∞ 4) >>= g) := by
  rw [div_eq_of_ne ne_zero_four]
  exact hf _

macro "ag_step" : tactic => `(tactic| first
  | (with_reducible refine Ag.bind4 (fun _ => ?_))
  | (with_reducible refine Ag.ite (fun _ => ?_) (fun _ => ?_))
  | with_reducible exact Ag.div _ _
  | with_reducible exact Ag.ok _
  | (with_reducible refine Ag.loop1 (fun _ _ => ?_) (fun _ _ _ => ?_) _ _)
  | (with_reducible refine Ag.loop3 (fun _ _ => ?_) (fun _ _ _ => ?_) (fun _ _ _ => ?_) (fun _ _ _ => ?_) _ _)
  | (with_reducible refine Ag.bind1 ?_ (fun _ => ?_) (fun _ _ => ?_))
  | (with_reducible refine Ag.bind3 ?_ (fun _ => ?_) (fun _ _ => ?_) (fun _ _ => ?_) (fun _ _ => ?_)))

namespace Interp

namespace utils

theorem ag_distance_cartesian (a b c d e f : SFl A) :
    Ag (Signed.utils.distance_cartesian a b c d e f) (distance_cartesian a b c d e f) := rfl

theorem ag_distance_spherical_core (a b c d e f g h : SFl A) :
    Ag (Signed.utils.distance_spherical_core a b c d e f g h) (distance_spherical_core a b c d e f g h) := rfl

theorem ag_distance_spherical (a b c d e f : SFl A) :
    Ag (Signed.utils.distance_spherical a b c d e f) (distance_spherical a b c d e f) := rfl

end utils

namespace point

theorem ag_kernel_pot (a b c d e f r : SFl A) :
    Ag (Signed.point.kernel_pot a b c d e f r) (kernel_pot a b c d e f r) := by
  unfold kernel_pot Signed.point.kernel_pot
  (try dsimp only)
  repeat' (first
    | ag_step | rub_step)

theorem ag_kernel_e (a b c d e f r : SFl A) :
    Ag (Signed.point.kernel_e a b c d e f r) (kernel_e a b c d e f r) := by
  unfold kernel_e Signed.point.kernel_e
  (try dsimp only)
  repeat' (first
    | ag_step | rub_step)

theorem ag_kernel_n (a b c d e f r : SFl A) :
    Ag (Signed.point.kernel_n a b c d e f r) (kernel_n a b c d e f r) := by
  unfold kernel_n Signed.point.kernel_n
  (try dsimp only)
  repeat' (first
    | ag_step | rub_step)

theorem ag_kernel_u (a b c d e f r : SFl A) :
    Ag (Signed.point.kernel_u a b c d e f r) (kernel_u a b c d e f r) := by
  unfold kernel_u Signed.point.kernel_u
  (try dsimp only)
  repeat' (first
    | ag_step | rub_step)

theorem ag_kernel_ee (a b c d e f r : SFl A) :
    Ag (Signed.point.kernel_ee a b c d e f r) (kernel_ee a b c d e f r) := by
  unfold kernel_ee Signed.point.kernel_ee
  (try dsimp only)
  repeat' (first
    | ag_step | rub_step)

theorem ag_kernel_nn (a b c d e f r : SFl A) :
    Ag (Signed.point.kernel_nn a b c d e f r) (kernel_nn a b c d e f r) := by
  unfold kernel_nn Signed.point.kernel_nn
  (try dsimp only)
  repeat' (first
    | ag_step | rub_step)

theorem ag_kernel_uu (a b c d e f r : SFl A) :
    Ag (Signed.point.kernel_uu a b c d e f r) (kernel_uu a b c d e f r) := by
  unfold kernel_uu Signed.point.kernel_uu
  (try dsimp only)
  repeat' (first
    | ag_step | rub_step)

theorem ag_kernel_en (a b c d e f r : SFl A) :
    Ag (Signed.point.kernel_en a b c d e f r) (kernel_en a b c d e f r) := by
  unfold kernel_en Signed.point.kernel_en
  (try dsimp only)
  repeat' (first
    | ag_step | rub_step)

theorem ag_kernel_eu (a b c d e f r : SFl A) :
    Ag (Signed.point.kernel_eu a b c d e f r) (kernel_eu a b c d e f r) := by
  unfold kernel_eu Signed.point.kernel_eu
  (try dsimp only)
  repeat' (first
    | ag_step | rub_step)

theorem ag_kernel_nu (a b c d e f r : SFl A) :
    Ag (Signed.point.kernel_nu a b c d e f r) (kernel_nu a b c d e f r) := by
  unfold kernel_nu Signed.point.kernel_nu
  (try dsimp only)
  repeat' (first
    | ag_step | rub_step)

theorem ag_kernel_eee (a b c d e f r : SFl A) :
    Ag (Signed.point.kernel_eee a b c d e f r) (kernel_eee a b c d e f r) := by
  unfold kernel_eee Signed.point.kernel_eee
  (try dsimp only)
  repeat' (first
    | ag_step | rub_step)

theorem ag_kernel_nnn (a b c d e f r : SFl A) :
    Ag (Signed.point.kernel_nnn a b c d e f r) (kernel_nnn a b c d e f r) := by
  unfold kernel_nnn Signed.point.kernel_nnn
  (try dsimp only)
  repeat' (first
    | ag_step | rub_step)

theorem ag_kernel_uuu (a b c d e f r : SFl A) :
    Ag (Signed.point.kernel_uuu a b c d e f r) (kernel_uuu a b c d e f r) := by
  unfold kernel_uuu Signed.point.kernel_uuu
  (try dsimp only)
  repeat' (first
    | ag_step | rub_step)

theorem ag_kernel_een (a b c d e f r : SFl A) :
    Ag (Signed.point.kernel_een a b c d e f r) (kernel_een a b c d e f r) := by
  unfold kernel_een Signed.point.kernel_een
  (try dsimp only)
  repeat' (first
    | ag_step | rub_step)

theorem ag_kernel_eeu (a b c d e f r : SFl A) :
    Ag (Signed.point.kernel_eeu a b c d e f r) (kernel_eeu a b c d e f r) := by
  unfold kernel_eeu Signed.point.kernel_eeu
  (try dsimp only)
  repeat' (first
    | ag_step | rub_step)

theorem ag_kernel_nne (a b c d e f r : SFl A) :
    Ag (Signed.point.kernel_nne a b c d e f r) (kernel_nne a b c d e f r) := by
  unfold kernel_nne Signed.point.kernel_nne
  (try dsimp only)
  repeat' (first
    | ag_step | rub_step)

theorem ag_kernel_nnu (a b c d e f r : SFl A) :
    Ag (Signed.point.kernel_nnu a b c d e f r) (kernel_nnu a b c d e f r) := by
  unfold kernel_nnu Signed.point.kernel_nnu
  (try dsimp only)
  repeat' (first
    | ag_step | rub_step)

theorem ag_kernel_uue (a b c d e f r : SFl A) :
    Ag (Signed.point.kernel_uue a b c d e f r) (kernel_uue a b c d e f r) := by
  unfold kernel_uue Signed.point.kernel_uue
  (try dsimp only)
  repeat' (first
    | ag_step | rub_step)

theorem ag_kernel_uun (a b c d e f r : SFl A) :
    Ag (Signed.point.kernel_uun a b c d e f r) (kernel_uun a b c d e f r) := by
  unfold kernel_uun Signed.point.kernel_uun
  (try dsimp only)
  repeat' (first
    | ag_step | rub_step)

theorem ag_kernel_enu (a b c d e f r : SFl A) :
    Ag (Signed.point.kernel_enu a b c d e f r) (kernel_enu a b c d e f r) := by
  unfold kernel_enu Signed.point.kernel_enu
  (try dsimp only)
  repeat' (first
    | ag_step | rub_step)

theorem ag_gravity_pot (a b c d e f m : SFl A) :
    Ag (Signed.point.gravity_pot a b c d e f m) (gravity_pot a b c d e f m) := by
  unfold gravity_pot Signed.point.gravity_pot
  unfold utils.distance_cartesian Signed.utils.distance_cartesian
  simp only [pure_bind]
  repeat' (first
    | with_reducible exact ag_kernel_pot _ _ _ _ _ _ _
    | with_reducible refine Rubbish.bind (ag_kernel_pot _ _ _ _ _ _ _).tot fun _ => ?_
    | ag_step | rub_step)

theorem ag_gravity_e (a b c d e f m : SFl A) :
    Ag (Signed.point.gravity_e a b c d e f m) (gravity_e a b c d e f m) := by
  unfold gravity_e Signed.point.gravity_e
  unfold utils.distance_cartesian Signed.utils.distance_cartesian
  simp only [pure_bind]
  repeat' (first
    | with_reducible exact ag_kernel_e _ _ _ _ _ _ _
    | with_reducible refine Rubbish.bind (ag_kernel_e _ _ _ _ _ _ _).tot fun _ => ?_
    | ag_step | rub_step)

theorem ag_gravity_n (a b c d e f m : SFl A) :
    Ag (Signed.point.gravity_n a b c d e f m) (gravity_n a b c d e f m) := by
  unfold gravity_n Signed.point.gravity_n
  unfold utils.distance_cartesian Signed.utils.distance_cartesian
  simp only [pure_bind]
  repeat' (first
    | with_reducible exact ag_kernel_n _ _ _ _ _ _ _
    | with_reducible refine Rubbish.bind (ag_kernel_n _ _ _ _ _ _ _).tot fun _ => ?_
    | ag_step | rub_step)

theorem ag_gravity_u (a b c d e f m : SFl A) :
    Ag (Signed.point.gravity_u a b c d e f m) (gravity_u a b c d e f m) := by
  unfold gravity_u Signed.point.gravity_u
  unfold utils.distance_cartesian Signed.utils.distance_cartesian
  simp only [pure_bind]
  repeat' (first
    | with_reducible exact ag_kernel_u _ _ _ _ _ _ _
    | with_reducible refine Rubbish.bind (ag_kernel_u _ _ _ _ _ _ _).tot fun _ => ?_
    | ag_step | rub_step)

theorem ag_gravity_ee (a b c d e f m : SFl A) :
    Ag (Signed.point.gravity_ee a b c d e f m) (gravity_ee a b c d e f m) := by
  unfold gravity_ee Signed.point.gravity_ee
  unfold utils.distance_cartesian Signed.utils.distance_cartesian
  simp only [pure_bind]
  repeat' (first
    | with_reducible exact ag_kernel_ee _ _ _ _ _ _ _
    | with_reducible refine Rubbish.bind (ag_kernel_ee _ _ _ _ _ _ _).tot fun _ => ?_
    | ag_step | rub_step)

theorem ag_gravity_nn (a b c d e f m : SFl A) :
    Ag (Signed.point.gravity_nn a b c d e f m) (gravity_nn a b c d e f m) := by
  unfold gravity_nn Signed.point.gravity_nn
  unfold utils.distance_cartesian Signed.utils.distance_cartesian
  simp only [pure_bind]
  repeat' (first
    | with_reducible exact ag_kernel_nn _ _ _ _ _ _ _
    | with_reducible refine Rubbish.bind (ag_kernel_nn _ _ _ _ _ _ _).tot fun _ => ?_
    | ag_step | rub_step)

theorem ag_gravity_uu (a b c d e f m : SFl A) :
    Ag (Signed.point.gravity_uu a b c d e f m) (gravity_uu a b c d e f m) := by
  unfold gravity_uu Signed.point.gravity_uu
  unfold utils.distance_cartesian Signed.utils.distance_cartesian
  simp only [pure_bind]
  repeat' (first
    | with_reducible exact ag_kernel_uu _ _ _ _ _ _ _
    | with_reducible refine Rubbish.bind (ag_kernel_uu _ _ _ _ _ _ _).tot fun _ => ?_
    | ag_step | rub_step)

theorem ag_gravity_en (a b c d e f m : SFl A) :
    Ag (Signed.point.gravity_en a b c d e f m) (gravity_en a b c d e f m) := by
  unfold gravity_en Signed.point.gravity_en
  unfold utils.distance_cartesian Signed.utils.distance_cartesian
  simp only [pure_bind]
  repeat' (first
    | with_reducible exact ag_kernel_en _ _ _ _ _ _ _
    | with_reducible refine Rubbish.bind (ag_kernel_en _ _ _ _ _ _ _).tot fun _ => ?_
    | ag_step | rub_step)

theorem ag_gravity_eu (a b c d e f m : SFl A) :
    Ag (Signed.point.gravity_eu a b c d e f m) (gravity_eu a b c d e f m) := by
  unfold gravity_eu Signed.point.gravity_eu
  unfold utils.distance_cartesian Signed.utils.distance_cartesian
  simp only [pure_bind]
  repeat' (first
    | with_reducible exact ag_kernel_eu _ _ _ _ _ _ _
    | with_reducible refine Rubbish.bind (ag_kernel_eu _ _ _ _ _ _ _).tot fun _ => ?_
    | ag_step | rub_step)

theorem ag_gravity_nu (a b c d e f m : SFl A) :
    Ag (Signed.point.gravity_nu a b c d e f m) (gravity_nu a b c d e f m) := by
  unfold gravity_nu Signed.point.gravity_nu
  unfold utils.distance_cartesian Signed.utils.distance_cartesian
  simp only [pure_bind]
  repeat' (first
    | with_reducible exact ag_kernel_nu _ _ _ _ _ _ _
    | with_reducible refine Rubbish.bind (ag_kernel_nu _ _ _ _ _ _ _).tot fun _ => ?_
    | ag_step | rub_step)

end point

namespace dipole

theorem ag_magnetic_e (a b c d e f mx my mz : SFl A) :
    Ag (Signed.dipole.magnetic_e a b c d e f mx my mz) (magnetic_e a b c d e f mx my mz) := by
  unfold magnetic_e Signed.dipole.magnetic_e
  (try dsimp only)
  repeat' (first
    | ag_step | rub_step)

theorem ag_magnetic_n (a b c d e f mx my mz : SFl A) :
    Ag (Signed.dipole.magnetic_n a b c d e f mx my mz) (magnetic_n a b c d e f mx my mz) := by
  unfold magnetic_n Signed.dipole.magnetic_n
  (try dsimp only)
  repeat' (first
    | ag_step | rub_step)

theorem ag_magnetic_u (a b c d e f mx my mz : SFl A) :
    Ag (Signed.dipole.magnetic_u a b c d e f mx my mz) (magnetic_u a b c d e f mx my mz) := by
  unfold magnetic_u Signed.dipole.magnetic_u
  (try dsimp only)
  repeat' (first
    | ag_step | rub_step)

theorem ag_magnetic_field (a b c d e f mx my mz : SFl A) :
    Ag (Signed.dipole.magnetic_field a b c d e f mx my mz) (magnetic_field a b c d e f mx my mz) := by
  unfold magnetic_field Signed.dipole.magnetic_field
  (try dsimp only)
  repeat' (first
    | ag_step | rub_step)

end dipole

namespace prism

theorem ag_atan2 (y x : SFl A) : Ag (Signed.prism._safe_atan2 y x) (_safe_atan2 y x) := by
  unfold _safe_atan2 Signed.prism._safe_atan2
  refine Ag.ite (fun _ => ?_) (fun h => Ag.bind_eq (div_eq_of_ne h) (Tot.div _ _) fun _ => Ag.ok _)
  repeat' (first | ag_step | rub_step)

theorem ag_log (x y z r : SFl A) :
    Ag (Signed.prism._safe_log x y z r) (_safe_log x y z r) := by
  unfold _safe_log Signed.prism._safe_log
  (try dsimp only)
  repeat' (first
    | ag_step | rub_step)

theorem ag_kernel_pot (x y z r : SFl A) :
    Ag (Signed.prism.kernel_pot x y z r) (kernel_pot x y z r) := by
  unfold kernel_pot Signed.prism.kernel_pot
  (try dsimp only)
  repeat' (first
    | with_reducible exact ag_log _ _ _ _
    | with_reducible refine Rubbish.bind (ag_log _ _ _ _).tot fun _ => ?_
    | with_reducible exact ag_atan2 _ _
    | with_reducible refine Rubbish.bind (ag_atan2 _ _).tot fun _ => ?_
    | ag_step | rub_step)

theorem ag_kernel_e (x y z r : SFl A) :
    Ag (Signed.prism.kernel_e x y z r) (kernel_e x y z r) := by
  unfold kernel_e Signed.prism.kernel_e
  (try dsimp only)
  repeat' (first
    | with_reducible exact ag_log _ _ _ _
    | with_reducible refine Rubbish.bind (ag_log _ _ _ _).tot fun _ => ?_
    | with_reducible exact ag_atan2 _ _
    | with_reducible refine Rubbish.bind (ag_atan2 _ _).tot fun _ => ?_
    | ag_step | rub_step)

theorem ag_kernel_n (x y z r : SFl A) :
    Ag (Signed.prism.kernel_n x y z r) (kernel_n x y z r) := by
  unfold kernel_n Signed.prism.kernel_n
  (try dsimp only)
  repeat' (first
    | with_reducible exact ag_log _ _ _ _
    | with_reducible refine Rubbish.bind (ag_log _ _ _ _).tot fun _ => ?_
    | with_reducible exact ag_atan2 _ _
    | with_reducible refine Rubbish.bind (ag_atan2 _ _).tot fun _ => ?_
    | ag_step | rub_step)

theorem ag_kernel_u (x y z r : SFl A) :
    Ag (Signed.prism.kernel_u x y z r) (kernel_u x y z r) := by
  unfold kernel_u Signed.prism.kernel_u
  (try dsimp only)
  repeat' (first
    | with_reducible exact ag_log _ _ _ _
    | with_reducible refine Rubbish.bind (ag_log _ _ _ _).tot fun _ => ?_
    | with_reducible exact ag_atan2 _ _
    | with_reducible refine Rubbish.bind (ag_atan2 _ _).tot fun _ => ?_
    | ag_step | rub_step)

theorem ag_kernel_ee (x y z r : SFl A) :
    Ag (Signed.prism.kernel_ee x y z r) (kernel_ee x y z r) := by
  unfold kernel_ee Signed.prism.kernel_ee
  (try dsimp only)
  repeat' (first
    | with_reducible exact ag_log _ _ _ _
    | with_reducible refine Rubbish.bind (ag_log _ _ _ _).tot fun _ => ?_
    | with_reducible exact ag_atan2 _ _
    | with_reducible refine Rubbish.bind (ag_atan2 _ _).tot fun _ => ?_
    | ag_step | rub_step)

theorem ag_kernel_nn (x y z r : SFl A) :
    Ag (Signed.prism.kernel_nn x y z r) (kernel_nn x y z r) := by
  unfold kernel_nn Signed.prism.kernel_nn
  (try dsimp only)
  repeat' (first
    | with_reducible exact ag_log _ _ _ _
    | with_reducible refine Rubbish.bind (ag_log _ _ _ _).tot fun _ => ?_
    | with_reducible exact ag_atan2 _ _
    | with_reducible refine Rubbish.bind (ag_atan2 _ _).tot fun _ => ?_
    | ag_step | rub_step)

theorem ag_kernel_uu (x y z r : SFl A) :
    Ag (Signed.prism.kernel_uu x y z r) (kernel_uu x y z r) := by
  unfold kernel_uu Signed.prism.kernel_uu
  (try dsimp only)
  repeat' (first
    | with_reducible exact ag_log _ _ _ _
    | with_reducible refine Rubbish.bind (ag_log _ _ _ _).tot fun _ => ?_
    | with_reducible exact ag_atan2 _ _
    | with_reducible refine Rubbish.bind (ag_atan2 _ _).tot fun _ => ?_
    | ag_step | rub_step)

theorem ag_kernel_en (x y z r : SFl A) :
    Ag (Signed.prism.kernel_en x y z r) (kernel_en x y z r) := by
  unfold kernel_en Signed.prism.kernel_en
  (try dsimp only)
  repeat' (first
    | with_reducible exact ag_log _ _ _ _
    | with_reducible refine Rubbish.bind (ag_log _ _ _ _).tot fun _ => ?_
    | with_reducible exact ag_atan2 _ _
    | with_reducible refine Rubbish.bind (ag_atan2 _ _).tot fun _ => ?_
    | ag_step | rub_step)

theorem ag_kernel_eu (x y z r : SFl A) :
    Ag (Signed.prism.kernel_eu x y z r) (kernel_eu x y z r) := by
  unfold kernel_eu Signed.prism.kernel_eu
  (try dsimp only)
  repeat' (first
    | with_reducible exact ag_log _ _ _ _
    | with_reducible refine Rubbish.bind (ag_log _ _ _ _).tot fun _ => ?_
    | with_reducible exact ag_atan2 _ _
    | with_reducible refine Rubbish.bind (ag_atan2 _ _).tot fun _ => ?_
    | ag_step | rub_step)

theorem ag_kernel_nu (x y z r : SFl A) :
    Ag (Signed.prism.kernel_nu x y z r) (kernel_nu x y z r) := by
  unfold kernel_nu Signed.prism.kernel_nu
  (try dsimp only)
  repeat' (first
    | with_reducible exact ag_log _ _ _ _
    | with_reducible refine Rubbish.bind (ag_log _ _ _ _).tot fun _ => ?_
    | with_reducible exact ag_atan2 _ _
    | with_reducible refine Rubbish.bind (ag_atan2 _ _).tot fun _ => ?_
    | ag_step | rub_step)

theorem ag_kernel_iii (x y z r : SFl A) :
    Ag (Signed.prism._kernel_iii x y z r) (_kernel_iii x y z r) := by
  unfold _kernel_iii Signed.prism._kernel_iii
  (try dsimp only)
  repeat' (first
    | ag_step | rub_step)

theorem ag_kernel_iij (x y z r : SFl A) :
    Ag (Signed.prism._kernel_iij x y z r) (_kernel_iij x y z r) := by
  unfold _kernel_iij Signed.prism._kernel_iij
  (try dsimp only)
  repeat' (first
    | ag_step | rub_step)

theorem ag_kernel_eee (x y z r : SFl A) :
    Ag (Signed.prism.kernel_eee x y z r) (kernel_eee x y z r) := by
  unfold kernel_eee Signed.prism.kernel_eee
  (try dsimp only)
  repeat' (first
    | with_reducible exact ag_kernel_iii _ _ _ _
    | with_reducible refine Rubbish.bind (ag_kernel_iii _ _ _ _).tot fun _ => ?_
    | with_reducible exact ag_kernel_iij _ _ _ _
    | with_reducible refine Rubbish.bind (ag_kernel_iij _ _ _ _).tot fun _ => ?_
    | ag_step | rub_step)

theorem ag_kernel_nnn (x y z r : SFl A) :
    Ag (Signed.prism.kernel_nnn x y z r) (kernel_nnn x y z r) := by
  unfold kernel_nnn Signed.prism.kernel_nnn
  (try dsimp only)
  repeat' (first
    | with_reducible exact ag_kernel_iii _ _ _ _
    | with_reducible refine Rubbish.bind (ag_kernel_iii _ _ _ _).tot fun _ => ?_
    | with_reducible exact ag_kernel_iij _ _ _ _
    | with_reducible refine Rubbish.bind (ag_kernel_iij _ _ _ _).tot fun _ => ?_
    | ag_step | rub_step)

theorem ag_kernel_uuu (x y z r : SFl A) :
    Ag (Signed.prism.kernel_uuu x y z r) (kernel_uuu x y z r) := by
  unfold kernel_uuu Signed.prism.kernel_uuu
  (try dsimp only)
  repeat' (first
    | with_reducible exact ag_kernel_iii _ _ _ _
    | with_reducible refine Rubbish.bind (ag_kernel_iii _ _ _ _).tot fun _ => ?_
    | with_reducible exact ag_kernel_iij _ _ _ _
    | with_reducible refine Rubbish.bind (ag_kernel_iij _ _ _ _).tot fun _ => ?_
    | ag_step | rub_step)

theorem ag_kernel_een (x y z r : SFl A) :
    Ag (Signed.prism.kernel_een x y z r) (kernel_een x y z r) := by
  unfold kernel_een Signed.prism.kernel_een
  (try dsimp only)
  repeat' (first
    | with_reducible exact ag_kernel_iii _ _ _ _
    | with_reducible refine Rubbish.bind (ag_kernel_iii _ _ _ _).tot fun _ => ?_
    | with_reducible exact ag_kernel_iij _ _ _ _
    | with_reducible refine Rubbish.bind (ag_kernel_iij _ _ _ _).tot fun _ => ?_
    | ag_step | rub_step)

theorem ag_kernel_eeu (x y z r : SFl A) :
    Ag (Signed.prism.kernel_eeu x y z r) (kernel_eeu x y z r) := by
  unfold kernel_eeu Signed.prism.kernel_eeu
  (try dsimp only)
  repeat' (first
    | with_reducible exact ag_kernel_iii _ _ _ _
    | with_reducible refine Rubbish.bind (ag_kernel_iii _ _ _ _).tot fun _ => ?_
    | with_reducible exact ag_kernel_iij _ _ _ _
    | with_reducible refine Rubbish.bind (ag_kernel_iij _ _ _ _).tot fun _ => ?_
    | ag_step | rub_step)

theorem ag_kernel_enn (x y z r : SFl A) :
    Ag (Signed.prism.kernel_enn x y z r) (kernel_enn x y z r) := by
  unfold kernel_enn Signed.prism.kernel_enn
  (try dsimp only)
  repeat' (first
    | with_reducible exact ag_kernel_iii _ _ _ _
    | with_reducible refine Rubbish.bind (ag_kernel_iii _ _ _ _).tot fun _ => ?_
    | with_reducible exact ag_kernel_iij _ _ _ _
    | with_reducible refine Rubbish.bind (ag_kernel_iij _ _ _ _).tot fun _ => ?_
    | ag_step | rub_step)

theorem ag_kernel_nnu (x y z r : SFl A) :
    Ag (Signed.prism.kernel_nnu x y z r) (kernel_nnu x y z r) := by
  unfold kernel_nnu Signed.prism.kernel_nnu
  (try dsimp only)
  repeat' (first
    | with_reducible exact ag_kernel_iii _ _ _ _
    | with_reducible refine Rubbish.bind (ag_kernel_iii _ _ _ _).tot fun _ => ?_
    | with_reducible exact ag_kernel_iij _ _ _ _
    | with_reducible refine Rubbish.bind (ag_kernel_iij _ _ _ _).tot fun _ => ?_
    | ag_step | rub_step)

theorem ag_kernel_euu (x y z r : SFl A) :
    Ag (Signed.prism.kernel_euu x y z r) (kernel_euu x y z r) := by
  unfold kernel_euu Signed.prism.kernel_euu
  (try dsimp only)
  repeat' (first
    | with_reducible exact ag_kernel_iii _ _ _ _
    | with_reducible refine Rubbish.bind (ag_kernel_iii _ _ _ _).tot fun _ => ?_
    | with_reducible exact ag_kernel_iij _ _ _ _
    | with_reducible refine Rubbish.bind (ag_kernel_iij _ _ _ _).tot fun _ => ?_
    | ag_step | rub_step)

theorem ag_kernel_nuu (x y z r : SFl A) :
    Ag (Signed.prism.kernel_nuu x y z r) (kernel_nuu x y z r) := by
  unfold kernel_nuu Signed.prism.kernel_nuu
  (try dsimp only)
  repeat' (first
    | with_reducible exact ag_kernel_iii _ _ _ _
    | with_reducible refine Rubbish.bind (ag_kernel_iii _ _ _ _).tot fun _ => ?_
    | with_reducible exact ag_kernel_iij _ _ _ _
    | with_reducible refine Rubbish.bind (ag_kernel_iij _ _ _ _).tot fun _ => ?_
    | ag_step | rub_step)

theorem ag_kernel_enu (x y z r : SFl A) :
    Ag (Signed.prism.kernel_enu x y z r) (kernel_enu x y z r) := by
  unfold kernel_enu Signed.prism.kernel_enu
  (try dsimp only)
  repeat' (first
    | ag_step | rub_step)

theorem ag_evaluate_kernel (e n u w E s N b t : SFl A) {K K' : Signed.prism.Kernel A} (hK : ∀ x y z r, Ag (K x y z r) (K' x y z r)) :
    Ag (Signed.prism._evaluate_kernel e n u w E s N b t K) (_evaluate_kernel e n u w E s N b t K') := by
  unfold _evaluate_kernel Signed.prism._evaluate_kernel
  dsimp only
  repeat' (first
    | with_reducible exact hK _ _ _ _
    | with_reducible refine Rubbish.bind (hK _ _ _ _).tot fun _ => ?_
    | ag_step | rub_step)

theorem ag_calculate_component (e n u w E s N b t mx my mz : SFl A) {K1 K2 K3 K1' K2' K3' : Signed.prism.Kernel A}
    (h1 : ∀ x y z r, Ag (K1 x y z r) (K1' x y z r)) (h2 : ∀ x y z r, Ag (K2 x y z r) (K2' x y z r))
    (h3 : ∀ x y z r, Ag (K3 x y z r) (K3' x y z r)) :
    Ag (Signed.prism._calculate_component e n u w E s N b t mx my mz K1 K2 K3)
      (_calculate_component e n u w E s N b t mx my mz K1' K2' K3') := by
  unfold _calculate_component Signed.prism._calculate_component
  dsimp only
  repeat' (first
    | with_reducible exact h1 _ _ _ _
    | with_reducible exact h2 _ _ _ _
    | with_reducible exact h3 _ _ _ _
    | with_reducible refine Rubbish.bind (h1 _ _ _ _).tot fun _ => ?_
    | with_reducible refine Rubbish.bind (h2 _ _ _ _).tot fun _ => ?_
    | with_reducible refine Rubbish.bind (h3 _ _ _ _).tot fun _ => ?_
    | ag_step | rub_step)

theorem ag_gravity_pot (e n u w E s N b t ρ : SFl A) :
    Ag (Signed.prism.gravity_pot e n u w E s N b t ρ) (gravity_pot e n u w E s N b t ρ) := by
  unfold gravity_pot Signed.prism.gravity_pot
  (try dsimp only)
  repeat' (first
    | with_reducible exact ag_evaluate_kernel _ _ _ _ _ _ _ _ _ ag_kernel_pot
    | with_reducible refine Rubbish.bind (ag_evaluate_kernel _ _ _ _ _ _ _ _ _ ag_kernel_pot).tot fun _ => ?_
    | ag_step | rub_step)

theorem ag_gravity_e (e n u w E s N b t ρ : SFl A) :
    Ag (Signed.prism.gravity_e e n u w E s N b t ρ) (gravity_e e n u w E s N b t ρ) := by
  unfold gravity_e Signed.prism.gravity_e
  (try dsimp only)
  repeat' (first
    | with_reducible exact ag_evaluate_kernel _ _ _ _ _ _ _ _ _ ag_kernel_e
    | with_reducible refine Rubbish.bind (ag_evaluate_kernel _ _ _ _ _ _ _ _ _ ag_kernel_e).tot fun _ => ?_
    | ag_step | rub_step)

theorem ag_gravity_n (e n u w E s N b t ρ : SFl A) :
    Ag (Signed.prism.gravity_n e n u w E s N b t ρ) (gravity_n e n u w E s N b t ρ) := by
  unfold gravity_n Signed.prism.gravity_n
  (try dsimp only)
  repeat' (first
    | with_reducible exact ag_evaluate_kernel _ _ _ _ _ _ _ _ _ ag_kernel_n
    | with_reducible refine Rubbish.bind (ag_evaluate_kernel _ _ _ _ _ _ _ _ _ ag_kernel_n).tot fun _ => ?_
    | ag_step | rub_step)

theorem ag_gravity_u (e n u w E s N b t ρ : SFl A) :
    Ag (Signed.prism.gravity_u e n u w E s N b t ρ) (gravity_u e n u w E s N b t ρ) := by
  unfold gravity_u Signed.prism.gravity_u
  (try dsimp only)
  repeat' (first
    | with_reducible exact ag_evaluate_kernel _ _ _ _ _ _ _ _ _ ag_kernel_u
    | with_reducible refine Rubbish.bind (ag_evaluate_kernel _ _ _ _ _ _ _ _ _ ag_kernel_u).tot fun _ => ?_
    | ag_step | rub_step)

theorem ag_gravity_ee (e n u w E s N b t ρ : SFl A) :
    Ag (Signed.prism.gravity_ee e n u w E s N b t ρ) (gravity_ee e n u w E s N b t ρ) := by
  unfold gravity_ee Signed.prism.gravity_ee
  (try dsimp only)
  repeat' (first
    | with_reducible exact ag_evaluate_kernel _ _ _ _ _ _ _ _ _ ag_kernel_ee
    | with_reducible refine Rubbish.bind (ag_evaluate_kernel _ _ _ _ _ _ _ _ _ ag_kernel_ee).tot fun _ => ?_
    | ag_step | rub_step)

theorem ag_gravity_nn (e n u w E s N b t ρ : SFl A) :
    Ag (Signed.prism.gravity_nn e n u w E s N b t ρ) (gravity_nn e n u w E s N b t ρ) := by
  unfold gravity_nn Signed.prism.gravity_nn
  (try dsimp only)
  repeat' (first
    | with_reducible exact ag_evaluate_kernel _ _ _ _ _ _ _ _ _ ag_kernel_nn
    | with_reducible refine Rubbish.bind (ag_evaluate_kernel _ _ _ _ _ _ _ _ _ ag_kernel_nn).tot fun _ => ?_
    | ag_step | rub_step)

theorem ag_gravity_uu (e n u w E s N b t ρ : SFl A) :
    Ag (Signed.prism.gravity_uu e n u w E s N b t ρ) (gravity_uu e n u w E s N b t ρ) := by
  unfold gravity_uu Signed.prism.gravity_uu
  (try dsimp only)
  repeat' (first
    | with_reducible exact ag_evaluate_kernel _ _ _ _ _ _ _ _ _ ag_kernel_uu
    | with_reducible refine Rubbish.bind (ag_evaluate_kernel _ _ _ _ _ _ _ _ _ ag_kernel_uu).tot fun _ => ?_
    | ag_step | rub_step)

theorem ag_gravity_en (e n u w E s N b t ρ : SFl A) :
    Ag (Signed.prism.gravity_en e n u w E s N b t ρ) (gravity_en e n u w E s N b t ρ) := by
  unfold gravity_en Signed.prism.gravity_en
  (try dsimp only)
  repeat' (first
    | with_reducible exact ag_evaluate_kernel _ _ _ _ _ _ _ _ _ ag_kernel_en
    | with_reducible refine Rubbish.bind (ag_evaluate_kernel _ _ _ _ _ _ _ _ _ ag_kernel_en).tot fun _ => ?_
    | ag_step | rub_step)

theorem ag_gravity_eu (e n u w E s N b t ρ : SFl A) :
    Ag (Signed.prism.gravity_eu e n u w E s N b t ρ) (gravity_eu e n u w E s N b t ρ) := by
  unfold gravity_eu Signed.prism.gravity_eu
  (try dsimp only)
  repeat' (first
    | with_reducible exact ag_evaluate_kernel _ _ _ _ _ _ _ _ _ ag_kernel_eu
    | with_reducible refine Rubbish.bind (ag_evaluate_kernel _ _ _ _ _ _ _ _ _ ag_kernel_eu).tot fun _ => ?_
    | ag_step | rub_step)

theorem ag_gravity_nu (e n u w E s N b t ρ : SFl A) :
    Ag (Signed.prism.gravity_nu e n u w E s N b t ρ) (gravity_nu e n u w E s N b t ρ) := by
  unfold gravity_nu Signed.prism.gravity_nu
  (try dsimp only)
  repeat' (first
    | with_reducible exact ag_evaluate_kernel _ _ _ _ _ _ _ _ _ ag_kernel_nu
    | with_reducible refine Rubbish.bind (ag_evaluate_kernel _ _ _ _ _ _ _ _ _ ag_kernel_nu).tot fun _ => ?_
    | ag_step | rub_step)

theorem ag_magnetic_e (e n u w E s N b t mx my mz : SFl A) :
    Ag (Signed.prism.magnetic_e e n u w E s N b t mx my mz) (magnetic_e e n u w E s N b t mx my mz) := by
  unfold magnetic_e Signed.prism.magnetic_e
  (try dsimp only)
  repeat' (first
    | with_reducible exact ag_calculate_component _ _ _ _ _ _ _ _ _ _ _ _ ag_kernel_ee ag_kernel_en ag_kernel_eu
    | with_reducible refine Rubbish.bind (ag_calculate_component _ _ _ _ _ _ _ _ _ _ _ _ ag_kernel_ee ag_kernel_en ag_kernel_eu).tot fun _ => ?_
    | ag_step | rub_step)

theorem ag_magnetic_n (e n u w E s N b t mx my mz : SFl A) :
    Ag (Signed.prism.magnetic_n e n u w E s N b t mx my mz) (magnetic_n e n u w E s N b t mx my mz) := by
  unfold magnetic_n Signed.prism.magnetic_n
  (try dsimp only)
  repeat' (first
    | with_reducible exact ag_calculate_component _ _ _ _ _ _ _ _ _ _ _ _ ag_kernel_en ag_kernel_nn ag_kernel_nu
    | with_reducible refine Rubbish.bind (ag_calculate_component _ _ _ _ _ _ _ _ _ _ _ _ ag_kernel_en ag_kernel_nn ag_kernel_nu).tot fun _ => ?_
    | ag_step | rub_step)

theorem ag_magnetic_u (e n u w E s N b t mx my mz : SFl A) :
    Ag (Signed.prism.magnetic_u e n u w E s N b t mx my mz) (magnetic_u e n u w E s N b t mx my mz) := by
  unfold magnetic_u Signed.prism.magnetic_u
  (try dsimp only)
  repeat' (first
    | with_reducible exact ag_calculate_component _ _ _ _ _ _ _ _ _ _ _ _ ag_kernel_eu ag_kernel_nu ag_kernel_uu
    | with_reducible refine Rubbish.bind (ag_calculate_component _ _ _ _ _ _ _ _ _ _ _ _ ag_kernel_eu ag_kernel_nu ag_kernel_uu).tot fun _ => ?_
    | ag_step | rub_step)

theorem ag_magnetic_ee (e n u w E s N b t mx my mz : SFl A) :
    Ag (Signed.prism.magnetic_ee e n u w E s N b t mx my mz) (magnetic_ee e n u w E s N b t mx my mz) := by
  unfold magnetic_ee Signed.prism.magnetic_ee
  (try dsimp only)
  repeat' (first
    | with_reducible exact ag_calculate_component _ _ _ _ _ _ _ _ _ _ _ _ ag_kernel_eee ag_kernel_een ag_kernel_eeu
    | with_reducible refine Rubbish.bind (ag_calculate_component _ _ _ _ _ _ _ _ _ _ _ _ ag_kernel_eee ag_kernel_een ag_kernel_eeu).tot fun _ => ?_
    | ag_step | rub_step)

theorem ag_magnetic_nn (e n u w E s N b t mx my mz : SFl A) :
    Ag (Signed.prism.magnetic_nn e n u w E s N b t mx my mz) (magnetic_nn e n u w E s N b t mx my mz) := by
  unfold magnetic_nn Signed.prism.magnetic_nn
  (try dsimp only)
  repeat' (first
    | with_reducible exact ag_calculate_component _ _ _ _ _ _ _ _ _ _ _ _ ag_kernel_enn ag_kernel_nnn ag_kernel_nnu
    | with_reducible refine Rubbish.bind (ag_calculate_component _ _ _ _ _ _ _ _ _ _ _ _ ag_kernel_enn ag_kernel_nnn ag_kernel_nnu).tot fun _ => ?_
    | ag_step | rub_step)

theorem ag_magnetic_uu (e n u w E s N b t mx my mz : SFl A) :
    Ag (Signed.prism.magnetic_uu e n u w E s N b t mx my mz) (magnetic_uu e n u w E s N b t mx my mz) := by
  unfold magnetic_uu Signed.prism.magnetic_uu
  (try dsimp only)
  repeat' (first
    | with_reducible exact ag_calculate_component _ _ _ _ _ _ _ _ _ _ _ _ ag_kernel_euu ag_kernel_nuu ag_kernel_uuu
    | with_reducible refine Rubbish.bind (ag_calculate_component _ _ _ _ _ _ _ _ _ _ _ _ ag_kernel_euu ag_kernel_nuu ag_kernel_uuu).tot fun _ => ?_
    | ag_step | rub_step)

theorem ag_magnetic_en (e n u w E s N b t mx my mz : SFl A) :
    Ag (Signed.prism.magnetic_en e n u w E s N b t mx my mz) (magnetic_en e n u w E s N b t mx my mz) := by
  unfold magnetic_en Signed.prism.magnetic_en
  (try dsimp only)
  repeat' (first
    | with_reducible exact ag_calculate_component _ _ _ _ _ _ _ _ _ _ _ _ ag_kernel_een ag_kernel_enn ag_kernel_enu
    | with_reducible refine Rubbish.bind (ag_calculate_component _ _ _ _ _ _ _ _ _ _ _ _ ag_kernel_een ag_kernel_enn ag_kernel_enu).tot fun _ => ?_
    | ag_step | rub_step)

theorem ag_magnetic_eu (e n u w E s N b t mx my mz : SFl A) :
    Ag (Signed.prism.magnetic_eu e n u w E s N b t mx my mz) (magnetic_eu e n u w E s N b t mx my mz) := by
  unfold magnetic_eu Signed.prism.magnetic_eu
  (try dsimp only)
  repeat' (first
    | with_reducible exact ag_calculate_component _ _ _ _ _ _ _ _ _ _ _ _ ag_kernel_eeu ag_kernel_enu ag_kernel_euu
    | with_reducible refine Rubbish.bind (ag_calculate_component _ _ _ _ _ _ _ _ _ _ _ _ ag_kernel_eeu ag_kernel_enu ag_kernel_euu).tot fun _ => ?_
    | ag_step | rub_step)

theorem ag_magnetic_nu (e n u w E s N b t mx my mz : SFl A) :
    Ag (Signed.prism.magnetic_nu e n u w E s N b t mx my mz) (magnetic_nu e n u w E s N b t mx my mz) := by
  unfold magnetic_nu Signed.prism.magnetic_nu
  (try dsimp only)
  repeat' (first
    | with_reducible exact ag_calculate_component _ _ _ _ _ _ _ _ _ _ _ _ ag_kernel_enu ag_kernel_nnu ag_kernel_nuu
    | with_reducible refine Rubbish.bind (ag_calculate_component _ _ _ _ _ _ _ _ _ _ _ _ ag_kernel_enu ag_kernel_nnu ag_kernel_nuu).tot fun _ => ?_
    | ag_step | rub_step)

set_option maxHeartbeats 4000000 in
theorem ag_magnetic_field (e n u w E s N b t mx my mz : SFl A) :
    Ag (Signed.prism.magnetic_field e n u w E s N b t mx my mz) (magnetic_field e n u w E s N b t mx my mz) := by
  unfold magnetic_field Signed.prism.magnetic_field
  (try dsimp only)
  repeat' (first
    | with_reducible exact ag_kernel_ee _ _ _ _
    | with_reducible refine Rubbish.bind (ag_kernel_ee _ _ _ _).tot fun _ => ?_
    | with_reducible exact ag_kernel_nn _ _ _ _
    | with_reducible refine Rubbish.bind (ag_kernel_nn _ _ _ _).tot fun _ => ?_
    | with_reducible exact ag_kernel_uu _ _ _ _
    | with_reducible refine Rubbish.bind (ag_kernel_uu _ _ _ _).tot fun _ => ?_
    | with_reducible exact ag_kernel_en _ _ _ _
    | with_reducible refine Rubbish.bind (ag_kernel_en _ _ _ _).tot fun _ => ?_
    | with_reducible exact ag_kernel_eu _ _ _ _
    | with_reducible refine Rubbish.bind (ag_kernel_eu _ _ _ _).tot fun _ => ?_
    | with_reducible exact ag_kernel_nu _ _ _ _
    | with_reducible refine Rubbish.bind (ag_kernel_nu _ _ _ _).tot fun _ => ?_
    | ag_step | rub_step)

end prism

end Interp

end Choclo
