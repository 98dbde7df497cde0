import Verif.Spec.NpInt
import Verif.Lemmas.Interp
import Verif.Props.Bits3

/-! # Compiled and interpreted calls agree for integers too: proofs

The lemmas about the single functions are of one form; they are those of `Lemmas/Interp.lean` for the typed model. -/

namespace Choclo

variable {A : Arith}

namespace Fl

/-- not a finite number -/
def Bad (a : Fl A) : Prop := ∀ x : ℝ, a ≠ Fl.fin x

theorem bad_nan : (nan : Fl A).Bad := fun _ h => by cases h

theorem bad_inf (s : Bool) : (inf s : Fl A).Bad := fun _ h => by cases h

theorem bad_cases {a : Fl A} (h : a.Bad) : a = nan ∨ ∃ s, a = inf s := by
  cases a with
  | nan => exact .inl rfl
  | inf s => exact .inr ⟨s, rfl⟩
  | fin x => exact absurd rfl (h x)

theorem bad_neg {a : Fl A} (h : a.Bad) : (-a).Bad := by
  rcases bad_cases h with rfl | ⟨s, rfl⟩
  · exact bad_nan
  · exact bad_inf _

theorem bad_add_left {a b : Fl A} (h : a.Bad) : (a + b).Bad := fun x hx => by
  obtain ⟨u, v, h1, -⟩ := Fl.add_eq_fin hx
  exact h u h1

theorem bad_add_right {a b : Fl A} (h : b.Bad) : (a + b).Bad := fun x hx => by
  obtain ⟨u, v, -, h1, -⟩ := Fl.add_eq_fin hx
  exact h v h1

theorem bad_sub_left {a b : Fl A} (h : a.Bad) : (a - b).Bad := bad_add_left (b := -b) h
theorem bad_sub_right {a b : Fl A} (h : b.Bad) : (a - b).Bad := bad_add_right (b := -b) (bad_neg h)

theorem bad_mul_left {a b : Fl A} (h : a.Bad) : (a * b).Bad := fun x hx => by
  obtain ⟨u, v, h1, -⟩ := Fl.mul_eq_fin hx
  exact h u h1

theorem bad_mul_right {a b : Fl A} (h : b.Bad) : (a * b).Bad := fun x hx => by
  obtain ⟨u, v, -, h1, -⟩ := Fl.mul_eq_fin hx
  exact h v h1

theorem bad_log {a : Fl A} (h : a.Bad) : (log a).Bad := by
  rcases bad_cases h with rfl | ⟨s, rfl⟩
  · exact bad_nan
  · show (if s then nan else inf false : Fl A).Bad
    split
    · exact bad_nan
    · exact bad_inf _

end Fl

namespace TFl

/-- not a finite number -/
def Bad (a : TFl A) : Prop := ¬a.IsNumber

theorem bad_iff {a : TFl A} : a.Bad ↔ ∃ x : Fl A, a = .flt x ∧ x.Bad := by
  unfold Bad IsNumber
  constructor
  · intro h
    cases a with
    | int n => exact absurd (.inl ⟨n, rfl⟩) h
    | flt x => exact ⟨x, rfl, fun r hr => h (.inr ⟨r, by rw [hr]⟩)⟩
  · rintro ⟨x, rfl, hx⟩ (⟨n, h⟩ | ⟨r, h⟩)
    · cases h
    · exact hx r (TFl.flt.inj h)

theorem bad_flt {x : Fl A} (h : x.Bad) : (TFl.flt x).Bad := bad_iff.2 ⟨x, rfl, h⟩

theorem bad_nan : (nan : TFl A).Bad := bad_flt Fl.bad_nan

theorem bad_neg {a : TFl A} (h : a.Bad) : (-a).Bad := by
  obtain ⟨x, rfl, hx⟩ := bad_iff.1 h
  exact bad_flt (Fl.bad_neg hx)

theorem bad_add_left {a b : TFl A} (h : a.Bad) : (a + b).Bad := by
  obtain ⟨x, rfl, hx⟩ := bad_iff.1 h
  cases b <;> exact bad_flt (Fl.bad_add_left hx)

theorem bad_add_right {a b : TFl A} (h : b.Bad) : (a + b).Bad := by
  obtain ⟨x, rfl, hx⟩ := bad_iff.1 h
  cases a <;> exact bad_flt (Fl.bad_add_right hx)

theorem bad_sub_left {a b : TFl A} (h : a.Bad) : (a - b).Bad := by
  obtain ⟨x, rfl, hx⟩ := bad_iff.1 h
  cases b <;> exact bad_flt (Fl.bad_sub_left hx)

theorem bad_sub_right {a b : TFl A} (h : b.Bad) : (a - b).Bad := by
  obtain ⟨x, rfl, hx⟩ := bad_iff.1 h
  cases a <;> exact bad_flt (Fl.bad_sub_right hx)

theorem bad_mul_left {a b : TFl A} (h : a.Bad) : (a * b).Bad := by
  obtain ⟨x, rfl, hx⟩ := bad_iff.1 h
  cases b <;> exact bad_flt (Fl.bad_mul_left hx)

theorem bad_mul_right {a b : TFl A} (h : b.Bad) : (a * b).Bad := by
  obtain ⟨x, rfl, hx⟩ := bad_iff.1 h
  cases a <;> exact bad_flt (Fl.bad_mul_right hx)

theorem bad_log {a : TFl A} (h : a.Bad) : (log a).Bad := by
  obtain ⟨x, rfl, hx⟩ := bad_iff.1 h
  exact bad_flt (Fl.bad_log hx)

end TFl

instance : Junk (TFl A) := ⟨TFl.Bad⟩
instance : Junk (TFl A × TFl A × TFl A) := ⟨fun r => r.1.Bad ∨ r.2.1.Bad ∨ r.2.2.Bad⟩

namespace NpInt

theorem Tot.div (a b : TFl A) : Tot (a /ₙ b) := ⟨_, rfl⟩

theorem fl_div (a b : Fl A) :
    (∃ v, Fl.div a b = .ok v ∧ Fl.ndiv a b = v) ∨ (b = Fl.fin 0 ∧ ∃ e, Fl.div a b = .error e ∧ (Fl.ndiv a b).Bad) := by
  rcases b with _ | t | y
  · rcases a with _ | s | x <;> exact .inl ⟨_, rfl, rfl⟩
  · rcases a with _ | s | x <;> exact .inl ⟨_, rfl, rfl⟩
  by_cases hy : y = 0
  · subst hy
    refine .inr ⟨rfl, ?_⟩
    rcases a with _ | s | x
    · exact ⟨_, if_pos rfl, Fl.bad_nan⟩
    · refine ⟨_, if_pos rfl, ?_⟩
      show (if (0 : ℝ) ≤ 0 then Fl.inf s else Fl.inf (!s) : Fl A).Bad
      split <;> exact Fl.bad_inf _
    · refine ⟨_, if_pos rfl, ?_⟩
      show (if (0 : ℝ) = 0 then (if x = 0 then Fl.nan else Fl.inf (decide (x < 0))) else Fl.ofRaw (A.rnd (x / 0)) : Fl A).Bad
      rw [if_pos rfl]
      split
      · exact Fl.bad_nan
      · exact Fl.bad_inf _
  · refine .inl ?_
    rcases a with _ | s | x
    · exact ⟨_, if_neg hy, rfl⟩
    · show ∃ v, (if y = 0 then Except.error .zeroDivision else if 0 < y then .ok (Fl.inf s) else .ok (Fl.inf (!s)) : Py (Fl A)) = .ok v
        ∧ (if 0 ≤ y then Fl.inf s else Fl.inf (!s) : Fl A) = v
      rw [if_neg hy]
      rcases lt_or_gt_of_ne hy with h | h
      · exact ⟨_, if_neg (not_lt.2 h.le), if_neg (not_le.2 h)⟩
      · exact ⟨_, if_pos h, if_pos h.le⟩
    · exact ⟨_, if_neg hy, if_neg hy⟩

theorem Ag.div (a b : TFl A) : Ag (a /ᵢ b) (a /ₙ b) := by
  unfold TFl.div TFl.ndiv
  rcases fl_div a.toFl b.toFl with ⟨v, h1, h2⟩ | ⟨-, e, h1, h2⟩
  · rw [h1, h2]
    rfl
  · rw [h1]
    exact ⟨_, rfl, TFl.bad_flt h2⟩

/-- zero, and no other integer, becomes zero as a float64 -/
class IntsNonzero (A : Arith) : Prop where
  out : ∀ n : ℤ, A.rnd n = .fin 0 ↔ n = 0

set_option linter.unusedSectionVars false

variable [hA : IntsNonzero A]

theorem toFl_int_eq {n : ℤ} : (TFl.int n : TFl A).toFl = Fl.fin 0 ↔ n = 0 := by
  rw [← hA.out n]
  show Fl.ofRaw (A.rnd n) = _ ↔ _
  cases A.rnd n with
  | nan => exact ⟨fun h => (by cases h), fun h => (by cases h)⟩
  | inf s => exact ⟨fun h => (by cases h), fun h => (by cases h)⟩
  | fin v => exact Iff.rfl

/-- a division by a number that is not zero -/
theorem div_eq_of_ne {a b : TFl A} (h : ¬TFl.eq b 0 = true) : (a /ᵢ b) = (a /ₙ b) := by
  unfold TFl.div TFl.ndiv
  rcases fl_div a.toFl b.toFl with ⟨v, h1, h2⟩ | ⟨hb, -⟩
  · rw [h1, h2]
    rfl
  exfalso
  apply h
  cases b with
  | int n => exact decide_eq_true (toFl_int_eq.1 hb)
  | flt x =>
    have hx : x = Fl.fin 0 := hb
    subst hx
    show Fl.eq (Fl.fin 0) (TFl.int 0 : TFl A).toFl = true
    rw [toFl_int_eq.2 rfl]
    exact decide_eq_true rfl

theorem Ag.bind_eq {x y : Py (TFl A)} {f g : TFl A → Py (TFl A)} (h : x = y) (hy : Tot y) (hf : ∀ a, Ag (f a) (g a)) :
    Ag (x >>= f) (y >>= g) := by
  subst h
  obtain ⟨w, rfl⟩ := hy
  exact hf w

/-- an expression with an operand that is not finite is not finite -/
syntax "nbad_expr" : tactic
macro_rules
  | `(tactic| nbad_expr) => `(tactic| first
    | assumption
    | exact TFl.bad_nan
    | (refine TFl.bad_neg ?_; nbad_expr; done)
    | (refine TFl.bad_log ?_; nbad_expr; done)
    | (refine TFl.bad_add_left ?_; nbad_expr; done)
    | (refine TFl.bad_add_right ?_; nbad_expr; done)
    | (refine TFl.bad_sub_left ?_; nbad_expr; done)
    | (refine TFl.bad_sub_right ?_; nbad_expr; done)
    | (refine TFl.bad_mul_left ?_; nbad_expr; done)
    | (refine TFl.bad_mul_right ?_; nbad_expr; done))

/-- goal: the value is not finite -/
macro "nbad_goal" : tactic => `(tactic| first
  | (with_reducible_and_instances show TFl.Bad _; nbad_expr; done)
  | (show TFl.Bad _; nbad_expr; done)
  | (refine Or.inl ?_; nbad_expr; done)
  | (refine Or.inr (Or.inl ?_); nbad_expr; done)
  | (refine Or.inr (Or.inr ?_); nbad_expr; done))

set_option linter.unusedTactic false
set_option linter.unreachableTactic false

section
variable {β γ : Type} [Junk β]

theorem Ag.bind1 {x y : Py (TFl A)} {f g : TFl A → Py β} (h : Ag x y) (hf : ∀ a, Ag (f a) (g a))
    (hb : ∀ w : TFl A, w.Bad → Rubbish (g w)) : Ag (x >>= f) (y >>= g) := Ag.bind h hf hb

theorem Ag.bind3 {x y : Py (TFl A × TFl A × TFl A)} {f g : TFl A × TFl A × TFl A → Py β} (h : Ag x y)
    (hf : ∀ a, Ag (f a) (g a)) (h1 : ∀ w : TFl A × TFl A × TFl A, w.1.Bad → Rubbish (g w))
    (h2 : ∀ w : TFl A × TFl A × TFl A, w.2.1.Bad → Rubbish (g w))
    (h3 : ∀ w : TFl A × TFl A × TFl A, w.2.2.Bad → Rubbish (g w)) : Ag (x >>= f) (y >>= g) :=
  Ag.bind h hf fun w hw => hw.elim (h1 w) fun hw => hw.elim (h2 w) (h3 w)

theorem Rubbish.bind1 {y : Py (TFl A)} {g : TFl A → Py β} (h : Rubbish y) (hg : ∀ v : TFl A, v.Bad → Rubbish (g v)) :
    Rubbish (y >>= g) := Rubbish.bind' h hg

theorem Rubbish.bind3 {y : Py (TFl A × TFl A × TFl A)} {g : TFl A × TFl A × TFl A → Py β} (h : Rubbish y)
    (h1 : ∀ w : TFl A × TFl A × TFl A, w.1.Bad → Rubbish (g w))
    (h2 : ∀ w : TFl A × TFl A × TFl A, w.2.1.Bad → Rubbish (g w))
    (h3 : ∀ w : TFl A × TFl A × TFl A, w.2.2.Bad → Rubbish (g w)) :
    Rubbish (y >>= g) := Rubbish.bind' h fun w hw => hw.elim (h1 w) fun hw => hw.elim (h2 w) (h3 w)

theorem Ag.loop1 {f g : γ → TFl A → Py (ForInStep (TFl A))} (h : ∀ i a, Ag (f i a) (g i a))
    (hb : ∀ i (a : TFl A), a.Bad → Rubbish (g i a)) (l : List γ) (a : TFl A) : Ag (forIn l a f) (forIn l a g) :=
  Ag.loop h hb l a

theorem Rubbish.loop1 {g : γ → TFl A → Py (ForInStep (TFl A))} (hb : ∀ i (a : TFl A), a.Bad → Rubbish (g i a))
    (l : List γ) {a : TFl A} (ha : a.Bad) : Rubbish (forIn l a g) := Rubbish.loop hb l a ha

theorem Ag.loop3 {f g : γ → TFl A × TFl A × TFl A → Py (ForInStep (TFl A × TFl A × TFl A))}
    (h : ∀ i a, Ag (f i a) (g i a))
    (h1 : ∀ i (a : TFl A × TFl A × TFl A), a.1.Bad → Rubbish (g i a))
    (h2 : ∀ i (a : TFl A × TFl A × TFl A), a.2.1.Bad → Rubbish (g i a))
    (h3 : ∀ i (a : TFl A × TFl A × TFl A), a.2.2.Bad → Rubbish (g i a)) (l : List γ) (a : TFl A × TFl A × TFl A) :
    Ag (forIn l a f) (forIn l a g) :=
  Ag.loop h (fun i a ha => ha.elim (h1 i a) fun ha => ha.elim (h2 i a) (h3 i a)) l a

theorem Rubbish.loop3 {g : γ → TFl A × TFl A × TFl A → Py (ForInStep (TFl A × TFl A × TFl A))}
    (h1 : ∀ i (a : TFl A × TFl A × TFl A), a.1.Bad → Rubbish (g i a))
    (h2 : ∀ i (a : TFl A × TFl A × TFl A), a.2.1.Bad → Rubbish (g i a))
    (h3 : ∀ i (a : TFl A × TFl A × TFl A), a.2.2.Bad → Rubbish (g i a)) (l : List γ) {a : TFl A × TFl A × TFl A}
    (ha : a.1.Bad ∨ a.2.1.Bad ∨ a.2.2.Bad) : Rubbish (forIn l a g) :=
  Rubbish.loop (α := TFl A × TFl A × TFl A) (fun i a (ha : a.1.Bad ∨ a.2.1.Bad ∨ a.2.2.Bad) => ha.elim (h1 i a) fun ha => ha.elim (h2 i a) (h3 i a)) l a ha

end

macro "nrub_step" : tactic => `(tactic| first
  | (with_reducible refine Rubbish.ite ?_ ?_)
  | (refine Rubbish.ok ?_; nbad_goal; done)
  | (with_reducible refine Rubbish.bind (Tot.div _ _) fun _ => ?_)
  | (with_reducible refine Rubbish.bind1 (Rubbish.loop1 (fun _ _ _ => ?_) _ (by nbad_expr)) fun _ _ => ?_)
  | (with_reducible refine Rubbish.bind3 (Rubbish.loop3 (fun _ _ _ => ?_) (fun _ _ _ => ?_) (fun _ _ _ => ?_) _ (by nbad_goal)) (fun _ _ => ?_) (fun _ _ => ?_) (fun _ _ => ?_)))

theorem ne_zero_four : ¬TFl.eq (4 : TFl A) 0 = true := by
  show ¬(decide ((4 : ℤ) = 0) = true)
  decide

/-- dividing by the literal 4 does not raise -/
theorem Ag.bind4 {β : Type} [Junk β] {x : TFl A} {f g : TFl A → Py β} (hf : ∀ a, Ag (f a) (g a)) :
    Ag ((x /ᵢ 4) >>= f) ((x /ₙ 4) >>= g) := by
  rw [div_eq_of_ne ne_zero_four]
  exact hf _

macro "nag_step" : tactic => `(tactic| first
  | (with_reducible refine Ag.bind4 (fun _ => ?_))
  | (with_reducible refine Ag.ite (fun _ => ?_) (fun _ => ?_))
  | with_reducible exact Ag.div _ _
  | with_reducible exact Ag.ok _
  | (with_reducible refine Ag.loop1 (fun _ _ => ?_) (fun _ _ _ => ?_) _ _)
  | (with_reducible refine Ag.loop3 (fun _ _ => ?_) (fun _ _ _ => ?_) (fun _ _ _ => ?_) (fun _ _ _ => ?_) _ _)
  | (with_reducible refine Ag.bind1 ?_ (fun _ => ?_) (fun _ _ => ?_))
  | (with_reducible refine Ag.bind3 ?_ (fun _ => ?_) (fun _ _ => ?_) (fun _ _ => ?_) (fun _ _ => ?_)))


namespace utils

theorem ag_distance_cartesian (a b c d e f : TFl A) :
    Ag (Typed.utils.distance_cartesian a b c d e f) (distance_cartesian a b c d e f) := rfl

theorem ag_distance_spherical_core (a b c d e f g h : TFl A) :
    Ag (Typed.utils.distance_spherical_core a b c d e f g h) (distance_spherical_core a b c d e f g h) := rfl

theorem ag_distance_spherical (a b c d e f : TFl A) :
    Ag (Typed.utils.distance_spherical a b c d e f) (distance_spherical a b c d e f) := rfl

end utils

namespace point

theorem ag_kernel_pot (a b c d e f r : TFl A) :
    Ag (Typed.point.kernel_pot a b c d e f r) (kernel_pot a b c d e f r) := by
  unfold kernel_pot Typed.point.kernel_pot
  (try dsimp only)
  repeat' (first
    | nag_step | nrub_step)

theorem ag_kernel_e (a b c d e f r : TFl A) :
    Ag (Typed.point.kernel_e a b c d e f r) (kernel_e a b c d e f r) := by
  unfold kernel_e Typed.point.kernel_e
  (try dsimp only)
  repeat' (first
    | nag_step | nrub_step)

theorem ag_kernel_n (a b c d e f r : TFl A) :
    Ag (Typed.point.kernel_n a b c d e f r) (kernel_n a b c d e f r) := by
  unfold kernel_n Typed.point.kernel_n
  (try dsimp only)
  repeat' (first
    | nag_step | nrub_step)

theorem ag_kernel_u (a b c d e f r : TFl A) :
    Ag (Typed.point.kernel_u a b c d e f r) (kernel_u a b c d e f r) := by
  unfold kernel_u Typed.point.kernel_u
  (try dsimp only)
  repeat' (first
    | nag_step | nrub_step)

theorem ag_kernel_ee (a b c d e f r : TFl A) :
    Ag (Typed.point.kernel_ee a b c d e f r) (kernel_ee a b c d e f r) := by
  unfold kernel_ee Typed.point.kernel_ee
  (try dsimp only)
  repeat' (first
    | nag_step | nrub_step)

theorem ag_kernel_nn (a b c d e f r : TFl A) :
    Ag (Typed.point.kernel_nn a b c d e f r) (kernel_nn a b c d e f r) := by
  unfold kernel_nn Typed.point.kernel_nn
  (try dsimp only)
  repeat' (first
    | nag_step | nrub_step)

theorem ag_kernel_uu (a b c d e f r : TFl A) :
    Ag (Typed.point.kernel_uu a b c d e f r) (kernel_uu a b c d e f r) := by
  unfold kernel_uu Typed.point.kernel_uu
  (try dsimp only)
  repeat' (first
    | nag_step | nrub_step)

theorem ag_kernel_en (a b c d e f r : TFl A) :
    Ag (Typed.point.kernel_en a b c d e f r) (kernel_en a b c d e f r) := by
  unfold kernel_en Typed.point.kernel_en
  (try dsimp only)
  repeat' (first
    | nag_step | nrub_step)

theorem ag_kernel_eu (a b c d e f r : TFl A) :
    Ag (Typed.point.kernel_eu a b c d e f r) (kernel_eu a b c d e f r) := by
  unfold kernel_eu Typed.point.kernel_eu
  (try dsimp only)
  repeat' (first
    | nag_step | nrub_step)

theorem ag_kernel_nu (a b c d e f r : TFl A) :
    Ag (Typed.point.kernel_nu a b c d e f r) (kernel_nu a b c d e f r) := by
  unfold kernel_nu Typed.point.kernel_nu
  (try dsimp only)
  repeat' (first
    | nag_step | nrub_step)

theorem ag_kernel_eee (a b c d e f r : TFl A) :
    Ag (Typed.point.kernel_eee a b c d e f r) (kernel_eee a b c d e f r) := by
  unfold kernel_eee Typed.point.kernel_eee
  (try dsimp only)
  repeat' (first
    | nag_step | nrub_step)

theorem ag_kernel_nnn (a b c d e f r : TFl A) :
    Ag (Typed.point.kernel_nnn a b c d e f r) (kernel_nnn a b c d e f r) := by
  unfold kernel_nnn Typed.point.kernel_nnn
  (try dsimp only)
  repeat' (first
    | nag_step | nrub_step)

theorem ag_kernel_uuu (a b c d e f r : TFl A) :
    Ag (Typed.point.kernel_uuu a b c d e f r) (kernel_uuu a b c d e f r) := by
  unfold kernel_uuu Typed.point.kernel_uuu
  (try dsimp only)
  repeat' (first
    | nag_step | nrub_step)

theorem ag_kernel_een (a b c d e f r : TFl A) :
    Ag (Typed.point.kernel_een a b c d e f r) (kernel_een a b c d e f r) := by
  unfold kernel_een Typed.point.kernel_een
  (try dsimp only)
  repeat' (first
    | nag_step | nrub_step)

theorem ag_kernel_eeu (a b c d e f r : TFl A) :
    Ag (Typed.point.kernel_eeu a b c d e f r) (kernel_eeu a b c d e f r) := by
  unfold kernel_eeu Typed.point.kernel_eeu
  (try dsimp only)
  repeat' (first
    | nag_step | nrub_step)

theorem ag_kernel_nne (a b c d e f r : TFl A) :
    Ag (Typed.point.kernel_nne a b c d e f r) (kernel_nne a b c d e f r) := by
  unfold kernel_nne Typed.point.kernel_nne
  (try dsimp only)
  repeat' (first
    | nag_step | nrub_step)

theorem ag_kernel_nnu (a b c d e f r : TFl A) :
    Ag (Typed.point.kernel_nnu a b c d e f r) (kernel_nnu a b c d e f r) := by
  unfold kernel_nnu Typed.point.kernel_nnu
  (try dsimp only)
  repeat' (first
    | nag_step | nrub_step)

theorem ag_kernel_uue (a b c d e f r : TFl A) :
    Ag (Typed.point.kernel_uue a b c d e f r) (kernel_uue a b c d e f r) := by
  unfold kernel_uue Typed.point.kernel_uue
  (try dsimp only)
  repeat' (first
    | nag_step | nrub_step)

theorem ag_kernel_uun (a b c d e f r : TFl A) :
    Ag (Typed.point.kernel_uun a b c d e f r) (kernel_uun a b c d e f r) := by
  unfold kernel_uun Typed.point.kernel_uun
  (try dsimp only)
  repeat' (first
    | nag_step | nrub_step)

theorem ag_kernel_enu (a b c d e f r : TFl A) :
    Ag (Typed.point.kernel_enu a b c d e f r) (kernel_enu a b c d e f r) := by
  unfold kernel_enu Typed.point.kernel_enu
  (try dsimp only)
  repeat' (first
    | nag_step | nrub_step)

theorem ag_gravity_pot (a b c d e f m : TFl A) :
    Ag (Typed.point.gravity_pot a b c d e f m) (gravity_pot a b c d e f m) := by
  unfold gravity_pot Typed.point.gravity_pot
  unfold utils.distance_cartesian Typed.utils.distance_cartesian
  simp only [pure_bind]
  repeat' (first
    | with_reducible exact ag_kernel_pot _ _ _ _ _ _ _
    | with_reducible refine Rubbish.bind (ag_kernel_pot _ _ _ _ _ _ _).tot fun _ => ?_
    | nag_step | nrub_step)

theorem ag_gravity_e (a b c d e f m : TFl A) :
    Ag (Typed.point.gravity_e a b c d e f m) (gravity_e a b c d e f m) := by
  unfold gravity_e Typed.point.gravity_e
  unfold utils.distance_cartesian Typed.utils.distance_cartesian
  simp only [pure_bind]
  repeat' (first
    | with_reducible exact ag_kernel_e _ _ _ _ _ _ _
    | with_reducible refine Rubbish.bind (ag_kernel_e _ _ _ _ _ _ _).tot fun _ => ?_
    | nag_step | nrub_step)

theorem ag_gravity_n (a b c d e f m : TFl A) :
    Ag (Typed.point.gravity_n a b c d e f m) (gravity_n a b c d e f m) := by
  unfold gravity_n Typed.point.gravity_n
  unfold utils.distance_cartesian Typed.utils.distance_cartesian
  simp only [pure_bind]
  repeat' (first
    | with_reducible exact ag_kernel_n _ _ _ _ _ _ _
    | with_reducible refine Rubbish.bind (ag_kernel_n _ _ _ _ _ _ _).tot fun _ => ?_
    | nag_step | nrub_step)

theorem ag_gravity_u (a b c d e f m : TFl A) :
    Ag (Typed.point.gravity_u a b c d e f m) (gravity_u a b c d e f m) := by
  unfold gravity_u Typed.point.gravity_u
  unfold utils.distance_cartesian Typed.utils.distance_cartesian
  simp only [pure_bind]
  repeat' (first
    | with_reducible exact ag_kernel_u _ _ _ _ _ _ _
    | with_reducible refine Rubbish.bind (ag_kernel_u _ _ _ _ _ _ _).tot fun _ => ?_
    | nag_step | nrub_step)

theorem ag_gravity_ee (a b c d e f m : TFl A) :
    Ag (Typed.point.gravity_ee a b c d e f m) (gravity_ee a b c d e f m) := by
  unfold gravity_ee Typed.point.gravity_ee
  unfold utils.distance_cartesian Typed.utils.distance_cartesian
  simp only [pure_bind]
  repeat' (first
    | with_reducible exact ag_kernel_ee _ _ _ _ _ _ _
    | with_reducible refine Rubbish.bind (ag_kernel_ee _ _ _ _ _ _ _).tot fun _ => ?_
    | nag_step | nrub_step)

theorem ag_gravity_nn (a b c d e f m : TFl A) :
    Ag (Typed.point.gravity_nn a b c d e f m) (gravity_nn a b c d e f m) := by
  unfold gravity_nn Typed.point.gravity_nn
  unfold utils.distance_cartesian Typed.utils.distance_cartesian
  simp only [pure_bind]
  repeat' (first
    | with_reducible exact ag_kernel_nn _ _ _ _ _ _ _
    | with_reducible refine Rubbish.bind (ag_kernel_nn _ _ _ _ _ _ _).tot fun _ => ?_
    | nag_step | nrub_step)

theorem ag_gravity_uu (a b c d e f m : TFl A) :
    Ag (Typed.point.gravity_uu a b c d e f m) (gravity_uu a b c d e f m) := by
  unfold gravity_uu Typed.point.gravity_uu
  unfold utils.distance_cartesian Typed.utils.distance_cartesian
  simp only [pure_bind]
  repeat' (first
    | with_reducible exact ag_kernel_uu _ _ _ _ _ _ _
    | with_reducible refine Rubbish.bind (ag_kernel_uu _ _ _ _ _ _ _).tot fun _ => ?_
    | nag_step | nrub_step)

theorem ag_gravity_en (a b c d e f m : TFl A) :
    Ag (Typed.point.gravity_en a b c d e f m) (gravity_en a b c d e f m) := by
  unfold gravity_en Typed.point.gravity_en
  unfold utils.distance_cartesian Typed.utils.distance_cartesian
  simp only [pure_bind]
  repeat' (first
    | with_reducible exact ag_kernel_en _ _ _ _ _ _ _
    | with_reducible refine Rubbish.bind (ag_kernel_en _ _ _ _ _ _ _).tot fun _ => ?_
    | nag_step | nrub_step)

theorem ag_gravity_eu (a b c d e f m : TFl A) :
    Ag (Typed.point.gravity_eu a b c d e f m) (gravity_eu a b c d e f m) := by
  unfold gravity_eu Typed.point.gravity_eu
  unfold utils.distance_cartesian Typed.utils.distance_cartesian
  simp only [pure_bind]
  repeat' (first
    | with_reducible exact ag_kernel_eu _ _ _ _ _ _ _
    | with_reducible refine Rubbish.bind (ag_kernel_eu _ _ _ _ _ _ _).tot fun _ => ?_
    | nag_step | nrub_step)

theorem ag_gravity_nu (a b c d e f m : TFl A) :
    Ag (Typed.point.gravity_nu a b c d e f m) (gravity_nu a b c d e f m) := by
  unfold gravity_nu Typed.point.gravity_nu
  unfold utils.distance_cartesian Typed.utils.distance_cartesian
  simp only [pure_bind]
  repeat' (first
    | with_reducible exact ag_kernel_nu _ _ _ _ _ _ _
    | with_reducible refine Rubbish.bind (ag_kernel_nu _ _ _ _ _ _ _).tot fun _ => ?_
    | nag_step | nrub_step)

end point

namespace dipole

theorem ag_magnetic_e (a b c d e f mx my mz : TFl A) :
    Ag (Typed.dipole.magnetic_e a b c d e f mx my mz) (magnetic_e a b c d e f mx my mz) := by
  unfold magnetic_e Typed.dipole.magnetic_e
  (try dsimp only)
  repeat' (first
    | nag_step | nrub_step)

theorem ag_magnetic_n (a b c d e f mx my mz : TFl A) :
    Ag (Typed.dipole.magnetic_n a b c d e f mx my mz) (magnetic_n a b c d e f mx my mz) := by
  unfold magnetic_n Typed.dipole.magnetic_n
  (try dsimp only)
  repeat' (first
    | nag_step | nrub_step)

theorem ag_magnetic_u (a b c d e f mx my mz : TFl A) :
    Ag (Typed.dipole.magnetic_u a b c d e f mx my mz) (magnetic_u a b c d e f mx my mz) := by
  unfold magnetic_u Typed.dipole.magnetic_u
  (try dsimp only)
  repeat' (first
    | nag_step | nrub_step)

theorem ag_magnetic_field (a b c d e f mx my mz : TFl A) :
    Ag (Typed.dipole.magnetic_field a b c d e f mx my mz) (magnetic_field a b c d e f mx my mz) := by
  unfold magnetic_field Typed.dipole.magnetic_field
  (try dsimp only)
  repeat' (first
    | nag_step | nrub_step)

end dipole

namespace prism

theorem ag_atan2 (y x : TFl A) : Ag (Typed.prism._safe_atan2 y x) (_safe_atan2 y x) := by
  unfold _safe_atan2 Typed.prism._safe_atan2
  refine Ag.ite (fun _ => ?_) (fun h => Ag.bind_eq (div_eq_of_ne h) (Tot.div _ _) fun _ => Ag.ok _)
  repeat' (first | nag_step | nrub_step)

theorem ag_log (x y z r : TFl A) :
    Ag (Typed.prism._safe_log x y z r) (_safe_log x y z r) := by
  unfold _safe_log Typed.prism._safe_log
  (try dsimp only)
  repeat' (first
    | nag_step | nrub_step)

theorem ag_kernel_pot (x y z r : TFl A) :
    Ag (Typed.prism.kernel_pot x y z r) (kernel_pot x y z r) := by
  unfold kernel_pot Typed.prism.kernel_pot
  (try dsimp only)
  repeat' (first
    | with_reducible exact ag_log _ _ _ _
    | with_reducible refine Rubbish.bind (ag_log _ _ _ _).tot fun _ => ?_
    | with_reducible exact ag_atan2 _ _
    | with_reducible refine Rubbish.bind (ag_atan2 _ _).tot fun _ => ?_
    | nag_step | nrub_step)

theorem ag_kernel_e (x y z r : TFl A) :
    Ag (Typed.prism.kernel_e x y z r) (kernel_e x y z r) := by
  unfold kernel_e Typed.prism.kernel_e
  (try dsimp only)
  repeat' (first
    | with_reducible exact ag_log _ _ _ _
    | with_reducible refine Rubbish.bind (ag_log _ _ _ _).tot fun _ => ?_
    | with_reducible exact ag_atan2 _ _
    | with_reducible refine Rubbish.bind (ag_atan2 _ _).tot fun _ => ?_
    | nag_step | nrub_step)

theorem ag_kernel_n (x y z r : TFl A) :
    Ag (Typed.prism.kernel_n x y z r) (kernel_n x y z r) := by
  unfold kernel_n Typed.prism.kernel_n
  (try dsimp only)
  repeat' (first
    | with_reducible exact ag_log _ _ _ _
    | with_reducible refine Rubbish.bind (ag_log _ _ _ _).tot fun _ => ?_
    | with_reducible exact ag_atan2 _ _
    | with_reducible refine Rubbish.bind (ag_atan2 _ _).tot fun _ => ?_
    | nag_step | nrub_step)

theorem ag_kernel_u (x y z r : TFl A) :
    Ag (Typed.prism.kernel_u x y z r) (kernel_u x y z r) := by
  unfold kernel_u Typed.prism.kernel_u
  (try dsimp only)
  repeat' (first
    | with_reducible exact ag_log _ _ _ _
    | with_reducible refine Rubbish.bind (ag_log _ _ _ _).tot fun _ => ?_
    | with_reducible exact ag_atan2 _ _
    | with_reducible refine Rubbish.bind (ag_atan2 _ _).tot fun _ => ?_
    | nag_step | nrub_step)

theorem ag_kernel_ee (x y z r : TFl A) :
    Ag (Typed.prism.kernel_ee x y z r) (kernel_ee x y z r) := by
  unfold kernel_ee Typed.prism.kernel_ee
  (try dsimp only)
  repeat' (first
    | with_reducible exact ag_log _ _ _ _
    | with_reducible refine Rubbish.bind (ag_log _ _ _ _).tot fun _ => ?_
    | with_reducible exact ag_atan2 _ _
    | with_reducible refine Rubbish.bind (ag_atan2 _ _).tot fun _ => ?_
    | nag_step | nrub_step)

theorem ag_kernel_nn (x y z r : TFl A) :
    Ag (Typed.prism.kernel_nn x y z r) (kernel_nn x y z r) := by
  unfold kernel_nn Typed.prism.kernel_nn
  (try dsimp only)
  repeat' (first
    | with_reducible exact ag_log _ _ _ _
    | with_reducible refine Rubbish.bind (ag_log _ _ _ _).tot fun _ => ?_
    | with_reducible exact ag_atan2 _ _
    | with_reducible refine Rubbish.bind (ag_atan2 _ _).tot fun _ => ?_
    | nag_step | nrub_step)

theorem ag_kernel_uu (x y z r : TFl A) :
    Ag (Typed.prism.kernel_uu x y z r) (kernel_uu x y z r) := by
  unfold kernel_uu Typed.prism.kernel_uu
  (try dsimp only)
  repeat' (first
    | with_reducible exact ag_log _ _ _ _
    | with_reducible refine Rubbish.bind (ag_log _ _ _ _).tot fun _ => ?_
    | with_reducible exact ag_atan2 _ _
    | with_reducible refine Rubbish.bind (ag_atan2 _ _).tot fun _ => ?_
    | nag_step | nrub_step)

theorem ag_kernel_en (x y z r : TFl A) :
    Ag (Typed.prism.kernel_en x y z r) (kernel_en x y z r) := by
  unfold kernel_en Typed.prism.kernel_en
  (try dsimp only)
  repeat' (first
    | with_reducible exact ag_log _ _ _ _
    | with_reducible refine Rubbish.bind (ag_log _ _ _ _).tot fun _ => ?_
    | with_reducible exact ag_atan2 _ _
    | with_reducible refine Rubbish.bind (ag_atan2 _ _).tot fun _ => ?_
    | nag_step | nrub_step)

theorem ag_kernel_eu (x y z r : TFl A) :
    Ag (Typed.prism.kernel_eu x y z r) (kernel_eu x y z r) := by
  unfold kernel_eu Typed.prism.kernel_eu
  (try dsimp only)
  repeat' (first
    | with_reducible exact ag_log _ _ _ _
    | with_reducible refine Rubbish.bind (ag_log _ _ _ _).tot fun _ => ?_
    | with_reducible exact ag_atan2 _ _
    | with_reducible refine Rubbish.bind (ag_atan2 _ _).tot fun _ => ?_
    | nag_step | nrub_step)

theorem ag_kernel_nu (x y z r : TFl A) :
    Ag (Typed.prism.kernel_nu x y z r) (kernel_nu x y z r) := by
  unfold kernel_nu Typed.prism.kernel_nu
  (try dsimp only)
  repeat' (first
    | with_reducible exact ag_log _ _ _ _
    | with_reducible refine Rubbish.bind (ag_log _ _ _ _).tot fun _ => ?_
    | with_reducible exact ag_atan2 _ _
    | with_reducible refine Rubbish.bind (ag_atan2 _ _).tot fun _ => ?_
    | nag_step | nrub_step)

theorem ag_kernel_iii (x y z r : TFl A) :
    Ag (Typed.prism._kernel_iii x y z r) (_kernel_iii x y z r) := by
  unfold _kernel_iii Typed.prism._kernel_iii
  (try dsimp only)
  repeat' (first
    | nag_step | nrub_step)

theorem ag_kernel_iij (x y z r : TFl A) :
    Ag (Typed.prism._kernel_iij x y z r) (_kernel_iij x y z r) := by
  unfold _kernel_iij Typed.prism._kernel_iij
  (try dsimp only)
  repeat' (first
    | nag_step | nrub_step)

theorem ag_kernel_eee (x y z r : TFl A) :
    Ag (Typed.prism.kernel_eee x y z r) (kernel_eee x y z r) := by
  unfold kernel_eee Typed.prism.kernel_eee
  (try dsimp only)
  repeat' (first
    | with_reducible exact ag_kernel_iii _ _ _ _
    | with_reducible refine Rubbish.bind (ag_kernel_iii _ _ _ _).tot fun _ => ?_
    | with_reducible exact ag_kernel_iij _ _ _ _
    | with_reducible refine Rubbish.bind (ag_kernel_iij _ _ _ _).tot fun _ => ?_
    | nag_step | nrub_step)

theorem ag_kernel_nnn (x y z r : TFl A) :
    Ag (Typed.prism.kernel_nnn x y z r) (kernel_nnn x y z r) := by
  unfold kernel_nnn Typed.prism.kernel_nnn
  (try dsimp only)
  repeat' (first
    | with_reducible exact ag_kernel_iii _ _ _ _
    | with_reducible refine Rubbish.bind (ag_kernel_iii _ _ _ _).tot fun _ => ?_
    | with_reducible exact ag_kernel_iij _ _ _ _
    | with_reducible refine Rubbish.bind (ag_kernel_iij _ _ _ _).tot fun _ => ?_
    | nag_step | nrub_step)

theorem ag_kernel_uuu (x y z r : TFl A) :
    Ag (Typed.prism.kernel_uuu x y z r) (kernel_uuu x y z r) := by
  unfold kernel_uuu Typed.prism.kernel_uuu
  (try dsimp only)
  repeat' (first
    | with_reducible exact ag_kernel_iii _ _ _ _
    | with_reducible refine Rubbish.bind (ag_kernel_iii _ _ _ _).tot fun _ => ?_
    | with_reducible exact ag_kernel_iij _ _ _ _
    | with_reducible refine Rubbish.bind (ag_kernel_iij _ _ _ _).tot fun _ => ?_
    | nag_step | nrub_step)

theorem ag_kernel_een (x y z r : TFl A) :
    Ag (Typed.prism.kernel_een x y z r) (kernel_een x y z r) := by
  unfold kernel_een Typed.prism.kernel_een
  (try dsimp only)
  repeat' (first
    | with_reducible exact ag_kernel_iii _ _ _ _
    | with_reducible refine Rubbish.bind (ag_kernel_iii _ _ _ _).tot fun _ => ?_
    | with_reducible exact ag_kernel_iij _ _ _ _
    | with_reducible refine Rubbish.bind (ag_kernel_iij _ _ _ _).tot fun _ => ?_
    | nag_step | nrub_step)

theorem ag_kernel_eeu (x y z r : TFl A) :
    Ag (Typed.prism.kernel_eeu x y z r) (kernel_eeu x y z r) := by
  unfold kernel_eeu Typed.prism.kernel_eeu
  (try dsimp only)
  repeat' (first
    | with_reducible exact ag_kernel_iii _ _ _ _
    | with_reducible refine Rubbish.bind (ag_kernel_iii _ _ _ _).tot fun _ => ?_
    | with_reducible exact ag_kernel_iij _ _ _ _
    | with_reducible refine Rubbish.bind (ag_kernel_iij _ _ _ _).tot fun _ => ?_
    | nag_step | nrub_step)

theorem ag_kernel_enn (x y z r : TFl A) :
    Ag (Typed.prism.kernel_enn x y z r) (kernel_enn x y z r) := by
  unfold kernel_enn Typed.prism.kernel_enn
  (try dsimp only)
  repeat' (first
    | with_reducible exact ag_kernel_iii _ _ _ _
    | with_reducible refine Rubbish.bind (ag_kernel_iii _ _ _ _).tot fun _ => ?_
    | with_reducible exact ag_kernel_iij _ _ _ _
    | with_reducible refine Rubbish.bind (ag_kernel_iij _ _ _ _).tot fun _ => ?_
    | nag_step | nrub_step)

theorem ag_kernel_nnu (x y z r : TFl A) :
    Ag (Typed.prism.kernel_nnu x y z r) (kernel_nnu x y z r) := by
  unfold kernel_nnu Typed.prism.kernel_nnu
  (try dsimp only)
  repeat' (first
    | with_reducible exact ag_kernel_iii _ _ _ _
    | with_reducible refine Rubbish.bind (ag_kernel_iii _ _ _ _).tot fun _ => ?_
    | with_reducible exact ag_kernel_iij _ _ _ _
    | with_reducible refine Rubbish.bind (ag_kernel_iij _ _ _ _).tot fun _ => ?_
    | nag_step | nrub_step)

theorem ag_kernel_euu (x y z r : TFl A) :
    Ag (Typed.prism.kernel_euu x y z r) (kernel_euu x y z r) := by
  unfold kernel_euu Typed.prism.kernel_euu
  (try dsimp only)
  repeat' (first
    | with_reducible exact ag_kernel_iii _ _ _ _
    | with_reducible refine Rubbish.bind (ag_kernel_iii _ _ _ _).tot fun _ => ?_
    | with_reducible exact ag_kernel_iij _ _ _ _
    | with_reducible refine Rubbish.bind (ag_kernel_iij _ _ _ _).tot fun _ => ?_
    | nag_step | nrub_step)

theorem ag_kernel_nuu (x y z r : TFl A) :
    Ag (Typed.prism.kernel_nuu x y z r) (kernel_nuu x y z r) := by
  unfold kernel_nuu Typed.prism.kernel_nuu
  (try dsimp only)
  repeat' (first
    | with_reducible exact ag_kernel_iii _ _ _ _
    | with_reducible refine Rubbish.bind (ag_kernel_iii _ _ _ _).tot fun _ => ?_
    | with_reducible exact ag_kernel_iij _ _ _ _
    | with_reducible refine Rubbish.bind (ag_kernel_iij _ _ _ _).tot fun _ => ?_
    | nag_step | nrub_step)

theorem ag_kernel_enu (x y z r : TFl A) :
    Ag (Typed.prism.kernel_enu x y z r) (kernel_enu x y z r) := by
  unfold kernel_enu Typed.prism.kernel_enu
  (try dsimp only)
  repeat' (first
    | nag_step | nrub_step)

theorem ag_evaluate_kernel (e n u w E s N b t : TFl A) {K K' : Typed.prism.Kernel A} (hK : ∀ x y z r, Ag (K x y z r) (K' x y z r)) :
    Ag (Typed.prism._evaluate_kernel e n u w E s N b t K) (_evaluate_kernel e n u w E s N b t K') := by
  unfold _evaluate_kernel Typed.prism._evaluate_kernel
  dsimp only
  repeat' (first
    | with_reducible exact hK _ _ _ _
    | with_reducible refine Rubbish.bind (hK _ _ _ _).tot fun _ => ?_
    | nag_step | nrub_step)

theorem ag_calculate_component (e n u w E s N b t mx my mz : TFl A) {K1 K2 K3 K1' K2' K3' : Typed.prism.Kernel A}
    (h1 : ∀ x y z r, Ag (K1 x y z r) (K1' x y z r)) (h2 : ∀ x y z r, Ag (K2 x y z r) (K2' x y z r))
    (h3 : ∀ x y z r, Ag (K3 x y z r) (K3' x y z r)) :
    Ag (Typed.prism._calculate_component e n u w E s N b t mx my mz K1 K2 K3)
      (_calculate_component e n u w E s N b t mx my mz K1' K2' K3') := by
  unfold _calculate_component Typed.prism._calculate_component
  dsimp only
  repeat' (first
    | with_reducible exact h1 _ _ _ _
    | with_reducible exact h2 _ _ _ _
    | with_reducible exact h3 _ _ _ _
    | with_reducible refine Rubbish.bind (h1 _ _ _ _).tot fun _ => ?_
    | with_reducible refine Rubbish.bind (h2 _ _ _ _).tot fun _ => ?_
    | with_reducible refine Rubbish.bind (h3 _ _ _ _).tot fun _ => ?_
    | nag_step | nrub_step)

theorem ag_gravity_pot (e n u w E s N b t ρ : TFl A) :
    Ag (Typed.prism.gravity_pot e n u w E s N b t ρ) (gravity_pot e n u w E s N b t ρ) := by
  unfold gravity_pot Typed.prism.gravity_pot
  (try dsimp only)
  repeat' (first
    | with_reducible exact ag_evaluate_kernel _ _ _ _ _ _ _ _ _ ag_kernel_pot
    | with_reducible refine Rubbish.bind (ag_evaluate_kernel _ _ _ _ _ _ _ _ _ ag_kernel_pot).tot fun _ => ?_
    | nag_step | nrub_step)

theorem ag_gravity_e (e n u w E s N b t ρ : TFl A) :
    Ag (Typed.prism.gravity_e e n u w E s N b t ρ) (gravity_e e n u w E s N b t ρ) := by
  unfold gravity_e Typed.prism.gravity_e
  (try dsimp only)
  repeat' (first
    | with_reducible exact ag_evaluate_kernel _ _ _ _ _ _ _ _ _ ag_kernel_e
    | with_reducible refine Rubbish.bind (ag_evaluate_kernel _ _ _ _ _ _ _ _ _ ag_kernel_e).tot fun _ => ?_
    | nag_step | nrub_step)

theorem ag_gravity_n (e n u w E s N b t ρ : TFl A) :
    Ag (Typed.prism.gravity_n e n u w E s N b t ρ) (gravity_n e n u w E s N b t ρ) := by
  unfold gravity_n Typed.prism.gravity_n
  (try dsimp only)
  repeat' (first
    | with_reducible exact ag_evaluate_kernel _ _ _ _ _ _ _ _ _ ag_kernel_n
    | with_reducible refine Rubbish.bind (ag_evaluate_kernel _ _ _ _ _ _ _ _ _ ag_kernel_n).tot fun _ => ?_
    | nag_step | nrub_step)

theorem ag_gravity_u (e n u w E s N b t ρ : TFl A) :
    Ag (Typed.prism.gravity_u e n u w E s N b t ρ) (gravity_u e n u w E s N b t ρ) := by
  unfold gravity_u Typed.prism.gravity_u
  (try dsimp only)
  repeat' (first
    | with_reducible exact ag_evaluate_kernel _ _ _ _ _ _ _ _ _ ag_kernel_u
    | with_reducible refine Rubbish.bind (ag_evaluate_kernel _ _ _ _ _ _ _ _ _ ag_kernel_u).tot fun _ => ?_
    | nag_step | nrub_step)

theorem ag_gravity_ee (e n u w E s N b t ρ : TFl A) :
    Ag (Typed.prism.gravity_ee e n u w E s N b t ρ) (gravity_ee e n u w E s N b t ρ) := by
  unfold gravity_ee Typed.prism.gravity_ee
  (try dsimp only)
  repeat' (first
    | with_reducible exact ag_evaluate_kernel _ _ _ _ _ _ _ _ _ ag_kernel_ee
    | with_reducible refine Rubbish.bind (ag_evaluate_kernel _ _ _ _ _ _ _ _ _ ag_kernel_ee).tot fun _ => ?_
    | nag_step | nrub_step)

theorem ag_gravity_nn (e n u w E s N b t ρ : TFl A) :
    Ag (Typed.prism.gravity_nn e n u w E s N b t ρ) (gravity_nn e n u w E s N b t ρ) := by
  unfold gravity_nn Typed.prism.gravity_nn
  (try dsimp only)
  repeat' (first
    | with_reducible exact ag_evaluate_kernel _ _ _ _ _ _ _ _ _ ag_kernel_nn
    | with_reducible refine Rubbish.bind (ag_evaluate_kernel _ _ _ _ _ _ _ _ _ ag_kernel_nn).tot fun _ => ?_
    | nag_step | nrub_step)

theorem ag_gravity_uu (e n u w E s N b t ρ : TFl A) :
    Ag (Typed.prism.gravity_uu e n u w E s N b t ρ) (gravity_uu e n u w E s N b t ρ) := by
  unfold gravity_uu Typed.prism.gravity_uu
  (try dsimp only)
  repeat' (first
    | with_reducible exact ag_evaluate_kernel _ _ _ _ _ _ _ _ _ ag_kernel_uu
    | with_reducible refine Rubbish.bind (ag_evaluate_kernel _ _ _ _ _ _ _ _ _ ag_kernel_uu).tot fun _ => ?_
    | nag_step | nrub_step)

theorem ag_gravity_en (e n u w E s N b t ρ : TFl A) :
    Ag (Typed.prism.gravity_en e n u w E s N b t ρ) (gravity_en e n u w E s N b t ρ) := by
  unfold gravity_en Typed.prism.gravity_en
  (try dsimp only)
  repeat' (first
    | with_reducible exact ag_evaluate_kernel _ _ _ _ _ _ _ _ _ ag_kernel_en
    | with_reducible refine Rubbish.bind (ag_evaluate_kernel _ _ _ _ _ _ _ _ _ ag_kernel_en).tot fun _ => ?_
    | nag_step | nrub_step)

theorem ag_gravity_eu (e n u w E s N b t ρ : TFl A) :
    Ag (Typed.prism.gravity_eu e n u w E s N b t ρ) (gravity_eu e n u w E s N b t ρ) := by
  unfold gravity_eu Typed.prism.gravity_eu
  (try dsimp only)
  repeat' (first
    | with_reducible exact ag_evaluate_kernel _ _ _ _ _ _ _ _ _ ag_kernel_eu
    | with_reducible refine Rubbish.bind (ag_evaluate_kernel _ _ _ _ _ _ _ _ _ ag_kernel_eu).tot fun _ => ?_
    | nag_step | nrub_step)

theorem ag_gravity_nu (e n u w E s N b t ρ : TFl A) :
    Ag (Typed.prism.gravity_nu e n u w E s N b t ρ) (gravity_nu e n u w E s N b t ρ) := by
  unfold gravity_nu Typed.prism.gravity_nu
  (try dsimp only)
  repeat' (first
    | with_reducible exact ag_evaluate_kernel _ _ _ _ _ _ _ _ _ ag_kernel_nu
    | with_reducible refine Rubbish.bind (ag_evaluate_kernel _ _ _ _ _ _ _ _ _ ag_kernel_nu).tot fun _ => ?_
    | nag_step | nrub_step)

theorem ag_magnetic_e (e n u w E s N b t mx my mz : TFl A) :
    Ag (Typed.prism.magnetic_e e n u w E s N b t mx my mz) (magnetic_e e n u w E s N b t mx my mz) := by
  unfold magnetic_e Typed.prism.magnetic_e
  (try dsimp only)
  repeat' (first
    | with_reducible exact ag_calculate_component _ _ _ _ _ _ _ _ _ _ _ _ ag_kernel_ee ag_kernel_en ag_kernel_eu
    | with_reducible refine Rubbish.bind (ag_calculate_component _ _ _ _ _ _ _ _ _ _ _ _ ag_kernel_ee ag_kernel_en ag_kernel_eu).tot fun _ => ?_
    | nag_step | nrub_step)

theorem ag_magnetic_n (e n u w E s N b t mx my mz : TFl A) :
    Ag (Typed.prism.magnetic_n e n u w E s N b t mx my mz) (magnetic_n e n u w E s N b t mx my mz) := by
  unfold magnetic_n Typed.prism.magnetic_n
  (try dsimp only)
  repeat' (first
    | with_reducible exact ag_calculate_component _ _ _ _ _ _ _ _ _ _ _ _ ag_kernel_en ag_kernel_nn ag_kernel_nu
    | with_reducible refine Rubbish.bind (ag_calculate_component _ _ _ _ _ _ _ _ _ _ _ _ ag_kernel_en ag_kernel_nn ag_kernel_nu).tot fun _ => ?_
    | nag_step | nrub_step)

theorem ag_magnetic_u (e n u w E s N b t mx my mz : TFl A) :
    Ag (Typed.prism.magnetic_u e n u w E s N b t mx my mz) (magnetic_u e n u w E s N b t mx my mz) := by
  unfold magnetic_u Typed.prism.magnetic_u
  (try dsimp only)
  repeat' (first
    | with_reducible exact ag_calculate_component _ _ _ _ _ _ _ _ _ _ _ _ ag_kernel_eu ag_kernel_nu ag_kernel_uu
    | with_reducible refine Rubbish.bind (ag_calculate_component _ _ _ _ _ _ _ _ _ _ _ _ ag_kernel_eu ag_kernel_nu ag_kernel_uu).tot fun _ => ?_
    | nag_step | nrub_step)

theorem ag_magnetic_ee (e n u w E s N b t mx my mz : TFl A) :
    Ag (Typed.prism.magnetic_ee e n u w E s N b t mx my mz) (magnetic_ee e n u w E s N b t mx my mz) := by
  unfold magnetic_ee Typed.prism.magnetic_ee
  (try dsimp only)
  repeat' (first
    | with_reducible exact ag_calculate_component _ _ _ _ _ _ _ _ _ _ _ _ ag_kernel_eee ag_kernel_een ag_kernel_eeu
    | with_reducible refine Rubbish.bind (ag_calculate_component _ _ _ _ _ _ _ _ _ _ _ _ ag_kernel_eee ag_kernel_een ag_kernel_eeu).tot fun _ => ?_
    | nag_step | nrub_step)

theorem ag_magnetic_nn (e n u w E s N b t mx my mz : TFl A) :
    Ag (Typed.prism.magnetic_nn e n u w E s N b t mx my mz) (magnetic_nn e n u w E s N b t mx my mz) := by
  unfold magnetic_nn Typed.prism.magnetic_nn
  (try dsimp only)
  repeat' (first
    | with_reducible exact ag_calculate_component _ _ _ _ _ _ _ _ _ _ _ _ ag_kernel_enn ag_kernel_nnn ag_kernel_nnu
    | with_reducible refine Rubbish.bind (ag_calculate_component _ _ _ _ _ _ _ _ _ _ _ _ ag_kernel_enn ag_kernel_nnn ag_kernel_nnu).tot fun _ => ?_
    | nag_step | nrub_step)

theorem ag_magnetic_uu (e n u w E s N b t mx my mz : TFl A) :
    Ag (Typed.prism.magnetic_uu e n u w E s N b t mx my mz) (magnetic_uu e n u w E s N b t mx my mz) := by
  unfold magnetic_uu Typed.prism.magnetic_uu
  (try dsimp only)
  repeat' (first
    | with_reducible exact ag_calculate_component _ _ _ _ _ _ _ _ _ _ _ _ ag_kernel_euu ag_kernel_nuu ag_kernel_uuu
    | with_reducible refine Rubbish.bind (ag_calculate_component _ _ _ _ _ _ _ _ _ _ _ _ ag_kernel_euu ag_kernel_nuu ag_kernel_uuu).tot fun _ => ?_
    | nag_step | nrub_step)

theorem ag_magnetic_en (e n u w E s N b t mx my mz : TFl A) :
    Ag (Typed.prism.magnetic_en e n u w E s N b t mx my mz) (magnetic_en e n u w E s N b t mx my mz) := by
  unfold magnetic_en Typed.prism.magnetic_en
  (try dsimp only)
  repeat' (first
    | with_reducible exact ag_calculate_component _ _ _ _ _ _ _ _ _ _ _ _ ag_kernel_een ag_kernel_enn ag_kernel_enu
    | with_reducible refine Rubbish.bind (ag_calculate_component _ _ _ _ _ _ _ _ _ _ _ _ ag_kernel_een ag_kernel_enn ag_kernel_enu).tot fun _ => ?_
    | nag_step | nrub_step)

theorem ag_magnetic_eu (e n u w E s N b t mx my mz : TFl A) :
    Ag (Typed.prism.magnetic_eu e n u w E s N b t mx my mz) (magnetic_eu e n u w E s N b t mx my mz) := by
  unfold magnetic_eu Typed.prism.magnetic_eu
  (try dsimp only)
  repeat' (first
    | with_reducible exact ag_calculate_component _ _ _ _ _ _ _ _ _ _ _ _ ag_kernel_eeu ag_kernel_enu ag_kernel_euu
    | with_reducible refine Rubbish.bind (ag_calculate_component _ _ _ _ _ _ _ _ _ _ _ _ ag_kernel_eeu ag_kernel_enu ag_kernel_euu).tot fun _ => ?_
    | nag_step | nrub_step)

theorem ag_magnetic_nu (e n u w E s N b t mx my mz : TFl A) :
    Ag (Typed.prism.magnetic_nu e n u w E s N b t mx my mz) (magnetic_nu e n u w E s N b t mx my mz) := by
  unfold magnetic_nu Typed.prism.magnetic_nu
  (try dsimp only)
  repeat' (first
    | with_reducible exact ag_calculate_component _ _ _ _ _ _ _ _ _ _ _ _ ag_kernel_enu ag_kernel_nnu ag_kernel_nuu
    | with_reducible refine Rubbish.bind (ag_calculate_component _ _ _ _ _ _ _ _ _ _ _ _ ag_kernel_enu ag_kernel_nnu ag_kernel_nuu).tot fun _ => ?_
    | nag_step | nrub_step)

set_option maxHeartbeats 4000000 in
theorem ag_magnetic_field (e n u w E s N b t mx my mz : TFl A) :
    Ag (Typed.prism.magnetic_field e n u w E s N b t mx my mz) (magnetic_field e n u w E s N b t mx my mz) := by
  unfold magnetic_field Typed.prism.magnetic_field
  (try dsimp only)
  repeat' (first
    | with_reducible exact ag_kernel_ee _ _ _ _
    | with_reducible refine Rubbish.bind (ag_kernel_ee _ _ _ _).tot fun _ => ?_
    | with_reducible exact ag_kernel_nn _ _ _ _
    | with_reducible refine Rubbish.bind (ag_kernel_nn _ _ _ _).tot fun _ => ?_
    | with_reducible exact ag_kernel_uu _ _ _ _
    | with_reducible refine Rubbish.bind (ag_kernel_uu _ _ _ _).tot fun _ => ?_
    | with_reducible exact ag_kernel_en _ _ _ _
    | with_reducible refine Rubbish.bind (ag_kernel_en _ _ _ _).tot fun _ => ?_
    | with_reducible exact ag_kernel_eu _ _ _ _
    | with_reducible refine Rubbish.bind (ag_kernel_eu _ _ _ _).tot fun _ => ?_
    | with_reducible exact ag_kernel_nu _ _ _ _
    | with_reducible refine Rubbish.bind (ag_kernel_nu _ _ _ _).tot fun _ => ?_
    | nag_step | nrub_step)

end prism

end NpInt

end Choclo
