import Verif.Lemmas.Generic
import Verif.Spec.Rounding

/-! # Sign symmetry of the operations -/

namespace Choclo.Fl

variable {A : Arith}

theorem neg_nan : -(nan : Fl A) = nan := rfl
theorem neg_neg' (a : Fl A) : - -a = a := by
  cases a with
  | nan => rfl
  | inf s => show Fl.inf (!(!s)) = _; rw [Bool.not_not]; rfl
  | fin x => show Fl.fin (- -x) = _; rw [neg_neg]; rfl

theorem add_neg_neg (h : A.SignSymmetric) (a b : Fl A) : -a + -b = -(a + b) := by
  cases a <;> cases b
  case fin.fin x y =>
    show (ofRaw (A.rnd (-x + -y)) : Fl A) = - ofRaw (A.rnd (x + y))
    rw [← h.rnd_neg, neg_add]
  case inf.inf s t => cases s <;> cases t <;> rfl
  all_goals rfl

theorem sub_def (a b : Fl A) : a - b = a + -b := rfl

theorem sub_swap (h : A.SignSymmetric) (a b : Fl A) : b - a = -(a - b) := by
  rw [sub_def, sub_def, ← add_neg_neg h, neg_neg', add_comm']

theorem neg_mul' (h : A.SignSymmetric) (a b : Fl A) : -a * b = -(a * b) := by
  cases a <;> cases b
  case fin.fin x y =>
    show (ofRaw (A.rnd (-x * y)) : Fl A) = - ofRaw (A.rnd (x * y))
    rw [← h.rnd_neg, neg_mul]
  case inf.inf s t => cases s <;> cases t <;> rfl
  case inf.fin s x =>
    show (mulInf (!s) x : Fl A) = - mulInf s x
    unfold mulInf
    split
    · rfl
    · split <;> cases s <;> rfl
  case fin.inf x s =>
    show (mulInf s (-x) : Fl A) = - mulInf s x
    unfold mulInf
    rcases lt_trichotomy x 0 with hx | hx | hx
    · rw [if_neg (by linarith), if_pos (by linarith), if_neg hx.ne, if_neg (by linarith)]
      cases s <;> rfl
    · rw [if_pos (by linarith), if_pos hx]; rfl
    · rw [if_neg (by linarith), if_neg (by linarith), if_neg hx.ne', if_pos hx]
      cases s <;> rfl
  all_goals rfl

theorem mul_neg' (h : A.SignSymmetric) (a b : Fl A) : a * -b = -(a * b) := by
  rw [mul_comm', neg_mul' h, mul_comm']

theorem pow_neg_even (h : A.SignSymmetric) (a : Fl A) {n : ℕ} (hn : Even n) : (-a) ^ n = a ^ n := by
  cases a with
  | nan => rfl
  | inf s =>
    show (if n = 0 then _ else inf ((!s) && decide (n % 2 = 1))) =
      (if n = 0 then _ else inf (s && decide (n % 2 = 1)))
    have : decide (n % 2 = 1) = false := by
      rw [decide_eq_false_iff_not, Nat.even_iff.1 hn]; norm_num
    rw [this, Bool.and_false, Bool.and_false]
  | fin x =>
    show (ofRaw (A.pow (-x) n) : Fl A) = ofRaw (A.pow x n)
    rw [h.pow_even x n hn]

theorem neg_div' (h : A.SignSymmetric) (a b : Fl A) : (-a) /. b = Py.negated (a /. b) := by
  cases a <;> cases b
  case fin.fin x y =>
    show (if y = 0 then _ else .ok (ofRaw (A.rnd (-x / y)))) =
      Py.negated (if y = 0 then _ else .ok (ofRaw (A.rnd (x / y))))
    split
    · rfl
    · rw [neg_div]
      exact congrArg Except.ok (h.rnd_neg (x / y))
  case inf.fin s y =>
    show (if y = 0 then _ else if 0 < y then .ok (inf (!s)) else .ok (inf (!(!s)))) =
      Py.negated (if y = 0 then _ else if 0 < y then .ok (inf s) else .ok (inf (!s)))
    split
    · rfl
    · split <;> rfl
  case nan.fin y =>
    show (if y = 0 then _ else .ok nan) = Py.negated (if y = 0 then _ else .ok nan)
    split <;> rfl
  case fin.inf x s =>
    show Except.ok (fin 0) = Except.ok (fin (-0))
    rw [neg_zero]
  all_goals rfl

theorem cos_neg' (h : A.SignSymmetric) (a : Fl A) : cos (-a) = cos a := by
  cases a with
  | nan => rfl
  | inf s => rfl
  | fin x => exact h.cos_neg x

theorem sub_sq_swap (h : A.SignSymmetric) (a b : Fl A) : (b - a) ^ 2 = (a - b) ^ 2 := by
  rw [sub_swap h, pow_neg_even h _ even_two]

end Choclo.Fl
