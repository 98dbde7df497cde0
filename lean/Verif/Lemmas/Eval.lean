import Verif.Spec.Basic
import Mathlib.Tactic.FieldSimp
import Mathlib.Tactic.Ring
import Mathlib.Tactic.Positivity
import Mathlib.Tactic.Linarith
import Mathlib.Tactic.NormNum

/-! # Evaluating model expressions in exact arithmetic -/

namespace Choclo

open Real

/-- shorthand: embedding of the reals in exact arithmetic -/
noncomputable abbrev xf (x : ℝ) : Fl Exact := Fl.fin x

namespace Ex

@[simp] theorem add_fin (x y : ℝ) : (xf x + xf y : Fl Exact) = xf (x + y) := rfl
@[simp] theorem neg_fin (x : ℝ) : (- xf x : Fl Exact) = xf (-x) := rfl
@[simp] theorem sub_fin (x y : ℝ) : (xf x - xf y : Fl Exact) = xf (x - y) := by
  show xf (x + -y) = _
  rw [sub_eq_add_neg]
@[simp] theorem mul_fin (x y : ℝ) : (xf x * xf y : Fl Exact) = xf (x * y) := rfl
@[simp] theorem pow_fin (x : ℝ) (n : ℕ) : (xf x ^ n : Fl Exact) = xf (x ^ n) := rfl
@[simp] theorem ofNat_fin (n : ℕ) [n.AtLeastTwo] :
    (OfNat.ofNat n : Fl Exact) = xf (OfNat.ofNat n) := rfl
@[simp] theorem zero_fin : (0 : Fl Exact) = xf 0 := by
  show Fl.fin ((0 : ℕ) : ℝ) = _
  rw [Nat.cast_zero]
@[simp] theorem one_fin : (1 : Fl Exact) = xf 1 := by
  show Fl.fin ((1 : ℕ) : ℝ) = _
  rw [Nat.cast_one]
@[simp] theorem half_fin : (Fl.half : Fl Exact) = xf (1 / 2) := rfl
@[simp] theorem pi_fin : (Fl.pi : Fl Exact) = xf Real.pi := rfl
@[simp] theorem intCast_fin (n : ℤ) : ((n : ℤ) : Fl Exact) = xf (n : ℝ) := rfl
@[simp] theorem lit_fin (x : ℝ) : (Fl.lit x : Fl Exact) = xf x := rfl
theorem div_fin {x y : ℝ} (h : y ≠ 0) : (xf x /. xf y) = .ok (xf (x / y)) := by
  show (if y = 0 then _ else _) = _
  rw [if_neg h]; rfl
theorem div_fin_zero (x : ℝ) : (xf x /. xf 0) = .error .zeroDivision := by
  show (if (0 : ℝ) = 0 then _ else _) = _
  rw [if_pos rfl]
@[simp] theorem sqrt_fin (x : ℝ) (h : 0 ≤ x) : Fl.sqrt (xf x) = xf (√x) := by
  show (if x < 0 then _ else _) = _
  rw [if_neg (not_lt.mpr h)]; rfl
theorem log_fin {x : ℝ} (h : 0 < x) : Fl.log (xf x) = xf (Real.log x) := by
  show (if x < 0 then _ else if x = 0 then _ else _) = _
  rw [if_neg (not_lt.mpr h.le), if_neg h.ne']; rfl
@[simp] theorem arctan_fin (x : ℝ) : Fl.arctan (xf x) = xf (Real.arctan x) := rfl
@[simp] theorem sin_fin (x : ℝ) : Fl.sin (xf x) = xf (Real.sin x) := rfl
@[simp] theorem cos_fin (x : ℝ) : Fl.cos (xf x) = xf (Real.cos x) := rfl
@[simp] theorem radians_fin (x : ℝ) : Fl.radians (xf x) = xf (x * (Real.pi / 180)) := rfl
@[simp] theorem lt_fin (x y : ℝ) : Fl.lt (xf x) (xf y) = decide (x < y) := by
  show @decide _ (Classical.propDecidable _) = _
  congr
@[simp] theorem le_fin (x y : ℝ) : Fl.le (xf x) (xf y) = decide (x ≤ y) := by
  show @decide _ (Classical.propDecidable _) = _
  congr
@[simp] theorem eq_fin (x y : ℝ) : Fl.eq (xf x) (xf y) = decide (x = y) := by
  show @decide _ (Classical.propDecidable _) = _
  congr

theorem fin_inj {x y : ℝ} : xf x = xf y ↔ x = y := by
  constructor
  · intro h
    have := Raw.fin.inj h
    exact this
  · rintro rfl; rfl

theorem fin_ne_nan (x : ℝ) : xf x ≠ Fl.nan := by
  intro h
  exact Raw.noConfusion h

/-- Reduce the do-notation of a computation that returns. -/
@[simp] theorem ok_bind {α β : Type} (a : α) (f : α → Py β) :
    (Except.ok a >>= f) = f a := rfl
@[simp] theorem error_bind {α β : Type} (f : α → Py β) :
    ((Except.error PyErr.zeroDivision : Py α) >>= f) = .error .zeroDivision := rfl
@[simp] theorem pure_ok {α : Type} (a : α) : (pure a : Py α) = .ok a := rfl

end Ex

theorem Returns.inj {c : Py (Fl Exact)} {x y : ℝ} (h : Returns c x) (h' : Returns c y) : x = y := by
  unfold Returns at h h'
  rw [h] at h'
  exact Ex.fin_inj.mp (Except.ok.inj h')

theorem returns_iff {x y : ℝ} : Returns (A := Exact) (.ok (xf x)) y ↔ x = y := by
  constructor
  · intro h; exact Returns.inj (x := x) rfl h
  · rintro rfl; rfl

end Choclo
