import Verif.Spec.Scaling
import Verif.Lemmas.NaN
import Verif.Lemmas.Generic
import Mathlib.Tactic.FieldSimp
import Mathlib.Tactic.Linarith

/-! # Arithmetic of numbers scaled by powers of two -/

namespace Choclo

open Classical

variable {A : Arith}

namespace Fl

theorem two_pos (k : ℤ) : (0 : ℝ) < 2 ^ k := zpow_pos (by norm_num) k

@[simp] theorem scale_nan (k : ℤ) : scale k (nan : Fl A) = nan := rfl
@[simp] theorem scale_inf (k : ℤ) (s : Bool) : scale k (inf s : Fl A) = inf s := rfl
@[simp] theorem scale_fin (k : ℤ) (x : ℝ) : scale k (fin x : Fl A) = fin (2 ^ k * x) := rfl

theorem scale_zero (k : ℤ) : scale k (0 : Fl A) = 0 := by
  show (fin (2 ^ k * ((0 : ℕ) : ℝ)) : Fl A) = fin ((0 : ℕ) : ℝ)
  simp

theorem scale_scale (j k : ℤ) (a : Fl A) : scale j (scale k a) = scale (j + k) a := by
  cases a with
  | nan => rfl
  | inf s => rfl
  | fin x =>
    show (fin (2 ^ j * (2 ^ k * x)) : Fl A) = fin (2 ^ (j + k) * x)
    rw [zpow_add₀ (by norm_num)]; congr 1; ring

theorem scale_by_zero (a : Fl A) : scale 0 a = a := by
  cases a with
  | nan => rfl
  | inf s => rfl
  | fin x => show (fin (2 ^ (0 : ℤ) * x) : Fl A) = fin x; simp

theorem scale_neg (k : ℤ) (a : Fl A) : -(scale k a) = scale k (-a) := by
  cases a with
  | nan => rfl
  | inf s => rfl
  | fin x => show (fin (-(2 ^ k * x)) : Fl A) = fin (2 ^ k * -x); congr 1; ring

variable (hA : A.ScaleInvariant)
include hA

theorem rnd_scale (k : ℤ) (x : ℝ) : (ofRaw (A.rnd (2 ^ k * x)) : Fl A) = scale k (ofRaw (A.rnd x)) := by
  rw [hA.rnd_scale]; rfl

theorem scale_add (k : ℤ) (a b : Fl A) : scale k a + scale k b = scale k (a + b) := by
  cases a with
  | nan => exact (nan_add _).trans (by rw [show (Raw.nan : Fl A) = nan from rfl, nan_add, scale_nan])
  | inf s =>
    cases b with
    | nan => rfl
    | inf t =>
      show (if s = t then (inf s : Fl A) else nan) = scale k (if s = t then (inf s : Fl A) else nan)
      split <;> rfl
    | fin y => rfl
  | fin x =>
    cases b with
    | nan => rfl
    | inf t => rfl
    | fin y =>
      show (ofRaw (A.rnd (2 ^ k * x + 2 ^ k * y)) : Fl A) = scale k (ofRaw (A.rnd (x + y)))
      rw [← mul_add, rnd_scale hA]

theorem scale_sub (k : ℤ) (a b : Fl A) : scale k a - scale k b = scale k (a - b) := by
  show scale k a + -(scale k b) = scale k (a + -b)
  rw [scale_neg, scale_add hA]

theorem scale_mul (j k : ℤ) (a b : Fl A) : scale j a * scale k b = scale (j + k) (a * b) := by
  have hm : ∀ (k : ℤ) (s : Bool) (x : ℝ), mulInf (A := A) s (2 ^ k * x) = mulInf s x := by
    intro k s x
    have h2 := two_pos k
    unfold mulInf
    simp only [mul_eq_zero, h2.ne', false_or, mul_pos_iff_of_pos_left h2]
  have hs : ∀ (l : ℤ) (s : Bool) (x : ℝ), scale l (mulInf (A := A) s x) = mulInf s x := by
    intro l s x
    unfold mulInf
    split
    · rfl
    · split <;> rfl
  cases a with
  | nan => exact (nan_mul _).trans (by rw [show (Raw.nan : Fl A) = nan from rfl, nan_mul, scale_nan])
  | inf s =>
    cases b with
    | nan => rfl
    | inf t => rfl
    | fin y =>
      show mulInf (A := A) s (2 ^ k * y) = scale (j + k) (mulInf s y)
      rw [hm, hs]
  | fin x =>
    cases b with
    | nan => rfl
    | inf t =>
      show mulInf (A := A) t (2 ^ j * x) = scale (j + k) (mulInf t x)
      rw [hm, hs]
    | fin y =>
      show (ofRaw (A.rnd (2 ^ j * x * (2 ^ k * y))) : Fl A) = scale (j + k) (ofRaw (A.rnd (x * y)))
      rw [← rnd_scale hA, zpow_add₀ (by norm_num)]
      congr 2; ring

theorem mul_scale (k : ℤ) (a b : Fl A) : a * scale k b = scale k (a * b) := by
  have := scale_mul hA 0 k a b
  rwa [scale_by_zero, zero_add] at this

theorem scale_mul_left (k : ℤ) (a b : Fl A) : scale k a * b = scale k (a * b) := by
  have := scale_mul hA k 0 a b
  rwa [scale_by_zero, add_zero] at this

theorem scale_pow (k : ℤ) (a : Fl A) (n : ℕ) (hn : n ≠ 0) : scale k a ^ n = scale (n * k) (a ^ n) := by
  cases a with
  | nan =>
    have e : pow (nan : Fl A) n = nan := by show ite _ _ _ = _; exact if_neg hn
    show pow (nan : Fl A) n = scale _ (pow (nan : Fl A) n)
    rw [e]; rfl
  | inf s =>
    have e : ∃ t, pow (inf s : Fl A) n = inf t := by
      refine ⟨s && decide (n % 2 = 1), ?_⟩
      · show ite _ _ _ = _; exact if_neg hn
    obtain ⟨t, e⟩ := e
    show pow (inf s : Fl A) n = scale _ (pow (inf s : Fl A) n)
    rw [e]; rfl
  | fin x =>
    show (ofRaw (A.pow (2 ^ k * x) n) : Fl A) = scale _ (ofRaw (A.pow x n))
    rw [hA.pow_scale]; rfl

theorem scale_sqrt (k : ℤ) (a : Fl A) : sqrt (scale (2 * k) a) = scale k (sqrt a) := by
  cases a with
  | nan => rfl
  | inf s => show (if s then (nan : Fl A) else inf false) = scale k (if s then (nan : Fl A) else inf false); split <;> rfl
  | fin x =>
    have h2 := two_pos (2 * k)
    show (if 2 ^ (2 * k) * x < 0 then (nan : Fl A) else ofRaw (A.rnd (Real.sqrt (2 ^ (2 * k) * x)))) =
      scale k (if x < 0 then nan else ofRaw (A.rnd (Real.sqrt x)))
    have e : (2 ^ (2 * k) * x < 0) ↔ x < 0 := by
      rw [mul_neg_iff]; constructor
      · rintro (h | h)
        · exact h.2
        · exact absurd h.1 (not_lt.2 h2.le)
      · intro h; exact .inl ⟨h2, h⟩
    by_cases hx : x < 0
    · rw [if_pos hx, if_pos (e.2 hx)]; rfl
    · rw [if_neg hx, if_neg (fun h => hx (e.1 h)), ← rnd_scale hA]
      congr 2
      have e2 : (2 : ℝ) ^ (2 * k) = (2 ^ k) ^ 2 := by rw [mul_comm, zpow_mul]; norm_cast
      rw [Real.sqrt_mul h2.le, e2, Real.sqrt_sq (two_pos k).le]

theorem scale_div (j k : ℤ) (a b : Fl A) : scale j a /. scale k b = Py.scaled (j - k) (a /. b) := by
  have e0 : ∀ y : ℝ, (2 ^ k * y = 0) ↔ y = 0 := fun y => by
    rw [mul_eq_zero]; simp [(two_pos k).ne']
  have e1 : ∀ y : ℝ, (0 < 2 ^ k * y) ↔ 0 < y := fun y => mul_pos_iff_of_pos_left (two_pos k)
  cases b with
  | nan => cases a <;> rfl
  | inf t =>
    cases a with
    | nan => rfl
    | inf s => rfl
    | fin x =>
      show (Except.ok (fin 0) : Py (Fl A)) = Except.ok (scale (j - k) (fin 0))
      rw [scale_fin, mul_zero]
  | fin y =>
    cases a with
    | nan =>
      show (if 2 ^ k * y = 0 then (.error .zeroDivision : Py (Fl A)) else .ok nan) =
        Py.scaled (j - k) (if y = 0 then .error .zeroDivision else .ok nan)
      by_cases hy : y = 0
      · rw [if_pos hy, if_pos ((e0 y).2 hy)]; rfl
      · rw [if_neg hy, if_neg (fun h => hy ((e0 y).1 h))]; rfl
    | inf s =>
      show (if 2 ^ k * y = 0 then (.error .zeroDivision : Py (Fl A)) else if 0 < 2 ^ k * y then .ok (inf s) else .ok (inf !s)) =
        Py.scaled (j - k) (if y = 0 then .error .zeroDivision else if 0 < y then .ok (inf s) else .ok (inf !s))
      by_cases hy : y = 0
      · rw [if_pos hy, if_pos ((e0 y).2 hy)]; rfl
      · rw [if_neg hy, if_neg (fun h => hy ((e0 y).1 h))]
        by_cases hp : 0 < y
        · rw [if_pos hp, if_pos ((e1 y).2 hp)]; rfl
        · rw [if_neg hp, if_neg (fun h => hp ((e1 y).1 h))]; rfl
    | fin x =>
      show (if 2 ^ k * y = 0 then (.error .zeroDivision : Py (Fl A)) else .ok (ofRaw (A.rnd (2 ^ j * x / (2 ^ k * y))))) =
        Py.scaled (j - k) (if y = 0 then .error .zeroDivision else .ok (ofRaw (A.rnd (x / y))))
      by_cases hy : y = 0
      · rw [if_pos hy, if_pos ((e0 y).2 hy)]; rfl
      · rw [if_neg hy, if_neg (fun h => hy ((e0 y).1 h))]
        have : (2 : ℝ) ^ j * x / (2 ^ k * y) = 2 ^ (j - k) * (x / y) := by
          rw [zpow_sub₀ (by norm_num)]
          field_simp
        rw [this, rnd_scale hA]; rfl

omit hA

theorem eq_scale_zero (k : ℤ) (a : Fl A) : eq (scale k a) 0 = eq a 0 := by
  cases a with
  | nan => rfl
  | inf s => rfl
  | fin x =>
    show decide (2 ^ k * x = ((0 : ℕ) : ℝ)) = decide (x = ((0 : ℕ) : ℝ))
    simp [(two_pos k).ne']

theorem lt_scale_zero (k : ℤ) (a : Fl A) : lt (scale k a) 0 = lt a 0 := by
  cases a with
  | nan => rfl
  | inf s => rfl
  | fin x =>
    show decide (2 ^ k * x < ((0 : ℕ) : ℝ)) = decide (x < ((0 : ℕ) : ℝ))
    have h2 := two_pos k
    simp only [Nat.cast_zero, decide_eq_decide]
    constructor
    · intro h; by_contra hx; exact absurd (mul_nonneg h2.le (not_lt.1 hx)) (not_le.2 h)
    · intro h; exact mul_neg_of_pos_of_neg h2 h

theorem lt_zero_scale (k : ℤ) (a : Fl A) : lt 0 (scale k a) = lt 0 a := by
  cases a with
  | nan => rfl
  | inf s => rfl
  | fin x =>
    show decide (((0 : ℕ) : ℝ) < 2 ^ k * x) = decide (((0 : ℕ) : ℝ) < x)
    simp [mul_pos_iff_of_pos_left (two_pos k)]

theorem lt_scale (k : ℤ) (a b : Fl A) : lt (scale k a) (scale k b) = lt a b := by
  cases a <;> cases b <;> try rfl
  rename_i x y
  show decide (2 ^ k * x < 2 ^ k * y) = decide (x < y)
  simp [mul_lt_mul_iff_right₀ (two_pos k)]

theorem le_scale (k : ℤ) (a b : Fl A) : le (scale k a) (scale k b) = le a b := by
  cases a <;> cases b <;> try rfl
  rename_i x y
  show decide (2 ^ k * x ≤ 2 ^ k * y) = decide (x ≤ y)
  simp [mul_le_mul_iff_right₀ (two_pos k)]

theorem eq_scale (k : ℤ) (a b : Fl A) : eq (scale k a) (scale k b) = eq a b := by
  cases a <;> cases b <;> try rfl
  rename_i x y
  show decide (2 ^ k * x = 2 ^ k * y) = decide (x = y)
  simp [(two_pos k).ne']

end Fl

/-! ### computations -/

theorem Py.scaled_ok (k : ℤ) (a : Fl A) : Py.scaled k (.ok a) = .ok (Fl.scale k a) := rfl
theorem Py.scaled_error (k : ℤ) (e : PyErr) : Py.scaled k (.error e : Py (Fl A)) = .error e := rfl

theorem Py.scaled_bind (k : ℤ) (X : Py (Fl A)) {β : Type} (f : Fl A → Py β) :
    Py.scaled k X >>= f = X >>= fun a => f (Fl.scale k a) := by cases X <;> rfl

theorem Py.scaled_by_zero (X : Py (Fl A)) : Py.scaled 0 X = X := by
  cases X with
  | error e => rfl
  | ok a => show Except.ok (Fl.scale 0 a) = _; rw [Fl.scale_by_zero]

theorem Py.scaled_pure (k : ℤ) (X : Py (Fl A)) (f g : Fl A → Fl A) (h : ∀ a, f a = Fl.scale k (g a)) :
    (X >>= fun a => pure (f a)) = Py.scaled k (X >>= fun a => pure (g a)) := by
  cases X with
  | error e => rfl
  | ok a => show Except.ok (f a) = Except.ok (Fl.scale k (g a)); rw [h]

theorem Py.scaled_congr (k : ℤ) {β : Type} (X : Py β) (f g : β → Py (Fl A)) (h : ∀ a, f a = Py.scaled k (g a)) :
    (X >>= f) = Py.scaled k (X >>= g) := by
  cases X with
  | error e => rfl
  | ok a => exact h a

/-- a difference of two quotients of the same dimension -/
theorem sub_div_scale (hA : A.ScaleInvariant) {j k l m t : ℤ} (h1 : j - k = t) (h2 : l - m = t) (a b c d : Fl A) :
    (do return (← Fl.scale j a /. Fl.scale k b) - (← Fl.scale l c /. Fl.scale m d) : Py (Fl A)) =
      Py.scaled t (do return (← a /. b) - (← c /. d)) := by
  rw [Fl.scale_div hA, Fl.scale_div hA, h1, h2]
  cases a /. b with
  | error e => rfl
  | ok x =>
    cases c /. d with
    | error e => rfl
    | ok y =>
      show Except.ok (Fl.scale t x - Fl.scale t y) = Except.ok (Fl.scale t (x - y))
      rw [Fl.scale_sub hA]

end Choclo
