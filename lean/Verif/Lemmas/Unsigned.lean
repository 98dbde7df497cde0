import Verif.Spec.Unsigned
import Mathlib.Data.Int.ModEq

/-! # Unsigned integers: a computation that ends with a signed one is the signed computation -/

namespace Choclo

variable {A : Arith}

theorem wrap64_congr {a b : ℤ} (h : a ≡ b [ZMOD 2 ^ 64]) : wrap64 a = wrap64 b := by
  unfold wrap64 Int.bmod
  have h' : a % ((2 ^ 64 : ℕ) : ℤ) = b % ((2 ^ 64 : ℕ) : ℤ) := by
    have : ((2 ^ 64 : ℕ) : ℤ) = 2 ^ 64 := by norm_num
    rw [this]; exact h
  simp only [h']

theorem wrap64_modEq (a : ℤ) : wrap64 a ≡ a [ZMOD 2 ^ 64] := by
  have := Int.bmod_emod (x := a) (m := 2 ^ 64)
  unfold wrap64 Int.ModEq
  exact_mod_cast this

theorem wrapU_modEq (a : ℤ) : (wrapU a : ℤ) ≡ a [ZMOD 2 ^ 64] := by
  unfold wrapU
  rw [Int.toNat_of_nonneg (Int.emod_nonneg _ (by norm_num))]
  exact Int.mod_modEq _ _

/-- the same signed integer -/
def Si (x : UFl A) (t : TFl A) : Prop := ∃ n, x = .int n ∧ t = .int n

/-- an integer that is congruent to the signed integer -/
def Co (x : UFl A) (t : TFl A) : Prop :=
  Si x t ∨ ∃ (m : ℕ) (n : ℤ), x = .uint m ∧ t = .int n ∧ (m : ℤ) ≡ n [ZMOD 2 ^ 64]

theorem Si.co {x : UFl A} {t : TFl A} (h : Si x t) : Co x t := .inl h

theorem Si.lit (n : ℕ) [n.AtLeastTwo] : Si (OfNat.ofNat n : UFl A) (OfNat.ofNat n : TFl A) := ⟨_, rfl, rfl⟩

theorem Si.toFl {x : UFl A} {t : TFl A} (h : Si x t) : x.toFl = t.toFl := by
  obtain ⟨n, rfl, rfl⟩ := h
  rfl

theorem Co.sub {x y : UFl A} {t s : TFl A} (h : Co x t) (k : Co y s) : Co (x - y) (t - s) := by
  rcases h with ⟨n, rfl, rfl⟩ | ⟨m, n, rfl, rfl, h⟩ <;> rcases k with ⟨n', rfl, rfl⟩ | ⟨m', n', rfl, rfl, k⟩
  · exact .inl ⟨_, rfl, rfl⟩
  · exact .inl ⟨_, congrArg UFl.int (wrap64_congr (Int.ModEq.sub_left _ k)), rfl⟩
  · exact .inl ⟨_, congrArg UFl.int (wrap64_congr (Int.ModEq.sub_right _ h)), rfl⟩
  · exact .inr ⟨_, _, rfl, rfl, (wrapU_modEq _).trans ((Int.ModEq.sub h k).trans (wrap64_modEq _).symm)⟩

theorem Co.add {x y : UFl A} {t s : TFl A} (h : Co x t) (k : Co y s) : Co (x + y) (t + s) := by
  rcases h with ⟨n, rfl, rfl⟩ | ⟨m, n, rfl, rfl, h⟩ <;> rcases k with ⟨n', rfl, rfl⟩ | ⟨m', n', rfl, rfl, k⟩
  · exact .inl ⟨_, rfl, rfl⟩
  · exact .inl ⟨_, congrArg UFl.int (wrap64_congr (Int.ModEq.add_left _ k)), rfl⟩
  · exact .inl ⟨_, congrArg UFl.int (wrap64_congr (Int.ModEq.add_right _ h)), rfl⟩
  · exact .inr ⟨_, _, rfl, rfl, (wrapU_modEq _).trans ((Int.ModEq.add h k).trans (wrap64_modEq _).symm)⟩

theorem Co.mul {x y : UFl A} {t s : TFl A} (h : Co x t) (k : Co y s) : Co (x * y) (t * s) := by
  rcases h with ⟨n, rfl, rfl⟩ | ⟨m, n, rfl, rfl, h⟩ <;> rcases k with ⟨n', rfl, rfl⟩ | ⟨m', n', rfl, rfl, k⟩
  · exact .inl ⟨_, rfl, rfl⟩
  · exact .inl ⟨_, congrArg UFl.int (wrap64_congr (Int.ModEq.mul_left _ k)), rfl⟩
  · exact .inl ⟨_, congrArg UFl.int (wrap64_congr (Int.ModEq.mul_right _ h)), rfl⟩
  · exact .inr ⟨_, _, rfl, rfl, (wrapU_modEq _).trans ((Int.ModEq.mul h k).trans (wrap64_modEq _).symm)⟩

theorem Si.add {x y : UFl A} {t s : TFl A} (h : Si x t) (k : Si y s) : Si (x + y) (t + s) := by
  obtain ⟨n, rfl, rfl⟩ := h
  obtain ⟨m, rfl, rfl⟩ := k
  exact ⟨_, rfl, rfl⟩

theorem Si.mul {x y : UFl A} {t s : TFl A} (h : Si x t) (k : Co y s) : Si (x * y) (t * s) := by
  obtain ⟨n, rfl, rfl⟩ := h
  rcases k with ⟨n', rfl, rfl⟩ | ⟨m', n', rfl, rfl, k⟩
  · exact ⟨_, rfl, rfl⟩
  · exact ⟨_, congrArg UFl.int (wrap64_congr (Int.ModEq.mul_left _ k)), rfl⟩

theorem Co.pow {x : UFl A} {t : TFl A} (h : Co x t) (k : ℕ) : Si (x ^ k) (t ^ k) := by
  rcases h with ⟨n, rfl, rfl⟩ | ⟨m, n, rfl, rfl, h⟩
  · exact ⟨_, rfl, rfl⟩
  · exact ⟨_, congrArg UFl.int (wrap64_congr (h.pow k)), rfl⟩

/-- the same number as an int64 or a float64 -/
def UFl.asInt : UFl A → TFl A
  | .int n => .int n
  | .uint n => .int n
  | .flt x => .flt x

theorem UFl.asInt_toFl (x : UFl A) : x.asInt.toFl = x.toFl := by
  cases x with
  | int n => rfl
  | uint n => show Fl.ofRaw (A.rnd ((n : ℤ) : ℝ)) = Fl.ofRaw (A.rnd (n : ℝ)); rw [Int.cast_natCast]
  | flt x => rfl

theorem UFl.IntegerUpTo.co {C : ℕ} {x : UFl A} (h : x.IntegerUpTo C) : Co x x.asInt := by
  cases x with
  | int n => exact .inl ⟨n, rfl, rfl⟩
  | uint n => exact .inr ⟨n, n, rfl, rfl, rfl⟩
  | flt x => exact h.elim

theorem UFl.IntegerUpTo.upTo {C : ℕ} {x : UFl A} (h : x.IntegerUpTo C) : UpTo C x.asInt := by
  cases x with
  | int n => exact h
  | uint n =>
    show |(n : ℤ)| ≤ C
    rw [abs_of_nonneg (Int.natCast_nonneg n)]
    exact_mod_cast (show n ≤ C from h)
  | flt x => exact h.elim

/-- a result of the signed computation as one of this one -/
def UFl.ofT : TFl A → UFl A
  | .int n => .int n
  | .flt x => .flt x

end Choclo
