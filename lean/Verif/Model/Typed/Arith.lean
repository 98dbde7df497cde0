import Verif.Model.Arith

/-!
# Arguments that are integers

The functions of choclo are compiled by Numba for the types of the arguments of the call.  If Python
integers or integer arrays are passed, part of the computation runs in int64 arithmetic.

Source modelled: the semantics of `@jit(nopython=True)` scalar code as used in `/repo/src/choclo` for
arguments of type int64 or float64:

* `+`, `-`, `*` and `** n` (literal `n`) of int64 numbers give an int64, reduced modulo `2^64`;
* an operation with an int64 and a float64 converts the integer to float64 first; `/`, `np.sqrt`, `np.log`,
  `np.arctan`, `np.sin`, `np.cos`, `np.radians` convert integers to float64;
* a variable or a return value that is an integer literal on one path and a float64 on another is a float64.

Simplification: when only some of the arguments are integers, Numba may convert an integer to float64 where
two paths meet (`shift_east = ... if i == 0 else ...`), where this model keeps an integer; such integers are
below `2^53` in all theorems, so that the conversion is exact and cannot change any result.
-/

namespace Choclo

open Classical

/-- A scalar handled by a compiled choclo function: an int64 or a float64.
Models `/repo/src/choclo/utils.py:49-55` and every other function: Numba scalars, int64 or float64. -/
inductive TFl (A : Arith) where
  | int (n : ℤ) : TFl A
  | flt (x : Fl A) : TFl A

/-- Reduction of an integer result to int64.
Models `/repo/src/choclo/utils.py:51` (an int64 difference that overflows). -/
def wrap64 (n : ℤ) : ℤ := Int.bmod n (2 ^ 64)

namespace TFl

variable {A : Arith}

/-- Conversion to float64.
Models `/repo/src/choclo/utils.py:50` (`np.sqrt` of an integer). -/
def toFl : TFl A → Fl A
  | .int n => Fl.ofRaw (A.rnd n)
  | .flt x => x

/-- NaN (`np.nan`).
Models `/repo/src/choclo/prism/_kernels.py:428`. -/
def nan : TFl A := .flt Fl.nan
/-- `np.pi`.
Models `/repo/src/choclo/prism/_kernels.py:772`. -/
def pi : TFl A := .flt Fl.pi
/-- The literal `0.5`.
Models `/repo/src/choclo/prism/_kernels.py:94`. -/
noncomputable def half : TFl A := .flt Fl.half
/-- A decimal literal.
Models `/repo/src/choclo/constants.py:12-15`. -/
def lit (x : ℝ) : TFl A := .flt (Fl.lit x)

/-- Unary minus.
Models `/repo/src/choclo/point/_kernels.py:112`. -/
def neg : TFl A → TFl A
  | .int n => .int (wrap64 (-n))
  | .flt x => .flt (-x)

/-- Addition.
Models `/repo/src/choclo/prism/_kernels.py:860` `x + r`. -/
noncomputable def add : TFl A → TFl A → TFl A
  | .int n, .int m => .int (wrap64 (n + m))
  | a, b => .flt (a.toFl + b.toFl)

/-- Subtraction.
Models `/repo/src/choclo/utils.py:51` `easting_p - easting_q`. -/
noncomputable def sub : TFl A → TFl A → TFl A
  | .int n, .int m => .int (wrap64 (n - m))
  | a, b => .flt (a.toFl - b.toFl)

/-- Multiplication.
Models `/repo/src/choclo/prism/_kernels.py:856` `-2 * x`. -/
noncomputable def mul : TFl A → TFl A → TFl A
  | .int n, .int m => .int (wrap64 (n * m))
  | a, b => .flt (a.toFl * b.toFl)

/-- `x ** k` for a literal exponent.
Models `/repo/src/choclo/point/_kernels.py:112` `distance**3`. -/
noncomputable def pow : TFl A → ℕ → TFl A
  | .int n, k => .int (wrap64 (n ^ k))
  | .flt x, k => .flt (x ^ k)

/-- `x / y`: always a float64.
Models `/repo/src/choclo/prism/_kernels.py:778` `y / x`. -/
noncomputable def div (a b : TFl A) : Py (TFl A) := (a.toFl /. b.toFl).map .flt

/-- `np.sqrt`.
Models `/repo/src/choclo/utils.py:50`. -/
noncomputable def sqrt (a : TFl A) : TFl A := .flt (Fl.sqrt a.toFl)
/-- `np.log`.
Models `/repo/src/choclo/prism/_kernels.py:856-860`. -/
noncomputable def log (a : TFl A) : TFl A := .flt (Fl.log a.toFl)
/-- `np.arctan`.
Models `/repo/src/choclo/prism/_kernels.py:778`. -/
noncomputable def arctan (a : TFl A) : TFl A := .flt (Fl.arctan a.toFl)
/-- `np.sin`.
Models `/repo/src/choclo/utils.py:113`. -/
def sin (a : TFl A) : TFl A := .flt (Fl.sin a.toFl)
/-- `np.cos`.
Models `/repo/src/choclo/utils.py:112`. -/
def cos (a : TFl A) : TFl A := .flt (Fl.cos a.toFl)
/-- `np.radians`.
Models `/repo/src/choclo/utils.py:109-110`. -/
def radians (a : TFl A) : TFl A := .flt (Fl.radians a.toFl)

/-- `a < b`.
Models `/repo/src/choclo/prism/_utils.py:47`. -/
noncomputable def lt : TFl A → TFl A → Bool
  | .int n, .int m => decide (n < m)
  | a, b => Fl.lt a.toFl b.toFl

/-- `a <= b`.
Models `/repo/src/choclo/prism/_utils.py:158`. -/
noncomputable def le : TFl A → TFl A → Bool
  | .int n, .int m => decide (n ≤ m)
  | a, b => Fl.le a.toFl b.toFl

/-- `a == b` (the comparisons of an integer with the literal `0.0` are modelled as comparisons with `0`).
Models `/repo/src/choclo/prism/_kernels.py:770` `x == 0`. -/
noncomputable def eq : TFl A → TFl A → Bool
  | .int n, .int m => decide (n = m)
  | a, b => Fl.eq a.toFl b.toFl

/-- `-a`. Models `/repo/src/choclo/point/_kernels.py:112`. -/
instance : Neg (TFl A) := ⟨neg⟩
/-- `a + b`. Models `/repo/src/choclo/prism/_kernels.py:860`. -/
noncomputable instance : Add (TFl A) := ⟨add⟩
/-- `a - b`. Models `/repo/src/choclo/utils.py:51`. -/
noncomputable instance : Sub (TFl A) := ⟨sub⟩
/-- `a * b`. Models `/repo/src/choclo/prism/_kernels.py:856`. -/
noncomputable instance : Mul (TFl A) := ⟨mul⟩
/-- `x ** n`.
Models `/repo/src/choclo/point/_kernels.py:112`. -/
noncomputable instance : HPow (TFl A) ℕ (TFl A) := ⟨pow⟩
/-- Integer literals are int64.
Models `/repo/src/choclo/point/_kernels.py:276`. -/
instance (n : ℕ) : OfNat (TFl A) n := ⟨.int n⟩
/-- Integers entering an expression, e.g. `(-1) ** (i + j + k)`.
Models `/repo/src/choclo/prism/_magnetic.py:278` `(-1) ** (i + j + k)`. -/
instance : IntCast (TFl A) := ⟨fun n => .int n⟩

end TFl

/-- `x / y` as a computation that may raise. -/
infixl:70 " /ᵢ " => TFl.div

end Choclo
