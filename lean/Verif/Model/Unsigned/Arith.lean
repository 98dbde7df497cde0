import Verif.Model.Typed.Arith

/-!
# Arguments that are unsigned integers

Arrays of `uint8`, ..., `uint64` may be passed to the functions of `/repo/src/choclo` too.  Source modelled: the semantics of
`@jit(nopython=True)` scalar code for arguments of type int64, uint64 or float64 (smaller integers are promoted to these), with
Numba's rules:

* `+`, `-`, `*` of two uint64 numbers, and the negative of one, are uint64 numbers, reduced modulo `2^64`: `2 - 5` is `2^64 - 3`;
* `+`, `-`, `*` of an int64 and a uint64, and of a uint64 and an integer literal, and `** n` with a literal `n`, are int64 numbers,
  reduced modulo `2^64`;
* an operation with a float64 converts the integer to float64 first, so do `/` and `np.sqrt`: the conversion of a uint64 is to a
  number that is not negative.

Only what the point and dipole functions and `distance_cartesian` need is modelled: there are no comparisons.
-/

namespace Choclo

/-- A scalar: an int64, a uint64 or a float64.
Models `/repo/src/choclo/utils.py:49-55` and the point functions: Numba scalars. -/
inductive UFl (A : Arith) where
  | int (n : ℤ) : UFl A
  | uint (n : ℕ) : UFl A
  | flt (x : Fl A) : UFl A

/-- Reduction of an integer result to uint64.
Models `/repo/src/choclo/utils.py:51` (a uint64 difference that would be negative). -/
def wrapU (n : ℤ) : ℕ := (n % 2 ^ 64).toNat

namespace UFl

variable {A : Arith}

/-- Conversion to float64.
Models `/repo/src/choclo/utils.py:50` (`np.sqrt` of an integer). -/
def toFl : UFl A → Fl A
  | .int n => Fl.ofRaw (A.rnd n)
  | .uint n => Fl.ofRaw (A.rnd n)
  | .flt x => x

/-- `np.pi`.
Models `/repo/src/choclo/dipole/_forward.py:100` `VACUUM_MAGNETIC_PERMEABILITY / 4 / np.pi`. -/
def pi : UFl A := .flt Fl.pi
/-- A decimal literal.
Models `/repo/src/choclo/constants.py:12-15`. -/
def lit (x : ℝ) : UFl A := .flt (Fl.lit x)

/-- Unary minus: of a uint64 it is a uint64.
Models `/repo/src/choclo/point/_kernels.py:112` `-(easting_p - easting_q)`. -/
def neg : UFl A → UFl A
  | .int n => .int (wrap64 (-n))
  | .uint n => .uint (wrapU (-n))
  | .flt x => .flt (-x)

/-- Addition.
Models `/repo/src/choclo/utils.py:51-53`. -/
noncomputable def add : UFl A → UFl A → UFl A
  | .int n, .int m => .int (wrap64 (n + m))
  | .int n, .uint m => .int (wrap64 (n + m))
  | .uint n, .int m => .int (wrap64 (n + m))
  | .uint n, .uint m => .uint (wrapU (n + m))
  | a, b => .flt (a.toFl + b.toFl)

/-- Subtraction.
Models `/repo/src/choclo/utils.py:51` `easting_p - easting_q`. -/
noncomputable def sub : UFl A → UFl A → UFl A
  | .int n, .int m => .int (wrap64 (n - m))
  | .int n, .uint m => .int (wrap64 (n - m))
  | .uint n, .int m => .int (wrap64 (n - m))
  | .uint n, .uint m => .uint (wrapU (n - m))
  | a, b => .flt (a.toFl - b.toFl)

/-- Multiplication.
Models `/repo/src/choclo/point/_kernels.py:445` `3 * (easting_p - easting_q) * (northing_p - northing_q)`. -/
noncomputable def mul : UFl A → UFl A → UFl A
  | .int n, .int m => .int (wrap64 (n * m))
  | .int n, .uint m => .int (wrap64 (n * m))
  | .uint n, .int m => .int (wrap64 (n * m))
  | .uint n, .uint m => .uint (wrapU (n * m))
  | a, b => .flt (a.toFl * b.toFl)

/-- `x ** k` for a literal exponent (an int64).
Models `/repo/src/choclo/utils.py:51` `(easting_p - easting_q) ** 2`. -/
noncomputable def pow : UFl A → ℕ → UFl A
  | .int n, k => .int (wrap64 (n ^ k))
  | .uint n, k => .int (wrap64 (n ^ k))
  | .flt x, k => .flt (x ^ k)

/-- `x / y`: always a float64.
Models `/repo/src/choclo/point/_kernels.py:112`. -/
noncomputable def div (a b : UFl A) : Py (UFl A) := (a.toFl /. b.toFl).map .flt

/-- `np.sqrt`.
Models `/repo/src/choclo/utils.py:50`. -/
noncomputable def sqrt (a : UFl A) : UFl A := .flt (Fl.sqrt a.toFl)

/-- `-a`. Models `/repo/src/choclo/point/_kernels.py:112`. -/
instance : Neg (UFl A) := ⟨neg⟩
/-- `a + b`. Models `/repo/src/choclo/utils.py:51`. -/
noncomputable instance : Add (UFl A) := ⟨add⟩
/-- `a - b`. Models `/repo/src/choclo/utils.py:51`. -/
noncomputable instance : Sub (UFl A) := ⟨sub⟩
/-- `a * b`. Models `/repo/src/choclo/point/_kernels.py:276`. -/
noncomputable instance : Mul (UFl A) := ⟨mul⟩
/-- `x ** n`.
Models `/repo/src/choclo/point/_kernels.py:112`. -/
noncomputable instance : HPow (UFl A) ℕ (UFl A) := ⟨pow⟩
/-- Integer literals are int64.
Models `/repo/src/choclo/point/_kernels.py:276`. -/
instance (n : ℕ) : OfNat (UFl A) n := ⟨.int n⟩

end UFl

/-- `x / y` as a computation that may raise. -/
infixl:70 " /ᵤ " => UFl.div

end Choclo
