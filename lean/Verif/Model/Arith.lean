import Mathlib.Analysis.SpecialFunctions.Trigonometric.Arctan
import Mathlib.Analysis.SpecialFunctions.Log.Basic

/-!
# Values, arithmetic and exceptions

The value domain in which all choclo functions are modelled.  `Raw` is a floating-point datum
without signed zeros.  `Arith` collects everything a particular floating-point system decides
(rounding, library functions, the value of `np.pi`); the IEEE rules for NaN and infinities and
Numba's exception on division by zero are fixed below.

Source modelled: the semantics of Python/Numba scalar arithmetic as used in `/repo/src/choclo`
(all functions are `@jit(nopython=True)` with Numba's default `error_model="python"`).
Simplification: zeros carry no sign.
-/

namespace Choclo

open Classical

/-- A floating-point datum: NaN, an infinity (`true` = negative) or a finite real number.
Models the float64 scalars handled by every function in `/repo/src/choclo`
(signed zeros are identified).
Models `/repo/src/choclo/utils.py:49-55`. -/
inductive Raw where
  | nan : Raw
  | inf (neg : Bool) : Raw
  | fin (x : ℝ) : Raw

/-- A floating-point system: rounding, library functions at finite arguments, and the constant
`np.pi` (numpy, imported in `/repo/src/choclo/utils.py:11`, `/repo/src/choclo/prism/_kernels.py:11`,
`/repo/src/choclo/dipole/_forward.py:7`). -/
structure Arith where
  /-- rounding of an exact real result -/
  rnd : ℝ → Raw
  /-- `x ** n` for a literal natural exponent -/
  pow : ℝ → ℕ → Raw
  /-- `np.log` at a positive finite number -/
  log : ℝ → Raw
  /-- `np.arctan` at a finite number -/
  atan : ℝ → Raw
  /-- `np.sin` at a finite number -/
  sin : ℝ → Raw
  /-- `np.cos` at a finite number -/
  cos : ℝ → Raw
  /-- `np.radians` at a finite number -/
  radians : ℝ → Raw
  /-- `np.pi` -/
  pi : ℝ

/-- Numbers computed in the arithmetic `A`.
Models `/repo/src/choclo/utils.py:49-55` and every other function: the float64 scalars it computes with. -/
def Fl (_A : Arith) : Type := Raw

/-- The only exception that the modelled code can raise (Numba, default error model).
Models `/repo/src/choclo/point/_kernels.py:276` (raised by the division when `distance` is zero). -/
inductive PyErr where
  | zeroDivision : PyErr
  deriving DecidableEq

/-- A Python/Numba computation: a value or an exception.
Models `/repo/src/choclo/point/_forward.py:29` `@jit(nopython=True)`, on every function: it returns or raises. -/
abbrev Py (α : Type) : Type := Except PyErr α

/-- Exact real arithmetic: no rounding, exact library functions, exact π.
Models `/repo/src/choclo/utils.py:49-55` and every other function, with its arithmetic idealised. -/
noncomputable def Exact : Arith where
  rnd x := .fin x
  pow x n := .fin (x ^ n)
  log x := .fin (Real.log x)
  atan x := .fin (Real.arctan x)
  sin x := .fin (Real.sin x)
  cos x := .fin (Real.cos x)
  radians x := .fin (x * (Real.pi / 180))
  pi := Real.pi

namespace Fl

variable {A : Arith}

/-- A datum produced by the arithmetic `A`.
Models `/repo/src/choclo/utils.py:50` (the result of a single operation). -/
def ofRaw (r : Raw) : Fl A := r
/-- NaN (`np.nan`).
Models `/repo/src/choclo/prism/_kernels.py:428`. -/
def nan : Fl A := Raw.nan
/-- An infinity.
Models `/repo/src/choclo/prism/_kernels.py:860` (overflow of a float expression). -/
def inf (neg : Bool) : Fl A := Raw.inf neg
/-- A finite number.
Models `/repo/src/choclo/utils.py:50` (an ordinary float64). -/
def fin (x : ℝ) : Fl A := Raw.fin x

/-- A finite number as a float. Models `/repo/src/choclo/utils.py:50`. -/
instance : Coe ℝ (Fl A) := ⟨fin⟩

/-- Is the number NaN? (`np.isnan`)
Models `/repo/src/choclo/prism/_kernels.py:428` (results that are `np.nan`). -/
def IsNaN (a : Fl A) : Prop := a = nan
/-- Is the number finite? (`np.isfinite`)
Models `/repo/src/choclo/utils.py:50` (results that are numbers). -/
def IsFinite (a : Fl A) : Prop := ∃ x : ℝ, a = fin x

/-- Unary minus (exact in every floating-point system).
Models `/repo/src/choclo/point/_kernels.py:112`. -/
def neg : Fl A → Fl A
  | .nan => nan
  | .inf s => inf (!s)
  | .fin x => fin (-x)

/-- Addition.
Models `/repo/src/choclo/prism/_kernels.py:860` `x + r`. -/
noncomputable def add : Fl A → Fl A → Fl A
  | .nan, _ => nan
  | _, .nan => nan
  | .inf s, .inf t => if s = t then inf s else nan
  | .inf s, .fin _ => inf s
  | .fin _, .inf s => inf s
  | .fin x, .fin y => ofRaw (A.rnd (x + y))

/-- Sign of an infinity times a finite number.
Models `/repo/src/choclo/prism/_kernels.py:856` `-2 * x` with an infinite `x`. -/
noncomputable def mulInf (s : Bool) (x : ℝ) : Fl A :=
  if x = 0 then nan else if 0 < x then inf s else inf (!s)

/-- Multiplication.
Models `/repo/src/choclo/prism/_kernels.py:856` `-2 * x`. -/
noncomputable def mul : Fl A → Fl A → Fl A
  | .nan, _ => nan
  | _, .nan => nan
  | .inf s, .inf t => inf (xor s t)
  | .inf s, .fin x => mulInf s x
  | .fin x, .inf s => mulInf s x
  | .fin x, .fin y => ofRaw (A.rnd (x * y))

/-- Division; raises `ZeroDivisionError` when the denominator compares equal to zero.
Models `/repo/src/choclo/prism/_kernels.py:778` `y / x`. -/
noncomputable def div : Fl A → Fl A → Py (Fl A)
  | .nan, .fin y => if y = 0 then .error .zeroDivision else .ok nan
  | .inf s, .fin y =>
      if y = 0 then .error .zeroDivision else if 0 < y then .ok (inf s) else .ok (inf (!s))
  | .fin x, .fin y => if y = 0 then .error .zeroDivision else .ok (ofRaw (A.rnd (x / y)))
  | .nan, _ => .ok nan
  | _, .nan => .ok nan
  | .inf _, .inf _ => .ok nan
  | .fin _, .inf _ => .ok (fin 0)

/-- `x ** n` for a literal exponent `n`.
Models `/repo/src/choclo/point/_kernels.py:112` `distance**3`. -/
noncomputable def pow : Fl A → ℕ → Fl A
  | .nan, n => if n = 0 then fin 1 else nan
  | .inf s, n => if n = 0 then fin 1 else inf (s && decide (n % 2 = 1))
  | .fin x, n => ofRaw (A.pow x n)

/-- `np.sqrt`.
Models `/repo/src/choclo/utils.py:50`. -/
noncomputable def sqrt : Fl A → Fl A
  | .nan => nan
  | .inf s => if s then nan else inf false
  | .fin x => if x < 0 then nan else ofRaw (A.rnd (Real.sqrt x))

/-- `np.log`.
Models `/repo/src/choclo/prism/_kernels.py:856-860`. -/
noncomputable def log : Fl A → Fl A
  | .nan => nan
  | .inf s => if s then nan else inf false
  | .fin x => if x < 0 then nan else if x = 0 then inf true else ofRaw (A.log x)

/-- `np.arctan`.
Models `/repo/src/choclo/prism/_kernels.py:778`. -/
noncomputable def arctan : Fl A → Fl A
  | .nan => nan
  | .inf s => if s then ofRaw (A.rnd (-(A.pi / 2))) else ofRaw (A.rnd (A.pi / 2))
  | .fin x => ofRaw (A.atan x)

/-- `np.sin`.
Models `/repo/src/choclo/utils.py:113`. -/
def sin : Fl A → Fl A
  | .nan => nan
  | .inf _ => nan
  | .fin x => ofRaw (A.sin x)

/-- `np.cos`.
Models `/repo/src/choclo/utils.py:112`. -/
def cos : Fl A → Fl A
  | .nan => nan
  | .inf _ => nan
  | .fin x => ofRaw (A.cos x)

/-- `np.radians`.
Models `/repo/src/choclo/utils.py:109-110`. -/
def radians : Fl A → Fl A
  | .nan => nan
  | .inf s => inf s
  | .fin x => ofRaw (A.radians x)

/-- `np.pi`.
Models `/repo/src/choclo/prism/_kernels.py:772`. -/
def pi : Fl A := fin A.pi

/-- `a < b` (false if either is NaN).
Models `/repo/src/choclo/prism/_utils.py:47`. -/
noncomputable def lt : Fl A → Fl A → Bool
  | .nan, _ => false
  | _, .nan => false
  | .inf s, .inf t => s && !t
  | .inf s, .fin _ => s
  | .fin _, .inf s => !s
  | .fin x, .fin y => decide (x < y)

/-- `a <= b` (false if either is NaN).
Models `/repo/src/choclo/prism/_utils.py:158`. -/
noncomputable def le : Fl A → Fl A → Bool
  | .nan, _ => false
  | _, .nan => false
  | .inf s, .inf t => s || !t
  | .inf s, .fin _ => s
  | .fin _, .inf s => !s
  | .fin x, .fin y => decide (x ≤ y)

/-- `a == b` (false if either is NaN).
Models `/repo/src/choclo/prism/_kernels.py:770` `x == 0`. -/
noncomputable def eq : Fl A → Fl A → Bool
  | .nan, _ => false
  | _, .nan => false
  | .inf s, .inf t => s == t
  | .inf _, .fin _ => false
  | .fin _, .inf _ => false
  | .fin x, .fin y => decide (x = y)

/-- `-a`. Models `/repo/src/choclo/point/_kernels.py:112`. -/
instance : Neg (Fl A) := ⟨neg⟩
/-- `a + b`. Models `/repo/src/choclo/prism/_kernels.py:860`. -/
noncomputable instance : Add (Fl A) := ⟨add⟩
/-- `a - b` is computed as `a + (-b)` (the same in IEEE arithmetic).
Models `/repo/src/choclo/utils.py:51`. -/
noncomputable instance : Sub (Fl A) := ⟨fun a b => add a (neg b)⟩
/-- `a * b`. Models `/repo/src/choclo/prism/_kernels.py:856`. -/
noncomputable instance : Mul (Fl A) := ⟨mul⟩
/-- `x ** n`.
Models `/repo/src/choclo/point/_kernels.py:112`. -/
noncomputable instance : HPow (Fl A) ℕ (Fl A) := ⟨pow⟩
/-- Integer literals (exactly representable in the code).
Models `/repo/src/choclo/point/_kernels.py:276`. -/
instance (n : ℕ) : OfNat (Fl A) n := ⟨fin n⟩
/-- The literal `0.5` (exactly representable).
Models `/repo/src/choclo/prism/_kernels.py:94`. -/
noncomputable def half : Fl A := fin (1 / 2)
/-- Integers entering a float expression, e.g. `(-1) ** (i + j + k)`.
Models `/repo/src/choclo/prism/_magnetic.py:278` `(-1) ** (i + j + k)`. -/
instance : IntCast (Fl A) := ⟨fun n => fin n⟩
/-- A decimal literal, rounded to the arithmetic.
Models `/repo/src/choclo/constants.py:12-15`. -/
def lit (x : ℝ) : Fl A := ofRaw (A.rnd x)

end Fl

/-- `x / y` as a computation that may raise; written `x /. y`. -/
infixl:70 " /. " => Fl.div

end Choclo
