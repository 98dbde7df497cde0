import Verif.Model.Interp.Arith

/-!
# Scalars of the Python interpreter

With `NUMBA_DISABLE_JIT=1` (`/repo/Makefile:30`) the functions of `/repo/src/choclo` are run by the Python
interpreter, on whatever scalars the caller passes: built-in floats, `np.float64` or Python integers.  Which of these a number is
matters in three ways, all kept here:

* a power of a built-in float that overflows raises `OverflowError`, that of an `np.float64` is infinite;
* a division of two built-in numbers by zero raises `ZeroDivisionError`, a division with an `np.float64` does not;
* integer literals stay integers (`_safe_atan2` and `_safe_log` return the integer `0`, and an integer zero has no sign).

An operation on a built-in number and an `np.float64` gives an `np.float64`; the numpy functions give `np.float64`;
`np.pi` and `np.nan` are built-in floats.
Simplifications: warnings are not modelled; an integer is converted to a float exactly, which is
right for the literals of the programs and for integer arguments of magnitude at most `2 ^ 53` (the theorems about
integer arguments keep every integer of a call below that bound).
-/

namespace Choclo

open Classical

/-- The exceptions of the interpreter.
Models `/repo/src/choclo/utils.py:51` (`OverflowError` of `**`) and `/repo/src/choclo/point/_kernels.py:59`
(`ZeroDivisionError`). -/
inductive PyExc where
  | zeroDivision : PyExc
  | overflow : PyExc
  deriving DecidableEq

/-- A computation of the interpreter: a value or an exception.
Models `/repo/src/choclo/utils.py:15-55` and every other function, run by the interpreter. -/
abbrev PyX (α : Type) : Type := Except PyExc α

/-- A scalar of the interpreter: an integer, a built-in float or an `np.float64`.
Models `/repo/src/choclo/utils.py:49-55` and every other function: the scalars it computes with. -/
inductive PNum (A : Arith) where
  | int (n : ℤ) : PNum A
  | float (x : SFl A) : PNum A
  | np64 (x : SFl A) : PNum A

namespace PNum

variable {A : Arith}

/-- The number as float.
Models `/repo/src/choclo/point/_kernels.py:276` (the integer `3` in a float expression). -/
noncomputable def value : PNum A → SFl A
  | .int n => SFl.fin n
  | .float x => x
  | .np64 x => x

/-- Is it an `np.float64`?
Models `/repo/src/choclo/utils.py:50` (a numpy function returns one). -/
def isNumpy : PNum A → Bool
  | .np64 _ => true
  | _ => false

/-- A float of the kind that results from operands `a` and `b` (not both integers).
Models `/repo/src/choclo/utils.py:51` `easting_p - easting_q`, on operands of either kind. -/
def mk (a b : PNum A) (x : SFl A) : PNum A := if a.isNumpy || b.isNumpy then .np64 x else .float x

/-- Unary minus.
Models `/repo/src/choclo/prism/_kernels.py:429` `-_safe_atan2(...)`. -/
def neg : PNum A → PNum A
  | .int n => .int (-n)
  | .float x => .float (-x)
  | .np64 x => .np64 (-x)

/-- Addition. Models `/repo/src/choclo/prism/_kernels.py:860` `x + r`. -/
noncomputable def add : PNum A → PNum A → PNum A
  | .int m, .int n => .int (m + n)
  | a, b => mk a b (a.value + b.value)

/-- Subtraction. Models `/repo/src/choclo/utils.py:51`. -/
noncomputable def sub : PNum A → PNum A → PNum A
  | .int m, .int n => .int (m - n)
  | a, b => mk a b (a.value - b.value)

/-- Multiplication. Models `/repo/src/choclo/prism/_kernels.py:856` `-2 * x`. -/
noncomputable def mul : PNum A → PNum A → PNum A
  | .int m, .int n => .int (m * n)
  | a, b => mk a b (a.value * b.value)

/-- Division: raises if both operands are built-in numbers and the divisor is zero.
Models `/repo/src/choclo/point/_kernels.py:59` `1 / distance`. -/
noncomputable def div (a b : PNum A) : PyX (PNum A) :=
  if SFl.eq b.value 0 && !(a.isNumpy || b.isNumpy) then .error .zeroDivision
  else .ok (mk a b (SFl.ndiv a.value b.value))

/-- Does the power of a finite number overflow?
Models `/repo/src/choclo/utils.py:51` `(easting_p - easting_q) ** 2`. -/
noncomputable def powOverflows (x : SFl A) (n : ℕ) : Bool :=
  match x with
  | .num y _ => match A.pow y n with
    | .inf _ => true
    | _ => false
  | _ => false

/-- `x ** n` for a literal exponent: raises if `x` is a built-in float and the power overflows.
Models `/repo/src/choclo/utils.py:51` `(easting_p - easting_q) ** 2`. -/
noncomputable def pow (a : PNum A) (n : ℕ) : PyX (PNum A) :=
  match a with
  | .int m => .ok (.int (m ^ n))
  | .float x => if powOverflows x n then .error .overflow else .ok (.float (x ^ n))
  | .np64 x => .ok (.np64 (x ^ n))

/-- `np.sqrt`. Models `/repo/src/choclo/utils.py:50`. -/
noncomputable def sqrt (a : PNum A) : PNum A := .np64 (SFl.sqrt a.value)
/-- `np.log`. Models `/repo/src/choclo/prism/_kernels.py:856-860`. -/
noncomputable def log (a : PNum A) : PNum A := .np64 (SFl.log a.value)
/-- `np.arctan`. Models `/repo/src/choclo/prism/_kernels.py:778`. -/
noncomputable def arctan (a : PNum A) : PNum A := .np64 (SFl.arctan a.value)
/-- `np.sin`. Models `/repo/src/choclo/utils.py:113`. -/
noncomputable def sin (a : PNum A) : PNum A := .np64 (SFl.sin a.value)
/-- `np.cos`. Models `/repo/src/choclo/utils.py:112`. -/
noncomputable def cos (a : PNum A) : PNum A := .np64 (SFl.cos a.value)
/-- `np.radians`. Models `/repo/src/choclo/utils.py:109-110`. -/
noncomputable def radians (a : PNum A) : PNum A := .np64 (SFl.radians a.value)

/-- `np.pi`, a built-in float. Models `/repo/src/choclo/prism/_kernels.py:772`. -/
noncomputable def pi : PNum A := .float SFl.pi
/-- `np.nan`, a built-in float. Models `/repo/src/choclo/prism/_kernels.py:428`. -/
def nan : PNum A := .float SFl.nan
/-- The literal `0.0`. Models `/repo/src/choclo/prism/_kernels.py:1440`. -/
noncomputable def fzero : PNum A := .float 0
/-- The literal `0.5`. Models `/repo/src/choclo/prism/_kernels.py:94`. -/
noncomputable def half : PNum A := .float SFl.half
/-- A decimal literal. Models `/repo/src/choclo/constants.py:12-15`. -/
noncomputable def lit (x : ℝ) : PNum A := .float (SFl.lit x)

/-- `a < b`. Models `/repo/src/choclo/prism/_utils.py:47`. -/
noncomputable def lt (a b : PNum A) : Bool := SFl.lt a.value b.value
/-- `a <= b`. Models `/repo/src/choclo/prism/_utils.py:158`. -/
noncomputable def le (a b : PNum A) : Bool := SFl.le a.value b.value
/-- `a == b`. Models `/repo/src/choclo/prism/_kernels.py:770` `x == 0`. -/
noncomputable def eq (a b : PNum A) : Bool := SFl.eq a.value b.value

/-- `-a`. Models `/repo/src/choclo/point/_kernels.py:112`. -/
instance : Neg (PNum A) := ⟨neg⟩
/-- `a + b`. Models `/repo/src/choclo/prism/_kernels.py:860`. -/
noncomputable instance : Add (PNum A) := ⟨add⟩
/-- `a - b`. Models `/repo/src/choclo/utils.py:51`. -/
noncomputable instance : Sub (PNum A) := ⟨sub⟩
/-- `a * b`. Models `/repo/src/choclo/prism/_kernels.py:856`. -/
noncomputable instance : Mul (PNum A) := ⟨mul⟩
/-- Integer literals. Models `/repo/src/choclo/point/_kernels.py:276`. -/
noncomputable instance (n : ℕ) : OfNat (PNum A) n := ⟨.int n⟩
/-- Integers, e.g. `(-1) ** (i + j + k)`. Models `/repo/src/choclo/prism/_magnetic.py:278`. -/
noncomputable instance : IntCast (PNum A) := ⟨fun n => .int n⟩

end PNum

/-- `x / y` of the interpreter. -/
infixl:70 " /! " => PNum.div
/-- `x ** n` of the interpreter. -/
infixr:75 " ^! " => PNum.pow

end Choclo
