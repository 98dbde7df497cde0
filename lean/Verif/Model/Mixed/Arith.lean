import Verif.Model.Arith

/-!
# Arguments in single precision

The functions of choclo are compiled by Numba for the types of the arguments of the call.  If float32 numbers
(for example the elements of float32 arrays) are passed, part of the computation runs in single precision.

Source modelled: the semantics of `@jit(nopython=True)` scalar code as used in `/repo/src/choclo` for
arguments of type float32 or float64:

* `+`, `-`, `*`, `/` of two float32 numbers give a float32; `x ** n` (literal `n`) and `np.sqrt`, `np.log`,
  `np.arctan`, `np.sin`, `np.cos`, `np.radians` of a float32 give a float32;
* an operation between a float32 and a float64 converts the float32 to float64 first (exactly);
* an operation between a float32 and an integer literal (int64) is carried out in float64;
* decimal literals, `np.pi`, `np.nan` and the constants of `/repo/src/choclo/constants.py` are float64;
* a return value that is a float64 or an integer literal on one path and a float32 on another is a float64
  (`MFl.widen` in the functions of `/repo/src/choclo/prism/_kernels.py`).

`S` is the arithmetic of float32 and `D` that of float64.  Simplification: when the two boundaries of a prism on
the same axis have different types, Numba converts the float32 difference to float64 where the two paths of
`shift_east = ... if i == 0 else ...` meet, where this model keeps a float32; the theorems assume that this
does not happen (all coordinates are float32, or every difference of coordinates involves a float64).
-/

namespace Choclo

open Classical

/-- A scalar handled by a compiled choclo function: a float32 or a float64.
Models `/repo/src/choclo/utils.py:49-55` and every other function: Numba scalars, float32 or float64. -/
inductive MFl (S D : Arith) where
  | f32 (x : Fl S) : MFl S D
  | f64 (x : Fl D) : MFl S D

/-- Conversion of a float32 to float64 (exact).
Models `/repo/src/choclo/point/_forward.py:74` (the product of a float64 constant and a float32 mass). -/
def Fl.up {S D : Arith} (x : Fl S) : Fl D := x

namespace MFl

variable {S D : Arith}

/-- The number as a float64.
Models `/repo/src/choclo/point/_forward.py:74` (conversion before an operation with a float64). -/
def toD : MFl S D → Fl D
  | .f32 x => x.up
  | .f64 x => x

/-- Conversion to the common type of the values returned by a function.
Models `/repo/src/choclo/prism/_kernels.py:769-778` (`result` is a float64 on one path, `np.arctan(y / x)` a
float32 on the other). -/
def widen (a : MFl S D) : MFl S D := .f64 a.toD

/-- NaN (`np.nan`).
Models `/repo/src/choclo/prism/_kernels.py:428`. -/
def nan : MFl S D := .f64 Fl.nan
/-- `np.pi`.
Models `/repo/src/choclo/prism/_kernels.py:772`. -/
def pi : MFl S D := .f64 Fl.pi
/-- The literal `0.5`.
Models `/repo/src/choclo/prism/_kernels.py:94`. -/
noncomputable def half : MFl S D := .f64 Fl.half
/-- A decimal literal.
Models `/repo/src/choclo/constants.py:12-15`. -/
def lit (x : ℝ) : MFl S D := .f64 (Fl.lit x)

/-- Unary minus.
Models `/repo/src/choclo/point/_kernels.py:112`. -/
def neg : MFl S D → MFl S D
  | .f32 x => .f32 (-x)
  | .f64 x => .f64 (-x)

/-- Addition.
Models `/repo/src/choclo/prism/_kernels.py:860` `x + r`. -/
noncomputable def add : MFl S D → MFl S D → MFl S D
  | .f32 x, .f32 y => .f32 (x + y)
  | a, b => .f64 (a.toD + b.toD)

/-- Subtraction.
Models `/repo/src/choclo/utils.py:51` `easting_p - easting_q`. -/
noncomputable def sub : MFl S D → MFl S D → MFl S D
  | .f32 x, .f32 y => .f32 (x - y)
  | a, b => .f64 (a.toD - b.toD)

/-- Multiplication.
Models `/repo/src/choclo/prism/_kernels.py:856` `-2 * x`. -/
noncomputable def mul : MFl S D → MFl S D → MFl S D
  | .f32 x, .f32 y => .f32 (x * y)
  | a, b => .f64 (a.toD * b.toD)

/-- `x ** k` for a literal exponent.
Models `/repo/src/choclo/point/_kernels.py:112` `distance**3`. -/
noncomputable def pow : MFl S D → ℕ → MFl S D
  | .f32 x, k => .f32 (x ^ k)
  | .f64 x, k => .f64 (x ^ k)

/-- `x / y`.
Models `/repo/src/choclo/prism/_kernels.py:778` `y / x`. -/
noncomputable def div : MFl S D → MFl S D → Py (MFl S D)
  | .f32 x, .f32 y => (x /. y).map .f32
  | a, b => (a.toD /. b.toD).map .f64

/-- `np.sqrt`.
Models `/repo/src/choclo/utils.py:50`. -/
noncomputable def sqrt : MFl S D → MFl S D
  | .f32 x => .f32 (Fl.sqrt x)
  | .f64 x => .f64 (Fl.sqrt x)
/-- `np.log`.
Models `/repo/src/choclo/prism/_kernels.py:856-860`. -/
noncomputable def log : MFl S D → MFl S D
  | .f32 x => .f32 (Fl.log x)
  | .f64 x => .f64 (Fl.log x)
/-- `np.arctan`.
Models `/repo/src/choclo/prism/_kernels.py:778`. -/
noncomputable def arctan : MFl S D → MFl S D
  | .f32 x => .f32 (Fl.arctan x)
  | .f64 x => .f64 (Fl.arctan x)
/-- `np.sin`.
Models `/repo/src/choclo/utils.py:113`. -/
def sin : MFl S D → MFl S D
  | .f32 x => .f32 (Fl.sin x)
  | .f64 x => .f64 (Fl.sin x)
/-- `np.cos`.
Models `/repo/src/choclo/utils.py:112`. -/
def cos : MFl S D → MFl S D
  | .f32 x => .f32 (Fl.cos x)
  | .f64 x => .f64 (Fl.cos x)
/-- `np.radians`.
Models `/repo/src/choclo/utils.py:109-110`. -/
def radians : MFl S D → MFl S D
  | .f32 x => .f32 (Fl.radians x)
  | .f64 x => .f64 (Fl.radians x)

/-- `a < b` (comparisons do not depend on the type in which they are made).
Models `/repo/src/choclo/prism/_utils.py:47`. -/
noncomputable def lt (a b : MFl S D) : Bool := Fl.lt a.toD b.toD
/-- `a <= b`.
Models `/repo/src/choclo/prism/_utils.py:158`. -/
noncomputable def le (a b : MFl S D) : Bool := Fl.le a.toD b.toD
/-- `a == b`.
Models `/repo/src/choclo/prism/_kernels.py:770` `x == 0`. -/
noncomputable def eq (a b : MFl S D) : Bool := Fl.eq a.toD b.toD

/-- `-a`. Models `/repo/src/choclo/point/_kernels.py:112`. -/
instance : Neg (MFl S D) := ⟨neg⟩
/-- `a + b`. Models `/repo/src/choclo/prism/_kernels.py:860`. -/
noncomputable instance : Add (MFl S D) := ⟨add⟩
/-- `a - b`. Models `/repo/src/choclo/utils.py:51`. -/
noncomputable instance : Sub (MFl S D) := ⟨sub⟩
/-- `a * b`. Models `/repo/src/choclo/prism/_kernels.py:856`. -/
noncomputable instance : Mul (MFl S D) := ⟨mul⟩
/-- `x ** n`.
Models `/repo/src/choclo/point/_kernels.py:112`. -/
noncomputable instance : HPow (MFl S D) ℕ (MFl S D) := ⟨pow⟩
/-- Integer literals: an operation with a float32 or a float64 is carried out in float64.
Models `/repo/src/choclo/point/_kernels.py:276`. -/
instance (n : ℕ) : OfNat (MFl S D) n := ⟨.f64 (Fl.fin n)⟩
/-- Integers entering an expression, e.g. `(-1) ** (i + j + k)`.
Models `/repo/src/choclo/prism/_magnetic.py:278` `(-1) ** (i + j + k)`. -/
instance : IntCast (MFl S D) := ⟨fun n => .f64 n⟩

end MFl

/-- `x / y` as a computation that may raise. -/
infixl:70 " /ₘ " => MFl.div

end Choclo
