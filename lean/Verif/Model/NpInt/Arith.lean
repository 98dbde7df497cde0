import Verif.Model.Typed.Arith

/-!
# Interpreted calls with `np.int64` scalars

With `NUMBA_DISABLE_JIT=1` the functions of `/repo/src/choclo` are run by the Python interpreter.  On `np.int64` and
`np.float64` scalars (the elements of NumPy arrays) NumPy's scalar rules apply: `+`, `-`, `*` and `**` of two `np.int64`, or of
an `np.int64` and an integer literal, give an `np.int64` and wrap around (with a `RuntimeWarning`); an operation with a float
gives an `np.float64`; `/` and `np.sqrt`, `np.log`, `np.arctan`, ... give an `np.float64`.  These are the operations of `TFl`.
The difference is the division: a division by zero does not raise, it issues a `RuntimeWarning` and returns infinity or NaN.
Simplifications: the sign of an infinity that comes from a division by zero is that of the numerator (zeros have no sign here);
warnings are not modelled; a number that is a float64 in the compiled code because two paths meet may be a Python integer `0`.
-/

namespace Choclo

variable {A : Arith}

/-- Division of float64 scalars without exception: infinite for a number divided by zero, NaN for zero divided by zero.
Models `/repo/src/choclo/point/_kernels.py:59` `1 / distance` with `distance` an `np.float64`. -/
noncomputable def Fl.ndiv : Fl A → Fl A → Fl A
  | .nan, _ => nan
  | _, .nan => nan
  | .inf _, .inf _ => nan
  | .inf s, .fin y => if 0 ≤ y then inf s else inf (!s)
  | .fin _, .inf _ => Raw.fin 0
  | .fin x, .fin y => if y = 0 then (if x = 0 then nan else inf (decide (x < 0))) else ofRaw (A.rnd (x / y))

/-- `x / y` of `np.int64` and `np.float64` scalars, as a computation (that never raises): both operands are converted to
float64.
Models `/repo/src/choclo/point/_kernels.py:59`. -/
noncomputable def TFl.ndiv (x y : TFl A) : Py (TFl A) := .ok (.flt (Fl.ndiv x.toFl y.toFl))

/-- `x / y` of NumPy scalars. -/
infixl:70 " /ₙ " => TFl.ndiv

end Choclo
