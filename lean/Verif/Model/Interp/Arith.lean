import Verif.Model.Signed.Arith

/-!
# Division of NumPy scalars

With `NUMBA_DISABLE_JIT=1` the functions of `/repo/src/choclo` are run by the Python interpreter.  On `np.float64`
arguments all operations are the same as in the compiled code except that a division by zero does not raise: it
issues a `RuntimeWarning` and returns the IEEE result.  `/repo/test/utils.py:15-16` and
`/repo/test/test_point_gravity.py:149-173` rely on this difference.
Simplifications: warnings are not modelled; the integer literals of the programs are floats here (`Model/Python`
keeps them apart: an integer zero has no sign).
-/

namespace Choclo

variable {A : Arith}

/-- Division without exception: infinite with the sign of both operands for a number divided by zero, NaN for zero
divided by zero.
Models `/repo/src/choclo/point/_kernels.py:59` `1 / distance` with `distance` an `np.float64`. -/
noncomputable def SFl.ndiv : SFl A → SFl A → SFl A
  | .nan, _ => nan
  | _, .nan => nan
  | .inf _, .inf _ => nan
  | .zero _, .zero _ => nan
  | .inf s, .zero t => inf (xor s t)
  | .num x _, .zero t => inf (xor (decide (x < 0)) t)
  | .inf s, .num y _ => if 0 < y then inf s else inf (!s)
  | .zero s, .inf t => SRaw.zero (xor s t)
  | .num x _, .inf t => SRaw.zero (xor (decide (x < 0)) t)
  | .zero s, .num y _ => ofRaw (xor s (decide (y < 0))) (A.rnd (0 / y))
  | .num x _, .num y _ => ofRaw (decide (x / y < 0)) (A.rnd (x / y))

/-- `x / y` of NumPy scalars, as a computation (that never raises).
Models `/repo/src/choclo/point/_kernels.py:59`. -/
noncomputable def SFl.interpDiv (x y : SFl A) : Py (SFl A) := .ok (SFl.ndiv x y)

/-- `x / y` of NumPy scalars. -/
infixl:70 " /∞ " => SFl.interpDiv

end Choclo
