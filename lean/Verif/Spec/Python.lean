import Verif.Model.Python.Utils
import Verif.Model.Python.Point
import Verif.Model.Python.Dipole
import Verif.Model.Python.PrismMagnetic
import Verif.Spec.Interp

/-! # Comparing compiled calls with calls run by the interpreter (specification) -/

namespace Choclo

variable {A : Arith}

namespace PNum

/-- The number, without its Python type and without the sign of a zero. -/
noncomputable def number (w : PNum A) : Fl A := w.value.erase

/-- The scalar is a float: built-in or `np.float64`. -/
def IsFloat : PNum A → Prop
  | .int _ => False
  | _ => True

/-- The scalar is an `np.float64`. -/
def IsNumpy : PNum A → Prop
  | .np64 _ => True
  | _ => False

/-- Computing `a ** n` raises `OverflowError`: `a` is a finite built-in float and its power is infinite. -/
def PowRaises (a : PNum A) (n : ℕ) : Prop :=
  ∃ (x : ℝ) (h : x ≠ 0) (s : Bool), a = .float (SRaw.num x h) ∧ A.pow x n = .inf s

/-- One of the numbers `ds` is a finite built-in float whose square overflows. -/
def SquareRaises (ds : List (PNum A)) : Prop := ∃ d ∈ ds, PowRaises d 2

/-- All of them are floats (built-in or `np.float64`, in any mixture). -/
def Floats (as : List (PNum A)) : Prop := ∀ a ∈ as, a.IsFloat

end PNum

/-- The arithmetic rounds zero to zero and `np.pi` is not zero (both true of float64). -/
structure PyArith (A : Arith) : Prop where
  rnd_zero : A.rnd 0 = .fin 0
  pi_ne : A.pi ≠ 0

/-- A compiled call and an interpreted call agree.

* The interpreted call returns: then the compiled call returns the same number (up to the sign of a zero), or
  raises and the interpreted call returned infinity or NaN.
* The interpreted call raises `ZeroDivisionError`: so does the compiled call, and `mayDivide` holds.
* The interpreted call raises `OverflowError`: then `mayOverflow` holds. -/
def PyAgrees (mayOverflow mayDivide : Prop) (compiled : Py (Fl A)) (interpreted : PyX (PNum A)) : Prop :=
  match interpreted with
  | .ok w => match compiled with
    | .ok v => w.number = v
    | .error _ => ¬w.number.IsFinite
  | .error .zeroDivision => compiled = .error .zeroDivision ∧ mayDivide
  | .error .overflow => mayOverflow

/-- The same for calls that return three numbers. -/
def PyAgrees3 (mayOverflow mayDivide : Prop) (compiled : Py (Fl A × Fl A × Fl A))
    (interpreted : PyX (PNum A × PNum A × PNum A)) : Prop :=
  match interpreted with
  | .ok w => match compiled with
    | .ok v => (w.1.number, w.2.1.number, w.2.2.number) = v
    | .error _ => ¬w.1.number.IsFinite ∨ ¬w.2.1.number.IsFinite ∨ ¬w.2.2.number.IsFinite
  | .error .zeroDivision => compiled = .error .zeroDivision ∧ mayDivide
  | .error .overflow => mayOverflow

end Choclo
