import Verif.Model.NpInt.Utils
import Verif.Model.NpInt.Point
import Verif.Model.NpInt.Dipole
import Verif.Model.NpInt.PrismMagnetic
import Verif.Spec.Typed
import Verif.Spec.Signed

/-! # Comparing compiled and interpreted calls with int64 arguments (specification) -/

namespace Choclo

variable {A : Arith}

/-- The datum is a finite number: an int64 or a finite float64. -/
def TFl.IsNumber (a : TFl A) : Prop := (∃ n, a = .int n) ∨ ∃ x : ℝ, a = .flt (Fl.fin x)

/-- The compiled call and the interpreted call agree: if the compiled call returns, the interpreted one returns the same datum;
if the compiled call raises, the interpreted one returns something that is not a finite number. -/
def AgreesT (compiled interpreted : Py (TFl A)) : Prop :=
  match compiled with
  | .ok v => interpreted = .ok v
  | .error _ => ∃ w, interpreted = .ok w ∧ ¬w.IsNumber

/-- The same for calls that return three numbers: if the compiled call raises, one of the three numbers returned by the
interpreted call is not finite. -/
def AgreesT3 (compiled interpreted : Py (TFl A × TFl A × TFl A)) : Prop :=
  match compiled with
  | .ok v => interpreted = .ok v
  | .error _ => ∃ w, interpreted = .ok w ∧ (¬w.1.IsNumber ∨ ¬w.2.1.IsNumber ∨ ¬w.2.2.IsNumber)

/-- Two functions of `n` arguments are related by `R` whatever the arguments, integers or floats. -/
def AtAllT {α : Type} (R : α → α → Prop) : (n : ℕ) → Args (TFl A) α n → Args (TFl A) α n → Prop
  | 0, x, y => R x y
  | n + 1, f, g => ∀ a : TFl A, AtAllT R n (f a) (g a)

/-- The interpreted call with integers does what the compiled call with the same numbers as floats does: if that returns, it returns
the same float64 number; if that raises, it returns something that is not a finite number. -/
def SameNumpy (interpreted : Py (TFl A)) (floats : Py (Fl A)) : Prop :=
  match floats with
  | .ok v => interpreted = .ok (.flt v)
  | .error _ => ∃ w, interpreted = .ok w ∧ ¬w.IsNumber

/-- The same for calls that return three numbers. -/
def SameNumpy3 (interpreted : Py (TFl A × TFl A × TFl A)) (floats : Py (Fl A × Fl A × Fl A)) : Prop :=
  match floats with
  | .ok v => interpreted = .ok (.flt v.1, .flt v.2.1, .flt v.2.2)
  | .error _ => ∃ w, interpreted = .ok w ∧ (¬w.1.IsNumber ∨ ¬w.2.1.IsNumber ∨ ¬w.2.2.IsNumber)

end Choclo
