import Verif.Model.Interp.Utils
import Verif.Model.Interp.Point
import Verif.Model.Interp.Dipole
import Verif.Model.Interp.PrismMagnetic
import Verif.Spec.Signed

/-! # Comparing compiled and interpreted calls (specification) -/

namespace Choclo

variable {A : Arith}

/-- The datum is a finite number: a zero of either sign or a nonzero real. -/
def SFl.IsNumber (a : SFl A) : Prop := (∃ s, a = SRaw.zero s) ∨ ∃ x h, a = SRaw.num x h

/-- The compiled call and the interpreted call agree: if the compiled call returns, the interpreted one
returns the same datum; if the compiled call raises, the interpreted one returns something that is not
a finite number. -/
def Agrees (compiled interpreted : Py (SFl A)) : Prop :=
  match compiled with
  | .ok v => interpreted = .ok v
  | .error _ => ∃ w, interpreted = .ok w ∧ ¬w.IsNumber

/-- The same for calls that return three numbers: if the compiled call raises, one of the three numbers
returned by the interpreted call is not finite. -/
def Agrees3 (compiled interpreted : Py (SFl A × SFl A × SFl A)) : Prop :=
  match compiled with
  | .ok v => interpreted = .ok v
  | .error _ => ∃ w, interpreted = .ok w ∧ (¬w.1.IsNumber ∨ ¬w.2.1.IsNumber ∨ ¬w.2.2.IsNumber)

/-- Two functions of `n` arguments are related by `R` at all arguments. -/
def AtAll {α : Type} (R : α → α → Prop) : (n : ℕ) → Args (SFl A) α n → Args (SFl A) α n → Prop
  | 0, x, y => R x y
  | n + 1, f, g => ∀ a : SFl A, AtAll R n (f a) (g a)

/-- Compiled and interpreted version of a function of `n` arguments agree at all arguments. -/
abbrev AgreesAtAll (n : ℕ) (compiled interpreted : Args (SFl A) (Py (SFl A)) n) : Prop :=
  AtAll Agrees n compiled interpreted

/-- The same for functions that return three numbers. -/
abbrev AgreesAtAll3 (n : ℕ) (compiled interpreted : Args (SFl A) (Py (SFl A × SFl A × SFl A)) n) : Prop :=
  AtAll Agrees3 n compiled interpreted

end Choclo
