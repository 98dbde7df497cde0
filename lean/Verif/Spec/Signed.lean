import Verif.Model.Signed.Utils
import Verif.Model.Signed.Point
import Verif.Model.Signed.Dipole
import Verif.Model.Signed.PrismMagnetic
import Verif.Spec.Basic

/-! # Forgetting the signs of zeros (specification) -/

namespace Choclo

variable {A : Arith}

/-- The number without the sign of a zero. -/
def SFl.erase : SFl A → Fl A
  | .nan => Fl.nan
  | .inf s => Fl.inf s
  | .zero _ => Fl.fin 0
  | .num x _ => Fl.fin x

/-- The outcome of a call without the sign of a zero. -/
def Py.erase (call : Py (SFl A)) : Py (Fl A) := call.map SFl.erase

/-- The outcome of a call that returns three numbers, without the signs of zeros. -/
def Py.erase3 (call : Py (SFl A × SFl A × SFl A)) : Py (Fl A × Fl A × Fl A) :=
  call.map fun r => (r.1.erase, r.2.1.erase, r.2.2.erase)

/-- Two numbers that a comparison cannot tell apart: identical, or zeros of any signs. -/
def SameNumber (a b : SFl A) : Prop := a = b ∨ ∃ s t, a = SRaw.zero s ∧ b = SRaw.zero t

/-- The same exception, or the same number up to the sign of a zero. -/
def SameOutcome : Py (SFl A) → Py (SFl A) → Prop
  | .ok a, .ok b => SameNumber a b
  | .error x, .error y => x = y
  | _, _ => False

/-- The same for calls that return three numbers. -/
def SameOutcome3 : Py (SFl A × SFl A × SFl A) → Py (SFl A × SFl A × SFl A) → Prop
  | .ok (a, b, c), .ok (a', b', c') => SameNumber a a' ∧ SameNumber b b' ∧ SameNumber c c'
  | .error x, .error y => x = y
  | _, _ => False

/-- Functions of `n` arguments in `X`. -/
abbrev Args (X α : Type) : ℕ → Type
  | 0 => α
  | n + 1 => X → Args X α n

/-- `f` of any arguments and `g` of the same arguments without the signs of zeros are in relation `R`. -/
def WithoutZeroSigns {α β : Type} (R : α → β → Prop) : (n : ℕ) → Args (SFl A) α n → Args (Fl A) β n → Prop
  | 0, x, y => R x y
  | n + 1, f, g => ∀ a : SFl A, WithoutZeroSigns R n (f a) (g a.erase)

/-- `f` and `g` give results in relation `R` whenever corresponding arguments are the same numbers. -/
def OnSameNumbers {α : Type} (R : α → α → Prop) : (n : ℕ) → Args (SFl A) α n → Args (SFl A) α n → Prop
  | 0, x, y => R x y
  | n + 1, f, g => ∀ a b : SFl A, SameNumber a b → OnSameNumbers R n (f a) (g b)

/-- The function `f` with signed zeros does what `g` does without them. -/
abbrev Erases (n : ℕ) (f : Args (SFl A) (Py (SFl A)) n) (g : Args (Fl A) (Py (Fl A)) n) : Prop :=
  WithoutZeroSigns (fun x y => Py.erase x = y) n f g

/-- The same for functions that return three numbers. -/
abbrev Erases3 (n : ℕ) (f : Args (SFl A) (Py (SFl A × SFl A × SFl A)) n)
    (g : Args (Fl A) (Py (Fl A × Fl A × Fl A)) n) : Prop :=
  WithoutZeroSigns (fun x y => Py.erase3 x = y) n f g

/-- Changing the signs of zeros among the arguments changes at most the sign of a zero result. -/
abbrev IgnoresZeroSigns (n : ℕ) (f : Args (SFl A) (Py (SFl A)) n) : Prop := OnSameNumbers SameOutcome n f f

/-- The same for functions that return three numbers. -/
abbrev IgnoresZeroSigns3 (n : ℕ) (f : Args (SFl A) (Py (SFl A × SFl A × SFl A)) n) : Prop :=
  OnSameNumbers SameOutcome3 n f f

end Choclo
