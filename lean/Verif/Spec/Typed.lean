import Verif.Model.Typed.Utils
import Verif.Model.Typed.Point
import Verif.Model.Typed.Dipole
import Verif.Model.Typed.PrismMagnetic
import Verif.Spec.Basic
import Mathlib.Algebra.Order.Group.Abs

/-! # Calls with integer arguments (specification) -/

namespace Choclo

variable {A : Arith}

/-- An argument that is a float64, or an integer between `-C` and `C`. -/
def UpTo (C : ℕ) : TFl A → Prop
  | .int n => |n| ≤ C
  | .flt _ => True

/-- The integers up to `L` in magnitude are represented exactly, and so are powers that are not larger. -/
def Arith.ExactInts (A : Arith) (L : ℕ) : Prop :=
  (∀ n : ℤ, |n| ≤ L → A.rnd n = .fin n) ∧
  ∀ (n : ℤ) (k : ℕ), |n ^ k| ≤ (L : ℤ) → A.pow n k = .fin ((n : ℝ) ^ k)

/-- `call` does what `call'` does, and returns float64 numbers. -/
def SameCall (call : Py (TFl A)) (call' : Py (Fl A)) : Prop := call = call'.map TFl.flt

/-- The same for calls that return three numbers. -/
def SameCall3 (call : Py (TFl A × TFl A × TFl A)) (call' : Py (Fl A × Fl A × Fl A)) : Prop :=
  call = call'.map fun r => (.flt r.1, .flt r.2.1, .flt r.2.2)

/-- Functions of arguments in `X`, one for each entry of a list of bounds. -/
abbrev ArgsB (X α : Type) : List ℕ → Type
  | [] => α
  | _ :: l => X → ArgsB X α l

/-- `f` of any float64 arguments and integers within the given bounds and `g` of the same numbers as float64
arguments are in relation `R`. -/
def OnInts {α β : Type} (R : α → β → Prop) : (l : List ℕ) → ArgsB (TFl A) α l → ArgsB (Fl A) β l → Prop
  | [], x, y => R x y
  | C :: l, f, g => ∀ a : TFl A, UpTo C a → OnInts R l (f a) (g a.toFl)

end Choclo
