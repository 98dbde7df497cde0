import Verif.Spec.Python
import Verif.Spec.Typed

/-! # Integers among the arguments of an interpreted call (specification) -/

namespace Choclo

variable {A : Arith}

namespace PNum

/-- The scalar is a float, or a Python integer of magnitude at most `B`. -/
def UpTo (B : ℕ) : PNum A → Prop
  | .int n => |n| ≤ B
  | _ => True

/-- All of them are floats or integers of magnitude at most `B`, in any mixture. -/
def AllUpTo (B : ℕ) (as : List (PNum A)) : Prop := ∀ a ∈ as, a.UpTo B

/-- The argument as the compiled functions receive it: Python integers become int64, floats float64. -/
noncomputable def compiledArg : PNum A → TFl A
  | .int n => .int n
  | a => .flt a.number

end PNum

/-- A compiled call and the same call with the JIT disabled agree on arguments of any type: the interpreted call returns the
number that the compiled call returns as float64 (or infinity or NaN where the compiled call raises
`ZeroDivisionError`), or raises `OverflowError`, which happens only if `mayOverflow`. -/
def JitAgrees (mayOverflow : Prop) (compiled : Py (TFl A)) (interpreted : PyX (PNum A)) : Prop :=
  match interpreted with
  | .ok w => match compiled with
    | .ok v => v = .flt w.number
    | .error _ => ¬w.number.IsFinite
  | .error .zeroDivision => False
  | .error .overflow => mayOverflow

/-- The same for calls that return three numbers. -/
def JitAgrees3 (mayOverflow : Prop) (compiled : Py (TFl A × TFl A × TFl A))
    (interpreted : PyX (PNum A × PNum A × PNum A)) : Prop :=
  match interpreted with
  | .ok w => match compiled with
    | .ok v => v = (.flt w.1.number, .flt w.2.1.number, .flt w.2.2.number)
    | .error _ => ¬w.1.number.IsFinite ∨ ¬w.2.1.number.IsFinite ∨ ¬w.2.2.number.IsFinite
  | .error .zeroDivision => False
  | .error .overflow => mayOverflow

end Choclo
