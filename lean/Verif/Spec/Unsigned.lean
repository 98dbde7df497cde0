import Verif.Model.Unsigned.Point
import Verif.Model.Unsigned.Dipole
import Verif.Spec.Typed

/-! # Calls with unsigned integer arguments (specification) -/

namespace Choclo

variable {A : Arith}

/-- The argument is an integer, signed between `-C` and `C` or unsigned up to `C`. -/
def UFl.IntegerUpTo (C : ℕ) : UFl A → Prop
  | .int n => |n| ≤ C
  | .uint n => n ≤ C
  | .flt _ => False

/-- `call` does what `call'` does, and returns float64 numbers. -/
def SameCallU (call : Py (UFl A)) (call' : Py (Fl A)) : Prop := call = call'.map UFl.flt

/-- The same for calls that return three numbers. -/
def SameCallU3 (call : Py (UFl A × UFl A × UFl A)) (call' : Py (Fl A × Fl A × Fl A)) : Prop :=
  call = call'.map fun r => (.flt r.1, .flt r.2.1, .flt r.2.2)

/-- `f` of six integers up to `C` in any mixture of signed and unsigned, and `g` of the same numbers as floats, are in relation `R`. -/
def OnUnsigned {α β : Type} (C : ℕ) (R : α → β → Prop) (f : UFl A → UFl A → UFl A → UFl A → UFl A → UFl A → α)
    (g : Fl A → Fl A → Fl A → Fl A → Fl A → Fl A → β) : Prop :=
  ∀ a b c d e f' : UFl A, a.IntegerUpTo C → b.IntegerUpTo C → c.IntegerUpTo C → d.IntegerUpTo C → e.IntegerUpTo C →
    f'.IntegerUpTo C → R (f a b c d e f') (g a.toFl b.toFl c.toFl d.toFl e.toFl f'.toFl)

end Choclo
