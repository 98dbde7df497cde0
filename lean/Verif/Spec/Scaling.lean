import Verif.Spec.Rounding

/-! # Multiplication by powers of two (specification) -/

namespace Choclo

/-- A datum multiplied exactly by `2 ^ k`. -/
noncomputable def Raw.scale (k : ℤ) : Raw → Raw
  | .fin x => .fin (2 ^ k * x)
  | r => r

/-- A number multiplied exactly by `2 ^ k`. -/
noncomputable def Fl.scale {A : Arith} (k : ℤ) (a : Fl A) : Fl A := Raw.scale k a

/-- The same outcome with the returned number multiplied exactly by `2 ^ k`. -/
noncomputable def Py.scaled {A : Arith} (k : ℤ) (call : Py (Fl A)) : Py (Fl A) := do return Fl.scale k (← call)

/-- Rounding commutes with multiplication by powers of two: true of binary floating point of any
precision as long as nothing over- or underflows. -/
structure Arith.ScaleInvariant (A : Arith) : Prop where
  rnd_scale : ∀ (k : ℤ) (x : ℝ), A.rnd (2 ^ k * x) = (A.rnd x).scale k
  pow_scale : ∀ (k : ℤ) (x : ℝ) (n : ℕ), A.pow (2 ^ k * x) n = (A.pow x n).scale (n * k)

end Choclo
