import Verif.Model.Parallel

/-! # Vocabulary for parallel loops (specification) -/

namespace Choclo

variable {Addr Val ι : Type} [DecidableEq Addr]

/-- The body only reads and writes the cells `F`. -/
def Prog.Within (F : Set Addr) : Prog Addr Val → Prop
  | .done => True
  | .read a k => a ∈ F ∧ ∀ v, (k v).Within F
  | .write a _ k => a ∈ F ∧ k.Within F
  | .call _ k => ∀ v, (k v).Within F

/-- No call in the body raises. -/
def Prog.NoRaise : Prog Addr Val → Prop
  | .done => True
  | .read _ k => ∀ v, (k v).NoRaise
  | .write _ _ k => k.NoRaise
  | .call c k => (∃ v, c = .ok v) ∧ ∀ v, (k v).NoRaise

/-- The body takes `n` steps, whatever it reads. -/
def Prog.HasLen : Prog Addr Val → ℕ → Prop
  | .done, n => n = 0
  | .read _ k, n => ∃ m, n = m + 1 ∧ ∀ v, (k v).HasLen m
  | .write _ _ k, n => ∃ m, n = m + 1 ∧ k.HasLen m
  | .call _ k, n => ∃ m, n = m + 1 ∧ ∀ v, (k v).HasLen m

/-- Executions with their number of steps. -/
inductive ParSteps {T : ℕ} : ℕ → ParState Addr Val ι T → ParState Addr Val ι T → Prop
  | refl (s) : ParSteps 0 s s
  | step {n s s' s''} : ParSteps n s s' → ParStep s' s'' → ParSteps (n + 1) s s''

end Choclo
