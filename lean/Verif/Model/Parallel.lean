import Verif.Model.Arith
import Mathlib.Logic.Function.Basic
import Mathlib.Data.Set.Basic
import Mathlib.Logic.Relation

/-!
# Loop bodies as programs on a shared array, and their parallel execution

Semantics of `numba.prange` (`/repo/doc/user_guide/how-to-use.rst:183-234`,
`/repo/doc/user_guide/jacobian.rst:65-95`): the iterations are distributed over threads in any way,
each thread runs its iterations one after the other, and the accesses of different threads to the
shared array interleave arbitrarily.  Simplifications: accesses are sequentially consistent (on race-free
programs weaker memory models give nothing else), a call of a pure function is one step, and an
iteration whose call raises stays where it is (Numba reports the exception after the loop).
-/

namespace Choclo

/-- What the body of an iteration does to the shared array: read a cell, write a cell, or compute
something (that may raise).
Models `/repo/doc/user_guide/how-to-use.rst:207-219` (one iteration). -/
inductive Prog (Addr Val : Type) where
  | done : Prog Addr Val
  | read (a : Addr) (k : Val → Prog Addr Val) : Prog Addr Val
  | write (a : Addr) (v : Val) (k : Prog Addr Val) : Prog Addr Val
  | call (c : Py Val) (k : Val → Prog Addr Val) : Prog Addr Val

variable {Addr Val ι : Type} [DecidableEq Addr]

/-- Run a body alone.
Models `/repo/doc/user_guide/how-to-use.rst:207-219` (one iteration). -/
def Prog.run : Prog Addr Val → (Addr → Val) → Py (Addr → Val)
  | .done, m => .ok m
  | .read a k, m => (k (m a)).run m
  | .write a v k, m => k.run (Function.update m a v)
  | .call c k, m => do (k (← c)).run m

/-- Run the bodies of several iterations one after the other (`range`).
Models `/repo/doc/user_guide/how-to-use.rst:135-147` (`range`). -/
def runSerial (body : ι → Prog Addr Val) : List ι → (Addr → Val) → Py (Addr → Val)
  | [], m => .ok m
  | i :: l, m => do runSerial body l (← (body i).run m)

/-- State of a parallel loop with `T` threads: the shared array, and for each thread the iterations it
still has to run, the first of them already begun.
Models `/repo/doc/user_guide/how-to-use.rst:196-220` (`numba.prange`). -/
structure ParState (Addr Val ι : Type) (T : ℕ) where
  mem : Addr → Val
  threads : Fin T → List (ι × Prog Addr Val)

/-- One step of one thread.
Models `/repo/doc/user_guide/how-to-use.rst:196-220` (`numba.prange`). -/
inductive ParStep {T : ℕ} : ParState Addr Val ι T → ParState Addr Val ι T → Prop
  | read {s : ParState Addr Val ι T} (t : Fin T) {i a k rest} :
      s.threads t = (i, Prog.read a k) :: rest →
      ParStep s ⟨s.mem, Function.update s.threads t ((i, k (s.mem a)) :: rest)⟩
  | write {s : ParState Addr Val ι T} (t : Fin T) {i a v k rest} :
      s.threads t = (i, Prog.write a v k) :: rest →
      ParStep s ⟨Function.update s.mem a v, Function.update s.threads t ((i, k) :: rest)⟩
  | call {s : ParState Addr Val ι T} (t : Fin T) {i c k v rest} :
      s.threads t = (i, Prog.call c k) :: rest → c = .ok v →
      ParStep s ⟨s.mem, Function.update s.threads t ((i, k v) :: rest)⟩
  | next {s : ParState Addr Val ι T} (t : Fin T) {i rest} :
      s.threads t = (i, Prog.done) :: rest →
      ParStep s ⟨s.mem, Function.update s.threads t rest⟩

/-- A distribution of the iterations over threads: every iteration is run by exactly one thread, once.
Models `/repo/doc/user_guide/how-to-use.rst:206` (`numba.prange`). -/
def Distribution {T : ℕ} (chunks : Fin T → List ι) : Prop :=
  (∀ i, ∃ t, i ∈ chunks t) ∧ (∀ t, (chunks t).Nodup) ∧ ∀ t t', t ≠ t' → ∀ i, i ∈ chunks t → i ∉ chunks t'

/-- The loop is about to start.
Models `/repo/doc/user_guide/how-to-use.rst:206`. -/
def ParState.start {T : ℕ} (body : ι → Prog Addr Val) (chunks : Fin T → List ι) (mem : Addr → Val) :
    ParState Addr Val ι T :=
  ⟨mem, fun t => (chunks t).map fun i => (i, body i)⟩

/-- All iterations have been run.
Models `/repo/doc/user_guide/how-to-use.rst:219-220`. -/
def ParState.Finished {T : ℕ} (s : ParState Addr Val ι T) : Prop := ∀ t, s.threads t = []

/-- The state can be reached by some interleaving of the threads.
Models `/repo/doc/user_guide/how-to-use.rst:206-219`. -/
def ParState.Reaches {T : ℕ} (s s' : ParState Addr Val ι T) : Prop := Relation.ReflTransGen ParStep s s'

end Choclo
