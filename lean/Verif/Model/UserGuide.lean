import Verif.Model.PrismGravity
import Verif.Model.Parallel
import Mathlib.Data.List.FinRange
import Mathlib.Data.Fintype.Basic
import Mathlib.Data.Multiset.Basic

/-!
# Model of the programs of the user guide

`/repo/doc/user_guide/how-to-use.rst` and `/repo/doc/user_guide/jacobian.rst`.  Simplifications: a
one-dimensional NumPy array of length `N` is a function on `Fin N`, a matrix a function of two indices;
arrays whose lengths do not fit are not modelled.
-/

namespace Choclo.userguide

variable {A : Arith} {N M : ℕ}

/-- `coordinates`: the arrays `easting`, `northing`, `upward` of the observation points,
`/repo/doc/user_guide/how-to-use.rst:52-57`. -/
structure Coordinates (A : Arith) (N : ℕ) where
  easting : Fin N → Fl A
  northing : Fin N → Fl A
  upward : Fin N → Fl A

/-- `prisms`: one row west, east, south, north, bottom, top for each prism,
`/repo/doc/user_guide/how-to-use.rst:40-45`. -/
abbrev Prisms (A : Arith) (M : ℕ) : Type := Fin M → Fin 6 → Fl A

/-- `/repo/doc/user_guide/how-to-use.rst:124-148` `gravity_upward_jit`; also
`/repo/doc/user_guide/how-to-use.rst:70-85` `gravity_upward_slow` (`*prisms[j, :]` spelled out). -/
noncomputable def gravity_upward (coordinates : Coordinates A N) (prisms : Prisms A M) (densities : Fin M → Fl A) :
    Py (Fin N → Fl A) := do
  let mut result : Fin N → Fl A := fun _ => 0
  for i in List.finRange N do
    for j in List.finRange M do
      result := Function.update result i (result i + (← prism.gravity_u
        (coordinates.easting i) (coordinates.northing i) (coordinates.upward i)
        (prisms j 0) (prisms j 1) (prisms j 2) (prisms j 3) (prisms j 4) (prisms j 5) (densities j)))
  return result

/-- The inner loop of `gravity_upward_parallel` from a given list of prisms on,
`/repo/doc/user_guide/how-to-use.rst:207-219`: `result[i]` is read, the field computed, the sum
written back. -/
noncomputable def upwardLoop (coordinates : Coordinates A N) (prisms : Prisms A M) (densities : Fin M → Fl A) (i : Fin N) :
    List (Fin M) → Prog (Fin N) (Fl A)
  | [] => .done
  | j :: l =>
    .read i fun r =>
    .call (prism.gravity_u
        (coordinates.easting i) (coordinates.northing i) (coordinates.upward i)
        (prisms j 0) (prisms j 1) (prisms j 2) (prisms j 3) (prisms j 4) (prisms j 5) (densities j)) fun g =>
    .write i (r + g) (upwardLoop coordinates prisms densities i l)

/-- The body of the parallel loop of `gravity_upward_parallel`,
`/repo/doc/user_guide/how-to-use.rst:206-219`. -/
noncomputable def upwardBody (coordinates : Coordinates A N) (prisms : Prisms A M) (densities : Fin M → Fl A) (i : Fin N) :
    Prog (Fin N) (Fl A) := upwardLoop coordinates prisms densities i (List.finRange M)

/-- `/repo/doc/user_guide/how-to-use.rst:196-220` `gravity_upward_parallel` on `T` threads, with a given
distribution of the observation points, may return `result`. -/
def gravity_upward_parallel {T : ℕ} (coordinates : Coordinates A N) (prisms : Prisms A M) (densities : Fin M → Fl A)
    (chunks : Fin T → List (Fin N)) (result : Fin N → Fl A) : Prop :=
  ∃ s, (ParState.start (upwardBody coordinates prisms densities) chunks fun _ => 0).Reaches s ∧ s.Finished ∧
    s.mem = result

/-- The loop that `/repo/doc/user_guide/how-to-use.rst:229-231` advises against: the loop over the prisms
run in parallel for an observation point, every iteration updating `result[i]`. -/
noncomputable def upwardPrismBody (coordinates : Coordinates A N) (prisms : Prisms A M) (densities : Fin M → Fl A)
    (i : Fin N) (j : Fin M) : Prog (Fin N) (Fl A) := upwardLoop coordinates prisms densities i [j]

/-- The inner loop of `build_jacobian`, `/repo/doc/user_guide/jacobian.rst:82-94`. -/
noncomputable def jacobianLoop (coordinates : Coordinates A N) (prisms : Prisms A M) (i : Fin N) :
    List (Fin M) → Prog (Fin N × Fin M) (Fl A)
  | [] => .done
  | j :: l =>
    .call (prism.gravity_u
        (coordinates.easting i) (coordinates.northing i) (coordinates.upward i)
        (prisms j 0) (prisms j 1) (prisms j 2) (prisms j 3) (prisms j 4) (prisms j 5) 1) fun g =>
    .write (i, j) g (jacobianLoop coordinates prisms i l)

/-- The body of the parallel loop of `build_jacobian`, `/repo/doc/user_guide/jacobian.rst:81-94`. -/
noncomputable def jacobianBody (coordinates : Coordinates A N) (prisms : Prisms A M) (i : Fin N) :
    Prog (Fin N × Fin M) (Fl A) := jacobianLoop coordinates prisms i (List.finRange M)

/-- `/repo/doc/user_guide/jacobian.rst:69-95` `build_jacobian` on `T` threads may return `jacobian`.
`np.empty` leaves arbitrary numbers in the array. -/
def build_jacobian {T : ℕ} (coordinates : Coordinates A N) (prisms : Prisms A M) (chunks : Fin T → List (Fin N))
    (jacobian : Fin N → Fin M → Fl A) : Prop :=
  ∃ garbage s, (ParState.start (jacobianBody coordinates prisms) chunks garbage).Reaches s ∧ s.Finished ∧
    ∀ i j, s.mem (i, j) = jacobian i j

/-- `x` can be the result of adding up the numbers `s`, in some order and grouping.
Models `/repo/doc/user_guide/how-to-use.rst:135-147` (a sum in any order). -/
inductive SumsTo : Multiset (Fl A) → Fl A → Prop
  | zero : SumsTo 0 0
  | one (x : Fl A) : SumsTo {x} x
  | add {s t : Multiset (Fl A)} {x y : Fl A} : SumsTo s x → SumsTo t y → SumsTo (s + t) (x + y)

/-- Fused multiply-add: `a * b + c` with one rounding.
Models `/repo/doc/user_guide/jacobian.rst:179` (an instruction that NumPy's matrix product may use). -/
noncomputable def fma : Fl A → Fl A → Fl A → Fl A
  | .fin a, .fin b, .fin c => Fl.ofRaw (A.rnd (a * b + c))
  | .fin _, .fin _, .inf s => Fl.inf s
  | .fin _, .fin _, .nan => Fl.nan
  | a, b, c => a * b + c

/-- `x` can be the result of adding up the products of the pairs `s`, in some order and grouping, with
or without fused multiply-adds.
Models `/repo/doc/user_guide/jacobian.rst:179` (the sum inside `@`). -/
inductive DotsTo : Multiset (Fl A × Fl A) → Fl A → Prop
  | zero : DotsTo 0 0
  | mul (a b : Fl A) : DotsTo {(a, b)} (a * b)
  | add {s t : Multiset (Fl A × Fl A)} {x y : Fl A} : DotsTo s x → DotsTo t y → DotsTo (s + t) (x + y)
  | fma {s : Multiset (Fl A × Fl A)} {x : Fl A} (a b : Fl A) : DotsTo s x → DotsTo ((a, b) ::ₘ s) (fma a b x)

/-- `/repo/doc/user_guide/jacobian.rst:179` `jacobian @ densities` may return `result`: the products are
added up in an order that is up to NumPy, with or without fused multiply-adds. -/
def matmul (jacobian : Fin N → Fin M → Fl A) (densities : Fin M → Fl A) (result : Fin N → Fl A) : Prop :=
  ∀ i, DotsTo ((Finset.univ : Finset (Fin M)).val.map fun j => (jacobian i j, densities j)) (result i)

end Choclo.userguide
