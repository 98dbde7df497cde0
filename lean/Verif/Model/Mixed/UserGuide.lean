import Verif.Model.Mixed.PrismGravity
import Verif.Model.UserGuide

/-!
# The programs of the user guide for arrays of float32 or float64 numbers

`/repo/doc/user_guide/how-to-use.rst` and `/repo/doc/user_guide/jacobian.rst` with the arrays
`coordinates`, `prisms` and `densities` of either type; the results are float64 arrays
(`dtype=np.float64`).  Simplifications as in `Verif/Model/UserGuide.lean` and `Verif/Model/Mixed/Arith.lean`.
-/

namespace Choclo.Mixed.userguide

variable {S D : Arith} {N M : ℕ}

/-- `coordinates`, `/repo/doc/user_guide/how-to-use.rst:52-57`. -/
structure Coordinates (S D : Arith) (N : ℕ) where
  easting : Fin N → MFl S D
  northing : Fin N → MFl S D
  upward : Fin N → MFl S D

/-- `prisms`, `/repo/doc/user_guide/how-to-use.rst:40-45`. -/
abbrev Prisms (S D : Arith) (M : ℕ) : Type := Fin M → Fin 6 → MFl S D

/-- The number added to the float64 cell `result[i]`: what `gravity_u` returns, converted to float64,
`/repo/doc/user_guide/how-to-use.rst:137-147`. -/
noncomputable def term (coordinates : Coordinates S D N) (prisms : Prisms S D M) (densities : Fin M → MFl S D)
    (i : Fin N) (j : Fin M) : Py (Fl D) := do
  return (← Mixed.prism.gravity_u
    (coordinates.easting i) (coordinates.northing i) (coordinates.upward i)
    (prisms j 0) (prisms j 1) (prisms j 2) (prisms j 3) (prisms j 4) (prisms j 5) (densities j)).toD

/-- `/repo/doc/user_guide/how-to-use.rst:124-148` `gravity_upward_jit`. -/
noncomputable def gravity_upward (coordinates : Coordinates S D N) (prisms : Prisms S D M) (densities : Fin M → MFl S D) :
    Py (Fin N → Fl D) := do
  let mut result : Fin N → Fl D := fun _ => 0
  for i in List.finRange N do
    for j in List.finRange M do
      result := Function.update result i (result i + (← term coordinates prisms densities i j))
  return result

/-- The inner loop of `gravity_upward_parallel`, `/repo/doc/user_guide/how-to-use.rst:207-219`. -/
noncomputable def upwardLoop (coordinates : Coordinates S D N) (prisms : Prisms S D M) (densities : Fin M → MFl S D)
    (i : Fin N) : List (Fin M) → Prog (Fin N) (Fl D)
  | [] => .done
  | j :: l =>
    .read i fun r =>
    .call (term coordinates prisms densities i j) fun g =>
    .write i (r + g) (upwardLoop coordinates prisms densities i l)

/-- The body of the parallel loop, `/repo/doc/user_guide/how-to-use.rst:206-219`. -/
noncomputable def upwardBody (coordinates : Coordinates S D N) (prisms : Prisms S D M) (densities : Fin M → MFl S D)
    (i : Fin N) : Prog (Fin N) (Fl D) := upwardLoop coordinates prisms densities i (List.finRange M)

/-- `/repo/doc/user_guide/how-to-use.rst:196-220` `gravity_upward_parallel` on `T` threads may return
`result`. -/
def gravity_upward_parallel {T : ℕ} (coordinates : Coordinates S D N) (prisms : Prisms S D M)
    (densities : Fin M → MFl S D) (chunks : Fin T → List (Fin N)) (result : Fin N → Fl D) : Prop :=
  ∃ s, (ParState.start (upwardBody coordinates prisms densities) chunks fun _ => 0).Reaches s ∧ s.Finished ∧
    s.mem = result

/-- The inner loop of `build_jacobian`, `/repo/doc/user_guide/jacobian.rst:82-94`; the literal `1.0` is a
float64. -/
noncomputable def jacobianLoop (coordinates : Coordinates S D N) (prisms : Prisms S D M) (i : Fin N) :
    List (Fin M) → Prog (Fin N × Fin M) (Fl D)
  | [] => .done
  | j :: l =>
    .call (term coordinates prisms (fun _ => MFl.f64 1) i j) fun g =>
    .write (i, j) g (jacobianLoop coordinates prisms i l)

/-- The body of the parallel loop of `build_jacobian`, `/repo/doc/user_guide/jacobian.rst:81-94`. -/
noncomputable def jacobianBody (coordinates : Coordinates S D N) (prisms : Prisms S D M) (i : Fin N) :
    Prog (Fin N × Fin M) (Fl D) := jacobianLoop coordinates prisms i (List.finRange M)

/-- `/repo/doc/user_guide/jacobian.rst:69-95` `build_jacobian` on `T` threads may return `jacobian`. -/
def build_jacobian {T : ℕ} (coordinates : Coordinates S D N) (prisms : Prisms S D M) (chunks : Fin T → List (Fin N))
    (jacobian : Fin N → Fin M → Fl D) : Prop :=
  ∃ garbage s, (ParState.start (jacobianBody coordinates prisms) chunks garbage).Reaches s ∧ s.Finished ∧
    ∀ i j, s.mem (i, j) = jacobian i j

/-- `/repo/doc/user_guide/jacobian.rst:179` `jacobian @ densities` may return `result`: NumPy converts a
float32 `densities` to float64 first. -/
def matmul (jacobian : Fin N → Fin M → Fl D) (densities : Fin M → MFl S D) (result : Fin N → Fl D) : Prop :=
  Choclo.userguide.matmul jacobian (fun j => (densities j).toD) result

end Choclo.Mixed.userguide
