import Verif.Model.UserGuide

/-!
# The forward loops of the user guide with arrays of any lengths

`/repo/doc/user_guide/how-to-use.rst`.  The interpreted loop `gravity_upward_slow` checks every index; the
compiled loops `gravity_upward_jit` and `gravity_upward_parallel` do not (Numba's default `boundscheck=False`):
an index out of range reads whatever is in memory there.  Simplifications: arrays are one-dimensional
(`prisms` two-dimensional and C-contiguous) with elements float64; a read out of range returns some number
(it might also end the process); the error messages are not modelled.
-/

namespace Choclo.userguide

variable {A : Arith}

/-- The exceptions that the interpreted loop can raise.
Models `/repo/doc/user_guide/how-to-use.rst:75-84`. -/
inductive GuideErr where
  | zeroDivision | index | type | value
  deriving DecidableEq

/-- A two-dimensional array: the number of columns, and the rows.
Models `/repo/doc/user_guide/how-to-use.rst:40-45` (`prisms`). -/
structure Table (A : Arith) where
  cols : ℕ
  rows : List (Fin cols → Fl A)

/-- `a[i]` on an array, `/repo/doc/user_guide/how-to-use.rst:83`. -/
def item {α : Type} (a : List α) (i : ℕ) : Except GuideErr α :=
  match a[i]? with
  | some x => .ok x
  | none => .error .index

/-- An exception inside `gravity_u` is a `ZeroDivisionError`,
`/repo/doc/user_guide/how-to-use.rst:82-84`. -/
def fromCall {α : Type} : Py α → Except GuideErr α
  | .ok v => .ok v
  | .error _ => .error .zeroDivision

/-- The call of `gravity_u` with the arguments in a list: a wrong number of them is a `TypeError`,
`/repo/doc/user_guide/how-to-use.rst:82-84`. -/
noncomputable def call_gravity_u (args : List (Fl A)) : Except GuideErr (Fl A) :=
  if h : args.length = 10 then
    fromCall (prism.gravity_u args[0] args[1] args[2] args[3] args[4] args[5] args[6] args[7] args[8] args[9])
  else .error .type

/-- The right-hand side of `result[i] += ...`, `/repo/doc/user_guide/how-to-use.rst:82-84`: the arguments are
evaluated from left to right, then `gravity_u` is called. -/
noncomputable def slow_term (easting northing upward : List (Fl A)) (prisms : Table A) (densities : List (Fl A)) (i j : ℕ) :
    Except GuideErr (Fl A) := do
  let e ← item easting i
  let n ← item northing i
  let u ← item upward i
  let row ← item prisms.rows j
  let density ← item densities j
  call_gravity_u ([e, n, u] ++ List.ofFn row ++ [density])

/-- `/repo/doc/user_guide/how-to-use.rst:70-85` `gravity_upward_slow` after the unpacking of the coordinates. -/
noncomputable def slow_loop (easting northing upward : List (Fl A)) (prisms : Table A) (densities : List (Fl A)) :
    Except GuideErr (Fin easting.length → Fl A) := do
  let mut result : Fin easting.length → Fl A := fun _ => 0
  for i in List.finRange easting.length do
    for j in List.finRange prisms.rows.length do
      result := Function.update result i (result i + (← slow_term easting northing upward prisms densities i j))
  return result

/-- `/repo/doc/user_guide/how-to-use.rst:70-85` `gravity_upward_slow`. -/
noncomputable def gravity_upward_slow (coordinates : List (List (Fl A))) (prisms : Table A) (densities : List (Fl A)) :
    Except GuideErr (List (Fl A)) :=
  match coordinates with
  | [easting, northing, upward] => do return List.ofFn (← slow_loop easting northing upward prisms densities)
  | _ => .error .value

/-- What an unchecked read finds: the element, or what is in memory beyond the array,
`/repo/doc/user_guide/how-to-use.rst:137-146`. -/
def unchecked (memory : ℕ → Fl A) (a : List (Fl A)) (i : ℕ) : Fl A := (a[i]?).getD (memory i)

/-- The contents of memory beyond the four arrays that a compiled loop reads,
`/repo/doc/user_guide/how-to-use.rst:137-146`. -/
structure Beyond (A : Arith) where
  northing : ℕ → Fl A
  upward : ℕ → Fl A
  prisms : ℕ → Fl A
  densities : ℕ → Fl A

/-- The coordinates as a compiled loop sees them, `/repo/doc/user_guide/how-to-use.rst:137-139`. -/
def jit_coordinates (beyond : Beyond A) (easting northing upward : List (Fl A)) : Coordinates A easting.length :=
  ⟨fun i => easting[i], fun i => unchecked beyond.northing northing i, fun i => unchecked beyond.upward upward i⟩

/-- The prisms as a compiled loop sees them, `/repo/doc/user_guide/how-to-use.rst:140-145`: the element `[j, k]` of a
C-contiguous array is at the offset `j * cols + k`. -/
def jit_prisms (beyond : Beyond A) (prisms : Table A) : Prisms A prisms.rows.length :=
  fun j k => unchecked beyond.prisms (prisms.rows.flatMap List.ofFn) (j * prisms.cols + k)

/-- The densities as a compiled loop sees them, `/repo/doc/user_guide/how-to-use.rst:146`. -/
def jit_densities (beyond : Beyond A) (prisms : Table A) (densities : List (Fl A)) : Fin prisms.rows.length → Fl A :=
  fun j => unchecked beyond.densities densities j

/-- `/repo/doc/user_guide/how-to-use.rst:124-148` `gravity_upward_jit` for arrays of any lengths. -/
noncomputable def gravity_upward_jit (beyond : Beyond A) (easting northing upward : List (Fl A)) (prisms : Table A)
    (densities : List (Fl A)) : Py (Fin easting.length → Fl A) :=
  gravity_upward (jit_coordinates beyond easting northing upward) (jit_prisms beyond prisms)
    (jit_densities beyond prisms densities)

end Choclo.userguide
