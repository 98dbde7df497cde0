import Verif.Model.Lengths

/-!
# The sensitivity matrix of the user guide with arrays of any lengths

`/repo/doc/user_guide/jacobian.rst`.  `build_jacobian` is compiled (with `parallel=True`) and checks no index;
`jacobian @ densities` is NumPy's and checks the shapes.  Simplifications as in `Model/Lengths.lean`.
-/

namespace Choclo.userguide

variable {A : Arith}

/-- `/repo/doc/user_guide/jacobian.rst:69-95` `build_jacobian` for arrays of any lengths, on `T` threads, may return
`jacobian`. -/
def build_jacobian_jit {T : ℕ} (beyond : Beyond A) (easting northing upward : List (Fl A)) (prisms : Table A)
    (chunks : Fin T → List (Fin easting.length)) (jacobian : Fin easting.length → Fin prisms.rows.length → Fl A) : Prop :=
  build_jacobian (jit_coordinates beyond easting northing upward) (jit_prisms beyond prisms) chunks jacobian

/-- `/repo/doc/user_guide/jacobian.rst:179` `jacobian @ densities` for any number of densities: `ValueError` if it is not
the number of columns. -/
inductive Product {N M : ℕ} (jacobian : Fin N → Fin M → Fl A) (densities : List (Fl A)) :
    Except GuideErr (Fin N → Fl A) → Prop
  | mismatch (h : densities.length ≠ M) : Product jacobian densities (.error .value)
  | product (h : densities.length = M) (result : Fin N → Fl A)
      (hr : matmul jacobian (fun j => densities[j.val]'(h ▸ j.isLt)) result) : Product jacobian densities (.ok result)

end Choclo.userguide
