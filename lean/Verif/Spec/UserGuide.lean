import Verif.Model.UserGuide
import Verif.Spec.Basic

/-! # Vocabulary for the programs of the user guide (specification) -/

namespace Choclo.userguide

variable {A : Arith} {N M : ℕ}

/-- What `gravity_u` returns for the observation point `i` and the prism `j`. -/
noncomputable def fieldOf (coordinates : Coordinates A N) (prisms : Prisms A M) (densities : Fin M → Fl A) (i : Fin N)
    (j : Fin M) : Py (Fl A) :=
  prism.gravity_u (coordinates.easting i) (coordinates.northing i) (coordinates.upward i)
    (prisms j 0) (prisms j 1) (prisms j 2) (prisms j 3) (prisms j 4) (prisms j 5) (densities j)

/-- Observation points with finite coordinates. -/
def points (p : Fin N → Pt) : Coordinates A N :=
  ⟨fun i => ((p i).e : Fl A), fun i => ((p i).n : Fl A), fun i => ((p i).u : Fl A)⟩

/-- Prisms with finite boundaries. -/
def boxes (P : Fin M → Box) : Prisms A M := fun j =>
  ![((P j).west : Fl A), ((P j).east : Fl A), ((P j).south : Fl A), ((P j).north : Fl A), ((P j).bottom : Fl A),
    ((P j).top : Fl A)]

/-- Finite densities. -/
def values (ρ : Fin M → ℝ) : Fin M → Fl A := fun j => (ρ j : Fl A)

/-- Neither the Jacobian entry `J` nor the field `v`, for density `ρ`, nor their parts underflow, or
both sides are zero. -/
def SafeEntry (J ρ v : ℝ) : Prop :=
  (J * ρ = 0 ∧ v = 0) ∨ (2 ^ (-1021 : ℤ) ≤ |J| ∧ 2 ^ (-980 : ℤ) ≤ |ρ| ∧ 2 ^ (-1021 : ℤ) ≤ |J * ρ|)

end Choclo.userguide
