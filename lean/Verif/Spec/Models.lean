import Verif.Spec.UserGuide
import Verif.Spec.Prism

/-! # Models made of prisms as distributions, and what data determine -/

namespace Choclo

open Classical

variable {ι : Type*}

/-- what a model made of prisms `P i` with densities (or magnetizations) `w i` has at the point `s`: the sum over the prisms
that contain it -/
noncomputable def totalAt [Fintype ι] {V : Type*} [AddCommMonoid V] (P : ι → Box) (w : ι → V) (s : Pt) : V :=
  ∑ i, if s ∈ (P i).region then w i else 0

/-- the point is on no face of the prisms -/
def OffFaces (P : ι → Box) (s : Pt) : Prop := ∀ i, s ∈ (P i).region → s ∈ (P i).inside

open userguide in
/-- the data of the forward model of the user guide at the points `q` determine the densities of the prisms -/
def Resolves {M N : ℕ} (q : Fin N → Pt) (P : Fin M → Box) : Prop :=
  ∀ ρ σ : Fin M → ℝ, gravity_upward (A := Exact) (points q) (boxes P) (values ρ)
    = gravity_upward (A := Exact) (points q) (boxes P) (values σ) → ρ = σ

end Choclo
