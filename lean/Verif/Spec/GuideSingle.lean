import Verif.Spec.MixedPrism
import Verif.Model.Mixed.UserGuide

/-! # Vocabulary for the programs of the user guide with float32 arrays (specification) -/

namespace Choclo

/-- The arrays (each element a float32 or a float64) hold the points `q`, the prisms `P` and the densities `ρ`. -/
structure GuideArrays {S D : Arith} {N M : ℕ} (c : Mixed.userguide.Coordinates S D N) (p : Mixed.userguide.Prisms S D M)
    (d : Fin M → MFl S D) (q : Fin N → Pt) (P : Fin M → Box) (ρ : Fin M → ℝ) : Prop where
  geometry : ∀ i j, ArePrism (c.easting i) (c.northing i) (c.upward i) (p j 0) (p j 1) (p j 2) (p j 3) (p j 4) (p j 5)
    (q i) (P j)
  density : ∀ j, (d j).IsReal (ρ j)

end Choclo
