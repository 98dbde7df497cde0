import Verif.Spec.Integral

/-! # Balls (specification) -/

namespace Choclo

/-- The solid ball of radius `R` about the point `c`. -/
def ball3 (c : Pt) (R : ℝ) : Set Pt := {q | dist3 c q ≤ R}

/-- Its volume. -/
noncomputable def ballVolume (R : ℝ) : ℝ := 4 / 3 * Real.pi * R ^ 3

end Choclo
