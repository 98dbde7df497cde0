import Verif.Spec.Rounding
import Mathlib.Analysis.Real.Pi.Bounds

/-! # Laws for the trigonometric library functions (specification) -/

namespace Choclo

/-- `np.radians` has a relative error of at most `3 u` (two roundings) down to the underflow threshold
`lo`, `np.sin` and `np.cos` have an absolute error of at most `u`; for arguments up to `2^20`. -/
structure Arith.TrigAccurate (A : Arith) (u lo : ℝ) : Prop where
  radians : ∀ x : ℝ, |x| ≤ 2 ^ 20 → ∃ y : ℝ, A.radians x = .fin y ∧
    |y - x * (Real.pi / 180)| ≤ 3 * u * max |x * (Real.pi / 180)| lo
  sin : ∀ x : ℝ, |x| ≤ 2 ^ 20 → ∃ y : ℝ, A.sin x = .fin y ∧ |y - Real.sin x| ≤ u
  cos : ∀ x : ℝ, |x| ≤ 2 ^ 20 → ∃ y : ℝ, A.cos x = .fin y ∧ |y - Real.cos x| ≤ u

/-- Longitude of a turn at most, latitude between the poles, in degrees. -/
def GeographicAngles (lon lat : ℝ) : Prop := |lon| ≤ 360 ∧ |lat| ≤ 90

/-- A radius between `2⁻⁸⁰ ≈ 10⁻²⁴` and `2⁸⁰ ≈ 10²⁴`. -/
def ModerateRadius (r : ℝ) : Prop := (2 : ℝ) ^ (-80 : ℤ) ≤ r ∧ r ≤ 2 ^ (80 : ℤ)

/-- A radius for single precision: between a micrometre and `2⁴⁰ ≈ 10¹²` metres. -/
def SinglePrecisionRadius (r : ℝ) : Prop := (2 : ℝ) ^ (-20 : ℤ) ≤ r ∧ r ≤ 2 ^ (40 : ℤ)

end Choclo
