import Mathlib.MeasureTheory.Integral.Prod
import Mathlib.Analysis.SpecialFunctions.Complex.Circle
import Verif.Spec.Flux

/-! # Spectra of data on a plane (specification)

The two-dimensional Fourier transform `∫∫ g(s) exp(-i k·s) ds` of data on an axis-parallel plane, as
used for filtering gridded potential-field data. -/

namespace Choclo

open MeasureTheory

/-- the two coordinates of a point along the planes perpendicular to the axis, in order -/
def Pt.along (a : Axis) (p : Pt) : ℝ × ℝ :=
  match a with
  | .e => (p.n, p.u)
  | .n => (p.e, p.u)
  | .u => (p.e, p.n)

/-- `exp(-i k·s)` -/
noncomputable def wave (k s : ℝ × ℝ) : ℂ := Complex.exp (-(Complex.I * ((k.1 * s.1 + k.2 * s.2 : ℝ) : ℂ)))

/-- the spectrum of `g` at the wave vector `k` -/
noncomputable def spectrum (g : ℝ × ℝ → ℝ) (k : ℝ × ℝ) : ℂ := ∫ s, (g s : ℂ) * wave k s

/-- the wavenumber `|k|` -/
noncomputable def wavenumber (k : ℝ × ℝ) : ℝ := Real.sqrt (k.1 ^ 2 + k.2 ^ 2)

/-- the component of the wave vector along the axis `b` of the plane perpendicular to `a` -/
def kAlong (a b : Axis) (k : ℝ × ℝ) : ℝ :=
  match a, b with
  | .e, .n => k.1 | .e, .u => k.2
  | .n, .e => k.1 | .n, .u => k.2
  | .u, .e => k.1 | .u, .n => k.2
  | .e, .e => 0 | .n, .n => 0 | .u, .u => 0

/-- what the derivative along `b` does to the spectrum: `i k_b` along the plane, `-|k|` upwards -/
noncomputable def derivFactor (a b : Axis) (k : ℝ × ℝ) : ℂ :=
  if b = a then -(wavenumber k : ℂ) else Complex.I * (kAlong a b k : ℂ)

end Choclo
