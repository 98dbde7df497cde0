import Verif.Spec.Rounding

/-! # Exact intermediate results of the 20 point kernels (specification of C94)

`d` is the distance, `x`, `y`, `z` the coordinate differences the kernel uses. -/

namespace Choclo

/-- `kernel_e/n/u`. -/
noncomputable def kFirstSteps (d x : ℝ) : List ℝ := [d ^ 3, -x / d ^ 3]

/-- `kernel_ee/nn/uu` (sum of the magnitudes of the two terms last). -/
noncomputable def kDiagSteps (d x : ℝ) : List ℝ :=
  [x ^ 2, 3 * x ^ 2, d ^ 5, 3 * x ^ 2 / d ^ 5, d ^ 3, 1 / d ^ 3, 3 * x ^ 2 / d ^ 5 + 1 / d ^ 3]

/-- `kernel_en/eu/nu`. -/
noncomputable def kOffSteps (d x y : ℝ) : List ℝ := [3 * x, 3 * x * y, d ^ 5, 3 * x * y / d ^ 5]

/-- `kernel_eee/nnn/uuu` (sum of the magnitudes of the two terms last). -/
noncomputable def kCubeSteps (d x : ℝ) : List ℝ :=
  [9 * x, d ^ 5, 9 * x / d ^ 5, x ^ 3, 15 * x ^ 3, d ^ 7, 15 * x ^ 3 / d ^ 7,
    |9 * x / d ^ 5| + |15 * x ^ 3 / d ^ 7|]

/-- `kernel_een`, ... (sum of the magnitudes of the two terms last). -/
noncomputable def kMixSteps (d x y : ℝ) : List ℝ :=
  [3 * y, d ^ 5, 3 * y / d ^ 5, x ^ 2, 15 * x ^ 2, 15 * x ^ 2 * y, d ^ 7, 15 * x ^ 2 * y / d ^ 7,
    |3 * y / d ^ 5| + |15 * x ^ 2 * y / d ^ 7|]

/-- `kernel_enu`. -/
noncomputable def kTripleSteps (d x y z : ℝ) : List ℝ :=
  [-15 * x, -15 * x * y, -15 * x * y * z, d ^ 7, -15 * x * y * z / d ^ 7]

/-- The intermediate results of `choclo.point.kernel_<c>` after the distance. -/
noncomputable def kernelSteps (c : KComp) (p q : Pt) : List ℝ :=
  match c with
  | .pot => [1 / dist3 p q]
  | .e => kFirstSteps (dist3 p q) (p.e - q.e)
  | .n => kFirstSteps (dist3 p q) (p.n - q.n)
  | .u => kFirstSteps (dist3 p q) (p.u - q.u)
  | .ee => kDiagSteps (dist3 p q) (p.e - q.e)
  | .nn => kDiagSteps (dist3 p q) (p.n - q.n)
  | .uu => kDiagSteps (dist3 p q) (p.u - q.u)
  | .en => kOffSteps (dist3 p q) (p.e - q.e) (p.n - q.n)
  | .eu => kOffSteps (dist3 p q) (p.e - q.e) (p.u - q.u)
  | .nu => kOffSteps (dist3 p q) (p.n - q.n) (p.u - q.u)
  | .eee => kCubeSteps (dist3 p q) (p.e - q.e)
  | .nnn => kCubeSteps (dist3 p q) (p.n - q.n)
  | .uuu => kCubeSteps (dist3 p q) (p.u - q.u)
  | .een => kMixSteps (dist3 p q) (p.e - q.e) (p.n - q.n)
  | .eeu => kMixSteps (dist3 p q) (p.e - q.e) (p.u - q.u)
  | .nne => kMixSteps (dist3 p q) (p.n - q.n) (p.e - q.e)
  | .nnu => kMixSteps (dist3 p q) (p.n - q.n) (p.u - q.u)
  | .uue => kMixSteps (dist3 p q) (p.u - q.u) (p.e - q.e)
  | .uun => kMixSteps (dist3 p q) (p.u - q.u) (p.n - q.n)
  | .enu => kTripleSteps (dist3 p q) (p.e - q.e) (p.n - q.n) (p.u - q.u)

/-- The order of differentiation of a point kernel (0 for `kernel_pot`, 3 for `kernel_enu`). -/
def KComp.order (c : KComp) : ℕ := c.index.1 + c.index.2.1 + c.index.2.2

/-- The kernels made of a single term: no cancellation. -/
def KComp.monomial : KComp → Prop
  | .pot | .e | .n | .u | .en | .eu | .nu | .enu => True
  | _ => False

end Choclo
