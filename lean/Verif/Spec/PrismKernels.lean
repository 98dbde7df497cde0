import Verif.Spec.Point

/-!
# The prism kernels and their documented values (specification)

The closed forms are those of the docstrings in `/repo/src/choclo/prism/_kernels.py`, written for a
vertex at `(x, y, z)` seen from the observation point.
-/

namespace Choclo

open Classical

/-- The twenty prism kernels. -/
inductive PKComp where
  | pot | e | n | u | ee | nn | uu | en | eu | nu
  | eee | nnn | uuu | een | eeu | enn | nnu | euu | nuu | enu
  deriving DecidableEq

/-- Potential and first-order kernels. -/
def PKComp.lowOrder : PKComp → Prop
  | .pot | .e | .n | .u => True
  | _ => False

/-- The public function `choclo.prism.kernel_<c>`. -/
noncomputable def prismKernel {A : Arith} (c : PKComp) : Fl A → Fl A → Fl A → Fl A → Py (Fl A) :=
  match c with
  | .pot => prism.kernel_pot
  | .e => prism.kernel_e
  | .n => prism.kernel_n
  | .u => prism.kernel_u
  | .ee => prism.kernel_ee
  | .nn => prism.kernel_nn
  | .uu => prism.kernel_uu
  | .en => prism.kernel_en
  | .eu => prism.kernel_eu
  | .nu => prism.kernel_nu
  | .eee => prism.kernel_eee
  | .nnn => prism.kernel_nnn
  | .uuu => prism.kernel_uuu
  | .een => prism.kernel_een
  | .eeu => prism.kernel_eeu
  | .enn => prism.kernel_enn
  | .nnu => prism.kernel_nnu
  | .euu => prism.kernel_euu
  | .nuu => prism.kernel_nuu
  | .enu => prism.kernel_enu

/-- Call a prism kernel as documented: with the vertex's distance as last argument. -/
noncomputable def callPrismKernel {A : Arith} (c : PKComp) (x y z : ℝ) : Py (Fl A) :=
  prismKernel c (x : Fl A) (y : Fl A) (z : Fl A) (Real.sqrt (x ^ 2 + y ^ 2 + z ^ 2) : ℝ)

/-- Documented `safe_log`: `ln (x + r)` where that makes sense, `- ln (-2x)` on the negative half
axis, 0 at the origin. -/
noncomputable def docLn (x r : ℝ) : ℝ :=
  if 0 < x + r then Real.log (x + r) else if x < 0 then -Real.log (-2 * x) else 0

/-- Documented `safe_atan2`: the principal value of `arctan (y / x)`, continued by `± π/2` (or 0)
where the denominator vanishes. -/
noncomputable def docAtan (y x : ℝ) : ℝ :=
  if x ≠ 0 then Real.arctan (y / x) else if 0 < y then Real.pi / 2 else if y < 0 then -(Real.pi / 2) else 0

/-- Documented third-order kernel with three equal indices. -/
noncomputable def docIII (x y z r : ℝ) : ℝ :=
  if (x ^ 2 + y ^ 2) * (x ^ 2 + z ^ 2) * r = 0 then 0
  else -(y * z * (2 * x ^ 2 + y ^ 2 + z ^ 2)) / ((x ^ 2 + y ^ 2) * (x ^ 2 + z ^ 2) * r)

/-- Documented third-order kernel with two equal indices `x x y`. -/
noncomputable def docIIJ (x y z r : ℝ) : ℝ :=
  if (x ^ 2 + y ^ 2) * r = 0 then 0 else x * z / ((x ^ 2 + y ^ 2) * r)

/-- The documented value of each kernel at the vertex `(x, y, z)` at distance `r`. -/
noncomputable def docKernel (c : PKComp) (x y z r : ℝ) : ℝ :=
  match c with
  | .pot => x * y * docLn z r + y * z * docLn x r + x * z * docLn y r
      - x ^ 2 / 2 * docAtan (y * z) (x * r) - y ^ 2 / 2 * docAtan (x * z) (y * r)
      - z ^ 2 / 2 * docAtan (x * y) (z * r)
  | .e => -(y * docLn z r + z * docLn y r - x * docAtan (y * z) (x * r))
  | .n => -(z * docLn x r + x * docLn z r - y * docAtan (x * z) (y * r))
  | .u => -(x * docLn y r + y * docLn x r - z * docAtan (x * y) (z * r))
  | .ee => -docAtan (y * z) (x * r)
  | .nn => -docAtan (x * z) (y * r)
  | .uu => -docAtan (x * y) (z * r)
  | .en => docLn z r
  | .eu => docLn y r
  | .nu => docLn x r
  | .eee => docIII x y z r
  | .nnn => docIII y z x r
  | .uuu => docIII z x y r
  | .een => docIIJ x y z r
  | .eeu => docIIJ x z y r
  | .enn => docIIJ y x z r
  | .nnu => docIIJ y z x r
  | .euu => docIIJ z x y r
  | .nuu => docIIJ z y x r
  | .enu => -1 / r

end Choclo
