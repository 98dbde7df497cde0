import Verif.Spec.Basic

/-!
# Axes, multi-indices and the point kernels (specification)
-/

namespace Choclo

/-- The three coordinate axes. -/
inductive Axis where
  | e | n | u
  deriving DecidableEq

/-- The coordinate of a point along an axis. -/
def Pt.coord (p : Pt) : Axis → ℝ
  | .e => p.e
  | .n => p.n
  | .u => p.u

/-- The point with its coordinate along an axis replaced by `t`. -/
def Pt.set (p : Pt) (a : Axis) (t : ℝ) : Pt :=
  match a with
  | .e => (t, p.n, p.u)
  | .n => (p.e, t, p.u)
  | .u => (p.e, p.n, t)

/-- The multi-index of one derivative along an axis. -/
def Axis.index : Axis → ℕ × ℕ × ℕ
  | .e => (1, 0, 0)
  | .n => (0, 1, 0)
  | .u => (0, 0, 1)

/-- How often each axis letter occurs in the name of a gravity component
(`pot` ↦ none, `en` ↦ easting and northing once, ...). -/
def GComp.index : GComp → ℕ × ℕ × ℕ
  | .pot => (0, 0, 0)
  | .e => (1, 0, 0)
  | .n => (0, 1, 0)
  | .u => (0, 0, 1)
  | .ee => (2, 0, 0)
  | .nn => (0, 2, 0)
  | .uu => (0, 0, 2)
  | .en => (1, 1, 0)
  | .eu => (1, 0, 1)
  | .nu => (0, 1, 1)

/-- The calls `f p'` return finite numbers for `p'` near `p` on the line through `p` along axis `a`,
and the derivative of what they return along that line is `d`: a partial derivative. -/
def HasPartial {A : Arith} (f : Pt → Py (Fl A)) (p : Pt) (a : Axis) (d : ℝ) : Prop :=
  ∃ F : ℝ → ℝ, (∀ᶠ t in nhds (p.coord a), Returns (f (p.set a t)) (F t)) ∧
    HasDerivAt F d (p.coord a)

/-- The public function `choclo.dipole.magnetic_<a>`. -/
noncomputable def dipoleMagnetic {A : Arith} (a : Axis) :
    Fl A → Fl A → Fl A → Fl A → Fl A → Fl A → Fl A → Fl A → Fl A → Py (Fl A) :=
  match a with
  | .e => dipole.magnetic_e
  | .n => dipole.magnetic_n
  | .u => dipole.magnetic_u

/-- The acceleration component along an axis. -/
def Axis.acc : Axis → GComp
  | .e => .e
  | .n => .n
  | .u => .u

/-- The diagonal tensor component along an axis. -/
def Axis.diag : Axis → GComp
  | .e => .ee
  | .n => .nn
  | .u => .uu

/-- The twenty point kernels. -/
inductive KComp where
  | pot | e | n | u | ee | nn | uu | en | eu | nu
  | eee | nnn | uuu | een | eeu | nne | nnu | uue | uun | enu
  deriving DecidableEq

/-- How often each axis letter occurs in the name of a kernel. -/
def KComp.index : KComp → ℕ × ℕ × ℕ
  | .pot => (0, 0, 0)
  | .e => (1, 0, 0)
  | .n => (0, 1, 0)
  | .u => (0, 0, 1)
  | .ee => (2, 0, 0)
  | .nn => (0, 2, 0)
  | .uu => (0, 0, 2)
  | .en => (1, 1, 0)
  | .eu => (1, 0, 1)
  | .nu => (0, 1, 1)
  | .eee => (3, 0, 0)
  | .nnn => (0, 3, 0)
  | .uuu => (0, 0, 3)
  | .een => (2, 1, 0)
  | .eeu => (2, 0, 1)
  | .nne => (1, 2, 0)
  | .nnu => (0, 2, 1)
  | .uue => (1, 0, 2)
  | .uun => (0, 1, 2)
  | .enu => (1, 1, 1)

/-- The public function `choclo.point.kernel_<c>`. -/
noncomputable def pointKernel {A : Arith} (c : KComp) :
    Fl A → Fl A → Fl A → Fl A → Fl A → Fl A → Fl A → Py (Fl A) :=
  match c with
  | .pot => point.kernel_pot
  | .e => point.kernel_e
  | .n => point.kernel_n
  | .u => point.kernel_u
  | .ee => point.kernel_ee
  | .nn => point.kernel_nn
  | .uu => point.kernel_uu
  | .en => point.kernel_en
  | .eu => point.kernel_eu
  | .nu => point.kernel_nu
  | .eee => point.kernel_eee
  | .nnn => point.kernel_nnn
  | .uuu => point.kernel_uuu
  | .een => point.kernel_een
  | .eeu => point.kernel_eeu
  | .nne => point.kernel_nne
  | .nnu => point.kernel_nnu
  | .uue => point.kernel_uue
  | .uun => point.kernel_uun
  | .enu => point.kernel_enu

/-- Call a point kernel the way the documentation asks for: with the distance between the two
points as last argument. -/
noncomputable def callKernel {A : Arith} (c : KComp) (p q : Pt) : Py (Fl A) := do
  let distance ← onPair (A := A) utils.distance_cartesian p q
  onPair (pointKernel c) p q distance

end Choclo
