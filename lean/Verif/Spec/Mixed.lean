import Verif.Model.Mixed.Utils
import Verif.Model.Mixed.Point
import Verif.Model.Mixed.Dipole
import Verif.Model.Mixed.PrismMagnetic
import Verif.Spec.Basic
import Verif.Spec.Rounding

/-! # Calls with float32 arguments (specification) -/

namespace Choclo

variable {S D : Arith}

/-- The argument is a float64. -/
def MFl.Wide (a : MFl S D) : Prop := ∃ x : Fl D, a = .f64 x

/-- `call` does what `call'` does, and returns float64 numbers. -/
def SameCall64 (call : Py (MFl S D)) (call' : Py (Fl D)) : Prop := call = call'.map .f64

/-- The same for calls that return three numbers. -/
def SameCall64x3 (call : Py (MFl S D × MFl S D × MFl S D)) (call' : Py (Fl D × Fl D × Fl D)) : Prop :=
  call = call'.map fun r => (.f64 r.1, .f64 r.2.1, .f64 r.2.2)

/-- The argument, a float32 or a float64, is the real number `x`. -/
def MFl.IsReal (a : MFl S D) (x : ℝ) : Prop := a.toD = Fl.fin x

/-- The arguments (each a float32 or a float64) are the coordinates of the points `p` and `q`. -/
structure ArePoints (ep np up eq nq uq : MFl S D) (p q : Pt) : Prop where
  ep : ep.IsReal p.e
  np : np.IsReal p.n
  up : up.IsReal p.u
  eq : eq.IsReal q.e
  nq : nq.IsReal q.n
  uq : uq.IsReal q.u

/-- The call returns a finite number, a float32 or a float64, with relative error at most `ε` from `x`. -/
def MReturnsNear (call : Py (MFl S D)) (x ε : ℝ) : Prop :=
  ∃ v : MFl S D, ∃ y : ℝ, call = .ok v ∧ v.IsReal y ∧ |y - x| ≤ ε * |x|

/-- The call returns a finite number, a float32 or a float64, within `δ` of `x`. -/
def MReturnsWithin (call : Py (MFl S D)) (x δ : ℝ) : Prop :=
  ∃ v : MFl S D, ∃ y : ℝ, call = .ok v ∧ v.IsReal y ∧ |y - x| ≤ δ

/-- A coordinate difference for single precision: zero, or between a micrometre and 16777 km. -/
def ShortLength (x : ℝ) : Prop := x = 0 ∨ ((2 : ℝ) ^ (-20 : ℤ) ≤ |x| ∧ |x| ≤ 2 ^ (24 : ℤ))

/-- A coordinate difference for which the squares do not overflow in single precision. -/
def LongLength (x : ℝ) : Prop := x = 0 ∨ ((2 : ℝ) ^ (-20 : ℤ) ≤ |x| ∧ |x| ≤ 2 ^ (40 : ℤ))

/-- The component of a magnetic moment for single precision: zero, or between `10⁻¹²` and `10¹²`. -/
def ShortMoment (x : ℝ) : Prop := x = 0 ∨ ((2 : ℝ) ^ (-40 : ℤ) ≤ |x| ∧ |x| ≤ 2 ^ (40 : ℤ))

namespace Mixed

/-- The public function `choclo.point.gravity_<c>`. -/
noncomputable def pointGravity (c : GComp) :
    MFl S D → MFl S D → MFl S D → MFl S D → MFl S D → MFl S D → MFl S D → Py (MFl S D) :=
  match c with
  | .pot => point.gravity_pot
  | .e => point.gravity_e
  | .n => point.gravity_n
  | .u => point.gravity_u
  | .ee => point.gravity_ee
  | .nn => point.gravity_nn
  | .uu => point.gravity_uu
  | .en => point.gravity_en
  | .eu => point.gravity_eu
  | .nu => point.gravity_nu

/-- The public function `choclo.point.kernel_<c>`. -/
noncomputable def pointKernel (c : KComp) :
    MFl S D → MFl S D → MFl S D → MFl S D → MFl S D → MFl S D → MFl S D → Py (MFl S D) :=
  match c with
  | .pot => point.kernel_pot
  | .e => point.kernel_e
  | .n => point.kernel_n
  | .u => point.kernel_u
  | .ee => point.kernel_ee
  | .nn => point.kernel_nn
  | .uu => point.kernel_uu
  | .en => point.kernel_en
  | .eu => point.kernel_eu
  | .nu => point.kernel_nu
  | .eee => point.kernel_eee
  | .nnn => point.kernel_nnn
  | .uuu => point.kernel_uuu
  | .een => point.kernel_een
  | .eeu => point.kernel_eeu
  | .nne => point.kernel_nne
  | .nnu => point.kernel_nnu
  | .uue => point.kernel_uue
  | .uun => point.kernel_uun
  | .enu => point.kernel_enu

/-- Call a function of two points with float32 coordinates. -/
noncomputable def onPair32 {β : Type} (f : MFl S D → MFl S D → MFl S D → MFl S D → MFl S D → MFl S D → β) (p q : Pt) : β :=
  f (.f32 (Fl.fin p.e)) (.f32 (Fl.fin p.n)) (.f32 (Fl.fin p.u)) (.f32 (Fl.fin q.e)) (.f32 (Fl.fin q.n)) (.f32 (Fl.fin q.u))

/-- Call a point kernel with float32 coordinates and the distance between the two points as last argument. -/
noncomputable def callKernel32 (c : KComp) (p q : Pt) : Py (MFl S D) := do
  let distance ← onPair32 utils.distance_cartesian p q
  onPair32 (pointKernel c) p q distance

/-- The public function `choclo.dipole.magnetic_<a>`. -/
noncomputable def dipoleMagnetic (a : Axis) :
    MFl S D → MFl S D → MFl S D → MFl S D → MFl S D → MFl S D → MFl S D → MFl S D → MFl S D → Py (MFl S D) :=
  match a with
  | .e => dipole.magnetic_e
  | .n => dipole.magnetic_n
  | .u => dipole.magnetic_u

/-- The public function `choclo.prism.kernel_<c>`. -/
noncomputable def prismKernel (c : PKComp) : MFl S D → MFl S D → MFl S D → MFl S D → Py (MFl S D) :=
  match c with
  | .pot => prism.kernel_pot
  | .e => prism.kernel_e
  | .n => prism.kernel_n
  | .u => prism.kernel_u
  | .ee => prism.kernel_ee
  | .nn => prism.kernel_nn
  | .uu => prism.kernel_uu
  | .en => prism.kernel_en
  | .eu => prism.kernel_eu
  | .nu => prism.kernel_nu
  | .eee => prism.kernel_eee
  | .nnn => prism.kernel_nnn
  | .uuu => prism.kernel_uuu
  | .een => prism.kernel_een
  | .eeu => prism.kernel_eeu
  | .enn => prism.kernel_enn
  | .nnu => prism.kernel_nnu
  | .euu => prism.kernel_euu
  | .nuu => prism.kernel_nuu
  | .enu => prism.kernel_enu

end Mixed

end Choclo
