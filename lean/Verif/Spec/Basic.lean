import Verif.Model.Utils
import Verif.Model.Point
import Verif.Model.Dipole
import Verif.Model.PrismUtils
import Verif.Model.PrismKernels
import Verif.Model.PrismGravity
import Verif.Model.PrismMagnetic
import Mathlib.MeasureTheory.Integral.Bochner.Set
import Mathlib.MeasureTheory.Measure.Lebesgue.Basic
import Mathlib.Analysis.Calculus.Deriv.Basic

/-!
# Vocabulary of the property statements

Points, prisms, and the few notions the property theorems are phrased in.  Nothing here refers to
the internals of the model: only to calling an API function and looking at what it returns.
-/

namespace Choclo

/-- A point of space: (easting, northing, upward). -/
abbrev Pt : Type := ℝ × ℝ × ℝ

namespace Pt
/-- easting -/
abbrev e (p : Pt) : ℝ := p.1
/-- northing -/
abbrev n (p : Pt) : ℝ := p.2.1
/-- upward -/
abbrev u (p : Pt) : ℝ := p.2.2
end Pt

/-- The boundaries of a rectangular prism. -/
structure Box where
  west : ℝ
  east : ℝ
  south : ℝ
  north : ℝ
  bottom : ℝ
  top : ℝ

namespace Box
/-- Boundaries in order (zero thickness allowed). -/
def Ordered (P : Box) : Prop := P.west ≤ P.east ∧ P.south ≤ P.north ∧ P.bottom ≤ P.top
/-- A prism with positive volume. -/
def Proper (P : Box) : Prop := P.west < P.east ∧ P.south < P.north ∧ P.bottom < P.top
/-- The closed prism as a set of points. -/
def region (P : Box) : Set Pt :=
  Set.Icc P.west P.east ×ˢ Set.Icc P.south P.north ×ˢ Set.Icc P.bottom P.top
/-- The volume of the prism. -/
def volume (P : Box) : ℝ := (P.east - P.west) * (P.north - P.south) * (P.top - P.bottom)
end Box

/-- The gravitational constant (CODATA 2018, SI). -/
noncomputable def Gc : ℝ := 6.6743e-11
/-- The vacuum magnetic permeability (CODATA 2018, SI). -/
noncomputable def mu0 : ℝ := 1.25663706212e-06

/-- Euclidean distance between two points of space. -/
noncomputable def dist3 (p q : Pt) : ℝ :=
  Real.sqrt ((p.e - q.e) ^ 2 + (p.n - q.n) ^ 2 + (p.u - q.u) ^ 2)

/-- The call returns (does not raise) the finite real number `x`. -/
def Returns {A : Arith} (call : Py (Fl A)) (x : ℝ) : Prop := call = .ok (Fl.fin x)

/-- The call returns NaN (and does not raise). -/
def ReturnsNaN {A : Arith} (call : Py (Fl A)) : Prop := call = .ok Fl.nan

/-- The call returns a finite number. -/
def ReturnsFinite {A : Arith} (call : Py (Fl A)) : Prop := ∃ x : ℝ, Returns call x

/-- The call raises `ZeroDivisionError`. -/
def RaisesZeroDivision {α : Type} (call : Py α) : Prop := call = .error .zeroDivision

/-- Near `x` the calls `f t` return finite numbers, `d` returns a finite number, and that number is
the derivative at `x` of what `f` returns. -/
def IsDerivOf {A : Arith} (d : Py (Fl A)) (f : ℝ → Py (Fl A)) (x : ℝ) : Prop :=
  ∃ (F : ℝ → ℝ) (d' : ℝ),
    (∀ᶠ t in nhds x, Returns (f t) (F t)) ∧ Returns d d' ∧ HasDerivAt F d' x

/-- Call an API function that takes an observation point and a prism (and further arguments). -/
def onPrism {A : Arith} {β : Type}
    (f : Fl A → Fl A → Fl A → Fl A → Fl A → Fl A → Fl A → Fl A → Fl A → β)
    (p : Pt) (P : Box) : β :=
  f (p.e : Fl A) (p.n : Fl A) (p.u : Fl A) (P.west : Fl A) (P.east : Fl A)
    (P.south : Fl A) (P.north : Fl A) (P.bottom : Fl A) (P.top : Fl A)

/-- Call an API function that takes two points (and further arguments). -/
def onPair {A : Arith} {β : Type}
    (f : Fl A → Fl A → Fl A → Fl A → Fl A → Fl A → β) (p q : Pt) : β :=
  f (p.e : Fl A) (p.n : Fl A) (p.u : Fl A) (q.e : Fl A) (q.n : Fl A) (q.u : Fl A)

/-- The ten gravity components. -/
inductive GComp where
  | pot | e | n | u | ee | nn | uu | en | eu | nu
  deriving DecidableEq

/-- The nine scalar prism magnetic functions. -/
inductive MComp where
  | e | n | u | ee | nn | uu | en | eu | nu
  deriving DecidableEq

/-- The public function `choclo.prism.gravity_<c>`. -/
noncomputable def prismGravity {A : Arith} (c : GComp) :
    Fl A → Fl A → Fl A → Fl A → Fl A → Fl A → Fl A → Fl A → Fl A → Fl A → Py (Fl A) :=
  match c with
  | .pot => prism.gravity_pot
  | .e => prism.gravity_e
  | .n => prism.gravity_n
  | .u => prism.gravity_u
  | .ee => prism.gravity_ee
  | .nn => prism.gravity_nn
  | .uu => prism.gravity_uu
  | .en => prism.gravity_en
  | .eu => prism.gravity_eu
  | .nu => prism.gravity_nu

/-- The public function `choclo.point.gravity_<c>`. -/
noncomputable def pointGravity {A : Arith} (c : GComp) :
    Fl A → Fl A → Fl A → Fl A → Fl A → Fl A → Fl A → Py (Fl A) :=
  match c with
  | .pot => point.gravity_pot
  | .e => point.gravity_e
  | .n => point.gravity_n
  | .u => point.gravity_u
  | .ee => point.gravity_ee
  | .nn => point.gravity_nn
  | .uu => point.gravity_uu
  | .en => point.gravity_en
  | .eu => point.gravity_eu
  | .nu => point.gravity_nu

/-- The public function `choclo.prism.magnetic_<c>`. -/
noncomputable def prismMagnetic {A : Arith} (c : MComp) :
    Fl A → Fl A → Fl A → Fl A → Fl A → Fl A → Fl A → Fl A → Fl A → Fl A → Fl A → Fl A → Py (Fl A) :=
  match c with
  | .e => prism.magnetic_e
  | .n => prism.magnetic_n
  | .u => prism.magnetic_u
  | .ee => prism.magnetic_ee
  | .nn => prism.magnetic_nn
  | .uu => prism.magnetic_uu
  | .en => prism.magnetic_en
  | .eu => prism.magnetic_eu
  | .nu => prism.magnetic_nu

end Choclo
