import Verif.Spec.Point
import Verif.Spec.Prism

/-!
# Motions of a prism (specification): translations, relabelling of axes, mirror images, changes of
the unit of length, cuts
-/

namespace Choclo

/-- A vector of three components, e.g. a magnetization. -/
abbrev Vec := Pt

/-- Translate a point. -/
def Pt.shift (p t : Pt) : Pt := (p.e + t.e, p.n + t.n, p.u + t.u)
/-- Translate a prism. -/
def Box.shift (P : Box) (t : Pt) : Box :=
  ⟨P.west + t.e, P.east + t.e, P.south + t.n, P.north + t.n, P.bottom + t.u, P.top + t.u⟩

/-- Change of the unit of length. -/
def Pt.scale (p : Pt) (l : ℝ) : Pt := (l * p.e, l * p.n, l * p.u)
/-- Change of the unit of length. -/
def Box.scale (P : Box) (l : ℝ) : Box :=
  ⟨l * P.west, l * P.east, l * P.south, l * P.north, l * P.bottom, l * P.top⟩

/-- The three exchanges of two axes. -/
inductive Swap where
  | en | eu | nu

/-- Exchange two coordinates of a point (or components of a vector). -/
def Pt.swap (p : Pt) : Swap → Pt
  | .en => (p.n, p.e, p.u)
  | .eu => (p.u, p.n, p.e)
  | .nu => (p.e, p.u, p.n)

/-- Exchange two axes of a prism. -/
def Box.swap (P : Box) : Swap → Box
  | .en => ⟨P.south, P.north, P.west, P.east, P.bottom, P.top⟩
  | .eu => ⟨P.bottom, P.top, P.south, P.north, P.west, P.east⟩
  | .nu => ⟨P.west, P.east, P.bottom, P.top, P.south, P.north⟩

/-- Rename the axes in the name of a gravity component. -/
def GComp.swap : GComp → Swap → GComp
  | .pot, _ => .pot
  | .e, .en => .n | .n, .en => .e | .u, .en => .u
  | .e, .eu => .u | .n, .eu => .n | .u, .eu => .e
  | .e, .nu => .e | .n, .nu => .u | .u, .nu => .n
  | .ee, .en => .nn | .nn, .en => .ee | .uu, .en => .uu
  | .ee, .eu => .uu | .nn, .eu => .nn | .uu, .eu => .ee
  | .ee, .nu => .ee | .nn, .nu => .uu | .uu, .nu => .nn
  | .en, .en => .en | .eu, .en => .nu | .nu, .en => .eu
  | .en, .eu => .nu | .eu, .eu => .eu | .nu, .eu => .en
  | .en, .nu => .eu | .eu, .nu => .en | .nu, .nu => .nu

/-- Rename the axes in the name of a magnetic component. -/
def MComp.swap : MComp → Swap → MComp
  | .e, .en => .n | .n, .en => .e | .u, .en => .u
  | .e, .eu => .u | .n, .eu => .n | .u, .eu => .e
  | .e, .nu => .e | .n, .nu => .u | .u, .nu => .n
  | .ee, .en => .nn | .nn, .en => .ee | .uu, .en => .uu
  | .ee, .eu => .uu | .nn, .eu => .nn | .uu, .eu => .ee
  | .ee, .nu => .ee | .nn, .nu => .uu | .uu, .nu => .nn
  | .en, .en => .en | .eu, .en => .nu | .nu, .en => .eu
  | .en, .eu => .nu | .eu, .eu => .eu | .nu, .eu => .en
  | .en, .nu => .eu | .eu, .nu => .en | .nu, .nu => .nu

/-- Mirror image of a point (or polar vector) in the plane perpendicular to an axis. -/
def Pt.mirror (p : Pt) : Axis → Pt
  | .e => (-p.e, p.n, p.u)
  | .n => (p.e, -p.n, p.u)
  | .u => (p.e, p.n, -p.u)

/-- Mirror image of a prism. -/
def Box.mirror (P : Box) : Axis → Box
  | .e => ⟨-P.east, -P.west, P.south, P.north, P.bottom, P.top⟩
  | .n => ⟨P.west, P.east, -P.north, -P.south, P.bottom, P.top⟩
  | .u => ⟨P.west, P.east, P.south, P.north, -P.top, -P.bottom⟩

/-- The number of times an axis occurs in a component name, as an exponent. -/
def GComp.count (c : GComp) : Axis → ℕ
  | .e => c.index.1
  | .n => c.index.2.1
  | .u => c.index.2.2

/-- How often each axis letter occurs in the name of a magnetic component. -/
def MComp.index : MComp → ℕ × ℕ × ℕ
  | .e => (1, 0, 0)
  | .n => (0, 1, 0)
  | .u => (0, 0, 1)
  | .ee => (2, 0, 0)
  | .nn => (0, 2, 0)
  | .uu => (0, 0, 2)
  | .en => (1, 1, 0)
  | .eu => (1, 0, 1)
  | .nu => (0, 1, 1)

/-- The number of times an axis occurs in a component name, as an exponent. -/
def MComp.count (c : MComp) : Axis → ℕ
  | .e => c.index.1
  | .n => c.index.2.1
  | .u => c.index.2.2

/-- The two bounds of a prism along an axis. -/
def Box.lo (P : Box) : Axis → ℝ
  | .e => P.west
  | .n => P.south
  | .u => P.bottom
/-- The two bounds of a prism along an axis. -/
def Box.hi (P : Box) : Axis → ℝ
  | .e => P.east
  | .n => P.north
  | .u => P.top

/-- The part of a prism below the plane `coordinate = m`. -/
def Box.below (P : Box) (m : ℝ) : Axis → Box
  | .e => { P with east := m }
  | .n => { P with north := m }
  | .u => { P with top := m }
/-- The part of a prism above the plane `coordinate = m`. -/
def Box.above (P : Box) (m : ℝ) : Axis → Box
  | .e => { P with west := m }
  | .n => { P with south := m }
  | .u => { P with bottom := m }

/-- The open upper face of a prism along an axis (east, north, top). -/
def Box.faceHi (P : Box) : Axis → Set Pt
  | .e => P.faceEast
  | .n => P.faceNorth
  | .u => P.faceTop

/-- The open lower face of a prism along an axis (west, south, bottom). -/
def Box.faceLo (P : Box) : Axis → Set Pt
  | .e => P.faceWest
  | .n => P.faceSouth
  | .u => P.faceBottom

/-- Number of letters in the name of a gravity component. -/
def GComp.letters (c : GComp) : ℕ := c.index.1 + c.index.2.1 + c.index.2.2

/-- Number of letters in the name of a magnetic component. -/
def MComp.letters (c : MComp) : ℕ := c.index.1 + c.index.2.1 + c.index.2.2

/-- Multiply what a call returns by a real number (exceptions and NaN stay). -/
noncomputable def times (k : ℝ) (call : Py (Fl Exact)) : Py (Fl Exact) :=
  call.map fun v => (k : Fl Exact) * v

/-- The gravity tensor component for a pair of axes. -/
def tensor : Axis → Axis → GComp
  | .e, .e => .ee | .e, .n => .en | .e, .u => .eu
  | .n, .e => .en | .n, .n => .nn | .n, .u => .nu
  | .u, .e => .eu | .u, .n => .nu | .u, .u => .uu

/-- The magnetic field component along an axis. -/
def Axis.field : Axis → MComp
  | .e => .e
  | .n => .n
  | .u => .u

/-- The magnetic gradient component for a pair of axes. -/
def gradComp : Axis → Axis → MComp
  | .e, .e => .ee | .e, .n => .en | .e, .u => .eu
  | .n, .e => .en | .n, .n => .nn | .n, .u => .nu
  | .u, .e => .eu | .u, .n => .nu | .u, .u => .uu

/-- The two closed faces of a prism perpendicular to an axis. -/
def Box.closedFaces (P : Box) (a : Axis) : Set Pt :=
  {p | p ∈ P.region ∧ (p.coord a = P.lo a ∨ p.coord a = P.hi a)}

/-- One-sided partial derivative: like `HasPartial`, but only along the part of the line with
coordinate in `s`. -/
def HasPartialWithin {A : Arith} (f : Pt → Py (Fl A)) (p : Pt) (a : Axis) (s : Set ℝ) (d : ℝ) : Prop :=
  ∃ F : ℝ → ℝ, (∀ᶠ t in nhds (p.coord a), Returns (f (p.set a t)) (F t)) ∧
    HasDerivWithinAt F d s (p.coord a)

/-- Exchange the names of two axes. -/
def Axis.swap : Axis → Swap → Axis
  | .e, .en => .n | .n, .en => .e | .u, .en => .u
  | .e, .eu => .u | .n, .eu => .n | .u, .eu => .e
  | .e, .nu => .e | .n, .nu => .u | .u, .nu => .n

end Choclo
