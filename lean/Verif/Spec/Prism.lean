import Verif.Spec.Basic

/-!
# Geometry of a prism (specification)

Edges and faces of a prism as sets of points, and the sets on which the documentation declares the
individual components singular (`/repo/src/choclo/prism/_gravity.py`, Notes of the tensor functions;
`/repo/src/choclo/prism/_magnetic.py`, Notes).
-/

namespace Choclo.Box

/-- The four closed edges parallel to the easting axis. -/
def edgesE (P : Box) : Set Pt :=
  {p | p.e ∈ Set.Icc P.west P.east ∧ (p.n = P.south ∨ p.n = P.north) ∧ (p.u = P.bottom ∨ p.u = P.top)}
/-- The four closed edges parallel to the northing axis. -/
def edgesN (P : Box) : Set Pt :=
  {p | (p.e = P.west ∨ p.e = P.east) ∧ p.n ∈ Set.Icc P.south P.north ∧ (p.u = P.bottom ∨ p.u = P.top)}
/-- The four closed edges parallel to the upward axis. -/
def edgesU (P : Box) : Set Pt :=
  {p | (p.e = P.west ∨ p.e = P.east) ∧ (p.n = P.south ∨ p.n = P.north) ∧ p.u ∈ Set.Icc P.bottom P.top}
/-- All twelve edges (with the vertices). -/
def edges (P : Box) : Set Pt := P.edgesE ∪ P.edgesN ∪ P.edgesU
/-- Points strictly inside. -/
def inside (P : Box) : Set Pt :=
  Set.Ioo P.west P.east ×ˢ Set.Ioo P.south P.north ×ˢ Set.Ioo P.bottom P.top
/-- The open east face. -/
def faceEast (P : Box) : Set Pt := {P.east} ×ˢ Set.Ioo P.south P.north ×ˢ Set.Ioo P.bottom P.top
/-- The open west face. -/
def faceWest (P : Box) : Set Pt := {P.west} ×ˢ Set.Ioo P.south P.north ×ˢ Set.Ioo P.bottom P.top
/-- The open north face. -/
def faceNorth (P : Box) : Set Pt := Set.Ioo P.west P.east ×ˢ {P.north} ×ˢ Set.Ioo P.bottom P.top
/-- The open south face. -/
def faceSouth (P : Box) : Set Pt := Set.Ioo P.west P.east ×ˢ {P.south} ×ˢ Set.Ioo P.bottom P.top
/-- The open top face. -/
def faceTop (P : Box) : Set Pt := Set.Ioo P.west P.east ×ˢ Set.Ioo P.south P.north ×ˢ {P.top}
/-- The open bottom face. -/
def faceBottom (P : Box) : Set Pt := Set.Ioo P.west P.east ×ˢ Set.Ioo P.south P.north ×ˢ {P.bottom}
/-- The six open faces. -/
def faces (P : Box) : Set Pt :=
  P.faceEast ∪ P.faceWest ∪ P.faceNorth ∪ P.faceSouth ∪ P.faceTop ∪ P.faceBottom

/-- The set of points on which `prism.gravity_<c>` is documented to be undefined: nowhere for the
potential and the acceleration, the edges perpendicular to the axis for a diagonal tensor
component, the edges parallel to the remaining axis for an off-diagonal one. -/
def singular (P : Box) : GComp → Set Pt
  | .pot | .e | .n | .u => ∅
  | .ee => P.edgesN ∪ P.edgesU
  | .nn => P.edgesE ∪ P.edgesU
  | .uu => P.edgesE ∪ P.edgesN
  | .en => P.edgesU
  | .eu => P.edgesN
  | .nu => P.edgesE

end Choclo.Box
