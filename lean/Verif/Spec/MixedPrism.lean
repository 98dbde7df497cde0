import Verif.Spec.Mixed

/-! # Calls of the prism functions with float32 arguments (specification) -/

namespace Choclo

variable {S D : Arith}

/-- The arguments (each a float32 or a float64) are the coordinates of the observation point `p` and the boundaries of
the prism `P`.  Two opposite boundaries have the same type. -/
structure ArePrism (e n u w E s N b t : MFl S D) (p : Pt) (P : Box) : Prop where
  sameE : w.Wide ↔ E.Wide
  sameN : s.Wide ↔ N.Wide
  sameU : b.Wide ↔ t.Wide
  e : e.IsReal p.e
  n : n.IsReal p.n
  u : u.IsReal p.u
  w : w.IsReal P.west
  E : E.IsReal P.east
  s : s.IsReal P.south
  N : N.IsReal P.north
  b : b.IsReal P.bottom
  t : t.IsReal P.top

/-- Every difference between a coordinate of the point and a boundary of the prism is suitable for single precision. -/
def ShortOffsets (p : Pt) (P : Box) : Prop :=
  ShortLength (P.west - p.e) ∧ ShortLength (P.east - p.e) ∧ ShortLength (P.south - p.n) ∧
  ShortLength (P.north - p.n) ∧ ShortLength (P.bottom - p.u) ∧ ShortLength (P.top - p.u)

namespace Mixed

/-- The public function `choclo.prism.gravity_<c>`. -/
noncomputable def prismGravity (c : GComp) : MFl S D → MFl S D → MFl S D → MFl S D → MFl S D → MFl S D → MFl S D →
    MFl S D → MFl S D → MFl S D → Py (MFl S D) :=
  match c with
  | .pot => prism.gravity_pot
  | .e => prism.gravity_e
  | .n => prism.gravity_n
  | .u => prism.gravity_u
  | .ee => prism.gravity_ee
  | .nn => prism.gravity_nn
  | .uu => prism.gravity_uu
  | .en => prism.gravity_en
  | .eu => prism.gravity_eu
  | .nu => prism.gravity_nu

/-- The public function `choclo.prism.magnetic_<c>`. -/
noncomputable def prismMagnetic (c : MComp) : MFl S D → MFl S D → MFl S D → MFl S D → MFl S D → MFl S D → MFl S D →
    MFl S D → MFl S D → MFl S D → MFl S D → MFl S D → Py (MFl S D) :=
  match c with
  | .e => prism.magnetic_e
  | .n => prism.magnetic_n
  | .u => prism.magnetic_u
  | .ee => prism.magnetic_ee
  | .nn => prism.magnetic_nn
  | .uu => prism.magnetic_uu
  | .en => prism.magnetic_en
  | .eu => prism.magnetic_eu
  | .nu => prism.magnetic_nu

end Mixed
end Choclo
