import Verif.Spec.PrismSym

/-!
# Volume integrals of what an API function returns (specification)
-/

namespace Choclo

open MeasureTheory

/-- `call` returns the volume integral over the body `S` of what the calls `element q` return for the
elements `q` of the body: every such call (but possibly the one for an element at the observation
point `p` itself) returns a number, the function so defined is (Lebesgue) integrable over `S`, and
`call` returns its integral. -/
def IsVolumeIntegral {A : Arith} (call : Py (Fl A)) (element : Pt → Py (Fl A)) (S : Set Pt) (p : Pt) : Prop :=
  ∃ F : Pt → ℝ, (∀ q ∈ S, q ≠ p → Returns (element q) (F q)) ∧ IntegrableOn F S ∧
    Returns call (∫ q in S, F q)

/-- The centre of a prism along an axis. -/
noncomputable def Box.centre (P : Box) (a : Axis) : ℝ := (P.lo a + P.hi a) / 2

/-- The centre of a prism. -/
noncomputable def Box.centrePt (P : Box) : Pt := (P.centre .e, P.centre .n, P.centre .u)

/-- Half the space diagonal of a prism. -/
noncomputable def Box.halfDiagonal (P : Box) : ℝ :=
  Real.sqrt ((P.east - P.west) ^ 2 + (P.north - P.south) ^ 2 + (P.top - P.bottom) ^ 2) / 2

end Choclo
