import Verif.Spec.Shape

/-! # Differences of integrals over two opposite faces (specification) -/

namespace Choclo

open MeasureTheory

/-- `call` returns the integral, over the closed low face (west, south, bottom) of `P` perpendicular to the axis `a`, of
the number that `point q` returns, minus its integral over the closed high face (east, north, top). The calls `point q`
return a number for all points `q` of the two faces, except possibly the observation point `p` itself; the integrands are
integrable. -/
def IsFaceDifference {A : Arith} (call : Py (Fl A)) (point : Pt → Py (Fl A)) (P : Box) (a : Axis) (p : Pt) : Prop :=
  ∃ F : Pt → ℝ,
    (∀ q ∈ P.sheet a (P.lo a) ∪ P.sheet a (P.hi a), q ≠ p → Returns (point q) (F q)) ∧
    IntegrableOn (fun s => F (Pt.onPlane a (P.lo a) s)) (P.cross a) ∧
    IntegrableOn (fun s => F (Pt.onPlane a (P.hi a) s)) (P.cross a) ∧
    Returns call (P.faceIntegral a (P.lo a) F - P.faceIntegral a (P.hi a) F)

end Choclo
