import Verif.Spec.PrismSym

/-!
# Flux through the surface of a rectangular box (specification)
-/

namespace Choclo

open MeasureTheory

/-- The point with coordinate `t` along axis `a` and the other two coordinates `s`, in order. -/
def Pt.onPlane (a : Axis) (t : ℝ) (s : ℝ × ℝ) : Pt :=
  match a with
  | .e => (t, s.1, s.2)
  | .n => (s.1, t, s.2)
  | .u => (s.1, s.2, t)

/-- The rectangle a box projects to when looked at along an axis. -/
def Box.cross (B : Box) : Axis → Set (ℝ × ℝ)
  | .e => Set.Icc B.south B.north ×ˢ Set.Icc B.bottom B.top
  | .n => Set.Icc B.west B.east ×ˢ Set.Icc B.bottom B.top
  | .u => Set.Icc B.west B.east ×ˢ Set.Icc B.south B.north

/-- The closed surface of a box: the union of its six closed faces. -/
def Box.surface (B : Box) : Set Pt :=
  {p | ∃ a : Axis, ∃ s ∈ B.cross a, p = Pt.onPlane a (B.lo a) s ∨ p = Pt.onPlane a (B.hi a) s}

/-- The surface integral of the function `f` over the closed face of `B` lying in the plane
`coordinate a = t`. -/
noncomputable def Box.faceIntegral (B : Box) (a : Axis) (t : ℝ) (f : Pt → ℝ) : ℝ :=
  ∫ s in B.cross a, f (Pt.onPlane a t s)

/-- The outward flux of the vector field `F` through the surface of `B`: on the two faces
perpendicular to axis `a` the outward normal is plus (high face) or minus (low face) that axis. -/
noncomputable def Box.outwardFlux (B : Box) (F : Axis → Pt → ℝ) : ℝ :=
  (B.faceIntegral .e (B.hi .e) (F .e) - B.faceIntegral .e (B.lo .e) (F .e))
    + (B.faceIntegral .n (B.hi .n) (F .n) - B.faceIntegral .n (B.lo .n) (F .n))
    + (B.faceIntegral .u (B.hi .u) (F .u) - B.faceIntegral .u (B.lo .u) (F .u))

/-- The calls `field a p` (component along `a` at the observation point `p`) return a number at every
point of the surface of `B`, what they return is integrable over each of the six faces, and the
outward flux of the vector field so defined is `Φ`. -/
def HasOutwardFlux {A : Arith} (field : Axis → Pt → Py (Fl A)) (B : Box) (Φ : ℝ) : Prop :=
  ∃ F : Axis → Pt → ℝ,
    (∀ a, ∀ p ∈ B.surface, Returns (field a p) (F a p)) ∧
    (∀ a, IntegrableOn (fun s => F a (Pt.onPlane a (B.lo a) s)) (B.cross a) ∧
      IntegrableOn (fun s => F a (Pt.onPlane a (B.hi a) s)) (B.cross a)) ∧
    B.outwardFlux F = Φ

end Choclo
