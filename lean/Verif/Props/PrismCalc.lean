import Verif.Lemmas.VcCalc
import Verif.Props.PrismSym

/-! # C24, C25: the prism functions are derivatives of each other -/

namespace Choclo

open Real Filter Topology

variable {P : Box}

/-- The potential and the acceleration return a number for all arguments whatsoever. -/
theorem acc_returns (a : Axis) (p : Pt) (P : Box) (ρ : ℝ) :
    Returns (onPrism (A := Exact) (prismGravity a.acc) p P ρ) (Gc * ρ * Vc a.acc p P) := by
  cases a
  · exact Ex.gravity_e_eval p P ρ
  · exact Ex.gravity_n_eval p P ρ
  · exact Ex.gravity_u_eval p P ρ

/-! ## C24 -/

/-- The acceleration component along an axis is the partial derivative of the potential along that
axis, at every observation point and for every choice of boundaries. -/
theorem C24_gradient (a : Axis) (p : Pt) (P : Box) (ρ : ℝ) :
    ∃ d, Returns (onPrism (A := Exact) (prismGravity a.acc) p P ρ) d ∧
      HasPartial (fun q => onPrism (A := Exact) prism.gravity_pot q P ρ) p a d := by
  refine ⟨_, acc_returns a p P ρ, fun t => Gc * ρ * Vc .pot (p.set a t) P,
    Eventually.of_forall fun t => Ex.gravity_pot_eval _ P ρ, ?_⟩
  exact (hasDerivAt_Vpot a p P).const_mul _

/-- a vertex, an edge point, a face point and an interior point of the example prism -/
example : ((1, 1, 0) : Pt) ∈ exBox.edges ∧ ((0, 1, 0) : Pt) ∈ exBox.edges ∧
    ((0, 0, 0) : Pt) ∈ exBox.faces ∧ ((0, 0, -1) : Pt) ∈ exBox.inside := by
  norm_num [exBox, Box.edges, Box.edgesE, Box.edgesN, Box.edgesU, Box.inside, Box.faces, Box.faceEast,
    Box.faceWest, Box.faceNorth, Box.faceSouth, Box.faceTop, Box.faceBottom]

/-! ## C25 -/

/-- Off the two closed faces perpendicular to the axis (interior points included), a diagonal
component is the derivative of the acceleration component along its axis. -/
theorem C25_diagonal (hP : P.Ordered) (a : Axis) (p : Pt) (h : p ∉ P.closedFaces a) (ρ : ℝ) :
    ∃ d, Returns (onPrism (A := Exact) (prismGravity (tensor a a)) p P ρ) d ∧
      HasPartial (fun q => onPrism (A := Exact) (prismGravity a.acc) q P ρ) p a d := by
  have hs : p ∉ P.singular (tensor a a) := by
    intro h'
    apply h
    cases a
    · exact singular_closedFaces hP h'
    · rw [← closedFaces_swap p P .n .en]
      exact singular_closedFaces (hP.swap .en) ((singular_swap p P .nn .en).mpr h')
    · rw [← closedFaces_swap p P .u .eu]
      exact singular_closedFaces (hP.swap .eu) ((singular_swap p P .uu .eu).mpr h')
  refine ⟨_, Ex.gravity_returns hP hs ρ, fun t => Gc * ρ * Vc a.acc (p.set a t) P,
    Eventually.of_forall fun t => acc_returns a _ P ρ, ?_⟩
  exact (hasDerivAt_Vacc_diag a hP h).const_mul _

theorem faceHi_singular (hP : P.Ordered) (a : Axis) {p : Pt} (h : p ∈ P.faceHi a) :
    p ∉ P.singular (tensor a a) := by
  have key : ∀ {P : Box}, P.Ordered → ∀ {p : Pt}, p ∈ P.faceEast → p ∉ P.singular .ee := by
    rintro P hP p ⟨h1, h2, h3⟩
    simp only [Box.singular, Set.mem_union, Box.edgesN, Box.edgesU, Set.mem_ofPred_eq]
    rw [Set.mem_Ioo] at h2 h3
    grind
  cases a
  · exact key hP h
  · rw [← singular_swap p P (tensor .n .n) .en]
    exact key (hP.swap .en) ((faceHi_swap p P .n .en).mpr h)
  · rw [← singular_swap p P (tensor .u .u) .eu]
    exact key (hP.swap .eu) ((faceHi_swap p P .u .eu).mpr h)

theorem faceLo_singular (hP : P.Ordered) (a : Axis) {p : Pt} (h : p ∈ P.faceLo a) :
    p ∉ P.singular (tensor a a) := by
  have key : ∀ {P : Box}, P.Ordered → ∀ {p : Pt}, p ∈ P.faceWest → p ∉ P.singular .ee := by
    rintro P hP p ⟨h1, h2, h3⟩
    simp only [Box.singular, Set.mem_union, Box.edgesN, Box.edgesU, Set.mem_ofPred_eq]
    rw [Set.mem_Ioo] at h2 h3
    grind
  cases a
  · exact key hP h
  · rw [← singular_swap p P (tensor .n .n) .en]
    exact key (hP.swap .en) ((faceLo_swap p P .n .en).mpr h)
  · rw [← singular_swap p P (tensor .u .u) .eu]
    exact key (hP.swap .eu) ((faceLo_swap p P .u .eu).mpr h)

/-- On the open east, north and top faces of a prism of positive thickness: the outer one-sided
derivative. -/
theorem C25_face_hi (hP : P.Ordered) (a : Axis) (hx : P.lo a < P.hi a) (p : Pt) (h : p ∈ P.faceHi a) (ρ : ℝ) :
    ∃ d, Returns (onPrism (A := Exact) (prismGravity (tensor a a)) p P ρ) d ∧
      HasPartialWithin (fun q => onPrism (A := Exact) (prismGravity a.acc) q P ρ) p a
        (Set.Ici (p.coord a)) d := by
  refine ⟨_, Ex.gravity_returns hP (faceHi_singular hP a h) ρ, fun t => Gc * ρ * Vc a.acc (p.set a t) P,
    Eventually.of_forall fun t => acc_returns a _ P ρ, ?_⟩
  exact (hasDerivWithinAt_Vacc_hi a hP hx h).const_mul _

/-- On the open west, south and bottom faces: the outer one-sided derivative. -/
theorem C25_face_lo (hP : P.Ordered) (a : Axis) (hx : P.lo a < P.hi a) (p : Pt) (h : p ∈ P.faceLo a) (ρ : ℝ) :
    ∃ d, Returns (onPrism (A := Exact) (prismGravity (tensor a a)) p P ρ) d ∧
      HasPartialWithin (fun q => onPrism (A := Exact) (prismGravity a.acc) q P ρ) p a
        (Set.Iic (p.coord a)) d := by
  refine ⟨_, Ex.gravity_returns hP (faceLo_singular hP a h) ρ, fun t => Gc * ρ * Vc a.acc (p.set a t) P,
    Eventually.of_forall fun t => acc_returns a _ P ρ, ?_⟩
  exact (hasDerivWithinAt_Vacc_lo a hP hx h).const_mul _

/-- Off-diagonal components: both mixed derivatives (exchange `a` and `b`), wherever the component
is not NaN. -/
theorem C25_off_diagonal (hP : P.Ordered) (a b : Axis) (hab : a ≠ b) (p : Pt)
    (h : p ∉ P.singular (tensor a b)) (ρ : ℝ) :
    ∃ d, Returns (onPrism (A := Exact) (prismGravity (tensor a b)) p P ρ) d ∧
      HasPartial (fun q => onPrism (A := Exact) (prismGravity a.acc) q P ρ) p b d := by
  refine ⟨_, Ex.gravity_returns hP h ρ, fun t => Gc * ρ * Vc a.acc (p.set b t) P,
    Eventually.of_forall fun t => acc_returns a _ P ρ, ?_⟩
  exact (hasDerivAt_Vacc_off hab hP h).const_mul _

/-- an interior point, an exterior point in the plane of the east face, points of open faces, a point
on the line through an upward edge -/
example : ((0, 0, -1) : Pt) ∉ exBox.closedFaces .u ∧ ((1, 3, -1) : Pt) ∉ exBox.closedFaces .e ∧
    ((0, 0, 0) : Pt) ∈ exBox.faceHi .u ∧ ((0, 0, -2) : Pt) ∈ exBox.faceLo .u ∧
    exBox.lo .u < exBox.hi .u ∧ ((1, 1, 5) : Pt) ∉ exBox.singular (tensor .e .n) := by
  norm_num [exBox, Box.closedFaces, Box.region, Box.lo, Box.hi, Pt.coord, Box.faceHi, Box.faceLo, Box.faceTop,
    Box.faceBottom, tensor, Box.singular, Box.edgesU]

end Choclo
