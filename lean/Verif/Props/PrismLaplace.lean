import Verif.Lemmas.Laplace
import Verif.Lemmas.FaceLimit
import Verif.Props.PrismCalc
import Verif.Props.PrismPoints

/-! # C27, C28: Laplace and Poisson equations; values on the faces -/

namespace Choclo

open Real Filter Topology

variable {P : Box}

/-! ## C27 -/

/-- Off the edges the diagonal components add up to `-4 π G ρ` inside and to zero elsewhere. -/
theorem C27_laplace_poisson (hP : P.Proper) (p : Pt) (h : p ∉ P.edges) (ρ : ℝ) :
    ∃ tee tnn tuu,
      Returns (onPrism (A := Exact) prism.gravity_ee p P ρ) tee ∧
      Returns (onPrism (A := Exact) prism.gravity_nn p P ρ) tnn ∧
      Returns (onPrism (A := Exact) prism.gravity_uu p P ρ) tuu ∧
      (p ∈ interior P.region → tee + tnn + tuu = -4 * π * Gc * ρ) ∧
      (p ∉ interior P.region → tee + tnn + tuu = 0) := by
  have hO := hP.ordered
  have key := V_laplace hP h
  refine ⟨_, _, _, Ex.gravity_returns (c := .ee) hO (edges_singular _ h) ρ,
    Ex.gravity_returns (c := .nn) hO (edges_singular _ h) ρ,
    Ex.gravity_returns (c := .uu) hO (edges_singular _ h) ρ, ?_, ?_⟩
  · intro hi
    rw [← inside_eq_interior] at hi
    rw [if_pos hi] at key
    linear_combination (Gc * ρ) * key
  · intro hi
    rw [← inside_eq_interior] at hi
    rw [if_neg hi] at key
    linear_combination (Gc * ρ) * key

/-- interior, face and exterior points off the edges -/
example : exBox.Proper ∧ ((0, 0, -1) : Pt) ∉ exBox.edges ∧ ((0, 0, 0) : Pt) ∉ exBox.edges ∧
    ((5, 1, 0) : Pt) ∉ exBox.edges ∧ ((0, 0, -1) : Pt) ∈ interior exBox.region := by
  rw [← inside_eq_interior]
  norm_num [exBox, Box.Proper, Box.edges, Box.edgesE, Box.edgesN, Box.edgesU, Box.inside]

/-! ## C28 -/

/-- On the six open faces each of `gravity_ee`, `gravity_nn`, `gravity_uu` returns the limit of the
values it returns at exterior points. -/
theorem C28_face_limit (hP : P.Proper) (p : Pt) (h : p ∈ P.faces) (a : Axis) (ρ : ℝ) :
    ∃ (v : ℝ) (F : Pt → ℝ),
      Returns (onPrism (A := Exact) (prismGravity a.diag) p P ρ) v ∧
      (∀ q ∉ P.region, Returns (onPrism (A := Exact) (prismGravity a.diag) q P ρ) (F q)) ∧
      Tendsto F (𝓝[P.regionᶜ] p) (𝓝 v) := by
  have hO := hP.ordered
  have he : p ∉ P.singular a.diag := by
    obtain ⟨o1, o2, o3⟩ := hP
    simp only [Box.faces, Set.mem_union, Box.faceEast, Box.faceWest, Box.faceNorth, Box.faceSouth,
      Box.faceTop, Box.faceBottom, Set.mem_prod, Set.mem_Ioo, Set.mem_singleton_iff] at h
    intro h'
    have h'' := singular_subset_edges h'
    simp only [Box.edges, Set.mem_union, Box.edgesE, Box.edgesN, Box.edgesU, Set.mem_ofPred_eq, Set.mem_Icc] at h''
    clear h'
    grind
  refine ⟨_, fun q => Gc * ρ * Vc a.diag q P, Ex.gravity_returns hO he ρ, ?_, ?_⟩
  · intro q hq
    exact Ex.gravity_returns hO (fun h' => hq (edges_subset_region hO (singular_subset_edges h'))) ρ
  · exact (tendsto_Vdiag hP h a).const_mul _

/-- The approach from outside is not vacuous: every point of the six faces is a limit of exterior
points. -/
theorem C28_approachable (hP : P.Proper) (p : Pt) (h : p ∈ P.faces) : (𝓝[P.regionᶜ] p).NeBot := by
  rw [← mem_closure_iff_nhdsWithin_neBot, closure_compl]
  intro hi
  rw [← inside_eq_interior] at hi
  obtain ⟨o1, o2, o3⟩ := hP
  simp only [Box.faces, Set.mem_union, Box.faceEast, Box.faceWest, Box.faceNorth, Box.faceSouth,
    Box.faceTop, Box.faceBottom, Set.mem_prod, Set.mem_Ioo, Set.mem_singleton_iff] at h
  simp only [Box.inside, Set.mem_prod, Set.mem_Ioo] at hi
  grind

example : exBox.Proper ∧ ((0, 0, 0) : Pt) ∈ exBox.faces := by
  norm_num [exBox, Box.Proper, Box.faces, Box.faceEast,
    Box.faceWest, Box.faceNorth, Box.faceSouth, Box.faceTop, Box.faceBottom]

end Choclo
