import Verif.Lemmas.MagCalc2
import Verif.Props.PrismSym

/-! # C43: magnetic gradient components are derivatives of the magnetic field -/

namespace Choclo

open Real Filter Topology

variable {P : Box}

theorem inside_subset_region {p : Pt} (h : p ∈ P.inside) : p ∈ P.region :=
  ⟨Set.Ioo_subset_Icc_self h.1, Set.Ioo_subset_Icc_self h.2.1, Set.Ioo_subset_Icc_self h.2.2⟩

/-- At every exterior point: the gradient component named by the two axes is the partial derivative
along the second axis of the field component along the first.  (The name is symmetric in the axes, so
this covers both mixed derivatives.) -/
theorem C43_gradient (hP : P.Ordered) (a k : Axis) (p : Pt) (h : p ∉ P.region) (M : Vec) :
    ∃ d, Returns (onPrism (A := Exact) (prismMagnetic (gradComp a k)) p P M.e M.n M.u) d ∧
      HasPartial (fun q => onPrism (A := Exact) (prismMagnetic a.field) q P M.e M.n M.u) p k d := by
  refine ⟨_, Ex.magnetic_returns hP (exterior_edges hP h) (fun h' => h (inside_subset_region h')) _ _ _,
    fun t => mu0 / 4 / π * Bc a.field (p.set k t) P M.e M.n M.u, ?_, ?_⟩
  · filter_upwards [eventually_exterior k h] with t ht
    exact Ex.magnetic_returns hP (exterior_edges hP ht) (fun h' => ht (inside_subset_region h')) _ _ _
  · exact (hasDerivAt_Bfield a k hP h M).const_mul _

/-- exterior points in a face plane and on the line of an edge -/
example : ((1, 0, 3) : Pt) ∉ exBox.region ∧ ((1, 1, 3) : Pt) ∉ exBox.region := by
  norm_num [exBox, Box.region]

end Choclo
