import Verif.Lemmas.Reversed
import Verif.Props.Smooth

/-! # C93: boundaries in the wrong order -/

namespace Choclo

open Real Set

variable {P : Box}

/-! ## C93 -/

/-- Potential and acceleration, at every point and for boundaries in any order: the result is that of
the prism with sorted boundaries, negated once for every axis along which they are reversed. -/
theorem C93_potential_acceleration (c : GComp) (hc : c.letters ≤ 1) (P : Box) (p : Pt) (ρ : ℝ) :
    ∃ v, Returns (onPrism (A := Exact) (prismGravity c) p P.sorted ρ) v ∧
      Returns (onPrism (A := Exact) (prismGravity c) p P ρ) (P.orientation * v) := by
  have key : ∀ Q : Box, onPrism (A := Exact) (prismGravity c) p Q ρ = .ok (xf (Gc * ρ * Dv (Kc c) p Q)) := by
    intro Q
    have e : ∀ c : GComp, c.letters ≤ 1 → Vc c p Q = Dv (Kc c) p Q := by
      intro c h; cases c <;> simp [GComp.letters, GComp.index] at h <;> simp [Vc, corr]
    rw [← e c hc]
    cases c <;> simp [GComp.letters, GComp.index] at hc
    · exact Ex.gravity_pot_eval p Q ρ
    · exact Ex.gravity_e_eval p Q ρ
    · exact Ex.gravity_n_eval p Q ρ
    · exact Ex.gravity_u_eval p Q ρ
  refine ⟨_, key _, ?_⟩
  have := key P
  rw [Dv_sorted] at this
  unfold Returns
  rw [this]
  congr 2; ring

/-- Every gravity component, at every point off the surface (inside or outside). -/
theorem C93_gravity (c : GComp) (P : Box) (p : Pt) (h : p ∉ frontier P.sorted.region) (ρ : ℝ) :
    ∃ v, Returns (onPrism (A := Exact) (prismGravity c) p P.sorted ρ) v ∧
      Returns (onPrism (A := Exact) (prismGravity c) p P ρ) (P.orientation * v) := by
  have ho := offSurface_frontier h
  refine ⟨_, Ex.gravity_any ho.sorted.vertices c (ho.sorted.singular c) ρ, ?_⟩
  have := Ex.gravity_any ho.vertices c (ho.singular c) ρ
  rw [Vc_sorted ho] at this
  unfold Returns
  rw [this]
  congr 2; ring

/-- Every magnetic component, at every point outside. -/
theorem C93_magnetic (c : MComp) (P : Box) (p : Pt) (h : p ∉ P.sorted.region) (M : Vec) :
    ∃ v, Returns (onPrism (A := Exact) (prismMagnetic c) p P.sorted M.e M.n M.u) v ∧
      Returns (onPrism (A := Exact) (prismMagnetic c) p P M.e M.n M.u) (P.orientation * v) := by
  have ho := offSurface_exterior h
  have hi : p ∉ P.inside := fun h' => h ⟨Icc_subset_uIcc (Ioo_subset_Icc_self h'.1),
    Icc_subset_uIcc (Ioo_subset_Icc_self h'.2.1), Icc_subset_uIcc (Ioo_subset_Icc_self h'.2.2)⟩
  refine ⟨_, Ex.magnetic_any ho.sorted.vertices c ho.sorted.edges (fun h' => h (inside_subset_region h')) _ _ _, ?_⟩
  have := Ex.magnetic_any ho.vertices c ho.edges hi M.e M.n M.u
  rw [Bc_sorted ho] at this
  unfold Returns
  rw [this]
  congr 2; ring

/-- Inside, the safeguard is lost: the magnetic functions return NaN for sorted boundaries, but an
ordinary number as soon as the boundaries along some axis are reversed. -/
theorem C93_magnetic_inside (c : MComp) (P : Box) (hP : ¬P.Ordered) (p : Pt) (h : p ∈ interior P.sorted.region) (M : Vec) :
    ReturnsNaN (onPrism (A := Exact) (prismMagnetic c) p P.sorted M.e M.n M.u) ∧
      ReturnsFinite (onPrism (A := Exact) (prismMagnetic c) p P M.e M.n M.u) := by
  have hin : p ∈ P.sorted.inside := by
    simpa only [Box.region, Box.inside, interior_prod_eq, interior_Icc] using h
  have ho := offSurface_inside hin
  refine ⟨Ex.magnetic_returns_nan P.sorted_ordered (.inr hin) _ _ _, ?_⟩
  refine ⟨_, Ex.magnetic_any ho.vertices c ho.edges (fun h' => hP ?_) _ _ _⟩
  exact ⟨(h'.1.1.trans h'.1.2).le, (h'.2.1.1.trans h'.2.1.2).le, (h'.2.2.1.trans h'.2.2.2).le⟩

/-- a prism with top and bottom exchanged, seen from outside and inside -/
example : ¬(⟨-1, 1, -1, 1, 0, -2⟩ : Box).Ordered ∧ (⟨-1, 1, -1, 1, 0, -2⟩ : Box).sorted = exBox ∧
    (⟨-1, 1, -1, 1, 0, -2⟩ : Box).orientation = -1 ∧ ((0, 0, 3) : Pt) ∉ exBox.region ∧
    ((0, 0, -1) : Pt) ∈ interior exBox.region := by
  refine ⟨by norm_num [Box.Ordered], by norm_num [Box.sorted, exBox], by norm_num [Box.orientation],
    by norm_num [exBox, Box.region], ?_⟩
  simp only [Box.region, interior_prod_eq, interior_Icc]
  norm_num [exBox]

end Choclo
