import Verif.Lemmas.Continuity2
import Verif.Props.PrismLaplace

/-! # C74: where the tensor and the magnetic fields are continuous, and their values on the faces -/

namespace Choclo

open Real Set MeasureTheory Filter Topology

variable {P : Box} {p : Pt}

/-! ## C74 -/

/-- The off-diagonal tensor components are continuous wherever they return a number: off the four
edges parallel to the third axis; in particular across all faces and in the interior. -/
theorem C74_off_diagonal (hP : P.Ordered) {a b : Axis} (hab : a ≠ b) (ρ : ℝ) :
    ∃ T : Pt → ℝ, ∀ p ∉ P.singular (tensor a b),
      Returns (onPrism (A := Exact) (prismGravity (tensor a b)) p P ρ) (T p) ∧ ContinuousAt T p :=
  ⟨fun p => Gc * ρ * Vc (tensor a b) p P, fun _ hp =>
    ⟨Ex.gravity_returns hP hp ρ, continuousAt_const.mul (continuousAt_Voff hP hab hp)⟩⟩

theorem singular_closed (hP : P.Ordered) (a : Axis) (hs : p ∈ P.singular (tensor a a)) : p ∈ P.closedFaces a := by
  cases a
  · exact singular_closedFaces hP hs
  · rw [← closedFaces_swap p P .n .en]
    exact singular_closedFaces (hP.swap .en) ((singular_swap p P .nn .en).mpr hs)
  · rw [← closedFaces_swap p P .u .eu]
    exact singular_closedFaces (hP.swap .eu) ((singular_swap p P .uu .eu).mpr hs)

/-- The diagonal tensor components are continuous off the two closed faces perpendicular to their
axis; in particular in the interior and across the other four faces. -/
theorem C74_diagonal (hP : P.Ordered) (a : Axis) (ρ : ℝ) :
    ∃ T : Pt → ℝ, ∀ p ∉ P.closedFaces a,
      Returns (onPrism (A := Exact) (prismGravity (tensor a a)) p P ρ) (T p) ∧ ContinuousAt T p :=
  ⟨fun p => Gc * ρ * Vc (tensor a a) p P, fun _ hp =>
    ⟨Ex.gravity_returns hP (fun hs => hp (singular_closed hP a hs)) ρ,
      continuousAt_const.mul (continuousAt_Vdiag hP a hp)⟩⟩

theorem face_off_edges (hP : P.Proper) (h : p ∈ P.faces) : p ∉ P.edges ∧ p ∉ P.inside ∧ p ∈ P.region := by
  obtain ⟨o1, o2, o3⟩ := hP
  simp only [Box.faces, Set.mem_union, Box.faceEast, Box.faceWest, Box.faceNorth, Box.faceSouth,
    Box.faceTop, Box.faceBottom, Set.mem_prod, Set.mem_Ioo, Set.mem_singleton_iff] at h
  simp only [Box.edges, Set.mem_union, Box.edgesE, Box.edgesN, Box.edgesU, Set.mem_ofPred_eq, Set.mem_Icc, Box.inside,
    Box.region, Set.mem_prod, Set.mem_Ioo]
  refine ⟨?_, ?_, ?_⟩ <;> grind

theorem tendsto_tensor (hP : P.Proper) (h : p ∈ P.faces) (a b : Axis) :
    Tendsto (fun q => Vc (tensor a b) q P) (𝓝[P.regionᶜ] p) (𝓝 (Vc (tensor a b) p P)) := by
  by_cases hab : a = b
  · subst hab
    have := tendsto_Vdiag hP h a
    cases a <;> exact this
  · exact (continuousAt_Voff hP.ordered hab (edges_singular _ (face_off_edges hP h).1)).tendsto.mono_left
      nhdsWithin_le_nhds

/-- On the six open faces each of the nine magnetic functions returns the limit of the values it
returns at exterior points. -/
theorem C74_magnetic_face (hP : P.Proper) (p : Pt) (h : p ∈ P.faces) (c : MComp) (M : Vec) :
    ∃ (v : ℝ) (F : Pt → ℝ),
      Returns (onPrism (A := Exact) (prismMagnetic c) p P M.e M.n M.u) v ∧
      (∀ q ∉ P.region, Returns (onPrism (A := Exact) (prismMagnetic c) q P M.e M.n M.u) (F q)) ∧
      Tendsto F (𝓝[P.regionᶜ] p) (𝓝 v) := by
  have hO := hP.ordered
  obtain ⟨f1, f2, f3⟩ := face_off_edges hP h
  refine ⟨_, fun q => mu0 / 4 / π * Bc c q P M.e M.n M.u, Ex.magnetic_returns hO f1 f2 _ _ _, fun q hq =>
    Ex.magnetic_returns hO (exterior_edges hO hq) (fun h' => hq (inside_subset_region h')) _ _ _,
    Tendsto.const_mul _ ?_⟩
  have k := fun t => (continuousAt_DvK3 f1 f3 t).tendsto.mono_left (nhdsWithin_le_nhds (s := P.regionᶜ))
  have w : ∀ j, Tendsto (fun q => Wc c j q P) (𝓝[P.regionᶜ] p) (𝓝 (Wc c j p P)) := by
    intro j
    cases c <;> fin_cases j
    · exact tendsto_tensor hP h .e .e
    · exact tendsto_tensor hP h .e .n
    · exact tendsto_tensor hP h .e .u
    · exact tendsto_tensor hP h .e .n
    · exact tendsto_tensor hP h .n .n
    · exact tendsto_tensor hP h .n .u
    · exact tendsto_tensor hP h .e .u
    · exact tendsto_tensor hP h .n .u
    · exact tendsto_tensor hP h .u .u
    all_goals exact k _
  unfold Bc
  exact (((w 0).const_mul _).add ((w 1).const_mul _)).add ((w 2).const_mul _)

theorem inside_off_edges (hq : p ∈ P.inside) : p ∉ P.edges := by
  simp only [Box.edges, Set.mem_union, Box.edgesE, Box.edgesN, Box.edgesU, Set.mem_ofPred_eq, Set.mem_Icc, Box.inside,
    Set.mem_prod, Set.mem_Ioo] at *
  grind

/-- On an open face perpendicular to axis `a` the component `aa` returns `4 pi G density` more than
the limit of the values it returns at interior points: the jump Poisson's equation requires. -/
theorem C74_jump (hP : P.Proper) (a : Axis) (p : Pt) (h : p ∈ P.faceHi a ∪ P.faceLo a) (ρ : ℝ) :
    ∃ (v : ℝ) (F : Pt → ℝ),
      Returns (onPrism (A := Exact) (prismGravity (tensor a a)) p P ρ) v ∧
      (∀ q ∈ P.inside, Returns (onPrism (A := Exact) (prismGravity (tensor a a)) q P ρ) (F q)) ∧
      Tendsto F (𝓝[P.inside] p) (𝓝 (v - 4 * π * 6.6743e-11 * ρ)) := by
  have hO := hP.ordered
  have hf : p ∈ P.faces := by
    cases a <;> rcases h with h | h <;> simp only [Box.faces, Set.mem_union]
    · exact Or.inl (Or.inl (Or.inl (Or.inl (Or.inl h))))
    · exact Or.inl (Or.inl (Or.inl (Or.inl (Or.inr h))))
    · exact Or.inl (Or.inl (Or.inl (Or.inr h)))
    · exact Or.inl (Or.inl (Or.inr h))
    · exact Or.inl (Or.inr h)
    · exact Or.inr h
  obtain ⟨f1, f2, f3⟩ := face_off_edges hP hf
  refine ⟨_, fun q => Gc * ρ * Vc (tensor a a) q P, Ex.gravity_returns hO (edges_singular _ f1) ρ,
    fun q hq => Ex.gravity_returns hO (edges_singular _ (inside_off_edges hq)) ρ, ?_⟩
  have e : ∀ V : ℝ, Gc * ρ * V - 4 * π * 6.6743e-11 * ρ = Gc * ρ * (V - 4 * π) := fun V => by unfold Gc; ring
  rw [e]
  refine Tendsto.const_mul _ ?_
  have c : ∀ b, b ≠ a → Tendsto (fun q => Vc (tensor b b) q P) (𝓝[P.inside] p) (𝓝 (Vc (tensor b b) p P)) := by
    intro b hb
    refine (continuousAt_Vdiag hO b ?_).tendsto.mono_left nhdsWithin_le_nhds
    rintro ⟨_, hc⟩
    cases a <;> cases b <;> first | exact absurd rfl hb | skip
    all_goals
      rcases h with ⟨h1, h2, h3⟩ | ⟨h1, h2, h3⟩ <;> rcases hc with hc | hc <;>
        simp only [Pt.coord, Box.lo, Box.hi, Pt.e, Pt.n, Pt.u, mem_Ioo] at * <;> grind
  have l0 := V_laplace hP f1
  rw [if_neg f2] at l0
  have l1 : ∀ q ∈ P.inside, Vc .ee q P + Vc .nn q P + Vc .uu q P = -(4 * π) := fun q hq => by
    have := V_laplace hP (inside_off_edges hq)
    rw [if_pos hq] at this
    linarith
  cases a
  · have := ((c .n (by decide)).add (c .u (by decide))).const_sub (-(4 * π))
    have e : -(4 * π) - (Vc (tensor .n .n) p P + Vc (tensor .u .u) p P) = Vc (tensor .e .e) p P - 4 * π := by
      simp only [tensor] at *; linarith
    rw [e] at this
    refine this.congr' ?_
    filter_upwards [self_mem_nhdsWithin] with q hq
    have := l1 q hq
    simp only [tensor] at *; linarith
  · have := ((c .e (by decide)).add (c .u (by decide))).const_sub (-(4 * π))
    have e : -(4 * π) - (Vc (tensor .e .e) p P + Vc (tensor .u .u) p P) = Vc (tensor .n .n) p P - 4 * π := by
      simp only [tensor] at *; linarith
    rw [e] at this
    refine this.congr' ?_
    filter_upwards [self_mem_nhdsWithin] with q hq
    have := l1 q hq
    simp only [tensor] at *; linarith
  · have := ((c .e (by decide)).add (c .n (by decide))).const_sub (-(4 * π))
    have e : -(4 * π) - (Vc (tensor .e .e) p P + Vc (tensor .n .n) p P) = Vc (tensor .u .u) p P - 4 * π := by
      simp only [tensor] at *; linarith
    rw [e] at this
    refine this.congr' ?_
    filter_upwards [self_mem_nhdsWithin] with q hq
    have := l1 q hq
    simp only [tensor] at *; linarith

/-- ... and that limit is not vacuous. -/
theorem C74_approachable (hP : P.Proper) (p : Pt) (h : p ∈ P.region) : (𝓝[P.inside] p).NeBot := by
  rw [← mem_closure_iff_nhdsWithin_neBot]
  obtain ⟨o1, o2, o3⟩ := hP
  rw [Box.inside, closure_prod_eq, closure_prod_eq, closure_Ioo o1.ne, closure_Ioo o2.ne, closure_Ioo o3.ne]
  exact h

/-- (0, 0, 0) is on the top face of the example prism -/
example : exBox.Proper ∧ ((0, 0, 0) : Pt) ∈ exBox.faceHi .u ∧ ((0, 0, 0) : Pt) ∈ exBox.faces := by
  norm_num [exBox, Box.Proper, Box.faces, Box.faceHi, Box.faceEast,
    Box.faceWest, Box.faceNorth, Box.faceSouth, Box.faceTop, Box.faceBottom]

end Choclo
