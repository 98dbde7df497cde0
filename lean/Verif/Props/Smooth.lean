import Verif.Spec.Smooth
import Verif.Lemmas.Smooth
import Verif.Props.Shape

/-! # C92: the fields are infinitely differentiable off the surface of the sources -/

namespace Choclo

open Real MeasureTheory Set Filter Topology ContDiff

variable {P : Box}

theorem smooth_integral_set (c : KComp) {K : Set Pt} (hK : IsCompact K) {p : Pt} (h : p ∉ K) :
    ContDiffAt ℝ ∞ (fun p => ∫ q in K, kpp c p q) p :=
  (contDiffOn_integral_kpp c hK).contDiffAt (hK.isClosed.isOpen_compl.mem_nhds h)

theorem eventually_off_region {p : Pt} (h : p ∉ P.region) : ∀ᶠ q in 𝓝 p, q ∉ P.region :=
  (isCompact_region P).isClosed.isOpen_compl.mem_nhds h


theorem inside_not_singular {q : Pt} (hq : q ∈ P.inside) (c : GComp) : q ∉ P.singular c := by
  apply edges_singular c
  simp only [Box.inside, mem_prod, mem_Ioo] at hq
  intro h
  simp only [Box.edges, Box.edgesE, Box.edgesN, Box.edgesU, mem_union, mem_ofPred_eq] at h
  obtain ⟨⟨_, _⟩, ⟨_, _⟩, _, _⟩ := hq
  rcases h with (h | h) | h <;> grind

theorem inside_corr {q : Pt} (hq : q ∈ P.inside) (c : GComp) : corr c q P = 0 := by
  simp only [Box.inside, mem_prod, mem_Ioo] at hq
  cases c <;> simp only [corr] <;> rw [if_neg] <;>
    simp only [Box.faceEast, Box.faceNorth, Box.faceTop, Set.mem_prod, Set.mem_Ioo, Set.mem_singleton_iff] <;> grind

/-! ## C92 -/

/-- Inside the prism and outside it (off its surface), every gravity component is infinitely
differentiable. -/
theorem C92_gravity (hP : P.Ordered) (c : GComp) (p : Pt) (h : p ∉ frontier P.region) (ρ : ℝ) :
    SmoothAt (fun q => onPrism (A := Exact) (prismGravity c) q P ρ) p := by
  by_cases hp : p ∈ P.region
  · have hin : p ∈ P.inside := by
      rw [(isCompact_region P).isClosed.frontier_eq] at h
      have : p ∈ interior P.region := by by_contra h'; exact h ⟨hp, h'⟩
      simpa only [Box.region, Box.inside, interior_prod_eq, interior_Icc] using this
    refine ⟨fun q => Gc * ρ * Vc c q P, ?_, ?_⟩
    · filter_upwards [(isOpen_inside P).mem_nhds hin] with q hq
      exact Ex.gravity_returns hP (inside_not_singular hq c) ρ
    · refine contDiffAt_const.mul ?_
      have key : ContDiffAt ℝ ∞ (fun q => Dv (Kc c) q P) p := by
        simp only [Box.inside, mem_prod, mem_Ioo] at hin
        obtain ⟨⟨w, e⟩, ⟨s, n⟩, b, t⟩ := hin
        have k : ∀ x y z : ℝ, x - p.e ≠ 0 → y - p.n ≠ 0 → z - p.u ≠ 0 →
            ContDiffAt ℝ ∞ (fun q : Pt => Kc c (x - q.e) (y - q.n) (z - q.u)) p := fun x y z h1 h2 h3 =>
          contDiffAt_Kc c (by simp only [Pt.e]; fun_prop) (by simp only [Pt.n]; fun_prop)
            (by simp only [Pt.u]; fun_prop) h1 h2 h3
        have w' : P.west - p.e ≠ 0 := (sub_neg.2 w).ne
        have e' : P.east - p.e ≠ 0 := (sub_pos.2 e).ne'
        have s' : P.south - p.n ≠ 0 := (sub_neg.2 s).ne
        have n' : P.north - p.n ≠ 0 := (sub_pos.2 n).ne'
        have b' : P.bottom - p.u ≠ 0 := (sub_neg.2 b).ne
        have t' : P.top - p.u ≠ 0 := (sub_pos.2 t).ne'
        simp only [Dv, D3]
        exact (((k _ _ _ e' n' t').sub (k _ _ _ e' n' b')).sub ((k _ _ _ e' s' t').sub (k _ _ _ e' s' b'))).sub
          (((k _ _ _ w' n' t').sub (k _ _ _ w' n' b')).sub ((k _ _ _ w' s' t').sub (k _ _ _ w' s' b')))
      refine key.congr_of_eventuallyEq ?_
      filter_upwards [(isOpen_inside P).mem_nhds hin] with q hq
      simp only [Vc, inside_corr hq, add_zero]
  · refine ⟨fun p => Gc * ρ * ∫ q in P.region, kpp c.toK p q, ?_,
      contDiffAt_const.mul (smooth_integral_set _ (isCompact_region P) hp)⟩
    filter_upwards [eventually_off_region hp] with q hq
    have := (ext_integral_returns hP c hq ρ).2
    rwa [integral_const_mul] at this

/-- Outside the prism every component of the magnetic field and of its gradient tensor is infinitely
differentiable. (Inside they are not defined: NaN, C38.) -/
theorem C92_magnetic (hP : P.Ordered) (c : MComp) (p : Pt) (h : p ∉ P.region) (M : Vec) :
    SmoothAt (fun q => onPrism (A := Exact) (prismMagnetic c) q P M.e M.n M.u) p := by
  have k := fun c => smooth_integral_set c (isCompact_region P) h
  have hc : (∃ a : Axis, c = a.field) ∨ ∃ a b, c = gradComp a b := by
    cases c
    · exact .inl ⟨.e, rfl⟩
    · exact .inl ⟨.n, rfl⟩
    · exact .inl ⟨.u, rfl⟩
    · exact .inr ⟨.e, .e, rfl⟩
    · exact .inr ⟨.n, .n, rfl⟩
    · exact .inr ⟨.u, .u, rfl⟩
    · exact .inr ⟨.e, .n, rfl⟩
    · exact .inr ⟨.e, .u, rfl⟩
    · exact .inr ⟨.n, .u, rfl⟩
  have ret : ∀ᶠ q in 𝓝 p, Returns (onPrism (A := Exact) (prismMagnetic c) q P M.e M.n M.u)
      (mu0 / 4 / π * Bc c q P M.e M.n M.u) := by
    filter_upwards [eventually_off_region h] with q hq
    exact Ex.magnetic_returns hP (exterior_edges hP hq) (fun h' => hq (inside_subset_region h')) _ _ _
  refine ⟨_, ret, contDiffAt_const.mul ?_⟩
  rcases hc with ⟨a, rfl⟩ | ⟨a, b, rfl⟩
  · have key : ContDiffAt ℝ ∞ (fun q => (∫ q' in P.region, kpp (tensor a .e).toK q q') * M.e +
        (∫ q' in P.region, kpp (tensor a .n).toK q q') * M.n + (∫ q' in P.region, kpp (tensor a .u).toK q q') * M.u) p :=
      (((k _).mul contDiffAt_const).add ((k _).mul contDiffAt_const)).add ((k _).mul contDiffAt_const)
    refine key.congr_of_eventuallyEq ?_
    filter_upwards [eventually_off_region h] with q hq
    rw [Bc_field, Vc_tensor_integral hP a _ hq, Vc_tensor_integral hP a _ hq, Vc_tensor_integral hP a _ hq]
    ring
  · have key : ContDiffAt ℝ ∞ (fun q => (∫ q' in P.region, kpp (kern3 a b .e) q q') * M.e +
        (∫ q' in P.region, kpp (kern3 a b .n) q q') * M.n + (∫ q' in P.region, kpp (kern3 a b .u) q q') * M.u) p :=
      (((k _).mul contDiffAt_const).add ((k _).mul contDiffAt_const)).add ((k _).mul contDiffAt_const)
    refine key.congr_of_eventuallyEq ?_
    filter_upwards [eventually_off_region h] with q hq
    have i := fun c => integrableOn_kpp (P := P) c hq
    rw [Bc_grad_integral hP a b hq, integral_lin3 (i _) (i _) (i _)]

theorem eventually_ne_source {p q : Pt} (h : p ≠ q) : ∀ᶠ p' in 𝓝 p, p' ≠ q := eventually_ne_nhds h

theorem smooth_kpp (c : KComp) {p q : Pt} (h : p ≠ q) : ContDiffAt ℝ ∞ (fun p => kpp c p q) p := by
  have h1 := ((contDiffOn_kpp c ∞).contDiffAt (isOpen_offDiag.mem_nhds (show ((p, q) : Pt × Pt) ∈ _ from h)))
  exact h1.comp (f := fun p : Pt => (p, q)) p (by fun_prop)

/-- Away from a point mass. -/
theorem C92_point (c : GComp) (p q : Pt) (h : p ≠ q) (m : ℝ) :
    SmoothAt (fun p => onPair (A := Exact) (pointGravity c) p q m) p := by
  refine ⟨fun p => Gc * m * kpp c.toK p q, ?_, contDiffAt_const.mul (smooth_kpp _ h)⟩
  filter_upwards [eventually_ne_source h] with p' hp'
  exact Ex.pointGravity_fin c hp' m

/-- Away from a dipole. -/
theorem C92_dipole (a : Axis) (p q : Pt) (h : p ≠ q) (m : Vec) :
    SmoothAt (fun p => onPair (A := Exact) (dipoleMagnetic a) p q m.e m.n m.u) p := by
  have k := fun c => smooth_kpp c h
  refine ⟨fun p => Bd a p q m, ?_, contDiffAt_const.mul ((((k _).mul contDiffAt_const).add
    ((k _).mul contDiffAt_const)).add ((k _).mul contDiffAt_const))⟩
  filter_upwards [eventually_ne_source h] with p' hp'
  exact dipole_fin a hp' m

/-- the centre of the prism, and exterior points in the plane of a face and on the line of an edge,
meet the hypothesis of `C92_gravity` -/
example : ((0, 0, -1) : Pt) ∉ frontier exBox.region ∧ ((1, 0, 3) : Pt) ∉ frontier exBox.region ∧
    ((1, 1, 3) : Pt) ∉ frontier exBox.region := by
  have hc : IsClosed exBox.region := (isCompact_region exBox).isClosed
  have hi : interior exBox.region = exBox.inside := by
    simp only [Box.region, Box.inside, interior_prod_eq, interior_Icc]
  rw [hc.frontier_eq, hi]
  norm_num [exBox, Box.region, Box.inside]

end Choclo
