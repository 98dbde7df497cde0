import Verif.Lemmas.MagEval
import Verif.Lemmas.KernelAlg
import Verif.Spec.PrismKernels
import Mathlib.Topology.Order.DenselyOrdered
import Mathlib.Topology.Constructions.SumProd

/-! # Points of a prism and the prism kernels: C18-C20, C26, C38 -/

namespace Choclo

open Real Classical

/-! ## C18 classification of observation points (in every arithmetic) -/

theorem Fl.lt_fin_any {A : Arith} (x y : ℝ) : Fl.lt (Fl.fin x : Fl A) (Fl.fin y) = decide (x < y) := by
  show @decide _ (Classical.propDecidable _) = _
  congr
theorem Fl.le_fin_any {A : Arith} (x y : ℝ) : Fl.le (Fl.fin x : Fl A) (Fl.fin y) = decide (x ≤ y) := by
  show @decide _ (Classical.propDecidable _) = _
  congr
theorem Fl.eq_fin_any {A : Arith} (x y : ℝ) : Fl.eq (Fl.fin x : Fl A) (Fl.fin y) = decide (x = y) := by
  show @decide _ (Classical.propDecidable _) = _
  congr

/-- `is_interior_point` decides the topological interior of the closed prism. -/
theorem C18_interior {A : Arith} (p : Pt) (P : Box) :
    onPrism (A := A) prism.is_interior_point p P = true ↔ p ∈ interior P.region := by
  unfold Box.region
  rw [interior_prod_eq, interior_prod_eq, interior_Icc, interior_Icc, interior_Icc]
  simp [onPrism, prism.is_interior_point, Fl.lt_fin_any, and_assoc]

/-- `is_point_on_edge` decides whether the point belongs to the closed prism with at least two
coordinates on a boundary. -/
theorem C18_edge {A : Arith} {P : Box} (hP : P.Ordered) (p : Pt) :
    onPrism (A := A) prism.is_point_on_edge p P = true ↔
      p ∈ P.region ∧
        ((p.e = P.west ∨ p.e = P.east) ∧ (p.n = P.south ∨ p.n = P.north) ∨
         (p.e = P.west ∨ p.e = P.east) ∧ (p.u = P.bottom ∨ p.u = P.top) ∨
         (p.n = P.south ∨ p.n = P.north) ∧ (p.u = P.bottom ∨ p.u = P.top)) := by
  obtain ⟨h1, h2, h3⟩ := hP
  have i1 : (p.e = P.west ∨ p.e = P.east) → P.west ≤ p.e ∧ p.e ≤ P.east := by
    rintro (h | h) <;> rw [h] <;> constructor <;> linarith
  have i2 : (p.n = P.south ∨ p.n = P.north) → P.south ≤ p.n ∧ p.n ≤ P.north := by
    rintro (h | h) <;> rw [h] <;> constructor <;> linarith
  have i3 : (p.u = P.bottom ∨ p.u = P.top) → P.bottom ≤ p.u ∧ p.u ≤ P.top := by
    rintro (h | h) <;> rw [h] <;> constructor <;> linarith
  simp only [onPrism, prism.is_point_on_edge, prism.is_point_on_easting_edge,
    prism.is_point_on_northing_edge, prism.is_point_on_upward_edge, Fl.le_fin_any, Fl.eq_fin_any,
    Bool.or_eq_true, Bool.and_eq_true, decide_eq_true_eq, Box.region, Set.mem_prod, Set.mem_Icc]
  simp only [Pt.e, Pt.n, Pt.u] at *
  tauto

/-- The edge predicate is the union of the three directional ones, each of which decides the four
closed edges parallel to its axis. -/
theorem C18_edges_by_direction {A : Arith} (p : Pt) (P : Box) :
    (onPrism (A := A) prism.is_point_on_edge p P = true ↔
      onPrism (A := A) prism.is_point_on_easting_edge p P = true ∨
      onPrism (A := A) prism.is_point_on_northing_edge p P = true ∨
      onPrism (A := A) prism.is_point_on_upward_edge p P = true) ∧
    (onPrism (A := A) prism.is_point_on_easting_edge p P = true ↔ p ∈ P.edgesE) ∧
    (onPrism (A := A) prism.is_point_on_northing_edge p P = true ↔ p ∈ P.edgesN) ∧
    (onPrism (A := A) prism.is_point_on_upward_edge p P = true ↔ p ∈ P.edgesU) := by
  refine ⟨?_, ?_, ?_, ?_⟩
  · simp [onPrism, prism.is_point_on_edge, or_assoc]
  · simp [onPrism, prism.is_point_on_easting_edge, Box.edgesE, and_assoc, Fl.le_fin_any, Fl.eq_fin_any]
  · simp [onPrism, prism.is_point_on_northing_edge, Box.edgesN, and_assoc, Fl.le_fin_any, Fl.eq_fin_any]
  · simp [onPrism, prism.is_point_on_upward_edge, Box.edgesU, and_assoc, Fl.le_fin_any, Fl.eq_fin_any]

/-- The face predicates decide the relative interiors of the east, north and top faces. -/
theorem C18_faces {A : Arith} (p : Pt) (P : Box) :
    (onPrism (A := A) prism.is_point_on_east_face p P = true ↔
      p.e = P.east ∧ (p.n, p.u) ∈ interior (Set.Icc P.south P.north ×ˢ Set.Icc P.bottom P.top)) ∧
    (onPrism (A := A) prism.is_point_on_north_face p P = true ↔
      p.n = P.north ∧ (p.e, p.u) ∈ interior (Set.Icc P.west P.east ×ˢ Set.Icc P.bottom P.top)) ∧
    (onPrism (A := A) prism.is_point_on_top_face p P = true ↔
      p.u = P.top ∧ (p.e, p.n) ∈ interior (Set.Icc P.west P.east ×ˢ Set.Icc P.south P.north)) := by
  simp only [interior_prod_eq, interior_Icc, onPrism, prism.is_point_on_east_face,
    prism.is_point_on_north_face, prism.is_point_on_top_face, Fl.lt_fin_any, Fl.eq_fin_any,
    Bool.and_eq_true, decide_eq_true_eq, Set.mem_prod, Set.mem_Ioo]
  tauto

/-- Interior, edges and the six open faces cover the closed prism ... -/
theorem C18_cover {P : Box} (hP : P.Ordered) :
    P.region = interior P.region ∪ P.edges ∪ P.faces := by
  obtain ⟨h1, h2, h3⟩ := hP
  ext p
  unfold Box.region
  rw [interior_prod_eq, interior_prod_eq, interior_Icc, interior_Icc, interior_Icc]
  simp only [Box.edges, Box.edgesE, Box.edgesN, Box.edgesU, Box.faces, Box.faceEast, Box.faceWest,
    Box.faceNorth, Box.faceSouth, Box.faceTop, Box.faceBottom, Set.mem_union, Set.mem_prod,
    Set.mem_Icc, Set.mem_Ioo, Set.mem_singleton_iff, Set.mem_ofPred_eq]
  obtain ⟨x, y, z⟩ := p
  simp only [Pt.e, Pt.n, Pt.u]
  have hx : (P.west ≤ x ∧ x ≤ P.east) ↔ (P.west < x ∧ x < P.east) ∨ (x = P.west ∨ x = P.east) := by
    grind
  have hy : (P.south ≤ y ∧ y ≤ P.north) ↔ (P.south < y ∧ y < P.north) ∨ (y = P.south ∨ y = P.north) := by
    grind
  have hz : (P.bottom ≤ z ∧ z ≤ P.top) ↔ (P.bottom < z ∧ z < P.top) ∨ (z = P.bottom ∨ z = P.top) := by
    grind
  rw [hx, hy, hz]
  generalize (P.west < x ∧ x < P.east) = Ix
  generalize (P.south < y ∧ y < P.north) = Iy
  generalize (P.bottom < z ∧ z < P.top) = Iz
  generalize (x = P.west) = x1
  generalize (x = P.east) = x2
  generalize (y = P.south) = y1
  generalize (y = P.north) = y2
  generalize (z = P.bottom) = z1
  generalize (z = P.top) = z2
  clear h1 h2 h3 hx hy hz
  constructor
  · rintro ⟨h1 | h1 | h1, h2 | h2 | h2, h3 | h3 | h3⟩ <;> simp only [h1, h2, h3, true_or, or_true, and_self, true_and]
  · rintro ((h | ((⟨h1, h2, h3⟩ | ⟨h1, h2, h3⟩) | ⟨h1, h2, h3⟩)) | (((((h | h) | h) | h) | h) | h)) <;>
      grind

/-- ... and for a prism of positive volume they are pairwise disjoint. -/
theorem C18_partition {P : Box} (hP : P.Proper) :
    List.Pairwise Disjoint [interior P.region, P.edges, P.faceEast, P.faceWest, P.faceNorth,
      P.faceSouth, P.faceTop, P.faceBottom] := by
  obtain ⟨h1, h2, h3⟩ := hP
  unfold Box.region
  rw [interior_prod_eq, interior_prod_eq, interior_Icc, interior_Icc, interior_Icc]
  simp only [List.pairwise_cons, List.mem_cons, List.not_mem_nil, or_false, forall_eq_or_imp, forall_eq,
    Box.edges, Box.edgesE, Box.edgesN, Box.edgesU, Box.faceEast, Box.faceWest,
    Box.faceNorth, Box.faceSouth, Box.faceTop, Box.faceBottom, Set.disjoint_left, Set.mem_union,
    Set.mem_prod, Set.mem_Icc, Set.mem_Ioo, Set.mem_singleton_iff, Set.mem_ofPred_eq, Pt.e, Pt.n, Pt.u,
    Prod.forall]
  refine ⟨⟨?_, ?_, ?_, ?_, ?_, ?_, ?_⟩, ⟨?_, ?_, ?_, ?_, ?_, ?_⟩, ⟨?_, ?_, ?_, ?_, ?_⟩,
    ⟨?_, ?_, ?_, ?_⟩, ⟨?_, ?_, ?_⟩, ⟨?_, ?_⟩, ?_, ?_⟩ <;> try { simp; done }
  all_goals
    intro x y z h h'
    have hx1 : x = P.west → ¬ (P.west < x) := fun h => by rw [h]; exact lt_irrefl _
    have hx2 : x = P.east → ¬ (x < P.east) := fun h => by rw [h]; exact lt_irrefl _
    have hx3 : x = P.west → ¬ (x = P.east) := fun h => by rw [h]; exact h1.ne
    have hy1 : y = P.south → ¬ (P.south < y) := fun h => by rw [h]; exact lt_irrefl _
    have hy2 : y = P.north → ¬ (y < P.north) := fun h => by rw [h]; exact lt_irrefl _
    have hy3 : y = P.south → ¬ (y = P.north) := fun h => by rw [h]; exact h2.ne
    have hz1 : z = P.bottom → ¬ (P.bottom < z) := fun h => by rw [h]; exact lt_irrefl _
    have hz2 : z = P.top → ¬ (z < P.top) := fun h => by rw [h]; exact lt_irrefl _
    have hz3 : z = P.bottom → ¬ (z = P.top) := fun h => by rw [h]; exact h3.ne
    clear h1 h2 h3
    grind

example : (⟨0, 2, 0, 2, 0, 2⟩ : Box).Proper := by norm_num [Box.Proper]
example : ((1, 1, 1) : Pt) ∈ interior (⟨0, 2, 0, 2, 0, 2⟩ : Box).region ∧
    ((0, 0, 1) : Pt) ∈ (⟨0, 2, 0, 2, 0, 2⟩ : Box).edges ∧
    ((2, 1, 1) : Pt) ∈ (⟨0, 2, 0, 2, 0, 2⟩ : Box).faceEast := by
  unfold Box.region
  simp only [interior_prod_eq, interior_Icc]
  norm_num [Box.edges, Box.edgesE, Box.edgesN, Box.edgesU, Box.faceEast]

/-! ## C19 the kernels -/

theorem docLn_eq (x y z : ℝ) : docLn x (rad x y z) = Lk x y z := by
  unfold docLn
  by_cases h : y = 0 ∧ z = 0
  · obtain ⟨rfl, rfl⟩ := h
    have hr : rad x 0 0 = |x| := by
      unfold rad; rw [← Real.sqrt_sq_eq_abs]; congr 1; ring
    rcases lt_trichotomy x 0 with hx | hx | hx
    · rw [Lk_axis_neg hx, hr, abs_of_neg hx, if_neg (by linarith), if_pos hx]
    · subst hx; rw [Lk_axis_nonneg le_rfl, hr]; norm_num
    · rw [Lk_axis_nonneg hx.le, hr, abs_of_pos hx, if_pos (by linarith)]; congr 1; ring
  · rw [if_pos (add_rad_pos h), Lk_eq_log h]

theorem docAtan_eq (x y z : ℝ) : docAtan (y * z) (x * rad x y z) = Tk x y z := by
  unfold docAtan Tk
  by_cases hx : x = 0
  · subst hx; simp [neg_div]
  · have : rad x y z ≠ 0 := by rw [Ne, rad_eq_zero]; tauto
    rw [if_pos (mul_ne_zero hx this), if_neg hx]

theorem docIII_eq (x y z : ℝ) : docIII x y z (rad x y z) = Kiii x y z := by
  unfold docIII Kiii
  by_cases h : (x = 0 ∧ y = 0) ∨ (x = 0 ∧ z = 0)
  · rw [if_pos h, if_pos]
    rcases h with ⟨rfl, rfl⟩ | ⟨rfl, rfl⟩ <;> norm_num
  · rw [if_neg h]
    rw [not_or] at h
    have hr : rad x y z ≠ 0 := by rw [Ne, rad_eq_zero]; tauto
    rw [if_neg (mul_ne_zero (mul_ne_zero (Ex.sq_add_sq_ne h.1) (Ex.sq_add_sq_ne h.2)) hr)]
    congr 1; ring

theorem docIIJ_eq (x y z : ℝ) : docIIJ x y z (rad x y z) = Kiij x y z := by
  unfold docIIJ Kiij
  by_cases h : x = 0 ∧ y = 0
  · rw [if_pos h, if_pos]; obtain ⟨rfl, rfl⟩ := h; norm_num
  · rw [if_neg h]
    have hr : rad x y z ≠ 0 := by rw [Ne, rad_eq_zero]; tauto
    rw [if_neg (mul_ne_zero (Ex.sq_add_sq_ne h) hr)]

theorem callPrismKernel_eq (c : PKComp) (x y z : ℝ) :
    callPrismKernel (A := Exact) c x y z = prism.vker (prismKernel c) (xf x) (xf y) (xf z) := by
  unfold prism.vker
  rw [Ex.vrad_fin]; rfl

/-- The potential kernel and the first-order kernels return the documented value for every vertex. -/
theorem C19_low_order (c : PKComp) (hc : c.lowOrder) (x y z : ℝ) :
    Returns (callPrismKernel (A := Exact) c x y z)
      (docKernel c x y z (√(x ^ 2 + y ^ 2 + z ^ 2))) := by
  have hr : √(x ^ 2 + y ^ 2 + z ^ 2) = rad x y z := rfl
  have l1 := docLn_eq x y z
  have l2 := docLn_eq y x z
  have l3 := docLn_eq z x y
  have t1 := docAtan_eq x y z
  have t2 := docAtan_eq y x z
  have t3 := docAtan_eq z x y
  rw [rad_perm1 x y z] at l2 t2
  rw [rad_perm4 x y z] at l3 t3
  unfold Returns
  rw [callPrismKernel_eq, hr]
  cases c <;> simp only [PKComp.lowOrder] at hc <;> simp only [prismKernel, docKernel]
  · rw [Ex.kernel_pot_fin]; congr 2
    unfold Pk
    rw [l1, l2, l3, t1, t2, t3, Lk_symm y x z, Tk_symm x y z, Tk_symm y x z]; ring
  · rw [Ex.kernel_e_fin]; congr 2
    unfold Fk
    rw [l2, l3, t1]
  · rw [Ex.kernel_n_fin]; congr 2
    unfold Fk
    rw [l1, l3, t2, Lk_symm z x y]; ring
  · rw [Ex.kernel_u_fin]; congr 2
    unfold Fk
    rw [l1, l2, t3, Lk_symm y x z, Lk_symm x y z]

/-- Second- and third-order kernels: documented value away from the vertex. -/
theorem C19_high_order (c : PKComp) (hc : ¬c.lowOrder) (x y z : ℝ) (h : ¬(x = 0 ∧ y = 0 ∧ z = 0)) :
    Returns (callPrismKernel (A := Exact) c x y z)
      (docKernel c x y z (√(x ^ 2 + y ^ 2 + z ^ 2))) := by
  have hr : √(x ^ 2 + y ^ 2 + z ^ 2) = rad x y z := rfl
  have h0 : rad x y z ≠ 0 := by rwa [Ne, rad_eq_zero]
  have l1 := docLn_eq x y z
  have l2 := docLn_eq y x z
  have l3 := docLn_eq z x y
  have t1 := docAtan_eq x y z
  have t2 := docAtan_eq y x z
  have t3 := docAtan_eq z x y
  have i1 := docIII_eq x y z
  have i2 := docIII_eq y z x
  have i3 := docIII_eq z x y
  have j1 := docIIJ_eq x y z
  have j2 := docIIJ_eq x z y
  have j3 := docIIJ_eq y x z
  have j4 := docIIJ_eq y z x
  have j5 := docIIJ_eq z x y
  have j6 := docIIJ_eq z y x
  rw [rad_perm1 x y z] at l2 t2 j3
  rw [rad_perm2 x y z] at j2
  rw [rad_perm3 x y z] at i2 j4
  rw [rad_perm4 x y z] at l3 t3 i3 j5
  rw [rad_perm5 x y z] at j6
  unfold Returns
  rw [callPrismKernel_eq, hr]
  cases c <;> simp only [PKComp.lowOrder, not_true_eq_false, not_false_eq_true] at hc <;>
    simp only [prismKernel, docKernel]
  · rw [Ex.kernel_ee_fin h0, t1]
  · rw [Ex.kernel_nn_fin h0, t2]
  · rw [Ex.kernel_uu_fin h0, t3]
  · rw [Ex.kernel_en_fin h0, l3]
  · rw [Ex.kernel_eu_fin h0, l2]
  · rw [Ex.kernel_nu_fin h0, l1]
  · rw [Ex.kernel_eee_fin h0, i1]
  · rw [Ex.kernel_nnn_fin h0, i2]
  · rw [Ex.kernel_uuu_fin h0, i3, Kiii_symm z y x]
  · rw [Ex.kernel_een_fin h0, j1]
  · rw [Ex.kernel_eeu_fin h0, j2]
  · rw [Ex.kernel_enn_fin h0, j3]
  · rw [Ex.kernel_nnu_fin h0, j4]
  · rw [Ex.kernel_euu_fin h0, j5]
  · rw [Ex.kernel_nuu_fin h0, j6]
  · rw [Ex.kernel_enu_fin h0]

/-- Second- and third-order kernels: NaN on the vertex itself. -/
theorem C19_vertex (c : PKComp) (hc : ¬c.lowOrder) :
    ReturnsNaN (callPrismKernel (A := Exact) c 0 0 0) := by
  have hr : √((0 : ℝ) ^ 2 + 0 ^ 2 + 0 ^ 2) = 0 := by norm_num
  unfold ReturnsNaN callPrismKernel
  rw [hr]
  cases c <;> simp only [PKComp.lowOrder, not_true_eq_false, not_false_eq_true] at hc <;>
    simp [prismKernel, prism.kernel_ee, prism.kernel_nn, prism.kernel_uu, prism.kernel_en, prism.kernel_eu,
    prism.kernel_nu, prism.kernel_eee, prism.kernel_nnn, prism.kernel_uuu, prism.kernel_een,
    prism.kernel_eeu, prism.kernel_enn, prism.kernel_nnu, prism.kernel_euu, prism.kernel_nuu,
    prism.kernel_enu, prism._kernel_iii, prism._kernel_iij]

/-- No prism kernel raises, for any vertex. -/
theorem C19_never_raises (c : PKComp) (x y z : ℝ) :
    ¬ RaisesZeroDivision (callPrismKernel (A := Exact) c x y z) := by
  unfold RaisesZeroDivision
  by_cases hc : c.lowOrder
  · rw [show callPrismKernel (A := Exact) c x y z = _ from C19_low_order c hc x y z]
    intro h; cases h
  · by_cases h0 : x = 0 ∧ y = 0 ∧ z = 0
    · obtain ⟨rfl, rfl, rfl⟩ := h0
      rw [show callPrismKernel (A := Exact) c 0 0 0 = _ from C19_vertex c hc]
      intro h; cases h
    · rw [show callPrismKernel (A := Exact) c x y z = _ from C19_high_order c hc x y z h0]
      intro h; cases h

/-- ... a concrete vertex: on the negative half-axis the regularised logarithm is used -/
example : Returns (callPrismKernel (A := Exact) .nu (-3) 0 0) (-Real.log 6) := by
  have := C19_high_order .nu (by simp [PKComp.lowOrder]) (-3) 0 0 (by norm_num)
  simp only [docKernel] at this
  rw [show √((-3 : ℝ) ^ 2 + 0 ^ 2 + 0 ^ 2) = 3 by
    rw [show (-3 : ℝ) ^ 2 + 0 ^ 2 + 0 ^ 2 = 3 ^ 2 by norm_num]; exact Real.sqrt_sq (by norm_num)] at this
  rw [show docLn (-3) 3 = -Real.log 6 by unfold docLn; norm_num] at this
  exact this

/-! ## C20 the logarithmic kernels -/

/-- The logarithmic kernel whose logarithm runs along axis `a`, called with its axial coordinate `x`
and its two transverse coordinates `y`, `z`. -/
noncomputable def logKernel (a : Axis) (x y z : ℝ) : Py (Fl Exact) :=
  match a with
  | .e => callPrismKernel .nu x y z
  | .n => callPrismKernel .eu y x z
  | .u => callPrismKernel .en y z x

theorem logKernel_returns (a : Axis) {x y z : ℝ} (h : rad x y z ≠ 0) :
    Returns (logKernel a x y z) (Lk x y z) := by
  unfold Returns
  cases a <;> simp only [logKernel, callPrismKernel_eq, prismKernel]
  · rw [Ex.kernel_nu_fin h]
  · rw [Ex.kernel_eu_fin (by rwa [rad_perm1 x y z])]
  · rw [Ex.kernel_en_fin (by rwa [rad_perm3 x y z])]

/-- Even in each transverse coordinate. -/
theorem C20_even (a : Axis) (x y z : ℝ) :
    logKernel a x (-y) z = logKernel a x y z ∧ logKernel a x y (-z) = logKernel a x y z := by
  by_cases h : rad x y z = 0
  · obtain ⟨rfl, rfl, rfl⟩ := rad_eq_zero.mp h
    simp
  · have h1 := logKernel_returns a h
    have h2 := logKernel_returns a (x := x) (y := -y) (z := z) (by rwa [rad_neg2])
    have h3 := logKernel_returns a (x := x) (y := y) (z := -z) (by rwa [rad_neg3])
    rw [Lk_neg2] at h2
    rw [Lk_neg3] at h3
    unfold Returns at h1 h2 h3
    rw [h1, h2, h3]
    exact ⟨rfl, rfl⟩

/-- Off the axis, strictly increasing with the transverse distance. -/
theorem C20_transverse (a : Axis) (x y z y' z' : ℝ) (h0 : ¬(y = 0 ∧ z = 0))
    (h : y ^ 2 + z ^ 2 < y' ^ 2 + z' ^ 2) :
    ∃ v v', Returns (logKernel a x y z) v ∧ Returns (logKernel a x y' z') v' ∧ v < v' := by
  have h0' : ¬(y' = 0 ∧ z' = 0) := by
    rintro ⟨rfl, rfl⟩; nlinarith [sq_nonneg y, sq_nonneg z]
  refine ⟨_, _, logKernel_returns a (by rw [Ne, rad_eq_zero]; tauto),
    logKernel_returns a (by rw [Ne, rad_eq_zero]; tauto), ?_⟩
  rw [Lk_eq_log h0, Lk_eq_log h0']
  apply Real.log_lt_log (add_rad_pos h0)
  have : rad x y z < rad x y' z' := Real.sqrt_lt_sqrt (by positivity) (by linarith)
  linarith

/-- The same starting from the axis itself, on its positive half. -/
theorem C20_transverse_axis (a : Axis) (x y' z' : ℝ) (hx : 0 < x) (h : ¬(y' = 0 ∧ z' = 0)) :
    ∃ v v', Returns (logKernel a x 0 0) v ∧ Returns (logKernel a x y' z') v' ∧ v < v' := by
  have hr : rad x 0 0 = x := by unfold rad; rw [← Real.sqrt_sq hx.le]; congr 1; simp [hx.le]
  refine ⟨_, _, logKernel_returns a (by rw [hr]; exact hx.ne'),
    logKernel_returns a (by rw [Ne, rad_eq_zero]; tauto), ?_⟩
  rw [Lk_axis_nonneg hx.le, Lk_eq_log h]
  apply Real.log_lt_log (by linarith)
  have := abs_lt_rad (x := x) h
  rw [abs_of_pos hx] at this
  linarith

/-- Off the axis, strictly increasing with the axial coordinate. -/
theorem C20_axial (a : Axis) (x x' y z : ℝ) (h0 : ¬(y = 0 ∧ z = 0)) (h : x < x') :
    ∃ v v', Returns (logKernel a x y z) v ∧ Returns (logKernel a x' y z) v' ∧ v < v' := by
  refine ⟨_, _, logKernel_returns a (by rw [Ne, rad_eq_zero]; tauto),
    logKernel_returns a (by rw [Ne, rad_eq_zero]; tauto), ?_⟩
  rw [Lk_eq_log h0, Lk_eq_log h0]
  apply Real.log_lt_log (add_rad_pos h0)
  -- (x' - x) > |r - r'|
  have h1 := rad_sq x y z
  have h2 := rad_sq x' y z
  have h3 := abs_lt_rad (x := x) h0
  have h4 := abs_lt_rad (x := x') h0
  have h5 := abs_lt.mp h3
  have h6 := abs_lt.mp h4
  by_contra hc
  have hc' : x' - x ≤ rad x y z - rad x' y z := by linarith
  have h7 : (rad x y z - rad x' y z) * (rad x y z + rad x' y z) = -(x' - x) * (x' + x) := by nlinarith
  have h8 : 0 < rad x y z + rad x' y z := by
    have := rad_pos (x := x) (y := y) (z := z) (by tauto)
    have := rad_nonneg x' y z
    linarith
  nlinarith

example : ¬((1 : ℝ) = 0 ∧ (0 : ℝ) = 0) ∧ (1 : ℝ) ^ 2 + 0 ^ 2 < 2 ^ 2 + 1 ^ 2 := by norm_num

/-! ## C26 the tensor is NaN exactly at the documented singular points -/

/-- On the singular set the function returns NaN. -/
theorem C26_nan {P : Box} (hP : P.Ordered) (c : GComp) (p : Pt) (ρ : ℝ) (h : p ∈ P.singular c) :
    ReturnsNaN (onPrism (A := Exact) (prismGravity c) p P ρ) :=
  Ex.gravity_returns_nan hP h ρ

/-- Everywhere else it returns a finite number. -/
theorem C26_finite {P : Box} (hP : P.Ordered) (c : GComp) (p : Pt) (ρ : ℝ) (h : p ∉ P.singular c) :
    ReturnsFinite (onPrism (A := Exact) (prismGravity c) p P ρ) :=
  ⟨_, Ex.gravity_returns hP h ρ⟩

/-- NaN exactly on the singular set; it never raises. -/
theorem C26_nan_iff {P : Box} (hP : P.Ordered) (c : GComp) (p : Pt) (ρ : ℝ) :
    (ReturnsNaN (onPrism (A := Exact) (prismGravity c) p P ρ) ↔ p ∈ P.singular c) ∧
    ¬ RaisesZeroDivision (onPrism (A := Exact) (prismGravity c) p P ρ) := by
  unfold ReturnsNaN RaisesZeroDivision
  rw [Ex.gravity_eval hP]
  split_ifs with h
  · exact ⟨⟨fun _ => h, fun _ => rfl⟩, fun h => by cases h⟩
  · refine ⟨⟨fun h' => absurd (Except.ok.inj h') (Ex.fin_ne_nan _), fun h' => absurd h' h⟩,
      fun h => by cases h⟩

example : ((0, 0, 1) : Pt) ∈ (⟨0, 2, 0, 2, 0, 2⟩ : Box).singular .ee ∧
    ((0, 0, 1) : Pt) ∉ (⟨0, 2, 0, 2, 0, 2⟩ : Box).singular .eu := by
  norm_num [Box.singular, Box.edgesE, Box.edgesN, Box.edgesU]

/-! ## C38 the magnetic functions are NaN exactly on edges and in the interior -/

theorem inside_eq_interior (P : Box) : P.inside = interior P.region := by
  unfold Box.region
  rw [interior_prod_eq, interior_prod_eq, interior_Icc, interior_Icc, interior_Icc]; rfl

/-- Each scalar function: NaN exactly on edges and in the interior, never raises. -/
theorem C38_nan_iff {P : Box} (hP : P.Ordered) (c : MComp) (p : Pt) (Me Mn Mu : ℝ) :
    (ReturnsNaN (onPrism (A := Exact) (prismMagnetic c) p P Me Mn Mu) ↔
      p ∈ P.edges ∨ p ∈ interior P.region) ∧
    ¬ RaisesZeroDivision (onPrism (A := Exact) (prismMagnetic c) p P Me Mn Mu) := by
  unfold ReturnsNaN RaisesZeroDivision
  rw [Ex.magnetic_eval hP, ← inside_eq_interior]
  split_ifs with h
  · exact ⟨⟨fun _ => h, fun _ => rfl⟩, fun h => by cases h⟩
  · refine ⟨⟨fun h' => absurd (Except.ok.inj h') (Ex.fin_ne_nan _), fun h' => absurd h' h⟩,
      fun h => by cases h⟩

/-- Everywhere else finite. -/
theorem C38_finite {P : Box} (hP : P.Ordered) (c : MComp) (p : Pt) (Me Mn Mu : ℝ)
    (h : p ∉ P.edges) (h' : p ∉ interior P.region) :
    ReturnsFinite (onPrism (A := Exact) (prismMagnetic c) p P Me Mn Mu) :=
  ⟨_, Ex.magnetic_returns hP h (by rwa [inside_eq_interior]) Me Mn Mu⟩

end Choclo
