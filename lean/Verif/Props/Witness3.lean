import Verif.Props.Witness2
import Verif.Props.EdgeField
import Verif.Props.EdgeGradient
import Verif.Props.Grid

/-! # The theorems applied to concrete data, continued -/

namespace Choclo.Witness

open Choclo userguide

/-! ### Balls and boxes -/

theorem near_ball : Disjoint (ball3 (5, 0, 0) 1) exBox.region := by
  rw [Set.disjoint_left]
  rintro q h ⟨⟨-, h1⟩, -⟩
  have h : dist3 q (5, 0, 0) ≤ 1 := by first | exact h | (rw [dist3_comm]; exact h)
  have h1 : q.1 ≤ 1 := h1
  unfold dist3 at h
  rw [Real.sqrt_le_left (by norm_num)] at h
  simp only [Pt.e, Pt.n, Pt.u] at h
  nlinarith [sq_nonneg (q.2.1 - 0), sq_nonneg (q.2.2 - 0)]

example := C78_volume (R := 2) (by norm_num) (1, 2, 3)
example := C78_surface (R := 9) (by norm_num) obs (0, 0, 0) 2670
  (by unfold dist3; norm_num [obs, Pt.e, Pt.n, Pt.u]; rw [show (81 : ℝ) = 9 ^ 2 by norm_num, Real.sqrt_sq (by norm_num)])
example := C78_dipole (R := 2) (by norm_num) .u obs (0, 0, 0) mag
  (by unfold dist3; norm_num [obs]; exact (Real.lt_sqrt (by norm_num)).2 (by norm_num))
example := C78_kernel (R := 2) (by norm_num) .uuu obs (0, 0, 0)
  (by unfold dist3; norm_num [obs]; exact (Real.lt_sqrt (by norm_num)).2 (by norm_num))
example := C79_gravity exBox_ordered .uu (5, 0, 0) (R := 1) (by norm_num) near_ball 2670
example := C79_magnetic exBox_ordered .uu (5, 0, 0) (R := 1) (by norm_num) near_ball mag
example := C79_strength exBox_ordered (5, 0, 0) (R := 1) (by norm_num) near_ball 2670 mag
example := C65_gauss exBox_ordered demo_ordered 2670
example := C77_no_self_force exBox_ordered 2670 .u
example := C69_potential_continuous exBox_ordered 2670
example := C69_acceleration_continuous exBox_ordered .u 2670
example := C69_total_derivative exBox_ordered 2670
example := C69_tensor_continuous exBox_ordered .u .e 2670
example := C69_magnetic_continuous exBox_ordered .uu mag
example := C99_lipschitz exBox_ordered obs src 2670
example := C74_diagonal exBox_ordered .u 2670
example := C74_approachable exBox_proper top (by norm_num [Box.region, exBox, top])
example := C109_tensor exBox_ordered .u .e obs (by norm_num [Box.closedFaces, obs_off]) 2670
example := C25_diagonal exBox_ordered .u obs (by norm_num [Box.closedFaces, obs_off]) 2670
example := C25_face_lo exBox_ordered .u (by norm_num [Box.lo, Box.hi, exBox]) (0, 0, -2)
  (by norm_num [Box.faceLo, Box.faceBottom, exBox]) 2670
example := C29_smul exBox_ordered .uu obs 3 2670
example := C32_magnetic exBox_ordered .uu .en obs mag
example := C38_nan_iff exBox_ordered .uu obs 1 2 3
example := C44_smul exBox_ordered .uu obs 3 mag
example := C133_point .u 1 src (by norm_num [src, Pt.coord, Pt.u]) 5
example := C133_part exBox_ordered .u 1 2670 {s | s.1 < 0}
example := C134_weights (a := .u) (t := 0) (p := obs) (by norm_num [obs, Pt.coord, Pt.u])
example := C136_closed (a := .u) (t := 0) exBox_ordered (by norm_num [Box.hi, exBox]) 2670
example := C141_sharp (a := .u) (h := 3) (by norm_num) src 5
example := C141_sharp_sideways (a := .u) (h := 3) (b := .e) (by decide) (by norm_num) src 5
example := C93_potential_acceleration .u (by decide) ⟨1, -1, -1, 1, -2, 0⟩ obs 2670
example := C92_gravity exBox_ordered .uu obs (fun h => obs_off ((isClosed_region _).frontier_subset h)) 2670
example := C97_off_diagonal exBox_proper (a := .e) (b := .u) (by decide) 2670 obs
  (fun h => obs_singular _ ((C26_nan_iff exBox_ordered _ obs 2670).1.1 h))
example := C123_overlap exBox_ordered .uu .u (m := -1) (by norm_num [Box.lo, Box.hi, exBox]) obs_off

/-- with two prisms, `g` of the one is the sum over both when the other has density zero -/
example := C29_add exBox_ordered .uu obs 1 2 _ _ (C26_finite exBox_ordered .uu obs 1 (obs_singular _)).choose_spec
  (C26_finite exBox_ordered .uu obs 2 (obs_singular _)).choose_spec
example := C40_poisson exBox_ordered .u obs mag 2670 _ (C38_finite exBox_ordered .u obs 1 2 3 obs_edges obs_interior).choose_spec
example := C44_add exBox_ordered .uu obs (1, 2, 3) (1, 2, 3) _ _ (C38_finite exBox_ordered .uu obs 1 2 3 obs_edges obs_interior).choose_spec
  (C38_finite exBox_ordered .uu obs 1 2 3 obs_edges obs_interior).choose_spec

/-- a flat prism -/
def flat : Box := ⟨-1, 1, -1, 1, 0, 0⟩

theorem flat_ordered : flat.Ordered := by norm_num [flat, Box.Ordered]

theorem flat_off : obs ∉ flat.region := by norm_num [obs, Box.region, flat]

example := C37_zero flat_ordered (a := .u) rfl .uu obs 2670 (exterior_singular flat_ordered flat_off _)
  (.inr (by intro b; cases b <;> norm_num [Box.faceHi, Box.faceTop, Box.faceEast, Box.faceNorth, flat, obs]))
example := C37_zero_off_normal flat_ordered (a := .u) rfl .eu obs 2670 (exterior_singular flat_ordered flat_off _) (by decide)
example := C37_flat_face flat_ordered (a := .u) rfl (0, 0, 0) 2670 (by norm_num [Box.faceHi, Box.faceTop, flat])

/-! ### The peak -/

example := C114_sideways exBox_proper (a := .u) (b := .e) (by decide) obs
  (by norm_num [obs, Pt.coord, Pt.u, Box.centre, Box.lo, Box.hi, exBox]) (ρ := 2670) (by norm_num) (s := 0) (t := 3)
  (by norm_num [Box.centre, Box.lo, Box.hi, exBox])
example := C114_between exBox_proper .u obs (ρ := 2670) (by norm_num) (s := -1) (t := 0)
  (by norm_num [Box.lo, Box.hi, exBox]) (by norm_num [Box.centre, Box.lo, Box.hi, exBox])
example := C114_beyond exBox_proper .u obs
  (by intro b hb; cases b <;> first | exact absurd rfl hb | norm_num [Box.lo, Box.hi, exBox, obs, Pt.coord, Pt.e, Pt.n])
  (ρ := 2670) (by norm_num) (s := 0) (t := 5) (.inr (by norm_num [Box.hi, exBox]))
  (by norm_num [Box.centre, Box.lo, Box.hi, exBox, abs_of_pos])
example := C114_maximum exBox_proper .u obs (by norm_num [obs, Pt.set, Box.centrePt, Box.centre, Box.lo, Box.hi, exBox])
  (by norm_num [obs, Pt.set, Box.centrePt, Box.centre, Box.lo, Box.hi, exBox]) (ρ := 2670) (by norm_num)

/-! ### Uniqueness and independence -/

theorem pair_corners : Function.Injective fun i => (pair i).highCorner := by
  intro i j h
  fin_cases i <;> fin_cases j <;> first | rfl | (norm_num [pair, Box.highCorner] at h)

/-- the fields of equal densities agree -/
example := C123_corners pair_proper pair_corners .uu (ρ := ![1, 2]) (σ := ![1, 2]) pair_hull isOpen_univ (univ_off hull)
  (fun q _ hq => by
    have h : ∀ i, ∃ v, Returns (onPrism (A := Exact) (prismGravity .uu) q (pair i) (Fl.fin (![1, 2] i))) v := fun i =>
      C26_finite (pair_proper i).ordered _ _ _ (exterior_singular (pair_proper i).ordered (fun h => hq (pair_hull i h)) _)
    choose f hf using h
    exact ⟨f, f, hf, hf, rfl⟩)
example := C123_densities pair_proper pair_disjoint .uu (ρ := ![1, 2]) (σ := ![1, 2]) pair_hull isOpen_univ (univ_off hull)
  (fun q _ hq => by
    have h : ∀ i, ∃ v, Returns (onPrism (A := Exact) (prismGravity .uu) q (pair i) (Fl.fin (![1, 2] i))) v := fun i =>
      C26_finite (pair_proper i).ordered _ _ _ (exterior_singular (pair_proper i).ordered (fun h => hq (pair_hull i h)) _)
    choose f hf using h
    exact ⟨f, f, hf, hf, rfl⟩)
example := C124_corners pair_proper pair_corners .uu (M := fun _ => mag) (N := fun _ => mag) pair_hull isOpen_univ (univ_off hull)
  (fun q _ hq => by
    have h : ∀ i, ∃ v, Returns (onPrism (A := Exact) (prismMagnetic .uu) q (pair i) (Fl.fin (Pt.e mag)) (Fl.fin (Pt.n mag)) (Fl.fin (Pt.u mag))) v :=
      fun i => C38_finite (pair_proper i).ordered _ _ _ _ _ (exterior_edges (pair_proper i).ordered (fun h => hq (pair_hull i h)))
        (fun h => hq (pair_hull i (interior_subset h)))
    choose f hf using h
    exact ⟨f, f, hf, hf, rfl⟩)
example := C124_magnetizations pair_proper pair_disjoint .uu (M := fun _ => mag) (N := fun _ => mag) pair_hull isOpen_univ (univ_off hull)
  (fun q _ hq => by
    have h : ∀ i, ∃ v, Returns (onPrism (A := Exact) (prismMagnetic .uu) q (pair i) (Fl.fin (Pt.e mag)) (Fl.fin (Pt.n mag)) (Fl.fin (Pt.u mag))) v :=
      fun i => C38_finite (pair_proper i).ordered _ _ _ _ _ (exterior_edges (pair_proper i).ordered (fun h => hq (pair_hull i h)))
        (fun h => hq (pair_hull i (interior_subset h)))
    choose f hf using h
    exact ⟨f, f, hf, hf, rfl⟩)
example := C116_continuation exBox_ordered exBox_ordered .uu 2670 2670 Set.univ isOpen_univ ⟨obs, trivial, obs_off, obs_off⟩
  (fun _ _ _ _ => rfl) obs obs_off obs_off
example := C116_magnetic_continuation exBox_ordered exBox_ordered .uu mag mag Set.univ isOpen_univ ⟨obs, trivial, obs_off, obs_off⟩
  (fun _ _ _ _ => rfl) obs obs_off obs_off
example := C116_magnetic_unique exBox_proper exBox_proper (M := mag) (N := mag) (by norm_num [mag]) (by norm_num [mag]) Set.univ
  isOpen_univ ⟨obs, trivial, obs_off, obs_off⟩ (fun _ _ _ _ _ => rfl)
example := C117_dipole src src (m := mag) (m' := mag) (by norm_num [mag]) Set.univ isOpen_univ ⟨obs, trivial, obs_ne, obs_ne⟩
  (fun _ _ _ _ _ => rfl)
example := C118_prism exBox_proper exBox_proper .uu (M := mag) (N := mag) (by norm_num [mag]) (by norm_num [mag]) Set.univ
  isOpen_univ ⟨obs, trivial, obs_off, obs_off⟩ (fun _ _ _ _ => rfl)
example := C118_dipole .u src src (m := mag) (m' := mag) (by norm_num [mag]) Set.univ isOpen_univ ⟨obs, trivial, obs_ne, obs_ne⟩
  (fun _ _ _ _ => rfl)
example := C134_unique (a := .u) (t := 1) exBox_proper exBox_proper (by norm_num [Box.hi, exBox]) (by norm_num [Box.hi, exBox]) .uu
  (ρ := 2670) (σ := 2670) (by norm_num) (by norm_num) isOpen_univ Set.univ_nonempty (fun _ _ => rfl)
example := C134_magnetic_unique (a := .u) (t := 1) exBox_proper exBox_proper (by norm_num [Box.hi, exBox]) (by norm_num [Box.hi, exBox])
  (M := mag) (N := mag) (by norm_num [mag]) (by norm_num [mag]) isOpen_univ Set.univ_nonempty (fun _ _ _ => rfl)

/-! ### Edges -/

example := C105_unbounded (P := exBox) (a := .u) (b := .e) (c := .n) (by decide) (by decide) (by decide) exBox_proper (1, 1, -1)
  (by norm_num [Box.edgesAlong, Box.edgesU, exBox]) (1, 0, 0) (by norm_num [Pt.coord, Pt.e]) 1000 Set.univ Filter.univ_mem
example := C128_parallel exBox_proper .u (1, 1, -1) (by norm_num [Box.edgesAlong, Box.edgesU, exBox])
  (by intro b hb; cases b <;> first | exact absurd rfl hb | norm_num [Box.edgesAlong, Box.edgesE, Box.edgesN, exBox]) (0, 0, 3)
  (by intro b hb; cases b <;> first | exact absurd rfl hb | rfl) .e .n
example := C95_diagonal exBox_proper .u (ρ := 2670) (by norm_num) (1, 0, 0)
  (C26_nan exBox_ordered _ _ _ (by norm_num [Box.singular, tensor, Box.edgesE, Box.edgesN, exBox]))
example := C95_approachable exBox_proper .uu (ρ := 2670) (1, 0, 0)
  (C26_nan exBox_ordered _ _ _ (by norm_num [Box.singular, Box.edgesE, Box.edgesN, exBox]))

/-! ### Grids -/

/-- 2 × 3 × 4 unit cells -/
noncomputable def grid : Grid := ⟨fun i => i, fun i => i, fun i => i, 2, 3, 4⟩

theorem grid_valid : grid.Valid := ⟨Nat.mono_cast, Nat.mono_cast, Nat.mono_cast, by norm_num [grid], by norm_num [grid], by norm_num [grid]⟩

theorem grid_far : ∀ q ∈ grid.whole.region, (90 : ℝ) ≤ dist3 (0, 0, 100) q := by
  intro q hq
  apply Real.le_sqrt_of_sq_le
  have h1 := hq.2.2.2
  simp only [Grid.whole, grid] at h1
  push_cast at h1
  nlinarith [sq_nonneg (0 - q.e), sq_nonneg (0 - q.n), show (96 : ℝ) ≤ 100 - q.u by linarith]

theorem grid_fine : ∀ t ∈ grid.indices, (grid.cell t.1 t.2.1 t.2.2).halfDiagonal ≤ 1 := by
  intro t _
  unfold Box.halfDiagonal Grid.cell grid
  rw [div_le_iff₀ (by norm_num)]
  apply Real.sqrt_le_iff.mpr
  push_cast
  norm_num

theorem grid_off : ((0, 0, 100) : Pt) ∉ grid.whole.region := fun h => by
  have := grid_far _ h
  simp [dist3] at this
  linarith

example := C76_cells_field grid_valid .u (by decide) obs 2670
example := C76_cells_tensor grid_valid .uu (0, 0, 100) 2670 (.inl grid_off)
example := C76_cells_magnetic grid_valid .uu (0, 0, 100) mag grid_off
example := C76_points_potential grid_valid (0, 0, 100) 2670 grid_far grid_fine (by norm_num)
example := C76_points_acceleration grid_valid .u (0, 0, 100) 2670 grid_far grid_fine (by norm_num)
example := C76_points_tensor grid_valid .u .u (0, 0, 100) 2670 grid_far grid_fine (by norm_num)
example := C76_dipoles grid_valid .u (0, 0, 100) mag grid_far grid_fine (by norm_num)

/-! ### Paths: a circle of radius 2 above the prism -/

noncomputable def circle (t : ℝ) : Pt := (2 * Real.cos t, 2 * Real.sin t, 1)
noncomputable def velocity (t : ℝ) : Pt := (2 * -Real.sin t, 2 * Real.cos t, 0)

theorem circle_path : IsPath circle velocity 0 (2 * Real.pi) := by
  refine ⟨by positivity, by unfold circle; fun_prop, fun t _ => ?_, by unfold velocity; fun_prop⟩
  exact ((Real.hasDerivAt_cos t).const_mul 2).prodMk (((Real.hasDerivAt_sin t).const_mul 2).prodMk (hasDerivAt_const t 1))

theorem circle_off (t : ℝ) : circle t ∉ exBox.region := by
  rintro ⟨_, _, h⟩
  norm_num [exBox, circle] at h

theorem circle_ne (t : ℝ) : circle t ≠ top := by
  intro h
  norm_num [circle] at h

example := C70_prism_gravity exBox_ordered circle_path 2670
example := C70_prism_gravity_closed exBox_ordered circle_path (by simp [circle]) 2670
example := C70_point_gravity top circle_path (fun t _ => circle_ne t) 5
example := C70_prism_tensor exBox_ordered .u circle_path (fun t _ => circle_off t) 2670
example := C70_dipole top mag circle_path (fun t _ => circle_ne t)
example := C70_prism_magnetic exBox_ordered circle_path (fun t _ => circle_off t) mag

/-! ### Stability, long prisms, surveys -/

/-- the prism with its top face one metre higher -/
def higher : Box := ⟨-1, 1, -1, 1, -2, 1⟩

theorem higher_ordered : higher.Ordered := by norm_num [higher, Box.Ordered]

theorem higher_near : Box.Near 1 exBox higher := by norm_num [Box.Near, exBox, higher]

theorem higher_far : ∀ q ∈ exBox.region ∪ higher.region, 8 ≤ dist3 obs q := by
  rintro q (⟨_, _, _, h⟩ | ⟨_, _, _, h⟩) <;>
  · simp only [exBox, higher] at h
    refine Real.le_sqrt_of_sq_le ?_
    simp only [Pt.e, Pt.n, Pt.u]
    nlinarith [sq_nonneg (0 - q.1), sq_nonneg (0 - q.2.1)]

theorem near_pts : Pt.Near 1 obs (0, 1, 9) := by norm_num [Pt.Near, Pt.e, Pt.n, Pt.u, obs]

theorem higher_far' : ∀ q ∈ higher.region, 8 ≤ dist3 (0, 1, 9) q := by
  rintro q ⟨_, _, _, h⟩
  simp only [higher] at h
  refine Real.le_sqrt_of_sq_le ?_
  simp only [Pt.e, Pt.n, Pt.u]
  nlinarith [sq_nonneg (0 - q.1), sq_nonneg (1 - q.2.1)]

example := C119_volume exBox_ordered higher_ordered higher_near
example := C119_tensor exBox_ordered higher_ordered .u .u obs 2670 (d := 8) (by norm_num) higher_far
example := C119_magnetic exBox_ordered higher_ordered .u obs mag (d := 8) (by norm_num) higher_far
example := C119_gradient exBox_ordered higher_ordered .u .u obs mag (d := 8) (by norm_num) higher_far
example := C119_coordinates exBox_ordered higher_ordered near_pts higher_near 2670 (R := 10) (by norm_num) (by
  norm_num [Box.surfaceArea, Box.grow, exBox]
  nlinarith [Real.pi_gt_three])
example := C119_coordinates_off exBox_ordered higher_ordered near_pts higher_near .u .u 2670 mag (d := 8) (by norm_num)
  (fun q h => higher_far q (.inl h)) higher_far'
example := C119_largest exBox_ordered obs 2670 (R := 2) (by norm_num) (by
  norm_num [Box.volume, exBox]
  nlinarith [Real.pi_gt_three])

/-- a prism two kilometres long -/
def long : Box := ⟨-1, 1, -1000, 1000, -2, 0⟩

theorem long_ordered : long.Ordered := by norm_num [long, Box.Ordered]

theorem long_long : long.Long (0, 0, 3) 1000 := by norm_num [long, Box.Long, Pt.n]

theorem long_off : ((0, 0, 3) : Pt) ∉ long.region := by norm_num [long, Box.region]

example := C130_gravity long_ordered (0, 0, 3) (by norm_num) long_long 2670
example := C130_tensor long_ordered (0, 0, 3) long_off (by norm_num) long_long .u .u 2670
example := C130_magnetic long_ordered (0, 0, 3) long_off (by norm_num) long_long .u mag
example := C130_limit (w := -1) (e := 1) (b := -2) (t := 0) (by norm_num) (by norm_num) Filter.tendsto_neg_atTop_atBot Filter.tendsto_id
  (0, 0, 3) 2670 mag

theorem ex_feet : ∀ q ∈ exBox.region, Pt.foot .u q ∈ discAt (0, 0) 2 := by
  rintro q ⟨⟨h1, h2⟩, ⟨h3, h4⟩, -⟩
  simp only [exBox] at h1 h2 h3 h4
  show (q.e - 0) ^ 2 + (q.n - 0) ^ 2 ≤ 2 ^ 2
  nlinarith

example := C140_prism (a := .u) (t := 0) exBox_ordered (by norm_num [Box.hi, exBox]) (ρ := 2670) (d := 2) (R := 202) (by norm_num)
  (by norm_num) (by norm_num) ex_feet {s | s.1 < 100}
example := C140_enough (a := .u) (t := 0) exBox_ordered (by norm_num [Box.hi, exBox]) (ρ := 2670) (d := 2) (R := 202) (ε := 1 / 100)
  (by norm_num) (by norm_num) (by norm_num) (by norm_num [Box.lo, exBox]) ex_feet (Set.subset_univ _)

/-! ### The sphere, the user guide, types -/

example := C63_distance_spherical Binary64_accurate Binary64_trigAccurate
  (zpow_le_zpow_right₀ (by norm_num) (by norm_num)) 0 0 6371000 0 0 6372000 (by norm_num [GeographicAngles])
  (by norm_num [GeographicAngles]) ⟨by norm_num, by norm_num⟩ ⟨by norm_num, by norm_num⟩
  (moderate_of (by norm_num [abs_of_neg]) (by norm_num [abs_of_neg])) rfl

example := C100_coincident_gravity binary64_exactZero (number_fin 4.6) (number_fin (-8.9)) (number_fin (-50.3)) (SFl.fin 5)
example := C100_coincident_dipole binary64_exactZero (number_fin 4.6) (number_fin (-8.9)) (number_fin (-50.3)) (number_fin 1)
  (number_fin 2) (number_fin 3)
example := C85_entries (c := points (A := Binary64) ![obs, src, top]) (p := boxes demoBoxes) demo_distribution
example := C89_point_kernels (C := 1000) Binary64_exactInts (by norm_num) (by norm_num) (by norm_num) (Fl.fin 7)
example := C89_point_kernels_third (C := 1000) Binary64_exactInts (by norm_num) (by norm_num) (by norm_num) (Fl.fin 7)
example := C89_prism_kernels (C := 1000) Binary64_exactInts (by norm_num) (by norm_num) (by norm_num) (Fl.fin 7)
example := C89_prism_kernels_third (C := 1000) Binary64_exactInts (by norm_num) (by norm_num) (by norm_num) (Fl.fin 7)
example := C101_ge (130, 75, 5) (0, 0, -10)
  (by
    have k : (1000 : ℝ) ≤ 2 ^ 510 := le_trans (b := (2 : ℝ) ^ 10) (by norm_num) (pow_le_pow_right₀ (by norm_num) (by norm_num))
    intro a
    refine le_trans ?_ k
    cases a <;> norm_num [Pt.coord, Pt.e, Pt.n, Pt.u, abs_of_pos])
  (by
    have k : (2 : ℝ) ^ (-511 : ℤ) ≤ 1 := zpow_le_one_of_nonpos₀ (by norm_num) (by norm_num)
    intro a
    right
    refine k.trans ?_
    cases a <;> norm_num [Pt.coord, Pt.e, Pt.n, Pt.u, abs_of_pos])

end Choclo.Witness
