import Verif.Props.Ball
import Verif.Props.Decay
import Verif.Props.Depth
import Verif.Props.Dipole
import Verif.Props.EquivSource
import Verif.Props.ErrorPrism
import Verif.Props.Euler
import Verif.Props.FaceCharge
import Verif.Props.FaceValues
import Verif.Props.FarField
import Verif.Props.FiniteDiff
import Verif.Props.Flux
import Verif.Props.HalfSpace
import Verif.Props.Layer
import Verif.Props.LawsDouble
import Verif.Props.Mutual
import Verif.Props.Ordering
import Verif.Props.Path
import Verif.Props.Peak
import Verif.Props.Plane
import Verif.Props.Point
import Verif.Props.PrismBounds
import Verif.Props.PrismCalc
import Verif.Props.PrismIntegral
import Verif.Props.PrismLaplace
import Verif.Props.PrismMagCalc
import Verif.Props.PrismPoints
import Verif.Props.PrismSym
import Verif.Props.Quadrupole
import Verif.Props.Reversed
import Verif.Props.Shape
import Verif.Props.Slab
import Verif.Props.Smooth
import Verif.Props.Spectrum
import Verif.Props.Stability
import Verif.Props.Survey
import Verif.Props.TensorSigns
import Verif.Props.TwoD
import Verif.Props.Uniqueness
import Verif.Props.Uniqueness2
import Verif.Props.Uniqueness3
import Verif.Props.Warranted
import Verif.Props.Independence
import Verif.Props.Independence2
import Verif.Props.Models
import Verif.Props.Design

/-! # The theorems applied to concrete data

Each `example` applies one theorem to the prism `[-1, 1] × [-1, 1] × [-2, 0]`, the observation point `(0, 0, 9)` above it
(or a point on its top face, or inside), a point source at `(1, 2, -3)`, and so on: the hypotheses of the theorems are
met by ordinary data. -/

namespace Choclo.Witness

open Choclo

/-- observation point above the prism -/
abbrev obs : Pt := (0, 0, 9)

/-- point source -/
abbrev src : Pt := (1, 2, -3)

theorem obs_ne : obs ≠ src := by norm_num [obs, src]

theorem obs_off : obs ∉ exBox.region := by norm_num [obs, Box.region, exBox]

theorem obs_edges : obs ∉ exBox.edges := exterior_edges exBox_ordered obs_off

theorem obs_singular (c : GComp) : obs ∉ exBox.singular c := exterior_singular exBox_ordered obs_off c

theorem obs_inside : obs ∉ exBox.inside := by norm_num [obs, Box.inside, exBox]

theorem obs_interior : obs ∉ interior exBox.region := fun h => obs_off (interior_subset h)

/-- a point on the top face -/
abbrev top : Pt := (0, 0, 0)

theorem top_face : top ∈ exBox.faceHi .u := by norm_num [top, Box.faceHi, Box.faceTop, exBox]

theorem top_faces : top ∈ exBox.faces := by norm_num [top, Box.faces, Box.faceTop, exBox]

/-- the centre of the top face, half a metre lower: inside the prism -/
noncomputable abbrev within : Pt := (0, 0, -1/2)

theorem obs_far : ∀ q ∈ exBox.region, 9 ≤ dist3 obs q := by
  rintro ⟨e, n, u⟩ ⟨-, -, h⟩
  have h : u ≤ 0 := h.2
  unfold dist3
  refine Real.le_sqrt_of_sq_le ?_
  show (9 : ℝ) ^ 2 ≤ (0 - e) ^ 2 + (0 - n) ^ 2 + (9 - u) ^ 2
  nlinarith [sq_nonneg (0 - e), sq_nonneg (0 - n)]

theorem obs_halfDiagonal : exBox.halfDiagonal < dist3 obs exBox.centrePt := by
  unfold Box.halfDiagonal dist3
  norm_num [Box.centrePt, Box.centre, Box.lo, Box.hi, exBox, obs]
  rw [show (100 : ℝ) = 10 ^ 2 by norm_num, Real.sqrt_sq (by norm_num), div_lt_iff₀ (by norm_num), Real.sqrt_lt' (by norm_num)]
  norm_num

/-! ### Point masses and dipoles -/

example := C05_kernel_pot obs src obs_ne
example := C05_kernels_are_derivatives .e .en .n rfl obs src obs_ne
example := C06_laplace .eee .nne .uue (by simp) obs src obs_ne
example := C08_gravity_derivatives .e .eu .u rfl obs src obs_ne 5
example := C09_potential obs src obs_ne 5
example := C09_newton obs src obs_ne 5
example := C10_linear .nu obs src obs_ne 5 (-7) 2 3
example := C10_exchange .nu obs src obs_ne 5
example := C11_homogeneity .nu obs src obs_ne 5 3 (by norm_num)
example := C12_rotation 1 (one_mem _) obs src obs_ne 5
example := C15_minus_gradient .u obs src obs_ne (1, 2, 3)
example := C15_point_kernels .u obs src obs_ne (1, 2, 3)
example := C16_div_curl_free obs src obs_ne (1, 2, 3)
example := C17_linear .u obs src obs_ne (1, 2, 3) (0, -1, 4) 2 3
example := C17_homogeneity .u obs src obs_ne (1, 2, 3) 3 (by norm_num)
example := C17_reciprocity obs src obs_ne (1, 2, 3) (0, -1, 4)
example := C71_dipole obs src (1, 2, 3) obs_ne
example := C71_point_tensor .e .u obs src obs_ne 5
example := C92_point .nu obs src obs_ne 5
example := C92_dipole .n obs src obs_ne (1, 2, 3)
example := C96_euler_gravity obs src obs_ne 5
example := C96_euler_kernels obs src obs_ne
example := C96_source obs src obs_ne (m := 5) (by norm_num)
example := C96_invariants obs src obs_ne 5
example := C96_dipole obs src obs_ne (1, 2, 3)
example := C96_euler_dipole .u src (0, 0, 1) (1, 2, 3) (by norm_num) (s := 4) (by norm_num)

/-! ### Gravity of a prism -/

example := C18_cover exBox_ordered
example := C18_partition exBox_proper
example := C20_transverse .u 1 1 0 2 3 (by norm_num) (by norm_num)
example := C20_transverse_axis .u 1 2 3 (by norm_num) (by norm_num)
example := C20_axial .u 1 2 1 0 (by norm_num) (by norm_num)
example := C21_point_integral exBox_ordered obs 2670
example := C21_newton_integral exBox_ordered obs 2670
example := C22_point_integral exBox_ordered .u obs 2670
example := C22_newton_integral exBox_ordered .u obs 2670
example := C23_point_integral exBox_ordered .e .u obs obs_off 2670
example := C25_face_hi exBox_ordered .u (by norm_num [Box.lo, Box.hi, exBox]) top top_face 2670
example := C25_off_diagonal exBox_ordered .e .u (by decide) obs (obs_singular _) 2670
example := C26_finite exBox_ordered .uu obs 2670 (obs_singular _)
example := C27_laplace_poisson exBox_proper obs obs_edges 2670
example := C28_face_limit exBox_proper top top_faces .u 2670
example := C28_approachable exBox_proper top top_faces
example := C30_cut_off_plane exBox_ordered .uu .u (m := -1) (by norm_num [Box.lo, Box.hi, exBox]) obs 2670 (obs_singular _)
  (by norm_num [Pt.coord, Pt.u])
example := C30_cut_field exBox_ordered .u (by decide) .u (m := -1) (by norm_num [Box.lo, Box.hi, exBox]) obs 2670
example := C31_gravity exBox_ordered .uu obs (5, 6, 7) 2670
example := C33_mirror exBox_ordered .eu .e obs 2670
example := C34_gravity exBox_ordered .eu (l := 3) (by norm_num) obs 2670
example := C35_potential_positive exBox_proper obs (ρ := 2670) (by norm_num)
example := C35_attractive exBox_proper .u obs (ρ := 2670) (by norm_num)
example := C36_acceleration exBox_ordered obs (ρ := 2670) (by norm_num) (d := 9) (by norm_num) obs_far
example := C53_far_field exBox_ordered obs 2670 obs_halfDiagonal
example := C67_acceleration exBox_ordered .u obs 2670 obs_halfDiagonal
example := C67_tensor exBox_ordered .u .u obs 2670 obs_halfDiagonal
example := C115_potential exBox_ordered obs 2670 obs_halfDiagonal
example := C115_acceleration exBox_ordered .u obs 2670 obs_halfDiagonal
example := C115_cube exBox_ordered (by norm_num [exBox]) (by norm_num [exBox]) obs 2670 obs_halfDiagonal
example := C71_prism_tensor exBox_ordered .e .u obs 2670 (d := 9) (by norm_num) obs_far
example := C72_bound exBox_ordered .u obs 2670
example := C73_inclusion (Q := ⟨-2, 1, -1, 1, -2, 0⟩) exBox_ordered (by norm_num [Box.Ordered])
  (fun q h => ⟨⟨by have := h.1.1; simp only [exBox] at this; linarith, h.1.2⟩, h.2⟩) obs (ρ := 1) (σ := 2) (by norm_num) (by norm_num)
example := C73_axis exBox_proper .u obs (ρ := 1) (by norm_num) 1 5
example := C73_maximum exBox_proper obs (by norm_num [obs, Box.centrePt, Box.centre, Box.lo, Box.hi, exBox]) (ρ := 1) (by norm_num)
example := C74_off_diagonal exBox_ordered (a := .e) (b := .u) (by decide) 2670
example := C74_jump exBox_proper .u top (.inl top_face) 2670
example := C74_magnetic_face exBox_proper top top_faces .uu (1, 2, 3)
example := C91_gravity_hi exBox_ordered .uu .u (by norm_num [Box.lo, Box.hi, exBox]) obs obs_off 2670
example := C91_gravity_lo exBox_ordered .uu .u (by norm_num [Box.lo, Box.hi, exBox]) obs obs_off 2670
example := C93_gravity .uu ⟨1, -1, -1, 1, -2, 0⟩ obs (by
  intro h
  have := (isClosed_region _).frontier_subset h
  norm_num [Box.sorted, Box.region, obs] at this) 2670
example := C95_off_diagonal exBox_proper (a := .e) (b := .n) (by decide) (ρ := 2670) (by norm_num) (1, 1, -1)
  (C26_nan exBox_ordered _ _ _ (by norm_num [Box.singular, tensor, Box.edgesU, exBox]))
example := C97_between exBox_proper .u (ρ := 2670) (by norm_num) (5, 0, -1) (by norm_num [Box.lo, exBox, Pt.coord, Pt.u])
  (by norm_num [Box.hi, exBox, Pt.coord, Pt.u])
example := C109_acceleration exBox_ordered .u obs 2670
example := C109_bound exBox_proper .u obs (obs_singular _) 2670

/-! ### Magnetic field of a prism -/

/-- a magnetization -/
abbrev mag : Vec := (1, 2, 3)

example := C31_magnetic exBox_ordered .eu obs (5, 6, 7) mag
example := C34_magnetic exBox_ordered .eu (l := 3) (by norm_num) obs mag
example := C38_finite exBox_ordered .eu obs 1 2 3 obs_edges obs_interior
example := C41_dipole_integral exBox_ordered .u obs obs_off mag
example := C42_traceless exBox_ordered obs mag obs_edges obs_inside
example := C43_gradient exBox_ordered .u .e obs obs_off mag
example := C46_mirror exBox_ordered .eu .e obs mag
example := C47_kernel_integral exBox_ordered .u .e obs obs_off mag
example := C68_dipole exBox_ordered .u obs mag obs_halfDiagonal
example := C68_gradient exBox_ordered .u .e obs mag obs_halfDiagonal
example := C71_prism_magnetic exBox_ordered obs mag (d := 9) (by norm_num) obs_far
example := C71_prism_gradient exBox_ordered .e .u obs mag (d := 9) (by norm_num) obs_far
example := C91_magnetic_hi exBox_ordered .u .u (by norm_num [Box.lo, Box.hi, exBox]) obs obs_off mag
example := C91_magnetic_lo exBox_ordered .u .u (by norm_num [Box.lo, Box.hi, exBox]) obs obs_off mag
example := C92_magnetic exBox_ordered .eu obs obs_off mag
example := C93_magnetic .eu ⟨1, -1, -1, 1, -2, 0⟩ obs (by norm_num [Box.sorted, Box.region, obs]) mag
example := C93_magnetic_inside .eu ⟨1, -1, -1, 1, -2, 0⟩ (by norm_num [Box.Ordered]) (0, 0, -1)
  (by rw [← inside_eq_interior]; norm_num [Box.sorted, Box.inside]) mag
example := C109_magnetic exBox_ordered .u obs obs_off mag
example := C109_magnetic_bound exBox_proper .u obs obs_edges obs_inside (0, 0, 3)
  (by intro b hb; cases b <;> first | rfl | exact absurd rfl hb)

/-! ### Balls, fluxes, paths, planes -/

example := C78_point_mass (R := 2) (by norm_num) .u obs (0, 0, 0) 2670
  (by unfold dist3; norm_num [obs]; exact (Real.lt_sqrt (by norm_num)).2 (by norm_num))
example := C78_inside (R := 9) (by norm_num) top (0, 0, 0) 2670 (by unfold dist3; norm_num [top])
example := C64_inside exBox_ordered (0, 0, -1) (by norm_num [Box.inside, exBox]) 5
example := C64_outside exBox_ordered obs obs_off 5
example := C65_contained exBox_ordered exBox_ordered subset_rfl 2670
example := C77_energy exBox_ordered demo_ordered 2670 1000
example := C77_third_law exBox_ordered demo_ordered 2670 1000 .u
example := C77_torque exBox_ordered demo_ordered 2670 1000 .u .e
example := C99_mean_value .u obs exBox 2670 (s := 1) (t := 5) (by norm_num)
example := C99_tensor_mean_value (P := exBox) .u .u obs exBox_ordered 2670 (s := 1) (t := 5) (by norm_num)
  (by rintro x ⟨h, -⟩ ⟨-, -, h'⟩; have h' : x ≤ 0 := h'.2; linarith)
example := C99_magnetic_mean_value (P := exBox) .u .u obs exBox_ordered mag (s := 1) (t := 5) (by norm_num)
  (by rintro x ⟨h, -⟩ ⟨-, -, h'⟩; have h' : x ≤ 0 := h'.2; linarith)
example := C133_prism exBox_ordered .u 1 2670
example := C133_nested exBox_ordered .u (t := 1) (ρ := 2670) (by norm_num [Box.hi, exBox]) (by norm_num)
  (S := {s | s.1 < 0}) (T := {s | s.1 < 1}) (fun s h => lt_trans (b := (0 : ℝ)) h (by norm_num))
example := C133_kernel .u 1 src (by norm_num [src, Pt.coord, Pt.u]) .uuu (by decide)
example := C134_point (a := .u) (t := 0) .uu (q := src) (by norm_num [src, Pt.coord, Pt.u]) 5
example := C134_kernel (a := .u) (t := 0) .uuu (q := src) (by norm_num [src, Pt.coord, Pt.u])
example := C134_dipole (a := .u) (t := 0) .e (q := src) (by norm_num [src, Pt.coord, Pt.u]) mag
example := C134_magnetic (a := .u) (t := 1) exBox_ordered .eu (by norm_num [Box.hi, exBox]) mag
example := C135_point (a := .u) (t := 0) (q := src) (by norm_num [src, Pt.coord, Pt.u]) 5
example := C135_prism (a := .u) (t := 0) exBox_ordered (by norm_num [Box.hi, exBox]) 2670
example := C135_dipole (a := .u) (t := 0) (q := src) (by norm_num [src, Pt.coord, Pt.u]) mag
example := C135_magnetic (a := .u) (t := 1) exBox_ordered (by norm_num [Box.hi, exBox]) mag
example := C136_point (a := .u) (t := 0) (q := src) (by norm_num [src, Pt.coord, Pt.u]) 5
example := C136_prism (a := .u) (t := 0) exBox_ordered (by norm_num [Box.hi, exBox]) 2670
example := C136_continuation (a := .u) (t := 0) exBox_ordered (by norm_num [Box.hi, exBox]) (t' := 4) (by norm_num) 2670
example := C140_point (a := .u) (t := 0) (q := src) (by norm_num [src, Pt.coord, Pt.u]) (R := 7) (by norm_num) 5
example := C141_prisms (a := .u) (h := 9) (p := obs) (ι := Fin 2) (P := fun _ => exBox) (ρ := ![2670, 300])
  (fun _ => exBox_ordered) (by intro i; fin_cases i <;> norm_num) (by norm_num)
  (fun _ => by norm_num [Box.hi, exBox, obs, Pt.coord, Pt.u])
example := C141_points (a := .u) (h := 9) (p := obs) (ι := Fin 2) (q := ![src, (0, 0, 0)]) (m := ![5, 7])
  (by intro i; fin_cases i <;> norm_num) (by norm_num)
  (by intro i; fin_cases i <;> norm_num [src, obs, Pt.coord, Pt.u])

theorem two_feet : Function.Injective (![(0, 0), (1, 2)] : Fin 2 → ℝ × ℝ) := by
  intro i j h
  fin_cases i <;> fin_cases j <;> simp_all

example := C142_definite (a := .u) (t := 5) (h := 2) two_feet (by norm_num) (m := ![1, -1])
  (fun h => one_ne_zero (congrFun h 0))
example := C142_unique (a := .u) (t := 5) (h := 2) two_feet (by norm_num) (c := .u) (.inr (.inl rfl)) ![7, 8]
example := C142_kernel (a := .u) (t := 5) (h := 2) two_feet (by norm_num) (c := .u) (.inr (.inl rfl)) ![7, 8]
example := C142_dipole (a := .u) (t := 5) (h := 2) two_feet (by norm_num) ![7, 8]

/-! ### Uniqueness and independence -/

theorem univ_off (B : Box) : ∃ q ∈ (Set.univ : Set Pt), q ∉ B.region :=
  ⟨(B.east + 1, 0, 0), trivial, fun h => by have h : B.east + 1 ≤ B.east := h.1.2; linarith⟩

example := C116_visible exBox_proper .uu (ρ := 2670) (by norm_num) Set.univ isOpen_univ (univ_off exBox)
example := C116_gravity_unique exBox_proper exBox_proper .uu (ρ := 2670) (σ := 2670) (by norm_num) (by norm_num) Set.univ isOpen_univ
  (by obtain ⟨q, h, h'⟩ := univ_off exBox; exact ⟨q, h, h', h'⟩) (fun _ _ _ _ => rfl)
example := C118_visible exBox_proper .eu (M := mag) (by norm_num [mag]) Set.univ isOpen_univ (univ_off exBox)
example := C117_point .uu src src (m := 5) (m' := 5) (by norm_num) Set.univ isOpen_univ ⟨obs, trivial, obs_ne, obs_ne⟩
  (fun _ _ _ _ => rfl)
example := C117_prism_not_point exBox_proper .uu (ρ := 2670) (by norm_num) src 5 Set.univ isOpen_univ ⟨obs, trivial, obs_off, obs_ne⟩
example := C117_prism_not_dipole exBox_proper (M := mag) (by norm_num [mag]) src mag Set.univ isOpen_univ ⟨obs, trivial, obs_off, obs_ne⟩
example := C118_prism_not_dipole exBox_proper .e (M := mag) (by norm_num [mag]) src mag Set.univ isOpen_univ
  ⟨obs, trivial, obs_off, obs_ne⟩

/-- two prisms side by side -/
def pair : Fin 2 → Box := ![⟨-1, 1, -1, 1, -2, 0⟩, ⟨1, 3, -1, 1, -2, 0⟩]

/-- a box around them -/
def hull : Box := ⟨-1, 3, -1, 1, -2, 0⟩

theorem pair_proper (i : Fin 2) : (pair i).Proper := by
  fin_cases i <;> norm_num [pair, Box.Proper]

theorem pair_disjoint : Pairwise fun i j => Disjoint (pair i).inside (pair j).inside := by
  intro i j h
  rw [Set.disjoint_left]
  fin_cases i <;> fin_cases j <;> first | exact absurd rfl h | skip
  · rintro q ⟨⟨-, h1⟩, -⟩ ⟨⟨h2, -⟩, -⟩
    exact absurd (lt_trans (h2 : (1 : ℝ) < q.1) (h1 : q.1 < (1 : ℝ))) (lt_irrefl _)
  · rintro q ⟨⟨h2, -⟩, -⟩ ⟨⟨-, h1⟩, -⟩
    exact absurd (lt_trans (h2 : (1 : ℝ) < q.1) (h1 : q.1 < (1 : ℝ))) (lt_irrefl _)

theorem pair_hull (i : Fin 2) : (pair i).region ⊆ hull.region := by
  rintro q ⟨⟨h1, h2⟩, h3, h4⟩
  fin_cases i
  · exact ⟨⟨h1, le_trans (h2 : q.1 ≤ (1 : ℝ)) (by norm_num [hull, pair])⟩, h3, h4⟩
  · exact ⟨⟨le_trans (by norm_num [hull, pair]) (h1 : (1 : ℝ) ≤ q.1), h2⟩, h3, h4⟩

example := C123_jacobian pair_proper pair_disjoint pair_hull isOpen_univ (univ_off hull)
example := C124_points pair_proper pair_disjoint .eu pair_hull isOpen_univ (univ_off hull)
example := C126_density (ρ := ![1, 2]) (σ := ![1, 2]) pair_proper pair_proper .uu pair_hull pair_hull isOpen_univ (univ_off hull)
example := C126_magnetization (M := ![mag, mag]) (N := ![mag, mag]) pair_proper pair_proper .eu pair_hull pair_hull isOpen_univ
  (univ_off hull)
example := C125_points .uu (q := ![src, obs]) (by intro i j h; fin_cases i <;> fin_cases j <;> simp_all [obs, src]) isOpen_univ
  Set.univ_nonempty
example := C127_few (N := 1) (fun i => (pair_proper i).ordered) (fun _ => obs) (by norm_num)
example := C127_dense pair_proper pair_disjoint pair_hull (N := 2) le_rfl (q := fun _ => obs)
  (fun _ => by norm_num [hull, Box.region, obs]) (ε := 1) (by norm_num)

end Choclo.Witness
