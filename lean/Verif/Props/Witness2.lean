import Verif.Props.Witness
import Verif.Props.Absorbed
import Verif.Props.Bits
import Verif.Props.Bits2
import Verif.Props.Bits3
import Verif.Props.DistanceDouble
import Verif.Props.ErrorBound
import Verif.Props.ErrorKernels
import Verif.Props.Infinite
import Verif.Props.Infinite2
import Verif.Props.Interp
import Verif.Props.Jacobian
import Verif.Props.JacobianLengths
import Verif.Props.Lengths
import Verif.Props.Mixed
import Verif.Props.MixedBits
import Verif.Props.MixedBits2
import Verif.Props.MixedNaN
import Verif.Props.NaN
import Verif.Props.NaN2
import Verif.Props.NoRaise32
import Verif.Props.NumbaPow
import Verif.Props.PythonDouble
import Verif.Props.RangeDouble
import Verif.Props.Scaling
import Verif.Props.SinglePrism
import Verif.Props.SumError
import Verif.Props.Typed
import Verif.Props.UserGuide
import Verif.Props.Sphere

/-! # The theorems applied to concrete data, continued: rounding, types, the user guide -/

namespace Choclo.Witness

open Choclo userguide

/-- a double -/
noncomputable abbrev d (x : ℝ) : Fl Binary64 := Fl.fin x

/-! ### Every rounding -/

example := C04_distance_cartesian Binary64_signSymmetric (d 1) (d 2) (d 3) (d 4) (d 5) (d 6)
example := C10_exchange_bits Binary64_signSymmetric .nu (d 1) (d 2) (d 3) (d 4) (d 5) (d 6) (d 7)
example := C10_negate_mass_bits Binary64_signSymmetric .nu (d 1) (d 2) (d 3) (d 4) (d 5) (d 6) (d 7)
example := C60_dipole_exchange Binary64_signSymmetric .u (d 1) (d 2) (d 3) (d 4) (d 5) (d 6) (d 7) (d 8) (d 9)
example := C60_dipole_negate Binary64_signSymmetric .u (d 1) (d 2) (d 3) (d 4) (d 5) (d 6) (d 7) (d 8) (d 9)
example := C60_point_mirror Binary64_signSymmetric .nu .n obs src (d 7)
example := C60_dipole_mirror Binary64_signSymmetric .u .e obs src mag
example := C61_distance_zero Binary64_exactAtZero obs
example := C61_dipole Binary64_exactAtZero .u obs (d 1) (d 2) (d 3)
example := C80_kernel .uuu (by decide) (d 1) (d 2) (d 3) (d 4) (d 5) (d 6) (d 7)
example := C80_gravity .uu (by decide) (d 1) (d 2) (d 3) (d 4) (d 5) (d 6) (d 7)
example := C81_zero Binary64_monotone .u
example := C48_distance_cartesian (d 1) (d 2) (d 3) Fl.nan (d 5) (d 6) (by simp)
example := C48_distance_spherical (d 1) (d 2) (d 3) Fl.nan (d 5) (d 6) (by simp)
example := C48_point_coordinate .nu (d 1) (d 2) (d 3) Fl.nan (d 5) (d 6) (d 7) (by simp)
example := C48_dipole .u (d 1) (d 2) (d 3) Fl.nan (d 5) (d 6) (d 7) (d 8) (d 9) (by simp)
example := C48_prism_magnetic .u (d 1) (d 2) (d 3) Fl.nan (d 5) (d 6) (d 7) (d 8) (d 9) (d 1) (d 2) (d 3) (by simp)
example := C48_dipole_coordinate Binary64_pi_ne_zero (d 1) (d 2) (d 3) Fl.nan (d 5) (d 6) (d 7) (d 8) (d 9) (by simp)
example := C48_prism_field_returns Binary64_monotone Binary64_pi_ne_zero (d 1) (d 2) (d 3) Fl.nan (d 5) (d 6) (d 7) (d 8) (d 9) (d 1)
  (d 2) (d 3) (by simp)
example := C49_gravity .en (1, 1, -1) exBox (by norm_num [Box.singular, Box.edgesU, exBox]) (d 2670)
example := C49_magnetic (0, 0, -1) exBox (.inr (by rw [← inside_eq_interior]; norm_num [Box.inside, exBox])) (d 1) (d 2) (d 3)
example := C103_magnetic Binary64_monotone Binary64_pi_ne_zero true (d 1) (d 2) (d 3) (Fl.inf true) (d 5) (d 6) (d 7) (d 8) (d 9) (d 1)
  (d 2) (d 3) (by simp)
example := C103_point Binary64_monotone.rnd_zero .nu true (d 1) (d 2) (d 3) (Fl.inf true) (d 5) (d 6) (d 7) (by simp)
example := C103_dipole Binary64_monotone.rnd_zero Binary64_pi_ne_zero .u true (d 1) (d 2) (d 3) (Fl.inf true) (d 5) (d 6) (d 7) (d 8)
  (d 9) (by simp)
example := C104_magnetic Binary64_monotone Binary64_signSymmetric .uu obs ⟨-1, 1, -1, 1, -2, -2⟩ (d 1) (d 2) (d 3)

/-! ### Double precision -/

theorem demo_moderate (a : Axis) : ModerateSize ((Pt.coord (130, 75, 5) a) - Pt.coord (0, 0, -10) a) := by
  cases a <;> apply moderate_of <;> norm_num [Pt.coord, Pt.e, Pt.n, Pt.u, abs_of_pos, abs_of_neg]

theorem size_2670 : ModerateSize 2670 := moderate_of (by norm_num [abs_of_pos]) (by norm_num [abs_of_pos])

theorem sizes_mag (a : Axis) : ModerateSize (Pt.coord (1, 2, 3) a) := by
  cases a <;> apply moderate_of <;> norm_num [Pt.coord, Pt.e, Pt.n, Pt.u, abs_of_pos]

theorem demo_off : ((130, 75, 5) : Pt) ∉ demoPrism.region := by norm_num [Box.region, demoPrism]

example := C57_newton_double (130, 75, 5) demoPrism demo_ordered demo_offsets 2670 size_2670
example := C57_gravity Binary64_accurate Binary64_libmAccurate .uu (130, 75, 5) demoPrism demo_ordered
  (exterior_singular demo_ordered demo_off _) demo_offsets 2670 size_2670
example := C58_magnetic Binary64_accurate Binary64_libmAccurate .uu (130, 75, 5) demoPrism demo_ordered demo_edges
  (fun h => demo_off (interior_subset h)) demo_offsets (1, 2, 3) sizes_mag
example := C58_field Binary64_accurate Binary64_libmAccurate (130, 75, 5) demoPrism demo_ordered demo_edges
  (fun h => demo_off (interior_subset h)) demo_offsets (1, 2, 3) sizes_mag
example := C90_point_diagonal .u (130, 75, 5) (0, 0, -10) (by norm_num) 2670 demo_moderate size_2670
example := C90_dipole .u (130, 75, 5) (0, 0, -10) (by norm_num) (1, 2, 3) demo_moderate sizes_mag
example := C98_diagonal .u (130, 75, 5) demoPrism demo_ordered (exterior_singular demo_ordered demo_off _) demo_offsets 2670 size_2670
example := C98_point_laplace (130, 75, 5) (0, 0, -10) (by norm_num) 2670 demo_moderate size_2670
example := C98_magnetic_divergence demo_ordered (130, 75, 5) demo_edges (fun h => demo_off (interior_subset h)) demo_offsets (1, 2, 3)
  sizes_mag

/-! ### The user guide -/

example := C83_total (c := points ![obs, src, top]) (p := boxes demoBoxes) (d := values ![2670, -300]) Binary64_monotone
example := C83_exact demoBoxes_ordered ![obs, src, top] ![2670, -300]
example := C83_reorder demoBoxes_ordered ![obs, src, top] ![2670, -300] (Equiv.swap 0 1)
example := C83_linear demoBoxes_ordered ![obs, src, top] ![2670, -300] ![1, 2] 3 4
example := C84_returns (c := points ![obs, src, top]) (p := boxes demoBoxes) (d := values ![2670, -300]) Binary64_monotone
  demo_distribution
example := C84_deterministic (c := points ![obs, src, top]) (p := boxes demoBoxes) (d := values ![2670, -300]) demo_distribution
  (C84_returns Binary64_monotone demo_distribution).choose_spec.1
example := C85_returns (c := points ![obs, src, top]) (p := boxes demoBoxes) Binary64_monotone demo_distribution
example := C132_unpack (A := Binary64) (d := [2670]) (P := ⟨6, [![0, 1, 0, 1, 0, 1]]⟩) (coordinates := [[0], [0]]) (by decide)
example := C132_empty (A := Binary64) (e := []) (n := [0]) (u := [1]) (d := [2670]) (P := ⟨6, [![0, 1, 0, 1, 0, 1]]⟩) (.inl rfl)
example := C132_raises (A := Binary64) (e := [0]) (n := [0]) (u := []) (d := [2670]) (P := ⟨6, [![0, 1, 0, 1, 0, 1]]⟩) Binary64_monotone
  (by simp) (by simp)

/-! ### Types -/

example := C89_distance (C := 1000) Binary64_exactInts (by norm_num) (by norm_num)
example := C89_spherical (C := 1000) Binary64_exactInts (by norm_num) (by norm_num) (by norm_num)
example := C89_point_gravity (C := 1000) Binary64_exactInts (by norm_num) (by norm_num) (by norm_num)
example := C89_prism_gravity (C := 1000) Binary64_exactInts (by norm_num) (by norm_num) (by norm_num)
example := C89_prism_magnetic (C := 1000) Binary64_exactInts (by norm_num) (by norm_num) (by norm_num)
example := C89_prism_gradients (C := 1000) Binary64_exactInts (by norm_num) (by norm_num) (by norm_num)
example := C89_dipole (C := 1000) (M := 1000) Binary64_exactInts (by norm_num) (by norm_num) (by norm_num) (by norm_num) (by norm_num)
example := C89_prism_points Binary64_exactInts (by norm_num)

/-- single and double precision numbers -/
noncomputable abbrev s (x : ℝ) : MFl Numba32 Numba64 := .f32 (Fl.fin x)
noncomputable abbrev l (x : ℝ) : MFl Numba32 Numba64 := .f64 (Fl.fin x)

theorem wide : WidePair (s 1) (s 2) (s 3) (l 4) (l 5) (l 6) := ⟨.inr ⟨_, rfl⟩, .inr ⟨_, rfl⟩, .inr ⟨_, rfl⟩⟩

theorem wideCall : WideCall (s 1) (s 2) (s 30) (l 0) (l 5) (l 0) (l 5) (l (-5)) (l 0) :=
  ⟨.inr ⟨⟨_, rfl⟩, _, rfl⟩, .inr ⟨⟨_, rfl⟩, _, rfl⟩, .inr ⟨⟨_, rfl⟩, _, rfl⟩⟩

example := C106_distance wide
example := C106_point_kernels wide (Fl.fin 7)
example := C106_point_gravity wide (s 7)
example := C106_dipole wide (s 7) (l 8) (s 9)
example := C106_prism_gravity wideCall (s 2670)
example := C106_prism_magnetic wideCall (s 7) (l 8) (s 9)
example := C113_predicates (S := Numba32) (D := Numba64) demo_single
example := C113_gravity_nan (S := Numba32) (D := Numba64) .en demo_edge_single
  (by simp [Box.singular, Box.edgesU, demoPrism]; norm_num) (s 2670)
theorem nan32 {S D : Arith} : (MFl.f32 Fl.nan : MFl S D).IsNaN := rfl

example := C121_distance (s 1) (l 2) (s 3) (.f32 Fl.nan) (s 5) (l 6) ⟨.f32 Fl.nan, by simp, nan32⟩

/-! ### The sphere -/

example := C75_radii 10 20 6371000 30 40 6400000 (by norm_num) (by norm_num)
example := C75_scale 10 20 6371000 30 40 6400000 2 (by norm_num)
example := C75_special 10 20 6371000 6400000 7 8 (by norm_num) (by norm_num)

/-! ### Without Numba -/

theorem builtins (v : List ℝ) : PNum.Floats (v.map builtin) := by
  intro a ha
  obtain ⟨x, -, rfl⟩ := List.mem_map.1 ha
  trivial

example := C137_distance pyArith_binary64 _ _ _ _ _ _ (builtins [1, 2, 3, 4, 5, 6])
example := C137_spherical pyArith_binary64 _ _ _ _ _ _ (builtins [1, 2, 3, 4, 5, 6])
example := C137_spherical_core pyArith_binary64 _ _ _ _ _ _ _ _ (builtins [1, 2, 3, 4, 5, 6, 7, 8])
example := C137_point_gravity pyArith_binary64 _ _ _ _ _ _ _ (builtins [1, 2, 3, 4, 5, 6, 7])
example := C137_dipole pyArith_binary64 _ _ _ _ _ _ _ _ _ (builtins [1, 2, 3, 4, 5, 6, 7, 8, 9])
example := C137_point_kernels pyArith_binary64 _ _ _ _ _ _ _ (builtins [1, 2, 3, 4, 5, 6, 7])
example := C137_point_kernels3 pyArith_binary64 _ _ _ _ _ _ _ (builtins [1, 2, 3, 4, 5, 6, 7])
example := C137_prism_kernels pyArith_binary64 _ _ _ _ (builtins [1, 2, 3, 4])
example := C137_prism_gravity pyArith_binary64 _ _ _ _ _ _ _ _ _ _ (builtins [1, 2, 3, 4, 5, 6, 7, 8, 9, 10])
example := C137_prism_magnetic pyArith_binary64 _ _ _ _ _ _ _ _ _ _ _ _ (builtins [1, 2, 3, 4, 5, 6, 7, 8, 9, 10, 11, 12])

theorem small (x : ℝ) (h : |x| ≤ 2 ^ (20 : ℤ)) : Moderate (builtin x) :=
  builtin_moderate (h.trans (zpow_le_zpow_right₀ (by norm_num) (by norm_num)))

example := C138_distance_double (builtin 1) (builtin 2) (builtin 3) (builtin 4) (builtin 5) (builtin 6)
  (by simp only [List.forall_mem_cons, List.not_mem_nil]; refine ⟨small _ ?_, small _ ?_, small _ ?_, small _ ?_, small _ ?_, small _ ?_, ?_⟩ <;> norm_num)
example := C138_dipole_double (builtin 1) (builtin 2) (builtin 3) (builtin 4) (builtin 5) (builtin 6) (builtin 7) (builtin 8) (builtin 9)
  (by simp only [List.forall_mem_cons, List.not_mem_nil]; refine ⟨small _ ?_, small _ ?_, small _ ?_, small _ ?_, small _ ?_, small _ ?_, ?_⟩ <;> norm_num)
  (builtins [7, 8, 9])
example := C138_prism_gravity_double (builtin 0) (builtin 0) (builtin 9) (builtin (-1)) (builtin 1) (builtin (-1)) (builtin 1) (builtin (-2))
  (builtin 0) (builtin 2670)
  (by simp only [List.forall_mem_cons, List.not_mem_nil]; refine ⟨small _ ?_, small _ ?_, small _ ?_, small _ ?_, small _ ?_, small _ ?_, small _ ?_, small _ ?_, small _ ?_, ?_⟩ <;> norm_num)
  (builtins [2670])
example := C138_prism_magnetic_double (builtin 0) (builtin 0) (builtin 9) (builtin (-1)) (builtin 1) (builtin (-1)) (builtin 1)
  (builtin (-2)) (builtin 0) (builtin 1) (builtin 2) (builtin 3)
  (by simp only [List.forall_mem_cons, List.not_mem_nil]; refine ⟨small _ ?_, small _ ?_, small _ ?_, small _ ?_, small _ ?_, small _ ?_, small _ ?_, small _ ?_, small _ ?_, ?_⟩ <;> norm_num)
  (builtins [1, 2, 3])

end Choclo.Witness
