import Verif.Props.Witness4
import Verif.Props.PyIntDouble
import Verif.Props.Moments

/-! # The theorems applied to concrete data, continued -/

namespace Choclo.Witness

open Choclo userguide MeasureTheory Set PNum

/-! ### Exact arithmetic -/

example := C18_edge (A := Binary64) exBox_ordered (1, 1, -1)
example := C19_low_order .u trivial 0 0 0
example := C19_vertex .eee id

theorem below_off : obs ∉ (exBox.below (-1) .u).region := by norm_num [obs, Box.region, Box.below, exBox]

theorem above_off : obs ∉ (exBox.above (-1) .u).region := by norm_num [obs, Box.region, Box.above, exBox]

theorem below_ordered : (exBox.below (-1) .u).Ordered := by norm_num [Box.Ordered, Box.below, exBox]

theorem above_ordered : (exBox.above (-1) .u).Ordered := by norm_num [Box.Ordered, Box.above, exBox]

example := C30_cut exBox_ordered .uu .u (m := -1) (by norm_num [Box.lo, Box.hi, exBox]) obs 2670 (obs_singular _)
  (exterior_singular below_ordered below_off _) (exterior_singular above_ordered above_off _)

/-- the observation volume: a cube of 10 m around the prism -/
def around : Box := ⟨-5, 5, -5, 5, -5, 5⟩

theorem around_ordered : around.Ordered := by norm_num [around, Box.Ordered]

theorem around_apart {q : Pt} (h : ∀ a, |q.coord a| < 5) : q ∉ around.surface := by
  rintro ⟨a, s, -, h1 | h1⟩
  all_goals
    have := h a
    rw [h1] at this
    cases a <;> norm_num [around, Pt.onPlane, Pt.coord, Box.lo, Box.hi] at this

theorem src_surface : src ∉ around.surface := around_apart fun a => by cases a <;> norm_num [src, Pt.coord]

theorem around_disjoint : Disjoint around.surface exBox.region := by
  rw [Set.disjoint_left]
  intro q h hq
  refine around_apart (fun a => ?_) h
  obtain ⟨⟨a1, a2⟩, ⟨a3, a4⟩, ⟨a5, a6⟩⟩ := hq
  simp only [exBox] at a1 a2 a3 a4 a5 a6
  rw [abs_lt]
  cases a
  · exact ⟨show -5 < q.1 by linarith, show q.1 < 5 by linarith⟩
  · exact ⟨show -5 < q.2.1 by linarith, show q.2.1 < 5 by linarith⟩
  · exact ⟨show -5 < q.2.2 by linarith, show q.2.2 < 5 by linarith⟩

example := C66_dipole around_ordered src src_surface mag
example := C66_point_tensor around_ordered .u src src_surface 5
example := C66_prism around_ordered exBox_ordered around_disjoint mag
example := C66_prism_tensor around_ordered exBox_ordered around_disjoint .u 2670
theorem src_ball : src ∉ ball3 obs 2 := by
  have : (2 : ℝ) < Real.sqrt 149 := by rw [Real.lt_sqrt] <;> norm_num
  norm_num [ball3, src, obs, dist3]
  exact this

example := C79_point .uu obs src (R := 2) (by norm_num) src_ball 5

theorem obs_hi : obs ∉ exBox.sheet .u (exBox.hi .u) := by
  rintro ⟨s, -, h⟩
  have := congrArg (fun q : Pt => q.2.2) h
  norm_num [Pt.onPlane, exBox, Box.hi, obs] at this

theorem obs_lo : obs ∉ exBox.sheet .u (exBox.lo .u) := by
  rintro ⟨s, -, h⟩
  have := congrArg (fun q : Pt => q.2.2) h
  norm_num [Pt.onPlane, exBox, Box.lo, obs] at this

example := C91_anywhere_hi exBox_ordered .u (by decide) .u (by norm_num [Box.lo, Box.hi, exBox]) obs obs_hi 2670
example := C91_anywhere_lo exBox_ordered .u (by decide) .u (by norm_num [Box.lo, Box.hi, exBox]) obs obs_lo 2670

example := C101_axis obs .u 5 (le_trans (by norm_num [Pt.coord, obs]) (le_trans huge (zpow_le_zpow_right₀ (by norm_num) (by norm_num))))
  (.inr (le_trans (zpow_le_one_of_nonpos₀ (by norm_num) (by norm_num)) (by norm_num [Pt.coord, obs])))

/-! ### Upward continuation -/

example : ∃ g : Pt → ℝ, (∀ p : Pt, 1 ≤ p.coord .u → Returns (onPrism (A := Exact) prism.gravity_uu p exBox (2670 : ℝ)) (g p)) ∧
    ∀ B, (∀ s, g (Pt.onPlane .u 1 s) ≤ B) → g obs ≤ B := by
  obtain ⟨g, h1, h2⟩ := C134_prism (a := .u) (t := 1) exBox_ordered .uu (.inl exBox_below) 2670
  exact ⟨g, h1, fun B hB => C134_largest h2 hB (by norm_num [Pt.coord, obs])⟩

/-! ### First moments -/

example := C143_dipole (a := .u) (b := .e) (t := 1) (by decide) (q := src) (by norm_num [src, Pt.coord]) obs mag
example := C143_point (a := .u) (b := .e) (t := 1) (by decide) (q := src) (by norm_num [src, Pt.coord]) obs 5
example := C143_prisms (a := .u) (b := .e) (t := 1) (by decide) Finset.univ (P := pair) (fun i _ => (pair_proper i).ordered)
  (fun i _ => by fin_cases i <;> norm_num [pair, Box.hi]) ![2670, 3000] obs
example := C143_magnetic (a := .u) (b := .e) (t := 1) (by decide) Finset.univ (P := pair) (fun i _ => (pair_proper i).ordered)
  (fun i _ => by fin_cases i <;> norm_num [pair, Box.hi]) ![mag, (0, -1, 4)] obs
example := C143_tensor (a := .u) (b := .e) (t := 1) (by decide) .u .u obs

/-! ### Scaling by powers of two -/

example := C82_density Binary53_scaleInvariant 3 .uu 0 0 9 1 2 3 4 (-5) 6 2670
example := C82_distance Binary53_scaleInvariant 3 0 0 9 1 2 3

/-! ### Infinite arguments -/

example := C103_diag Binary64_monotone Binary64_libmAccurate.atan_zero true 0 0 9 1 2 3 4 (-5) (Fl.inf true) 2670

/-! ### Single precision -/

theorem short_of {x : ℝ} (h : 1 ≤ |x|) (h' : |x| ≤ 2 ^ 24) : ShortLength x :=
  .inr ⟨le_trans (zpow_le_one_of_nonpos₀ (by norm_num) (by norm_num)) h, h'⟩

theorem moderate_of' {x : ℝ} (h : 1 ≤ |x|) (h' : |x| ≤ 2 ^ 24) : ModerateSize x :=
  .inr ⟨le_trans (zpow_le_one_of_nonpos₀ (by norm_num) (by norm_num)) h,
    h'.trans (le_trans (by norm_num) (zpow_le_zpow_right₀ (by norm_num) (show (24 : ℤ) ≤ 80 by norm_num) : (2 : ℝ) ^ (24 : ℤ) ≤ 2 ^ (80 : ℤ)))⟩

theorem single_points : ArePoints (S := Numba32) (D := Numba64) (s 0) (s 0) (s 9) (s 1) (s 2) (s (-3)) obs src :=
  ⟨isReal_f32 _, isReal_f32 _, isReal_f32 _, isReal_f32 _, isReal_f32 _, isReal_f32 _⟩

theorem single_short (a : Axis) : ShortLength (obs.coord a - src.coord a) := by
  cases a <;> norm_num [Pt.coord, obs, src] <;> exact short_of (by norm_num) (by norm_num)

theorem mag_short (a : Axis) : ShortMoment (mag.coord a) := by
  have key : ∀ x : ℝ, 1 ≤ x → x ≤ 3 → ShortMoment x := fun x h1 h2 => by
    have hx : |x| = x := abs_of_nonneg (by linarith)
    exact .inr ⟨by rw [hx]; exact le_trans (zpow_le_one_of_nonpos₀ (by norm_num) (by norm_num)) h1, by rw [hx]; norm_num; linarith⟩
  cases a <;> exact key _ (by norm_num [Pt.coord, mag]) (by norm_num [Pt.coord, mag])

example := C107_distance single_short single_points
example := C107_dipole single_short single_points obs_ne (me := s 1) (mn := s 2) (mu := s 3) (m := mag) (isReal_f32 _) (isReal_f32 _) (isReal_f32 _) mag_short .u
example := C107_diagonal single_short single_points obs_ne (vm := s 5) (m := 5) (isReal_f32 _) (moderate_of' (by norm_num) (by norm_num)) .u
example := C107_third_order .enu trivial (xv := s 1) (yv := s 2) (zv := s 3) (x := 1) (y := 2) (z := 3) (isReal_f32 _) (isReal_f32 _) (isReal_f32 _) (.inl one_ne_zero)
  (short_of (by norm_num) (by norm_num)) (short_of (by norm_num) (by norm_num)) (short_of (by norm_num) (by norm_num))
example := C110_kernel_single .u (xv := s 1) (yv := s 2) (zv := s 3) (x := 1) (y := 2) (z := 3) (isReal_f32 _) (isReal_f32 _) (isReal_f32 _) (.inl trivial)
  (short_of (by norm_num) (by norm_num)) (short_of (by norm_num) (by norm_num)) (short_of (by norm_num) (by norm_num))

theorem single_prism : ArePrism (S := Numba32) (D := Numba64) (s 0) (s 0) (s 9) (s (-1)) (s 1) (s (-1)) (s 1) (s (-2)) (s 0) obs exBox :=
  ⟨iff_of_false (not_wide32 _) (not_wide32 _), iff_of_false (not_wide32 _) (not_wide32 _),
    iff_of_false (not_wide32 _) (not_wide32 _), isReal_f32 _, isReal_f32 _, isReal_f32 _, isReal_f32 _, isReal_f32 _,
    isReal_f32 _, isReal_f32 _, isReal_f32 _, isReal_f32 _⟩

theorem single_offsets : ShortOffsets obs exBox := by
  refine ⟨?_, ?_, ?_, ?_, ?_, ?_⟩ <;> norm_num [obs, exBox, Pt.e, Pt.n, Pt.u] <;> exact short_of (by norm_num) (by norm_num)

example := C110_newton_single single_prism (vρ := s 2670) (ρ := 2670) (isReal_f32 _) exBox_ordered single_offsets size_2670
example := C110_field_single single_prism (vMe := s 1) (vMn := s 2) (vMu := s 3) (M := mag) (isReal_f32 _) (isReal_f32 _) (isReal_f32 _) exBox_ordered obs_edges
  obs_interior single_offsets sizes_mag
example := C113_magnetic_single .u single_prism (vMe := s 1) (vMn := s 2) (vMu := s 3) (M := mag) (isReal_f32 _) (isReal_f32 _) (isReal_f32 _) exBox_ordered
  single_offsets sizes_mag
example := C110_gravity numba_both Numba32_libm Numba64_libm .uu single_prism (vρ := s 2670) (ρ := 2670) (isReal_f32 _) exBox_ordered
  (obs_singular _) single_offsets size_2670
example := C121_dipole .u (s 0) (l 0) (s 9) (l (-1)) (s 1) (l (-1)) (s 1) (.f32 Fl.nan) (s 0) ⟨.f32 Fl.nan, by simp, nan32⟩
example := C121_point_mass .uu (s 0) (l 0) (s 9) (l (-1)) (s 1) (l (-1)) (.f32 Fl.nan) nan32
example := C121_point_coordinate .uu (s 0) (l 0) (.f32 Fl.nan) (l (-1)) (s 1) (l (-1)) (s 1) ⟨.f32 Fl.nan, by simp, nan32⟩
example := C121_spherical (s 0) (l 0) (.f32 Fl.nan) (l (-1)) (s 1) (l (-1)) ⟨.f32 Fl.nan, by simp, nan32⟩
example := C121_prism_magnetic .u (s 0) (l 0) (s 9) (l (-1)) (s 1) (l (-1)) (s 1) (l (-2)) (s 0) (s 1) (s 2) (.f32 Fl.nan)
  ⟨.f32 Fl.nan, by simp, nan32⟩

/-! ### Without Numba -/

example := C138_point_gravity pyArith_binary64 _ _ _ _ _ _ _ (builtins [1, 2, 3, 4, 5, 6, 7])
example := C138_dipole pyArith_binary64 _ _ _ _ _ _ _ _ _ (builtins [1, 2, 3, 4, 5, 6, 7, 8, 9])
example := C138_spherical pyArith_binary64 _ _ _ _ _ _ (builtins [1, 2, 3, 4, 5, 6])
example := C144_spherical (C := 1000) pyArith_binary64 Binary64_exactInts (by norm_num) (by norm_num) (.int 10) (.int 20) (.int 637)
  (builtin 30) (.int 40) (.int 640) (by norm_num [AllUpTo, PNum.UpTo])
example := C144_spherical_core (C := 1000) pyArith_binary64 Binary64_exactInts (by norm_num) (by norm_num) (.int 1) (builtin (1/2))
  (builtin (1/3)) (.int 640) (.int 1) (.int 0) (.int 1) (.int 700) (by norm_num [AllUpTo, PNum.UpTo])
example := C144_point_kernels (C := 1000) pyArith_binary64 Binary64_exactInts (by norm_num) (by norm_num) (.int 10) (.int 20) (.int 637)
  (builtin 30) (.int 40) (.int 640) (builtin 7) (by norm_num [AllUpTo, PNum.UpTo]) trivial
example := C144_point_kernels3 (C := 1000) pyArith_binary64 Binary64_exactInts (by norm_num) (by norm_num) (by norm_num) (.int 10) (.int 20)
  (.int 637) (builtin 30) (.int 40) (.int 640) (builtin 7) (by norm_num [AllUpTo, PNum.UpTo]) trivial
example := C144_prism_kernels (D := 1000) pyArith_binary64 Binary64_exactInts (by norm_num) (.int 10) (.int 20) (.int 637)
  (builtin 7) (by norm_num [AllUpTo, PNum.UpTo]) trivial
example := C144_prism_kernels3 (D := 1000) pyArith_binary64 Binary64_exactInts (by norm_num) (.int 10) (.int 20) (.int 637)
  (builtin 7) (by norm_num [AllUpTo, PNum.UpTo]) trivial

/-! ### Rounding and order -/

theorem exact_monotone : Exact.Monotone := ⟨fun _ _ h => h, fun _ _ h => by cases h; exact ⟨rfl, rfl⟩, rfl⟩

example := C81_density exact_monotone .uu (obs.e : Fl Exact) obs.n obs.u exBox.west exBox.east exBox.south exBox.north exBox.bottom
  exBox.top (ρ₁ := 1) (ρ₂ := 2) (ρ₃ := 3) (by norm_num) (by norm_num) (Ex.gravity_returns exBox_ordered (obs_singular .uu) 1)
  (Ex.gravity_returns exBox_ordered (obs_singular .uu) 2) (Ex.gravity_returns exBox_ordered (obs_singular .uu) 3)

example := C45_cut exBox_ordered .u .u (m := -1) (by norm_num [Box.lo, Box.hi, exBox]) obs mag _ _ _
  (Ex.magnetic_returns exBox_ordered obs_edges obs_inside 1 2 3)
  (Ex.magnetic_returns below_ordered (exterior_edges below_ordered below_off) (by norm_num [obs, Box.inside, Box.below, exBox]) 1 2 3)
  (Ex.magnetic_returns above_ordered (exterior_edges above_ordered above_off) (by norm_num [obs, Box.inside, Box.above, exBox]) 1 2 3)

/-! ### Finite differences -/

theorem around_far {x : ℝ} (hx : x ∈ Icc (8 : ℝ) 10) : ∀ q ∈ exBox.region, 8 ≤ dist3 (obs.set .u x) q := by
  rintro q ⟨⟨a1, a2⟩, ⟨a3, a4⟩, ⟨a5, a6⟩⟩
  simp only [exBox] at a1 a2 a3 a4 a5 a6
  obtain ⟨b1, b2⟩ := hx
  refine Real.le_sqrt_of_sq_le ?_
  simp only [Pt.set, Pt.e, Pt.n, Pt.u]
  nlinarith

example := C99_central exBox_ordered .u obs (h := 1) (D := 8) (by norm_num) (by norm_num)
  (fun x hx => around_far (by norm_num [Pt.coord, obs] at hx ⊢; exact hx)) 2670
example := C99_forward_tensor exBox_ordered .e .u obs (h := 1) (D := 8) (by norm_num) (by norm_num)
  (fun x hx => around_far (by
    rw [uIcc_of_le (by norm_num)] at hx
    norm_num [Pt.coord, obs] at hx ⊢
    exact ⟨by linarith [hx.1], hx.2⟩)) 2670

theorem src_far {x : ℝ} (hx : x ∈ uIcc (obs.coord .u) (obs.coord .u + 1)) : 8 ≤ dist3 (obs.set .u x) src := by
  rw [uIcc_of_le (by norm_num)] at hx
  norm_num [Pt.coord, obs] at hx
  refine Real.le_sqrt_of_sq_le ?_
  simp only [Pt.set, Pt.e, Pt.n, Pt.u]
  nlinarith [hx.1]

example := C99_point_forward .u obs src (h := 1) (D := 8) (by norm_num) (by norm_num) (fun x hx => src_far hx) 5
example := C99_point_forward_tensor .e .u obs src (h := 1) (D := 8) (by norm_num) (by norm_num) (fun x hx => src_far hx) 5

/-! ### Infinitely deep prisms -/

example := C103_bottom exBox exBox_ordered obs 2670
  (fun w _ => by norm_num [Box.singular, Box.edgesE, Box.edgesN, exBox, obs])
example := C103_south exBox exBox_ordered obs 2670
  (fun w _ => by norm_num [Box.singular, Box.edgesE, Box.edgesU, exBox, obs])
example := C103_east exBox exBox_ordered obs 2670
  (fun w _ => by norm_num [Box.singular, Box.edgesN, Box.edgesU, exBox, obs])
example := C103_north exBox exBox_ordered obs 2670
  (fun w _ => by norm_num [Box.singular, Box.edgesE, Box.edgesU, exBox, obs])

end Choclo.Witness
