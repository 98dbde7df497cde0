import Verif.Props.Witness5
import Verif.Props.JitOff
import Verif.Props.Bodies
import Verif.Props.Survey
import Verif.Props.Design
import Verif.Props.JacobianLengths
import Verif.Props.Depth

/-! # The theorems applied to concrete data, continued -/

namespace Choclo.Witness

open Choclo userguide MeasureTheory Set PNum

/-! ### The JIT switch on integer calls -/

theorem upTo_ints {A : Arith} {B : ℕ} (l : List ℤ) (h : ∀ k ∈ l, |k| ≤ B) : AllUpTo B (l.map (PNum.int (A := A))) := by
  intro a ha
  obtain ⟨k, hk, rfl⟩ := List.mem_map.1 ha
  exact h k hk

example := C145_distance (C := 1000) (L := 2 ^ 53) pyArith_binary64 Binary64_exactInts (by norm_num) (by norm_num) (by norm_num)
  (.int 1) (.int 2) (.int 3) (.int 4) (.int 5) (.int 6) (upTo_ints [1, 2, 3, 4, 5, 6] (by decide))
example := C145_spherical (C := 1000) (L := 2 ^ 53) pyArith_binary64 Binary64_exactInts (by norm_num) (by norm_num) (by norm_num)
  (.int 10) (.int 20) (.int 637) (.int 30) (.int 50) (.int 640) (upTo_ints [10, 20, 637, 30, 50, 640] (by decide))
example := C145_dipole (C := 1000) (M := 100) (L := 2 ^ 53) pyArith_binary64 Binary64_exactInts (by norm_num) (by norm_num) (by norm_num)
  (by norm_num) (by norm_num) (by norm_num) (.int 1) (.int 2) (.int 3) (.int 4) (.int 5) (.int 6) (.int 7) (.int 8) (.int 9)
  (upTo_ints [1, 2, 3, 4, 5, 6] (by decide)) (upTo_ints [7, 8, 9] (by decide))
example := C145_prism_gravity (C := 1000) (L := 2 ^ 53) pyArith_binary64 Binary64_exactInts (by norm_num) (by norm_num) (by norm_num)
  (.int 0) (.int 0) (.int 9) (.int (-1)) (.int 1) (.int (-1)) (.int 1) (.int (-2)) (.int 0) (.int 2670)
  (upTo_ints [0, 0, 9, -1, 1, -1, 1, -2, 0] (by decide)) (upTo_ints [2670] (by decide))
example := C145_prism_magnetic (C := 1000) (L := 2 ^ 53) pyArith_binary64 Binary64_exactInts (by norm_num) (by norm_num) (by norm_num)
  (.int 0) (.int 0) (.int 9) (.int (-1)) (.int 1) (.int (-1)) (.int 1) (.int (-2)) (.int 0) (.int 1) (.int 2) (.int 3)
  (upTo_ints [0, 0, 9, -1, 1, -1, 1, -2, 0] (by decide)) (upTo_ints [1, 2, 3] (by decide))
example := C145_prism_gradient (C := 1000) (L := 2 ^ 53) pyArith_binary64 Binary64_exactInts (by norm_num) (by norm_num) (by norm_num)
  (.int 0) (.int 0) (.int 9) (.int (-1)) (.int 1) (.int (-1)) (.int 1) (.int (-2)) (.int 0) (.int 1) (.int 2) (.int 3)
  (upTo_ints [0, 0, 9, -1, 1, -1, 1, -2, 0] (by decide)) (upTo_ints [1, 2, 3] (by decide))

/-! ### Models of bodies: two touching prisms, one of them less dense than the body by 10 -/

theorem hull_ordered : hull.Ordered := by norm_num [hull, Box.Ordered]

theorem pair_cover : hull.region ⊆ ⋃ i, (pair i).region := by
  rintro s ⟨⟨a1, a2⟩, a3, a4⟩
  rcases le_total s.1 1 with h | h
  · exact mem_iUnion.2 ⟨0, ⟨a1, h⟩, a3, a4⟩
  · exact mem_iUnion.2 ⟨1, ⟨h, a2⟩, a3, a4⟩

theorem pair_close : ∀ᵐ s ∂(volume.restrict hull.region : Measure Pt), |totalAt pair ![(2660 : ℝ), 2670] s - 2670| ≤ 10 := by
  filter_upwards [ae_one_cell pair_disjoint pair_cover] with s ⟨i, _, hw⟩
  rw [hw]
  fin_cases i <;> norm_num

theorem hull_volume : hull.volume ≤ 4 / 3 * Real.pi * 2 ^ 3 := by
  have := Real.pi_gt_three
  norm_num [hull, Box.volume]
  linarith

theorem hull_far : ∀ q ∈ hull.region, 9 ≤ dist3 obs q := by
  rintro q ⟨_, _, h⟩
  refine Real.le_sqrt_of_sq_le ?_
  have := h.2
  simp only [hull] at this
  have h9 : (9 : ℝ) ≤ obs.u - q.u := by show (9 : ℝ) ≤ 9 - q.2.2; linarith
  nlinarith [sq_nonneg (obs.e - q.e), sq_nonneg (obs.n - q.n)]

example := C146_potential hull_ordered (fun i => (pair_proper i).ordered) pair_hull aestronglyMeasurable_const pair_close (1, 0, -1)
example := C146_exact (ρ := ![(2660 : ℝ), 2670]) (fun i => (pair_proper i).ordered) pair_hull hull_ordered (1, 0, -1)
example := C146_acceleration hull_ordered (fun i => (pair_proper i).ordered) pair_hull aestronglyMeasurable_const (by norm_num) pair_close
  .u (1, 0, -1) (by norm_num) hull_volume
example := C146_tensor hull_ordered (fun i => (pair_proper i).ordered) pair_hull aestronglyMeasurable_const (by norm_num) pair_close
  .u .e obs (by norm_num) hull_far
example := C146_sampled (B := hull) (P := pair) (σ := fun _ => 2670) pair_hull pair_cover pair_disjoint (le_refl 0) (h := 2) (fun i => by
    have : √(4 ^ 2 : ℝ) = 4 := Real.sqrt_sq (by norm_num)
    have h : √(12 : ℝ) ≤ 4 := by rw [← this]; exact Real.sqrt_le_sqrt (by norm_num)
    fin_cases i <;> unfold Box.halfDiagonal <;> norm_num [pair] <;> linarith)
  (fun s _ t _ => by simp) fun i => (pair_proper i).ordered

/-- a body magnetized downwards, and a model of it with one prism in the wrong direction -/
example := C146_magnetic (P := pair) (M := ![(0, 0, -1), (0, 1, -1)]) (S := fun _ => (0, 0, -1)) (δ := 1) hull_ordered
  (fun i => (pair_proper i).ordered) pair_hull aestronglyMeasurable_const (by
    filter_upwards [ae_one_cell pair_disjoint pair_cover] with s ⟨i, _, hw⟩
    rw [totalAt_e, totalAt_n, totalAt_u, hw, hw, hw]
    fin_cases i <;> norm_num [Pt.e, Pt.n, Pt.u]) .u obs (by norm_num) hull_far

/-! ### float32 and float64 arguments -/

theorem sign32 : Numba32.SignSymmetric := numbaPow_signSymmetric Binary32_signSymmetric
theorem sign64 : Numba64.SignSymmetric := C90_laws.1

example := C120_distance_exchange sign32 sign64 (s 1) (s 2) (s 3) (l 4) (l 5) (l 6)
example := C120_exchange sign32 sign64 .eu (s 1) (s 2) (s 3) (l 4) (l 5) (l 6) (s 7)
example := C120_negate_mass sign32 sign64 .eu (s 1) (s 2) (s 3) (l 4) (l 5) (l 6) (s 7)
example := C120_negate_density sign32 sign64 .eu (s 0) (s 0) (s 9) (l (-1)) (l 1) (l (-1)) (l 1) (l (-2)) (l 0) (s 7)
example := C120_dipole_exchange sign32 sign64 .u (s 1) (s 2) (s 3) (l 4) (l 5) (l 6) (s 7) (s 8) (s 9)
example := C120_dipole_negate sign32 sign64 .u (s 1) (s 2) (s 3) (l 4) (l 5) (l 6) (s 7) (s 8) (s 9)
example := C120_dipole_mirror sign32 sign64 .u .e (s 1) (s 2) (s 3) (l 4) (l 5) (l 6) (s 7) (s 8) (s 9)
example := C120_point_mirror sign32 sign64 .eu .e (s 1) (s 2) (s 3) (l 4) (l 5) (l 6) (s 7)
example := C112_gravity (numbaPow_monotone Binary32_monotone) (numbaPow_monotone Binary64_monotone) numba_embeds .uu
  (s 0) (s 0) (s 9) (l (-1)) (l 1) (l (-1)) (l 1) (l (-2)) (l 0) (s 7)
example := C110_kernel numba_both Numba32_libm Numba64_libm .u (xv := s 1) (yv := s 2) (zv := s 3) (x := 1) (y := 2) (z := 3)
  (isReal_f32 _) (isReal_f32 _) (isReal_f32 _) (.inl trivial)
  (short_of (by norm_num) (by norm_num)) (short_of (by norm_num) (by norm_num)) (short_of (by norm_num) (by norm_num))

/-! ### The programs of the user guide -/

theorem two_chunks : Distribution (![[2, 0], [1]] : Fin 2 → List (Fin 3)) := by
  unfold Distribution
  decide

/-- three observation points, two prisms -/
noncomputable def three : Coordinates Exact 3 := points ![obs, src, top]

example := C84_terminates (c := three) (p := boxes pair) (d := values ![2670, 2700]) two_chunks (.refl _)
example := C84_progress (c := three) (p := boxes pair) (d := values ![2670, 2700]) exact_monotone two_chunks .refl
example := C85_terminates (c := three) (p := boxes pair) (garbage := fun _ => 7) two_chunks (.refl _)

/-! ### Designing a survey: two points resolve two prisms, also when they are moved a little -/

example : ∃ q : Fin 2 → Pt, (∀ i, dist (q i) obs < 1) ∧ ∃ ε > 0, ∀ q' : Fin 2 → Pt, (∀ i, dist (q' i) (q i) < ε) → Resolves q' pair := by
  have o : obs ∉ hull.region := not_mem_of_dist (d := 9) (by norm_num) hull_far
  obtain ⟨q, h1, h2, h3⟩ := C127_dense pair_proper pair_disjoint pair_hull (le_refl 2) (q := fun _ => obs) (fun _ => o) one_pos
  exact ⟨q, h1, C127_open (fun i => (pair_proper i).ordered) pair_hull h2 h3⟩

theorem one_chunk : Distribution (![[1, 0]] : Fin 1 → List (Fin 2)) := by
  unfold Distribution
  decide

example : ∃ J : Fin 2 → Fin 2 → ℝ, Resolves ![obs, src] pair ↔ LinearIndependent ℝ fun j i => J i j := by
  obtain ⟨J, hJ, -⟩ := C85_returns (c := points ![obs, src]) (p := boxes pair) exact_monotone one_chunk
  obtain ⟨J', -, h⟩ := C127_jacobian (fun i => (pair_proper i).ordered) ![obs, src] one_chunk hJ
  exact ⟨J', h⟩

/-! ### A survey of finite extent: the tensor of a point mass, known on a disc of 100 m -/

example : ∃ g : Pt → ℝ, (∀ p : Pt, 0 ≤ p.coord .u → Returns (onPair (A := Exact) (pointGravity .pot) p src (5 : ℝ)) (g p)) ∧
    ∀ K, (∀ s ∉ discAt (Pt.foot .u obs) 100, |g (Pt.onPlane .u 0 s)| ≤ K) →
      |(∫ s in discAt (Pt.foot .u obs) 100, g (Pt.onPlane .u 0 s) * upwardWeight .u 0 obs s) - g obs| ≤ K * missed (9 - 0) 100 := by
  obtain ⟨g, h1, h2⟩ := C134_point (a := .u) (t := 0) .pot (q := src) (by norm_num [src, Pt.coord, Pt.u]) 5
  exact ⟨g, h1, fun K hK => C140_upward h2 (p := obs) (by norm_num [obs, Pt.coord, Pt.u]) (by norm_num) hK
    (measurable_disc _ _) subset_rfl⟩

/-! ### Arrays whose lengths fit, and arrays whose lengths do not -/

theorem fits : Fits (A := Exact) [0, 1] [0, 1] [5, 5] ⟨6, [![0, 1, 0, 1, 0, 1]]⟩ [2670, 1] :=
  ⟨by decide, by decide, by decide, rfl⟩

example := C132_compiled exact_monotone fits ⟨fun _ => Fl.nan, fun _ => 3, fun _ => 0, fun _ => 0⟩

theorem both : Distribution (![[1], [0]] : Fin 2 → List (Fin 2)) := by
  unfold Distribution
  decide

example := C139_short (e := ([0, 1] : List (Fl Exact))) (n := [0]) (u := [5, 5]) (P := ⟨6, [![0, 1, 0, 1, 0, 1]]⟩) exact_monotone both
example := C139_product (e := ([0, 1] : List (Fl Exact))) (n := [0]) (u := [5, 5]) (P := ⟨6, [![0, 1, 0, 1, 0, 1]]⟩) exact_monotone
  ⟨fun _ => Fl.nan, fun _ => 3, fun _ => 0, fun _ => 0⟩ (fun _ _ => 1) [2670, 1]

example : ∃ J : Fin 2 → Fin 2 → Fl Exact, prism.gravity_u (0 : Fl Exact) 0 5 0 1 0 1 (-1) 2 1 = .ok (J 0 0) := by
  obtain ⟨J, hJ, -⟩ := C139_returns (e := ([0, 1] : List (Fl Exact))) (n := [0, 1]) (u := [5, 5])
    (P := ⟨5, [![0, 1, 0, 1, -1], ![2, 3, 0, 1, -1]]⟩) exact_monotone both ⟨fun _ => Fl.nan, fun _ => 3, fun _ => 0, fun _ => 0⟩
  exact ⟨J, C139_narrow both hJ 0 (by decide) (by decide) 0 (by decide)⟩

/-! ### Running the parallel loop over the prisms loses an update -/

example : ∃ s, (ParState.start (upwardPrismBody (A := Exact) (points ![obs]) (boxes pair) (values ![2670, 2700]) 0) ![[0], [1]] fun _ => 0).Reaches s ∧
      s.Finished ∧ ∀ r, gravity_upward (A := Exact) (points ![obs]) (boxes pair) (values ![2670, 2700]) = .ok r → s.mem 0 ≠ r 0 := by
  refine C84_prisms_wrong (fun i => (pair_proper i).ordered) ![obs] ![2670, 2700] 0 fun h => ?_
  obtain ⟨v, hv, hlt, -⟩ := C35_attractive (pair_proper 0) .u obs (show (0 : ℝ) < 2670 by norm_num)
  have h0 : v = 0 := Returns.inj hv h
  exact absurd h0 (hlt (by norm_num [pair, Box.centre, Box.lo, Box.hi, obs, Pt.coord, Pt.u])).ne

/-! ### Order survives rounding; exact arithmetic is one of the arithmetics -/

theorem exact_square : Exact.SquareRounded := fun _ => rfl

example := C81_distance exact_monotone Exact_signSymmetric exact_square obs top obs src
  (by norm_num [obs, top, src, Pt.e]) (by norm_num [obs, top, src, Pt.n]) (by norm_num [obs, top, src, Pt.u])
  (Ex.distance_cartesian_fin obs top) (Ex.distance_cartesian_fin obs src)

/-! ### Singular points with float32 arguments: a vertex of the prism -/

theorem vertex_prism : ArePrism (S := Numba32) (D := Numba64) (s 1) (s 1) (s 0) (s (-1)) (s 1) (s (-1)) (s 1) (s (-2)) (s 0) (1, 1, 0) exBox :=
  ⟨iff_of_false (not_wide32 _) (not_wide32 _), iff_of_false (not_wide32 _) (not_wide32 _),
    iff_of_false (not_wide32 _) (not_wide32 _), isReal_f32 _, isReal_f32 _, isReal_f32 _, isReal_f32 _, isReal_f32 _,
    isReal_f32 _, isReal_f32 _, isReal_f32 _, isReal_f32 _⟩

example := C113_magnetic_nan vertex_prism (.inl (by norm_num [Box.edges, Box.edgesE, Box.edgesN, Box.edgesU, exBox])) (s 1) (s 2) (s 3)

/-! ### Distributions of point masses -/

example : (Finsupp.single src (5 : ℝ)) = Finsupp.single src 5 :=
  C125_masses .uu _ _ isOpen_univ univ_nonempty fun p _ h1 _ => by
    refine ⟨fun q => Gc * Finsupp.single src (5 : ℝ) q * kp .uu (p.e - q.e) (p.n - q.n) (p.u - q.u), _, fun q hq => ?_, fun q hq => ?_, rfl⟩ <;>
      exact Ex.pointGravity_fin .uu (fun e => h1 (by rw [e]; exact hq)) _

end Choclo.Witness
