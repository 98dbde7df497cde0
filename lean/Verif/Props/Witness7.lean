import Verif.Props.Witness6
import Verif.Props.ForwardSingle
import Verif.Props.NpInt
import Verif.Props.Unsigned
import Verif.Props.Overflow32
import Verif.Props.SphericalSingle
import Verif.Props.Spherical

/-! # The theorems applied to concrete data, continued -/

namespace Choclo.Witness

open Choclo userguide MeasureTheory Set

/-! ### Scaling by powers of two, with 53 bits and no bounds on the exponent -/

example := C82_kernel (Binary53_scaleInvariant) 3 .een 1 2 3 0 5 0 7
example := C82_point (Binary53_scaleInvariant) 3 (-1) .uu 1 2 3 0 5 0 2670
example := C82_dipole (Binary53_scaleInvariant) 3 (-1) .u 1 2 3 0 5 0 7 8 9
example := C82_gradient (Binary53_scaleInvariant) 3 (-1) .e .u 1 2 30 0 5 0 5 (-5) 0 7 8 9
example := C82_magnetization (Binary53_scaleInvariant) 3 .u 1 2 30 0 5 0 5 (-5) 0 7 8 9

/-! ### NumPy integers -/

example := C147_utils Numba64_ints
example := C147_point_kernels Numba64_ints
example := C147_prism_kernels Binary64_ints
example := C147_prism_gravity Numba64_ints
example := C147_prism_magnetic Numba64_ints
example := C147_dipole Exact_ints

/-! ### Unsigned integers -/

theorem ints53 : Numba64.ExactInts (2 ^ 53) := C90_laws.2.2.2.2.1

example := C148_distance (C := 2 ^ 24) ints53 (by norm_num) (by norm_num)
example := C148_third (C := 2 ^ 15) ints53 (by norm_num) (by norm_num) (by norm_num) 7
example := C148_dipole (C := 2 ^ 14) (M := 2 ^ 18) ints53 (by norm_num) (by norm_num) (by norm_num) (by norm_num) (by norm_num)
  (m₁ := .uint 7) (m₂ := .int (-8)) (m₃ := .uint 9) (by norm_num [UFl.IntegerUpTo]) (by norm_num [UFl.IntegerUpTo])
  (by norm_num [UFl.IntegerUpTo])
example := C148_wrong (A := Numba64) (p := 10) (q := 3) (by norm_num) (by norm_num) (.uint 0) (.uint 0) (.uint 0) (.uint 0) 7
example := C148_above (k := 1000) (by norm_num) (by norm_num) 1e12

/-! ### The user guide in double precision -/

/-- the bound of the offsets of the prism of the user guide -/
theorem demo_upTo : OffsetsUpTo 1000 (130, 75, 5) demoPrism := fun a => by
  cases a <;> norm_num [demoPrism, Box.lo, Box.hi, Pt.coord, Pt.e, Pt.n, Pt.u, abs_le]

example : ∃ (r : Fin 3 → Fl Binary64) (y : ℝ) (v : Fin 4 → ℝ),
    gravity_upward (points fun _ => (130, 75, 5)) (boxes fun _ : Fin 4 => demoPrism) (values fun _ => 2670) = .ok r ∧
    r 0 = Fl.fin y ∧
    |y - ∑ j, v j| ≤ ((1 + 2 ^ (-53 : ℤ)) ^ (4 - 1) - 1) * ∑ j, |v j| := by
  obtain ⟨r, hr, h⟩ := C86_moderate (P := fun _ : Fin 4 => demoPrism) (fun _ => demo_ordered) (fun _ : Fin 3 => (130, 75, 5))
    (fun _ => 2670) (fun _ _ => demo_offsets) (fun _ => size_2670) (fun _ _ => demo_upTo) (by norm_num)
  obtain ⟨y, hy, -⟩ := h 0
  have := C86_newton (P := fun _ : Fin 4 => demoPrism) (fun _ => demo_ordered) (fun _ : Fin 3 => (130, 75, 5))
    (fun _ => 2670) (fun _ _ => demo_offsets) (fun _ => size_2670) hr hy (fun _ => rfl) fun _ => rfl
  obtain ⟨v, -, hv⟩ := C86_sum hr hy
  exact ⟨r, y, v, hr, hy, hv⟩

/-- moving the points to other places in the array moves the results with them -/
example : ∃ (r : Fin 3 → Fl Binary64) (r' : Fin 2 → Fl Binary64),
    gravity_upward (points ![(130, 75, 5), (0, 0, 9), (1, 2, 3)]) (boxes fun _ : Fin 4 => demoPrism) (values fun _ => 2670) = .ok r ∧
    gravity_upward (points ![(0, 0, 9), (130, 75, 5)]) (boxes fun _ : Fin 4 => demoPrism) (values fun _ => 2670) = .ok r' ∧
    r 0 = r' 1 := by
  obtain ⟨r, hr⟩ := C83_total (c := points ![(130, 75, 5), (0, 0, 9), (1, 2, 3)]) (p := boxes fun _ : Fin 4 => demoPrism)
    (d := values fun _ => 2670) Binary64_monotone
  obtain ⟨r', hr'⟩ := C83_total (c := points ![(0, 0, 9), (130, 75, 5)]) (p := boxes fun _ : Fin 4 => demoPrism)
    (d := values fun _ => 2670) Binary64_monotone
  exact ⟨r, r', hr, hr', C83_pointwise rfl rfl rfl hr hr'⟩

/-- the loop over prisms in parallel loses an update -/
example : ∃ (g₁ : Fl Binary64) (s : _), (ParState.start (upwardPrismBody (points ![(130, 75, 5)]) (boxes fun _ : Fin 2 => demoPrism)
    (values fun _ => 2670) 0) ![[0], [1]] fun _ => 0).Reaches s ∧ s.Finished ∧ s.mem 0 = 0 + g₁ := by
  have h : ∀ j, ∃ g, fieldOf (A := Binary64) (points ![(130, 75, 5)]) (boxes fun _ : Fin 2 => demoPrism) (values fun _ => 2670) 0 j = .ok g := by
    obtain ⟨r, hr⟩ := C83_total (c := points ![(130, 75, 5)]) (p := boxes fun _ : Fin 2 => demoPrism) (d := values fun _ => 2670)
      Binary64_monotone
    obtain ⟨G, hG, -⟩ := (C83_forward r).1 hr
    exact fun j => ⟨G 0 j, hG 0 j⟩
  choose g hg using h
  obtain ⟨s, h1, h2, h3⟩ := C84_prisms_lose_update (0 : Fin 1) (hg 0) (hg 1)
  exact ⟨g 1, s, h1, h2, h3⟩

/-! ### Monotone in the density and the mass -/

/-- three masses, in double precision, at the same place -/
example : ∃ y : ℝ → ℝ, (∀ m : ℝ, 1 ≤ m → m ≤ 3 → Returns (onPair (A := Binary64) (pointGravity .u) obs src m) (y m)) ∧
    ((y 1 ≤ y 2 ∧ y 2 ≤ y 3) ∨ (y 3 ≤ y 2 ∧ y 2 ≤ y 1)) := by
  have h : ∀ m : ℝ, ∃ y, 1 ≤ m → m ≤ 3 → Returns (onPair (A := Binary64) (pointGravity .u) obs src m) y := fun m => by
    by_cases h : 1 ≤ m ∧ m ≤ 3
    · obtain ⟨y, hy, -⟩ := (C50_double obs src obs_ne m (fun a => by
        cases a <;> exact moderate_of' (by norm_num [obs, src, Pt.coord, Pt.e, Pt.n, Pt.u, abs_of_pos])
          (by norm_num [obs, src, Pt.coord, Pt.e, Pt.n, Pt.u, abs_of_pos]))
        (moderate_of' (by rw [abs_of_pos] <;> linarith) (by rw [abs_of_pos] <;> linarith))).2.2.1 .u
      exact ⟨y, fun _ _ => hy⟩
    · exact ⟨0, fun h1 h2 => absurd ⟨h1, h2⟩ h⟩
  choose y hy using h
  exact ⟨y, hy, C81_mass Binary64_monotone .u _ _ _ _ _ _ (by norm_num) (by norm_num) (hy 1 (by norm_num) (by norm_num))
    (hy 2 (by norm_num) (by norm_num)) (hy 3 (by norm_num) (by norm_num))⟩

/-! ### float32 and float64 arrays -/

example := C131_jacobian (c := demoPoints32 (S := Numba32) (D := Numba64)) (p := demoPrisms32) two_chunks fun _ _ => 0
theorem doubles {a : MFl Numba32 Numba64} (n : ℤ) (ha : a.IsReal n) (h : |2 * n| ≤ 2 ^ 53) : DoublesExactly a.toD := by
  intro x e
  rw [ha] at e
  injection e with e
  have := ints53.1 (2 * n) (by exact_mod_cast h)
  rw [← e]
  push_cast at this
  exact this

theorem real64 (x : ℝ) : (MFl.f64 (Fl.fin x) : MFl Numba32 Numba64).IsReal x := by
  unfold MFl.IsReal
  rw [MFl.toD_f64]

example := C120_spherical_exchange sign32 sign64 (.f32 (Fl.fin 10)) (.f32 (Fl.fin 20)) (.f32 (Fl.fin ((6378137 : ℤ) : ℝ)))
  (.f64 (Fl.fin 30)) (.f64 (Fl.fin 40)) (.f64 (Fl.fin ((6371000 : ℤ) : ℝ))) (doubles _ (isReal_f32 _) (by norm_num))
  (doubles _ (real64 _) (by norm_num))

example := C112_magnetic_field (numbaPow_monotone Binary32_monotone) (numbaPow_monotone Binary64_monotone) numba_embeds
  Binary64_pi_ne_zero (.f32 Fl.nan) (.f64 0) (.f32 (Fl.inf true)) (.f32 0) (.f32 0) (.f32 0) (.f32 0) (.f32 0) (.f32 0)
  (.f32 1) (.f32 2) (.f32 3)

/-- the same point once in float32 and once in float64 -/
theorem same_point : ArePoints (S := Binary32) (D := Binary64) (.f32 (Fl.fin 0)) (.f32 (Fl.fin 0)) (.f32 (Fl.fin 9)) (.f64 (Fl.fin 0))
    (.f64 (Fl.fin 0)) (.f64 (Fl.fin 9)) obs obs :=
  ⟨isReal_f32 _, isReal_f32 _, isReal_f32 _, MFl.toD_f64 _, MFl.toD_f64 _, MFl.toD_f64 _⟩

example := C122_distance_zero Binary32_exactAtZero' Binary64_exactAtZero same_point
example := C122_dipole_raises Binary32_exactAtZero' Binary64_exactAtZero .u same_point (.f32 1) (.f64 2) (.f32 3)

/-- a kernel of a pair of points, and its relative error -/
example : ∃ x : ℝ, Returns (callKernel (A := Exact) .pot obs (0, 0, 0)) x ∧
    ReturnsNear (callKernel (A := Binary64) .pot obs (0, 0, 0)) x (gammaErr (2 ^ (-53 : ℤ)) 41) :=
  C94_relative Binary64_accurate .pot trivial _ _ (by norm_num [obs]) (by
    have hd : dist3 obs (0, 0, 0) = 9 := by
      unfold dist3
      rw [Real.sqrt_eq_iff_mul_self_eq (by positivity) (by norm_num)]
      norm_num [obs, Pt.e, Pt.n, Pt.u]
    have k : ∀ x : ℝ, 1 / 9 ≤ |x| → |x| ≤ 81 → InSafeRange (2 ^ (-1022 : ℤ)) (2 ^ (1023 : ℤ)) x := fun x h1 h2 => .inr
      ⟨by
        have : (2 : ℝ) * 2 ^ (-1022 : ℤ) ≤ 1 / 9 := by
          calc (2 : ℝ) * 2 ^ (-1022 : ℤ) ≤ 2 * 2 ^ (-10 : ℤ) := by gcongr <;> norm_num
            _ ≤ 1 / 9 := by norm_num
        linarith, by
        have : (162 : ℝ) ≤ 2 ^ (1023 : ℤ) := by
          calc (162 : ℝ) ≤ 2 ^ (10 : ℤ) := by norm_num
            _ ≤ _ := zpow_le_zpow_right₀ (by norm_num) (by norm_num)
        exact (mul_le_mul_of_nonneg_left h2 zero_le_two).trans (le_trans (by norm_num) this)⟩
    intro t ht
    simp only [distanceSteps, kernelSteps, hd, obs, Pt.e, Pt.n, Pt.u, List.mem_append, List.mem_cons, List.not_mem_nil, or_false] at ht
    by_cases h0 : t = 0
    · exact .inl h0
    · refine k t ?_ ?_ <;> rcases ht with (h | h | h | h | h | h | h | h | h) | h <;> subst h <;> first | (exfalso; norm_num at h0; done) | norm_num)

example := C110_magnetic numba_both Numba32_libm Numba64_libm .uu single_prism (vMe := s 1) (vMn := s 2) (vMu := s 3) (M := mag)
  (isReal_f32 _) (isReal_f32 _) (isReal_f32 _) exBox_ordered obs_edges obs_interior single_offsets sizes_mag

/-- a point 60 000 km above a point mass -/
example := C108_gradient (p := (0, 0, 60000000)) (q := (0, 0, 0)) (fun a => by
    cases a
    · exact .inl (by norm_num [Pt.coord, Pt.e])
    · exact .inl (by norm_num [Pt.coord, Pt.n])
    · exact .inr (by norm_num [Pt.coord, Pt.u, abs_of_pos]))
  (by
    unfold dist3
    rw [Real.le_sqrt (by norm_num) (by positivity)]
    norm_num [Pt.e, Pt.n, Pt.u]) (vm := .f32 (Fl.fin 5)) (isReal_f32 _)
  (moderate_of (by norm_num [abs_of_pos]) (by norm_num [abs_of_pos]))

/-- a prism that extends upward to infinity, seen from beside it -/
example := C103_top exBox exBox_ordered (5, 0, -1) 2670 fun w hw => exterior_singular
  ⟨by norm_num [exBox], by norm_num [exBox], by
    have : (-1 : ℝ) < w := hw
    show (-2 : ℝ) ≤ w
    linarith⟩ (by norm_num [Box.region, exBox]) _

/-- two points on the equator, from exact sines and cosines -/
example := C129_core (vlp := .f32 (Fl.fin 0)) (vlq := .f32 (Fl.fin 0)) (vcp := .f32 (Fl.fin 1)) (vsp := .f64 (Fl.fin 0))
  (vcq := .f32 (Fl.fin 1)) (vsq := .f32 (Fl.fin 0)) (vrp := .f32 (Fl.fin 6378137)) (vrq := .f64 (Fl.fin 6371000))
  (lonp := 0) (latp := 0) (lonq := 0) (latq := 0)
  (isReal_f32 _) (isReal_f32 _) (real64 _) (isReal_f32 _) (isReal_f32 _) (isReal_f32 _) (isReal_f32 _) (real64 _)
  (by simp [Real.pi_nonneg]) (by simp [Real.pi_nonneg]) (by simp) (by simp) (by simp) (by simp) (by simp) (by simp)
  (by constructor <;> norm_num) (by constructor <;> norm_num) (.inr (by norm_num [abs_of_pos])) rfl

example := C63_core Binary64_accurate Binary64_trigAccurate (by norm_num) (lonp := 0) (latp := 0) (lonq := 0) (latq := 0)
  (lp := 0) (cp := 1) (sp := 0) (rp := 6378137) (lq := 0) (cq := 1) (sq := 0) (rq := 6371000)
  (by simp [Real.pi_nonneg]) (by simp [Real.pi_nonneg]) (by simp) (by simp) (by simp) (by simp) (by simp) (by simp)
  (by constructor <;> norm_num) (by constructor <;> norm_num) (moderate_of (by norm_num [abs_of_pos]) (by norm_num [abs_of_pos])) rfl

/-- the inverse of the matrix of one prism and one point -/
example : ∃ (X : Matrix (Fin 1) (Fin 1) ℝ) (r : Fin 1 → Fl Binary64) (y : Fin 1 → ℝ),
    gravity_upward (points fun _ : Fin 1 => (130, 75, 5)) (boxes fun _ : Fin 1 => demoPrism) (values fun _ => 2670) = .ok r ∧
    (∀ i, r i = Fl.fin (y i)) ∧ ∀ j, |X.mulVec y j - 2670|
      ≤ (∑ i, |X j i|) * ((2 ^ (-34 : ℤ) + (1 : ℕ) * 2 ^ (-47 : ℤ)) * (6.6743e-11 * 1000 * ∑ _j : Fin 1, |(2670 : ℝ)|)) := by
  have hv : Vc .u (130, 75, 5) demoPrism < 0 :=
    Vacc_neg_above (by norm_num [Box.Proper, demoPrism]) .u (130, 75, 5) (by norm_num [demoPrism, Box.hi, Pt.coord, Pt.u])
  have e : ∫ s in demoPrism.region, 6.6743e-11 * (s.u - 5) / dist3 (130, 75, 5) s ^ 3
      = 6.6743e-11 * Vc .u (130, 75, 5) demoPrism := by
    rw [Vc_low_integral demo_ordered .u (by decide) (130, 75, 5), ← MeasureTheory.integral_const_mul]
    refine MeasureTheory.integral_congr_ae (.of_forall fun s => ?_)
    have := kpp_acc_dist .u (130, 75, 5) s
    simp only [Axis.acc, Pt.coord, Pt.u] at this ⊢
    rw [this]
    ring
  have ne : (6.6743e-11 * Vc .u (130, 75, 5) demoPrism : ℝ) ≠ 0 := mul_ne_zero (by norm_num) hv.ne
  obtain ⟨r, y, h1, h2, h3⟩ := C127_noise (P := fun _ : Fin 1 => demoPrism) (fun _ => demo_ordered)
    (fun _ : Fin 1 => (130, 75, 5)) (fun _ => 2670) (fun _ _ => demo_offsets) (fun _ => size_2670) (fun _ _ => demo_upTo) (by norm_num)
    (J := Matrix.of fun _ _ => 6.6743e-11 * Vc .u (130, 75, 5) demoPrism) (fun _ _ => e.symm)
    (X := Matrix.of fun _ _ => (6.6743e-11 * Vc .u (130, 75, 5) demoPrism)⁻¹) (by
      ext i j
      obtain rfl : i = 0 := Subsingleton.elim _ _
      obtain rfl : j = 0 := Subsingleton.elim _ _
      rw [Matrix.mul_apply, Fin.sum_univ_one, Matrix.one_apply_eq]
      exact inv_mul_cancel₀ ne)
  exact ⟨_, r, y, h1, h2, h3⟩

end Choclo.Witness
