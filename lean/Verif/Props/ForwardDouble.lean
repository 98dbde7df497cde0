import Verif.Props.SumError
import Verif.Props.LawsDouble
import Verif.Props.Stability
import Verif.Props.Design

/-! # The forward model of the user guide in double precision: always finite, with an explicit error (C86), and inverting it (C127) -/

namespace Choclo

open MeasureTheory Real userguide

variable {N M : ℕ}

theorem offsets_volume {p : Pt} {P : Box} {L : ℝ} (hP : P.Ordered) (hL : OffsetsUpTo L p P) :
    0 ≤ L ∧ P.volume ≤ 4 / 3 * π * (2 * L) ^ 3 := by
  have hL0 : 0 ≤ L := (abs_nonneg _).trans (hL .e).1
  refine ⟨hL0, ?_⟩
  obtain ⟨h1, h2, h3⟩ := hP
  have side : ∀ a : Axis, P.hi a - P.lo a ≤ 2 * L := fun a => by
    have := abs_le.1 (hL a).1
    have := abs_le.1 (hL a).2
    linarith
  have e : P.east - P.west ≤ 2 * L := side .e
  have n : P.north - P.south ≤ 2 * L := side .n
  have u : P.top - P.bottom ≤ 2 * L := side .u
  have v : P.volume ≤ 2 * L * (2 * L) * (2 * L) := by
    unfold Box.volume
    have a : (P.east - P.west) * (P.north - P.south) ≤ 2 * L * (2 * L) :=
      mul_le_mul e n (by linarith) (by positivity)
    exact mul_le_mul a u (by linarith) (by positivity)
  have := Real.pi_gt_three
  have c : 0 ≤ (2 * L) ^ 3 := by positivity
  nlinarith

/-- what `gravity_u` returns in exact arithmetic is at most `26 G |ρ| L` -/
theorem gravity_u_le {p : Pt} {P : Box} {L : ℝ} (hP : P.Ordered) (hL : OffsetsUpTo L p P) (ρ : ℝ) {x : ℝ}
    (hx : Returns (onPrism (A := Exact) prism.gravity_u p P ρ) x) : |x| ≤ 26 * (6.6743e-11 * |ρ| * L) := by
  obtain ⟨hL0, hv⟩ := offsets_volume hP hL
  obtain ⟨-, g, hg, hb⟩ := C119_largest hP p ρ (R := 2 * L) (by positivity) hv
  have : x = g .u := Returns.inj hx (hg .u)
  rw [this]
  refine (Real.abs_le_sqrt ?_).trans (hb.trans ?_)
  · nlinarith [sq_nonneg (g .e), sq_nonneg (g .n)]
  · have := Real.pi_lt_d2
    have c : 0 ≤ 6.6743e-11 * |ρ| * L := by positivity
    nlinarith

/-- the same for IEEE double precision, with its distance from the exact value -/
theorem gravity_u_double {p : Pt} {P : Box} {L : ℝ} (hP : P.Ordered) (hm : ModerateOffsets p P) (hL : OffsetsUpTo L p P) {ρ : ℝ}
    (hρ : ModerateSize ρ) {x v : ℝ} (hx : Returns (onPrism (A := Exact) prism.gravity_u p P ρ) x)
    (hv : Returns (onPrism (A := Binary64) prism.gravity_u p P ρ) v) :
    |v - x| ≤ 2 ^ (-34 : ℤ) * (6.6743e-11 * |ρ| * L) ∧ |v| ≤ 27 * (6.6743e-11 * |ρ| * L) := by
  obtain ⟨g, hg, w, hw, hb⟩ := C98_gravity .u p P hP (fun h => h) hm hL ρ hρ
  obtain rfl : g = x := Returns.inj hg hx
  obtain rfl : v = w := Returns.inj hv hw
  have hL0 : 0 ≤ L := (abs_nonneg _).trans (hL .e).1
  have b1 : |v - g| ≤ 2 ^ (-34 : ℤ) * (6.6743e-11 * |ρ| * L) := by
    refine hb.trans (le_of_eq ?_)
    simp [GComp.letters, GComp.index]
  refine ⟨b1, ?_⟩
  have e : v = g + (v - g) := by ring
  have c : 0 ≤ 6.6743e-11 * |ρ| * L := by positivity
  have := gravity_u_le hP hL ρ hg
  have k : (2 : ℝ) ^ (-34 : ℤ) ≤ 1 := zpow_le_one_of_nonpos₀ (by norm_num) (by norm_num)
  rw [e]
  refine (abs_add_le _ _).trans ?_
  nlinarith

theorem offsets_moderate {p : Pt} {P : Box} (hm : ModerateOffsets p P) : OffsetsUpTo (2 ^ (80 : ℤ)) p P := by
  have k : ∀ {x : ℝ}, ModerateSize x → |x| ≤ 2 ^ (80 : ℤ) := fun h => by
    rcases h with rfl | h
    · rw [abs_zero]; positivity
    · exact h.2
  obtain ⟨m1, m2, m3, m4, m5, m6⟩ := hm
  intro a
  cases a
  exacts [⟨k m1, k m2⟩, ⟨k m3, k m4⟩, ⟨k m5, k m6⟩]

theorem pow_growth {m : ℕ} (h : (m : ℝ) ≤ 2 ^ 40) : (1 + (2 : ℝ) ^ (-53 : ℤ)) ^ m ≤ 1 + m * 2 ^ (-52 : ℤ) := by
  have e : (2 : ℝ) ^ (-52 : ℤ) = 2 * 2 ^ (-53 : ℤ) := by norm_num
  rw [e]
  have u0 : (0 : ℝ) < 2 ^ (-53 : ℤ) := by positivity
  have u1 : (2 : ℝ) ^ 40 * 2 ^ (-53 : ℤ) ≤ 1 / 2 := by norm_num
  generalize (2 : ℝ) ^ (-53 : ℤ) = u at *
  induction m with
  | zero => simp
  | succ m ih =>
    push_cast at h ⊢
    have ih := ih (by linarith)
    have m0 : (0 : ℝ) ≤ m := by positivity
    have mu : (m : ℝ) * u ≤ 1 / 2 := (mul_le_mul_of_nonneg_right (by linarith) u0.le).trans u1
    rw [pow_succ]
    have := mul_le_mul_of_nonneg_right ih (by linarith : (0 : ℝ) ≤ 1 + u)
    nlinarith

/-- **C86, for every model of moderate size.**  With offsets and densities between `2 ^ -80` and `2 ^ 80` (or zero), no boundary
farther than `L` from an observation point along its axis, and at most `2 ^ 40` prisms, the program of the user guide returns a
finite double at every observation point, which differs from the sum of Newton's integrals by at most
`(2 ^ -34 + M 2 ^ -47) G L Σ |ρ|`. -/
theorem C86_moderate {P : Fin M → Box} (hP : ∀ j, (P j).Ordered) (q : Fin N → Pt) (ρ : Fin M → ℝ)
    (hm : ∀ i j, ModerateOffsets (q i) (P j)) (hρ : ∀ j, ModerateSize (ρ j)) {L : ℝ} (hL : ∀ i j, OffsetsUpTo L (q i) (P j))
    (hM : M ≤ 2 ^ 40) :
    ∃ r : Fin N → Fl Binary64, gravity_upward (points q) (boxes P) (values ρ) = .ok r ∧
      ∀ i, ∃ y : ℝ, r i = (y : Fl Binary64) ∧
        |y - ∑ j, ∫ s in (P j).region, 6.6743e-11 * ρ j * (s.u - (q i).u) / dist3 (q i) s ^ 3|
          ≤ (2 ^ (-34 : ℤ) + M * 2 ^ (-47 : ℤ)) * (6.6743e-11 * L * ∑ j, |ρ j|) := by
  obtain ⟨r, hr⟩ := C83_total (c := points q) (p := boxes P) (d := values ρ) Binary64_monotone
  refine ⟨r, hr, fun i => ?_⟩
  set x : Fin M → ℝ := fun j => ∫ s in (P j).region, 6.6743e-11 * ρ j * (s.u - (q i).u) / dist3 (q i) s ^ 3 with hx
  have hL0 : ∀ _ : Fin M, 0 ≤ L := fun j => (abs_nonneg _).trans (hL i j .e).1
  have rx : ∀ j, Returns (onPrism (A := Exact) prism.gravity_u (q i) (P j) (ρ j)) (x j) := fun j =>
    (C22_newton_integral (hP j) .u (q i) (ρ j)).2
  have rv : ∀ j, ∃ v, Returns (onPrism (A := Binary64) prism.gravity_u (q i) (P j) (ρ j)) v := fun j => by
    obtain ⟨g, hg, v, hv, -⟩ := C98_gravity .u (q i) (P j) (hP j) (fun h => h) (hm i j) (hL i j) (ρ j) (hρ j)
    exact ⟨v, hv⟩
  choose v hv using rv
  have hvx := fun j => (gravity_u_double (hP j) (hm i j) (hL i j) (hρ j) (rx j) (hv j)).1
  have hvb := fun j => (gravity_u_double (hP j) (hm i j) (hL i j) (hρ j) (rx j) (hv j)).2
  have hvm := fun j => (gravity_u_double (hP j) (hm i j) (offsets_moderate (hm i j)) (hρ j) (rx j) (hv j)).2
  set S : ℝ := 6.6743e-11 * L * ∑ j, |ρ j| with hS
  have eS : S = ∑ j, 6.6743e-11 * |ρ j| * L := by
    rw [hS, Finset.mul_sum]
    exact Finset.sum_congr rfl fun j _ => by ring
  have hS0 : 0 ≤ S := by
    rw [eS]
    exact Finset.sum_nonneg fun j _ => by have := hL0 j; positivity
  have h1 : |∑ j, v j - ∑ j, x j| ≤ 2 ^ (-34 : ℤ) * S := by
    rw [← Finset.sum_sub_distrib, eS, Finset.mul_sum]
    exact (Finset.abs_sum_le_sum_abs _ _).trans (Finset.sum_le_sum fun j _ => hvx j)
  have h2 : ∑ j, |v j| ≤ 27 * S := by
    rw [eS, Finset.mul_sum]
    exact Finset.sum_le_sum fun j _ => hvb j
  have hMr : (M : ℝ) ≤ 2 ^ 40 := by exact_mod_cast hM
  have h3 : ∑ j, |v j| ≤ 2 ^ (300 : ℤ) := by
    have b : ∀ j, |v j| ≤ 2 ^ (170 : ℤ) := fun j => by
      refine (hvm j).trans ?_
      have r : |ρ j| ≤ 2 ^ (80 : ℤ) := by
        rcases hρ j with h | h
        · rw [h, abs_zero]; positivity
        · exact h.2
      calc 27 * (6.6743e-11 * |ρ j| * 2 ^ (80 : ℤ)) ≤ 27 * (6.6743e-11 * 2 ^ (80 : ℤ) * 2 ^ (80 : ℤ)) := by gcongr
        _ = 27 * 6.6743e-11 * 2 ^ (160 : ℤ) := by
          rw [show (160 : ℤ) = 80 + 80 by norm_num, zpow_add₀ (by norm_num)]; ring
        _ ≤ 1 * 2 ^ (160 : ℤ) := by gcongr; norm_num
        _ ≤ 2 ^ (170 : ℤ) := by rw [one_mul]; exact zpow_le_zpow_right₀ (by norm_num) (by norm_num)
    calc ∑ j, |v j| ≤ ∑ _j : Fin M, (2 : ℝ) ^ (170 : ℤ) := Finset.sum_le_sum fun j _ => b j
      _ = M * 2 ^ (170 : ℤ) := by simp
      _ ≤ 2 ^ (40 : ℤ) * 2 ^ (170 : ℤ) := by gcongr; exact_mod_cast hMr
      _ = 2 ^ (210 : ℤ) := by rw [← zpow_add₀ (by norm_num)]; norm_num
      _ ≤ 2 ^ (300 : ℤ) := zpow_le_zpow_right₀ (by norm_num) (by norm_num)
  have g1 := pow_growth hMr
  have g2 : (M : ℝ) * 2 ^ (-52 : ℤ) ≤ 1 := by
    have : (2 : ℝ) ^ 40 * 2 ^ (-52 : ℤ) ≤ 1 := by norm_num
    exact (mul_le_mul_of_nonneg_right hMr (by positivity)).trans this
  obtain ⟨y, hy⟩ := C86_finite hr (i := i) (v := v) hv (by
    calc (1 + 2 ^ (-53 : ℤ)) ^ M * ∑ j, |v j| ≤ 2 * 2 ^ (300 : ℤ) :=
          mul_le_mul (by linarith) h3 (Finset.sum_nonneg fun _ _ => abs_nonneg _) (by norm_num)
      _ = 2 ^ (301 : ℤ) := by rw [show (301 : ℤ) = 1 + 300 by norm_num, zpow_add₀ (by norm_num), zpow_one]
      _ ≤ 2 ^ (1023 : ℤ) := zpow_le_zpow_right₀ (by norm_num) (by norm_num))
  refine ⟨y, hy, ?_⟩
  obtain ⟨w, hw, hb⟩ := C86_sum hr hy
  have ew : w = v := funext fun j => Returns.inj (hw j) (hv j)
  rw [ew] at hb
  have g3 : (1 + (2 : ℝ) ^ (-53 : ℤ)) ^ (M - 1) - 1 ≤ M * 2 ^ (-52 : ℤ) := by
    have u0 : (0 : ℝ) < 2 ^ (-53 : ℤ) := by positivity
    have := pow_le_pow_right₀ (a := 1 + (2 : ℝ) ^ (-53 : ℤ)) (by linarith) (Nat.sub_le M 1)
    linarith
  have g4 : |y - ∑ j, v j| ≤ M * 2 ^ (-47 : ℤ) * S := by
    refine hb.trans ?_
    calc ((1 + (2 : ℝ) ^ (-53 : ℤ)) ^ (M - 1) - 1) * ∑ j, |v j| ≤ (M * 2 ^ (-52 : ℤ)) * (27 * S) :=
          mul_le_mul g3 h2 (Finset.sum_nonneg fun _ _ => abs_nonneg _) (by positivity)
      _ ≤ (M * 2 ^ (-52 : ℤ)) * (32 * S) := by gcongr; norm_num
      _ = M * 2 ^ (-47 : ℤ) * S := by
        rw [show (2 : ℝ) ^ (-47 : ℤ) = 2 ^ (-52 : ℤ) * 32 by norm_num]; ring
  calc |y - ∑ j, x j| = |(y - ∑ j, v j) + (∑ j, v j - ∑ j, x j)| := by congr 1; ring
    _ ≤ _ := abs_add_le _ _
    _ ≤ _ := by linarith

/-- the model of the user guide's size: four prisms seen from three points -/
example : ∃ r : Fin 3 → Fl Binary64, gravity_upward (points fun _ => (130, 75, 5)) (boxes fun _ : Fin 4 => demoPrism)
    (values fun _ => 2670) = .ok r ∧ ∀ i, ∃ y : ℝ, r i = (y : Fl Binary64) ∧
      |y - ∑ _j : Fin 4, ∫ s in demoPrism.region, 6.6743e-11 * 2670 * (s.u - 5) / dist3 (130, 75, 5) s ^ 3|
        ≤ (2 ^ (-34 : ℤ) + (4 : ℕ) * 2 ^ (-47 : ℤ)) * (6.6743e-11 * 1000 * ∑ _j : Fin 4, |(2670 : ℝ)|) :=
  C86_moderate (P := fun _ => demoPrism) (fun _ => demo_ordered) (fun _ => (130, 75, 5)) (fun _ => 2670) (fun _ _ => demo_offsets)
    (fun _ => .inr (by norm_num)) (fun _ _ a => by cases a <;> norm_num [demoPrism, Box.lo, Box.hi, Pt.coord, Pt.e, Pt.n, Pt.u, abs_le]) (by norm_num)

/-- **C84, for every model of moderate size.**  The parallel loop in double precision, whatever the number of threads, the
distribution of the points and the interleaving, returns one and the same array of finite doubles, within the bound of C86 of the
sums of Newton's integrals. -/
theorem C84_moderate {P : Fin M → Box} (hP : ∀ j, (P j).Ordered) (q : Fin N → Pt) (ρ : Fin M → ℝ)
    (hm : ∀ i j, ModerateOffsets (q i) (P j)) (hρ : ∀ j, ModerateSize (ρ j)) {L : ℝ} (hL : ∀ i j, OffsetsUpTo L (q i) (P j))
    (hM : M ≤ 2 ^ 40) {T : ℕ} {chunks : Fin T → List (Fin N)} (hc : Distribution chunks) :
    ∃ r : Fin N → Fl Binary64, (∀ r', gravity_upward_parallel (points q) (boxes P) (values ρ) chunks r' ↔ r' = r) ∧
      ∀ i, ∃ y : ℝ, r i = (y : Fl Binary64) ∧
        |y - ∑ j, ∫ s in (P j).region, 6.6743e-11 * ρ j * (s.u - (q i).u) / dist3 (q i) s ^ 3|
          ≤ (2 ^ (-34 : ℤ) + M * 2 ^ (-47 : ℤ)) * (6.6743e-11 * L * ∑ j, |ρ j|) := by
  obtain ⟨r, hr, h⟩ := C86_moderate hP q ρ hm hρ hL hM
  obtain ⟨r₁, h₁, -⟩ := C84_returns (A := Binary64) (c := points q) (p := boxes P) (d := values ρ) Binary64_monotone hc
  have e : ∀ r', gravity_upward_parallel (points q) (boxes P) (values ρ) chunks r' → r' = r := fun r' h' =>
    Except.ok.inj ((C84_deterministic hc h').symm.trans hr)
  refine ⟨r, fun r' => ⟨e r', ?_⟩, h⟩
  rintro rfl
  rwa [← e r₁ h₁]

/-- three points on two threads, four prisms -/
example : ∃ r : Fin 3 → Fl Binary64, (∀ r', gravity_upward_parallel (points fun _ => (130, 75, 5)) (boxes fun _ : Fin 4 => demoPrism)
    (values fun _ => 2670) (![[2, 0], [1]] : Fin 2 → List (Fin 3)) r' ↔ r' = r) ∧ ∀ i, ∃ y : ℝ, r i = (y : Fl Binary64) := by
  obtain ⟨r, hr, h⟩ := C84_moderate (P := fun _ : Fin 4 => demoPrism) (fun _ => demo_ordered) (fun _ => (130, 75, 5)) (fun _ => 2670)
    (fun _ _ => demo_offsets) (fun _ => .inr (by norm_num))
    (fun _ _ a => by cases a <;> norm_num [demoPrism, Box.lo, Box.hi, Pt.coord, Pt.e, Pt.n, Pt.u, abs_le]) (L := 1000) (by norm_num)
    (chunks := (![[2, 0], [1]] : Fin 2 → List (Fin 3))) (by constructor <;> decide)
  exact ⟨r, hr, fun i => (h i).imp fun y h => h.1⟩

/-- **C127, end to end.** The forward model of the user guide, run in double precision with moderate positions and densities,
always returns finite data, and a left inverse `X` of the matrix of Newton's integrals for unit density applied to these data
recovers every density up to the sum of the magnitudes in its row of `X` times the explicit bound of C86. -/
theorem C127_noise {P : Fin M → Box} (hP : ∀ j, (P j).Ordered) (q : Fin N → Pt) (ρ : Fin M → ℝ)
    (hm : ∀ i j, ModerateOffsets (q i) (P j)) (hρ : ∀ j, ModerateSize (ρ j)) {L : ℝ} (hL : ∀ i j, OffsetsUpTo L (q i) (P j))
    (hM : M ≤ 2 ^ 40) {J : Matrix (Fin N) (Fin M) ℝ}
    (hJ : ∀ i j, J i j = ∫ s in (P j).region, 6.6743e-11 * (s.u - (q i).u) / dist3 (q i) s ^ 3)
    {X : Matrix (Fin M) (Fin N) ℝ} (hX : X * J = 1) :
    ∃ (r : Fin N → Fl Binary64) (y : Fin N → ℝ), gravity_upward (points q) (boxes P) (values ρ) = .ok r ∧
      (∀ i, r i = (y i : Fl Binary64)) ∧
      ∀ j, |X.mulVec y j - ρ j|
        ≤ (∑ i, |X j i|) * ((2 ^ (-34 : ℤ) + M * 2 ^ (-47 : ℤ)) * (6.6743e-11 * L * ∑ j, |ρ j|)) := by
  obtain ⟨r, hr, h⟩ := C86_moderate hP q ρ hm hρ hL hM
  choose y hy hb using h
  refine ⟨r, y, hr, hy, fun j => ?_⟩
  have hd : ∀ i, |y i - J.mulVec ρ i| ≤ (2 ^ (-34 : ℤ) + M * 2 ^ (-47 : ℤ)) * (6.6743e-11 * L * ∑ j, |ρ j|) := fun i => by
    have e : J.mulVec ρ i = ∑ j, ∫ s in (P j).region, 6.6743e-11 * ρ j * (s.u - (q i).u) / dist3 (q i) s ^ 3 := by
      simp only [Matrix.mulVec, dotProduct]
      refine Finset.sum_congr rfl fun k _ => ?_
      rw [hJ, mul_comm, ← MeasureTheory.integral_const_mul]
      refine MeasureTheory.integral_congr_ae (.of_forall fun s => ?_)
      dsimp only
      ring
    rw [e]
    exact hb i
  have e : X.mulVec y j - ρ j = ∑ i, X j i * (y i - J.mulVec ρ i) := by
    have h1 : X.mulVec (J.mulVec ρ) = ρ := by rw [Matrix.mulVec_mulVec, hX, Matrix.one_mulVec]
    have h2 := congrFun h1 j
    simp only [mul_sub, Finset.sum_sub_distrib]
    rw [← h2]
    rfl
  rw [e, Finset.sum_mul]
  refine (Finset.abs_sum_le_sum_abs _ _).trans (Finset.sum_le_sum fun i _ => ?_)
  rw [abs_mul]
  exact mul_le_mul_of_nonneg_left (hd i) (abs_nonneg _)

/-- one prism and one point above it: the only entry is negative, so it has an inverse -/
example : ∃ (J : Matrix (Fin 1) (Fin 1) ℝ) (X : Matrix (Fin 1) (Fin 1) ℝ),
    (∀ i j, J i j = ∫ s in demoPrism.region, 6.6743e-11 * (s.u - 5) / dist3 (130, 75, 5) s ^ 3) ∧ X * J = 1 := by
  have hv : Vc .u (130, 75, 5) demoPrism < 0 :=
    Vacc_neg_above (by norm_num [Box.Proper, demoPrism]) .u (130, 75, 5) (by norm_num [demoPrism, Box.hi, Pt.coord, Pt.u])
  have e : ∫ s in demoPrism.region, 6.6743e-11 * (s.u - 5) / dist3 (130, 75, 5) s ^ 3
      = 6.6743e-11 * Vc .u (130, 75, 5) demoPrism := by
    rw [Vc_low_integral demo_ordered .u (by decide) (130, 75, 5), ← MeasureTheory.integral_const_mul]
    refine MeasureTheory.integral_congr_ae (.of_forall fun s => ?_)
    have := kpp_acc_dist .u (130, 75, 5) s
    simp only [Axis.acc, Pt.coord, Pt.u] at this ⊢
    rw [this]
    ring
  have ne : (6.6743e-11 * Vc .u (130, 75, 5) demoPrism : ℝ) ≠ 0 := mul_ne_zero (by norm_num) hv.ne
  refine ⟨Matrix.of fun _ _ => 6.6743e-11 * Vc .u (130, 75, 5) demoPrism,
    Matrix.of fun _ _ => (6.6743e-11 * Vc .u (130, 75, 5) demoPrism)⁻¹,
    fun _ _ => e.symm, ?_⟩
  ext i j
  obtain rfl : i = 0 := Subsingleton.elim _ _
  obtain rfl : j = 0 := Subsingleton.elim _ _
  rw [Matrix.mul_apply, Fin.sum_univ_one, Matrix.one_apply_eq]
  exact inv_mul_cancel₀ ne

end Choclo
