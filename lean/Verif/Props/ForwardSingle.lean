import Verif.Props.GuideSingle
import Verif.Props.ForwardDouble
import Verif.Props.JacobianDouble

/-! # The forward model of the user guide with float32 arrays: always finite, with an explicit error (C131) -/

namespace Choclo

open MeasureTheory Real Mixed.userguide

variable {N M T : ℕ}

theorem short_moderate {x : ℝ} (h : ShortLength x) : ModerateSize x := by
  rcases h with h | ⟨h1, h2⟩
  · exact .inl h
  · exact .inr ⟨(zpow_le_zpow_right₀ (by norm_num) (by norm_num)).trans h1,
      h2.trans (zpow_le_zpow_right₀ (by norm_num) (by norm_num))⟩

theorem offsets_short_moderate {p : Pt} {P : Box} (h : ShortOffsets p P) : ModerateOffsets p P := by
  obtain ⟨m1, m2, m3, m4, m5, m6⟩ := h
  exact ⟨short_moderate m1, short_moderate m2, short_moderate m3, short_moderate m4, short_moderate m5, short_moderate m6⟩

theorem offsets_short {p : Pt} {P : Box} (hm : ShortOffsets p P) : OffsetsUpTo (2 ^ (24 : ℤ)) p P := by
  have k : ∀ {x : ℝ}, ShortLength x → |x| ≤ 2 ^ (24 : ℤ) := fun h => by
    rcases h with rfl | h
    · rw [abs_zero]; positivity
    · exact h.2
  obtain ⟨m1, m2, m3, m4, m5, m6⟩ := hm
  intro a
  cases a
  exacts [⟨k m1, k m2⟩, ⟨k m3, k m4⟩, ⟨k m5, k m6⟩]

/-- the error of a float32 prism, and the size of what it returns -/
theorem single_prism_bound {p : Pt} {P : Box} {L ρ x v δ : ℝ} (hP : P.Ordered) (hm : ShortOffsets p P) (hL : OffsetsUpTo L p P)
    (hx : x = ∫ s in P.region, 6.6743e-11 * ρ * (s.u - p.u) / dist3 p s ^ 3)
    (hδ : δ = 2 ^ (-16 : ℤ) * (6.6743e-11 * |ρ| * totalSize .u p P)) (hv : |v - x| ≤ δ) :
    δ ≤ 2 ^ (-4 : ℤ) * (6.6743e-11 * |ρ| * L) ∧ |x| + δ ≤ 27 * (6.6743e-11 * |ρ| * L) ∧
      |v| ≤ 27 * (6.6743e-11 * |ρ| * L) := by
  have hL0 : 0 ≤ L := (abs_nonneg _).trans (hL .e).1
  have c : 0 ≤ 6.6743e-11 * |ρ| * L := by positivity
  have b1 : δ ≤ 2 ^ (-4 : ℤ) * (6.6743e-11 * |ρ| * L) := by
    have t : totalSize .u p P ≤ 2 ^ 12 * L := by
      refine (totalSize_le .u (offsets_short_moderate hm) hL).trans (le_of_eq ?_)
      simp [GComp.letters, GComp.index]
    rw [hδ]
    calc (2 : ℝ) ^ (-16 : ℤ) * (6.6743e-11 * |ρ| * totalSize .u p P) ≤ 2 ^ (-16 : ℤ) * (6.6743e-11 * |ρ| * (2 ^ 12 * L)) := by gcongr
      _ = _ := by rw [show (2 : ℝ) ^ (-4 : ℤ) = 2 ^ (-16 : ℤ) * 2 ^ 12 by norm_num]; ring
  have b2 : |x| ≤ 26 * (6.6743e-11 * |ρ| * L) :=
    gravity_u_le hP hL ρ (hx ▸ (C22_newton_integral hP .u p ρ).2)
  have k : (2 : ℝ) ^ (-4 : ℤ) ≤ 1 := zpow_le_one_of_nonpos₀ (by norm_num) (by norm_num)
  have e : v = x + (v - x) := by ring
  have b3 : |v| ≤ |x| + δ := by
    rw [e]
    exact (abs_add_le _ _).trans (by linarith)
  have b4 : |x| + δ ≤ 27 * (6.6743e-11 * |ρ| * L) := by nlinarith
  exact ⟨b1, b4, b3.trans b4⟩

/-- the result is finite as soon as the fields are and their magnitudes add up to less than the overflow threshold -/
theorem guide_finite {c : Coordinates Numba32 Numba64 N} {p : Prisms Numba32 Numba64 M} {d : Fin M → MFl Numba32 Numba64}
    {r : Fin N → Fl Numba64} (h : gravity_upward c p d = .ok r) {i : Fin N} {v : Fin M → ℝ}
    (hv : ∀ j, Returns (term c p d i j) (v j))
    (hb : (1 + 2 ^ (-53 : ℤ)) ^ M * ∑ j, |v j| ≤ 2 ^ (1023 : ℤ)) : ∃ y : ℝ, r i = (Fl.fin y : Fl Numba64) := by
  obtain ⟨G, hG, hr⟩ := (C131_forward r).1 h
  have hG' : ∀ j, term c p d i j = .ok (G i j).toD := fun j => by unfold term; rw [hG i j]; rfl
  have hGv : ∀ j, (G i j).toD = (Fl.fin (v j) : Fl Numba64) := fun j => Except.ok.inj ((hG' j).symm.trans (hv j))
  have hs := sumsTo_foldl_zero (List.ofFn fun j => (G i j).toD)
  rw [← hr i] at hs
  have hf := sumsTo_finite (sumsTo_cast sameOps_binary64 hs) (fun z hz => ?_) ?_
  · obtain ⟨y, hy⟩ := hf
    refine ⟨y, ?_⟩
    cases h : r i with
    | nan => rw [h] at hy; cases hy
    | inf s => rw [h] at hy; cases hy
    | fin w => rw [h] at hy; cases hy; rfl
  · obtain ⟨w, hw, rfl⟩ := Multiset.mem_map.1 hz
    rw [Multiset.mem_coe, List.mem_ofFn] at hw
    obtain ⟨j, rfl⟩ := hw
    refine ⟨isFl_term (hG' j), ?_⟩
    rw [hGv]; rfl
  · rw [Multiset.card_map, Multiset.map_map, Multiset.coe_card, List.length_ofFn, Multiset.map_coe, Multiset.sum_coe,
      List.map_ofFn, List.sum_ofFn]
    refine le_trans (le_of_eq ?_) hb
    congr 1
    refine Finset.sum_congr rfl fun j _ => ?_
    show |realOf (Fl.cast (G i j).toD : Fl Binary64)| = _
    rw [hGv]
    rfl

/-- **C131, for every model of moderate size.**  With float32 arrays, or any mixture, offsets that are zero or between `2 ^ -20`
and `2 ^ 24` m, moderate densities, no boundary farther than `L` from an observation point along its axis, and at most `2 ^ 40`
prisms, the serial loop, and the parallel loop for every distribution of the points and every interleaving, return one and the
same array; its entries are finite doubles that differ from the sums of Newton's integrals by at most the single-precision bounds
of the prisms (C110) plus `M 2 ^ -47 G L Σ |ρ|`; altogether by at most `(2 ^ -4 + M 2 ^ -47) G L Σ |ρ|`. -/
theorem C131_moderate {c : Coordinates Numba32 Numba64 N} {p : Prisms Numba32 Numba64 M} {d : Fin M → MFl Numba32 Numba64}
    {q : Fin N → Pt} {P : Fin M → Box} {ρ : Fin M → ℝ} (hA : GuideArrays c p d q P ρ) (hP : ∀ j, (P j).Ordered)
    (hm : ∀ i j, ShortOffsets (q i) (P j)) (hρ : ∀ j, ModerateSize (ρ j)) {L : ℝ} (hL : ∀ i j, OffsetsUpTo L (q i) (P j))
    (hM : M ≤ 2 ^ 40) {chunks : Fin T → List (Fin N)} (hc : Distribution chunks) :
    ∃ r : Fin N → Fl Numba64, gravity_upward c p d = .ok r ∧ (∀ r', gravity_upward_parallel c p d chunks r' ↔ r' = r) ∧
      ∀ i, ∃ y : ℝ, r i = Fl.fin y ∧
        |y - ∑ j, ∫ s in (P j).region, 6.6743e-11 * ρ j * (s.u - (q i).u) / dist3 (q i) s ^ 3|
          ≤ ∑ j, 2 ^ (-16 : ℤ) * (6.6743e-11 * |ρ j| * totalSize .u (q i) (P j))
            + M * 2 ^ (-47 : ℤ) * (6.6743e-11 * L * ∑ j, |ρ j|) ∧
        |y - ∑ j, ∫ s in (P j).region, 6.6743e-11 * ρ j * (s.u - (q i).u) / dist3 (q i) s ^ 3|
          ≤ (2 ^ (-4 : ℤ) + M * 2 ^ (-47 : ℤ)) * (6.6743e-11 * L * ∑ j, |ρ j|) := by
  obtain ⟨r, hr, hpar, -⟩ := C131_returns (c := c) (p := p) (d := d) hc
  refine ⟨r, hr, hpar, fun i => ?_⟩
  set x : Fin M → ℝ := fun j => ∫ s in (P j).region, 6.6743e-11 * ρ j * (s.u - (q i).u) / dist3 (q i) s ^ 3 with hx
  set δ : Fin M → ℝ := fun j => 2 ^ (-16 : ℤ) * (6.6743e-11 * |ρ j| * totalSize .u (q i) (P j)) with hδ
  have hL0 : ∀ _ : Fin M, 0 ≤ L := fun j => (abs_nonneg _).trans (hL i j .e).1
  have rv : ∀ j, ∃ v, Returns (term c p d i j) v ∧ |v - x j| ≤ δ j := fun j => by
    obtain ⟨g, w, h1, h2, h3⟩ := (C110_newton_single (hA.geometry i j) (hA.density j) (hP j) (hm i j) (hρ j)).2 .u
    have h1' : Mixed.prism.gravity_u (c.easting i) (c.northing i) (c.upward i) (p j 0) (p j 1) (p j 2) (p j 3) (p j 4)
      (p j 5) (d j) = .ok g := h1
    have h4 : term c p d i j = .ok g.toD := by unfold term; rw [h1']; rfl
    exact ⟨w, h4.trans (congrArg Except.ok h2), h3⟩
  choose v hv hvd using rv
  have hb := fun j => single_prism_bound (hP j) (hm i j) (hL i j) rfl rfl (hvd j)
  have hb' := fun j => single_prism_bound (hP j) (hm i j) (offsets_short (hm i j)) rfl rfl (hvd j)
  set S : ℝ := 6.6743e-11 * L * ∑ j, |ρ j| with hS
  have eS : S = ∑ j, 6.6743e-11 * |ρ j| * L := by
    rw [hS, Finset.mul_sum]
    exact Finset.sum_congr rfl fun j _ => by ring
  have hS0 : 0 ≤ S := by
    rw [eS]
    exact Finset.sum_nonneg fun j _ => by have := hL0 j; positivity
  have h1 : ∑ j, δ j ≤ 2 ^ (-4 : ℤ) * S := by
    rw [eS, Finset.mul_sum]
    exact Finset.sum_le_sum fun j _ => (hb j).1
  have h2 : ∑ j, (|x j| + δ j) ≤ 27 * S := by
    rw [eS, Finset.mul_sum]
    exact Finset.sum_le_sum fun j _ => (hb j).2.1
  have hMr : (M : ℝ) ≤ 2 ^ 40 := by exact_mod_cast hM
  have h3 : ∑ j, |v j| ≤ 2 ^ (300 : ℤ) := by
    have b : ∀ j, |v j| ≤ 2 ^ (170 : ℤ) := fun j => by
      refine (hb' j).2.2.trans ?_
      have r : |ρ j| ≤ 2 ^ (80 : ℤ) := by
        rcases hρ j with h | h
        · rw [h, abs_zero]; positivity
        · exact h.2
      calc 27 * (6.6743e-11 * |ρ j| * 2 ^ (24 : ℤ)) ≤ 27 * (6.6743e-11 * 2 ^ (80 : ℤ) * 2 ^ (24 : ℤ)) := by gcongr
        _ = 27 * 6.6743e-11 * 2 ^ (104 : ℤ) := by
          rw [show (104 : ℤ) = 80 + 24 by norm_num, zpow_add₀ (by norm_num)]; ring
        _ ≤ 1 * 2 ^ (104 : ℤ) := by gcongr; norm_num
        _ ≤ 2 ^ (170 : ℤ) := by rw [one_mul]; exact zpow_le_zpow_right₀ (by norm_num) (by norm_num)
    calc ∑ j, |v j| ≤ ∑ _j : Fin M, (2 : ℝ) ^ (170 : ℤ) := Finset.sum_le_sum fun j _ => b j
      _ = M * 2 ^ (170 : ℤ) := by simp
      _ ≤ 2 ^ (40 : ℤ) * 2 ^ (170 : ℤ) := by gcongr; exact_mod_cast hMr
      _ = 2 ^ (210 : ℤ) := by rw [← zpow_add₀ (by norm_num)]; norm_num
      _ ≤ 2 ^ (300 : ℤ) := zpow_le_zpow_right₀ (by norm_num) (by norm_num)
  have g1 := pow_growth hMr
  have g2 : (M : ℝ) * 2 ^ (-52 : ℤ) ≤ 1 := by
    have : (2 : ℝ) ^ 40 * 2 ^ (-52 : ℤ) ≤ 1 := by norm_num
    exact (mul_le_mul_of_nonneg_right hMr (by positivity)).trans this
  obtain ⟨y, hy⟩ := guide_finite hr (i := i) (v := v) hv (by
    calc (1 + 2 ^ (-53 : ℤ)) ^ M * ∑ j, |v j| ≤ 2 * 2 ^ (300 : ℤ) :=
          mul_le_mul (by linarith) h3 (Finset.sum_nonneg fun _ _ => abs_nonneg _) (by norm_num)
      _ = 2 ^ (301 : ℤ) := by rw [show (301 : ℤ) = 1 + 300 by norm_num, zpow_add₀ (by norm_num), zpow_one]
      _ ≤ 2 ^ (1023 : ℤ) := zpow_le_zpow_right₀ (by norm_num) (by norm_num))
  have hn : |y - ∑ j, x j| ≤ ∑ j, δ j + ((1 + 2 ^ (-53 : ℤ)) ^ (M - 1) - 1) * ∑ j, (|x j| + δ j) :=
    C131_newton hA hP hm hρ hr hy (fun _ => rfl) fun _ => rfl
  have g3 : (1 + (2 : ℝ) ^ (-53 : ℤ)) ^ (M - 1) - 1 ≤ M * 2 ^ (-52 : ℤ) := by
    have u0 : (0 : ℝ) < 2 ^ (-53 : ℤ) := by positivity
    have := pow_le_pow_right₀ (a := 1 + (2 : ℝ) ^ (-53 : ℤ)) (by linarith) (Nat.sub_le M 1)
    linarith
  have g4 : ((1 + (2 : ℝ) ^ (-53 : ℤ)) ^ (M - 1) - 1) * ∑ j, (|x j| + δ j) ≤ M * 2 ^ (-47 : ℤ) * S := by
    calc ((1 + (2 : ℝ) ^ (-53 : ℤ)) ^ (M - 1) - 1) * ∑ j, (|x j| + δ j) ≤ (M * 2 ^ (-52 : ℤ)) * (27 * S) :=
          mul_le_mul g3 h2 (Finset.sum_nonneg fun j _ => add_nonneg (abs_nonneg _) ((abs_nonneg _).trans (hvd j))) (by positivity)
      _ ≤ (M * 2 ^ (-52 : ℤ)) * (32 * S) := by gcongr; norm_num
      _ = M * 2 ^ (-47 : ℤ) * S := by
        rw [show (2 : ℝ) ^ (-47 : ℤ) = 2 ^ (-52 : ℤ) * 32 by norm_num]; ring
  exact ⟨y, hy, by linarith, by linarith⟩

/-- float32 arrays: four prisms seen from three points, on two threads -/
example : ∃ r : Fin 3 → Fl Numba64, gravity_upward (demoPoints32 (S := Numba32)) demoPrisms32 (fun _ => .f32 (Fl.fin 2670)) = .ok r ∧
    ∀ i, ∃ y : ℝ, r i = Fl.fin y := by
  obtain ⟨r, hr, -, h⟩ := C131_moderate (c := demoPoints32) (p := demoPrisms32) (d := fun _ => .f32 (Fl.fin 2670))
    (q := fun _ => (130, 75, 5)) (P := fun _ => demoPrism) (ρ := fun _ => 2670) (L := 1000)
    (chunks := (![[2, 0], [1]] : Fin 2 → List (Fin 3)))
    ⟨fun _ _ => demo_single, fun _ => isReal_f32 _⟩ (fun _ => demo_ordered) (fun _ _ => demo_short)
    (fun _ => moderate_of (by norm_num [abs_of_pos]) (by norm_num [abs_of_pos]))
    (fun _ _ a => by cases a <;> norm_num [demoPrism, Box.lo, Box.hi, Pt.coord, Pt.e, Pt.n, Pt.u, abs_le]) (by norm_num)
    (by constructor <;> decide)
  exact ⟨r, hr, fun i => (h i).imp fun y h => h.1⟩

/-- **C131, the product, end to end.**  `build_jacobian` on float32 arrays returns exactly one matrix, and `jacobian @ densities`
(in any order, with or without fused multiply-adds) is finite at every point and differs from the sum of Newton's integrals by at
most `(2 ^ -4 + M 2 ^ -47) G L Σ |ρ|`, up to underflow. -/
theorem C131_product_moderate {c : Coordinates Numba32 Numba64 N} {p : Prisms Numba32 Numba64 M} {d : Fin M → MFl Numba32 Numba64}
    {q : Fin N → Pt} {P : Fin M → Box} {ρ : Fin M → ℝ} (hA : GuideArrays c p d q P ρ) (hP : ∀ j, (P j).Ordered)
    (hm : ∀ i j, ShortOffsets (q i) (P j)) (hρ : ∀ j, ModerateSize (ρ j)) {L : ℝ} (hL : ∀ i j, OffsetsUpTo L (q i) (P j))
    (hM : M ≤ 2 ^ 40) {chunks : Fin T → List (Fin N)} (hc : Distribution chunks) :
    (∃! J, build_jacobian c p chunks J) ∧ ∀ J, build_jacobian c p chunks J → ∀ r : Fin N → Fl Numba64, matmul J d r →
      ∀ i, ∃ y : ℝ, r i = Fl.fin y ∧
        |y - ∑ j, ∫ s in (P j).region, 6.6743e-11 * ρ j * (s.u - (q i).u) / dist3 (q i) s ^ 3|
          ≤ (2 ^ (-4 : ℤ) + M * 2 ^ (-47 : ℤ)) * (6.6743e-11 * L * ∑ j, |ρ j|) + M * 2 ^ (-1073 : ℤ) := by
  refine ⟨by obtain ⟨-, -, -, h⟩ := C131_returns (c := c) (p := p) (d := d) hc; exact h, fun J hJ r hr i => ?_⟩
  have h1m : ModerateSize 1 := .inr (by norm_num)
  have hL0 : ∀ _ : Fin M, 0 ≤ L := fun j => (abs_nonneg _).trans (hL i j .e).1
  have one : (MFl.f64 1 : MFl Numba32 Numba64).IsReal 1 := congrArg (fun x : ℝ => (Fl.fin x : Fl Numba64)) Nat.cast_one
  have rv : ∀ j, ∃ v : ℝ, J i j = Fl.fin v ∧ |v - ∫ s in (P j).region, 6.6743e-11 * 1 * (s.u - (q i).u) / dist3 (q i) s ^ 3| ≤
      2 ^ (-16 : ℤ) * (6.6743e-11 * |(1 : ℝ)| * totalSize .u (q i) (P j)) := fun j => by
    obtain ⟨g, w, h1, h2, h3⟩ := (C110_newton_single (hA.geometry i j) one (hP j) (hm i j) h1m).2 .u
    obtain ⟨g', h1', h2'⟩ := (C131_jacobian hc J).1 hJ i j
    have e : g = g' := Except.ok.inj (Eq.trans (Eq.symm h1) h1')
    exact ⟨w, by rw [h2', ← e]; exact h2, h3⟩
  choose v hJv hvd using rv
  have hb := fun j => single_prism_bound (hP j) (hm i j) (hL i j) rfl rfl (hvd j)
  have hb' := fun j => single_prism_bound (hP j) (hm i j) (offsets_short (hm i j)) rfl rfl (hvd j)
  rw [abs_one, mul_one] at hb hb' hvd
  have hvx := fun j => (hvd j).trans (hb j).1
  have hvb := fun j => (hb j).2.2
  have hvm := fun j => (hb' j).2.2
  set S : ℝ := 6.6743e-11 * L * ∑ j, |ρ j| with hS
  have hS0 : 0 ≤ S := by
    rcases Nat.eq_zero_or_pos M with rfl | h0
    · simp [hS]
    · have := hL0 ⟨0, h0⟩
      have : 0 ≤ ∑ j, |ρ j| := Finset.sum_nonneg fun _ _ => abs_nonneg _
      positivity
  have en : ∀ j, ∫ s in (P j).region, 6.6743e-11 * ρ j * (s.u - (q i).u) / dist3 (q i) s ^ 3
      = (∫ s in (P j).region, 6.6743e-11 * (s.u - (q i).u) / dist3 (q i) s ^ 3) * ρ j := fun j => by
    rw [← integral_mul_const]
    refine integral_congr_ae (.of_forall fun s => ?_)
    dsimp only
    ring
  have h1 : |∑ j, v j * ρ j - ∑ j, ∫ s in (P j).region, 6.6743e-11 * ρ j * (s.u - (q i).u) / dist3 (q i) s ^ 3|
      ≤ 2 ^ (-4 : ℤ) * S := by
    rw [← Finset.sum_sub_distrib, hS, Finset.mul_sum, Finset.mul_sum]
    refine (Finset.abs_sum_le_sum_abs _ _).trans (Finset.sum_le_sum fun j _ => ?_)
    rw [en j, ← sub_mul, abs_mul]
    calc _ ≤ 2 ^ (-4 : ℤ) * (6.6743e-11 * L) * |ρ j| := mul_le_mul_of_nonneg_right (hvx j) (abs_nonneg _)
      _ = _ := by ring
  have h2 : ∑ j, |v j * ρ j| ≤ 27 * S := by
    rw [hS, Finset.mul_sum, Finset.mul_sum]
    refine Finset.sum_le_sum fun j _ => ?_
    rw [abs_mul]
    exact (mul_le_mul_of_nonneg_right (hvb j) (abs_nonneg _)).trans (le_of_eq (by ring))
  have h20 : 0 ≤ ∑ j, |v j * ρ j| := Finset.sum_nonneg fun _ _ => abs_nonneg _
  have hMr : (M : ℝ) ≤ 2 ^ 40 := by exact_mod_cast hM
  have h3 : ∑ j, |v j * ρ j| ≤ 2 ^ (300 : ℤ) := by
    have b : ∀ j, |v j * ρ j| ≤ 2 ^ (170 : ℤ) := fun j => by
      have r : |ρ j| ≤ 2 ^ (80 : ℤ) := by
        rcases hρ j with h | h
        · rw [h, abs_zero]; positivity
        · exact h.2
      rw [abs_mul]
      calc |v j| * |ρ j| ≤ (27 * (6.6743e-11 * 2 ^ (24 : ℤ))) * 2 ^ (80 : ℤ) := mul_le_mul (hvm j) r (abs_nonneg _) (by positivity)
        _ = 27 * 6.6743e-11 * 2 ^ (104 : ℤ) := by
          rw [show (104 : ℤ) = 24 + 80 by norm_num, zpow_add₀ (by norm_num)]; ring
        _ ≤ 1 * 2 ^ (104 : ℤ) := by gcongr; norm_num
        _ ≤ 2 ^ (170 : ℤ) := by rw [one_mul]; exact zpow_le_zpow_right₀ (by norm_num) (by norm_num)
    calc ∑ j, |v j * ρ j| ≤ ∑ _j : Fin M, (2 : ℝ) ^ (170 : ℤ) := Finset.sum_le_sum fun j _ => b j
      _ = M * 2 ^ (170 : ℤ) := by simp
      _ ≤ 2 ^ (40 : ℤ) * 2 ^ (170 : ℤ) := by gcongr; exact_mod_cast hMr
      _ = 2 ^ (210 : ℤ) := by rw [← zpow_add₀ (by norm_num)]; norm_num
      _ ≤ 2 ^ (300 : ℤ) := zpow_le_zpow_right₀ (by norm_num) (by norm_num)
  have g1 := pow_growth hMr
  have g2 : (M : ℝ) * 2 ^ (-52 : ℤ) ≤ 1 := by
    have : (2 : ℝ) ^ 40 * 2 ^ (-52 : ℤ) ≤ 1 := by norm_num
    exact (mul_le_mul_of_nonneg_right hMr (by positivity)).trans this
  set η : ℝ := 2 ^ (-1074 : ℤ) with hη
  have η0 : 0 < η := B64.two_zpow_pos _
  have η1 : η ≤ 1 := zpow_le_one_of_nonpos₀ (by norm_num) (by norm_num)
  let F : Fl Numba64 → Fl Binary64 := Fl.cast
  have hd : ∀ j, (d j).toD = Fl.fin (ρ j) := fun j => hA.density j
  have e : ∀ j, pairReal (F (J i j), F (d j).toD) = v j * ρ j := fun j => by rw [hJv j, hd j]; rfl
  have hr' := dotsTo_cast sameOps_binary64 (hr i)
  rw [Multiset.map_map] at hr'
  simp only [Function.comp_def] at hr'
  have eD : dotSize ((Finset.univ : Finset (Fin M)).val.map fun j => (F (J i j), F (d j).toD)) = ∑ j, |v j * ρ j| + M * η := by
    unfold dotSize
    rw [Multiset.card_map, Multiset.map_map, Finset.card_val, Finset.card_univ, Fintype.card_fin]
    simp only [Function.comp_def, e]
    rfl
  obtain ⟨y, hy, -, hb⟩ := dotsTo_total hr' (fun z hz => by
    obtain ⟨k, -, rfl⟩ := Multiset.mem_map.1 hz
    exact ⟨v k, ρ k, by rw [hJv k, hd k]; rfl⟩) (by
    refine le_trans (le_of_eq (congrArg _ eD)) ?_
    rw [Multiset.card_map, Finset.card_val, Finset.card_univ, Fintype.card_fin, pow_succ]
    have u1 : (2 : ℝ) ^ (-53 : ℤ) ≤ 1 := zpow_le_one_of_nonpos₀ (by norm_num) (by norm_num)
    have u0 : (0 : ℝ) < 2 ^ (-53 : ℤ) := by positivity
    have k1 : (1 + (2 : ℝ) ^ (-53 : ℤ)) ^ M * (1 + 2 ^ (-53 : ℤ)) ≤ 2 * 2 :=
      mul_le_mul (by linarith) (by linarith) (by linarith) (by norm_num)
    have k2 : M * η ≤ 2 ^ (300 : ℤ) := by
      calc M * η ≤ 2 ^ 40 * 1 := mul_le_mul hMr η1 η0.le (by norm_num)
        _ = 2 ^ (40 : ℤ) := by norm_num
        _ ≤ 2 ^ (300 : ℤ) := zpow_le_zpow_right₀ (by norm_num) (by norm_num)
    calc _ ≤ (2 * 2) * (2 ^ (300 : ℤ) + 2 ^ (300 : ℤ)) := mul_le_mul k1 (add_le_add h3 k2) (by positivity) (by norm_num)
      _ = 2 ^ (303 : ℤ) := by
        rw [show (303 : ℤ) = 3 + 300 by norm_num, zpow_add₀ (by norm_num)]
        norm_num
        ring
      _ ≤ 2 ^ (1023 : ℤ) := zpow_le_zpow_right₀ (by norm_num) (by norm_num))
  have hy' : r i = (Fl.fin y : Fl Numba64) := by
    cases h : r i with
    | nan => rw [h] at hy; cases hy
    | inf s => rw [h] at hy; cases hy
    | fin w => rw [h] at hy; cases hy; rfl
  refine ⟨y, hy', ?_⟩
  have hb' : |y - ∑ j, v j * ρ j| ≤ (1 + 2 ^ (-53 : ℤ)) ^ M * (∑ j, |v j * ρ j| + M * η) - ∑ j, |v j * ρ j| := by
    rw [← eD]
    rw [Multiset.card_map, Multiset.map_map, Multiset.map_map, Finset.card_val, Finset.card_univ, Fintype.card_fin] at hb
    have e1 : ∀ j, pairReal ((Fl.cast (J i j) : Fl Binary64), (Fl.cast (d j).toD : Fl Binary64)) = v j * ρ j := e
    simp only [Function.comp_def, e1] at hb
    exact hb
  have g4 : |y - ∑ j, v j * ρ j| ≤ M * 2 ^ (-47 : ℤ) * S + M * 2 ^ (-1073 : ℤ) := by
    have e1 : (2 : ℝ) ^ (-47 : ℤ) = 32 * 2 ^ (-52 : ℤ) := by norm_num
    have e2 : (2 : ℝ) ^ (-1073 : ℤ) = 2 * η := by
      rw [hη, show (-1073 : ℤ) = 1 + -1074 by norm_num, zpow_add₀ (by norm_num), zpow_one]
    rw [e1, e2]
    have a0 : (0 : ℝ) ≤ M := Nat.cast_nonneg _
    have a1 : (0 : ℝ) ≤ M * 2 ^ (-52 : ℤ) := by positivity
    generalize (1 + (2 : ℝ) ^ (-53 : ℤ)) ^ M = R at *
    generalize ∑ j, |v j * ρ j| = S1 at *
    have b1 : (R - 1) * S1 ≤ (M * 2 ^ (-52 : ℤ)) * (27 * S) := by
      calc (R - 1) * S1 ≤ (M * 2 ^ (-52 : ℤ)) * S1 := mul_le_mul_of_nonneg_right (by linarith) h20
        _ ≤ _ := mul_le_mul_of_nonneg_left h2 a1
    have b2 : R * (M * η) ≤ 2 * (M * η) := mul_le_mul_of_nonneg_right (by linarith) (by positivity)
    have b3 : 0 ≤ (M * 2 ^ (-52 : ℤ)) * S := mul_nonneg a1 hS0
    calc _ ≤ R * (S1 + M * η) - S1 := hb'
      _ = (R - 1) * S1 + R * (M * η) := by ring
      _ ≤ (M * 2 ^ (-52 : ℤ)) * (27 * S) + 2 * (M * η) := add_le_add b1 b2
      _ ≤ M * (32 * 2 ^ (-52 : ℤ)) * S + M * (2 * η) := by linarith
  calc _ = |(y - ∑ j, v j * ρ j) + (∑ j, v j * ρ j
        - ∑ j, ∫ s in (P j).region, 6.6743e-11 * ρ j * (s.u - (q i).u) / dist3 (q i) s ^ 3)| := by congr 1; ring
    _ ≤ _ := abs_add_le _ _
    _ ≤ (M * 2 ^ (-47 : ℤ) * S + M * 2 ^ (-1073 : ℤ)) + 2 ^ (-4 : ℤ) * S := add_le_add g4 h1
    _ = _ := by ring

/-- the product for the same four prisms and three points: the matrix exists, so does a product -/
example : ∃ J, build_jacobian (demoPoints32 (S := Numba32) (D := Numba64)) demoPrisms32 (![[2, 0], [1]] : Fin 2 → List (Fin 3)) J :=
  (C131_product_moderate (c := demoPoints32) (p := demoPrisms32) (d := fun _ => .f32 (Fl.fin 2670))
    (q := fun _ => (130, 75, 5)) (P := fun _ => demoPrism) (ρ := fun _ => 2670) (L := 1000)
    ⟨fun _ _ => demo_single, fun _ => isReal_f32 _⟩ (fun _ => demo_ordered) (fun _ _ => demo_short)
    (fun _ => moderate_of (by norm_num [abs_of_pos]) (by norm_num [abs_of_pos]))
    (fun _ _ a => by cases a <;> norm_num [demoPrism, Box.lo, Box.hi, Pt.coord, Pt.e, Pt.n, Pt.u, abs_le]) (by norm_num)
    (by constructor <;> decide)).1.exists

end Choclo
