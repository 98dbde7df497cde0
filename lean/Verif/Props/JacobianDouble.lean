import Verif.Props.ForwardDouble

/-! # `jacobian @ densities` in double precision, underflow included: always finite, with an explicit error (C87) -/

namespace Choclo

open MeasureTheory Real userguide

namespace B64

/-- rounding error over the whole range without overflow -/
theorem round_err (x : ℝ) : |round x - x| ≤ 2 ^ (-53 : ℤ) * |x| + 2 ^ (-1074 : ℤ) := by
  have hu := u_pos
  have he : (0 : ℝ) < 2 ^ (-1074 : ℤ) := two_zpow_pos _
  by_cases hn : 2 ^ (-1022 : ℤ) ≤ |x|
  · exact (abs_round_sub_le hn).trans (by linarith)
  rw [not_le] at hn
  rcases eq_or_ne x 0 with rfl | h0
  · rw [round_zero, sub_self, abs_zero]
    linarith
  have hq : qexp x = -1074 := by
    unfold qexp
    refine max_eq_right ?_
    have : Int.log 2 |x| < -1022 := by
      rw [← Int.lt_zpow_iff_log_lt (by norm_num) (abs_pos.2 h0)]
      push_cast
      exact hn
    omega
  have h1 := abs_round_sub_le_ulp x
  rw [hq] at h1
  have := abs_nonneg x
  nlinarith

theorem isF_zero : IsF 0 := ⟨0, 0, by norm_num, by norm_num, by norm_num⟩

end B64

/-- the magnitudes of the products, each enlarged by the smallest double -/
noncomputable def dotSize (s : Multiset (Fl Binary64 × Fl Binary64)) : ℝ :=
  (s.map fun z => |pairReal z|).sum + Multiset.card s * 2 ^ (-1074 : ℤ)

theorem dotSize_nonneg (s : Multiset (Fl Binary64 × Fl Binary64)) : 0 ≤ dotSize s := by
  have : 0 ≤ (s.map fun z => |pairReal z|).sum := Multiset.sum_nonneg fun x hx => by
    obtain ⟨z, -, rfl⟩ := Multiset.mem_map.1 hx
    exact abs_nonneg _
  unfold dotSize
  positivity

/-- one more addition -/
theorem dots_step {u η P Q R A B sA sB a b Sa Sb y : ℝ} (hu : 0 ≤ u) (hP : (1 + u) * P ≤ R) (hQ : (1 + u) * Q ≤ R)
    (hA0 : 0 ≤ A) (hB0 : 0 ≤ B) (hA : |Sa| ≤ sA) (hB : |Sb| ≤ sB) (ha : |a - Sa| ≤ P * A - sA) (hb : |b - Sb| ≤ Q * B - sB)
    (hy : |y - (a + b)| ≤ u * (|a| + |b|) + η) : |y - (Sa + Sb)| ≤ R * (A + B) - (sA + sB) + η := by
  have t1 : |y - (Sa + Sb)| ≤ |y - (a + b)| + (|a - Sa| + |b - Sb|) := by
    calc _ = |(y - (a + b)) + ((a - Sa) + (b - Sb))| := by congr 1; ring
      _ ≤ _ := (abs_add_le _ _).trans (add_le_add_right (abs_add_le _ _) _)
  have t2 : |a| ≤ P * A := by
    calc _ = |Sa + (a - Sa)| := by congr 1; ring
      _ ≤ |Sa| + |a - Sa| := abs_add_le _ _
      _ ≤ _ := by linarith
  have t2' : |b| ≤ Q * B := by
    calc _ = |Sb + (b - Sb)| := by congr 1; ring
      _ ≤ |Sb| + |b - Sb| := abs_add_le _ _
      _ ≤ _ := by linarith
  have t3 : u * (|a| + |b|) ≤ u * (P * A + Q * B) := mul_le_mul_of_nonneg_left (add_le_add t2 t2') hu
  have t5 : (1 + u) * P * A ≤ R * A := mul_le_mul_of_nonneg_right hP hA0
  have t6 : (1 + u) * Q * B ≤ R * B := mul_le_mul_of_nonneg_right hQ hB0
  nlinarith

/-- a sum of products in any order, with or without fused multiply-adds, of finite numbers that are not too large: finite, with
an error bound that allows for underflow -/
theorem dotsTo_total {s : Multiset (Fl Binary64 × Fl Binary64)} {x : Fl Binary64} (h : DotsTo s x) :
    (∀ z ∈ s, ∃ a b : ℝ, z = ((a : Fl Binary64), (b : Fl Binary64))) →
    (1 + 2 ^ (-53 : ℤ)) ^ (Multiset.card s + 1) * dotSize s ≤ 2 ^ (1023 : ℤ) →
    ∃ y : ℝ, x = (y : Fl Binary64) ∧ B64.IsF y ∧
      |y - (s.map pairReal).sum| ≤ (1 + 2 ^ (-53 : ℤ)) ^ Multiset.card s * dotSize s - (s.map fun z => |pairReal z|).sum := by
  have hu := B64.u_pos
  have he : (0 : ℝ) < 2 ^ (-1074 : ℤ) := B64.two_zpow_pos _
  have sub : ∀ s : Multiset (Fl Binary64 × Fl Binary64), |(s.map pairReal).sum| ≤ (s.map fun z => |pairReal z|).sum := fun s => by
    have := abs_sum_le (s.map pairReal)
    rwa [Multiset.map_map] at this
  induction h with
  | zero =>
    intro _ _
    exact ⟨0, by show Raw.fin ((0 : ℕ) : ℝ) = Raw.fin 0; rw [Nat.cast_zero], B64.isF_zero, by simp [dotSize]⟩
  | mul a b =>
    intro hs hb
    obtain ⟨u, v, huv⟩ := hs _ (Multiset.mem_singleton_self _)
    obtain ⟨rfl, rfl⟩ := Prod.mk.inj huv
    have ep : pairReal ((u : Fl Binary64), (v : Fl Binary64)) = u * v := rfl
    simp only [dotSize, Multiset.map_singleton, Multiset.sum_singleton, Multiset.card_singleton, Nat.cast_one, one_mul, pow_one,
      ep] at hb ⊢
    have hle : |u * v| ≤ 2 ^ (1023 : ℤ) := by
      refine le_trans ?_ hb
      have h1 : 1 ≤ (1 + (2 : ℝ) ^ (-53 : ℤ)) ^ (1 + 1) := one_le_pow₀ (by linarith)
      have := abs_nonneg (u * v)
      nlinarith
    refine ⟨B64.round (u * v), ?_, B64.isF_round _, ?_⟩
    · show (Fl.ofRaw (B64.rnd (u * v)) : Fl Binary64) = _
      rw [B64.rnd_of_le hle]
      rfl
    · refine (B64.round_err _).trans ?_
      nlinarith
  | @add s t x z h1 h2 ih1 ih2 =>
    intro hs hb
    have m1 := fun z hz => hs z (Multiset.mem_add.2 (.inl hz))
    have m2 := fun z hz => hs z (Multiset.mem_add.2 (.inr hz))
    have ed : dotSize (s + t) = dotSize s + dotSize t := by
      simp only [dotSize, Multiset.map_add, Multiset.sum_add, Multiset.card_add]
      push_cast
      ring
    rw [ed, Multiset.card_add] at hb
    have d1 := dotSize_nonneg s
    have d2 := dotSize_nonneg t
    have p1 : (1 + (2 : ℝ) ^ (-53 : ℤ)) ^ (Multiset.card s + 1) ≤ (1 + 2 ^ (-53 : ℤ)) ^ (Multiset.card s + Multiset.card t + 1) :=
      pow_le_pow_right₀ (by linarith) (by omega)
    have p2 : (1 + (2 : ℝ) ^ (-53 : ℤ)) ^ (Multiset.card t + 1) ≤ (1 + 2 ^ (-53 : ℤ)) ^ (Multiset.card s + Multiset.card t + 1) :=
      pow_le_pow_right₀ (by linarith) (by omega)
    have p0 : 1 ≤ (1 + (2 : ℝ) ^ (-53 : ℤ)) ^ (Multiset.card s + Multiset.card t + 1) := one_le_pow₀ (by linarith)
    obtain ⟨a, rfl, g1, e1⟩ := ih1 m1 (by nlinarith)
    obtain ⟨b, rfl, g2, e2⟩ := ih2 m2 (by nlinarith)
    have c1 := sub s
    have c2 := sub t
    have q1 : (1 + (2 : ℝ) ^ (-53 : ℤ)) ^ Multiset.card s ≤ (1 + 2 ^ (-53 : ℤ)) ^ (Multiset.card s + Multiset.card t + 1) :=
      pow_le_pow_right₀ (by linarith) (by omega)
    have q2 : (1 + (2 : ℝ) ^ (-53 : ℤ)) ^ Multiset.card t ≤ (1 + 2 ^ (-53 : ℤ)) ^ (Multiset.card s + Multiset.card t + 1) :=
      pow_le_pow_right₀ (by linarith) (by omega)
    have hle : |a + b| ≤ 2 ^ (1023 : ℤ) := by
      have t1 : |a + b| ≤ |a| + |b| := abs_add_le _ _
      have t2 : |a| ≤ |a - (s.map pairReal).sum| + |(s.map pairReal).sum| := by
        calc |a| = |(a - (s.map pairReal).sum) + (s.map pairReal).sum| := by congr 1; ring
          _ ≤ _ := abs_add_le _ _
      have t3 : |b| ≤ |b - (t.map pairReal).sum| + |(t.map pairReal).sum| := by
        calc |b| = |(b - (t.map pairReal).sum) + (t.map pairReal).sum| := by congr 1; ring
          _ ≤ _ := abs_add_le _ _
      have r1 := mul_le_mul_of_nonneg_right q1 d1
      have r2 := mul_le_mul_of_nonneg_right q2 d2
      linarith
    have hrnd : ((a : Fl Binary64) + (b : Fl Binary64)) = ((B64.round (a + b) : ℝ) : Fl Binary64) := by
      show (Fl.ofRaw (B64.rnd (a + b)) : Fl Binary64) = _
      rw [B64.rnd_of_le hle]
      rfl
    refine ⟨B64.round (a + b), hrnd, B64.isF_round _, ?_⟩
    rw [ed, Multiset.map_add, Multiset.sum_add, Multiset.map_add, Multiset.sum_add, Multiset.card_add]
    rcases Nat.eq_zero_or_pos (Multiset.card s) with hs0 | hs0
    · obtain rfl := Multiset.card_eq_zero.1 hs0
      have ha : a = 0 := by simpa [dotSize] using e1
      subst ha
      rw [zero_add, g2.round]
      simpa [dotSize] using e2
    rcases Nat.eq_zero_or_pos (Multiset.card t) with ht0 | ht0
    · obtain rfl := Multiset.card_eq_zero.1 ht0
      have hb0 : b = 0 := by simpa [dotSize] using e2
      subst hb0
      rw [add_zero, g1.round]
      simpa [dotSize] using e1
    have := dots_step (η := 0) (R := (1 + 2 ^ (-53 : ℤ)) ^ (Multiset.card s + Multiset.card t)) hu.le
      (by rw [← pow_succ']; exact pow_le_pow_right₀ (by linarith) (by omega))
      (by rw [← pow_succ']; exact pow_le_pow_right₀ (by linarith) (by omega)) d1 d2 c1 c2 e1 e2
      (by
        rw [add_zero]
        exact (B64.add_rel g1 g2 (B64.rnd_of_le hle)).trans (mul_le_mul_of_nonneg_left (abs_add_le _ _) hu.le))
    rwa [add_zero] at this
  | @fma s x a b _ ih =>
    intro hs hb
    obtain ⟨p, q, hpq⟩ := hs _ (Multiset.mem_cons_self _ _)
    obtain ⟨rfl, rfl⟩ := Prod.mk.inj hpq
    have ep : pairReal ((p : Fl Binary64), (q : Fl Binary64)) = p * q := rfl
    have ed : dotSize (((p : Fl Binary64), (q : Fl Binary64)) ::ₘ s) = dotSize s + (|p * q| + 2 ^ (-1074 : ℤ)) := by
      simp only [dotSize, Multiset.map_cons, Multiset.sum_cons, Multiset.card_cons, ep]
      push_cast
      ring
    rw [ed, Multiset.card_cons] at hb
    have d1 := dotSize_nonneg s
    have d2 := abs_nonneg (p * q)
    have p1 : (1 + (2 : ℝ) ^ (-53 : ℤ)) ^ (Multiset.card s + 1) ≤ (1 + 2 ^ (-53 : ℤ)) ^ (Multiset.card s + 1 + 1) :=
      pow_le_pow_right₀ (by linarith) (by omega)
    have p0 : 1 ≤ (1 + (2 : ℝ) ^ (-53 : ℤ)) ^ (Multiset.card s + 1 + 1) := one_le_pow₀ (by linarith)
    obtain ⟨w, rfl, g1, e1⟩ := ih (fun z hz => hs z (Multiset.mem_cons_of_mem hz)) (by nlinarith)
    have c1 := sub s
    have q1 : (1 + (2 : ℝ) ^ (-53 : ℤ)) ^ Multiset.card s ≤ (1 + 2 ^ (-53 : ℤ)) ^ (Multiset.card s + 1 + 1) :=
      pow_le_pow_right₀ (by linarith) (by omega)
    have hle : |p * q + w| ≤ 2 ^ (1023 : ℤ) := by
      have t1 : |p * q + w| ≤ |p * q| + |w| := abs_add_le _ _
      have t2 : |w| ≤ |w - (s.map pairReal).sum| + |(s.map pairReal).sum| := by
        calc |w| = |(w - (s.map pairReal).sum) + (s.map pairReal).sum| := by congr 1; ring
          _ ≤ _ := abs_add_le _ _
      have r1 := mul_le_mul_of_nonneg_right q1 d1
      nlinarith
    refine ⟨B64.round (p * q + w), ?_, B64.isF_round _, ?_⟩
    · show (Fl.ofRaw (B64.rnd (p * q + w)) : Fl Binary64) = _
      rw [B64.rnd_of_le hle]
      rfl
    rw [ed, Multiset.map_cons, Multiset.sum_cons, Multiset.map_cons, Multiset.sum_cons, Multiset.card_cons, ep]
    have R1 : 1 ≤ (1 + (2 : ℝ) ^ (-53 : ℤ)) ^ Multiset.card s := one_le_pow₀ (by linarith)
    have R2 : (1 + (2 : ℝ) ^ (-53 : ℤ)) ^ (Multiset.card s + 1) = (1 + 2 ^ (-53 : ℤ)) * (1 + (2 : ℝ) ^ (-53 : ℤ)) ^ Multiset.card s :=
      pow_succ' _ _
    have R3 : 1 ≤ (1 + (2 : ℝ) ^ (-53 : ℤ)) ^ (Multiset.card s + 1) := one_le_pow₀ (by linarith)
    have key := dots_step (η := 2 ^ (-1074 : ℤ)) (P := 1) (A := |p * q|) (sA := |p * q|) (Sa := p * q) (a := p * q)
      (R := (1 + 2 ^ (-53 : ℤ)) ^ (Multiset.card s + 1)) hu.le
      (by rw [mul_one]; exact le_self_pow₀ (by linarith) (by omega)) (by rw [← pow_succ']) d2 d1 le_rfl c1
      (by rw [sub_self, abs_zero]; linarith) e1
      ((B64.round_err (p * q + w)).trans (by gcongr; exact abs_add_le _ _))
    refine key.trans ?_
    nlinarith

variable {N M T : ℕ} {chunks : Fin T → List (Fin N)}

/-- **C87, end to end.** Positions and densities of moderate size (underflow of the products included): for every distribution of
the points among the threads `build_jacobian` returns, and for every Jacobian it may return and every order of the additions in
`jacobian @ densities`, with or without fused multiply-adds, each number is finite and within an explicit bound of the sum of
Newton's integrals. -/
theorem C87_moderate {P : Fin M → Box} (hP : ∀ j, (P j).Ordered) (q : Fin N → Pt) (ρ : Fin M → ℝ)
    (hm : ∀ i j, ModerateOffsets (q i) (P j)) (hρ : ∀ j, ModerateSize (ρ j)) {L : ℝ} (hL : ∀ i j, OffsetsUpTo L (q i) (P j))
    (hM : M ≤ 2 ^ 40) (hc : Distribution chunks) :
    (∃ J, build_jacobian (A := Binary64) (points q) (boxes P) chunks J) ∧
      ∀ J, build_jacobian (points q) (boxes P) chunks J → ∀ r : Fin N → Fl Binary64, matmul J (values ρ) r →
        ∀ i, ∃ y : ℝ, r i = (y : Fl Binary64) ∧
          |y - ∑ j, ∫ s in (P j).region, 6.6743e-11 * ρ j * (s.u - (q i).u) / dist3 (q i) s ^ 3|
            ≤ (2 ^ (-34 : ℤ) + M * 2 ^ (-47 : ℤ)) * (6.6743e-11 * L * ∑ j, |ρ j|) + M * 2 ^ (-1073 : ℤ) := by
  refine ⟨(C85_returns Binary64_monotone hc).exists, fun J hJ r hr i => ?_⟩
  have h1m : ModerateSize 1 := .inr (by norm_num)
  have hL0 : ∀ _ : Fin M, 0 ≤ L := fun j => (abs_nonneg _).trans (hL i j .e).1
  have rv : ∀ j, ∃ v, Returns (onPrism (A := Binary64) prism.gravity_u (q i) (P j) (1 : ℝ)) v := fun j => by
    obtain ⟨g, hg, v, hv, -⟩ := C98_gravity .u (q i) (P j) (hP j) (fun h => h) (hm i j) (hL i j) 1 h1m
    exact ⟨v, hv⟩
  choose v hv using rv
  have rx := fun j => (C22_newton_integral (hP j) .u (q i) 1).2
  have hvx := fun j => (gravity_u_double (hP j) (hm i j) (hL i j) h1m (rx j) (hv j)).1
  have hvb := fun j => (gravity_u_double (hP j) (hm i j) (hL i j) h1m (rx j) (hv j)).2
  have hvm := fun j => (gravity_u_double (hP j) (hm i j) (offsets_moderate (hm i j)) h1m (rx j) (hv j)).2
  rw [abs_one, mul_one] at hvx hvb hvm
  have hJv : ∀ j, J i j = (v j : Fl Binary64) := fun j => by
    have a := (C85_entries hc J).1 hJ i j
    have b : fieldOf (A := Binary64) (points q) (boxes P) (fun _ => Fl.fin ((1 : ℕ) : ℝ)) i j = .ok (v j : Fl Binary64) := by
      rw [Nat.cast_one]
      exact hv j
    exact Except.ok.inj (a.symm.trans b)
  set S : ℝ := 6.6743e-11 * L * ∑ j, |ρ j| with hS
  have hS0 : 0 ≤ S := by
    rcases Nat.eq_zero_or_pos M with rfl | h0
    · simp [hS]
    · have := hL0 ⟨0, h0⟩
      have : 0 ≤ ∑ j, |ρ j| := Finset.sum_nonneg fun _ _ => abs_nonneg _
      positivity
  have en : ∀ j, ∫ s in (P j).region, 6.6743e-11 * ρ j * (s.u - (q i).u) / dist3 (q i) s ^ 3
      = (∫ s in (P j).region, 6.6743e-11 * (s.u - (q i).u) / dist3 (q i) s ^ 3) * ρ j := fun j => by
    rw [← integral_mul_const]
    refine integral_congr_ae (.of_forall fun s => ?_)
    dsimp only
    ring
  have h1 : |∑ j, v j * ρ j - ∑ j, ∫ s in (P j).region, 6.6743e-11 * ρ j * (s.u - (q i).u) / dist3 (q i) s ^ 3|
      ≤ 2 ^ (-34 : ℤ) * S := by
    rw [← Finset.sum_sub_distrib, hS, Finset.mul_sum, Finset.mul_sum]
    refine (Finset.abs_sum_le_sum_abs _ _).trans (Finset.sum_le_sum fun j _ => ?_)
    rw [en j, ← sub_mul, abs_mul]
    calc _ ≤ 2 ^ (-34 : ℤ) * (6.6743e-11 * L) * |ρ j| := mul_le_mul_of_nonneg_right (hvx j) (abs_nonneg _)
      _ = _ := by ring
  have h2 : ∑ j, |v j * ρ j| ≤ 27 * S := by
    rw [hS, Finset.mul_sum, Finset.mul_sum]
    refine Finset.sum_le_sum fun j _ => ?_
    rw [abs_mul]
    exact (mul_le_mul_of_nonneg_right (hvb j) (abs_nonneg _)).trans (le_of_eq (by ring))
  have h20 : 0 ≤ ∑ j, |v j * ρ j| := Finset.sum_nonneg fun _ _ => abs_nonneg _
  have hMr : (M : ℝ) ≤ 2 ^ 40 := by exact_mod_cast hM
  have h3 : ∑ j, |v j * ρ j| ≤ 2 ^ (300 : ℤ) := by
    have b : ∀ j, |v j * ρ j| ≤ 2 ^ (170 : ℤ) := fun j => by
      have r : |ρ j| ≤ 2 ^ (80 : ℤ) := by
        rcases hρ j with h | h
        · rw [h, abs_zero]; positivity
        · exact h.2
      rw [abs_mul]
      calc |v j| * |ρ j| ≤ (27 * (6.6743e-11 * 2 ^ (80 : ℤ))) * 2 ^ (80 : ℤ) := mul_le_mul (hvm j) r (abs_nonneg _) (by positivity)
        _ = 27 * 6.6743e-11 * 2 ^ (160 : ℤ) := by
          rw [show (160 : ℤ) = 80 + 80 by norm_num, zpow_add₀ (by norm_num)]; ring
        _ ≤ 1 * 2 ^ (160 : ℤ) := by gcongr; norm_num
        _ ≤ 2 ^ (170 : ℤ) := by rw [one_mul]; exact zpow_le_zpow_right₀ (by norm_num) (by norm_num)
    calc ∑ j, |v j * ρ j| ≤ ∑ _j : Fin M, (2 : ℝ) ^ (170 : ℤ) := Finset.sum_le_sum fun j _ => b j
      _ = M * 2 ^ (170 : ℤ) := by simp
      _ ≤ 2 ^ (40 : ℤ) * 2 ^ (170 : ℤ) := by gcongr; exact_mod_cast hMr
      _ = 2 ^ (210 : ℤ) := by rw [← zpow_add₀ (by norm_num)]; norm_num
      _ ≤ 2 ^ (300 : ℤ) := zpow_le_zpow_right₀ (by norm_num) (by norm_num)
  have g1 := pow_growth hMr
  have g2 : (M : ℝ) * 2 ^ (-52 : ℤ) ≤ 1 := by
    have : (2 : ℝ) ^ 40 * 2 ^ (-52 : ℤ) ≤ 1 := by norm_num
    exact (mul_le_mul_of_nonneg_right hMr (by positivity)).trans this
  set η : ℝ := 2 ^ (-1074 : ℤ) with hη
  have η0 : 0 < η := B64.two_zpow_pos _
  have η1 : η ≤ 1 := zpow_le_one_of_nonpos₀ (by norm_num) (by norm_num)
  have e : ∀ j, pairReal (J i j, (values ρ j : Fl Binary64)) = v j * ρ j := fun j => by rw [hJv j]; rfl
  have eD : dotSize ((Finset.univ : Finset (Fin M)).val.map fun j => (J i j, values ρ j)) = ∑ j, |v j * ρ j| + M * η := by
    unfold dotSize
    rw [Multiset.card_map, Multiset.map_map, Finset.card_val, Finset.card_univ, Fintype.card_fin]
    simp only [Function.comp_def, e]
    rfl
  obtain ⟨y, hy, -, hb⟩ := dotsTo_total (hr i) (fun z hz => by
    obtain ⟨k, -, rfl⟩ := Multiset.mem_map.1 hz
    exact ⟨v k, ρ k, by rw [hJv k]; rfl⟩) (by
    rw [eD, Multiset.card_map, Finset.card_val, Finset.card_univ, Fintype.card_fin, pow_succ]
    have u1 : (2 : ℝ) ^ (-53 : ℤ) ≤ 1 := zpow_le_one_of_nonpos₀ (by norm_num) (by norm_num)
    have u0 : (0 : ℝ) < 2 ^ (-53 : ℤ) := by positivity
    have k1 : (1 + (2 : ℝ) ^ (-53 : ℤ)) ^ M * (1 + 2 ^ (-53 : ℤ)) ≤ 2 * 2 :=
      mul_le_mul (by linarith) (by linarith) (by linarith) (by norm_num)
    have k2 : M * η ≤ 2 ^ (300 : ℤ) := by
      calc M * η ≤ 2 ^ 40 * 1 := mul_le_mul hMr η1 η0.le (by norm_num)
        _ = 2 ^ (40 : ℤ) := by norm_num
        _ ≤ 2 ^ (300 : ℤ) := zpow_le_zpow_right₀ (by norm_num) (by norm_num)
    calc _ ≤ (2 * 2) * (2 ^ (300 : ℤ) + 2 ^ (300 : ℤ)) := mul_le_mul k1 (add_le_add h3 k2) (by positivity) (by norm_num)
      _ = 2 ^ (303 : ℤ) := by
        rw [show (303 : ℤ) = 3 + 300 by norm_num, zpow_add₀ (by norm_num)]
        norm_num
        ring
      _ ≤ 2 ^ (1023 : ℤ) := zpow_le_zpow_right₀ (by norm_num) (by norm_num))
  refine ⟨y, hy, ?_⟩
  rw [eD, Multiset.card_map, Multiset.map_map, Multiset.map_map, Finset.card_val, Finset.card_univ, Fintype.card_fin] at hb
  simp only [Function.comp_def, e] at hb
  have hb' : |y - ∑ j, v j * ρ j| ≤ (1 + 2 ^ (-53 : ℤ)) ^ M * (∑ j, |v j * ρ j| + M * η) - ∑ j, |v j * ρ j| := hb
  have g4 : |y - ∑ j, v j * ρ j| ≤ M * 2 ^ (-47 : ℤ) * S + M * 2 ^ (-1073 : ℤ) := by
    have e1 : (2 : ℝ) ^ (-47 : ℤ) = 32 * 2 ^ (-52 : ℤ) := by norm_num
    have e2 : (2 : ℝ) ^ (-1073 : ℤ) = 2 * η := by
      rw [hη, show (-1073 : ℤ) = 1 + -1074 by norm_num, zpow_add₀ (by norm_num), zpow_one]
    rw [e1, e2]
    have a0 : (0 : ℝ) ≤ M := Nat.cast_nonneg _
    have a1 : (0 : ℝ) ≤ M * 2 ^ (-52 : ℤ) := by positivity
    generalize (1 + (2 : ℝ) ^ (-53 : ℤ)) ^ M = R at *
    generalize ∑ j, |v j * ρ j| = S1 at *
    have b1 : (R - 1) * S1 ≤ (M * 2 ^ (-52 : ℤ)) * (27 * S) := by
      calc (R - 1) * S1 ≤ (M * 2 ^ (-52 : ℤ)) * S1 := mul_le_mul_of_nonneg_right (by linarith) h20
        _ ≤ _ := mul_le_mul_of_nonneg_left h2 a1
    have b2 : R * (M * η) ≤ 2 * (M * η) := mul_le_mul_of_nonneg_right (by linarith) (by positivity)
    have b3 : 0 ≤ (M * 2 ^ (-52 : ℤ)) * S := mul_nonneg a1 hS0
    calc _ ≤ R * (S1 + M * η) - S1 := hb'
      _ = (R - 1) * S1 + R * (M * η) := by ring
      _ ≤ (M * 2 ^ (-52 : ℤ)) * (27 * S) + 2 * (M * η) := add_le_add b1 b2
      _ ≤ M * (32 * 2 ^ (-52 : ℤ)) * S + M * (2 * η) := by linarith
  calc _ = |(y - ∑ j, v j * ρ j) + (∑ j, v j * ρ j
        - ∑ j, ∫ s in (P j).region, 6.6743e-11 * ρ j * (s.u - (q i).u) / dist3 (q i) s ^ 3)| := by congr 1; ring
    _ ≤ _ := abs_add_le _ _
    _ ≤ (M * 2 ^ (-47 : ℤ) * S + M * 2 ^ (-1073 : ℤ)) + 2 ^ (-34 : ℤ) * S := add_le_add g4 h1
    _ = _ := by ring

/-- one thread takes the three points one after another -/
example : (∃ J, build_jacobian (A := Binary64) (points fun _ : Fin 3 => (130, 75, 5)) (boxes fun _ : Fin 4 => demoPrism)
    (fun _ : Fin 1 => List.finRange 3) J) :=
  (C87_moderate (P := fun _ => demoPrism) (fun _ => demo_ordered) (fun _ => (130, 75, 5)) (fun _ => 2670) (fun _ _ => demo_offsets)
    (fun _ => .inr (by norm_num)) (L := 1000)
    (fun _ _ a => by cases a <;> norm_num [demoPrism, Box.lo, Box.hi, Pt.coord, Pt.e, Pt.n, Pt.u, abs_le]) (by norm_num)
    ⟨fun i => ⟨0, List.mem_finRange i⟩, fun _ => List.nodup_finRange 3, fun t t' h => absurd (Subsingleton.elim t t') h⟩).1

end Choclo
