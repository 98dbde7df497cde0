import Verif.Model.Binary64

/-! # The rounded root of a rounded square

In binary arithmetic with rounding to nearest, `sqrt(x * x)` is exactly `|x|` unless the square underflows or overflows. -/

namespace Choclo.B64

theorem log_eq {x : ℝ} {e : ℤ} (h1 : 2 ^ e ≤ x) (h2 : x < 2 ^ (e + 1)) : Int.log 2 x = e := by
  have hx : 0 < x := (two_zpow_pos e).trans_le h1
  refine le_antisymm ?_ ?_
  · have := (Int.lt_zpow_iff_log_lt (b := 2) (by norm_num) hx (x := e + 1)).1 (by push_cast; exact h2)
    omega
  · exact (Int.zpow_le_iff_le_log (by norm_num) hx).1 (by push_cast; exact h1)

/-- a number closer than half a unit to a number with 53 bits is rounded to it -/
theorem round_eq_of_near {x : ℝ} {M q : ℤ} (hM : 2 ^ 52 < M) (hM' : M < 2 ^ 53) (hq : -1074 ≤ q)
    (h : |x / 2 ^ q - M| < 1 / 2) : round x = M * 2 ^ q := by
  have hW := two_zpow_pos q
  obtain ⟨h1, h2⟩ := abs_lt.1 h
  have a1 : ((2 ^ 52 + 1 : ℤ) : ℝ) ≤ M := by exact_mod_cast hM
  have a2 : (M : ℝ) ≤ ((2 ^ 53 - 1 : ℤ) : ℝ) := by exact_mod_cast Int.le_sub_one_of_lt hM'
  push_cast at a1 a2
  have b1 : (2 : ℝ) ^ 52 ≤ x / 2 ^ q := by linarith
  have b2 : x / 2 ^ q < (2 : ℝ) ^ 53 := by linarith
  rw [le_div_iff₀ hW] at b1
  rw [div_lt_iff₀ hW] at b2
  have hx : 0 < x := lt_of_lt_of_le (by positivity) b1
  have hl : Int.log 2 |x| = q + 52 := by
    rw [abs_of_pos hx]
    refine log_eq ?_ ?_
    · rw [zpow_add₀ two_ne_zero, mul_comm]; exact_mod_cast b1
    · rw [show q + 52 + 1 = q + 53 by ring, zpow_add₀ two_ne_zero, mul_comm]; exact_mod_cast b2
  have hqe : qexp x = q := by
    unfold qexp
    rw [hl]
    exact (max_eq_left (by omega)).trans (by ring)
  unfold round
  rw [hqe]
  congr 2
  have h3 := abs_le.1 (abs_rne_sub_le (x / 2 ^ q))
  have h4 : ((rne (x / 2 ^ q) : ℤ) : ℝ) < ((M + 1 : ℤ) : ℝ) := by push_cast; linarith
  have h5 : ((M - 1 : ℤ) : ℝ) < ((rne (x / 2 ^ q) : ℤ) : ℝ) := by push_cast; linarith
  have h6 := Int.cast_lt.1 h4
  have h7 := Int.cast_lt.1 h5
  omega

theorem abs_round_sub_le_ulp (x : ℝ) : |round x - x| ≤ 1 / 2 * 2 ^ qexp x := by
  have h2 := two_zpow_pos (qexp x)
  have e : round x - x = (rne (x / 2 ^ qexp x) - x / 2 ^ qexp x) * 2 ^ qexp x := by
    unfold round
    field_simp
  rw [e, abs_mul, abs_of_pos h2]
  exact mul_le_mul_of_nonneg_right (abs_rne_sub_le _) h2.le

theorem sqrt_near {S M E : ℝ} (hS : 0 ≤ S) (hM : (2 : ℝ) ^ 52 + 1 ≤ M) (hE : |S ^ 2 - M ^ 2| ≤ E)
    (h : E ≤ 2 ^ 51 ∨ (E ≤ 2 ^ 52 ∧ (2 : ℝ) ^ 105 ≤ M ^ 2)) : |S - M| < 1 / 2 := by
  have hsum : 0 < S + M := by positivity
  have e : |S ^ 2 - M ^ 2| = |S - M| * (S + M) := by
    rw [show S ^ 2 - M ^ 2 = (S - M) * (S + M) by ring, abs_mul, abs_of_pos hsum]
  rw [e] at hE
  by_contra hc
  have hc : 1 / 2 ≤ |S - M| := not_lt.1 hc
  have h1 : 1 / 2 * (S + M) ≤ |S - M| * (S + M) := mul_le_mul_of_nonneg_right hc hsum.le
  rcases h with h | ⟨h, hm⟩
  · linarith
  · have hM2 : (63 / 45 : ℝ) * 2 ^ 52 ≤ M := by
      by_contra hlt
      have hlt := not_le.1 hlt
      have : M ^ 2 < ((63 / 45 : ℝ) * 2 ^ 52) ^ 2 := by gcongr
      norm_num at this hm
      linarith
    have h2 : |S - M| * M ≤ |S - M| * (S + M) := mul_le_mul_of_nonneg_left (by linarith) (abs_nonneg _)
    have h3 : |S - M| < 1 := by
      by_contra h3
      have := mul_le_mul_of_nonneg_right (not_lt.1 h3) (by linarith : (0 : ℝ) ≤ M)
      linarith
    have := (abs_lt.1 h3).1
    linarith

theorem sqrt_round_sq_pos {d : ℝ} (hF : IsF d) (h1 : 2 ^ (-511 : ℤ) ≤ d) :
    round (Real.sqrt (round (d ^ 2))) = d := by
  have hd : 0 < d := (two_zpow_pos _).trans_le h1
  set e := Int.log 2 d with he
  have e1 : (2 : ℝ) ^ e ≤ d := by
    have := Int.zpow_log_le_self (b := 2) (r := d) (by norm_num) hd
    push_cast at this
    exact this
  have e2 : d < (2 : ℝ) ^ (e + 1) := by
    have := Int.lt_zpow_succ_log_self (b := 2) (by norm_num) d
    push_cast at this
    exact this
  have he' : -511 ≤ e := by
    rw [he, ← Int.zpow_le_iff_le_log (by norm_num) hd]
    push_cast
    exact h1
  have hqe : qexp d = e - 52 := by
    unfold qexp
    rw [abs_of_pos hd]
    exact max_eq_left (by omega)
  obtain ⟨q, hq⟩ : ∃ q, q = e - 52 := ⟨_, rfl⟩
  obtain ⟨M, hM⟩ : ∃ M : ℤ, d = M * 2 ^ q := by
    refine ⟨rne (d / 2 ^ q), ?_⟩
    have := hF.round
    unfold round at this
    rw [hqe, ← hq] at this
    exact this.symm
  have hW := two_zpow_pos q
  have e1' : (2 : ℝ) ^ 52 * 2 ^ q ≤ d := by
    have : (2 : ℝ) ^ e = 2 ^ 52 * 2 ^ q := by
      rw [show e = q + 52 by omega, zpow_add₀ two_ne_zero, mul_comm]
      norm_num
    rwa [this] at e1
  have e2' : d < (2 : ℝ) ^ 53 * 2 ^ q := by
    have : (2 : ℝ) ^ (e + 1) = 2 ^ 53 * 2 ^ q := by
      rw [show e + 1 = q + 53 by omega, zpow_add₀ two_ne_zero, mul_comm]
      norm_num
    rwa [this] at e2
  rw [hM] at e1' e2'
  have m1 := le_of_mul_le_mul_right e1' hW
  have m2 := lt_of_mul_lt_mul_right e2' hW.le
  have m1' : (2 : ℤ) ^ 52 ≤ M := by exact_mod_cast m1
  have m2' : M < (2 : ℤ) ^ 53 := by exact_mod_cast m2
  rcases m1'.eq_or_lt with h52 | h52
  · -- a power of two
    have hde : d = 2 ^ e := by
      rw [hM, ← h52, show e = q + 52 by omega, zpow_add₀ two_ne_zero]
      push_cast
      norm_num
      ring
    have : round (d ^ 2) = d ^ 2 := by
      refine IsF.round ?_
      rw [hde, ← zpow_natCast, ← zpow_mul]
      exact isF_zpow (by push_cast; omega)
    rw [this, Real.sqrt_sq hd.le, hF.round]
  · have hW2 : ((2 : ℝ) ^ q) ^ 2 = 2 ^ (2 * q) := by rw [← zpow_natCast, ← zpow_mul]; congr 1; push_cast; ring
    have hd2 : 0 < d ^ 2 := by positivity
    have dsq : d ^ 2 = (M : ℝ) ^ 2 * 2 ^ (2 * q) := by rw [hM, mul_pow, hW2]
    have hW2p := two_zpow_pos (2 * q)
    -- the unit of the square
    have key : ∀ n : ℕ, (M : ℝ) ^ 2 < 2 ^ (105 + n) → 1 / 2 * (2 : ℝ) ^ qexp (d ^ 2) ≤ 2 ^ (51 + n) * 2 ^ (2 * q) := by
      intro n hn
      have hl : Int.log 2 (d ^ 2) < 2 * q + (105 + n) := by
        refine (Int.lt_zpow_iff_log_lt (b := 2) (by norm_num) hd2).1 ?_
        push_cast
        rw [zpow_add₀ two_ne_zero, dsq, mul_comm]
        exact mul_lt_mul_of_pos_left (by exact_mod_cast hn) hW2p
      have : qexp (d ^ 2) ≤ 2 * q + (52 + n) := by
        unfold qexp
        rw [abs_of_pos hd2]
        exact max_le (by omega) (by omega)
      calc 1 / 2 * (2 : ℝ) ^ qexp (d ^ 2) ≤ 1 / 2 * 2 ^ (2 * q + (52 + n)) := by
            have := two_zpow_le this
            linarith
        _ = 2 ^ (51 + n) * 2 ^ (2 * q) := by
            rw [zpow_add₀ two_ne_zero, show ((52 : ℤ) + n) = ((52 + n : ℕ) : ℤ) by push_cast; ring, zpow_natCast,
              show 52 + n = (51 + n) + 1 by ring, pow_succ]
            ring
    have hr := abs_round_sub_le_ulp (d ^ 2)
    set y := round (d ^ 2) with hy
    have hy0 : 0 ≤ y := round_nonneg hd2.le
    set S := Real.sqrt y / 2 ^ q with hS
    have hS0 : 0 ≤ S := by positivity
    have hSy : S ^ 2 * 2 ^ (2 * q) = y := by
      rw [hS, div_pow, Real.sq_sqrt hy0, hW2, div_mul_cancel₀ _ hW2p.ne']
    have hdiff : ∀ E : ℝ, 1 / 2 * (2 : ℝ) ^ qexp (d ^ 2) ≤ E * 2 ^ (2 * q) → |S ^ 2 - (M : ℝ) ^ 2| ≤ E := by
      intro E hE
      have : |y - d ^ 2| = |S ^ 2 - (M : ℝ) ^ 2| * 2 ^ (2 * q) := by
        rw [← hSy, dsq, ← sub_mul, abs_mul, abs_of_pos hW2p]
      rw [this] at hr
      exact le_of_mul_le_mul_right (hr.trans hE) hW2p
    have hM52 : (2 : ℝ) ^ 52 + 1 ≤ M := by exact_mod_cast h52
    have near : |S - M| < 1 / 2 := by
      rcases lt_or_ge ((M : ℝ) ^ 2) (2 ^ 105) with h | h
      · exact sqrt_near hS0 hM52 (hdiff _ (key 0 h)) (.inl le_rfl)
      · refine sqrt_near hS0 hM52 (hdiff _ (key 1 ?_)) (.inr ⟨le_rfl, h⟩)
        calc (M : ℝ) ^ 2 < (2 ^ 53) ^ 2 := by gcongr
          _ = 2 ^ (105 + 1) := by norm_num
    rw [round_eq_of_near h52 m2' (by omega) near, ← hM]

/-- The rounded root of the rounded square is the number itself. -/
theorem sqrt_round_sq {d : ℝ} (hF : IsF d) (h1 : 2 ^ (-511 : ℤ) ≤ |d|) :
    round (Real.sqrt (round (d ^ 2))) = |d| := by
  rcases abs_cases d with ⟨h, -⟩ | ⟨h, -⟩
  · rw [h] at h1 ⊢; exact sqrt_round_sq_pos hF h1
  · rw [h] at h1 ⊢
    rw [← neg_sq]
    exact sqrt_round_sq_pos (isF_neg hF) h1

end Choclo.B64
