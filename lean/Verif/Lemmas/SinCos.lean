import Verif.Model.Binary64
import Mathlib.Analysis.Complex.Trigonometric
import Mathlib.Analysis.Complex.Exponential

/-! # Enclosures of sine and cosine; evaluation of binary64 roundings at literals -/

namespace Choclo

/-- Taylor polynomial of the cosine of degree 12. -/
noncomputable def cosTaylor (x : ℝ) : ℝ :=
  1 - x ^ 2 / 2 + x ^ 4 / 24 - x ^ 6 / 720 + x ^ 8 / 40320 - x ^ 10 / 3628800 + x ^ 12 / 479001600
/-- Taylor polynomial of the sine of degree 13. -/
noncomputable def sinTaylor (x : ℝ) : ℝ :=
  x - x ^ 3 / 6 + x ^ 5 / 120 - x ^ 7 / 5040 + x ^ 9 / 362880 - x ^ 11 / 39916800
    + x ^ 13 / 6227020800

theorem exp_taylor_sum (x : ℝ) :
    ∑ m ∈ Finset.range 14, ((x : ℂ) * Complex.I) ^ m / m.factorial =
      ((cosTaylor x : ℝ) : ℂ) + ((sinTaylor x : ℝ) : ℂ) * Complex.I := by
  have h2 : Complex.I ^ 2 = -1 := Complex.I_sq
  have h3 : Complex.I ^ 3 = -Complex.I := by rw [pow_succ, h2]; ring
  have h4 : Complex.I ^ 4 = 1 := by rw [pow_succ, h3]; ring_nf; rw [h2]; ring
  have h5 : Complex.I ^ 5 = Complex.I := by rw [pow_succ, h4]; ring
  have h6 : Complex.I ^ 6 = -1 := by rw [pow_succ, h5, ← sq, h2]
  have h7 : Complex.I ^ 7 = -Complex.I := by rw [pow_succ, h6]; ring
  have h8 : Complex.I ^ 8 = 1 := by rw [pow_succ, h7]; ring_nf; rw [h2]; ring
  have h9 : Complex.I ^ 9 = Complex.I := by rw [pow_succ, h8]; ring
  have h10 : Complex.I ^ 10 = -1 := by rw [pow_succ, h9, ← sq, h2]
  have h11 : Complex.I ^ 11 = -Complex.I := by rw [pow_succ, h10]; ring
  have h12 : Complex.I ^ 12 = 1 := by rw [pow_succ, h11]; ring_nf; rw [h2]; ring
  have h13 : Complex.I ^ 13 = Complex.I := by rw [pow_succ, h12]; ring
  simp only [Finset.sum_range_succ, Finset.sum_range_zero, mul_pow, h2, h3, h4, h5, h6, h7, h8, h9,
    h10, h11, h12, h13, pow_zero, pow_one, Nat.factorial, cosTaylor, sinTaylor]
  push_cast
  ring

theorem cos_sin_enclosure {x : ℝ} (hx : |x| ≤ 1) :
    |Real.cos x - cosTaylor x| ≤ |x| ^ 14 / 80000000000 ∧
    |Real.sin x - sinTaylor x| ≤ |x| ^ 14 / 80000000000 := by
  have hn : ‖(x : ℂ) * Complex.I‖ = |x| := by simp
  have h := Complex.exp_bound (x := (x : ℂ) * Complex.I) (by rw [hn]; exact hx) (n := 14) (by norm_num)
  rw [hn, exp_taylor_sum, Complex.exp_mul_I] at h
  set z : ℂ := Complex.cos x + Complex.sin x * Complex.I -
    (((cosTaylor x : ℝ) : ℂ) + ((sinTaylor x : ℝ) : ℂ) * Complex.I) with hz
  have hre : z.re = Real.cos x - cosTaylor x := by
    rw [hz]; simp [Complex.cos_ofReal_re, Complex.sin_ofReal_im]
  have him : z.im = Real.sin x - sinTaylor x := by
    rw [hz]; simp [Complex.sin_ofReal_re, Complex.cos_ofReal_im]
  have hb : |x| ^ 14 * (((14 : ℕ).succ : ℝ) * (((14 : ℕ).factorial : ℝ) * ((14 : ℕ) : ℝ))⁻¹) ≤
      |x| ^ 14 / 80000000000 := by
    rw [div_eq_mul_inv]
    refine mul_le_mul_of_nonneg_left ?_ (by positivity)
    norm_num [Nat.factorial]
  refine ⟨?_, ?_⟩
  · rw [← hre]; exact (Complex.abs_re_le_norm z).trans (h.trans hb)
  · rw [← him]; exact (Complex.abs_im_le_norm z).trans (h.trans hb)

namespace B64

/-- the rounding of `x` is the nearest multiple of the unit in its binade -/
theorem round_eq {x : ℝ} {m q : ℤ} (hq : -1074 ≤ q) (h1 : (2 : ℝ) ^ (q + 52) ≤ |x|)
    (h2 : |x| < 2 ^ (q + 53)) (h3 : |x - m * 2 ^ q| < 2 ^ q / 2) : round x = m * 2 ^ q := by
  have hx : 0 < |x| := lt_of_lt_of_le (two_zpow_pos _) h1
  have hlog : Int.log 2 |x| = q + 52 := by
    apply le_antisymm
    · have : Int.log 2 |x| < q + 53 := (Int.lt_zpow_iff_log_lt (by norm_num) hx).1 (by exact_mod_cast h2)
      omega
    · exact (Int.zpow_le_iff_le_log (by norm_num) hx).1 (by exact_mod_cast h1)
  have hqe : qexp x = q := by
    unfold qexp
    rw [hlog, add_sub_cancel_right, max_eq_left hq]
  unfold round
  rw [hqe]
  have hp := two_zpow_pos q
  have h4 : |x / 2 ^ q - m| < 1 / 2 := by
    rw [show x / 2 ^ q - m = (x - m * 2 ^ q) / 2 ^ q by field_simp, abs_div, abs_of_pos hp,
      div_lt_iff₀ hp]
    linarith
  have h5 := abs_rne_sub_le (x / 2 ^ q)
  have h6 : |((rne (x / 2 ^ q) - m : ℤ) : ℝ)| < 1 := by
    push_cast
    calc |(rne (x / 2 ^ q) : ℝ) - m| = |((rne (x / 2 ^ q) : ℝ) - x / 2 ^ q) + (x / 2 ^ q - m)| := by
          ring_nf
      _ ≤ _ := abs_add_le _ _
      _ < 1 := by linarith
  have h7 : rne (x / 2 ^ q) - m = 0 := by
    have : |rne (x / 2 ^ q) - m| < 1 := by exact_mod_cast h6
    rwa [Int.abs_lt_one_iff] at this
  rw [sub_eq_zero.1 h7]

/-- the same, as a datum, for results of magnitude below `2^1024` -/
theorem rnd_eq {x : ℝ} {m q : ℤ} (hq : -1074 ≤ q) (hq' : q ≤ 970) (h1 : (2 : ℝ) ^ (q + 52) ≤ |x|)
    (h2 : |x| < 2 ^ (q + 53)) (h3 : |x - m * 2 ^ q| < 2 ^ q / 2) : rnd x = .fin (m * 2 ^ q) := by
  unfold rnd
  rw [round_eq hq h1 h2 h3, if_pos]
  have : |(m : ℝ) * 2 ^ q| ≤ |x| + |x - m * 2 ^ q| := by
    have := abs_sub_abs_le_abs_sub ((m : ℝ) * 2 ^ q) x
    rw [abs_sub_comm] at this
    linarith
  calc |(m : ℝ) * 2 ^ q| ≤ |x| + |x - m * 2 ^ q| := this
    _ < 2 ^ (q + 53) + 2 ^ q := by have := two_zpow_pos q; linarith
    _ ≤ 2 ^ (q + 53) + 2 ^ (q + 53) := by
        have := two_zpow_le (a := q) (b := q + 53) (by omega); linarith
    _ = 2 ^ (q + 54) := by
        rw [show q + 54 = q + 53 + 1 by ring, zpow_add_one₀ (by norm_num)]; ring
    _ ≤ 2 ^ (1024 : ℤ) := two_zpow_le (by omega)

end B64
end Choclo
