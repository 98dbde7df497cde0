import Verif.Model.Binary64
import Verif.Spec.Scaling

/-!
# Binary floating point with 53 significant bits and unbounded exponents

IEEE binary64 as it is where nothing over- or underflows (same rounding, to nearest even).  It models
the float64 operations used by every function in `/repo/src/choclo`; simplifications as in
`Verif/Model/Binary64.lean`, and no limits on the exponent.
-/

namespace Choclo

namespace B53

/-- Exponent of the unit in the last place.
Models `/repo/src/choclo/utils.py:50-54` (rounding of each float64 operation). -/
noncomputable def qexp (x : ℝ) : ℤ := Int.log 2 |x| - 52

/-- Rounding to 53 significant bits, to nearest even.
Models `/repo/src/choclo/utils.py:50-54` (rounding of each float64 operation). -/
noncomputable def round (x : ℝ) : ℝ := rne (x / 2 ^ qexp x) * 2 ^ qexp x

end B53

/-- Binary64 without limits on the exponent.
Models `/repo/src/choclo/utils.py:50-54` and every other function: float64 arithmetic; simplified: no limits on the exponent. -/
noncomputable def Binary53 : Arith where
  rnd x := .fin (B53.round x)
  pow x n := .fin (B53.round (x ^ n))
  log x := .fin (B53.round (Real.log x))
  atan x := .fin (B53.round (Real.arctan x))
  sin x := .fin (B53.round (Real.sin x))
  cos x := .fin (B53.round (Real.cos x))
  radians x := .fin (B53.round (x * (B53.round (Real.pi / 180))))
  pi := B53.round Real.pi

theorem log_two_zpow_mul (k : ℤ) {x : ℝ} (hx : 0 < x) : Int.log 2 (2 ^ k * x) = k + Int.log 2 x := by
  have h2 : (0 : ℝ) < 2 ^ k := B64.two_zpow_pos k
  have hx' : 0 < 2 ^ k * x := mul_pos h2 hx
  have e : ∀ z : ℤ, z ≤ Int.log 2 (2 ^ k * x) ↔ z ≤ k + Int.log 2 x := by
    intro z
    rw [← Int.zpow_le_iff_le_log (by norm_num) hx', show (z ≤ k + Int.log 2 x) ↔ z - k ≤ Int.log 2 x by omega,
      ← Int.zpow_le_iff_le_log (by norm_num) hx]
    push_cast
    rw [zpow_sub₀ (by norm_num), div_le_iff₀ h2, mul_comm x]
  exact le_antisymm ((e _).1 le_rfl) ((e _).2 le_rfl)

theorem B53.round_scale (k : ℤ) (x : ℝ) : B53.round (2 ^ k * x) = 2 ^ k * B53.round x := by
  by_cases h0 : x = 0
  · rw [h0, mul_zero]
    have : B53.round 0 = 0 := by
      unfold B53.round
      rw [zero_div, show (0 : ℝ) = ((0 : ℤ) : ℝ) by norm_num, rne_intCast]; norm_num
    rw [this, mul_zero]
  · have hx := abs_pos.2 h0
    have h2 : (0 : ℝ) < 2 ^ k := B64.two_zpow_pos k
    have hq : B53.qexp (2 ^ k * x) = k + B53.qexp x := by
      unfold B53.qexp
      rw [abs_mul, abs_of_pos h2, log_two_zpow_mul k hx]; ring
    unfold B53.round
    rw [hq, zpow_add₀ (by norm_num)]
    rw [mul_div_mul_left _ _ h2.ne']
    ring

/-- Binary floating point commutes with scaling by powers of two, barring over- and underflow. -/
theorem Binary53_scaleInvariant : Binary53.ScaleInvariant where
  rnd_scale k x := by
    show Raw.fin _ = Raw.fin _
    rw [B53.round_scale]
  pow_scale k x n := by
    show Raw.fin _ = Raw.fin _
    rw [mul_pow, ← zpow_natCast, ← zpow_mul, mul_comm k, B53.round_scale]

theorem B53.round_eq {x : ℝ} (h : x = 0 ∨ 2 ^ (-1022 : ℤ) ≤ |x|) : B53.round x = B64.round x := by
  rcases h with rfl | h
  · rw [B64.round_zero]
    unfold B53.round
    rw [zero_div, show (0 : ℝ) = ((0 : ℤ) : ℝ) by norm_num, rne_intCast]; norm_num
  · have hpos : 0 < |x| := lt_of_lt_of_le (B64.two_zpow_pos _) h
    have hlog : -1022 ≤ Int.log 2 |x| := by
      rw [← Int.zpow_le_iff_le_log (by norm_num) hpos]
      push_cast
      exact h
    have : B64.qexp x = B53.qexp x := by
      unfold B64.qexp B53.qexp
      exact max_eq_left (by omega)
    unfold B53.round B64.round
    rw [this]

/-- In the normal range of binary64 the two arithmetics round alike. -/
theorem Binary53_eq_Binary64 {x : ℝ} (h : x = 0 ∨ 2 ^ (-1022 : ℤ) ≤ |x|) (h' : |x| ≤ 2 ^ (1023 : ℤ)) :
    Binary53.rnd x = Binary64.rnd x := by
  show Raw.fin (B53.round x) = B64.rnd x
  rw [B64.rnd_of_le h', B53.round_eq h]

theorem B64.round_scale {x : ℝ} {j : ℤ} (h : 2 ^ (-1022 : ℤ) ≤ |x|) (h' : 2 ^ (-1022 : ℤ) ≤ |2 ^ j * x|) :
    B64.round (2 ^ j * x) = 2 ^ j * B64.round x := by
  rw [← B53.round_eq (.inr h), ← B53.round_eq (.inr h'), B53.round_scale]

theorem B64.abs_round (x : ℝ) : |B64.round x| = B64.round |x| := by
  rcases le_total 0 x with h | h
  · rw [abs_of_nonneg h, abs_of_nonneg (B64.round_nonneg h)]
  · have h2 := B64.round_nonneg (x := -x) (by linarith)
    rw [B64.round_neg] at h2
    rw [abs_of_nonpos h, abs_of_nonpos (by linarith), B64.round_neg]

theorem Exact_scaleInvariant : Exact.ScaleInvariant where
  rnd_scale _ _ := rfl
  pow_scale k x n := by
    show Raw.fin _ = Raw.fin _
    rw [mul_pow, ← zpow_natCast, ← zpow_mul, mul_comm k]

end Choclo
