import Verif.Lemmas.NumbaPow
import Verif.Model.Binary32

/-! # Numba's powers in single precision (the proofs of `Verif/Lemmas/NumbaPow.lean`) -/

namespace Choclo


/-- relative error at most `2⁻²³` from half the smallest normal number to `3/2 2¹²⁷` -/
theorem B32.rnd_rel_wide {x : ℝ} (h1 : 2 ^ (-127 : ℤ) ≤ |x|) (h2 : |x| ≤ 3 * 2 ^ (126 : ℤ)) :
    ∃ δ : ℝ, |δ| ≤ 2 ^ (-23 : ℤ) ∧ B32.rnd x = .fin (x * (1 + δ)) := by
  have hpos : 0 < |x| := lt_of_lt_of_le (B32.two_zpow_pos _) h1
  have hx0 : x ≠ 0 := abs_pos.1 hpos
  have hF : B32.IsF (3 * 2 ^ (126 : ℤ)) := ⟨3, 126, by norm_num, by norm_num, by norm_num⟩
  have hr : B32.rnd x = .fin (B32.round x) := by
    unfold B32.rnd
    rw [if_pos]
    rw [abs_le] at h2
    have a1 := B32.round_mono h2.2
    have a2 := B32.round_mono h2.1
    rw [hF.round] at a1
    rw [B32.round_neg, hF.round] at a2
    have : 3 * (2 : ℝ) ^ (126 : ℤ) < 2 ^ (128 : ℤ) := by
      have e : (2 : ℝ) ^ (128 : ℤ) = 4 * 2 ^ (126 : ℤ) := by
        rw [show (128 : ℤ) = 2 + 126 by norm_num, zpow_add₀ (by norm_num)]; norm_num
      have := B32.two_zpow_pos 126
      rw [e]
      exact (show ∀ m : ℝ, 0 < m → 3 * m < 4 * m by intro m h; linarith) _ this
    rw [abs_lt]
    exact ⟨lt_of_lt_of_le (neg_lt_neg this) a2, lt_of_le_of_lt a1 this⟩
  have e23 : (2 : ℝ) ^ (-23 : ℤ) = 2 * 2 ^ (-24 : ℤ) := by
    rw [show (-23 : ℤ) = 1 + -24 by norm_num, zpow_add₀ (by norm_num)]; norm_num
  have e126 : (2 : ℝ) ^ (-126 : ℤ) = 2 * 2 ^ (-127 : ℤ) := by
    rw [show (-126 : ℤ) = 1 + -127 by norm_num, zpow_add₀ (by norm_num)]; norm_num
  have hu := B32.two_zpow_pos (-24)
  refine ⟨(B32.round x - x) / x, ?_, ?_⟩
  · rw [abs_div, div_le_iff₀ hpos]
    rcases lt_or_ge |x| (2 ^ (-126 : ℤ)) with hx | hx
    · refine (B32.abs_round_sub_le_sub hx).trans ?_
      rw [e23, e126]
      nlinarith
    · refine (B32.abs_round_sub_le hx).trans ?_
      rw [e23]
      nlinarith
  · rw [hr]
    congr 1
    field_simp
    ring

/-- `a` is `x ^ k` up to `k - 1` roundings -/
def PowNear32 (w x : ℝ) (k : ℕ) (a : Fl Binary32) : Prop :=
  ∃ θ : ℝ, (1 - w) ^ (k - 1) ≤ θ ∧ θ ≤ ((1 - w) ^ (k - 1))⁻¹ ∧ a = Fl.fin (x ^ k * θ)

theorem powNear32_mul {x : ℝ} {k l n : ℕ} {a b : Fl Binary32} (hk : 1 ≤ k) (hl : 1 ≤ l) (hn : k + l ≤ n) (h7 : n ≤ 7)
    (h1 : 2 ^ (-126 : ℤ) ≤ |x ^ n|) (h2 : |x ^ n| ≤ 2 ^ (127 : ℤ))
    (ha : PowNear32 (2 ^ (-23 : ℤ)) x k a) (hb : PowNear32 (2 ^ (-23 : ℤ)) x l b) :
    PowNear32 (2 ^ (-23 : ℤ)) x (k + l) (a * b) := by
  obtain ⟨θ, t1, t2, rfl⟩ := ha
  obtain ⟨φ, f1, f2, rfl⟩ := hb
  have hw0 : (0 : ℝ) < 2 ^ (-23 : ℤ) := B32.two_zpow_pos _
  have hw1 : (2 : ℝ) ^ (-23 : ℤ) ≤ 1 / 64 := by norm_num
  have rel := @B32.rnd_rel_wide
  unfold PowNear32
  generalize (2 : ℝ) ^ (-23 : ℤ) = w at *
  obtain ⟨s1, s2⟩ := numba_slack hw0 hw1
  have hc : 0 < 1 - w := by linarith
  have hpk : 0 < (1 - w) ^ (k - 1) := pow_pos hc _
  have hpl : 0 < (1 - w) ^ (l - 1) := pow_pos hc _
  have hpp : (1 - w) ^ 6 ≤ (1 - w) ^ (k - 1) * (1 - w) ^ (l - 1) := by
    rw [← pow_add]
    exact pow_le_pow_of_le_one hc.le (by linarith) (by omega)
  have hp6 : 0 < (1 - w) ^ 6 := pow_pos hc _
  have hθ : 0 < θ := lt_of_lt_of_le hpk t1
  have hφ : 0 < φ := lt_of_lt_of_le hpl f1
  have b1 : (1 - w) ^ (k - 1) * (1 - w) ^ (l - 1) ≤ θ * φ := by gcongr
  have b2 : θ * φ ≤ ((1 - w) ^ (k - 1) * (1 - w) ^ (l - 1))⁻¹ := by
    rw [mul_inv]; gcongr
  have b3 : 1 / 2 ≤ θ * φ := by linarith
  have b4 : θ * φ ≤ 3 / 2 := b2.trans ((inv_anti₀ hp6 hpp).trans s2)
  -- the exact power is in range
  have hx : 2 ^ (-126 : ℤ) ≤ |x| ^ (k + l) ∧ |x| ^ (k + l) ≤ 2 ^ (127 : ℤ) := by
    rw [abs_pow] at h1 h2
    have one1 : (2 : ℝ) ^ (-126 : ℤ) ≤ 1 := by
      simpa using B32.two_zpow_le (by norm_num : (-126 : ℤ) ≤ 0)
    have one2 : (1 : ℝ) ≤ 2 ^ (127 : ℤ) := by
      simpa using B32.two_zpow_le (by norm_num : (0 : ℤ) ≤ 127)
    rcases le_total |x| 1 with h | h
    · exact ⟨h1.trans (pow_le_pow_of_le_one (abs_nonneg _) h hn), (pow_le_one₀ (abs_nonneg _) h).trans one2⟩
    · exact ⟨one1.trans (one_le_pow₀ h), (pow_le_pow_right₀ h hn).trans h2⟩
  have habs : |x ^ k * θ * (x ^ l * φ)| = |x| ^ (k + l) * (θ * φ) := by
    rw [show x ^ k * θ * (x ^ l * φ) = x ^ (k + l) * (θ * φ) by rw [pow_add]; ring, abs_mul, abs_pow,
      abs_of_pos (mul_pos hθ hφ)]
  have e126 : (2 : ℝ) ^ (-126 : ℤ) = 2 * 2 ^ (-127 : ℤ) := by
    rw [show (-126 : ℤ) = 1 + -127 by norm_num, zpow_add₀ (by norm_num)]; norm_num
  have e127 : (2 : ℝ) ^ (127 : ℤ) = 2 * 2 ^ (126 : ℤ) := by
    rw [show (127 : ℤ) = 1 + 126 by norm_num, zpow_add₀ (by norm_num)]; norm_num
  have p1 := B32.two_zpow_pos (-127)
  have p2 := B32.two_zpow_pos 126
  have pxk : 0 < |x| ^ (k + l) := lt_of_lt_of_le (B32.two_zpow_pos _) hx.1
  obtain ⟨δ, hδ, e⟩ := rel (x := x ^ k * θ * (x ^ l * φ))
    (by
      rw [habs]
      have := mul_le_mul hx.1 b3 (by norm_num) pxk.le
      rw [e126] at this
      refine le_trans (le_of_eq ?_) this
      ring)
    (by
      rw [habs]
      have := mul_le_mul hx.2 b4 (mul_pos hθ hφ).le (B32.two_zpow_pos _).le
      rw [e127] at this
      refine this.trans (le_of_eq ?_)
      ring)
  rw [abs_le] at hδ
  have hkl : k + l - 1 = (k - 1) + (l - 1) + 1 := by omega
  refine ⟨θ * φ * (1 + δ), ?_, ?_, ?_⟩
  · rw [hkl, pow_add, pow_add, pow_one]
    have : 1 - w ≤ 1 + δ := by linarith [hδ.1]
    gcongr
  · rw [hkl, pow_add, pow_add, pow_one, mul_inv]
    have h4 : 1 + δ ≤ (1 - w)⁻¹ := by
      refine le_trans (by linarith [hδ.2] : 1 + δ ≤ 1 + w) ?_
      rw [le_inv_comm₀ (by linarith) (by linarith), inv_eq_one_div, le_div_iff₀ (by linarith)]
      nlinarith [sq_nonneg w]
    have h5 : 0 ≤ 1 + δ := by linarith [hδ.1]
    gcongr
  · show (Fl.ofRaw (B32.rnd (x ^ k * θ * (x ^ l * φ))) : Fl Binary32) = _
    rw [e]
    show Raw.fin _ = Raw.fin _
    congr 1
    rw [pow_add]; ring

theorem numbaPow32_rel {x : ℝ} {n : ℕ} (hn : 2 ≤ n) (h7 : n ≤ 7)
    (h1 : 2 ^ (-126 : ℤ) ≤ |x ^ n|) (h2 : |x ^ n| ≤ 2 ^ (127 : ℤ)) :
    PowNear32 (2 ^ (-23 : ℤ)) x n (numbaPow Binary32 x n) := by
  have p1 : PowNear32 (2 ^ (-23 : ℤ)) x 1 (Fl.fin x) := ⟨1, by norm_num, by norm_num, by norm_num⟩
  have p2 : PowNear32 (2 ^ (-23 : ℤ)) x 2 (Fl.fin x * Fl.fin x) :=
    powNear32_mul (k := 1) (l := 1) le_rfl le_rfl hn h7 h1 h2 p1 p1
  interval_cases n
  · rw [numbaPow_two]; exact p2
  · rw [numbaPow_three]
    exact powNear32_mul (k := 1) (l := 2) (by omega) (by omega) (by omega) h7 h1 h2 p1 p2
  · rw [numbaPow_four]
    exact powNear32_mul (k := 2) (l := 2) (by omega) (by omega) (by omega) h7 h1 h2 p2 p2
  · rw [numbaPow_five]
    exact powNear32_mul (k := 1) (l := 4) (by omega) (by omega) (by omega) h7 h1 h2 p1
      (powNear32_mul (k := 2) (l := 2) (by omega) (by omega) (by omega) h7 h1 h2 p2 p2)
  · rw [numbaPow_six]
    exact powNear32_mul (k := 2) (l := 4) (by omega) (by omega) (by omega) h7 h1 h2 p2
      (powNear32_mul (k := 2) (l := 2) (by omega) (by omega) (by omega) h7 h1 h2 p2 p2)
  · rw [numbaPow_seven]
    exact powNear32_mul (k := 3) (l := 4) (by omega) (by omega) (by omega) h7 h1 h2
      (powNear32_mul (k := 1) (l := 2) (by omega) (by omega) (by omega) h7 h1 h2 p1 p2)
      (powNear32_mul (k := 2) (l := 2) (by omega) (by omega) (by omega) h7 h1 h2 p2 p2)

theorem Numba32_accurate : Numba32.Accurate (2 ^ (-23 : ℤ)) (2 ^ (-126 : ℤ)) (2 ^ (127 : ℤ)) := by
  have h := Binary32_accurate.larger (v := 2 ^ (-23 : ℤ)) (B32.two_zpow_le (by norm_num)) (by norm_num)
  exact
  { u_nonneg := h.u_nonneg
    u_small := h.u_small
    lo_pos := h.lo_pos
    rnd_zero := h.rnd_zero
    pow_zero := numbaPow_pow_zero h.rnd_zero h.pow_zero
    rnd_rel := h.rnd_rel
    rnd_abs := h.rnd_abs
    pow_rel := fun x n hn h1 h2 => by
      show ∃ θ : ℝ, _ ∧ _ ∧ Binary32.withNumbaPow.pow x n = _
      rcases le_or_gt n 7 with h7 | h7
      · rw [withNumbaPow_pow_le h7]; exact numbaPow32_rel hn h7 h1 h2
      · rw [withNumbaPow_pow_gt h7]; exact h.pow_rel x n hn h1 h2 }

end Choclo
