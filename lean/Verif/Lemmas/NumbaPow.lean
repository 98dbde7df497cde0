import Verif.Model.NumbaPow
import Verif.Lemmas.Scaling

namespace Choclo

variable {A : Arith}

theorem numbaPow_two (x : ℝ) : numbaPow A x 2 = (Fl.fin x * Fl.fin x : Fl A) := by
  simp [numbaPow, numbaLoop]; rfl
theorem numbaPow_three (x : ℝ) : numbaPow A x 3 = (Fl.fin x * (Fl.fin x * Fl.fin x) : Fl A) := by
  simp [numbaPow, numbaLoop]; rfl
theorem numbaPow_four (x : ℝ) :
    numbaPow A x 4 = ((Fl.fin x * Fl.fin x) * (Fl.fin x * Fl.fin x) : Fl A) := by
  simp [numbaPow, numbaLoop]; rfl
theorem numbaPow_five (x : ℝ) :
    numbaPow A x 5 = (Fl.fin x * ((Fl.fin x * Fl.fin x) * (Fl.fin x * Fl.fin x)) : Fl A) := by
  simp [numbaPow, numbaLoop]; rfl
theorem numbaPow_six (x : ℝ) :
    numbaPow A x 6 = ((Fl.fin x * Fl.fin x) * ((Fl.fin x * Fl.fin x) * (Fl.fin x * Fl.fin x)) : Fl A) := by
  simp [numbaPow, numbaLoop]; rfl
theorem numbaPow_seven (x : ℝ) :
    numbaPow A x 7 = ((Fl.fin x * (Fl.fin x * Fl.fin x)) * ((Fl.fin x * Fl.fin x) * (Fl.fin x * Fl.fin x)) : Fl A) := by
  simp [numbaPow, numbaLoop]; rfl
theorem numbaPow_one (x : ℝ) : numbaPow A x 1 = (Fl.fin x : Fl A) := by
  simp [numbaPow, numbaLoop]; rfl
theorem numbaPow_zero (x : ℝ) : numbaPow A x 0 = (Fl.fin 1 : Fl A) := by
  simp [numbaPow, numbaLoop]
  show Fl.fin ((1 : ℕ) : ℝ) = _
  norm_num

theorem Fl.fin_mul_fin (x y : ℝ) : (Fl.fin x * Fl.fin y : Fl A) = Fl.ofRaw (A.rnd (x * y)) := rfl

theorem withNumbaPow_pow_le {n : ℕ} (h : n ≤ 7) (x : ℝ) : A.withNumbaPow.pow x n = numbaPow A x n := if_pos h
theorem withNumbaPow_pow_gt {n : ℕ} (h : 7 < n) (x : ℝ) : A.withNumbaPow.pow x n = A.pow x n := if_neg (by omega)

theorem numbaPow_signSymmetric (h : A.SignSymmetric) : A.withNumbaPow.SignSymmetric where
  rnd_neg x := by
    have h1 : A.rnd (-x) = Fl.neg (A := A) (A.rnd x) := h.rnd_neg x
    have h2 : ∀ r : Raw, (Fl.neg (A := A) r : Raw) = Fl.neg (A := A.withNumbaPow) r := by
      intro r; cases r <;> rfl
    rw [h2] at h1
    exact h1
  cos_neg := h.cos_neg
  pow_even x n hn := by
    rcases le_or_gt n 7 with h7 | h7
    · rw [withNumbaPow_pow_le h7, withNumbaPow_pow_le h7]
      have e : (Fl.fin (-x) * Fl.fin (-x) : Fl A) = Fl.fin x * Fl.fin x := by
        rw [Fl.fin_mul_fin, Fl.fin_mul_fin, neg_mul_neg]
      interval_cases n
      · rw [numbaPow_zero, numbaPow_zero]
      · exact absurd hn (by decide)
      · rw [numbaPow_two, numbaPow_two, e]
      · exact absurd hn (by decide)
      · rw [numbaPow_four, numbaPow_four, e]
      · exact absurd hn (by decide)
      · rw [numbaPow_six, numbaPow_six, e]
      · exact absurd hn (by decide)
    · rw [withNumbaPow_pow_gt h7, withNumbaPow_pow_gt h7, h.pow_even x n hn]

theorem numbaPow_monotone (h : A.Monotone) : A.withNumbaPow.Monotone := ⟨h.rnd_mono, h.rnd_idem, h.rnd_zero⟩

theorem numbaPow_sq (x : ℝ) : A.withNumbaPow.pow x 2 = A.rnd (x ^ 2) := by
  rw [withNumbaPow_pow_le (by norm_num), numbaPow_two, Fl.fin_mul_fin, sq]
  rfl

theorem numbaPow_pow_zero (h0 : A.rnd 0 = .fin 0) (h : ∀ n : ℕ, n ≠ 0 → A.pow 0 n = .fin 0) (n : ℕ) (hn : n ≠ 0) :
    A.withNumbaPow.pow 0 n = .fin 0 := by
  have e : (Fl.fin 0 * Fl.fin 0 : Fl A) = Fl.fin 0 := by
    rw [Fl.fin_mul_fin, mul_zero, h0]; rfl
  rcases le_or_gt n 7 with h7 | h7
  · rw [withNumbaPow_pow_le h7]
    interval_cases n
    · exact absurd rfl hn
    · exact numbaPow_one 0
    · rw [numbaPow_two, e]; rfl
    · rw [numbaPow_three, e, e]; rfl
    · rw [numbaPow_four, e, e]; rfl
    · rw [numbaPow_five, e, e, e]; rfl
    · rw [numbaPow_six, e, e, e]; rfl
    · rw [numbaPow_seven, e, e, e]; rfl
  · rw [withNumbaPow_pow_gt h7, h n hn]

theorem numbaPow_scaleInvariant (h : A.ScaleInvariant) : A.withNumbaPow.ScaleInvariant where
  rnd_scale := h.rnd_scale
  pow_scale k x n := by
    rcases le_or_gt n 7 with h7 | h7
    · rw [withNumbaPow_pow_le h7, withNumbaPow_pow_le h7]
      have e1 : (Fl.fin (2 ^ k * x) : Fl A) = Fl.scale k (Fl.fin x) := rfl
      show (numbaPow A (2 ^ k * x) n : Raw) = Fl.scale (A := A) (n * k) (numbaPow A x n)
      interval_cases n
      · rw [numbaPow_zero, numbaPow_zero]
        have e0 : ((0 : ℕ) : ℤ) * k = 0 := by norm_num
        rw [e0]
        exact (Fl.scale_by_zero _).symm
      · have e0 : ((1 : ℕ) : ℤ) * k = k := by norm_num
        rw [numbaPow_one, numbaPow_one, e1, e0]
      · rw [numbaPow_two, numbaPow_two, e1, Fl.scale_mul h]; congr 1; push_cast; ring
      · rw [numbaPow_three, numbaPow_three, e1]; simp only [Fl.scale_mul h]; congr 1; push_cast; ring
      · rw [numbaPow_four, numbaPow_four, e1]; simp only [Fl.scale_mul h]; congr 1; push_cast; ring
      · rw [numbaPow_five, numbaPow_five, e1]; simp only [Fl.scale_mul h]; congr 1; push_cast; ring
      · rw [numbaPow_six, numbaPow_six, e1]; simp only [Fl.scale_mul h]; congr 1; push_cast; ring
      · rw [numbaPow_seven, numbaPow_seven, e1]; simp only [Fl.scale_mul h]; congr 1; push_cast; ring
    · rw [withNumbaPow_pow_gt h7, withNumbaPow_pow_gt h7, h.pow_scale]

/-! ## Double precision -/

/-- relative error at most `2⁻⁵²` from half the smallest normal number to `3/2 2¹⁰²³` -/
theorem B64.rnd_rel_wide {x : ℝ} (h1 : 2 ^ (-1023 : ℤ) ≤ |x|) (h2 : |x| ≤ 3 * 2 ^ (1022 : ℤ)) :
    ∃ δ : ℝ, |δ| ≤ 2 ^ (-52 : ℤ) ∧ B64.rnd x = .fin (x * (1 + δ)) := by
  have hpos : 0 < |x| := lt_of_lt_of_le (B64.two_zpow_pos _) h1
  have hx0 : x ≠ 0 := abs_pos.1 hpos
  have hF : B64.IsF (3 * 2 ^ (1022 : ℤ)) := ⟨3, 1022, by norm_num, by norm_num, by norm_num⟩
  have hr : B64.rnd x = .fin (B64.round x) := by
    unfold B64.rnd
    rw [if_pos]
    rw [abs_le] at h2
    have a1 := B64.round_mono h2.2
    have a2 := B64.round_mono h2.1
    rw [hF.round] at a1
    rw [B64.round_neg, hF.round] at a2
    have : 3 * (2 : ℝ) ^ (1022 : ℤ) < 2 ^ (1024 : ℤ) := by
      have e : (2 : ℝ) ^ (1024 : ℤ) = 4 * 2 ^ (1022 : ℤ) := by
        rw [show (1024 : ℤ) = 2 + 1022 by norm_num, zpow_add₀ (by norm_num)]; norm_num
      have := B64.two_zpow_pos 1022
      rw [e]
      exact (show ∀ m : ℝ, 0 < m → 3 * m < 4 * m by intro m h; linarith) _ this
    rw [abs_lt]
    exact ⟨lt_of_lt_of_le (neg_lt_neg this) a2, lt_of_le_of_lt a1 this⟩
  have e52 : (2 : ℝ) ^ (-52 : ℤ) = 2 * 2 ^ (-53 : ℤ) := by
    rw [show (-52 : ℤ) = 1 + -53 by norm_num, zpow_add₀ (by norm_num)]; norm_num
  have e1022 : (2 : ℝ) ^ (-1022 : ℤ) = 2 * 2 ^ (-1023 : ℤ) := by
    rw [show (-1022 : ℤ) = 1 + -1023 by norm_num, zpow_add₀ (by norm_num)]; norm_num
  have hu := B64.two_zpow_pos (-53)
  refine ⟨(B64.round x - x) / x, ?_, ?_⟩
  · rw [abs_div, div_le_iff₀ hpos]
    rcases lt_or_ge |x| (2 ^ (-1022 : ℤ)) with hx | hx
    · refine (B64.abs_round_sub_le_sub hx).trans ?_
      rw [e52, e1022]
      nlinarith
    · refine (B64.abs_round_sub_le hx).trans ?_
      rw [e52]
      nlinarith
  · rw [hr]
    congr 1
    field_simp
    ring

theorem numba_slack {w : ℝ} (h0 : 0 < w) (h1 : w ≤ 1 / 64) :
    (1 / 2 : ℝ) ≤ (1 - w) ^ 6 ∧ ((1 - w) ^ 6)⁻¹ ≤ 3 / 2 := by
  have h : (2 / 3 : ℝ) ≤ (1 - w) ^ 6 := by
    have := one_add_mul_le_pow (a := -w) (by linarith) 6
    rw [← sub_eq_add_neg] at this
    refine le_trans ?_ this
    push_cast
    linarith
  refine ⟨by linarith, ?_⟩
  rw [inv_le_comm₀ (by linarith) (by norm_num)]
  linarith

/-- `a` is `x ^ k` up to `k - 1` roundings -/
def PowNear (w x : ℝ) (k : ℕ) (a : Fl Binary64) : Prop :=
  ∃ θ : ℝ, (1 - w) ^ (k - 1) ≤ θ ∧ θ ≤ ((1 - w) ^ (k - 1))⁻¹ ∧ a = Fl.fin (x ^ k * θ)

theorem powNear_mul {x : ℝ} {k l n : ℕ} {a b : Fl Binary64} (hk : 1 ≤ k) (hl : 1 ≤ l) (hn : k + l ≤ n) (h7 : n ≤ 7)
    (h1 : 2 ^ (-1022 : ℤ) ≤ |x ^ n|) (h2 : |x ^ n| ≤ 2 ^ (1023 : ℤ))
    (ha : PowNear (2 ^ (-52 : ℤ)) x k a) (hb : PowNear (2 ^ (-52 : ℤ)) x l b) :
    PowNear (2 ^ (-52 : ℤ)) x (k + l) (a * b) := by
  obtain ⟨θ, t1, t2, rfl⟩ := ha
  obtain ⟨φ, f1, f2, rfl⟩ := hb
  have hw0 : (0 : ℝ) < 2 ^ (-52 : ℤ) := B64.two_zpow_pos _
  have hw1 : (2 : ℝ) ^ (-52 : ℤ) ≤ 1 / 64 := by norm_num
  have rel := @B64.rnd_rel_wide
  unfold PowNear
  generalize (2 : ℝ) ^ (-52 : ℤ) = w at *
  obtain ⟨s1, s2⟩ := numba_slack hw0 hw1
  have hc : 0 < 1 - w := by linarith
  have hpk : 0 < (1 - w) ^ (k - 1) := pow_pos hc _
  have hpl : 0 < (1 - w) ^ (l - 1) := pow_pos hc _
  have hpp : (1 - w) ^ 6 ≤ (1 - w) ^ (k - 1) * (1 - w) ^ (l - 1) := by
    rw [← pow_add]
    exact pow_le_pow_of_le_one hc.le (by linarith) (by omega)
  have hp6 : 0 < (1 - w) ^ 6 := pow_pos hc _
  have hθ : 0 < θ := lt_of_lt_of_le hpk t1
  have hφ : 0 < φ := lt_of_lt_of_le hpl f1
  have b1 : (1 - w) ^ (k - 1) * (1 - w) ^ (l - 1) ≤ θ * φ := by gcongr
  have b2 : θ * φ ≤ ((1 - w) ^ (k - 1) * (1 - w) ^ (l - 1))⁻¹ := by
    rw [mul_inv]; gcongr
  have b3 : 1 / 2 ≤ θ * φ := by linarith
  have b4 : θ * φ ≤ 3 / 2 := b2.trans ((inv_anti₀ hp6 hpp).trans s2)
  -- the exact power is in range
  have hx : 2 ^ (-1022 : ℤ) ≤ |x| ^ (k + l) ∧ |x| ^ (k + l) ≤ 2 ^ (1023 : ℤ) := by
    rw [abs_pow] at h1 h2
    have one1 : (2 : ℝ) ^ (-1022 : ℤ) ≤ 1 := by
      simpa using B64.two_zpow_le (by norm_num : (-1022 : ℤ) ≤ 0)
    have one2 : (1 : ℝ) ≤ 2 ^ (1023 : ℤ) := by
      simpa using B64.two_zpow_le (by norm_num : (0 : ℤ) ≤ 1023)
    rcases le_total |x| 1 with h | h
    · exact ⟨h1.trans (pow_le_pow_of_le_one (abs_nonneg _) h hn), (pow_le_one₀ (abs_nonneg _) h).trans one2⟩
    · exact ⟨one1.trans (one_le_pow₀ h), (pow_le_pow_right₀ h hn).trans h2⟩
  have habs : |x ^ k * θ * (x ^ l * φ)| = |x| ^ (k + l) * (θ * φ) := by
    rw [show x ^ k * θ * (x ^ l * φ) = x ^ (k + l) * (θ * φ) by rw [pow_add]; ring, abs_mul, abs_pow,
      abs_of_pos (mul_pos hθ hφ)]
  have e1022 : (2 : ℝ) ^ (-1022 : ℤ) = 2 * 2 ^ (-1023 : ℤ) := by
    rw [show (-1022 : ℤ) = 1 + -1023 by norm_num, zpow_add₀ (by norm_num)]; norm_num
  have e1023 : (2 : ℝ) ^ (1023 : ℤ) = 2 * 2 ^ (1022 : ℤ) := by
    rw [show (1023 : ℤ) = 1 + 1022 by norm_num, zpow_add₀ (by norm_num)]; norm_num
  have p1 := B64.two_zpow_pos (-1023)
  have p2 := B64.two_zpow_pos 1022
  have pxk : 0 < |x| ^ (k + l) := lt_of_lt_of_le (B64.two_zpow_pos _) hx.1
  obtain ⟨δ, hδ, e⟩ := rel (x := x ^ k * θ * (x ^ l * φ))
    (by
      rw [habs]
      have := mul_le_mul hx.1 b3 (by norm_num) pxk.le
      rw [e1022] at this
      refine le_trans (le_of_eq ?_) this
      ring)
    (by
      rw [habs]
      have := mul_le_mul hx.2 b4 (mul_pos hθ hφ).le (B64.two_zpow_pos _).le
      rw [e1023] at this
      refine this.trans (le_of_eq ?_)
      ring)
  rw [abs_le] at hδ
  have hkl : k + l - 1 = (k - 1) + (l - 1) + 1 := by omega
  refine ⟨θ * φ * (1 + δ), ?_, ?_, ?_⟩
  · rw [hkl, pow_add, pow_add, pow_one]
    have : 1 - w ≤ 1 + δ := by linarith [hδ.1]
    gcongr
  · rw [hkl, pow_add, pow_add, pow_one, mul_inv]
    have h4 : 1 + δ ≤ (1 - w)⁻¹ := by
      refine le_trans (by linarith [hδ.2] : 1 + δ ≤ 1 + w) ?_
      rw [le_inv_comm₀ (by linarith) (by linarith), inv_eq_one_div, le_div_iff₀ (by linarith)]
      nlinarith [sq_nonneg w]
    have h5 : 0 ≤ 1 + δ := by linarith [hδ.1]
    gcongr
  · show (Fl.ofRaw (B64.rnd (x ^ k * θ * (x ^ l * φ))) : Fl Binary64) = _
    rw [e]
    show Raw.fin _ = Raw.fin _
    congr 1
    rw [pow_add]; ring

theorem numbaPow_rel {x : ℝ} {n : ℕ} (hn : 2 ≤ n) (h7 : n ≤ 7)
    (h1 : 2 ^ (-1022 : ℤ) ≤ |x ^ n|) (h2 : |x ^ n| ≤ 2 ^ (1023 : ℤ)) :
    PowNear (2 ^ (-52 : ℤ)) x n (numbaPow Binary64 x n) := by
  have p1 : PowNear (2 ^ (-52 : ℤ)) x 1 (Fl.fin x) := ⟨1, by norm_num, by norm_num, by norm_num⟩
  have p2 : PowNear (2 ^ (-52 : ℤ)) x 2 (Fl.fin x * Fl.fin x) :=
    powNear_mul (k := 1) (l := 1) le_rfl le_rfl hn h7 h1 h2 p1 p1
  interval_cases n
  · rw [numbaPow_two]; exact p2
  · rw [numbaPow_three]
    exact powNear_mul (k := 1) (l := 2) (by omega) (by omega) (by omega) h7 h1 h2 p1 p2
  · rw [numbaPow_four]
    exact powNear_mul (k := 2) (l := 2) (by omega) (by omega) (by omega) h7 h1 h2 p2 p2
  · rw [numbaPow_five]
    exact powNear_mul (k := 1) (l := 4) (by omega) (by omega) (by omega) h7 h1 h2 p1
      (powNear_mul (k := 2) (l := 2) (by omega) (by omega) (by omega) h7 h1 h2 p2 p2)
  · rw [numbaPow_six]
    exact powNear_mul (k := 2) (l := 4) (by omega) (by omega) (by omega) h7 h1 h2 p2
      (powNear_mul (k := 2) (l := 2) (by omega) (by omega) (by omega) h7 h1 h2 p2 p2)
  · rw [numbaPow_seven]
    exact powNear_mul (k := 3) (l := 4) (by omega) (by omega) (by omega) h7 h1 h2
      (powNear_mul (k := 1) (l := 2) (by omega) (by omega) (by omega) h7 h1 h2 p1 p2)
      (powNear_mul (k := 2) (l := 2) (by omega) (by omega) (by omega) h7 h1 h2 p2 p2)

/-- An accurate arithmetic is also accurate with a larger unit roundoff. -/
theorem Arith.Accurate.larger {u v lo hi : ℝ} (h : A.Accurate u lo hi) (huv : u ≤ v) (hv : v ≤ 1 / 128) :
    A.Accurate v lo hi where
  u_nonneg := h.u_nonneg.trans huv
  u_small := hv
  lo_pos := h.lo_pos
  rnd_zero := h.rnd_zero
  pow_zero := h.pow_zero
  rnd_rel x h1 h2 := by
    obtain ⟨δ, hδ, e⟩ := h.rnd_rel x h1 h2
    exact ⟨δ, hδ.trans huv, e⟩
  rnd_abs x h1 := by
    obtain ⟨y, e, hy⟩ := h.rnd_abs x h1
    exact ⟨y, e, hy.trans (mul_le_mul_of_nonneg_right huv (le_max_of_le_left (abs_nonneg _)))⟩
  pow_rel x n hn h1 h2 := by
    obtain ⟨θ, t1, t2, e⟩ := h.pow_rel x n hn h1 h2
    have hle : (1 - v) ^ (n - 1) ≤ (1 - u) ^ (n - 1) := pow_le_pow_left₀ (by linarith) (by linarith) _
    exact ⟨θ, hle.trans t1, t2.trans (inv_anti₀ (pow_pos (by linarith) _) hle), e⟩

theorem Numba64_accurate : Numba64.Accurate (2 ^ (-52 : ℤ)) (2 ^ (-1022 : ℤ)) (2 ^ (1023 : ℤ)) := by
  have h := Binary64_accurate.larger (v := 2 ^ (-52 : ℤ)) (B64.two_zpow_le (by norm_num)) (by norm_num)
  exact
  { u_nonneg := h.u_nonneg
    u_small := h.u_small
    lo_pos := h.lo_pos
    rnd_zero := h.rnd_zero
    pow_zero := numbaPow_pow_zero h.rnd_zero h.pow_zero
    rnd_rel := h.rnd_rel
    rnd_abs := h.rnd_abs
    pow_rel := fun x n hn h1 h2 => by
      show ∃ θ : ℝ, _ ∧ _ ∧ Binary64.withNumbaPow.pow x n = _
      rcases le_or_gt n 7 with h7 | h7
      · rw [withNumbaPow_pow_le h7]; exact numbaPow_rel hn h7 h1 h2
      · rw [withNumbaPow_pow_gt h7]; exact h.pow_rel x n hn h1 h2 }

end Choclo
