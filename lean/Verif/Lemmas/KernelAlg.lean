import Verif.Lemmas.MagEval
import Mathlib.Data.Real.Sign

/-! # Algebra of the prism kernels: regular parts, parity, scaling -/

namespace Choclo

open Real

/-- sign with value `1` at zero -/
noncomputable def sg (x : ℝ) : ℝ := if x < 0 then -1 else 1

/-- the part of the arctangent kernel that is smooth across `x = 0` -/
noncomputable def Sk (x y z : ℝ) : ℝ := -Real.arctan (x * rad x y z / (y * z))

/-- the part of the logarithm kernel that is smooth across the axis -/
noncomputable def Qk (x y z : ℝ) : ℝ :=
  if x < 0 then -Real.log (rad x y z - x) else Real.log (rad x y z + x)

theorem Tk_eq (x y z : ℝ) : Tk x y z = Sk x y z + π / 2 * (sg x * (Real.sign y * Real.sign z)) := by
  unfold Tk Sk sg
  by_cases hx : x = 0
  · subst hx
    rw [if_pos rfl, if_neg (lt_irrefl _)]
    simp only [zero_mul, zero_div, Real.arctan_zero, neg_zero, zero_add, one_mul]
    rcases lt_trichotomy y 0 with hy | hy | hy <;> rcases lt_trichotomy z 0 with hz | hz | hz
    · rw [if_pos (mul_pos_of_neg_of_neg hy hz), Real.sign_of_neg hy, Real.sign_of_neg hz]; ring
    · subst hz; simp
    · have := mul_neg_of_neg_of_pos hy hz
      rw [if_neg this.le.not_gt, if_pos this, Real.sign_of_neg hy, Real.sign_of_pos hz]; ring
    · subst hy; simp
    · subst hy; simp
    · subst hy; simp
    · have := mul_neg_of_pos_of_neg hy hz
      rw [if_neg this.le.not_gt, if_pos this, Real.sign_of_pos hy, Real.sign_of_neg hz]; ring
    · subst hz; simp
    · rw [if_pos (mul_pos hy hz), Real.sign_of_pos hy, Real.sign_of_pos hz]; ring
  · rw [if_neg hx]
    have hr : 0 < rad x y z := rad_pos (by tauto)
    have hinv : x * rad x y z / (y * z) = (y * z / (x * rad x y z))⁻¹ := by rw [inv_div]
    rw [hinv]
    have key : ∀ s : ℝ, (0 < y * z / (x * rad x y z) ∧ s = 1) ∨ (y * z / (x * rad x y z) < 0 ∧ s = -1) →
        arctan (y * z / (x * rad x y z)) = -arctan (y * z / (x * rad x y z))⁻¹ + π / 2 * s := by
      rintro s (⟨h, rfl⟩ | ⟨h, rfl⟩)
      · rw [Real.arctan_inv_of_pos h]; ring
      · rw [Real.arctan_inv_of_neg h]; ring
    have px : 0 < x → 0 < x * rad x y z := fun h => mul_pos h hr
    have nx : x < 0 → x * rad x y z < 0 := fun h => mul_neg_of_neg_of_pos h hr
    rcases lt_trichotomy y 0 with hy | hy | hy <;> rcases lt_trichotomy z 0 with hz | hz | hz
    · rw [Real.sign_of_neg hy, Real.sign_of_neg hz]
      apply key
      rcases lt_or_gt_of_ne hx with h | h
      · rw [if_pos h]; right
        exact ⟨div_neg_of_pos_of_neg (mul_pos_of_neg_of_neg hy hz) (nx h), by ring⟩
      · rw [if_neg h.le.not_gt]; left
        exact ⟨div_pos (mul_pos_of_neg_of_neg hy hz) (px h), by ring⟩
    · subst hz; simp
    · rw [Real.sign_of_neg hy, Real.sign_of_pos hz]
      apply key
      rcases lt_or_gt_of_ne hx with h | h
      · rw [if_pos h]; left
        exact ⟨div_pos_of_neg_of_neg (mul_neg_of_neg_of_pos hy hz) (nx h), by ring⟩
      · rw [if_neg h.le.not_gt]; right
        exact ⟨div_neg_of_neg_of_pos (mul_neg_of_neg_of_pos hy hz) (px h), by ring⟩
    · subst hy; simp
    · subst hy; simp
    · subst hy; simp
    · rw [Real.sign_of_pos hy, Real.sign_of_neg hz]
      apply key
      rcases lt_or_gt_of_ne hx with h | h
      · rw [if_pos h]; left
        exact ⟨div_pos_of_neg_of_neg (mul_neg_of_pos_of_neg hy hz) (nx h), by ring⟩
      · rw [if_neg h.le.not_gt]; right
        exact ⟨div_neg_of_neg_of_pos (mul_neg_of_pos_of_neg hy hz) (px h), by ring⟩
    · subst hz; simp
    · rw [Real.sign_of_pos hy, Real.sign_of_pos hz]
      apply key
      rcases lt_or_gt_of_ne hx with h | h
      · rw [if_pos h]; right
        exact ⟨div_neg_of_pos_of_neg (mul_pos hy hz) (nx h), by ring⟩
      · rw [if_neg h.le.not_gt]; left
        exact ⟨div_pos (mul_pos hy hz) (px h), by ring⟩

/-- `y² + z²` vanishes only at zero -/
theorem sq_add_sq_pos {y z : ℝ} (h : ¬(y = 0 ∧ z = 0)) : 0 < y ^ 2 + z ^ 2 :=
  lt_of_le_of_ne (by positivity) (Ne.symm (Ex.sq_add_sq_ne h))

theorem Lk_eq (x y z : ℝ) :
    Lk x y z = Qk x y z + if x < 0 then Real.log (y ^ 2 + z ^ 2) else 0 := by
  by_cases h : y = 0 ∧ z = 0
  · obtain ⟨rfl, rfl⟩ := h
    unfold Qk
    have hr : rad x 0 0 = |x| := by
      unfold rad; rw [← Real.sqrt_sq_eq_abs]; congr 1; ring
    rcases lt_or_ge x 0 with hx | hx
    · rw [Lk_axis_neg hx, if_pos hx, if_pos hx, hr, abs_of_neg hx,
        show -x - x = -2 * x by ring, show (0 : ℝ) ^ 2 + 0 ^ 2 = 0 by norm_num, Real.log_zero,
        add_zero]
    · rw [Lk_axis_nonneg hx, if_neg hx.not_gt, if_neg hx.not_gt, hr, abs_of_nonneg hx]
      norm_num
      congr 1; ring
  · rw [Lk_eq_log h]
    unfold Qk
    split_ifs
    · have h1 := sub_rad_pos (x := x) h
      have h2 := add_rad_pos (x := x) h
      have h3 : y ^ 2 + z ^ 2 = (x + rad x y z) * (rad x y z - x) := by
        have := rad_sq x y z; nlinarith
      rw [h3, Real.log_mul h2.ne' h1.ne']; ring
    · rw [add_comm x, add_zero]

/-! ### parity -/

theorem rad_neg1 (x y z : ℝ) : rad (-x) y z = rad x y z := by unfold rad; congr 1; ring
theorem rad_neg2 (x y z : ℝ) : rad x (-y) z = rad x y z := by unfold rad; congr 1; ring
theorem rad_neg3 (x y z : ℝ) : rad x y (-z) = rad x y z := by unfold rad; congr 1; ring

theorem Lk_neg2 (x y z : ℝ) : Lk x (-y) z = Lk x y z := by
  unfold Lk; simp only [rad_neg2, neg_eq_zero, neg_sq]
theorem Lk_neg3 (x y z : ℝ) : Lk x y (-z) = Lk x y z := by
  unfold Lk; simp only [rad_neg3, neg_eq_zero, neg_sq]

theorem Lk_neg1 (x y z : ℝ) : Lk (-x) y z = -Lk x y z + Real.log (y ^ 2 + z ^ 2) := by
  by_cases h : y = 0 ∧ z = 0
  · obtain ⟨rfl, rfl⟩ := h
    rcases lt_trichotomy x 0 with hx | hx | hx
    · rw [Lk_axis_neg hx, Lk_axis_nonneg (by linarith : 0 ≤ -x)]
      norm_num
    · subst hx
      rw [neg_zero, Lk_axis_nonneg le_rfl]; norm_num
    · rw [Lk_axis_nonneg hx.le, Lk_axis_neg (by linarith : -x < 0)]
      norm_num
  · rw [Lk_eq_log h, Lk_eq_log h, rad_neg1]
    have h1 := sub_rad_pos (x := x) h
    have h2 := add_rad_pos (x := x) h
    have h3 : y ^ 2 + z ^ 2 = (x + rad x y z) * (rad x y z - x) := by
      have := rad_sq x y z; nlinarith
    rw [h3, Real.log_mul h2.ne' h1.ne']
    rw [show -x + rad x y z = rad x y z - x by ring]; ring

theorem Tk_neg1 {x : ℝ} (hx : x ≠ 0) (y z : ℝ) : Tk (-x) y z = -Tk x y z := by
  unfold Tk
  rw [if_neg hx, if_neg (neg_ne_zero.mpr hx), rad_neg1, neg_mul, div_neg, Real.arctan_neg]

theorem mul_Tk_neg1 (x y z : ℝ) : x * Tk (-x) y z = -(x * Tk x y z) := by
  by_cases hx : x = 0
  · simp [hx]
  · rw [Tk_neg1 hx]; ring

theorem Tk_neg2 (x y z : ℝ) : Tk x (-y) z = -Tk x y z := by
  unfold Tk
  by_cases hx : x = 0
  · rw [if_pos hx, if_pos hx]
    rcases lt_trichotomy (y * z) 0 with h | h | h
    · rw [if_pos (by linarith), if_neg (by linarith), if_pos h]; ring
    · rw [if_neg (by linarith), if_neg (by linarith), if_neg (by linarith), if_neg (by linarith)]; ring
    · rw [if_neg (by linarith), if_pos (by linarith), if_pos h]; ring
  · rw [if_neg hx, if_neg hx, rad_neg2, neg_mul, neg_div, Real.arctan_neg]

theorem Tk_neg3 (x y z : ℝ) : Tk x y (-z) = -Tk x y z := by
  rw [Tk_symm, Tk_neg2, Tk_symm]

theorem Sk_neg1 (x y z : ℝ) : Sk (-x) y z = -Sk x y z := by
  unfold Sk; rw [rad_neg1, neg_mul, neg_div, Real.arctan_neg]
theorem Sk_neg2 (x y z : ℝ) : Sk x (-y) z = -Sk x y z := by
  unfold Sk; rw [rad_neg2, neg_mul, div_neg, Real.arctan_neg]
theorem Sk_neg3 (x y z : ℝ) : Sk x y (-z) = -Sk x y z := by
  unfold Sk; rw [rad_neg3, mul_neg, div_neg, Real.arctan_neg]
theorem Sk_symm (x y z : ℝ) : Sk x z y = Sk x y z := by
  unfold Sk; rw [rad_perm2 x y z, mul_comm z y]

theorem Fk_neg1 (x y z : ℝ) : Fk (-x) y z = Fk x y z := by
  unfold Fk
  rw [Lk_neg2, Lk_neg2, neg_mul, mul_Tk_neg1]; ring

theorem Fk_neg2 (x y z : ℝ) : Fk x (-y) z = -Fk x y z + z * Real.log (x ^ 2 + z ^ 2) := by
  unfold Fk
  rw [Lk_neg3, Lk_neg1, Tk_neg2]; ring

theorem Fk_neg3 (x y z : ℝ) : Fk x y (-z) = -Fk x y z + y * Real.log (x ^ 2 + y ^ 2) := by
  rw [Fk_symm, Fk_neg2, Fk_symm]

theorem Pk_symm1 (x y z : ℝ) : Pk y x z = Pk x y z := by
  unfold Pk
  rw [Lk_symm z x y, Lk_symm y z x, Lk_symm x y z, Tk_symm z x y]; ring

theorem Pk_symm2 (x y z : ℝ) : Pk x z y = Pk x y z := by
  unfold Pk
  rw [Lk_symm y z x, Lk_symm x y z, Lk_symm z x y, Tk_symm x z y, Tk_symm z x y, Tk_symm y z x]; ring

theorem Pk_neg1 (x y z : ℝ) : Pk (-x) y z = -Pk x y z + y * z * Real.log (y ^ 2 + z ^ 2) := by
  unfold Pk
  rw [Lk_neg2, Lk_neg1, Lk_neg3, Tk_neg3, Tk_neg2, neg_sq]
  have := mul_Tk_neg1 x z y
  linear_combination (-(1 : ℝ) / 2 * x) * this

/-! ### scaling -/

theorem mul_Lk_scale {l : ℝ} (hl : 0 < l) (x y z : ℝ) :
    y * Lk (l * z) (l * x) (l * y) = y * Lk z x y + y * Real.log l := by
  by_cases h : x = 0 ∧ y = 0
  · simp [h.2]
  · have h' : ¬(l * x = 0 ∧ l * y = 0) := by
      simpa [hl.ne'] using h
    rw [Lk_eq_log h, Lk_eq_log h', rad_mul' hl, ← mul_add, Real.log_mul hl.ne' (add_rad_pos h).ne']
    ring
where
  rad_mul' {l : ℝ} (hl : 0 < l) {x y z : ℝ} : rad (l * x) (l * y) (l * z) = l * rad x y z := by
    unfold rad
    rw [show (l * x) ^ 2 + (l * y) ^ 2 + (l * z) ^ 2 = l ^ 2 * (x ^ 2 + y ^ 2 + z ^ 2) by ring,
      Real.sqrt_mul (by positivity), Real.sqrt_sq hl.le]

theorem rad_scale {l : ℝ} (hl : 0 < l) (x y z : ℝ) : rad (l * x) (l * y) (l * z) = l * rad x y z :=
  mul_Lk_scale.rad_mul' hl

theorem Tk_scale {l : ℝ} (hl : 0 < l) (x y z : ℝ) : Tk (l * x) (l * y) (l * z) = Tk x y z := by
  unfold Tk
  by_cases hx : x = 0
  · subst hx
    rw [mul_zero, if_pos rfl, if_pos rfl]
    have e : l * y * (l * z) = l ^ 2 * (y * z) := by ring
    have hl2 : 0 < l ^ 2 := by positivity
    simp only [e, mul_pos_iff_of_pos_left hl2, mul_neg_iff, hl2, not_lt_of_gt hl2, true_and, false_and,
      or_false]
  · rw [if_neg hx, if_neg (mul_ne_zero hl.ne' hx), rad_scale hl]
    congr 1
    have hr := (rad_pos (x := x) (y := y) (z := z) (by tauto)).ne'
    have := hl.ne'
    field_simp

theorem Lk_scale {l : ℝ} (hl : 0 < l) {x y z : ℝ} (h : ¬(y = 0 ∧ z = 0)) :
    Lk (l * x) (l * y) (l * z) = Lk x y z + Real.log l := by
  have h' : ¬(l * y = 0 ∧ l * z = 0) := by simpa [hl.ne'] using h
  rw [Lk_eq_log h, Lk_eq_log h', rad_scale hl, ← mul_add, Real.log_mul hl.ne' (add_rad_pos h).ne']
  ring

theorem Lk_scale_axis {l : ℝ} (hl : 0 < l) {x : ℝ} (hx : x ≠ 0) :
    Lk (l * x) 0 0 = Lk x 0 0 + sg x * Real.log l := by
  unfold sg
  rcases lt_or_gt_of_ne hx with h | h
  · rw [if_pos h, Lk_axis_neg h, Lk_axis_neg (mul_neg_of_pos_of_neg hl h),
      show -2 * (l * x) = l * (-2 * x) by ring, Real.log_mul hl.ne' (by linarith)]
    ring
  · rw [if_neg h.le.not_gt, Lk_axis_nonneg h.le, Lk_axis_nonneg (mul_pos hl h).le,
      show 2 * (l * x) = l * (2 * x) by ring, Real.log_mul hl.ne' (by linarith)]
    ring

theorem Fk_scale {l : ℝ} (hl : 0 < l) (x y z : ℝ) :
    Fk (l * x) (l * y) (l * z) = l * Fk x y z + l * Real.log l * (y + z) := by
  unfold Fk
  rw [Tk_scale hl]
  have h1 := mul_Lk_scale hl x y z
  have h2 := mul_Lk_scale hl x z y
  linear_combination l * h1 + l * h2

theorem Pk_scale {l : ℝ} (hl : 0 < l) (x y z : ℝ) :
    Pk (l * x) (l * y) (l * z) =
      l ^ 2 * Pk x y z + l ^ 2 * Real.log l * (x * y + y * z + x * z) := by
  unfold Pk
  simp only [Tk_scale hl]
  have h1 := mul_Lk_scale hl x y z
  have h2 := mul_Lk_scale hl y z x
  have h3 := mul_Lk_scale hl z x y
  linear_combination (l ^ 2 * x) * h1 + (l ^ 2 * y) * h2 + (l ^ 2 * z) * h3

theorem Kiii_scale {l : ℝ} (hl : 0 < l) (x y z : ℝ) :
    Kiii (l * x) (l * y) (l * z) = Kiii x y z / l := by
  unfold Kiii
  simp only [mul_eq_zero, hl.ne', false_or, rad_scale hl]
  split_ifs with h
  · simp
  · rw [show -(l * y) * (l * z) * (2 * (l * x) ^ 2 + (l * y) ^ 2 + (l * z) ^ 2) =
        l ^ 4 * (-y * z * (2 * x ^ 2 + y ^ 2 + z ^ 2)) by ring,
      show ((l * x) ^ 2 + (l * y) ^ 2) * ((l * x) ^ 2 + (l * z) ^ 2) * (l * rad x y z) =
        l ^ 4 * ((x ^ 2 + y ^ 2) * (x ^ 2 + z ^ 2) * rad x y z * l) by ring,
      mul_div_mul_left _ _ (by positivity), div_mul_eq_div_div]

theorem Kiij_scale {l : ℝ} (hl : 0 < l) (x y z : ℝ) :
    Kiij (l * x) (l * y) (l * z) = Kiij x y z / l := by
  unfold Kiij
  simp only [mul_eq_zero, hl.ne', false_or, rad_scale hl]
  split_ifs with h
  · simp
  · rw [show (l * x) * (l * z) = l ^ 2 * (x * z) by ring,
      show ((l * x) ^ 2 + (l * y) ^ 2) * (l * rad x y z) =
        l ^ 2 * ((x ^ 2 + y ^ 2) * rad x y z * l) by ring,
      mul_div_mul_left _ _ (by positivity), div_mul_eq_div_div]

/-! ### third-order kernels -/

theorem Kiii_symm (x y z : ℝ) : Kiii x z y = Kiii x y z := by
  unfold Kiii
  rw [rad_perm2 x y z]
  simp only [or_comm (a := x = 0 ∧ z = 0)]
  split_ifs
  · rfl
  · congr 1 <;> ring

theorem Kiii_neg1 (x y z : ℝ) : Kiii (-x) y z = Kiii x y z := by
  unfold Kiii; simp only [rad_neg1, neg_eq_zero, neg_sq]
theorem Kiii_neg2 (x y z : ℝ) : Kiii x (-y) z = -Kiii x y z := by
  unfold Kiii; simp only [rad_neg2, neg_eq_zero, neg_sq]
  split_ifs
  · simp
  · ring
theorem Kiii_neg3 (x y z : ℝ) : Kiii x y (-z) = -Kiii x y z := by
  rw [Kiii_symm, Kiii_neg2, Kiii_symm]

theorem Kiij_neg1 (x y z : ℝ) : Kiij (-x) y z = -Kiij x y z := by
  unfold Kiij; simp only [rad_neg1, neg_eq_zero, neg_sq]
  split_ifs
  · simp
  · ring
theorem Kiij_neg2 (x y z : ℝ) : Kiij x (-y) z = Kiij x y z := by
  unfold Kiij; simp only [rad_neg2, neg_eq_zero, neg_sq]
theorem Kiij_neg3 (x y z : ℝ) : Kiij x y (-z) = -Kiij x y z := by
  unfold Kiij; simp only [rad_neg3]
  split_ifs
  · simp
  · ring

theorem K3_trace (x y z : ℝ) (h : rad x y z ≠ 0) : Kiii x y z + Kiij y x z + Kiij z x y = 0 := by
  unfold Kiii Kiij
  rw [rad_perm1 x y z, rad_perm4 x y z]
  by_cases hx : x = 0
  · subst hx
    by_cases hy : y = 0
    · subst hy
      simp
    · by_cases hz : z = 0
      · subst hz; simp
      · simp only [hy, hz, and_false, and_true, or_self, if_false]
        have h1 : rad 0 y z ≠ 0 := h
        field_simp
        ring
  · simp only [hx, false_and, and_false, or_self, if_false]
    have h1 : x ^ 2 + y ^ 2 ≠ 0 := by positivity
    have h2 : x ^ 2 + z ^ 2 ≠ 0 := by positivity
    have h3 : y ^ 2 + x ^ 2 ≠ 0 := by positivity
    have h4 : z ^ 2 + x ^ 2 ≠ 0 := by positivity
    field_simp
    ring

end Choclo
