import Verif.Lemmas.Taylor

/-! # Fourth-order symmetric Taylor bounds for the inverse distance and its gradient along a line -/

namespace Choclo

open Real Set

/-- symmetric Taylor bound: the odd orders cancel -/
theorem sym4 {f f1 f2 f3 f4 : ℝ → ℝ} {B : ℝ} (h1 : ∀ x ∈ Icc (-1:ℝ) 1, HasDerivAt f (f1 x) x)
    (h2 : ∀ x ∈ Icc (-1:ℝ) 1, HasDerivAt f1 (f2 x) x) (h3 : ∀ x ∈ Icc (-1:ℝ) 1, HasDerivAt f2 (f3 x) x)
    (h4 : ∀ x ∈ Icc (-1:ℝ) 1, HasDerivAt f3 (f4 x) x) (hB : ∀ x ∈ Icc (-1:ℝ) 1, |f4 x| ≤ B) :
    |f 1 + f (-1) - 2 * f 0 - f2 0| ≤ B / 12 := by
  have m : ∀ {x : ℝ}, x ∈ Icc (0:ℝ) 1 → x ∈ Icc (-1:ℝ) 1 ∧ -x ∈ Icc (-1:ℝ) 1 := fun hx =>
    ⟨⟨by linarith [hx.1], hx.2⟩, ⟨by linarith [hx.2], by linarith [hx.1]⟩⟩
  have neg : ∀ {g g' : ℝ → ℝ}, (∀ x ∈ Icc (-1:ℝ) 1, HasDerivAt g (g' x) x) → ∀ x ∈ Icc (0:ℝ) 1,
      HasDerivAt (fun t => g (-t)) (-(g' (-x))) x := fun h x hx => by
    have := (h (-x) (m hx).2).comp x (hasDerivAt_neg x)
    exact this.congr_deriv (by ring)
  have a := fence (g := fun x => f3 x - f3 (-x)) (g' := fun x => f4 x + f4 (-x)) (C := 2 * B) 0 (by simp)
    (fun x hx => by
      have := (h4 x (m hx).1).sub (neg h4 x hx)
      exact this.congr_deriv (by ring))
    (fun x hx => by
      have b1 := abs_le.1 (hB x (m hx).1)
      have b2 := abs_le.1 (hB (-x) (m hx).2)
      rw [pow_zero, mul_one]
      exact abs_le.2 ⟨by linarith [b1.1, b2.1], by linarith [b1.2, b2.2]⟩)
  have b := fence (g := fun x => f2 x + f2 (-x) - 2 * f2 0) (g' := fun x => f3 x - f3 (-x)) (C := 2 * B) 1
    (by simp; ring)
    (fun x hx => by
      have := ((h3 x (m hx).1).add (neg h3 x hx)).sub_const (2 * f2 0)
      exact this.congr_deriv (by ring))
    (fun x hx => by simpa using a x hx)
  have c := fence (g := fun x => f1 x - f1 (-x) - x * (2 * f2 0)) (g' := fun x => f2 x + f2 (-x) - 2 * f2 0) (C := B) 2
    (by simp)
    (fun x hx => by
      have := ((h2 x (m hx).1).sub (neg h2 x hx)).sub ((hasDerivAt_id x).mul_const (2 * f2 0))
      exact this.congr_deriv (by ring))
    (fun x hx => by have := b x hx; norm_num at this; simpa using this)
  have d := fence (g := fun x => f x + f (-x) - 2 * f 0 - x ^ 2 * f2 0) (g' := fun x => f1 x - f1 (-x) - x * (2 * f2 0))
    (C := B / 3) 3 (by simp; ring)
    (fun x hx => by
      have := (((h1 x (m hx).1).add (neg h1 x hx)).sub_const (2 * f 0)).sub ((hasDerivAt_pow 2 x).mul_const (f2 0))
      exact this.congr_deriv (by push_cast; ring))
    (fun x hx => by have := c x hx; norm_num at this; simpa using this) 1 (by norm_num)
  norm_num at d
  refine d.trans (le_of_eq (by ring))

section line
variable {R2 b c δ : ℝ}

/-- the inverse of the distance along a line -/
noncomputable def invd (R2 b c t : ℝ) : ℝ := 1 / √(R2 + 2 * b * t + c * t ^ 2)

variable (hδ : 0 < δ) (hQ : ∀ t ∈ Icc (-1:ℝ) 1, δ ^ 2 ≤ R2 + 2 * b * t + c * t ^ 2) (hb : b ^ 2 ≤ c * R2)
include hδ hQ

theorem invd_facts {t : ℝ} (ht : t ∈ Icc (-1:ℝ) 1) : 0 < invd R2 b c t ∧ invd R2 b c t ≤ 1 / δ ∧
    invd R2 b c t ^ 2 * (R2 + 2 * b * t + c * t ^ 2) = 1 := by
  have h := hQ t ht
  have hq : 0 < R2 + 2 * b * t + c * t ^ 2 := lt_of_lt_of_le (by positivity) h
  have hs := Real.sqrt_pos.2 hq
  unfold invd
  refine ⟨by positivity, ?_, ?_⟩
  · gcongr
    exact Real.le_sqrt_of_sq_le h
  · rw [div_pow, Real.sq_sqrt hq.le, one_pow, div_mul_eq_mul_div, one_mul, div_self hq.ne']

theorem hasDerivAt_invd {t : ℝ} (ht : t ∈ Icc (-1:ℝ) 1) :
    HasDerivAt (invd R2 b c) (-(b + c * t) * invd R2 b c t ^ 3) t := by
  have h := hQ t ht
  have hq : 0 < R2 + 2 * b * t + c * t ^ 2 := lt_of_lt_of_le (by positivity) h
  have hs := Real.sqrt_pos.2 hq
  have d1 : HasDerivAt (fun t => R2 + 2 * b * t + c * t ^ 2) (2 * b + c * (2 * t)) t := by
    have := (((hasDerivAt_id t).const_mul (2 * b)).const_add R2).add ((hasDerivAt_pow 2 t).const_mul c)
    exact this.congr_deriv (by simp)
  have d2 := (d1.sqrt hq.ne').inv hs.ne'
  have e : invd R2 b c = (fun t => √(R2 + 2 * b * t + c * t ^ 2))⁻¹ := by
    funext t; simp [invd]
  rw [e]
  refine d2.congr_deriv ?_
  simp only [Pi.inv_apply]
  have : √(R2 + 2 * b * t + c * t ^ 2) ≠ 0 := hs.ne'
  field_simp

include hb in
/-- `(s u)² ≤ c` -/
theorem su_le {t : ℝ} (ht : t ∈ Icc (-1:ℝ) 1) : ((b + c * t) * invd R2 b c t) ^ 2 ≤ c := by
  obtain ⟨h1, h2, h3⟩ := invd_facts hδ hQ ht
  have : (b + c * t) ^ 2 ≤ c * (R2 + 2 * b * t + c * t ^ 2) := by nlinarith
  calc ((b + c * t) * invd R2 b c t) ^ 2 = (b + c * t) ^ 2 * invd R2 b c t ^ 2 := by ring
    _ ≤ c * (R2 + 2 * b * t + c * t ^ 2) * invd R2 b c t ^ 2 := by gcongr
    _ = c * (invd R2 b c t ^ 2 * (R2 + 2 * b * t + c * t ^ 2)) := by ring
    _ = c := by rw [h3, mul_one]

omit hδ hQ in
theorem hasDerivAt_s (t : ℝ) : HasDerivAt (fun t => b + c * t) c t := by
  have := ((hasDerivAt_id t).const_mul c).const_add b
  exact this.congr_deriv (by simp)

/-- derivatives of `sᵐ uⁿ` -/
theorem hasDerivAt_su (m n : ℕ) {t : ℝ} (ht : t ∈ Icc (-1:ℝ) 1) :
    HasDerivAt (fun t => (b + c * t) ^ m * invd R2 b c t ^ n)
      (m * (b + c * t) ^ (m - 1) * c * invd R2 b c t ^ n - n * (b + c * t) ^ (m + 1) * invd R2 b c t ^ (n + 2)) t := by
  have d1 := (hasDerivAt_s (b := b) (c := c) t).fun_pow m
  have d2 := (hasDerivAt_invd hδ hQ ht).fun_pow n
  refine (d1.mul d2).congr_deriv ?_
  rcases n with _ | n
  · simp
  · simp only [Nat.cast_add, Nat.cast_one, Nat.add_sub_cancel]
    ring

include hb in
theorem sym4_inv : |invd R2 b c 1 + invd R2 b c (-1) - 2 * invd R2 b c 0
    - (3 * b ^ 2 * invd R2 b c 0 ^ 5 - c * invd R2 b c 0 ^ 3)| ≤ 2 * c ^ 2 / δ ^ 5 := by
  have D := fun m n {t} ht => hasDerivAt_su (R2 := R2) (b := b) (c := c) hδ hQ m n (t := t) ht
  have key := sym4 (f := invd R2 b c) (f1 := fun t => -((b + c * t) ^ 1 * invd R2 b c t ^ 3))
    (f2 := fun t => 3 * ((b + c * t) ^ 2 * invd R2 b c t ^ 5) - c * ((b + c * t) ^ 0 * invd R2 b c t ^ 3))
    (f3 := fun t => 9 * c * ((b + c * t) ^ 1 * invd R2 b c t ^ 5) - 15 * ((b + c * t) ^ 3 * invd R2 b c t ^ 7))
    (f4 := fun t => 9 * c ^ 2 * invd R2 b c t ^ 5 - 90 * c * ((b + c * t) ^ 2 * invd R2 b c t ^ 7)
      + 105 * ((b + c * t) ^ 4 * invd R2 b c t ^ 9)) (B := 24 * c ^ 2 / δ ^ 5)
    (fun t ht => (hasDerivAt_invd hδ hQ ht).congr_deriv (by ring))
    (fun t ht => (D 1 3 ht).neg.congr_deriv (by push_cast; ring))
    (fun t ht => (((D 2 5 ht).const_mul 3).sub ((D 0 3 ht).const_mul c)).congr_deriv (by push_cast; ring))
    (fun t ht => (((D 1 5 ht).const_mul (9 * c)).sub ((D 3 7 ht).const_mul 15)).congr_deriv (by push_cast; ring))
    (fun t ht => by
      obtain ⟨h1, h2, -⟩ := invd_facts hδ hQ ht
      have h3 := su_le hδ hQ hb ht
      set w := ((b + c * t) * invd R2 b c t) ^ 2 with hw
      have w0 : 0 ≤ w := sq_nonneg _
      have e : 9 * c ^ 2 * invd R2 b c t ^ 5 - 90 * c * ((b + c * t) ^ 2 * invd R2 b c t ^ 7)
          + 105 * ((b + c * t) ^ 4 * invd R2 b c t ^ 9) = (9 * c ^ 2 - 90 * c * w + 105 * w ^ 2) * invd R2 b c t ^ 5 := by
        rw [hw]; ring
      have p5 : invd R2 b c t ^ 5 ≤ 1 / δ ^ 5 := by
        rw [← one_div_pow]; gcongr
      rw [e, abs_mul, abs_of_pos (pow_pos h1 5), mul_div_assoc, ← mul_one_div (c ^ 2), ← mul_assoc]
      gcongr
      exact abs_le.2 ⟨by nlinarith [sq_nonneg (7 * w - 3 * c)], by nlinarith⟩)
  refine le_of_eq_of_le ?_ (key.trans (le_of_eq (by ring)))
  congr 1
  ring

include hb in
theorem sym4_inv3 {x y : ℝ} (hx : ∀ t ∈ Icc (-1:ℝ) 1, (x + y * t) ^ 2 ≤ R2 + 2 * b * t + c * t ^ 2) (hy : y ^ 2 ≤ c) :
    |(x + y) * invd R2 b c 1 ^ 3 + (x - y) * invd R2 b c (-1) ^ 3 - 2 * (x * invd R2 b c 0 ^ 3)
    - (x * (15 * b ^ 2 * invd R2 b c 0 ^ 7 - 3 * c * invd R2 b c 0 ^ 5) - 6 * y * b * invd R2 b c 0 ^ 5)|
      ≤ 50 * c ^ 2 / δ ^ 6 := by
  have c0 : 0 ≤ c := (sq_nonneg y).trans hy
  have D := fun m n {t} ht => hasDerivAt_su (R2 := R2) (b := b) (c := c) hδ hQ m n (t := t) ht
  have X : ∀ t, HasDerivAt (fun t => x + y * t) y t := fun t => hasDerivAt_s t
  have key := sym4 (f := fun t => (x + y * t) * ((b + c * t) ^ 0 * invd R2 b c t ^ 3))
    (f1 := fun t => y * ((b + c * t) ^ 0 * invd R2 b c t ^ 3) + (x + y * t) * (-3 * ((b + c * t) ^ 1 * invd R2 b c t ^ 5)))
    (f2 := fun t => -6 * y * ((b + c * t) ^ 1 * invd R2 b c t ^ 5)
      + (x + y * t) * (15 * ((b + c * t) ^ 2 * invd R2 b c t ^ 7) - 3 * c * ((b + c * t) ^ 0 * invd R2 b c t ^ 5)))
    (f3 := fun t => 3 * y * (15 * ((b + c * t) ^ 2 * invd R2 b c t ^ 7) - 3 * c * ((b + c * t) ^ 0 * invd R2 b c t ^ 5))
      + (x + y * t) * (45 * c * ((b + c * t) ^ 1 * invd R2 b c t ^ 7) - 105 * ((b + c * t) ^ 3 * invd R2 b c t ^ 9)))
    (f4 := fun t => 4 * y * (45 * c * ((b + c * t) ^ 1 * invd R2 b c t ^ 7) - 105 * ((b + c * t) ^ 3 * invd R2 b c t ^ 9))
      + (x + y * t) * (45 * c ^ 2 * invd R2 b c t ^ 7 - 630 * c * ((b + c * t) ^ 2 * invd R2 b c t ^ 9)
      + 945 * ((b + c * t) ^ 4 * invd R2 b c t ^ 11))) (B := 600 * c ^ 2 / δ ^ 6)
    (fun t ht => ((X t).mul (D 0 3 ht)).congr_deriv (by push_cast; ring))
    (fun t ht => (((D 0 3 ht).const_mul y).add ((X t).mul ((D 1 5 ht).const_mul (-3)))).congr_deriv (by push_cast; ring))
    (fun t ht => (((D 1 5 ht).const_mul (-6 * y)).add ((X t).mul (((D 2 7 ht).const_mul 15).fun_sub
      ((D 0 5 ht).const_mul (3 * c))))).congr_deriv (by push_cast; ring))
    (fun t ht => (((((D 2 7 ht).const_mul 15).fun_sub ((D 0 5 ht).const_mul (3 * c))).const_mul (3 * y)).add
      ((X t).mul (((D 1 7 ht).const_mul (45 * c)).fun_sub ((D 3 9 ht).const_mul 105)))).congr_deriv (by push_cast; ring))
    (fun t ht => by
      obtain ⟨h1, h2, h4⟩ := invd_facts hδ hQ ht
      have h3 := su_le hδ hQ hb ht
      have hxt := hx t ht
      set u := invd R2 b c t with hu
      set σ := (b + c * t) * u with hσ
      have w0 : 0 ≤ σ ^ 2 := sq_nonneg _
      have p6 : u ^ 6 ≤ 1 / δ ^ 6 := by
        rw [← one_div_pow]; gcongr
      have b1 : |(x + y * t) * u| ≤ 1 := by
        rw [abs_le_one_iff_mul_self_le_one]
        calc (x + y * t) * u * ((x + y * t) * u) = u ^ 2 * (x + y * t) ^ 2 := by ring
          _ ≤ u ^ 2 * (R2 + 2 * b * t + c * t ^ 2) := by gcongr
          _ = 1 := h4
      have b2 : |y * σ| ≤ c := by
        refine abs_le_of_sq_le_sq ?_ c0
        rw [mul_pow, sq c]
        gcongr
      have b3 : |45 * c - 105 * σ ^ 2| ≤ 60 * c := abs_le.2 ⟨by linarith, by linarith⟩
      have b4 : |45 * c ^ 2 - 630 * c * σ ^ 2 + 945 * (σ ^ 2) ^ 2| ≤ 360 * c ^ 2 :=
        abs_le.2 ⟨by nlinarith [sq_nonneg (3 * σ ^ 2 - c)], by nlinarith⟩
      have e : 4 * y * (45 * c * ((b + c * t) ^ 1 * u ^ 7) - 105 * ((b + c * t) ^ 3 * u ^ 9))
          + (x + y * t) * (45 * c ^ 2 * u ^ 7 - 630 * c * ((b + c * t) ^ 2 * u ^ 9)
          + 945 * ((b + c * t) ^ 4 * u ^ 11))
          = (4 * ((y * σ) * (45 * c - 105 * σ ^ 2))
            + ((x + y * t) * u) * (45 * c ^ 2 - 630 * c * σ ^ 2 + 945 * (σ ^ 2) ^ 2)) * u ^ 6 := by
        rw [hσ]; ring
      have b5 : |4 * ((y * σ) * (45 * c - 105 * σ ^ 2))
            + ((x + y * t) * u) * (45 * c ^ 2 - 630 * c * σ ^ 2 + 945 * (σ ^ 2) ^ 2)| ≤ 600 * c ^ 2 := by
        refine (abs_add_le _ _).trans ?_
        rw [abs_mul, abs_mul, abs_mul ((x + y * t) * u)]
        have k1 := mul_le_mul b2 b3 (abs_nonneg _) c0
        have k2 := mul_le_mul b1 b4 (abs_nonneg _) zero_le_one
        rw [abs_of_pos (by norm_num : (0:ℝ) < 4)]
        nlinarith
      rw [e, abs_mul, abs_of_pos (pow_pos h1 6), ← mul_one_div (600 * c ^ 2)]
      gcongr)
  refine le_of_eq_of_le ?_ (key.trans (le_of_eq (by ring)))
  congr 1
  ring

end line
end Choclo
