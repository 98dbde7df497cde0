import Verif.Props.Decay
import Verif.Lemmas.Flux2
import Verif.Lemmas.Ball2
import Mathlib.Analysis.Calculus.MeanValue

/-! # One-dimensional Taylor bounds along an axis, and their application to the point kernels -/

namespace Choclo

open Real Set

/-- A function vanishing at 0 whose slope at `x` is at most `C xⁿ` is at most `C xⁿ⁺¹ / (n + 1)`. -/
theorem fence {g g' : ℝ → ℝ} {C : ℝ} (n : ℕ) (h0 : g 0 = 0) (hd : ∀ x ∈ Icc (0:ℝ) 1, HasDerivAt g (g' x) x)
    (hb : ∀ x ∈ Icc (0:ℝ) 1, |g' x| ≤ C * x ^ n) : ∀ x ∈ Icc (0:ℝ) 1, |g x| ≤ C / (n + 1) * x ^ (n + 1) := by
  have hB : ∀ x : ℝ, HasDerivAt (fun x : ℝ => C / (n + 1) * x ^ (n + 1)) (C * x ^ n) x := fun x => by
    have := (hasDerivAt_pow (n + 1) x).const_mul (C / (n + 1))
    refine this.congr_deriv ?_
    have : (n + 1 : ℝ) ≠ 0 := by positivity
    push_cast
    field_simp
  intro x hx
  have := image_norm_le_of_norm_deriv_right_le_deriv_boundary (f := g) (f' := g') (a := 0) (b := 1)
    (B := fun x => C / (n + 1) * x ^ (n + 1)) (B' := fun x => C * x ^ n)
    (fun y hy => (hd y hy).continuousAt.continuousWithinAt)
    (fun y hy => (hd y (Ico_subset_Icc_self hy)).hasDerivWithinAt)
    (by simp [h0]) hB (fun y hy => by simpa using hb y (Ico_subset_Icc_self hy)) hx
  simpa using this

/-- first-order Taylor bound on the unit interval -/
theorem taylor2_unit {f f' f'' : ℝ → ℝ} {K : ℝ} (h1 : ∀ x ∈ Icc (0:ℝ) 1, HasDerivAt f (f' x) x)
    (h2 : ∀ x ∈ Icc (0:ℝ) 1, HasDerivAt f' (f'' x) x) (hK : ∀ x ∈ Icc (0:ℝ) 1, |f'' x| ≤ K) :
    |f 1 - f 0 - f' 0| ≤ K / 2 := by
  have a := fence (g := fun x => f' x - f' 0) (g' := f'') (C := K) 0 (by simp)
    (fun x hx => (h2 x hx).sub_const _) (by simpa using hK)
  have b := fence (g := fun x => f x - f 0 - x * f' 0) (g' := fun x => f' x - f' 0) (C := K) 1 (by simp)
    (fun x hx => by
      have := ((h1 x hx).sub_const (f 0)).sub ((hasDerivAt_id x).mul_const (f' 0))
      exact this.congr_deriv (by simp))
    (fun x hx => by simpa using a x hx) 1 (by norm_num)
  norm_num at b
  exact b

/-- second-order Taylor bound on the unit interval -/
theorem taylor3_unit {f f' f'' f3 : ℝ → ℝ} {K : ℝ} (h1 : ∀ x ∈ Icc (0:ℝ) 1, HasDerivAt f (f' x) x)
    (h2 : ∀ x ∈ Icc (0:ℝ) 1, HasDerivAt f' (f'' x) x) (h3 : ∀ x ∈ Icc (0:ℝ) 1, HasDerivAt f'' (f3 x) x)
    (hK : ∀ x ∈ Icc (0:ℝ) 1, |f3 x| ≤ K) :
    |f 1 - f 0 - f' 0 - f'' 0 / 2| ≤ K / 6 := by
  have a := fence (g := fun x => f'' x - f'' 0) (g' := f3) (C := K) 0 (by simp)
    (fun x hx => (h3 x hx).sub_const _) (by simpa using hK)
  have b := fence (g := fun x => f' x - f' 0 - x * f'' 0) (g' := fun x => f'' x - f'' 0) (C := K) 1 (by simp)
    (fun x hx => by
      have := ((h2 x hx).sub_const (f' 0)).sub ((hasDerivAt_id x).mul_const (f'' 0))
      exact this.congr_deriv (by simp))
    (fun x hx => by simpa using a x hx)
  have c := fence (g := fun x => f x - f 0 - x * f' 0 - x ^ 2 / 2 * f'' 0)
    (g' := fun x => f' x - f' 0 - x * f'' 0) (C := K / 2) 2 (by simp)
    (fun x hx => by
      have := (((h1 x hx).sub_const (f 0)).sub ((hasDerivAt_id x).mul_const (f' 0))).sub
        (((hasDerivAt_pow 2 x).div_const 2).mul_const (f'' 0))
      refine this.congr_deriv ?_
      simp)
    (fun x hx => by have := b x hx; norm_num at this; simpa using this) 1 (by norm_num)
  norm_num at c
  rw [show f 1 - f 0 - f' 0 - f'' 0 / 2 = f 1 - f 0 - f' 0 - 1 / 2 * f'' 0 by ring]
  refine c.trans (le_of_eq ?_)
  ring

/-- affine parameter on the segment from coordinate `s` to `t` -/
theorem seg_mem {s t x : ℝ} (hx : x ∈ Icc (0:ℝ) 1) : s + x * (t - s) ∈ uIcc s t := by
  rw [← segment_eq_uIcc, segment_eq_image']
  exact ⟨x, hx, by simp [smul_eq_mul]⟩

theorem hasDerivAt_seg {f : ℝ → ℝ} {d s t x : ℝ} (h : HasDerivAt f d (s + x * (t - s))) (k : ℝ) :
    HasDerivAt (fun x => f (s + x * (t - s)) * k) (d * (k * (t - s))) x := by
  have h2 : HasDerivAt (fun x : ℝ => s + x * (t - s)) (t - s) x := by
    simpa using ((hasDerivAt_id x).mul_const (t - s)).const_add s
  refine ((h.comp x h2).mul_const k).congr_deriv ?_
  ring

theorem taylor2 {f f' f'' : ℝ → ℝ} {s t K : ℝ} (h1 : ∀ x ∈ uIcc s t, HasDerivAt f (f' x) x)
    (h2 : ∀ x ∈ uIcc s t, HasDerivAt f' (f'' x) x) (hK : ∀ x ∈ uIcc s t, |f'' x| ≤ K) :
    |f t - f s - f' s * (t - s)| ≤ K / 2 * (t - s) ^ 2 := by
  have := taylor2_unit (f := fun x => f (s + x * (t - s)) * 1) (f' := fun x => f' (s + x * (t - s)) * (1 * (t - s)))
    (f'' := fun x => f'' (s + x * (t - s)) * (1 * (t - s) * (t - s))) (K := K * (t - s) ^ 2)
    (fun x hx => hasDerivAt_seg (h1 _ (seg_mem hx)) _) (fun x hx => hasDerivAt_seg (h2 _ (seg_mem hx)) _)
    (fun x hx => by
      rw [abs_mul, one_mul, ← sq, abs_of_nonneg (sq_nonneg (t - s))]
      exact mul_le_mul_of_nonneg_right (hK _ (seg_mem hx)) (sq_nonneg _))
  simp only [one_mul, zero_mul, add_zero, mul_one, add_sub_cancel] at this
  refine this.trans (le_of_eq ?_)
  ring

theorem taylor3 {f f' f'' f3 : ℝ → ℝ} {s t K : ℝ} (h1 : ∀ x ∈ uIcc s t, HasDerivAt f (f' x) x)
    (h2 : ∀ x ∈ uIcc s t, HasDerivAt f' (f'' x) x) (h3 : ∀ x ∈ uIcc s t, HasDerivAt f'' (f3 x) x)
    (hK : ∀ x ∈ uIcc s t, |f3 x| ≤ K) :
    |f t - f s - f' s * (t - s) - f'' s / 2 * (t - s) ^ 2| ≤ K / 6 * |t - s| ^ 3 := by
  have := taylor3_unit (f := fun x => f (s + x * (t - s)) * 1) (f' := fun x => f' (s + x * (t - s)) * (1 * (t - s)))
    (f'' := fun x => f'' (s + x * (t - s)) * (1 * (t - s) * (t - s)))
    (f3 := fun x => f3 (s + x * (t - s)) * (1 * (t - s) * (t - s) * (t - s))) (K := K * |t - s| ^ 3)
    (fun x hx => hasDerivAt_seg (h1 _ (seg_mem hx)) _) (fun x hx => hasDerivAt_seg (h2 _ (seg_mem hx)) _)
    (fun x hx => hasDerivAt_seg (h3 _ (seg_mem hx)) _)
    (fun x hx => by
      rw [abs_mul, show 1 * (t - s) * (t - s) * (t - s) = (t - s) ^ 3 by ring, abs_pow]
      exact mul_le_mul_of_nonneg_right (hK _ (seg_mem hx)) (by positivity))
  simp only [one_mul, zero_mul, add_zero, mul_one, add_sub_cancel] at this
  rw [show f'' s / 2 * (t - s) ^ 2 = f'' s * ((t - s) * (t - s)) / 2 by ring]
  refine this.trans (le_of_eq ?_)
  ring

/-! ## The kernels -/

theorem kpp_deriv {c c' : KComp} {b : Axis} (hc : c.Succ c' b) {p q : Pt} {t : ℝ} (h : p.set b t ≠ q) :
    HasDerivAt (fun t => kpp c (p.set b t) q) (kpp c' (p.set b t) q) t := by
  have h1 := kp_deriv c c' b hc h
  have e : (p.set b t).coord b = t := by cases b <;> rfl
  have e2 : ∀ x, (p.set b t).set b x = p.set b x := fun x => by cases b <;> rfl
  rw [e] at h1
  simp only [e2] at h1
  exact h1

theorem abs_kern3_le (a b c : Axis) {p q : Pt} (h : p ≠ q) : |kpp (kern3 a b c) p q| ≤ 6 / dist3 p q ^ 4 := by
  have := row3_le a b h (unitVec c)
  rw [len_unit, mul_one] at this
  have e : row3 a b p q (unitVec c) = kpp (kern3 a b c) p q := by
    cases c <;> simp [row3, unitVec, Pt.e, Pt.n, Pt.u]
  rwa [e] at this

theorem abs_kern2_le' (a b : Axis) {p q : Pt} {D : ℝ} (hD : 0 < D) (h : D ≤ dist3 p q) :
    |kpp (kern2 a b) p q| ≤ 2 / D ^ 3 :=
  (abs_kern2_le a b (fun e => by rw [dist3_eq_zero.mpr e] at h; linarith)).trans (by gcongr)

theorem abs_kern3_le' (a b c : Axis) {p q : Pt} {D : ℝ} (hD : 0 < D) (h : D ≤ dist3 p q) :
    |kpp (kern3 a b c) p q| ≤ 6 / D ^ 4 :=
  (abs_kern3_le a b c (fun e => by rw [dist3_eq_zero.mpr e] at h; linarith)).trans (by gcongr)

variable {p q : Pt} {b : Axis} {s t D : ℝ}

theorem ne_of_far (hD : 0 < D) (h : D ≤ dist3 p q) : p ≠ q := fun e => by
  rw [dist3_eq_zero.mpr e] at h; linarith

theorem kern_forward_pot (hD : 0 < D) (h : ∀ x ∈ uIcc s t, D ≤ dist3 (p.set b x) q) :
    |kpp .pot (p.set b t) q - kpp .pot (p.set b s) q - kpp (kern1 b) (p.set b s) q * (t - s)| ≤
      1 / D ^ 3 * (t - s) ^ 2 := by
  have := taylor2 (f := fun x => kpp .pot (p.set b x) q) (f' := fun x => kpp (kern1 b) (p.set b x) q)
    (f'' := fun x => kpp (kern2 b b) (p.set b x) q) (s := s) (t := t) (K := 2 / D ^ 3)
    (fun x hx => kpp_deriv (kern1_succ b) (ne_of_far hD (h x hx)))
    (fun x hx => kpp_deriv (kern_succ b b) (ne_of_far hD (h x hx)))
    (fun x hx => abs_kern2_le' b b hD (h x hx))
  refine this.trans (le_of_eq ?_)
  ring

theorem kern_forward_acc (a : Axis) (hD : 0 < D) (h : ∀ x ∈ uIcc s t, D ≤ dist3 (p.set b x) q) :
    |kpp (kern1 a) (p.set b t) q - kpp (kern1 a) (p.set b s) q - kpp (kern2 b a) (p.set b s) q * (t - s)| ≤
      3 / D ^ 4 * (t - s) ^ 2 := by
  have := taylor2 (f := fun x => kpp (kern1 a) (p.set b x) q) (f' := fun x => kpp (kern2 b a) (p.set b x) q)
    (f'' := fun x => kpp (kern3 b b a) (p.set b x) q) (s := s) (t := t) (K := 6 / D ^ 4)
    (fun x hx => kpp_deriv (kern_succ a b) (ne_of_far hD (h x hx)))
    (fun x hx => kpp_deriv (kern2_succ b b a) (ne_of_far hD (h x hx)))
    (fun x hx => abs_kern3_le' b b a hD (h x hx))
  refine this.trans (le_of_eq ?_)
  ring

theorem kern_central_pot {ε : ℝ} (hD : 0 < D) (hε : 0 ≤ ε) (h : ∀ x ∈ Icc (s - ε) (s + ε), D ≤ dist3 (p.set b x) q) :
    |kpp .pot (p.set b (s + ε)) q - kpp .pot (p.set b (s - ε)) q - 2 * ε * kpp (kern1 b) (p.set b s) q| ≤
      2 / D ^ 4 * ε ^ 3 := by
  have key : ∀ t, t ∈ Icc (s - ε) (s + ε) → _ := fun t ht =>
    have sub : uIcc s t ⊆ Icc (s - ε) (s + ε) :=
      uIcc_subset_Icc ⟨by linarith, by linarith⟩ ht
    taylor3 (f := fun x => kpp .pot (p.set b x) q) (f' := fun x => kpp (kern1 b) (p.set b x) q)
      (f'' := fun x => kpp (kern2 b b) (p.set b x) q) (f3 := fun x => kpp (kern3 b b b) (p.set b x) q)
      (s := s) (t := t) (K := 6 / D ^ 4)
      (fun x hx => kpp_deriv (kern1_succ b) (ne_of_far hD (h x (sub hx))))
      (fun x hx => kpp_deriv (kern_succ b b) (ne_of_far hD (h x (sub hx))))
      (fun x hx => kpp_deriv (kern2_succ b b b) (ne_of_far hD (h x (sub hx))))
      (fun x hx => abs_kern3_le' b b b hD (h x (sub hx)))
  have k1 := key (s + ε) ⟨by linarith, le_rfl⟩
  have k2 := key (s - ε) ⟨le_rfl, by linarith⟩
  simp only [add_sub_cancel_left, sub_sub_cancel_left, abs_neg, abs_of_nonneg hε] at k1 k2
  rw [abs_le] at k1 k2 ⊢
  obtain ⟨a1, a2⟩ := k1
  obtain ⟨b1, b2⟩ := k2
  have e : 6 / D ^ 4 / 6 * ε ^ 3 = 1 / D ^ 4 * ε ^ 3 := by ring
  have e2 : 2 / D ^ 4 * ε ^ 3 = 2 * (1 / D ^ 4 * ε ^ 3) := by ring
  rw [e] at a1 a2 b1 b2
  rw [e2]
  generalize 1 / D ^ 4 * ε ^ 3 = X at *
  constructor <;> nlinarith

end Choclo
