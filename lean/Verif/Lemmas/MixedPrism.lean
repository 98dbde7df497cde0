import Verif.Lemmas.ErrorPrism4
import Verif.Props.SinglePrecision

/-! # Error analysis of the prism functions for calls with float32 arguments -/

namespace Choclo

variable {S D : Arith} {u : ℝ}

set_option linter.unusedSimpArgs false

open Classical

theorem Mag.rad32 {x y z : ℝ} (hx : Mag (-20) 24 x) (hy : Mag (-20) 24 y) (hz : Mag (-20) 24 z) :
    Mag (-20) 25 (Choclo.rad x y z) := by
  unfold Choclo.rad
  have h1 := hx.pow (n := 2) (by norm_num)
  have h2 := hy.pow (n := 2) (by norm_num)
  have h3 := hz.pow (n := 2) (by norm_num)
  apply Mag.sqrt
  exact ((h1.add h2 (sq_nonneg _) (sq_nonneg _)).add (h3.weaken le_rfl (by norm_num)) (by positivity)
    (sq_nonneg _)).weaken (by norm_num) (by norm_num)

theorem Mag.safe32' {a b : ℤ} {x : ℝ} (hx : Mag a b x) (ha : -124 ≤ a) (hb : b ≤ 126) :
    InSafeRange (2 * 2 ^ (-126 : ℤ)) (2 ^ (127 : ℤ)) x := by
  rcases hx.safe32 (by omega) hb with h0 | ⟨h1, h2⟩
  · exact .inl h0
  rcases hx with hx | ⟨h3, h4⟩
  · exact .inl hx
  right
  refine ⟨?_, h2⟩
  have e1 : (2 : ℝ) * (2 * 2 ^ (-126 : ℤ)) = 2 ^ (-124 : ℤ) := by
    rw [show (-124 : ℤ) = -126 + 1 + 1 by norm_num, zpow_add_one₀ (by norm_num),
      zpow_add_one₀ (by norm_num)]; ring
  rw [e1]
  exact (zle ha).trans h3

theorem add_neg_eq (R X : MFl S D) : R + -X = R - X := by
  cases R with
  | f32 a => cases X <;> rfl
  | f64 a =>
    cases X with
    | f32 b =>
      show MFl.f64 (a + Fl.up (-b)) = MFl.f64 (a - Fl.up b)
      cases b <;> rfl
    | f64 b => rfl

theorem Mag.to80 {x : ℝ} (hx : Mag (-20) 24 x) : Mag (-80) 80 x := hx.weaken (by norm_num) (by norm_num)

namespace BothAccurate

variable (h : BothAccurate S D u (2 ^ (-126 : ℤ)) (2 ^ (127 : ℤ)) (2 ^ (-1022 : ℤ)) (2 ^ (1023 : ℤ)))
include h

theorem lt_zero {k : ℕ} {v : MFl S D} {x : ℝ} (hv : MApprox u k v x) : MFl.lt v 0 = decide (x < 0) := h.double.lt_zero hv
theorem zero_lt {k : ℕ} {v : MFl S D} {x : ℝ} (hv : MApprox u k v x) : MFl.lt 0 v = decide (0 < x) := h.double.zero_lt hv
theorem approx_zero {k : ℕ} : MApprox (S := S) (D := D) u k 0 0 := h.double.approx_zero

omit h in
theorem widen_abs {k : ℕ} {v : MFl S D} {x B : ℝ} (hv : MAbs u k v x B) : MAbs u k (MFl.widen v) x B := hv

omit h in
theorem widen_wide (v : MFl S D) : (MFl.widen v).Wide := ⟨_, rfl⟩

theorem absNonneg {k : ℕ} {v : MFl S D} {x B : ℝ} (hv : MAbs u k v x B) : 0 ≤ B := h.double.absNonneg hv

variable (hS : S.LibmAccurate u (2 ^ (-126 : ℤ)) (2 ^ (127 : ℤ)))
  (hD : D.LibmAccurate u (2 ^ (-1022 : ℤ)) (2 ^ (1023 : ℤ)))

include hS hD

theorem log_abs {k : ℕ} (hk : k ≤ 64) {v : MFl S D} {x : ℝ} (hv : MApprox u k v x) (hx : 0 < x)
    (hs : InSafeRange (2 ^ (-126 : ℤ)) (2 ^ (127 : ℤ)) x) :
    MAbs u (k + 1) (MFl.log v) (Real.log x) (1 + |Real.log x|) := by
  cases v with
  | f64 a => exact h.double.log_abs hD hk hv hx (h.wide hs)
  | f32 a => exact h.single.log_abs (A := S) (v := a) hS hk hv hx hs

theorem arctan {k : ℕ} (hk : k ≤ 64) {v : MFl S D} {t : ℝ} (hv : MApprox u k v t)
    (hs : InSafeRange (2 * 2 ^ (-126 : ℤ)) (2 ^ (127 : ℤ)) t)
    (hs' : InSafeRange (2 * 2 ^ (-1022 : ℤ)) (2 ^ (1023 : ℤ)) t) : MApprox u (k + 1) (MFl.arctan v) (Real.arctan t) := by
  cases v with
  | f64 a => exact h.double.arctan hD hk hv hs'
  | f32 a => exact h.single.arctan (A := S) (v := a) hS hk hv hs

omit hS in
theorem half_pi (h1 : InSafeRange (2 ^ (-1022 : ℤ)) (2 ^ (1023 : ℤ)) (Real.pi / 2)) :
    (∃ v : MFl S D, (MFl.pi /ₘ 2) = .ok v ∧ MApprox u 2 v (Real.pi / 2)) ∧
    (∃ v : MFl S D, ((-MFl.pi) /ₘ 2) = .ok v ∧ MApprox u 2 v (-Real.pi / 2)) := by
  obtain ⟨⟨v, e, hv⟩, w, e', hw⟩ := h.double.half_pi hD h1
  refine ⟨⟨.f64 v, ?_, hv⟩, .f64 w, ?_, hw⟩
  · show ((Fl.pi : Fl D) /. 2).map _ = _
    rw [e]; rfl
  · show ((-Fl.pi : Fl D) /. 2).map _ = _
    rw [e']; rfl

theorem safe_atan {k l : ℕ} (hk : k + l + 1 ≤ 64) {nv dv : MFl S D} {n d : ℝ} (hn : MApprox u k nv n)
    (hd : MApprox u l dv d) {a b : ℤ} (hq : Mag a b (n / d)) (ha : -124 ≤ a) (hb : b ≤ 126) :
    ∃ v, Mixed.prism._safe_atan2 nv dv = .ok v ∧ v.Wide ∧ MApprox u (k + l + 2) v
      (if d = 0 then (if 0 < n then Real.pi / 2 else if n < 0 then -Real.pi / 2 else 0)
        else Real.arctan (n / d)) := by
  unfold Mixed.prism._safe_atan2
  rw [h.eq_zero_fin hd, h.zero_lt hn, h.lt_zero hn]
  obtain ⟨⟨v1, e1, a1⟩, v2, e2, a2⟩ := h.half_pi hD (Mag.halfpi.safe (by norm_num) (by norm_num))
  by_cases hd0 : d = 0
  · simp only [hd0, decide_true, if_true]
    by_cases hp1 : 0 < n
    · simp only [hp1, decide_true, if_true]
      exact ⟨MFl.widen v1, by rw [e1]; rfl, widen_wide _, widen_approx (h.mono (by omega) a1)⟩
    · by_cases hp2 : n < 0
      · simp only [hp1, hp2, decide_true, decide_false, if_true, if_false, Bool.false_eq_true]
        exact ⟨MFl.widen v2, by rw [e2]; rfl, widen_wide _, widen_approx (h.mono (by omega) a2)⟩
      · simp only [hp1, hp2, decide_false, if_false, Bool.false_eq_true]
        exact ⟨_, rfl, widen_wide _, widen_approx h.approx_zero⟩
  · simp only [hd0, decide_false, if_false, Bool.false_eq_true]
    obtain ⟨v, e, hv⟩ := h.div hn hd hd0 (hq.safe32 (by omega) (by omega)) (by omega)
    exact ⟨_, by rw [e]; rfl, widen_wide _, widen_approx (h.arctan hS hD (by omega) hv (hq.safe32' ha hb)
      (hq.safe2 (by omega) (by omega)))⟩

section kernels
variable {x y z : ℝ} (hx : Mag (-20) 24 x) (hy : Mag (-20) 24 y) (hz : Mag (-20) 24 z)
variable {X Y Z R : MFl S D}
variable (aX : MApprox u 1 X x) (aY : MApprox u 1 Y y) (aZ : MApprox u 1 Z z)
include hx hy hz aX aY aZ

theorem safe_log_err {r : ℝ} (hr : r = rad x y z) (aR : MApprox u 4 R r) :
    ∃ v, Mixed.prism._safe_log X Y Z R = .ok v ∧ v.Wide ∧ MAbs u 11 v (Lk x y z) (1 + |Lk x y z|) ∧
      Mag 0 8 (1 + |Lk x y z|) := by
  subst hr
  have mr := Mag.rad32 hx hy hz
  unfold Mixed.prism._safe_log Lk
  rw [h.eq_zero_fin aR, h.lt_zero aX, h.eq_zero_fin aY, h.eq_zero_fin aZ]
  by_cases h0 : rad x y z = 0
  · simp only [h0, decide_true, if_true]
    refine ⟨_, rfl, widen_wide _, widen_abs ?_, Mag.onelog (by simp)⟩
    exact h.absMono (Nat.zero_le _) (by simp) (h.toAbs (h.approx_zero (k := 0)))
  simp only [h0, decide_false, Bool.false_eq_true, if_false]
  by_cases h1 : x < 0
  · simp only [h1, decide_true, if_true]
    by_cases h2 : y = 0 ∧ z = 0
    · obtain ⟨rfl, rfl⟩ := h2
      simp only [decide_true, Bool.and_self, if_true, and_self]
      have n2 : ((2 : ℕ) : ℝ) = 2 := by norm_num
      have m := (Mag.two.neg.mul hx)
      have a := h.mul (h.neg (h.nat 2)) aX (by rw [n2]; exact m.safe32 (by norm_num) (by norm_num)) (by norm_num)
      rw [n2] at a
      have hpos : 0 < -2 * x := by linarith
      have := h.absNeg (h.log_abs hS hD (by norm_num) a hpos (m.safe32 (by norm_num) (by norm_num)))
      refine ⟨_, rfl, widen_wide _, widen_abs ?_, ?_⟩
      · rw [abs_neg]; exact h.absMono (by norm_num) le_rfl this
      · rw [abs_neg]
        exact Mag.onelog (((m.weaken (by norm_num) (by norm_num)).log (a := 250) hpos).trans (by norm_num))
    · have hb : (decide (y = 0) && decide (z = 0)) = false := by
        rw [← Bool.decide_and]; exact decide_eq_false h2
      rw [hb]
      simp only [Bool.false_eq_true, if_false, if_neg h2]
      have my := hy.pow (n := 2) (by norm_num)
      have mz := hz.pow (n := 2) (by norm_num)
      have ms := my.add mz (sq_nonneg _) (sq_nonneg _)
      have mx := hx.neg
      have md := mr.add (mx.weaken le_rfl (by norm_num)) (rad_nonneg _ _ _) (by linarith)
      rw [← sub_eq_add_neg] at md
      have y2 := h.pow aY le_rfl (my.safe32 (by norm_num) (by norm_num)) (by norm_num)
      have z2 := h.pow aZ le_rfl (mz.safe32 (by norm_num) (by norm_num)) (by norm_num)
      have s := h.add y2 z2 (sq_nonneg _) (sq_nonneg _) (ms.safe32 (by norm_num) (by norm_num)) (by norm_num)
      have d := h.add aR (h.neg aX) (rad_nonneg _ _ _) (by linarith) (by
        rw [← sub_eq_add_neg]; exact md.safe32 (by norm_num) (by norm_num)) (by norm_num)
      rw [← sub_eq_add_neg] at d
      have eRX : R + -X = R - X := add_neg_eq R X
      rw [eRX] at d
      have hd := sub_rad_pos (x := x) h2
      have mq := ms.div md
      have hq : 0 < (y ^ 2 + z ^ 2) / (rad x y z - x) := by
        apply div_pos _ hd
        exact lt_of_le_of_ne (by positivity) (Ne.symm (Ex.sq_add_sq_ne h2))
      obtain ⟨v, e, hv⟩ := h.div s d hd.ne' (mq.safe32 (by norm_num) (by norm_num)) (by norm_num)
      refine ⟨_, by rw [e]; rfl, widen_wide _, widen_abs ?_, ?_⟩
      · exact h.absMono (by norm_num) le_rfl
          (h.log_abs hS hD (by norm_num) hv hq (mq.safe32 (by norm_num) (by norm_num)))
      · exact Mag.onelog (((mq.weaken (by norm_num) (by norm_num)).log (a := 250) hq).trans (by norm_num))
  · simp only [h1, decide_false, Bool.false_eq_true, if_false]
    have hx0 : 0 ≤ x := not_lt.1 h1
    have m := (hx.weaken (b' := 25) le_rfl (by norm_num)).add mr hx0 (rad_nonneg _ _ _)
    have a := h.add aX aR hx0 (rad_nonneg _ _ _) (m.safe32 (by norm_num) (by norm_num)) (by norm_num)
    have hpos : 0 < x + rad x y z := by
      have : 0 < rad x y z := lt_of_le_of_ne (rad_nonneg _ _ _) (Ne.symm h0)
      linarith
    refine ⟨_, rfl, widen_wide _, widen_abs ?_, ?_⟩
    · exact h.absMono (by norm_num) le_rfl
        (h.log_abs hS hD (by norm_num) a hpos (m.safe32 (by norm_num) (by norm_num)))
    · exact Mag.onelog (((m.weaken (by norm_num) (by norm_num)).log (a := 250) hpos).trans (by norm_num))

theorem safe_atan_err {r : ℝ} (hr : r = rad x y z) (aR : MApprox u 4 R r) {N : MFl S D} (hN : N = Y * Z ∨ N = Z * Y) :
    ∃ v, Mixed.prism._safe_atan2 N (X * R) = .ok v ∧ v.Wide ∧ MApprox u 11 v (Tk x y z) := by
  subst hr
  have mr := Mag.rad32 hx hy hz
  have mn := hy.mul hz
  have md := hx.mul mr
  have aN : MApprox u 3 N (y * z) := by
    rcases hN with rfl | rfl
    · exact h.mul aY aZ (mn.safe32 (by norm_num) (by norm_num)) (by norm_num)
    · have := h.mul aZ aY (by rw [mul_comm]; exact mn.safe32 (by norm_num) (by norm_num)) (by norm_num)
      rwa [mul_comm z y] at this
  have aD := h.mul aX aR (md.safe32 (by norm_num) (by norm_num)) (by norm_num)
  have mq := mn.div md
  obtain ⟨v, e, w, hv⟩ := h.safe_atan hS hD (by norm_num) aN aD mq (by norm_num) (by norm_num)
  refine ⟨v, e, w, ?_⟩
  convert h.mono (l := 11) (by norm_num) hv using 1
  unfold Tk
  by_cases h0 : x = 0
  · simp [h0]
  · have : rad x y z ≠ 0 := by
      rw [Ne, rad_eq_zero]; tauto
    simp [h0, this]

omit hS hD in
theorem vrad_err : MApprox u 4 (Mixed.prism.vrad X Y Z) (rad x y z) := by
  have hx2 := hx.pow (n := 2) (by norm_num)
  have hy2 := hy.pow (n := 2) (by norm_num)
  have hz2 := hz.pow (n := 2) (by norm_num)
  have h12 := hx2.add hy2 (sq_nonneg _) (sq_nonneg _)
  have h123 := h12.add (hz2.weaken le_rfl (by norm_num)) (by positivity) (sq_nonneg _)
  have a1 := h.pow aX le_rfl (hx2.safe32 (by norm_num) (by norm_num)) (by norm_num)
  have a2 := h.pow aY le_rfl (hy2.safe32 (by norm_num) (by norm_num)) (by norm_num)
  have a3 := h.pow aZ le_rfl (hz2.safe32 (by norm_num) (by norm_num)) (by norm_num)
  have s1 := h.add a1 a2 (sq_nonneg _) (sq_nonneg _) (h12.safe32 (by norm_num) (by norm_num)) (by norm_num)
  have s2 := h.add s1 a3 (by positivity) (sq_nonneg _) (h123.safe32 (by norm_num) (by norm_num)) (by norm_num)
  exact h.sqrt (k := 3) (h.mono (by norm_num) s2) (by positivity)
    ((Mag.rad32 hx hy hz).safe32 (by norm_num) (by norm_num)) (by norm_num)

/-! ### third order -/

omit hS hD in
theorem iij_err {r : ℝ} (hr : r = rad x y z) (hr0 : r ≠ 0) (aR : MApprox u 4 R r) :
    ∃ v, Mixed.prism._kernel_iij X Y Z R = .ok v ∧ v.Wide ∧ MApprox u 25 v (Kiij x y z) ∧ Mag (-800) 800 (Kiij x y z) := by
  subst hr
  have mr := Mag.rad32 hx hy hz
  have hx2 := hx.pow (n := 2) (by norm_num)
  have hy2 := hy.pow (n := 2) (by norm_num)
  have hs := hx2.add hy2 (sq_nonneg _) (sq_nonneg _)
  have hn := hx.mul hz
  have hd := hs.mul mr
  have hq := hn.div hd
  unfold Mixed.prism._kernel_iij Kiij
  rw [h.eq_zero_fin aR, h.eq_zero_fin aX, h.eq_zero_fin aY]
  simp only [hr0, decide_false, Bool.false_eq_true, if_false]
  by_cases hxy : x = 0 ∧ y = 0
  · have hb : (decide (x = 0) && decide (y = 0)) = true := by
      rw [← Bool.decide_and]; exact decide_eq_true hxy
    rw [hb, if_pos hxy]
    exact ⟨_, rfl, widen_wide _, widen_approx h.approx_zero, .inl rfl⟩
  · have hb : (decide (x = 0) && decide (y = 0)) = false := by
      rw [← Bool.decide_and]; exact decide_eq_false hxy
    rw [hb, if_neg hxy]
    have a1 := h.pow aX le_rfl (hx2.safe32 (by norm_num) (by norm_num)) (by norm_num)
    have a2 := h.pow aY le_rfl (hy2.safe32 (by norm_num) (by norm_num)) (by norm_num)
    have a3 := h.add a1 a2 (sq_nonneg _) (sq_nonneg _) (hs.safe32 (by norm_num) (by norm_num)) (by norm_num)
    have a4 := h.mul a3 aR (hd.safe32 (by norm_num) (by norm_num)) (by norm_num)
    have a5 := h.mul aX aZ (hn.safe32 (by norm_num) (by norm_num)) (by norm_num)
    obtain ⟨v, e, hv⟩ := h.div a5 a4 (mul_ne_zero (Ex.sq_add_sq_ne hxy) hr0)
      (hq.safe32 (by norm_num) (by norm_num)) (by norm_num)
    refine ⟨MFl.widen v, ?_, widen_wide _, widen_approx (h.mono (by norm_num) hv), hq.weaken (by norm_num) (by norm_num)⟩
    simp only [Bool.false_eq_true, if_false]
    rw [e]; rfl

omit hS hD in
theorem iii_err {r : ℝ} (hr : r = rad x y z) (hr0 : r ≠ 0) (aR : MApprox u 4 R r) :
    ∃ v, Mixed.prism._kernel_iii X Y Z R = .ok v ∧ v.Wide ∧ MApprox u 25 v (Kiii x y z) ∧ Mag (-800) 800 (Kiii x y z) := by
  subst hr
  have mr := Mag.rad32 hx hy hz
  have hx2 := hx.pow (n := 2) (by norm_num)
  have hy2 := hy.pow (n := 2) (by norm_num)
  have hz2 := hz.pow (n := 2) (by norm_num)
  have hyz := hy.neg.mul hz
  have h2x := Mag.two.mul hx2
  have h3 := (h2x.weaken (a' := -40) (b' := 52) (by norm_num) (by norm_num)).add
    (hy2.weaken (a' := -40) (b' := 52) (by norm_num) (by norm_num)) (by positivity) (by positivity)
  have h4 := h3.add (hz2.weaken (by norm_num) (by norm_num)) (by positivity) (by positivity)
  have hn := hyz.mul h4
  have hxy2 := hx2.add hy2 (sq_nonneg _) (sq_nonneg _)
  have hxz2 := hx2.add hz2 (sq_nonneg _) (sq_nonneg _)
  have hm := hxy2.mul hxz2
  have hd := hm.mul mr
  have hq := hn.div hd
  unfold Mixed.prism._kernel_iii Kiii
  rw [h.eq_zero_fin aR, h.eq_zero_fin aX, h.eq_zero_fin aY, h.eq_zero_fin aZ]
  simp only [hr0, decide_false, Bool.false_eq_true, if_false]
  by_cases hxy : (x = 0 ∧ y = 0) ∨ (x = 0 ∧ z = 0)
  · have hb : ((decide (x = 0) && decide (y = 0)) || (decide (x = 0) && decide (z = 0))) = true := by
      rw [← Bool.decide_and, ← Bool.decide_and, ← Bool.decide_or]; exact decide_eq_true hxy
    rw [hb, if_pos hxy]
    exact ⟨_, rfl, widen_wide _, widen_approx h.approx_zero, .inl rfl⟩
  · have hb : ((decide (x = 0) && decide (y = 0)) || (decide (x = 0) && decide (z = 0))) = false := by
      rw [← Bool.decide_and, ← Bool.decide_and, ← Bool.decide_or]; exact decide_eq_false hxy
    rw [hb, if_neg hxy]
    simp only [Bool.false_eq_true, if_false]
    rw [not_or] at hxy
    have n2 : ((2 : ℕ) : ℝ) = 2 := by norm_num
    have w2 : (2 : MFl S D).Wide := nat_wide 2
    have a1 := h.pow aX le_rfl (hx2.safe32 (by norm_num) (by norm_num)) (by norm_num)
    have a2 := h.pow aY le_rfl (hy2.safe32 (by norm_num) (by norm_num)) (by norm_num)
    have a3 := h.pow aZ le_rfl (hz2.safe32 (by norm_num) (by norm_num)) (by norm_num)
    have b1 := h.mul (h.neg aY) aZ (hyz.safe32 (by norm_num) (by norm_num)) (by norm_num)
    have b2 := h.mulD (.inl w2) (h.nat 2) a1 (by rw [n2]; exact h2x.safe (by norm_num) (by norm_num)) (by norm_num)
    rw [n2] at b2
    have w3 := wide_mul (w := X ^ 2) (.inl w2)
    have b3 := h.addD (.inl w3) b2 a2 (by positivity) (sq_nonneg _) (h3.safe (by norm_num) (by norm_num)) (by norm_num)
    have w4 := wide_add (w := Y ^ 2) (.inl w3)
    have b4 := h.addD (.inl w4) b3 a3 (by positivity) (sq_nonneg _) (h4.safe (by norm_num) (by norm_num)) (by norm_num)
    have w5 := wide_add (w := Z ^ 2) (.inl w4)
    have b5 := h.mulD (.inr w5) b1 b4 (hn.safe (by norm_num) (by norm_num)) (by norm_num)
    have w6 := wide_mul (v := (-Y) * Z) (.inr w5)
    have c1 := h.add a1 a2 (sq_nonneg _) (sq_nonneg _) (hxy2.safe32 (by norm_num) (by norm_num)) (by norm_num)
    have c2 := h.add a1 a3 (sq_nonneg _) (sq_nonneg _) (hxz2.safe32 (by norm_num) (by norm_num)) (by norm_num)
    have c3 := h.mul c1 c2 (hm.safe32 (by norm_num) (by norm_num)) (by norm_num)
    have c4 := h.mul c3 aR (hd.safe32 (by norm_num) (by norm_num)) (by norm_num)
    obtain ⟨v, e, -, hv⟩ := h.divD (.inl w6) b5 c4
      (mul_ne_zero (mul_ne_zero (Ex.sq_add_sq_ne hxy.1) (Ex.sq_add_sq_ne hxy.2)) hr0)
      (hq.safe (by norm_num) (by norm_num)) (by norm_num)
    change MFl.div ((-Y) * Z * (2 * X ^ 2 + Y ^ 2 + Z ^ 2)) _ = _ at e
    exact ⟨MFl.widen v, by rw [e]; rfl, widen_wide _, widen_approx (h.mono (by norm_num) hv),
      hq.weaken (by norm_num) (by norm_num)⟩

omit hS hD aX aY aZ in
theorem enu_err {r : ℝ} (hr : r = rad x y z) (hr0 : r ≠ 0) (aR : MApprox u 4 R r) (X' Y' Z' : MFl S D) :
    ∃ v, Mixed.prism.kernel_enu X' Y' Z' R = .ok v ∧ v.Wide ∧ MApprox u 25 v (-1 / r) ∧ Mag (-800) 800 (-1 / r) := by
  have mr : Mag (-20) 25 r := hr ▸ Mag.rad32 hx hy hz
  have hq := Mag.one.neg.div mr
  obtain ⟨v, e, hv⟩ := h.enu (k := 4) le_rfl hr0 aR (hq.safe (by norm_num) (by norm_num)) X' Y' Z'
  refine ⟨v, e, ?_, h.mono (by norm_num) hv, hq.weaken (by norm_num) (by norm_num)⟩
  unfold Mixed.prism.kernel_enu at e
  rw [h.eq_zero_fin aR] at e
  simp only [hr0, decide_false, Bool.false_eq_true, if_false] at e
  cases hdiv : MFl.div (-1) R with
  | error x => rw [hdiv] at e; exact absurd e (by intro e; cases e)
  | ok w =>
    rw [hdiv] at e
    have : MFl.widen w = v := Except.ok.inj e
    rw [← this]; exact widen_wide _

end kernels

end BothAccurate
end Choclo
