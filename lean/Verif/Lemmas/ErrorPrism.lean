import Verif.Lemmas.ErrorDipole
import Verif.Lemmas.Kernels
import Mathlib.Analysis.SpecialFunctions.Trigonometric.ArctanDeriv

/-! # Error analysis of the prism kernels -/

namespace Choclo

variable {A : Arith} {u lo hi : ℝ}

/-! ## `arctan` preserves relative errors -/

theorem arctan_mul_le {t θ : ℝ} (ht : 0 ≤ t) (hθ : 1 ≤ θ) : Real.arctan (t * θ) ≤ θ * Real.arctan t := by
  have hd : ∀ s : ℝ, HasDerivAt (fun s => θ * Real.arctan s - Real.arctan (s * θ))
      (θ * (1 / (1 + s ^ 2)) - 1 / (1 + (s * θ) ^ 2) * θ) s := by
    intro s
    refine ((Real.hasDerivAt_arctan s).const_mul θ).sub ?_
    have h1 : HasDerivAt (fun s : ℝ => s * θ) θ s := ((hasDerivAt_id s).mul_const θ).congr_deriv (one_mul θ)
    exact (Real.hasDerivAt_arctan (s * θ)).comp s h1
  have hmono : MonotoneOn (fun s => θ * Real.arctan s - Real.arctan (s * θ)) (Set.Ici 0) := by
    apply monotoneOn_of_deriv_nonneg (convex_Ici 0)
    · exact fun s _ => (hd s).continuousAt.continuousWithinAt
    · exact fun s _ => (hd s).differentiableAt.differentiableWithinAt
    · intro s hs
      rw [(hd s).deriv]
      have h1 : 1 / (1 + (s * θ) ^ 2) ≤ 1 / (1 + s ^ 2) := by
        apply one_div_le_one_div_of_le (by positivity)
        have : s ^ 2 ≤ (s * θ) ^ 2 := by
          rw [mul_pow]
          have h1 : 1 ≤ θ ^ 2 := one_le_pow₀ hθ
          nlinarith [sq_nonneg s]
        linarith
      nlinarith
  have := hmono (Set.mem_Ici.2 le_rfl) (Set.mem_Ici.2 ht) ht
  simp only [Real.arctan_zero, mul_zero, zero_mul, sub_zero] at this
  linarith

theorem arctan_ratio_pos {t θ : ℝ} (ht : 0 < t) (hθ : 0 < θ) :
    min θ 1 * Real.arctan t ≤ Real.arctan (t * θ) ∧ Real.arctan (t * θ) ≤ max θ 1 * Real.arctan t := by
  have ha : 0 < Real.arctan t := Real.arctan_pos.2 ht
  rcases le_total 1 θ with h | h
  · rw [min_eq_right h, max_eq_left h, one_mul]
    exact ⟨Real.arctan_strictMono.monotone (by nlinarith), arctan_mul_le ht.le h⟩
  · rw [min_eq_left h, max_eq_right h, one_mul]
    refine ⟨?_, Real.arctan_strictMono.monotone (by nlinarith)⟩
    have h1 : 1 ≤ θ⁻¹ := (one_le_inv₀ hθ).2 h
    have := arctan_mul_le (t := t * θ) (θ := θ⁻¹) (by positivity) h1
    rw [mul_assoc, mul_inv_cancel₀ hθ.ne', mul_one] at this
    calc θ * Real.arctan t ≤ θ * (θ⁻¹ * Real.arctan (t * θ)) := by gcongr
      _ = _ := by field_simp

theorem Fl.zero_eq : (0 : Fl A) = Fl.fin 0 := by
  show Fl.fin ((0 : ℕ) : ℝ) = _
  rw [Nat.cast_zero]

namespace Arith.Accurate

variable (h : A.Accurate u lo hi)
include h

theorem theta_arctan {k : ℕ} {θ : ℝ} (ht : Theta u k θ) (t : ℝ) :
    ∃ η, Theta u k η ∧ Real.arctan (t * θ) = Real.arctan t * η := by
  have hθ := h.theta_pos ht
  have hone : (1 - u) ^ k ≤ 1 ∧ (1 : ℝ) ≤ ((1 - u) ^ k)⁻¹ := ⟨h.pow_le_one' k, h.one_le_inv k⟩
  have hmin : (1 - u) ^ k ≤ min θ 1 := le_min ht.1 hone.1
  have hmax : max θ 1 ≤ ((1 - u) ^ k)⁻¹ := max_le ht.2 hone.2
  have key : ∀ t : ℝ, 0 < t → ∃ η, Theta u k η ∧ Real.arctan (t * θ) = Real.arctan t * η := by
    intro t h0
    have ha : 0 < Real.arctan t := Real.arctan_pos.2 h0
    obtain ⟨h1, h2⟩ := arctan_ratio_pos h0 hθ
    refine ⟨Real.arctan (t * θ) / Real.arctan t, ⟨?_, ?_⟩, by field_simp⟩
    · rw [le_div_iff₀ ha]; exact (mul_le_mul_of_nonneg_right hmin ha.le).trans h1
    · rw [div_le_iff₀ ha]; exact h2.trans (mul_le_mul_of_nonneg_right hmax ha.le)
  rcases lt_trichotomy t 0 with h0 | rfl | h0
  · obtain ⟨η, he, e⟩ := key (-t) (by linarith)
    refine ⟨η, he, ?_⟩
    rw [neg_mul, Real.arctan_neg, Real.arctan_neg, neg_mul] at e
    linarith
  · exact ⟨θ, ht, by simp⟩
  · exact key t h0

/-! ## Comparisons -/

theorem lt_zero {k : ℕ} {v : Fl A} {x : ℝ} (hv : Approx u k v x) : Fl.lt v 0 = decide (x < 0) := by
  obtain ⟨θ, ht, rfl⟩ := hv
  rw [Fl.zero_eq]
  show @decide (x * θ < 0) (Classical.propDecidable _) = _
  have h0 := h.theta_pos ht
  rw [decide_eq_decide]
  exact ⟨fun h => by by_contra hc; nlinarith, fun h => mul_neg_of_neg_of_pos h h0⟩

theorem zero_lt {k : ℕ} {v : Fl A} {x : ℝ} (hv : Approx u k v x) : Fl.lt 0 v = decide (0 < x) := by
  obtain ⟨θ, ht, rfl⟩ := hv
  rw [Fl.zero_eq]
  show @decide (0 < x * θ) (Classical.propDecidable _) = _
  have h0 := h.theta_pos ht
  rw [decide_eq_decide]
  exact mul_pos_iff_of_pos_right h0

theorem approx_zero {k : ℕ} : Approx (A := A) u k 0 0 :=
  ⟨1, h.theta_mono (Nat.zero_le k) h.theta_one, by rw [Fl.zero_eq, zero_mul]⟩

/-! ## Library functions -/

variable (hl : A.LibmAccurate u lo hi)
include hl

theorem half_pi (h1 : InSafeRange lo hi (Real.pi / 2)) :
    (∃ v : Fl A, (Fl.pi /. 2) = .ok v ∧ Approx u 2 v (Real.pi / 2)) ∧
    (∃ v : Fl A, ((-Fl.pi) /. 2) = .ok v ∧ Approx u 2 v (-Real.pi / 2)) := by
  have n2 : ((2 : ℕ) : ℝ) = 2 := by norm_num
  have hp := h.pi_approx hl.pi
  constructor
  · have := h.div hp (h.nat 2) (by norm_num) (by rw [n2]; exact h1) (by norm_num)
    rw [n2] at this
    exact this
  · have := h.div (h.neg hp) (h.nat 2) (by norm_num) (by
      rw [n2, neg_div]
      rcases h1 with h1 | h1
      · exact .inl (by rw [h1, neg_zero])
      · right; rwa [abs_neg]) (by norm_num)
    rw [n2] at this
    exact this

theorem arctan {k : ℕ} (hk : k ≤ 64) {v : Fl A} {t : ℝ} (hv : Approx u k v t)
    (hs : InSafeRange (2 * lo) hi t) : Approx u (k + 1) (Fl.arctan v) (Real.arctan t) := by
  obtain ⟨θ, ht, rfl⟩ := hv
  rcases hs with rfl | ⟨h1, h2⟩
  · refine ⟨θ, h.theta_mono (by omega) ht, ?_⟩
    rw [zero_mul, Real.arctan_zero, zero_mul]
    show Fl.ofRaw (A.atan 0) = _
    rw [hl.atan_zero]
    rfl
  · have ⟨t1, t2⟩ := h.half_le_theta hk ht
    have hpos := h.theta_pos ht
    have habs : |t * θ| = |t| * θ := by rw [abs_mul, abs_of_pos hpos]
    have h0 := abs_nonneg t
    obtain ⟨δ, hδ, e⟩ := hl.atan (t * θ) (by rw [habs]; nlinarith) (by rw [habs]; nlinarith)
    obtain ⟨η, hη, e'⟩ := h.theta_arctan ht t
    refine ⟨η * (1 + δ), h.theta_mul hη (h.theta_delta hδ), ?_⟩
    show Fl.ofRaw (A.atan (t * θ)) = _
    rw [e, e', mul_assoc]
    rfl

theorem safe_atan {k l : ℕ} (hk : k + l + 1 ≤ 64) {nv dv : Fl A} {n d : ℝ} (hn : Approx u k nv n)
    (hd : Approx u l dv d) (hp : InSafeRange lo hi (Real.pi / 2)) (hq : InSafeRange lo hi (n / d))
    (hq2 : InSafeRange (2 * lo) hi (n / d)) :
    ∃ v, prism._safe_atan2 nv dv = .ok v ∧ Approx u (k + l + 2) v
      (if d = 0 then (if 0 < n then Real.pi / 2 else if n < 0 then -Real.pi / 2 else 0)
        else Real.arctan (n / d)) := by
  unfold prism._safe_atan2
  rw [h.eq_zero_fin hd, h.zero_lt hn, h.lt_zero hn]
  obtain ⟨⟨v1, e1, a1⟩, v2, e2, a2⟩ := h.half_pi hl hp
  by_cases hd0 : d = 0
  · simp only [hd0, decide_true, if_true]
    by_cases hp1 : 0 < n
    · simp only [hp1, decide_true, if_true]
      exact ⟨v1, by rw [e1], h.mono (by omega) a1⟩
    · by_cases hp2 : n < 0
      · simp only [hp1, hp2, decide_true, decide_false, if_true, if_false, Bool.false_eq_true]
        exact ⟨v2, by rw [e2], h.mono (by omega) a2⟩
      · simp only [hp1, hp2, decide_false, if_false, Bool.false_eq_true]
        exact ⟨0, rfl, h.approx_zero⟩
  · simp only [hd0, decide_false, if_false, Bool.false_eq_true]
    obtain ⟨v, e, hv⟩ := h.div hn hd hd0 hq (by omega)
    exact ⟨_, by rw [e]; rfl, h.arctan hl (by omega) hv hq2⟩

theorem log_abs {k : ℕ} (hk : k ≤ 64) {v : Fl A} {x : ℝ} (hv : Approx u k v x) (hx : 0 < x)
    (hs : InSafeRange lo hi x) :
    AbsApprox u (k + 1) (Fl.log v) (Real.log x) (1 + |Real.log x|) := by
  obtain ⟨θ, ht, rfl⟩ := hv
  rcases hs with h0 | ⟨h1, h2⟩
  · exact absurd h0 hx.ne'
  rw [abs_of_pos hx] at h1 h2
  have ⟨t1, t2⟩ := h.half_le_theta hk ht
  have hpos := h.theta_pos ht
  obtain ⟨y, e, hy⟩ := hl.log (x * θ) (by nlinarith) (by nlinarith)
  have hxt : 0 < x * θ := by positivity
  refine ⟨y, ?_, ?_, by linarith⟩
  · show (if x * θ < 0 then _ else if x * θ = 0 then _ else _) = _
    rw [if_neg (not_lt.2 hxt.le), if_neg hxt.ne', e]
    rfl
  · rw [Real.log_mul hx.ne' hpos.ne'] at hy
    have hlog : |Real.log θ| ≤ ((1 - u) ^ k)⁻¹ - 1 := by
      rw [abs_le]
      constructor
      · have : Real.log θ⁻¹ ≤ θ⁻¹ - 1 := Real.log_le_sub_one_of_pos (by positivity)
        rw [Real.log_inv] at this
        have h3 := (h.theta_inv ht).2
        linarith
      · have := Real.log_le_sub_one_of_pos hpos
        linarith [ht.2]
    have h3 := abs_add_le (Real.log x) (Real.log θ)
    have h4 := abs_add_le (y - (Real.log x + Real.log θ)) (Real.log θ)
    rw [show y - (Real.log x + Real.log θ) + Real.log θ = y - Real.log x by ring] at h4
    have h5 := h.inv_succ k
    have h6 := h.one_le_inv k
    have hu := h.u_nonneg
    have hL := abs_nonneg (Real.log x)
    set b := ((1 - u) ^ k)⁻¹ with hb
    have h7 : u * (1 + |Real.log x + Real.log θ|) ≤ u * (b + |Real.log x|) :=
      mul_le_mul_of_nonneg_left (by linarith) hu
    have h8 : |y - Real.log x| ≤ b - 1 + u * (b + |Real.log x|) := by linarith
    refine h8.trans ?_
    have h9 : b * (1 + u) - 1 ≤ ((1 - u) ^ (k + 1))⁻¹ - 1 := by linarith
    calc b - 1 + u * (b + |Real.log x|) ≤ (b * (1 + u) - 1) * (1 + |Real.log x|) := by
          nlinarith [mul_nonneg hu hL, mul_nonneg (mul_nonneg hu hL) (by linarith : 0 ≤ b - 1),
            mul_nonneg hL (by linarith : 0 ≤ b - 1)]
      _ ≤ _ := mul_le_mul_of_nonneg_right h9 (by linarith)

end Arith.Accurate

/-! ## Magnitudes -/

namespace Mag

theorem rad {x y z : ℝ} (hx : Mag (-80) 80 x) (hy : Mag (-80) 80 y) (hz : Mag (-80) 80 z) :
    Mag (-80) 81 (rad x y z) := by
  unfold Choclo.rad
  have h1 := hx.pow (n := 2) (by norm_num)
  have h2 := hy.pow (n := 2) (by norm_num)
  have h3 := hz.pow (n := 2) (by norm_num)
  apply Mag.sqrt
  exact ((h1.add h2 (sq_nonneg _) (sq_nonneg _)).add (h3.weaken le_rfl (by norm_num)) (by positivity)
    (sq_nonneg _)).weaken (by norm_num) (by norm_num)

theorem safe2 {a b : ℤ} {x : ℝ} (hx : Mag a b x) (ha : -1020 ≤ a) (hb : b ≤ 1022) :
    InSafeRange (2 * 2 ^ (-1022 : ℤ)) (2 ^ (1023 : ℤ)) x := by
  rcases hx.safe (by omega) hb with h0 | ⟨h1, h2⟩
  · exact .inl h0
  rcases hx with hx | ⟨h3, h4⟩
  · exact .inl hx
  right
  refine ⟨?_, h2⟩
  have e1 : (2 : ℝ) * (2 * 2 ^ (-1022 : ℤ)) = 2 ^ (-1020 : ℤ) := by
    rw [show (-1020 : ℤ) = -1022 + 1 + 1 by norm_num, zpow_add_one₀ (by norm_num),
      zpow_add_one₀ (by norm_num)]; ring
  rw [e1]
  exact (zle ha).trans h3

theorem log {a : ℕ} {x : ℝ} (hx : Mag (-a) a x) (h0 : 0 < x) : |Real.log x| ≤ a := by
  rcases hx with hx | ⟨h1, h2⟩
  · exact absurd hx h0.ne'
  rw [abs_of_pos h0] at h1 h2
  have l1 := Real.log_le_log (zp _) h1
  have l2 := Real.log_le_log h0 h2
  rw [Real.log_zpow] at l1 l2
  push_cast at l1 l2
  have l3 := Real.log_le_sub_one_of_pos (x := 2) (by norm_num)
  have l4 := Real.log_pos (x := 2) (by norm_num)
  have ha : (0 : ℝ) ≤ a := Nat.cast_nonneg a
  rw [abs_le]
  constructor <;> nlinarith

theorem onelog {x : ℝ} (h : |x| ≤ 250) : Mag 0 8 (1 + |x|) := by
  right
  have := abs_nonneg x
  rw [abs_of_nonneg (by linarith)]
  norm_num
  linarith

theorem arctan {a b : ℤ} {t : ℝ} (ht : Mag a b t) (ha : a ≤ 0) : Mag (a - 1) 1 (Real.arctan t) := by
  have key : ∀ t : ℝ, 0 < t → (2 : ℝ) ^ a ≤ t → (2 : ℝ) ^ (a - 1) ≤ Real.arctan t ∧ Real.arctan t ≤ 2 := by
    intro t h0 h1
    have hpi := Real.pi_lt_d2
    have hpi3 := Real.pi_gt_three
    refine ⟨?_, by linarith [Real.arctan_lt_pi_div_two t]⟩
    rw [zpow_sub_one₀ (by norm_num)]
    rcases le_total t 1 with h2 | h2
    · have := arctan_mul_le (t := t) (θ := t⁻¹) h0.le ((one_le_inv₀ h0).2 h2)
      rw [mul_inv_cancel₀ h0.ne', Real.arctan_one] at this
      have h3 : t * (Real.pi / 4) ≤ t * (t⁻¹ * Real.arctan t) := mul_le_mul_of_nonneg_left this h0.le
      rw [← mul_assoc, mul_inv_cancel₀ h0.ne', one_mul] at h3
      norm_num
      nlinarith
    · have h3 : Real.arctan 1 ≤ Real.arctan t := Real.arctan_strictMono.monotone h2
      rw [Real.arctan_one] at h3
      have h4 : (2 : ℝ) ^ a ≤ 1 := by
        have := zle ha
        rwa [zpow_zero] at this
      norm_num
      linarith
  rcases ht with rfl | ⟨h1, _⟩
  · left; exact Real.arctan_zero
  right
  rcases lt_trichotomy t 0 with h0 | rfl | h0
  · rw [abs_of_neg h0] at h1
    have := key (-t) (by linarith) h1
    rw [Real.arctan_neg] at this
    rw [abs_of_neg (by rw [← Real.arctan_zero]; exact Real.arctan_strictMono h0), zpow_one]
    exact this
  · rw [abs_zero] at h1; exact absurd h1 (not_le.2 (zp a))
  · rw [abs_of_pos h0] at h1
    rw [abs_of_pos (Real.arctan_pos.2 h0), zpow_one]
    exact key t h0 h1

theorem halfpi : Mag 0 1 (Real.pi / 2) := by
  right
  have hpi := Real.pi_lt_d2
  have hpi3 := Real.pi_gt_three
  rw [abs_of_pos (by linarith)]
  norm_num
  constructor <;> linarith

end Mag

theorem Mag.Tk {x y z : ℝ} (hx : Mag (-80) 80 x) (hy : Mag (-80) 80 y) (hz : Mag (-80) 80 z) :
    Mag (-330) 1 (Tk x y z) := by
  unfold Choclo.Tk
  split_ifs
  · exact Mag.halfpi.weaken (by norm_num) le_rfl
  · rw [neg_div]; exact Mag.halfpi.neg.weaken (by norm_num) le_rfl
  · exact .inl rfl
  · exact (((hy.mul hz).div (hx.mul (Mag.rad hx hy hz))).arctan (by norm_num)).weaken (by norm_num) le_rfl

namespace Arith.Accurate

variable (h : A.Accurate u (2 ^ (-1022 : ℤ)) (2 ^ (1023 : ℤ)))
  (hl : A.LibmAccurate u (2 ^ (-1022 : ℤ)) (2 ^ (1023 : ℤ)))
variable {x y z : ℝ} (hx : Mag (-80) 80 x) (hy : Mag (-80) 80 y) (hz : Mag (-80) 80 z)
variable {X Y Z R : Fl A}
variable (aX : Approx u 1 X x) (aY : Approx u 1 Y y) (aZ : Approx u 1 Z z)
include h hl hx hy hz aX aY aZ

theorem safe_log_err {r : ℝ} (hr : r = rad x y z) (aR : Approx u 4 R r) :
    ∃ v, prism._safe_log X Y Z R = .ok v ∧ AbsApprox u 11 v (Lk x y z) (1 + |Lk x y z|) ∧
      Mag 0 8 (1 + |Lk x y z|) := by
  subst hr
  have mr := Mag.rad hx hy hz
  unfold prism._safe_log Lk
  rw [h.eq_zero_fin aR, h.lt_zero aX, h.eq_zero_fin aY, h.eq_zero_fin aZ]
  by_cases h0 : rad x y z = 0
  · simp only [h0, decide_true, if_true]
    refine ⟨0, rfl, ?_, Mag.onelog (by simp)⟩
    exact h.absMono (Nat.zero_le _) (by simp) (h.toAbs (h.approx_zero (k := 0)))
  simp only [h0, decide_false, Bool.false_eq_true, if_false]
  by_cases h1 : x < 0
  · simp only [h1, decide_true, if_true]
    by_cases h2 : y = 0 ∧ z = 0
    · obtain ⟨rfl, rfl⟩ := h2
      simp only [decide_true, Bool.and_self, if_true, and_self]
      have n2 : ((2 : ℕ) : ℝ) = 2 := by norm_num
      have m := (Mag.two.neg.mul hx)
      have a := h.mul (h.neg (h.nat 2)) aX (by rw [n2]; exact m.safe (by norm_num) (by norm_num)) (by norm_num)
      rw [n2] at a
      have hpos : 0 < -2 * x := by linarith
      have := h.absNeg (h.log_abs hl (by norm_num) a hpos (m.safe (by norm_num) (by norm_num)))
      refine ⟨_, rfl, ?_, ?_⟩
      · rw [abs_neg]; exact h.absMono (by norm_num) le_rfl this
      · rw [abs_neg]
        exact Mag.onelog (((m.weaken (by norm_num) (by norm_num)).log (a := 250) hpos).trans (by norm_num))
    · have hb : (decide (y = 0) && decide (z = 0)) = false := by
        rw [← Bool.decide_and]; exact decide_eq_false h2
      rw [hb]
      simp only [Bool.false_eq_true, if_false, if_neg h2]
      have my := hy.pow (n := 2) (by norm_num)
      have mz := hz.pow (n := 2) (by norm_num)
      have ms := my.add mz (sq_nonneg _) (sq_nonneg _)
      have mx := hx.neg
      have md := mr.add (mx.weaken le_rfl (by norm_num)) (rad_nonneg _ _ _) (by linarith)
      rw [← sub_eq_add_neg] at md
      have y2 := h.pow aY le_rfl (my.safe (by norm_num) (by norm_num)) (by norm_num)
      have z2 := h.pow aZ le_rfl (mz.safe (by norm_num) (by norm_num)) (by norm_num)
      have s := h.add y2 z2 (sq_nonneg _) (sq_nonneg _) (ms.safe (by norm_num) (by norm_num)) (by norm_num)
      have d := h.add aR (h.neg aX) (rad_nonneg _ _ _) (by linarith) (by
        rw [← sub_eq_add_neg]; exact md.safe (by norm_num) (by norm_num)) (by norm_num)
      rw [← sub_eq_add_neg] at d
      change Approx u (max 4 1 + 1) (R - X) _ at d
      have hd := sub_rad_pos (x := x) h2
      have mq := ms.div md
      have hq : 0 < (y ^ 2 + z ^ 2) / (rad x y z - x) := by
        apply div_pos _ hd
        exact lt_of_le_of_ne (by positivity) (Ne.symm (Ex.sq_add_sq_ne h2))
      obtain ⟨v, e, hv⟩ := h.div s d hd.ne' (mq.safe (by norm_num) (by norm_num)) (by norm_num)
      refine ⟨_, by rw [e]; rfl, ?_, ?_⟩
      · exact h.absMono (by norm_num) le_rfl
          (h.log_abs hl (by norm_num) hv hq (mq.safe (by norm_num) (by norm_num)))
      · exact Mag.onelog (((mq.weaken (by norm_num) (by norm_num)).log (a := 250) hq).trans (by norm_num))
  · simp only [h1, decide_false, Bool.false_eq_true, if_false]
    have hx0 : 0 ≤ x := not_lt.1 h1
    have m := (hx.weaken (b' := 81) le_rfl (by norm_num)).add mr hx0 (rad_nonneg _ _ _)
    have a := h.add aX aR hx0 (rad_nonneg _ _ _) (m.safe (by norm_num) (by norm_num)) (by norm_num)
    have hpos : 0 < x + rad x y z := by
      have : 0 < rad x y z := lt_of_le_of_ne (rad_nonneg _ _ _) (Ne.symm h0)
      linarith
    refine ⟨_, rfl, ?_, ?_⟩
    · exact h.absMono (by norm_num) le_rfl
        (h.log_abs hl (by norm_num) a hpos (m.safe (by norm_num) (by norm_num)))
    · exact Mag.onelog (((m.weaken (by norm_num) (by norm_num)).log (a := 250) hpos).trans (by norm_num))

theorem safe_atan_err {r : ℝ} (hr : r = rad x y z) (aR : Approx u 4 R r) {N : Fl A} (hN : N = Y * Z ∨ N = Z * Y) :
    ∃ v, prism._safe_atan2 N (X * R) = .ok v ∧ Approx u 11 v (Tk x y z) := by
  subst hr
  have mr := Mag.rad hx hy hz
  have mn := hy.mul hz
  have md := hx.mul mr
  have aN : Approx u 3 N (y * z) := by
    rcases hN with rfl | rfl
    · exact h.mul aY aZ (mn.safe (by norm_num) (by norm_num)) (by norm_num)
    · have := h.mul aZ aY (by rw [mul_comm]; exact mn.safe (by norm_num) (by norm_num)) (by norm_num)
      rwa [mul_comm z y] at this
  have aD := h.mul aX aR (md.safe (by norm_num) (by norm_num)) (by norm_num)
  have mq := mn.div md
  obtain ⟨v, e, hv⟩ := h.safe_atan hl (by norm_num) aN aD (Mag.halfpi.safe (by norm_num) (by norm_num))
    (mq.safe (by norm_num) (by norm_num)) (mq.safe2 (by norm_num) (by norm_num))
  refine ⟨v, e, ?_⟩
  convert h.mono (l := 11) (by norm_num) hv using 1
  unfold Tk
  by_cases h0 : x = 0
  · simp [h0]
  · have : rad x y z ≠ 0 := by
      rw [Ne, rad_eq_zero]; tauto
    simp [h0, this]

end Arith.Accurate

end Choclo
