import Verif.Spec.Spherical
import Verif.Lemmas.Mag
import Verif.Props.Utils

/-! # Rounding errors of the spherical distance -/

namespace Choclo

open Real

variable {A : Arith} {u : ℝ}

theorem Fl.add_fin_ok {lo hi : ℝ} (h : A.Accurate u lo hi) {a b : ℝ} (hab : |a + b| ≤ hi) :
    ∃ y : ℝ, (Fl.fin a + Fl.fin b : Fl A) = Fl.fin y ∧ |y - (a + b)| ≤ u * (|a + b| + lo) := by
  obtain ⟨y, e, hy⟩ := h.rnd_abs (a + b) hab
  refine ⟨y, e, hy.trans (mul_le_mul_of_nonneg_left ?_ h.u_nonneg)⟩
  exact max_le_add_of_nonneg (abs_nonneg _) h.lo_pos.le

theorem Fl.sub_fin_ok {lo hi : ℝ} (h : A.Accurate u lo hi) {a b : ℝ} (hab : |a - b| ≤ hi) :
    ∃ y : ℝ, (Fl.fin a - Fl.fin b : Fl A) = Fl.fin y ∧ |y - (a - b)| ≤ u * (|a - b| + lo) := by
  have := Fl.add_fin_ok (A := A) h (a := a) (b := -b) (by rwa [← sub_eq_add_neg])
  rw [← sub_eq_add_neg] at this
  exact this

theorem Fl.mul_fin_ok {lo hi : ℝ} (h : A.Accurate u lo hi) {a b : ℝ} (hab : |a * b| ≤ hi) :
    ∃ y : ℝ, (Fl.fin a * Fl.fin b : Fl A) = Fl.fin y ∧ |y - a * b| ≤ u * (|a * b| + lo) := by
  obtain ⟨y, e, hy⟩ := h.rnd_abs (a * b) hab
  refine ⟨y, e, hy.trans (mul_le_mul_of_nonneg_left ?_ h.u_nonneg)⟩
  exact max_le_add_of_nonneg (abs_nonneg _) h.lo_pos.le

/-- error of a product of two numbers close to numbers of magnitude at most 1 -/
theorem prod_err {a b x y α β : ℝ} (hx : |x| ≤ 1) (hy : |y| ≤ 1) (ha : |a - x| ≤ α) (hb : |b - y| ≤ β) :
    |a * b - x * y| ≤ α + β + α * β := by
  have hα := (abs_nonneg _).trans ha
  have hβ := (abs_nonneg _).trans hb
  calc |a * b - x * y| = |(a - x) * y + x * (b - y) + (a - x) * (b - y)| := by ring_nf
    _ ≤ |(a - x) * y| + |x * (b - y)| + |(a - x) * (b - y)| := abs_add_three _ _ _
    _ = |a - x| * |y| + |x| * |b - y| + |a - x| * |b - y| := by rw [abs_mul, abs_mul, abs_mul]
    _ ≤ α * 1 + 1 * β + α * β := by gcongr
    _ = _ := by ring

/-- error of the rounded product -/
theorem Fl.prod_fin_ok {lo hi : ℝ} (h : A.Accurate u lo hi) (hu : u ≤ 2 ^ (-20 : ℤ)) (hlo : lo ≤ 2 ^ (-20 : ℤ))
    (hhi : 4 ≤ hi) {a b x y : ℝ} {m n : ℝ} (hm : m ≤ 100) (hn : n ≤ 100) (_hm0 : 0 ≤ m) (hn0 : 0 ≤ n)
    (hx : |x| ≤ 1) (hy : |y| ≤ 1) (ha : |a - x| ≤ m * u) (hb : |b - y| ≤ n * u) :
    ∃ c : ℝ, (Fl.fin a * Fl.fin b : Fl A) = Fl.fin c ∧ |c - x * y| ≤ (m + n + 1.1) * u := by
  have hu0 := h.u_nonneg
  norm_num at hu hlo
  have hxy : |x * y| ≤ 1 := by
    rw [abs_mul]; exact mul_le_one₀ hx (abs_nonneg _) hy
  have h1 : |a * b - x * y| ≤ (m + n + 0.02) * u := by
    refine (prod_err hx hy ha hb).trans ?_
    have : m * u * (n * u) ≤ 0.02 * u := by
      have h1 : m * n ≤ 10000 := by nlinarith
      have h2 : m * n * u ≤ 10000 * (1 / 1048576) :=
        mul_le_mul h1 hu hu0 (by norm_num)
      calc m * u * (n * u) = (m * n * u) * u := by ring
        _ ≤ (10000 * (1 / 1048576)) * u := mul_le_mul_of_nonneg_right h2 hu0
        _ ≤ 0.02 * u := mul_le_mul_of_nonneg_right (by norm_num) hu0
    nlinarith
  have h2 : |a * b| ≤ 1 + (m + n + 0.02) * u := by
    have := abs_sub_abs_le_abs_sub (a * b) (x * y)
    linarith
  have h3 : (m + n + 0.02) * u ≤ 0.01 := by nlinarith
  obtain ⟨c, e, hc⟩ := Fl.mul_fin_ok (A := A) h (a := a) (b := b) (by linarith)
  refine ⟨c, e, ?_⟩
  calc |c - x * y| = |(c - a * b) + (a * b - x * y)| := by ring_nf
    _ ≤ |c - a * b| + |a * b - x * y| := abs_add_le _ _
    _ ≤ u * (|a * b| + lo) + (m + n + 0.02) * u := add_le_add hc h1
    _ ≤ u * (1 + 0.01 + 0.01) + (m + n + 0.02) * u := by
        gcongr <;> linarith
    _ ≤ (m + n + 1.1) * u := by nlinarith

theorem Fl.sin_ok {lo : ℝ} (ht : A.TrigAccurate u lo) {x y e : ℝ} (hx : |x| ≤ 2 ^ 20) (hxy : |x - y| ≤ e * u) :
    ∃ s : ℝ, Fl.sin (Fl.fin x : Fl A) = Fl.fin s ∧ |s - Real.sin y| ≤ (e + 1) * u := by
  obtain ⟨s, e1, hs⟩ := ht.sin x hx
  refine ⟨s, congrArg Fl.ofRaw e1, ?_⟩
  have h2 : |Real.sin x - Real.sin y| ≤ |x - y| := by
    have := Real.abs_sin_sub_sin_le x y
    exact this
  calc |s - Real.sin y| = |(s - Real.sin x) + (Real.sin x - Real.sin y)| := by ring_nf
    _ ≤ |s - Real.sin x| + |Real.sin x - Real.sin y| := abs_add_le _ _
    _ ≤ u + e * u := add_le_add hs (h2.trans hxy)
    _ = _ := by ring

theorem Fl.cos_ok {lo : ℝ} (ht : A.TrigAccurate u lo) {x y e : ℝ} (hx : |x| ≤ 2 ^ 20) (hxy : |x - y| ≤ e * u) :
    ∃ s : ℝ, Fl.cos (Fl.fin x : Fl A) = Fl.fin s ∧ |s - Real.cos y| ≤ (e + 1) * u := by
  obtain ⟨s, e1, hs⟩ := ht.cos x hx
  refine ⟨s, congrArg Fl.ofRaw e1, ?_⟩
  have h2 : |Real.cos x - Real.cos y| ≤ |x - y| := by
    have := Real.abs_cos_sub_cos_le x y
    exact this
  calc |s - Real.cos y| = |(s - Real.cos x) + (Real.cos x - Real.cos y)| := by ring_nf
    _ ≤ |s - Real.cos x| + |Real.cos x - Real.cos y| := abs_add_le _ _
    _ ≤ u + e * u := add_le_add hs (h2.trans hxy)
    _ = _ := by ring

/-- The scalar part of `distance_spherical_core` from approximate sines, cosines and longitudes. -/
theorem sph_angle_err (h : A.Accurate u (2 ^ (-1022 : ℤ)) (2 ^ (1023 : ℤ))) (ht : A.TrigAccurate u (2 ^ (-1022 : ℤ)))
    (hu : u ≤ 2 ^ (-20 : ℤ)) {lp lq p q lp' lq' cp sp cq sq : ℝ}
    (hlp : |lp| ≤ 2 * π) (hlq : |lq| ≤ 2 * π) (hlp' : |lp' - lp| ≤ 19 * u) (hlq' : |lq' - lq| ≤ 19 * u)
    (hcp : |cp - cos p| ≤ 6 * u) (hsp : |sp - sin p| ≤ 6 * u) (hcq : |cq - cos q| ≤ 6 * u)
    (hsq : |sq - sin q| ≤ 6 * u) :
    ∃ cl m1 m2 m3 cpsi w : ℝ,
      Fl.cos ((lq' : Fl A) - (lp' : Fl A)) = Fl.fin cl ∧ |cl - cos (lq - lp)| ≤ 53 * u ∧
      ((sq : Fl A) * (sp : Fl A)) = Fl.fin m1 ∧ ((cq : Fl A) * (cp : Fl A)) = Fl.fin m2 ∧
      (Fl.fin m2 * Fl.fin cl : Fl A) = Fl.fin m3 ∧
      (Fl.fin m1 + Fl.fin m3 : Fl A) = Fl.fin cpsi ∧ |cpsi - cosAngle lp p lq q| ≤ 82 * u ∧
      ((1 : Fl A) - Fl.fin cpsi) = Fl.fin w ∧ |w - (1 - cosAngle lp p lq q)| ≤ 85 * u := by
  have hu0 := h.u_nonneg
  have hu' : u ≤ 1 / 1048576 := by norm_num at hu; exact hu
  have hlo : (2 : ℝ) ^ (-1022 : ℤ) ≤ 2 ^ (-20 : ℤ) := Mag.zle (by norm_num)
  have hlo' : (2 : ℝ) ^ (-1022 : ℤ) ≤ 1 / 1048576 := by
    refine hlo.trans ?_; norm_num
  have hlo0 : (0 : ℝ) < 2 ^ (-1022 : ℤ) := Mag.zp _
  have hhi : (16 : ℝ) ≤ 2 ^ (1023 : ℤ) := by
    calc (16 : ℝ) = 2 ^ (4 : ℤ) := by norm_num
      _ ≤ _ := Mag.zle (by norm_num)
  have hpi := Real.pi_lt_d2
  generalize (2 : ℝ) ^ (-1022 : ℤ) = lo at *
  generalize (2 : ℝ) ^ (1023 : ℤ) = hi at *
  -- longitude difference
  have d1 : |lq' - lp' - (lq - lp)| ≤ 38 * u := by
    rw [abs_le] at hlp' hlq' ⊢; constructor <;> linarith [hlp'.1, hlp'.2, hlq'.1, hlq'.2]
  have d2 : |lq - lp| ≤ 12.6 := by
    rw [abs_le] at hlp hlq ⊢; constructor <;> linarith [hlp.1, hlp.2, hlq.1, hlq.2]
  have d3 : |lq' - lp'| ≤ 12.7 := by
    have := abs_sub_abs_le_abs_sub (lq' - lp') (lq - lp)
    linarith
  obtain ⟨dl, e1, f1⟩ := Fl.sub_fin_ok (A := A) h (a := lq') (b := lp') (by linarith)
  have d4 : |dl - (lq - lp)| ≤ 52 * u := by
    calc |dl - (lq - lp)| = |(dl - (lq' - lp')) + (lq' - lp' - (lq - lp))| := by ring_nf
      _ ≤ _ := abs_add_le _ _
      _ ≤ u * (12.7 + 0.1) + 38 * u := by
          refine add_le_add (f1.trans ?_) d1
          gcongr; linarith
      _ ≤ 52 * u := by nlinarith
  have d5 : |dl| ≤ 2 ^ 20 := by
    have := abs_sub_abs_le_abs_sub dl (lq - lp)
    norm_num; linarith
  obtain ⟨cl, e2, f2⟩ := Fl.cos_ok ht d5 d4
  have f2' : |cl - cos (lq - lp)| ≤ 53 * u := f2.trans (by linarith)
  obtain ⟨m1, e3, f3⟩ := Fl.prod_fin_ok (A := A) h hu hlo (by linarith) (m := 6) (n := 6) (by norm_num) (by norm_num)
    (by norm_num) (by norm_num) (abs_sin_le_one q) (abs_sin_le_one p) hsq hsp
  obtain ⟨m2, e4, f4⟩ := Fl.prod_fin_ok (A := A) h hu hlo (by linarith) (m := 6) (n := 6) (by norm_num) (by norm_num)
    (by norm_num) (by norm_num) (abs_cos_le_one q) (abs_cos_le_one p) hcq hcp
  have hcc : |cos q * cos p| ≤ 1 := by
    rw [abs_mul]; exact mul_le_one₀ (abs_cos_le_one q) (abs_nonneg _) (abs_cos_le_one p)
  obtain ⟨m3, e5, f5⟩ := Fl.prod_fin_ok (A := A) h hu hlo (by linarith) (m := 6 + 6 + 1.1) (n := 53) (by norm_num)
    (by norm_num) (by norm_num) (by norm_num) hcc (abs_cos_le_one (lq - lp)) f4 f2'
  have hmem := cosAngle_mem lp p lq q
  have hK : |m1 + m3 - cosAngle lp p lq q| ≤ 80.4 * u := by
    rw [cosAngle_eq]
    rw [abs_le] at f3 f5 ⊢
    constructor <;> linarith [f3.1, f3.2, f5.1, f5.2]
  generalize cosAngle lp p lq q = K at *
  have hK1 : |K| ≤ 1 := abs_le.2 hmem
  have hm : |m1 + m3| ≤ 1.1 := by
    have := abs_sub_abs_le_abs_sub (m1 + m3) K
    linarith
  obtain ⟨cpsi, e6, f6⟩ := Fl.add_fin_ok (A := A) h (a := m1) (b := m3) (by linarith)
  have f6' : |cpsi - K| ≤ 82 * u := by
    calc |cpsi - K| = |(cpsi - (m1 + m3)) + (m1 + m3 - K)| := by ring_nf
      _ ≤ _ := abs_add_le _ _
      _ ≤ u * (1.1 + 0.1) + 80.4 * u := by
          refine add_le_add (f6.trans ?_) hK
          gcongr; linarith
      _ ≤ 82 * u := by nlinarith
  have hk : |1 - cpsi| ≤ 2.1 := by
    rw [abs_le] at f6' ⊢
    constructor <;> linarith [f6'.1, f6'.2, hmem.1, hmem.2]
  obtain ⟨w, e7, f7⟩ := Fl.sub_fin_ok (A := A) h (a := 1) (b := cpsi) (by linarith)
  refine ⟨cl, m1, m2, m3, cpsi, w, ?_, f2', e3, e4, e5, e6, f6', ?_, ?_⟩
  · show Fl.cos (Fl.fin lq' - Fl.fin lp' : Fl A) = _
    rw [e1]; exact e2
  · have : (1 : Fl A) = Fl.fin 1 := by
      show Fl.fin (((1 : ℕ) : ℝ)) = _
      rw [Nat.cast_one]
    rw [this]; exact e7
  · calc |w - (1 - K)| = |(w - (1 - cpsi)) + (K - cpsi)| := by ring_nf
      _ ≤ _ := abs_add_le _ _
      _ ≤ u * (2.1 + 0.1) + 82 * u := by
          refine add_le_add (f7.trans ?_) (by rwa [abs_sub_comm])
          gcongr; linarith
      _ ≤ 85 * u := by nlinarith

/-- The radicand of `distance_spherical_core`. -/
theorem sph_radicand_err (h : A.Accurate u (2 ^ (-1022 : ℤ)) (2 ^ (1023 : ℤ)))
    (hu : u ≤ 2 ^ (-20 : ℤ)) {rp rq w W : ℝ} (hp : ModerateRadius rp) (hq : ModerateRadius rq)
    (hpq : ModerateSize (rp - rq)) (hW : 0 ≤ W ∧ W ≤ 2) (hw : |w - W| ≤ 85 * u) :
    ∃ R : ℝ, (((rp : Fl A) - (rq : Fl A)) ^ 2 + 2 * (rp : Fl A) * (rq : Fl A) * (Fl.fin w : Fl A)) = Fl.fin R ∧
      |R - ((rp - rq) ^ 2 + 2 * rp * rq * W)| ≤
        5 * u * ((rp - rq) ^ 2 + 2 * rp * rq * W) + 190 * u * (rp * rq) := by
  have hu0 := h.u_nonneg
  have hu' : u ≤ 1 / 1048576 := by norm_num at hu; exact hu
  have hp0 : 0 < rp := lt_of_lt_of_le (Mag.zp _) hp.1
  have hq0 : 0 < rq := lt_of_lt_of_le (Mag.zp _) hq.1
  have hrr : 0 < rp * rq := mul_pos hp0 hq0
  have mp : Mag (-80) 80 rp := .inr (by rw [abs_of_pos hp0]; exact hp)
  have mq : Mag (-80) 80 rq := .inr (by rw [abs_of_pos hq0]; exact hq)
  have md : Mag (-80) 80 (rp - rq) := hpq
  -- squared difference
  obtain ⟨θ, hθ, eA⟩ := h.pow (n := 2) (h.sub_exact (md.safe (by norm_num) (by norm_num))) (by norm_num)
    ((md.pow (n := 2) (by norm_num)).safe (by norm_num) (by norm_num)) (by norm_num)
  -- twice the product of the radii
  obtain ⟨η, hη, eB⟩ := h.mul (h.mul (h.exact 2) (h.exact rp)
      ((Mag.two.mul mp).safe (by norm_num) (by norm_num)) (by norm_num)) (h.exact rq)
      (((Mag.two.mul mp).mul mq).safe (by norm_num) (by norm_num)) (by norm_num)
  have g3 : gammaErr u 3 ≤ 3.1 * u := by
    unfold gammaErr
    rw [div_le_iff₀ (by push_cast; linarith)]
    push_cast; nlinarith
  have hθ' : |θ - 1| ≤ 3.1 * u :=
    (h.abs_theta hθ).trans ((h.gamma_bound (k := 3) (by push_cast; linarith)).trans g3)
  have hη' : |η - 1| ≤ 3.1 * u :=
    (h.abs_theta (h.theta_mono (by norm_num : _ ≤ 3) hη)).trans
      ((h.gamma_bound (k := 3) (by push_cast; linarith)).trans g3)
  -- abbreviations
  have hrr1 : (2 : ℝ) ^ (-160 : ℤ) ≤ rp * rq := by
    rw [show (-160 : ℤ) = -80 + -80 by norm_num, zpow_add₀ (by norm_num)]
    exact mul_le_mul hp.1 hq.1 (Mag.zp _).le hp0.le
  have hrr2 : rp * rq ≤ 2 ^ (160 : ℤ) := by
    rw [show (160 : ℤ) = 80 + 80 by norm_num, zpow_add₀ (by norm_num)]
    exact mul_le_mul hp.2 hq.2 hq0.le (Mag.zp _).le
  have hdd : (rp - rq) ^ 2 ≤ 2 ^ (160 : ℤ) := by
    rcases md.pow (n := 2) (by norm_num) with h0 | ⟨-, h0⟩
    · rw [h0]; exact (Mag.zp _).le
    · rw [abs_of_nonneg (sq_nonneg _)] at h0
      exact h0.trans (Mag.zle (by norm_num))
  have hlo : (2 : ℝ) ^ (-1022 : ℤ) ≤ 0.01 * (rp * rq) := by
    calc (2 : ℝ) ^ (-1022 : ℤ) ≤ 2 ^ (-7 + -160 : ℤ) := Mag.zle (by norm_num)
      _ = 2 ^ (-7 : ℤ) * 2 ^ (-160 : ℤ) := zpow_add₀ (by norm_num) _ _
      _ ≤ 0.01 * (rp * rq) := by
          apply mul_le_mul (by norm_num) hrr1 (Mag.zp _).le (by norm_num)
  have hhi : 100 * ((2 : ℝ) ^ (160 : ℤ)) ≤ 2 ^ (1023 : ℤ) := by
    calc 100 * ((2 : ℝ) ^ (160 : ℤ)) ≤ 2 ^ (7 : ℤ) * 2 ^ (160 : ℤ) :=
          mul_le_mul_of_nonneg_right (by norm_num) (Mag.zp _).le
      _ = 2 ^ (167 : ℤ) := by rw [← zpow_add₀ (by norm_num)]; norm_num
      _ ≤ _ := Mag.zle (by norm_num)
  have hD0 : 0 ≤ (rp - rq) ^ 2 := sq_nonneg _
  have eA' : ((rp : Fl A) - (rq : Fl A)) ^ 2 = Fl.fin ((rp - rq) ^ 2 * θ) := eA
  have eB' : (2 * (rp : Fl A) * (rq : Fl A)) = Fl.fin (2 * rp * rq * η) := eB
  rw [eA', eB']
  rw [show 2 * rp * rq * η = 2 * (rp * rq) * η by ring, show 2 * rp * rq * W = 2 * (rp * rq) * W by ring]
  generalize (rp - rq) ^ 2 = D at *
  generalize rp * rq = Q at *
  generalize (2 : ℝ) ^ (-1022 : ℤ) = lo at *
  generalize (2 : ℝ) ^ (1023 : ℤ) = hi at *
  generalize (2 : ℝ) ^ (160 : ℤ) = M at *
  -- the third product
  have hw' : |η * w - W| ≤ 92 * u := by
    have hηw : |(η - 1) * w| ≤ 3.1 * u * 2.1 := by
      rw [abs_mul]
      apply mul_le_mul hη' _ (abs_nonneg _) (by positivity)
      rw [abs_le] at hw ⊢
      constructor <;> linarith [hw.1, hw.2]
    calc |η * w - W| = |(η - 1) * w + (w - W)| := by ring_nf
      _ ≤ _ := abs_add_le _ _
      _ ≤ 3.1 * u * 2.1 + 85 * u := add_le_add hηw hw
      _ ≤ 92 * u := by nlinarith
  have hηw2 : |η * w| ≤ 2.1 := by
    rw [abs_le] at hw' ⊢
    constructor <;> linarith [hw'.1, hw'.2, hW.1, hW.2]
  have hB0 : |2 * Q * η * w| ≤ 4.2 * Q := by
    rw [show 2 * Q * η * w = (2 * Q) * (η * w) by ring, abs_mul, abs_of_pos (by linarith : 0 < 2 * Q)]
    nlinarith
  have hB1 : |2 * Q * η * w - 2 * Q * W| ≤ 184 * u * Q := by
    rw [show 2 * Q * η * w - 2 * Q * W = (2 * Q) * (η * w - W) by ring, abs_mul,
      abs_of_pos (by linarith : 0 < 2 * Q)]
    nlinarith
  obtain ⟨B, e1, f1⟩ := Fl.mul_fin_ok (A := A) h (a := 2 * Q * η) (b := w) (by linarith)
  have hB2 : |B - 2 * Q * W| ≤ 189 * u * Q := by
    calc |B - 2 * Q * W| = |(B - 2 * Q * η * w) + (2 * Q * η * w - 2 * Q * W)| := by ring_nf
      _ ≤ _ := abs_add_le _ _
      _ ≤ u * (4.2 * Q + 0.01 * Q) + 184 * u * Q := by
          refine add_le_add (f1.trans ?_) hB1
          gcongr
      _ ≤ 189 * u * Q := by nlinarith [mul_nonneg hu0 hrr.le]
  have hA1 : |D * θ - D| ≤ 3.1 * u * D := by
    rw [show D * θ - D = D * (θ - 1) by ring, abs_mul, abs_of_nonneg hD0]
    nlinarith
  have hS : |D * θ + B - (D + 2 * Q * W)| ≤ 3.1 * u * D + 189 * u * Q := by
    calc _ = |(D * θ - D) + (B - 2 * Q * W)| := by ring_nf
      _ ≤ _ := abs_add_le _ _
      _ ≤ _ := add_le_add hA1 hB2
  have huD : u * D ≤ 1 / 1048576 * D := mul_le_mul_of_nonneg_right hu' hD0
  have huQ : u * Q ≤ 1 / 1048576 * Q := mul_le_mul_of_nonneg_right hu' hrr.le
  have hQW : 0 ≤ Q * W := mul_nonneg hrr.le hW.1
  have hQW2 : Q * W ≤ Q * 2 := mul_le_mul_of_nonneg_left hW.2 hrr.le
  have hS2 : |D * θ + B| ≤ 1.001 * D + 2 * Q * W + 0.01 * Q := by
    have h1 := abs_sub_abs_le_abs_sub (D * θ + B) (D + 2 * Q * W)
    rw [abs_of_nonneg (by nlinarith : 0 ≤ D + 2 * Q * W)] at h1
    nlinarith
  obtain ⟨R, e2, f2⟩ := Fl.add_fin_ok (A := A) h (a := D * θ) (b := B) (by nlinarith)
  refine ⟨R, by rw [e1, e2], ?_⟩
  calc |R - (D + 2 * Q * W)| = |(R - (D * θ + B)) + (D * θ + B - (D + 2 * Q * W))| := by ring_nf
    _ ≤ _ := abs_add_le _ _
    _ ≤ u * (1.001 * D + 2 * Q * W + 0.01 * Q + 0.01 * Q) + (3.1 * u * D + 189 * u * Q) := by
        refine add_le_add (f2.trans ?_) hS
        gcongr
    _ ≤ _ := by nlinarith [mul_nonneg hu0 hrr.le, mul_nonneg hu0 hQW, mul_nonneg hu0 hD0]

/-- `distance_spherical_core` from approximate sines, cosines and longitudes. -/
theorem sph_core_err (h : A.Accurate u (2 ^ (-1022 : ℤ)) (2 ^ (1023 : ℤ))) (ht : A.TrigAccurate u (2 ^ (-1022 : ℤ)))
    (hu : u ≤ 2 ^ (-20 : ℤ)) {lp lq p q lp' lq' cp sp cq sq rp rq : ℝ}
    (hlp : |lp| ≤ 2 * π) (hlq : |lq| ≤ 2 * π) (hlp' : |lp' - lp| ≤ 19 * u) (hlq' : |lq' - lq| ≤ 19 * u)
    (hcp : |cp - cos p| ≤ 6 * u) (hsp : |sp - sin p| ≤ 6 * u) (hcq : |cq - cos q| ≤ 6 * u)
    (hsq : |sq - sin q| ≤ 6 * u) (hp : ModerateRadius rp) (hq : ModerateRadius rq)
    (hpq : ModerateSize (rp - rq)) :
    ∃ (d : Fl A) (cpsi cl : ℝ),
      utils.distance_spherical_core (A := A) lp' cp sp rp lq' cq sq rq = .ok (d, Fl.fin cpsi, Fl.fin cl) ∧
      |cpsi - cosAngle lp p lq q| ≤ 82 * u ∧ |cl - cos (lq - lp)| ≤ 53 * u ∧
      (0 < dist3 (sph lp p rp) (sph lq q rq) →
        400 * u * (rp * rq) ≤ dist3 (sph lp p rp) (sph lq q rq) ^ 2 →
        ∃ y : ℝ, d = Fl.fin y ∧ |y - dist3 (sph lp p rp) (sph lq q rq)| ≤
          7 * u * dist3 (sph lp p rp) (sph lq q rq) + 192 * u * (rp * rq / dist3 (sph lp p rp) (sph lq q rq))) := by
  obtain ⟨cl, m1, m2, m3, cpsi, w, e1, f1, e2, e3, e4, e5, f5, e6, f6⟩ :=
    sph_angle_err h ht hu hlp hlq hlp' hlq' hcp hsp hcq hsq
  have hmem := cosAngle_mem lp p lq q
  obtain ⟨R, e7, f7⟩ := sph_radicand_err h hu hp hq hpq (W := 1 - cosAngle lp p lq q)
    ⟨by linarith [hmem.2], by linarith [hmem.1]⟩ f6
  refine ⟨Fl.sqrt (Fl.fin R), cpsi, cl, ?_, f5, f1, ?_⟩
  · unfold utils.distance_spherical_core
    simp only [e1, e2, e3, e4, e5, e6, e7]
    rfl
  have hsq := dist3_sph lp p rp lq q rq
  rw [← cosAngle_eq] at hsq
  rw [← hsq] at f7
  have hp0 : 0 < rp := lt_of_lt_of_le (Mag.zp _) hp.1
  have hq0 : 0 < rq := lt_of_lt_of_le (Mag.zp _) hq.1
  have hd81 : dist3 (sph lp p rp) (sph lq q rq) ^ 2 ≤ 2 ^ (162 : ℤ) := by
    have h1 : 2 * rp * rq * (1 - cosAngle lp p lq q) ≤ 4 * (rp * rq) := by
      nlinarith [mul_pos hp0 hq0, hmem.1]
    have h2 : (rp + rq) ^ 2 ≤ (2 ^ (81 : ℤ)) ^ 2 := by
      apply pow_le_pow_left₀ (by positivity)
      rw [show (81 : ℤ) = 80 + 1 by norm_num, zpow_add_one₀ (by norm_num)]
      linarith [hp.2, hq.2]
    rw [show ((2 : ℝ) ^ (81 : ℤ)) ^ 2 = 2 ^ (162 : ℤ) by rw [pow_two, ← zpow_add₀ (by norm_num)]; norm_num] at h2
    rw [hsq]
    nlinarith
  have hQ : (2 : ℝ) ^ (-160 : ℤ) ≤ rp * rq := by
    rw [show (-160 : ℤ) = -80 + -80 by norm_num, zpow_add₀ (by norm_num)]
    exact mul_le_mul hp.1 hq.1 (Mag.zp _).le hp0.le
  have hQ0 : 0 < rp * rq := mul_pos hp0 hq0
  generalize dist3 (sph lp p rp) (sph lq q rq) = d at *
  generalize rp * rq = Q at *
  intro hd0 hd
  have hu0 := h.u_nonneg
  have hu' : u ≤ 1 / 1048576 := by norm_num at hu; exact hu
  have hd2 : 0 < d ^ 2 := by positivity
  have hud : u * d ^ 2 ≤ 1 / 1048576 * d ^ 2 := mul_le_mul_of_nonneg_right hu' hd2.le
  have hRl : 0.5 * d ^ 2 ≤ R := by rw [abs_le] at f7; linarith [f7.1]
  have hRu : R ≤ 1.5 * d ^ 2 := by rw [abs_le] at f7; linarith [f7.2]
  have hR0 : 0 < R := by nlinarith
  have hs0 := Real.sqrt_nonneg R
  have hsR := Real.sq_sqrt hR0.le
  have hs1 : √R ≤ 1.3 * d := by
    apply Real.sqrt_le_iff.2 ⟨by positivity, by nlinarith⟩
  have key : |√R - d| ≤ 5 * u * d + 190 * u * (Q / d) := by
    have e : (√R - d) * (√R + d) = R - d ^ 2 := by nlinarith
    have h1 : |√R - d| * (√R + d) = |R - d ^ 2| := by
      rw [← e, abs_mul, abs_of_nonneg (by positivity : 0 ≤ √R + d)]
    have h2 : |√R - d| * d ≤ 5 * u * d ^ 2 + 190 * u * Q := by
      have : |√R - d| * d ≤ |√R - d| * (√R + d) :=
        mul_le_mul_of_nonneg_left (by linarith) (abs_nonneg _)
      linarith
    have h3 : (5 * u * d + 190 * u * (Q / d)) * d = 5 * u * d ^ 2 + 190 * u * Q := by
      field_simp
    nlinarith
  have hd1 : d ≤ 2 ^ (81 : ℤ) := by
    apply abs_le_of_sq_le_sq' _ (Mag.zp _).le |>.2
    rw [show ((2 : ℝ) ^ (81 : ℤ)) ^ 2 = 2 ^ (162 : ℤ) by rw [pow_two, ← zpow_add₀ (by norm_num)]; norm_num]
    exact hd81
  have hlo : (2 : ℝ) ^ (-1022 : ℤ) ≤ Q / d := by
    rw [le_div_iff₀ hd0]
    calc (2 : ℝ) ^ (-1022 : ℤ) * d ≤ 2 ^ (-1022 : ℤ) * 2 ^ (81 : ℤ) :=
          mul_le_mul_of_nonneg_left hd1 (Mag.zp _).le
      _ = 2 ^ (-941 : ℤ) := by rw [← zpow_add₀ (by norm_num)]; norm_num
      _ ≤ 2 ^ (-160 : ℤ) := Mag.zle (by norm_num)
      _ ≤ Q := hQ
  have hhi : √R ≤ 2 ^ (1023 : ℤ) := by
    calc √R ≤ 1.3 * d := hs1
      _ ≤ 2 * 2 ^ (81 : ℤ) := mul_le_mul (by norm_num) hd1 hd0.le (by norm_num)
      _ = 2 ^ (82 : ℤ) := by rw [show (82 : ℤ) = 81 + 1 by norm_num, zpow_add_one₀ (by norm_num)]; ring
      _ ≤ _ := Mag.zle (by norm_num)
  obtain ⟨y, ey, fy⟩ := h.rnd_abs √R (by rwa [abs_of_nonneg hs0])
  refine ⟨y, ?_, ?_⟩
  · show (if R < 0 then _ else _) = _
    rw [if_neg (by linarith), ey]; rfl
  · rw [abs_of_nonneg hs0] at fy
    have h4 : max √R (2 ^ (-1022 : ℤ)) ≤ 1.3 * d + Q / d := by
      have : 0 ≤ Q / d := by positivity
      exact max_le (by linarith) (by linarith)
    calc |y - d| = |(y - √R) + (√R - d)| := by ring_nf
      _ ≤ _ := abs_add_le _ _
      _ ≤ u * (1.3 * d + Q / d) + (5 * u * d + 190 * u * (Q / d)) :=
          add_le_add (fy.trans (mul_le_mul_of_nonneg_left h4 hu0)) key
      _ ≤ 7 * u * d + 192 * u * (Q / d) := by
          have h5 : 0 ≤ u * (Q / d) := by positivity
          have h6 : 0 ≤ u * d := by positivity
          clear * - h5 h6
          generalize Q / d = t at *
          nlinarith

end Choclo
