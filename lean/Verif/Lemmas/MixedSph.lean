import Verif.Lemmas.MixedError
import Verif.Lemmas.ErrorSph
import Verif.Props.SinglePrecision

/-! # Rounding errors of the spherical distance, for float32 and float64 arguments -/

namespace Choclo

open Real

variable {S D : Arith} {u lo hi lo' hi' : ℝ}

namespace BothAccurate
variable (h : BothAccurate S D u lo hi lo' hi')
include h

theorem add_ok {v w : MFl S D} {a b : ℝ} (hv : v.IsReal a) (hw : w.IsReal b) (hab : |a + b| ≤ hi) :
    ∃ y : ℝ, (v + w).IsReal y ∧ |y - (a + b)| ≤ u * (|a + b| + lo) := by
  have hu := h.double.u_nonneg
  have dbl : ∃ y : ℝ, (v.toD + w.toD : Fl D) = Fl.fin y ∧ |y - (a + b)| ≤ u * (|a + b| + lo) := by
    rw [hv, hw]
    obtain ⟨y, e, f⟩ := Fl.add_fin_ok (A := D) h.double (hab.trans h.hi_le)
    exact ⟨y, e, f.trans (mul_le_mul_of_nonneg_left (add_le_add le_rfl h.lo_le) hu)⟩
  cases v with
  | f64 x => simpa [MFl.IsReal] using dbl
  | f32 x =>
    cases w with
    | f64 z => simpa [MFl.IsReal] using dbl
    | f32 z =>
      change x = Fl.fin a at hv
      change z = Fl.fin b at hw
      subst hv hw
      exact Fl.add_fin_ok (A := S) h.single hab

theorem sub_ok {v w : MFl S D} {a b : ℝ} (hv : v.IsReal a) (hw : w.IsReal b) (hab : |a - b| ≤ hi) :
    ∃ y : ℝ, (v - w).IsReal y ∧ |y - (a - b)| ≤ u * (|a - b| + lo) := by
  have hu := h.double.u_nonneg
  have dbl : ∃ y : ℝ, (v.toD - w.toD : Fl D) = Fl.fin y ∧ |y - (a - b)| ≤ u * (|a - b| + lo) := by
    rw [hv, hw]
    obtain ⟨y, e, f⟩ := Fl.sub_fin_ok (A := D) h.double (hab.trans h.hi_le)
    exact ⟨y, e, f.trans (mul_le_mul_of_nonneg_left (add_le_add le_rfl h.lo_le) hu)⟩
  cases v with
  | f64 x => simpa [MFl.IsReal] using dbl
  | f32 x =>
    cases w with
    | f64 z => simpa [MFl.IsReal] using dbl
    | f32 z =>
      change x = Fl.fin a at hv
      change z = Fl.fin b at hw
      subst hv hw
      exact Fl.sub_fin_ok (A := S) h.single hab

theorem mul_ok {v w : MFl S D} {a b : ℝ} (hv : v.IsReal a) (hw : w.IsReal b) (hab : |a * b| ≤ hi) :
    ∃ y : ℝ, (v * w).IsReal y ∧ |y - a * b| ≤ u * (|a * b| + lo) := by
  have hu := h.double.u_nonneg
  have dbl : ∃ y : ℝ, (v.toD * w.toD : Fl D) = Fl.fin y ∧ |y - a * b| ≤ u * (|a * b| + lo) := by
    rw [hv, hw]
    obtain ⟨y, e, f⟩ := Fl.mul_fin_ok (A := D) h.double (hab.trans h.hi_le)
    exact ⟨y, e, f.trans (mul_le_mul_of_nonneg_left (add_le_add le_rfl h.lo_le) hu)⟩
  cases v with
  | f64 x => simpa [MFl.IsReal] using dbl
  | f32 x =>
    cases w with
    | f64 z => simpa [MFl.IsReal] using dbl
    | f32 z =>
      change x = Fl.fin a at hv
      change z = Fl.fin b at hw
      subst hv hw
      exact Fl.mul_fin_ok (A := S) h.single hab

theorem prod_ok (hu : u ≤ 2 ^ (-20 : ℤ)) (hlo : lo ≤ 2 ^ (-20 : ℤ)) (hhi : 4 ≤ hi) {v w : MFl S D} {a b x y : ℝ} {m n : ℝ}
    (hv : v.IsReal a) (hw : w.IsReal b) (hm : m ≤ 100) (hn : n ≤ 100) (hm0 : 0 ≤ m) (hn0 : 0 ≤ n)
    (hx : |x| ≤ 1) (hy : |y| ≤ 1) (ha : |a - x| ≤ m * u) (hb : |b - y| ≤ n * u) :
    ∃ c : ℝ, (v * w).IsReal c ∧ |c - x * y| ≤ (m + n + 1.1) * u := by
  have dbl : ∃ c : ℝ, (v.toD * w.toD : Fl D) = Fl.fin c ∧ |c - x * y| ≤ (m + n + 1.1) * u := by
    rw [hv, hw]
    exact Fl.prod_fin_ok (A := D) h.double hu (h.lo_le.trans hlo) (hhi.trans h.hi_le) hm hn hm0 hn0 hx hy ha hb
  cases v with
  | f64 x => simpa [MFl.IsReal] using dbl
  | f32 x =>
    cases w with
    | f64 z => simpa [MFl.IsReal] using dbl
    | f32 z =>
      change x = Fl.fin a at hv
      change z = Fl.fin b at hw
      subst hv hw
      exact Fl.prod_fin_ok (A := S) h.single hu hlo hhi hm hn hm0 hn0 hx hy ha hb

theorem sqrt_ok {v : MFl S D} {x : ℝ} (hv : v.IsReal x) (hx : 0 ≤ x) (hs : √x ≤ hi) :
    ∃ y : ℝ, (MFl.sqrt v).IsReal y ∧ |y - √x| ≤ u * max |√x| lo := by
  have hs' : |√x| ≤ hi := by rwa [abs_of_nonneg (Real.sqrt_nonneg x)]
  cases v with
  | f32 a =>
    change a = Fl.fin x at hv; subst hv
    obtain ⟨y, e, f⟩ := h.single.rnd_abs √x hs'
    refine ⟨y, ?_, f⟩
    have : (Fl.sqrt (Fl.fin x) : Fl S) = Fl.fin y := by
      show (if x < 0 then _ else _) = _
      rw [if_neg (by linarith), e]; rfl
    exact this
  | f64 a =>
    change a = Fl.fin x at hv; subst hv
    obtain ⟨y, e, f⟩ := h.double.rnd_abs √x (hs'.trans h.hi_le)
    refine ⟨y, ?_, f.trans (mul_le_mul_of_nonneg_left (max_le_max le_rfl h.lo_le) h.double.u_nonneg)⟩
    show (if x < 0 then _ else _) = _
    rw [if_neg (by linarith), e]; rfl

end BothAccurate

/-- Both arithmetics have accurate trigonometric functions. -/
structure BothTrig (S D : Arith) (u lo lo' : ℝ) : Prop where
  single : S.TrigAccurate u lo
  double : D.TrigAccurate u lo'

namespace BothTrig
variable (ht : BothTrig S D u lo lo')
include ht

theorem sin_ok {v : MFl S D} {x y e : ℝ} (hv : v.IsReal x) (hx : |x| ≤ 2 ^ 20) (hxy : |x - y| ≤ e * u) :
    ∃ s : ℝ, (MFl.sin v).IsReal s ∧ |s - Real.sin y| ≤ (e + 1) * u := by
  cases v with
  | f32 a => change a = Fl.fin x at hv; subst hv; exact Fl.sin_ok ht.single hx hxy
  | f64 a => change a = Fl.fin x at hv; subst hv; exact Fl.sin_ok ht.double hx hxy

theorem cos_ok {v : MFl S D} {x y e : ℝ} (hv : v.IsReal x) (hx : |x| ≤ 2 ^ 20) (hxy : |x - y| ≤ e * u) :
    ∃ s : ℝ, (MFl.cos v).IsReal s ∧ |s - Real.cos y| ≤ (e + 1) * u := by
  cases v with
  | f32 a => change a = Fl.fin x at hv; subst hv; exact Fl.cos_ok ht.single hx hxy
  | f64 a => change a = Fl.fin x at hv; subst hv; exact Fl.cos_ok ht.double hx hxy

end BothTrig

/-- The scalar part of `distance_spherical_core` from approximate sines, cosines and longitudes. -/
theorem sph_angle_err32 (h : BothAccurate S D u (2 ^ (-126 : ℤ)) (2 ^ (127 : ℤ)) lo' hi') (ht : BothTrig S D u (2 ^ (-126 : ℤ)) lo')
    (hu : u ≤ 2 ^ (-20 : ℤ)) {lp lq p q lp' lq' cp sp cq sq : ℝ} {vlp vlq vcp vsp vcq vsq : MFl S D}
    (rlp : vlp.IsReal lp') (rlq : vlq.IsReal lq') (rcp : vcp.IsReal cp) (rsp : vsp.IsReal sp) (rcq : vcq.IsReal cq)
    (rsq : vsq.IsReal sq)
    (hlp : |lp| ≤ 2 * π) (hlq : |lq| ≤ 2 * π) (hlp' : |lp' - lp| ≤ 19 * u) (hlq' : |lq' - lq| ≤ 19 * u)
    (hcp : |cp - cos p| ≤ 6 * u) (hsp : |sp - sin p| ≤ 6 * u) (hcq : |cq - cos q| ≤ 6 * u)
    (hsq : |sq - sin q| ≤ 6 * u) :
    ∃ cl cpsi w : ℝ,
      (MFl.cos (vlq - vlp)).IsReal cl ∧ |cl - cos (lq - lp)| ≤ 53 * u ∧
      (vsq * vsp + vcq * vcp * MFl.cos (vlq - vlp)).IsReal cpsi ∧ |cpsi - cosAngle lp p lq q| ≤ 82 * u ∧
      ((1 : MFl S D) - (vsq * vsp + vcq * vcp * MFl.cos (vlq - vlp))).IsReal w ∧
      |w - (1 - cosAngle lp p lq q)| ≤ 85 * u := by
  have hu0 := h.double.u_nonneg
  have hu' : u ≤ 1 / 1048576 := by norm_num at hu; exact hu
  have hlo : (2 : ℝ) ^ (-126 : ℤ) ≤ 2 ^ (-20 : ℤ) := Mag.zle (by norm_num)
  have hlo' : (2 : ℝ) ^ (-126 : ℤ) ≤ 1 / 1048576 := by
    refine hlo.trans ?_; norm_num
  have hlo0 : (0 : ℝ) < 2 ^ (-126 : ℤ) := Mag.zp _
  have hhi : (16 : ℝ) ≤ 2 ^ (127 : ℤ) := by
    calc (16 : ℝ) = 2 ^ (4 : ℤ) := by norm_num
      _ ≤ _ := Mag.zle (by norm_num)
  have hpi := Real.pi_lt_d2
  generalize (2 : ℝ) ^ (-126 : ℤ) = lo at *
  generalize (2 : ℝ) ^ (127 : ℤ) = hi at *
  -- longitude difference
  have d1 : |lq' - lp' - (lq - lp)| ≤ 38 * u := by
    rw [abs_le] at hlp' hlq' ⊢; constructor <;> linarith [hlp'.1, hlp'.2, hlq'.1, hlq'.2]
  have d2 : |lq - lp| ≤ 12.6 := by
    rw [abs_le] at hlp hlq ⊢; constructor <;> linarith [hlp.1, hlp.2, hlq.1, hlq.2]
  have d3 : |lq' - lp'| ≤ 12.7 := by
    have := abs_sub_abs_le_abs_sub (lq' - lp') (lq - lp)
    linarith
  obtain ⟨dl, e1, f1⟩ := h.sub_ok rlq rlp (by linarith)
  have d4 : |dl - (lq - lp)| ≤ 52 * u := by
    calc |dl - (lq - lp)| = |(dl - (lq' - lp')) + (lq' - lp' - (lq - lp))| := by ring_nf
      _ ≤ _ := abs_add_le _ _
      _ ≤ u * (12.7 + 0.1) + 38 * u := by
          refine add_le_add (f1.trans ?_) d1
          gcongr; linarith
      _ ≤ 52 * u := by nlinarith
  have d5 : |dl| ≤ 2 ^ 20 := by
    have := abs_sub_abs_le_abs_sub dl (lq - lp)
    norm_num; linarith
  obtain ⟨cl, e2, f2⟩ := ht.cos_ok e1 d5 d4
  have f2' : |cl - cos (lq - lp)| ≤ 53 * u := f2.trans (by linarith)
  obtain ⟨m1, e3, f3⟩ := h.prod_ok hu hlo (by linarith) rsq rsp (m := 6) (n := 6) (by norm_num) (by norm_num)
    (by norm_num) (by norm_num) (abs_sin_le_one q) (abs_sin_le_one p) hsq hsp
  obtain ⟨m2, e4, f4⟩ := h.prod_ok hu hlo (by linarith) rcq rcp (m := 6) (n := 6) (by norm_num) (by norm_num)
    (by norm_num) (by norm_num) (abs_cos_le_one q) (abs_cos_le_one p) hcq hcp
  have hcc : |cos q * cos p| ≤ 1 := by
    rw [abs_mul]; exact mul_le_one₀ (abs_cos_le_one q) (abs_nonneg _) (abs_cos_le_one p)
  obtain ⟨m3, e5, f5⟩ := h.prod_ok hu hlo (by linarith) e4 e2 (m := 6 + 6 + 1.1) (n := 53) (by norm_num)
    (by norm_num) (by norm_num) (by norm_num) hcc (abs_cos_le_one (lq - lp)) f4 f2'
  have hmem := cosAngle_mem lp p lq q
  have hK : |m1 + m3 - cosAngle lp p lq q| ≤ 80.4 * u := by
    rw [cosAngle_eq]
    rw [abs_le] at f3 f5 ⊢
    constructor <;> linarith [f3.1, f3.2, f5.1, f5.2]
  generalize cosAngle lp p lq q = K at *
  have hK1 : |K| ≤ 1 := abs_le.2 hmem
  have hm : |m1 + m3| ≤ 1.1 := by
    have := abs_sub_abs_le_abs_sub (m1 + m3) K
    linarith
  obtain ⟨cpsi, e6, f6⟩ := h.add_ok e3 e5 (by linarith)
  have f6' : |cpsi - K| ≤ 82 * u := by
    calc |cpsi - K| = |(cpsi - (m1 + m3)) + (m1 + m3 - K)| := by ring_nf
      _ ≤ _ := abs_add_le _ _
      _ ≤ u * (1.1 + 0.1) + 80.4 * u := by
          refine add_le_add (f6.trans ?_) hK
          gcongr; linarith
      _ ≤ 82 * u := by nlinarith
  have hk : |1 - cpsi| ≤ 2.1 := by
    rw [abs_le] at f6' ⊢
    constructor <;> linarith [f6'.1, f6'.2, hmem.1, hmem.2]
  have r1 : (1 : MFl S D).IsReal 1 := by
    show Fl.fin (((1 : ℕ) : ℝ)) = _
    rw [Nat.cast_one]
  obtain ⟨w, e7, f7⟩ := h.sub_ok r1 e6 (by linarith)
  refine ⟨cl, cpsi, w, e2, f2', e6, f6', e7, ?_⟩
  · calc |w - (1 - K)| = |(w - (1 - cpsi)) + (K - cpsi)| := by ring_nf
      _ ≤ _ := abs_add_le _ _
      _ ≤ u * (2.1 + 0.1) + 82 * u := by
          refine add_le_add (f7.trans ?_) (by rwa [abs_sub_comm])
          gcongr; linarith
      _ ≤ 85 * u := by nlinarith

/-- The radicand of `distance_spherical_core`. -/
theorem sph_radicand_err32 (h : BothAccurate S D u (2 ^ (-126 : ℤ)) (2 ^ (127 : ℤ)) lo' hi')
    (hu : u ≤ 2 ^ (-20 : ℤ)) {rp rq w W : ℝ} {vrp vrq vw : MFl S D} (rrp : vrp.IsReal rp) (rrq : vrq.IsReal rq)
    (rw' : vw.IsReal w) (hp : SinglePrecisionRadius rp) (hq : SinglePrecisionRadius rq)
    (hpq : LongLength (rp - rq)) (hW : 0 ≤ W ∧ W ≤ 2) (hw : |w - W| ≤ 85 * u) :
    ∃ R : ℝ, ((vrp - vrq) ^ 2 + 2 * vrp * vrq * vw).IsReal R ∧
      |R - ((rp - rq) ^ 2 + 2 * rp * rq * W)| ≤
        5 * u * ((rp - rq) ^ 2 + 2 * rp * rq * W) + 190 * u * (rp * rq) := by
  have hu0 := h.double.u_nonneg
  have hu' : u ≤ 1 / 1048576 := by norm_num at hu; exact hu
  have hp0 : 0 < rp := lt_of_lt_of_le (Mag.zp _) hp.1
  have hq0 : 0 < rq := lt_of_lt_of_le (Mag.zp _) hq.1
  have hrr : 0 < rp * rq := mul_pos hp0 hq0
  have mp : Mag (-20) 40 rp := .inr (by rw [abs_of_pos hp0]; exact hp)
  have mq : Mag (-20) 40 rq := .inr (by rw [abs_of_pos hq0]; exact hq)
  have md : Mag (-20) 40 (rp - rq) := hpq
  -- squared difference
  obtain ⟨θ, hθ, eA⟩ := h.pow (n := 2) (h.sub_exact rrp rrq (md.safe32 (by norm_num) (by norm_num))) (by norm_num)
    ((md.pow (n := 2) (by norm_num)).safe32 (by norm_num) (by norm_num)) (by norm_num)
  -- twice the product of the radii
  obtain ⟨η, hη, eB⟩ := h.mul (h.mul (h.nat 2) (h.exact rrp)
      (by push_cast; exact (Mag.two.mul mp).safe32 (by norm_num) (by norm_num)) (by norm_num)) (h.exact rrq)
      (by push_cast; exact ((Mag.two.mul mp).mul mq).safe32 (by norm_num) (by norm_num)) (by norm_num)
  have g3 : gammaErr u 3 ≤ 3.1 * u := by
    unfold gammaErr
    rw [div_le_iff₀ (by push_cast; linarith)]
    push_cast; nlinarith
  have hθ' : |θ - 1| ≤ 3.1 * u :=
    (h.double.abs_theta hθ).trans ((h.double.gamma_bound (k := 3) (by push_cast; linarith)).trans g3)
  have hη' : |η - 1| ≤ 3.1 * u :=
    (h.double.abs_theta (h.double.theta_mono (by norm_num : _ ≤ 3) hη)).trans
      ((h.double.gamma_bound (k := 3) (by push_cast; linarith)).trans g3)
  -- abbreviations
  have hrr1 : (2 : ℝ) ^ (-40 : ℤ) ≤ rp * rq := by
    rw [show (-40 : ℤ) = -20 + -20 by norm_num, zpow_add₀ (by norm_num)]
    exact mul_le_mul hp.1 hq.1 (Mag.zp _).le hp0.le
  have hrr2 : rp * rq ≤ 2 ^ (80 : ℤ) := by
    rw [show (80 : ℤ) = 40 + 40 by norm_num, zpow_add₀ (by norm_num)]
    exact mul_le_mul hp.2 hq.2 hq0.le (Mag.zp _).le
  have hdd : (rp - rq) ^ 2 ≤ 2 ^ (80 : ℤ) := by
    rcases md.pow (n := 2) (by norm_num) with h0 | ⟨-, h0⟩
    · rw [h0]; exact (Mag.zp _).le
    · rw [abs_of_nonneg (sq_nonneg _)] at h0
      exact h0.trans (Mag.zle (by norm_num))
  have hlo : (2 : ℝ) ^ (-126 : ℤ) ≤ 0.01 * (rp * rq) := by
    calc (2 : ℝ) ^ (-126 : ℤ) ≤ 2 ^ (-7 + -40 : ℤ) := Mag.zle (by norm_num)
      _ = 2 ^ (-7 : ℤ) * 2 ^ (-40 : ℤ) := zpow_add₀ (by norm_num) _ _
      _ ≤ 0.01 * (rp * rq) := by
          apply mul_le_mul (by norm_num) hrr1 (Mag.zp _).le (by norm_num)
  have hhi : 100 * ((2 : ℝ) ^ (80 : ℤ)) ≤ 2 ^ (127 : ℤ) := by
    calc 100 * ((2 : ℝ) ^ (80 : ℤ)) ≤ 2 ^ (7 : ℤ) * 2 ^ (80 : ℤ) :=
          mul_le_mul_of_nonneg_right (by norm_num) (Mag.zp _).le
      _ = 2 ^ (87 : ℤ) := by rw [← zpow_add₀ (by norm_num)]; norm_num
      _ ≤ _ := Mag.zle (by norm_num)
  have hD0 : 0 ≤ (rp - rq) ^ 2 := sq_nonneg _
  have eA' : ((vrp - vrq) ^ 2).IsReal ((rp - rq) ^ 2 * θ) := eA
  have eB' : (2 * vrp * vrq).IsReal (2 * rp * rq * η) := by
    have := eB; push_cast at this; exact this
  rw [show 2 * rp * rq * η = 2 * (rp * rq) * η by ring] at eB'
  rw [show 2 * rp * rq * W = 2 * (rp * rq) * W by ring]
  generalize (rp - rq) ^ 2 = E at *
  generalize rp * rq = Q at *
  generalize (2 : ℝ) ^ (-126 : ℤ) = lo at *
  generalize (2 : ℝ) ^ (127 : ℤ) = hi at *
  generalize (2 : ℝ) ^ (80 : ℤ) = M at *
  -- the third product
  have hw' : |η * w - W| ≤ 92 * u := by
    have hηw : |(η - 1) * w| ≤ 3.1 * u * 2.1 := by
      rw [abs_mul]
      apply mul_le_mul hη' _ (abs_nonneg _) (by positivity)
      rw [abs_le] at hw ⊢
      constructor <;> linarith [hw.1, hw.2]
    calc |η * w - W| = |(η - 1) * w + (w - W)| := by ring_nf
      _ ≤ _ := abs_add_le _ _
      _ ≤ 3.1 * u * 2.1 + 85 * u := add_le_add hηw hw
      _ ≤ 92 * u := by nlinarith
  have hηw2 : |η * w| ≤ 2.1 := by
    rw [abs_le] at hw' ⊢
    constructor <;> linarith [hw'.1, hw'.2, hW.1, hW.2]
  have hB0 : |2 * Q * η * w| ≤ 4.2 * Q := by
    rw [show 2 * Q * η * w = (2 * Q) * (η * w) by ring, abs_mul, abs_of_pos (by linarith : 0 < 2 * Q)]
    nlinarith
  have hB1 : |2 * Q * η * w - 2 * Q * W| ≤ 184 * u * Q := by
    rw [show 2 * Q * η * w - 2 * Q * W = (2 * Q) * (η * w - W) by ring, abs_mul,
      abs_of_pos (by linarith : 0 < 2 * Q)]
    nlinarith
  obtain ⟨B, e1, f1⟩ := h.mul_ok eB' rw' (by linarith)
  have hB2 : |B - 2 * Q * W| ≤ 189 * u * Q := by
    calc |B - 2 * Q * W| = |(B - 2 * Q * η * w) + (2 * Q * η * w - 2 * Q * W)| := by ring_nf
      _ ≤ _ := abs_add_le _ _
      _ ≤ u * (4.2 * Q + 0.01 * Q) + 184 * u * Q := by
          refine add_le_add (f1.trans ?_) hB1
          gcongr
      _ ≤ 189 * u * Q := by nlinarith [mul_nonneg hu0 hrr.le]
  have hA1 : |E * θ - E| ≤ 3.1 * u * E := by
    rw [show E * θ - E = E * (θ - 1) by ring, abs_mul, abs_of_nonneg hD0]
    nlinarith
  have hS : |E * θ + B - (E + 2 * Q * W)| ≤ 3.1 * u * E + 189 * u * Q := by
    calc _ = |(E * θ - E) + (B - 2 * Q * W)| := by ring_nf
      _ ≤ _ := abs_add_le _ _
      _ ≤ _ := add_le_add hA1 hB2
  have huD : u * E ≤ 1 / 1048576 * E := mul_le_mul_of_nonneg_right hu' hD0
  have huQ : u * Q ≤ 1 / 1048576 * Q := mul_le_mul_of_nonneg_right hu' hrr.le
  have hQW : 0 ≤ Q * W := mul_nonneg hrr.le hW.1
  have hQW2 : Q * W ≤ Q * 2 := mul_le_mul_of_nonneg_left hW.2 hrr.le
  have hS2 : |E * θ + B| ≤ 1.001 * E + 2 * Q * W + 0.01 * Q := by
    have h1 := abs_sub_abs_le_abs_sub (E * θ + B) (E + 2 * Q * W)
    rw [abs_of_nonneg (by nlinarith : 0 ≤ E + 2 * Q * W)] at h1
    nlinarith
  obtain ⟨R, e2, f2⟩ := h.add_ok eA' e1 (by nlinarith)
  refine ⟨R, e2, ?_⟩
  calc |R - (E + 2 * Q * W)| = |(R - (E * θ + B)) + (E * θ + B - (E + 2 * Q * W))| := by ring_nf
    _ ≤ _ := abs_add_le _ _
    _ ≤ u * (1.001 * E + 2 * Q * W + 0.01 * Q + 0.01 * Q) + (3.1 * u * E + 189 * u * Q) := by
        refine add_le_add (f2.trans ?_) hS
        gcongr
    _ ≤ _ := by nlinarith [mul_nonneg hu0 hrr.le, mul_nonneg hu0 hQW, mul_nonneg hu0 hD0]

/-- `distance_spherical_core` from approximate sines, cosines and longitudes. -/
theorem sph_core_err32 (h : BothAccurate S D u (2 ^ (-126 : ℤ)) (2 ^ (127 : ℤ)) lo' hi')
    (ht : BothTrig S D u (2 ^ (-126 : ℤ)) lo')
    (hu : u ≤ 2 ^ (-20 : ℤ)) {lp lq p q lp' lq' cp sp cq sq rp rq : ℝ} {vlp vlq vcp vsp vcq vsq vrp vrq : MFl S D}
    (rlp : vlp.IsReal lp') (rlq : vlq.IsReal lq') (rcp : vcp.IsReal cp) (rsp : vsp.IsReal sp) (rcq : vcq.IsReal cq)
    (rsq : vsq.IsReal sq) (rrp : vrp.IsReal rp) (rrq : vrq.IsReal rq)
    (hlp : |lp| ≤ 2 * π) (hlq : |lq| ≤ 2 * π) (hlp' : |lp' - lp| ≤ 19 * u) (hlq' : |lq' - lq| ≤ 19 * u)
    (hcp : |cp - cos p| ≤ 6 * u) (hsp : |sp - sin p| ≤ 6 * u) (hcq : |cq - cos q| ≤ 6 * u)
    (hsq : |sq - sin q| ≤ 6 * u) (hp : SinglePrecisionRadius rp) (hq : SinglePrecisionRadius rq)
    (hpq : LongLength (rp - rq)) :
    ∃ (d vcpsi vcl : MFl S D) (cpsi cl : ℝ),
      Mixed.utils.distance_spherical_core vlp vcp vsp vrp vlq vcq vsq vrq = .ok (d, vcpsi, vcl) ∧
      vcpsi.IsReal cpsi ∧ vcl.IsReal cl ∧
      |cpsi - cosAngle lp p lq q| ≤ 82 * u ∧ |cl - cos (lq - lp)| ≤ 53 * u ∧
      (0 < dist3 (sph lp p rp) (sph lq q rq) →
        400 * u * (rp * rq) ≤ dist3 (sph lp p rp) (sph lq q rq) ^ 2 →
        ∃ y : ℝ, d.IsReal y ∧ |y - dist3 (sph lp p rp) (sph lq q rq)| ≤
          7 * u * dist3 (sph lp p rp) (sph lq q rq) + 192 * u * (rp * rq / dist3 (sph lp p rp) (sph lq q rq))) := by
  obtain ⟨cl, cpsi, w, e1, f1, e5, f5, e6, f6⟩ :=
    sph_angle_err32 h ht hu rlp rlq rcp rsp rcq rsq hlp hlq hlp' hlq' hcp hsp hcq hsq
  have hmem := cosAngle_mem lp p lq q
  obtain ⟨R, e7, f7⟩ := sph_radicand_err32 h hu rrp rrq e6 hp hq hpq (W := 1 - cosAngle lp p lq q)
    ⟨by linarith [hmem.2], by linarith [hmem.1]⟩ f6
  refine ⟨_, _, _, cpsi, cl, rfl, e5, e1, f5, f1, ?_⟩
  have hsq := dist3_sph lp p rp lq q rq
  rw [← cosAngle_eq] at hsq
  rw [← hsq] at f7
  have hp0 : 0 < rp := lt_of_lt_of_le (Mag.zp _) hp.1
  have hq0 : 0 < rq := lt_of_lt_of_le (Mag.zp _) hq.1
  have hd81 : dist3 (sph lp p rp) (sph lq q rq) ^ 2 ≤ 2 ^ (82 : ℤ) := by
    have h1 : 2 * rp * rq * (1 - cosAngle lp p lq q) ≤ 4 * (rp * rq) := by
      nlinarith [mul_pos hp0 hq0, hmem.1]
    have h2 : (rp + rq) ^ 2 ≤ (2 ^ (41 : ℤ)) ^ 2 := by
      apply pow_le_pow_left₀ (by positivity)
      rw [show (41 : ℤ) = 40 + 1 by norm_num, zpow_add_one₀ (by norm_num)]
      linarith [hp.2, hq.2]
    rw [show ((2 : ℝ) ^ (41 : ℤ)) ^ 2 = 2 ^ (82 : ℤ) by rw [pow_two, ← zpow_add₀ (by norm_num)]; norm_num] at h2
    rw [hsq]
    nlinarith
  have hQ : (2 : ℝ) ^ (-40 : ℤ) ≤ rp * rq := by
    rw [show (-40 : ℤ) = -20 + -20 by norm_num, zpow_add₀ (by norm_num)]
    exact mul_le_mul hp.1 hq.1 (Mag.zp _).le hp0.le
  have hQ0 : 0 < rp * rq := mul_pos hp0 hq0
  generalize dist3 (sph lp p rp) (sph lq q rq) = d at *
  generalize rp * rq = Q at *
  intro hd0 hd
  have hu0 := h.double.u_nonneg
  have hu' : u ≤ 1 / 1048576 := by norm_num at hu; exact hu
  have hd2 : 0 < d ^ 2 := by positivity
  have hud : u * d ^ 2 ≤ 1 / 1048576 * d ^ 2 := mul_le_mul_of_nonneg_right hu' hd2.le
  have hRl : 0.5 * d ^ 2 ≤ R := by rw [abs_le] at f7; linarith [f7.1]
  have hRu : R ≤ 1.5 * d ^ 2 := by rw [abs_le] at f7; linarith [f7.2]
  have hR0 : 0 < R := by nlinarith
  have hs0 := Real.sqrt_nonneg R
  have hsR := Real.sq_sqrt hR0.le
  have hs1 : √R ≤ 1.3 * d := by
    apply Real.sqrt_le_iff.2 ⟨by positivity, by nlinarith⟩
  have key : |√R - d| ≤ 5 * u * d + 190 * u * (Q / d) := by
    have e : (√R - d) * (√R + d) = R - d ^ 2 := by nlinarith
    have h1 : |√R - d| * (√R + d) = |R - d ^ 2| := by
      rw [← e, abs_mul, abs_of_nonneg (by positivity : 0 ≤ √R + d)]
    have h2 : |√R - d| * d ≤ 5 * u * d ^ 2 + 190 * u * Q := by
      have : |√R - d| * d ≤ |√R - d| * (√R + d) :=
        mul_le_mul_of_nonneg_left (by linarith) (abs_nonneg _)
      linarith
    have h3 : (5 * u * d + 190 * u * (Q / d)) * d = 5 * u * d ^ 2 + 190 * u * Q := by
      field_simp
    nlinarith
  have hd1 : d ≤ 2 ^ (41 : ℤ) := by
    apply abs_le_of_sq_le_sq' _ (Mag.zp _).le |>.2
    rw [show ((2 : ℝ) ^ (41 : ℤ)) ^ 2 = 2 ^ (82 : ℤ) by rw [pow_two, ← zpow_add₀ (by norm_num)]; norm_num]
    exact hd81
  have hlo : (2 : ℝ) ^ (-126 : ℤ) ≤ Q / d := by
    rw [le_div_iff₀ hd0]
    calc (2 : ℝ) ^ (-126 : ℤ) * d ≤ 2 ^ (-126 : ℤ) * 2 ^ (41 : ℤ) :=
          mul_le_mul_of_nonneg_left hd1 (Mag.zp _).le
      _ = 2 ^ (-85 : ℤ) := by rw [← zpow_add₀ (by norm_num)]; norm_num
      _ ≤ 2 ^ (-40 : ℤ) := Mag.zle (by norm_num)
      _ ≤ Q := hQ
  have hhi : √R ≤ 2 ^ (127 : ℤ) := by
    calc √R ≤ 1.3 * d := hs1
      _ ≤ 2 * 2 ^ (41 : ℤ) := mul_le_mul (by norm_num) hd1 hd0.le (by norm_num)
      _ = 2 ^ (42 : ℤ) := by rw [show (42 : ℤ) = 41 + 1 by norm_num, zpow_add_one₀ (by norm_num)]; ring
      _ ≤ _ := Mag.zle (by norm_num)
  obtain ⟨y, ey, fy⟩ := h.sqrt_ok e7 hR0.le hhi
  refine ⟨y, ey, ?_⟩
  · rw [abs_of_nonneg hs0] at fy
    have h4 : max √R (2 ^ (-126 : ℤ)) ≤ 1.3 * d + Q / d := by
      have : 0 ≤ Q / d := by positivity
      exact max_le (by linarith) (by linarith)
    calc |y - d| = |(y - √R) + (√R - d)| := by ring_nf
      _ ≤ _ := abs_add_le _ _
      _ ≤ u * (1.3 * d + Q / d) + (5 * u * d + 190 * u * (Q / d)) :=
          add_le_add (fy.trans (mul_le_mul_of_nonneg_left h4 hu0)) key
      _ ≤ 7 * u * d + 192 * u * (Q / d) := by
          have h5 : 0 ≤ u * (Q / d) := by positivity
          have h6 : 0 ≤ u * d := by positivity
          clear * - h5 h6
          generalize Q / d = t at *
          nlinarith

end Choclo
