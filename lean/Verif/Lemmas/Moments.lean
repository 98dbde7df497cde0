import Verif.Lemmas.Survey
import Verif.Lemmas.FarField

/-! # First moments of fields over growing discs in a plane -/

namespace Choclo

open Real Set MeasureTheory Filter Topology

theorem rad_disc {h R : ℝ} {x : ℝ × ℝ} (hx : x ∈ discAt 0 R) : rad h x.1 x.2 ≤ √(h ^ 2 + R ^ 2) := by
  have hx : (x.1 - 0) ^ 2 + (x.2 - 0) ^ 2 ≤ R ^ 2 := hx
  refine Real.sqrt_le_sqrt ?_
  nlinarith

theorem disc_integrable_of {h C R : ℝ} (hh : h ≠ 0) {ψ : ℝ × ℝ → ℝ} (hm : Measurable ψ)
    (hb : ∀ x, |ψ x| ≤ C / rad h x.1 x.2 ^ 2) (f : ℝ × ℝ) :
    IntegrableOn (fun s => ψ (s - f)) (discAt f R) ∧
    ∀ s ∈ discAt f R, |ψ (s - f)| ≤ C * √(h ^ 2 + R ^ 2) * (1 / rad h (s - f).1 (s - f).2 ^ 3) := by
  have hC : 0 ≤ C := by
    have := (abs_nonneg _).trans (hb 0)
    have p := rad_pos' hh (0 : ℝ × ℝ).1 (0 : ℝ × ℝ).2
    rwa [le_div_iff₀ (by positivity), zero_mul] at this
  have b : ∀ s ∈ discAt f R, |ψ (s - f)| ≤ C * √(h ^ 2 + R ^ 2) * (1 / rad h (s - f).1 (s - f).2 ^ 3) := by
    intro s hs
    have p := rad_pos' hh (s - f).1 (s - f).2
    have l : rad h (s - f).1 (s - f).2 ≤ √(h ^ 2 + R ^ 2) := rad_disc (by simpa [discAt] using hs)
    refine (hb _).trans ?_
    rw [mul_one_div, div_le_div_iff₀ (by positivity) (by positivity)]
    have : 0 ≤ C * rad h (s - f).1 (s - f).2 ^ 2 := by positivity
    calc C * rad h (s - f).1 (s - f).2 ^ 3 = C * rad h (s - f).1 (s - f).2 ^ 2 * rad h (s - f).1 (s - f).2 := by ring
      _ ≤ C * rad h (s - f).1 (s - f).2 ^ 2 * √(h ^ 2 + R ^ 2) := mul_le_mul_of_nonneg_left l this
      _ = _ := by ring
  refine ⟨?_, b⟩
  have i : Integrable (fun s : ℝ × ℝ => C * √(h ^ 2 + R ^ 2) * (1 / rad h (s - f).1 (s - f).2 ^ 3)) := by
    have := (plane_rad3_shift hh f.1 f.2).1
    exact this.const_mul _
  refine i.integrableOn.mono' (hm.comp (measurable_id.sub_const f)).aestronglyMeasurable.restrict ?_
  exact (ae_restrict_mem (measurable_disc f R)).mono fun s hs => b s hs

theorem disc_odd {R : ℝ} {ψ : ℝ × ℝ → ℝ} (ho : ∀ x, ψ (-x) = -ψ x) (f : ℝ × ℝ) :
    ∫ s in discAt f R, ψ (s - f) = 0 := by
  rw [disc_shift f R ψ]
  have : ∫ s in discAt 0 R, ψ s = ∫ s in discAt 0 R, ψ (-s) := by
    rw [← integral_indicator (measurable_disc 0 R), ← integral_indicator (measurable_disc 0 R),
      ← integral_neg_eq_self (fun s => (discAt 0 R).indicator ψ s)]
    congr 1; funext s
    by_cases hs : s ∈ discAt 0 R
    · rw [indicator_of_mem hs, indicator_of_mem]
      simpa [discAt] using hs
    · rw [indicator_of_notMem hs, indicator_of_notMem]
      simpa [discAt] using hs
  simp only [ho, integral_neg] at this
  linarith

/-- an odd function of order `1 / r²` around `f` over a disc around another point -/
theorem disc_odd_le {h C R d : ℝ} (hh : h ≠ 0) {ψ : ℝ × ℝ → ℝ} (hm : Measurable ψ) (ho : ∀ x, ψ (-x) = -ψ x)
    (hb : ∀ x, |ψ x| ≤ C / rad h x.1 x.2 ^ 2) {c f : ℝ × ℝ} (hc : (f.1 - c.1) ^ 2 + (f.2 - c.2) ^ 2 ≤ d ^ 2)
    (hd : 0 ≤ d) (hR : d < R) :
    IntegrableOn (fun s => ψ (s - f)) (discAt c R) ∧ |∫ s in discAt c R, ψ (s - f)| ≤ 4 * π * C * d / (R - d) := by
  have hC : 0 ≤ C := by
    have := (abs_nonneg _).trans (hb 0)
    have p := rad_pos' hh (0 : ℝ × ℝ).1 (0 : ℝ × ℝ).2
    rwa [le_div_iff₀ (by positivity), zero_mul] at this
  have s0 : discAt f (R - d) ⊆ discAt c R := by
    have := disc_subset (c := c) (c' := f) hc hd (sub_nonneg.2 hR.le)
    rwa [sub_add_cancel] at this
  have s1 : discAt c R ⊆ discAt f (R + d) :=
    disc_subset (by nlinarith) hd (hd.trans hR.le)
  obtain ⟨i1, b1⟩ := disc_integrable_of (R := R + d) hh hm hb f
  have i : IntegrableOn (fun s => ψ (s - f)) (discAt c R) := i1.mono_set s1
  refine ⟨i, ?_⟩
  generalize hB : √(h ^ 2 + (R + d) ^ 2) = B at b1
  generalize hA : √(h ^ 2 + (R - d) ^ 2) = A
  have A0 : 0 < A := by rw [← hA]; positivity
  have B0 : 0 < B := by rw [← hB]; positivity
  have iD : Integrable (fun s : ℝ × ℝ => C * B * (1 / rad h (s - f).1 (s - f).2 ^ 3)) :=
    (plane_rad3_shift hh f.1 f.2).1.const_mul _
  have val : ∀ {ρ : ℝ}, 0 ≤ ρ → ∫ s in discAt f ρ, C * B * (1 / rad h (s - f).1 (s - f).2 ^ 3) =
      C * B * (2 * π * (1 / |h| - 1 / √(h ^ 2 + ρ ^ 2))) := fun {ρ} hρ => by
    rw [integral_const_mul, disc_shift f ρ (fun s => 1 / rad h s.1 s.2 ^ 3), disc_rad3 hh hρ]
  have e : ∫ s in discAt c R, ψ (s - f) = ∫ s in discAt c R \ discAt f (R - d), ψ (s - f) := by
    have := setIntegral_sdiff (f := fun s => ψ (s - f)) (μ := volume) (measurable_disc f (R - d)) i s0
    rw [this, disc_odd ho f, sub_zero]
  rw [e]
  have l1 : |∫ s in discAt c R \ discAt f (R - d), ψ (s - f)| ≤
      ∫ s in discAt c R \ discAt f (R - d), C * B * (1 / rad h (s - f).1 (s - f).2 ^ 3) := by
    refine (abs_integral_le_integral_abs).trans ?_
    refine setIntegral_mono_on (i.mono_set sdiff_subset).abs iD.integrableOn
      ((measurable_disc c R).diff (measurable_disc f _)) fun s hs => b1 s (s1 hs.1)
  have l2 : ∫ s in discAt c R \ discAt f (R - d), C * B * (1 / rad h (s - f).1 (s - f).2 ^ 3) ≤
      ∫ s in discAt f (R + d) \ discAt f (R - d), C * B * (1 / rad h (s - f).1 (s - f).2 ^ 3) := by
    refine setIntegral_mono_set iD.integrableOn (Eventually.of_forall fun s => ?_)
      (Eventually.of_forall fun s hs => ⟨s1 hs.1, hs.2⟩)
    have := rad_pos' hh (s - f).1 (s - f).2
    show 0 ≤ _
    positivity
  have l3 : ∫ s in discAt f (R + d) \ discAt f (R - d), C * B * (1 / rad h (s - f).1 (s - f).2 ^ 3) =
      2 * π * C * (B / A - 1) := by
    rw [setIntegral_sdiff (measurable_disc f (R - d)) iD.integrableOn (s0.trans s1), val (by linarith), val (by linarith), hA, hB]
    field_simp
    ring
  refine l1.trans (l2.trans (l3.le.trans ?_))
  have ab : B / A ≤ (R + d) / (R - d) := by
    rw [div_le_div_iff₀ A0 (by linarith)]
    refine le_of_sq_le_sq ?_ (by have := A0.le; nlinarith)
    rw [mul_pow, mul_pow, ← hA, ← hB, Real.sq_sqrt (by positivity), Real.sq_sqrt (by positivity)]
    nlinarith [sq_nonneg h, mul_nonneg (sq_nonneg h) (mul_nonneg hd (hd.trans hR.le))]
  have : B / A - 1 ≤ 2 * d / (R - d) := by
    refine (sub_le_sub_right ab 1).trans (le_of_eq ?_)
    have : R - d ≠ 0 := by linarith
    field_simp
    ring
  calc 2 * π * C * (B / A - 1) ≤ 2 * π * C * (2 * d / (R - d)) := by
        refine mul_le_mul_of_nonneg_left this ?_
        have := Real.pi_pos
        positivity
    _ = _ := by ring


/-! ### growing discs -/

theorem disc_cover (c : ℝ × ℝ) : AECover (volume : Measure (ℝ × ℝ)) atTop (discAt c) where
  ae_eventually_mem := Eventually.of_forall fun s => by
    filter_upwards [eventually_ge_atTop (1 + (s.1 - c.1) ^ 2 + (s.2 - c.2) ^ 2)] with R hR
    show _ ≤ R ^ 2
    nlinarith [sq_nonneg (s.1 - c.1), sq_nonneg (s.2 - c.2)]
  measurableSet := fun R => measurable_disc c R

theorem disc_tendsto {f : ℝ × ℝ → ℝ} (hf : Integrable f) (c : ℝ × ℝ) :
    Tendsto (fun R => ∫ s in discAt c R, f s) atTop (𝓝 (∫ s, f s)) :=
  (disc_cover c).integral_tendsto_of_countably_generated hf

theorem abs_set_le {f : ℝ × ℝ → ℝ} (hf : Integrable f) (S : Set (ℝ × ℝ)) : |∫ s in S, f s| ≤ ∫ s, ‖f s‖ :=
  abs_integral_le_integral_abs.trans (setIntegral_le_integral hf.norm (Eventually.of_forall fun s => abs_nonneg (f s)))

/-! ### the kernels as functions of the offset from the foot of the source -/

theorem kpp_offset (c : KComp) (a : Axis) (t : ℝ) (s : ℝ × ℝ) (q : Pt) :
    kpp c (Pt.onPlane a t s) q = kpp c (Pt.onPlane a (t - q.coord a) (s - q.foot a)) 0 := by
  unfold kpp
  cases a <;> simp [Pt.onPlane, Pt.coord, Pt.foot, Pt.e, Pt.n, Pt.u]

theorem coord_offset (a : Axis) {b : Axis} (t : ℝ) (s : ℝ × ℝ) (q : Pt) :
    (Pt.onPlane a t s).coord b - q.coord b = (Pt.onPlane a (t - q.coord a) (s - q.foot a)).coord b := by
  cases a <;> cases b <;> simp [Pt.onPlane, Pt.coord, Pt.foot, Pt.e, Pt.n, Pt.u]

theorem coord_onPlane_neg {a b : Axis} (hab : b ≠ a) (h : ℝ) (x : ℝ × ℝ) :
    (Pt.onPlane a h (-x)).coord b = -(Pt.onPlane a h x).coord b := by
  cases a <;> cases b <;> first | exact absurd rfl hab | simp [Pt.onPlane, Pt.coord, Pt.e, Pt.n, Pt.u]

theorem measurable_coord_onPlane (a b : Axis) (h : ℝ) : Measurable fun x => (Pt.onPlane a h x).coord b := by
  have := measurable_onPlane a h
  cases b
  · exact this.fst
  · exact this.snd.fst
  · exact this.snd.snd

theorem kern1_even (a : Axis) (h : ℝ) (x : ℝ × ℝ) :
    kpp (kern1 a) (Pt.onPlane a h (-x)) 0 = kpp (kern1 a) (Pt.onPlane a h x) 0 := by
  cases a <;> simp [kpp, kp, rad, kern1, Pt.onPlane, Pt.e, Pt.n, Pt.u]

theorem kern2_even {a i j : Axis} (hij : i = a ∧ j = a ∨ i ≠ a ∧ j ≠ a) (h : ℝ) (x : ℝ × ℝ) :
    kpp (kern2 i j) (Pt.onPlane a h (-x)) 0 = kpp (kern2 i j) (Pt.onPlane a h x) 0 := by
  cases a <;> cases i <;> cases j <;> simp at hij <;>
    simp [kpp, kp, rad, kern2, Pt.onPlane, Pt.e, Pt.n, Pt.u]

theorem dist_onPlane_zero (a : Axis) (h : ℝ) (x : ℝ × ℝ) : dist3 (Pt.onPlane a h x) 0 = rad h x.1 x.2 := by
  cases a <;> simp only [dist3, rad, Pt.onPlane, Pt.e, Pt.n, Pt.u, Prod.fst_zero, Prod.snd_zero, sub_zero] <;> congr 1 <;> ring

theorem coord_mul_le (a b : Axis) {h C : ℝ} (hh : h ≠ 0) {c : KComp} {x : ℝ × ℝ}
    (hk : |kpp c (Pt.onPlane a h x) 0| ≤ C / dist3 (Pt.onPlane a h x) 0 ^ 3) :
    |(Pt.onPlane a h x).coord b * kpp c (Pt.onPlane a h x) 0| ≤ C / rad h x.1 x.2 ^ 2 := by
  have d := rad_pos' hh x.1 x.2
  have l := dist_ge (Pt.onPlane a h x) 0 b
  rw [show (0 : Pt).coord b = 0 by cases b <;> rfl, sub_zero, dist_onPlane_zero] at l
  rw [dist_onPlane_zero] at hk
  rw [abs_mul]
  calc _ ≤ rad h x.1 x.2 * (C / rad h x.1 x.2 ^ 3) := mul_le_mul l hk (abs_nonneg _) d.le
    _ = _ := by field_simp

/-- odd moments vanish in the limit -/
theorem mom_odd {a b : Axis} (hab : b ≠ a) {c : KComp} {C : ℝ}
    (he : ∀ h x, kpp c (Pt.onPlane a h (-x)) 0 = kpp c (Pt.onPlane a h x) 0)
    {t d R : ℝ} {o q : Pt} (hq : t ≠ q.coord a)
    (hk : ∀ x, |kpp c (Pt.onPlane a (t - q.coord a) x) 0| ≤ C / dist3 (Pt.onPlane a (t - q.coord a) x) 0 ^ 3)
    (hd : 0 ≤ d) (hc : q.foot a ∈ discAt (o.foot a) d) (hR : d < R) :
    IntegrableOn (fun s => ((Pt.onPlane a t s).coord b - q.coord b) * kpp c (Pt.onPlane a t s) q) (discAt (o.foot a) R) ∧
    |∫ s in discAt (o.foot a) R, ((Pt.onPlane a t s).coord b - q.coord b) * kpp c (Pt.onPlane a t s) q| ≤
      4 * π * C * d / (R - d) := by
  have h0 := sub_ne_zero.2 hq
  simp only [kpp_offset c a t _ q, coord_offset a t _ q]
  exact disc_odd_le (ψ := fun x => (Pt.onPlane a (t - q.coord a) x).coord b * kpp c (Pt.onPlane a (t - q.coord a) x) 0) h0
    ((measurable_coord_onPlane a b _).mul (measurable_kpp_slice c a _ 0))
    (fun x => by rw [he, coord_onPlane_neg hab, neg_mul]) (fun x => coord_mul_le a b h0 (hk x)) hc hd hR

/-- the mixed kernels: the moment about the foot of the source is an absolutely convergent integral -/
theorem mom_mixed {a b j : Axis} (hab : b ≠ a) (hj : j ≠ a) {t : ℝ} {q : Pt} (hq : q.coord a < t) :
    Integrable (fun s => ((Pt.onPlane a t s).coord b - q.coord b) * kpp (kern2 j a) (Pt.onPlane a t s) q) ∧
    ∫ s, ‖((Pt.onPlane a t s).coord b - q.coord b) * kpp (kern2 j a) (Pt.onPlane a t s) q‖ ≤ 6 * π ∧
    ∫ s, ((Pt.onPlane a t s).coord b - q.coord b) * kpp (kern2 j a) (Pt.onPlane a t s) q = if j = b then 2 * π else 0 := by
  have h0 : 0 < t - q.coord a := sub_pos.2 hq
  have e : ∀ s, ((Pt.onPlane a t s).coord b - q.coord b) * kpp (kern2 j a) (Pt.onPlane a t s) q =
      (t - q.coord a) * (kpp (kern2 b j) (Pt.onPlane a t s) q + (if j = b then 1 else 0) * (1 / dist3 (Pt.onPlane a t s) q ^ 3)) := by
    intro s
    cases a <;> cases b <;> cases j <;> first | exact absurd rfl hab | exact absurd rfl hj | skip
    all_goals
      simp only [kpp, kp, kern2, dist3_eq_rad, Pt.coord, Pt.onPlane, reduceCtorEq, if_true, if_false, Pt.e, Pt.n, Pt.u]
      ring
  obtain ⟨k1, k2⟩ := plane_kern2 a b j hq.ne'
  obtain ⟨d1, d2⟩ := plane_dist3 a hq.ne'
  rw [abs_of_pos h0] at d2
  have d1' := d1.const_mul (if j = b then (1:ℝ) else 0)
  simp only [e]
  refine ⟨(k1.add d1').const_mul _, ?_, ?_⟩
  · have l : ∀ s, ‖(t - q.coord a) * (kpp (kern2 b j) (Pt.onPlane a t s) q +
        (if j = b then 1 else 0) * (1 / dist3 (Pt.onPlane a t s) q ^ 3))‖ ≤
        3 * (t - q.coord a) * (1 / dist3 (Pt.onPlane a t s) q ^ 3) := by
      intro s
      have d := dist3_pos (off_plane hq.ne' s)
      have k := abs_kern2_le b j (off_plane hq.ne' s)
      have i1 : |(if j = b then (1:ℝ) else 0) * (1 / dist3 (Pt.onPlane a t s) q ^ 3)| ≤ 1 / dist3 (Pt.onPlane a t s) q ^ 3 := by
        rw [abs_of_nonneg (by positivity)]
        have : 0 ≤ 1 / dist3 (Pt.onPlane a t s) q ^ 3 := by positivity
        split_ifs <;> linarith
      rw [Real.norm_eq_abs, abs_mul, abs_of_pos h0]
      have := (abs_add_le _ _).trans (add_le_add k i1)
      refine (mul_le_mul_of_nonneg_left this h0.le).trans (le_of_eq ?_)
      ring
    refine (integral_mono (((k1.add d1').const_mul _).norm) (d1.const_mul _) l).trans (le_of_eq ?_)
    rw [integral_const_mul, d2]
    field_simp
    norm_num
  · rw [integral_const_mul, integral_add k1 d1', integral_const_mul, k2, d2]
    split_ifs
    · field_simp; ring
    · ring

/-- splitting the moment about `o` -/
theorem mom_split {a b : Axis} {c : KComp} {t : ℝ} {o q : Pt} {S : Set (ℝ × ℝ)}
    (h1 : IntegrableOn (fun s => ((Pt.onPlane a t s).coord b - q.coord b) * kpp c (Pt.onPlane a t s) q) S)
    (h2 : IntegrableOn (fun s => kpp c (Pt.onPlane a t s) q) S) :
    ∫ s in S, ((Pt.onPlane a t s).coord b - o.coord b) * kpp c (Pt.onPlane a t s) q =
      (∫ s in S, ((Pt.onPlane a t s).coord b - q.coord b) * kpp c (Pt.onPlane a t s) q) +
        (q.coord b - o.coord b) * ∫ s in S, kpp c (Pt.onPlane a t s) q := by
  rw [← integral_const_mul, ← integral_add h1 (h2.const_mul _)]
  congr 1; funext s; ring

theorem decay_disc (A d : ℝ) : Tendsto (fun R => A / (R - d)) atTop (𝓝 0) :=
  tendsto_const_nhds.div_atTop (tendsto_atTop_add_const_right _ (-d) tendsto_id)

/-- the first moment of the normal acceleration of a unit source -/
theorem mom_kern1 {a b : Axis} (hab : b ≠ a) {t d : ℝ} {o q : Pt} (hq : q.coord a < t) (hd : 0 ≤ d)
    (hc : q.foot a ∈ discAt (o.foot a) d) :
    (∀ R, 2 * d + 1 ≤ R → |∫ s in discAt (o.foot a) R, ((Pt.onPlane a t s).coord b - o.coord b) * kpp (kern1 a) (Pt.onPlane a t s) q| ≤
      4 * π * (t - q.coord a) + 2 * π * |q.coord b - o.coord b|) ∧
    Tendsto (fun R => ∫ s in discAt (o.foot a) R, ((Pt.onPlane a t s).coord b - o.coord b) * kpp (kern1 a) (Pt.onPlane a t s) q)
      atTop (𝓝 (-(2 * π) * (q.coord b - o.coord b))) := by
  have h0 : 0 < t - q.coord a := sub_pos.2 hq
  have pp := Real.pi_pos
  have M : ∀ {R}, d < R → _ := fun {R} hR => mom_odd (b := b) (R := R) (o := o) hab (kern1_even a) (C := t - q.coord a) hq.ne' (fun x => by
    rw [kern1_plane, abs_mul, show (0 : Pt).coord a = 0 by cases a <;> rfl, zero_sub, abs_neg, abs_of_pos h0,
      abs_of_nonneg (one_div_nonneg.2 (pow_nonneg (show 0 ≤ dist3 _ _ from Real.sqrt_nonneg _) 3)), mul_one_div]) hd hc hR
  obtain ⟨k1, k2⟩ := plane_kern1 a hq.ne'
  rw [if_pos hq] at k2
  have n := plane_norm_kern1 a hq.ne'
  constructor
  · intro R hR
    obtain ⟨m1, m2⟩ := M (R := R) (by linarith)
    rw [mom_split m1 k1.integrableOn]
    refine (abs_add_le _ _).trans (add_le_add (m2.trans ?_) ?_)
    · rw [div_le_iff₀ (by linarith)]
      have : 0 ≤ 4 * π * (t - q.coord a) := by positivity
      nlinarith
    · rw [abs_mul, mul_comm]
      exact mul_le_mul_of_nonneg_right ((abs_set_le k1 _).trans n.le) (abs_nonneg _)
  · have l1 : Tendsto (fun R => ∫ s in discAt (o.foot a) R, ((Pt.onPlane a t s).coord b - q.coord b) * kpp (kern1 a) (Pt.onPlane a t s) q)
        atTop (𝓝 0) := by
      refine squeeze_zero_norm' ?_ (decay_disc (4 * π * (t - q.coord a) * d) d)
      filter_upwards [eventually_gt_atTop d] with R hR using (M hR).2
    have l2 := (disc_tendsto k1 (o.foot a)).const_mul (q.coord b - o.coord b)
    rw [k2] at l2
    have l := l1.add l2
    rw [show 0 + (q.coord b - o.coord b) * -(2 * π) = -(2 * π) * (q.coord b - o.coord b) by ring] at l
    refine l.congr' ?_
    filter_upwards [eventually_gt_atTop d] with R hR
    exact (mom_split (M hR).1 k1.integrableOn).symm

/-- the value of the first moment of a second-order kernel -/
noncomputable def momVal (a b i j : Axis) : ℝ := if (i = a ∧ j = b) ∨ (i = b ∧ j = a) then 2 * π else 0

/-- the first moments of the second-order kernels -/
theorem mom_kern2 {a b : Axis} (hab : b ≠ a) (i j : Axis) {t d : ℝ} {o q : Pt} (hq : q.coord a < t) (hd : 0 ≤ d)
    (hc : q.foot a ∈ discAt (o.foot a) d) :
    (∀ R, 2 * d + 1 ≤ R → |∫ s in discAt (o.foot a) R, ((Pt.onPlane a t s).coord b - o.coord b) * kpp (kern2 i j) (Pt.onPlane a t s) q| ≤
      8 * π + |q.coord b - o.coord b| * (2 * (2 * π / |t - q.coord a|))) ∧
    Tendsto (fun R => ∫ s in discAt (o.foot a) R, ((Pt.onPlane a t s).coord b - o.coord b) * kpp (kern2 i j) (Pt.onPlane a t s) q)
      atTop (𝓝 (momVal a b i j)) := by
  have h0 : 0 < t - q.coord a := sub_pos.2 hq
  have pp := Real.pi_pos
  obtain ⟨k1, k2⟩ := plane_kern2 a i j hq.ne'
  have n := norm_plane_le (c := kern2 i j) a hq.ne' (fun p hp _ => abs_kern2_le i j hp)
  -- the moment about the foot of the source
  have core : (∀ R, d < R → IntegrableOn (fun s => ((Pt.onPlane a t s).coord b - q.coord b) * kpp (kern2 i j) (Pt.onPlane a t s) q) (discAt (o.foot a) R)) ∧
      (∀ R, 2 * d + 1 ≤ R → |∫ s in discAt (o.foot a) R, ((Pt.onPlane a t s).coord b - q.coord b) * kpp (kern2 i j) (Pt.onPlane a t s) q| ≤ 8 * π) ∧
      Tendsto (fun R => ∫ s in discAt (o.foot a) R, ((Pt.onPlane a t s).coord b - q.coord b) * kpp (kern2 i j) (Pt.onPlane a t s) q)
        atTop (𝓝 (momVal a b i j)) := by
    by_cases hij : i = a ∧ j = a ∨ i ≠ a ∧ j ≠ a
    · have v : momVal a b i j = 0 := by
        unfold momVal; rw [if_neg]; rintro (⟨h1, h2⟩ | ⟨h1, h2⟩) <;> subst h1 h2 <;> simp_all
      have M : ∀ {R}, d < R → _ := fun {R} hR => mom_odd (b := b) (R := R) (o := o) hab (kern2_even hij) (C := 2) hq.ne'
        (fun x => abs_kern2_le i j (off_plane (by
          rw [show (0 : Pt).coord a = 0 by cases a <;> rfl]; exact h0.ne') x)) hd hc hR
      refine ⟨fun R hR => (M hR).1, fun R hR => (M (by linarith)).2.trans ?_, ?_⟩
      · rw [div_le_iff₀ (by linarith)]
        nlinarith
      · rw [v]
        refine squeeze_zero_norm' ?_ (decay_disc (4 * π * 2 * d) d)
        filter_upwards [eventually_gt_atTop d] with R hR using (M hR).2
    · have mixed : ∀ k, k ≠ a → (i = k ∧ j = a ∨ i = a ∧ j = k) → _ := fun k hk hkk => by
        have e : kern2 i j = kern2 k a := by
          rcases hkk with ⟨h1, h2⟩ | ⟨h1, h2⟩ <;> subst h1 h2
          · rfl
          · exact kern2_symm _ _
        have v : momVal a b i j = if k = b then 2 * π else 0 := by
          unfold momVal
          refine if_congr ?_ rfl rfl
          rcases hkk with ⟨h1, h2⟩ | ⟨h1, h2⟩ <;> subst h1 h2 <;> simp [hk, hab.symm]
        exact (⟨e, v⟩ : kern2 i j = kern2 k a ∧ momVal a b i j = if k = b then 2 * π else 0)
      obtain ⟨k, hk, hkk⟩ : ∃ k, k ≠ a ∧ (i = k ∧ j = a ∨ i = a ∧ j = k) := by
        by_cases h1 : i = a
        · exact ⟨j, fun h2 => hij (.inl ⟨h1, h2⟩), .inr ⟨h1, rfl⟩⟩
        · exact ⟨i, h1, .inl ⟨rfl, by by_contra h2; exact hij (.inr ⟨h1, h2⟩)⟩⟩
      obtain ⟨e, v⟩ := mixed k hk hkk
      obtain ⟨x1, x2, x3⟩ := mom_mixed hab hk hq
      rw [e, v, ← x3]
      exact ⟨fun R _ => x1.integrableOn, fun R _ => (abs_set_le x1 _).trans (x2.trans (by linarith)), disc_tendsto x1 _⟩
  obtain ⟨c1, c2, c3⟩ := core
  constructor
  · intro R hR
    rw [mom_split (c1 R (by linarith)) k1.integrableOn]
    refine (abs_add_le _ _).trans (add_le_add (c2 R hR) ?_)
    rw [abs_mul]
    exact mul_le_mul_of_nonneg_left ((abs_set_le k1 _).trans n) (abs_nonneg _)
  · have l2 := (disc_tendsto k1 (o.foot a)).const_mul (q.coord b - o.coord b)
    rw [k2] at l2
    have l := c3.add l2
    rw [mul_zero, add_zero] at l
    refine l.congr' ?_
    filter_upwards [eventually_gt_atTop d] with R hR
    exact (mom_split (c1 R hR) k1.integrableOn).symm

/-! ### prisms -/

variable {P : Box}

theorem coord_disc_le {a b : Axis} (hab : b ≠ a) {t R : ℝ} {o : Pt} {s : ℝ × ℝ} (hs : s ∈ discAt (o.foot a) R) :
    |(Pt.onPlane a t s).coord b - o.coord b| ≤ |R| := by
  have hs : (s.1 - (o.foot a).1) ^ 2 + (s.2 - (o.foot a).2) ^ 2 ≤ R ^ 2 := hs
  refine sq_le_sq.1 ?_
  cases a <;> cases b <;> first | exact absurd rfl hab | (simp only [Pt.onPlane, Pt.coord, Pt.foot, Pt.e, Pt.n, Pt.u] at *; nlinarith)

theorem mom_prism {c : KComp} {a b : Axis} (hab : b ≠ a) (t : ℝ) (o : Pt)
    (F : Integrable (fun w : (ℝ × ℝ) × Pt => kpp c (Pt.onPlane a t w.1) w.2) (volume.prod (volume.restrict P.region)))
    {L : Pt → ℝ} {B R0 : ℝ}
    (hB : ∀ q ∈ P.region, t ≠ q.coord a → ∀ R, R0 ≤ R →
      |∫ s in discAt (o.foot a) R, ((Pt.onPlane a t s).coord b - o.coord b) * kpp c (Pt.onPlane a t s) q| ≤ B)
    (hL : ∀ q ∈ P.region, t ≠ q.coord a → Tendsto (fun R => ∫ s in discAt (o.foot a) R,
      ((Pt.onPlane a t s).coord b - o.coord b) * kpp c (Pt.onPlane a t s) q) atTop (𝓝 (L q))) :
    (∀ R, IntegrableOn (fun s => ((Pt.onPlane a t s).coord b - o.coord b) * ∫ q in P.region, kpp c (Pt.onPlane a t s) q)
      (discAt (o.foot a) R)) ∧
    Tendsto (fun R => ∫ s in discAt (o.foot a) R, ((Pt.onPlane a t s).coord b - o.coord b) * ∫ q in P.region, kpp c (Pt.onPlane a t s) q)
      atTop (𝓝 (∫ q in P.region, L q)) := by
  have mw : Measurable fun s => (Pt.onPlane a t s).coord b - o.coord b := (measurable_coord_onPlane a b t).sub_const _
  have fin : IsFiniteMeasure (volume.restrict P.region : Measure Pt) :=
    ⟨by rw [Measure.restrict_apply_univ]; exact (isCompact_region P).measure_lt_top⟩
  have F' : ∀ R, Integrable (fun w : (ℝ × ℝ) × Pt => ((Pt.onPlane a t w.1).coord b - o.coord b) * kpp c (Pt.onPlane a t w.1) w.2)
      ((volume.restrict (discAt (o.foot a) R)).prod (volume.restrict P.region)) := by
    intro R
    have G : Integrable (fun w : (ℝ × ℝ) × Pt => kpp c (Pt.onPlane a t w.1) w.2)
        ((volume.restrict (discAt (o.foot a) R)).prod (volume.restrict P.region)) := by
      have := F.integrableOn (s := discAt (o.foot a) R ×ˢ univ)
      rwa [IntegrableOn, ← Measure.prod_restrict, Measure.restrict_univ] at this
    refine G.bdd_mul (c := |R|) (mw.comp measurable_fst).aestronglyMeasurable ?_
    have := (ae_restrict_mem (μ := (volume : Measure (ℝ × ℝ))) (measurable_disc (o.foot a) R))
    have := (Measure.quasiMeasurePreserving_fst (μ := volume.restrict (discAt (o.foot a) R)) (ν := (volume.restrict P.region : Measure Pt))).ae this
    exact this.mono fun w hw => coord_disc_le hab hw
  have sw : ∀ R, ∫ s in discAt (o.foot a) R, ((Pt.onPlane a t s).coord b - o.coord b) * ∫ q in P.region, kpp c (Pt.onPlane a t s) q =
      ∫ q in P.region, ∫ s in discAt (o.foot a) R, ((Pt.onPlane a t s).coord b - o.coord b) * kpp c (Pt.onPlane a t s) q := by
    intro R
    simp only [← integral_const_mul]
    exact integral_integral_swap (f := fun s q => ((Pt.onPlane a t s).coord b - o.coord b) * kpp c (Pt.onPlane a t s) q) (F' R)
  constructor
  · intro R
    have := (F' R).integral_prod_left
    simp only [integral_const_mul] at this
    exact this
  · simp only [sw]
    have ae := region_ae_ne (P := P) a t
    refine tendsto_integral_filter_of_dominated_convergence (fun _ => B) ?_ ?_ (integrable_const B) ?_
    · exact Eventually.of_forall fun R => (F' R).integral_prod_right.aestronglyMeasurable
    · filter_upwards [eventually_ge_atTop R0] with R hR
      exact ae.mono fun q hq => hB q hq.1 hq.2 R hR
    · exact ae.mono fun q hq => hL q hq.1 hq.2

theorem integral_coord_region (hP : P.Ordered) (b : Axis) : ∫ q in P.region, q.coord b = P.volume * P.centre b := by
  have c : Continuous fun q : Pt => q.coord b := by cases b <;> simp only [Pt.coord, Pt.e, Pt.n, Pt.u] <;> fun_prop
  have i : IntegrableOn (fun q : Pt => q.coord b) P.region := c.continuousOn.integrableOn_compact (isCompact_region P)
  have e := integral_refl P (fun q => q.coord b)
  have v : ∀ q : Pt, (2 • P.centrePt - q).coord b = 2 * P.centre b - q.coord b := fun q => by
    cases b <;> simp [Pt.coord, Pt.e, Pt.n, Pt.u, Box.centrePt]
  have k : IntegrableOn (fun _ : Pt => 2 * P.centre b) P.region := integrableOn_const (isCompact_region P).measure_lt_top.ne
  simp only [v] at e
  rw [integral_sub k i, setIntegral_const, volume_region hP, smul_eq_mul] at e
  linarith

theorem foot_bound (P : Box) (a : Axis) (o : Pt) : ∃ d, 0 ≤ d ∧ ∀ q ∈ P.region, q.foot a ∈ discAt (o.foot a) d ∧ ∀ b, |q.coord b - o.coord b| ≤ d := by
  have c : Continuous fun q : Pt => dist3 q o := by unfold dist3 Pt.e Pt.n Pt.u; fun_prop
  obtain ⟨d, hd⟩ := (isCompact_region P).exists_bound_of_continuousOn c.continuousOn
  refine ⟨|d|, abs_nonneg _, fun q hq => ?_⟩
  have l : dist3 q o ≤ |d| := (le_abs_self _).trans ((hd q hq).trans (le_abs_self _))
  refine ⟨?_, fun b => (dist_ge q o b).trans l⟩
  show _ ≤ |d| ^ 2
  refine le_trans ?_ (pow_le_pow_left₀ (Real.sqrt_nonneg _) l 2)
  rw [Real.sq_sqrt (by positivity)]
  cases a <;> simp only [Pt.foot] <;> nlinarith [sq_nonneg (q.e - o.e), sq_nonneg (q.n - o.n), sq_nonneg (q.u - o.u)]

/-- the first moment of the normal acceleration of a prism -/
theorem mom_prism_acc (hP : P.Ordered) {a b : Axis} (hab : b ≠ a) {t : ℝ} (ht : P.hi a ≤ t) (o : Pt) :
    (∀ R, IntegrableOn (fun s => ((Pt.onPlane a t s).coord b - o.coord b) * Vc a.acc (Pt.onPlane a t s) P) (discAt (o.foot a) R)) ∧
    Tendsto (fun R => ∫ s in discAt (o.foot a) R, ((Pt.onPlane a t s).coord b - o.coord b) * Vc a.acc (Pt.onPlane a t s) P)
      atTop (𝓝 (-(2 * π) * (P.volume * (P.centre b - o.coord b)))) := by
  have e : ∀ p, Vc a.acc p P = ∫ q in P.region, kpp (kern1 a) p q := fun p => by
    rw [← (integral_low hP a.acc (by cases a <;> decide) p).2, acc_toK]
  obtain ⟨d, d0, hd⟩ := foot_bound P a o
  have below : ∀ q ∈ P.region, t ≠ q.coord a → q.coord a < t := fun q hq hne =>
    lt_of_le_of_ne ((coord_mem_region hq a).2.trans ht) hne.symm
  have pp := Real.pi_pos
  have := mom_prism hab t o (plane_prism_acc_integrable (P := P) a t) (B := 4 * π * (t - P.lo a) + 2 * π * d) (R0 := 2 * d + 1)
    (L := fun q => -(2 * π) * (q.coord b - o.coord b))
    (fun q hq hne R hR => ((mom_kern1 hab (below q hq hne) d0 (hd q hq).1).1 R hR).trans (by
      have := (coord_mem_region hq a).1
      have := (hd q hq).2 b
      gcongr))
    (fun q hq hne => (mom_kern1 hab (below q hq hne) d0 (hd q hq).1).2)
  simp only [e]
  refine ⟨this.1, ?_⟩
  have c : Continuous fun q : Pt => q.coord b := by cases b <;> simp only [Pt.coord, Pt.e, Pt.n, Pt.u] <;> fun_prop
  have i : IntegrableOn (fun q : Pt => q.coord b) P.region := c.continuousOn.integrableOn_compact (isCompact_region P)
  have k : IntegrableOn (fun _ : Pt => o.coord b) P.region := integrableOn_const (isCompact_region P).measure_lt_top.ne
  have v : ∫ q in P.region, -(2 * π) * (q.coord b - o.coord b) = -(2 * π) * (P.volume * (P.centre b - o.coord b)) := by
    rw [integral_const_mul, integral_sub i k, integral_coord_region hP, setIntegral_const, volume_region hP, smul_eq_mul]
    ring
  rw [v] at this
  exact this.2

/-- the first moments of the second derivatives of a prism's potential -/
theorem mom_prism_kern2 (hP : P.Ordered) {a b : Axis} (hab : b ≠ a) (i j : Axis) {t : ℝ} (ht : P.hi a < t) (o : Pt) :
    (∀ R, IntegrableOn (fun s => ((Pt.onPlane a t s).coord b - o.coord b) * ∫ q in P.region, kpp (kern2 i j) (Pt.onPlane a t s) q)
      (discAt (o.foot a) R)) ∧
    Tendsto (fun R => ∫ s in discAt (o.foot a) R, ((Pt.onPlane a t s).coord b - o.coord b) *
      ∫ q in P.region, kpp (kern2 i j) (Pt.onPlane a t s) q) atTop (𝓝 (P.volume * momVal a b i j)) := by
  obtain ⟨d, d0, hd⟩ := foot_bound P a o
  obtain ⟨δ, h0, hδ⟩ := plane_gap (P := P) (a := a) (t := t) (.inr ht)
  have below : ∀ q ∈ P.region, q.coord a < t := fun q hq => (coord_mem_region hq a).2.trans_lt ht
  have pp := Real.pi_pos
  have F := plane_fubini (P := P) (c := kern2 i j) a t (K := 2 * (2 * π / δ)) (fun q hq h => by
    have b : ∀ p : Pt, p ≠ q → p.coord a = t → |kpp (kern2 i j) p q| ≤ 2 / dist3 p q ^ 3 :=
      fun p hp _ => abs_kern2_le i j hp
    refine ⟨plane_integrable a h b, (norm_plane_le a h b).trans ?_⟩
    have := hδ q hq
    gcongr)
  have := mom_prism hab t o F (B := 8 * π + d * (2 * (2 * π / δ))) (R0 := 2 * d + 1) (L := fun _ => momVal a b i j)
    (fun q hq hne R hR => ((mom_kern2 hab i j (below q hq) d0 (hd q hq).1).1 R hR).trans (by
      have := hδ q hq
      have := (hd q hq).2 b
      gcongr))
    (fun q hq hne => (mom_kern2 hab i j (below q hq) d0 (hd q hq).1).2)
  refine ⟨this.1, ?_⟩
  have v : ∫ _q in P.region, momVal a b i j = P.volume * momVal a b i j := by
    rw [setIntegral_const, volume_region hP, smul_eq_mul]
  rw [v] at this
  exact this.2

end Choclo
