import Verif.Lemmas.Survey
import Verif.Props.HalfSpace
import Verif.Props.Independence2

/-! # Sources below the observation points: positive definite matrices -/

namespace Choclo

open Real Set MeasureTheory Filter Topology

/-- the normal attraction of a unit source at depth `h` under `x`, at the point `s` of the plane -/
noncomputable def pois (h : ℝ) (x s : ℝ × ℝ) : ℝ := h / rad h (s - x).1 (s - x).2 ^ 3

theorem rad_swap (h : ℝ) (x s : ℝ × ℝ) : rad h (s - x).1 (s - x).2 = rad h (x - s).1 (x - s).2 := by
  unfold rad
  congr 1
  simp only [Prod.fst_sub, Prod.snd_sub]
  ring

theorem pois_symm (h : ℝ) (x s : ℝ × ℝ) : pois h x s = pois h s x := by
  unfold pois; rw [rad_swap]

theorem foot_onPlane (a : Axis) (t : ℝ) (x : ℝ × ℝ) : (Pt.onPlane a t x).foot a = x := by cases a <;> rfl
theorem coord_onPlane (a : Axis) (t : ℝ) (x : ℝ × ℝ) : (Pt.onPlane a t x).coord a = t := by cases a <;> rfl

theorem dist3_planes (a : Axis) (t t' : ℝ) (s x : ℝ × ℝ) :
    dist3 (Pt.onPlane a t s) (Pt.onPlane a t' x) = rad (t - t') (s - x).1 (s - x).2 := by
  rw [dist3_foot, coord_onPlane, foot_onPlane]

theorem kern1_pois (a : Axis) (t t' : ℝ) (s x : ℝ × ℝ) :
    kpp (kern1 a) (Pt.onPlane a t s) (Pt.onPlane a t' x) = -pois (t - t') x s := by
  rw [kern1_plane, coord_onPlane, dist3_planes, pois]; ring

theorem continuous_pois {h : ℝ} (hh : 0 < h) (x : ℝ × ℝ) : Continuous (pois h x) := by
  unfold pois
  refine continuous_const.div (Continuous.pow ?_ 3) fun s => (pow_pos (rad_pos' hh.ne' _ _) 3).ne'
  unfold rad; fun_prop

/-- upward continuation by `h'` of the attraction of a source at depth `h` -/
theorem pois_semigroup {h h' : ℝ} (hh : 0 < h) (hh' : 0 < h') (x y : ℝ × ℝ) :
    Integrable (fun s => pois h x s * pois h' y s) ∧
    pois (h + h') x y = 1 / (2 * π) * ∫ s, pois h x s * pois h' y s := by
  have hq : (Pt.onPlane .u (-h) x).coord .u < 0 := by rw [coord_onPlane]; linarith
  have c := ((sources_point hq).upRep (kern1 .u)).continues (Pt.onPlane .u h' y) (by rw [coord_onPlane]; exact hh')
  have e : ∀ s, kpp (kern1 .u) (Pt.onPlane .u 0 s) (Pt.onPlane .u (-h) x) * upwardWeight .u 0 (Pt.onPlane .u h' y) s =
      -(1 / (2 * π)) * (pois h x s * pois h' y s) := fun s => by
    rw [weight_kern, kern1_pois, kern1_pois, pois_symm (h' - 0) s y, sub_zero, zero_sub, neg_neg]
    ring
  simp only [e] at c
  have k : -(1 / (2 * π)) ≠ 0 := by have := Real.pi_pos; simp [this.ne']
  obtain ⟨c1, c2⟩ := c
  refine ⟨(integrable_const_mul_iff (isUnit_iff_ne_zero.2 k) _).1 c1, ?_⟩
  rw [integral_const_mul, kern1_pois, sub_neg_eq_add, add_comm h'] at c2
  linarith

variable {ι : Type*} [Fintype ι] {x : ι → ℝ × ℝ} {c : ι → ℝ}

/-- the attraction of sources with masses `c` under the points `x` -/
noncomputable def srcField (x : ι → ℝ × ℝ) (c : ι → ℝ) (h : ℝ) (s : ℝ × ℝ) : ℝ := ∑ i, c i * pois h (x i) s

/-- the quadratic form of the matrix of attractions -/
noncomputable def form (x : ι → ℝ × ℝ) (c : ι → ℝ) (h : ℝ) : ℝ := ∑ i, c i * srcField x c h (x i)

theorem continuous_field {h : ℝ} (hh : 0 < h) : Continuous (srcField x c h) := by
  unfold srcField
  exact continuous_finsetSum _ fun i _ => continuous_const.mul (continuous_pois hh _)

theorem form_split {h h' : ℝ} (hh : 0 < h) (hh' : 0 < h') :
    Integrable (fun s => srcField x c h s * srcField x c h' s) ∧
    form x c (h + h') = 1 / (2 * π) * ∫ s, srcField x c h s * srcField x c h' s := by
  have e : ∀ s, srcField x c h s * srcField x c h' s = ∑ i, ∑ j, c i * c j * (pois h (x j) s * pois h' (x i) s) := fun s => by
    unfold srcField
    rw [mul_comm, Finset.sum_mul_sum]
    refine Finset.sum_congr rfl fun i _ => Finset.sum_congr rfl fun j _ => ?_
    ring
  have i1 : ∀ i j, Integrable fun s => c i * c j * (pois h (x j) s * pois h' (x i) s) := fun i j =>
    (pois_semigroup hh hh' (x j) (x i)).1.const_mul _
  simp only [e]
  refine ⟨integrable_finsetSum _ fun i _ => integrable_finsetSum _ fun j _ => i1 i j, ?_⟩
  rw [integral_finsetSum _ fun i _ => integrable_finsetSum _ fun j _ => i1 i j, Finset.mul_sum]
  unfold form srcField
  refine Finset.sum_congr rfl fun i _ => ?_
  rw [integral_finsetSum _ fun j _ => i1 i j, Finset.mul_sum, Finset.mul_sum]
  refine Finset.sum_congr rfl fun j _ => ?_
  rw [integral_const_mul, (pois_semigroup hh hh' (x j) (x i)).2]
  ring

/-- no field on the plane: no sources -/
theorem field_zero (hx : Function.Injective x) {h : ℝ} (hh : 0 < h) (hz : ∀ s, srcField x c h s = 0) : c = 0 := by
  have hq : Function.Injective fun i => Pt.onPlane .u (-h) (x i) := fun i j e => hx (by
    have := congrArg (Pt.foot .u) e
    simpa only [foot_onPlane] using this)
  have up : UpwardContinues (fun p => ∑ i, c i * kpp (kern1 .u) p (Pt.onPlane .u (-h) (x i))) .u 0 := by
    intro p hp
    have u := fun i => ((sources_point (a := .u) (t := 0) (q := Pt.onPlane .u (-h) (x i))
      (by rw [coord_onPlane]; linarith)).upRep (kern1 .u)).continues p hp
    simp only [Finset.sum_mul, mul_assoc]
    refine ⟨integrable_finsetSum _ fun i _ => (u i).1.const_mul _, ?_⟩
    rw [integral_finsetSum _ fun i _ => (u i).1.const_mul _]
    refine Finset.sum_congr rfl fun i _ => ?_
    rw [integral_const_mul, (u i).2]
  have zero : ∀ p : Pt, 0 < p.coord .u → ∑ i, c i * kpp (kern1 .u) p (Pt.onPlane .u (-h) (x i)) = 0 := by
    intro p hp
    have e := (up p hp).2
    beta_reduce at e
    rw [← e]
    have : ∀ s, ∑ i, c i * kpp (kern1 .u) (Pt.onPlane .u 0 s) (Pt.onPlane .u (-h) (x i)) = 0 := fun s => by
      have := hz s
      unfold srcField at this
      rw [← neg_eq_zero, ← Finset.sum_neg_distrib] at this
      refine Eq.trans (Finset.sum_congr rfl fun i _ => ?_) this
      rw [kern1_pois, zero_sub, neg_neg]; ring
    simp only [this, zero_mul, integral_zero]
  obtain ⟨p, hp, key⟩ := C125_points .u hq (U := {p : Pt | 0 < p.coord .u}) (isOpen_above .u 0)
    ⟨((0, 0, 1) : Pt), by show (0:ℝ) < 1; norm_num⟩
  refine key c 0 fun k => ⟨fun i => Gc * c i * kpp (kern1 .u) (p k) (Pt.onPlane .u (-h) (x i)), fun i => 0, fun i => ?_, fun i => ?_, ?_⟩
  · exact Ex.pointGravity_fin .u ((hp k).2 i) (c i)
  · have := Ex.pointGravity_fin .u ((hp k).2 i) 0
    rw [mul_zero, zero_mul] at this
    exact this
  · rw [Finset.sum_const_zero]
    have := zero (p k) (hp k).1
    simp only [mul_assoc]
    rw [← Finset.mul_sum, this, mul_zero]

theorem form_pos (hx : Function.Injective x) (hc : c ≠ 0) {h : ℝ} (hh : 0 < h) : 0 < form x c h := by
  have h2 : 0 < h / 2 := by linarith
  obtain ⟨i, e⟩ := form_split (x := x) (c := c) h2 h2
  rw [add_halves] at e
  rw [e]
  have p2 := Real.pi_pos
  refine mul_pos (by positivity) ?_
  have nn : ∀ s, 0 ≤ srcField x c (h / 2) s * srcField x c (h / 2) s := fun s => mul_self_nonneg _
  refine lt_of_le_of_ne (integral_nonneg nn) fun hz => hc ?_
  have := (integral_eq_zero_iff_of_nonneg nn i).1 hz.symm
  have z := (((continuous_field (x := x) (c := c) h2).mul (continuous_field h2)).ae_eq_iff_eq volume continuous_const).1 this
  exact field_zero hx h2 fun s => mul_self_eq_zero.1 (congrFun z s)

/-- midpoint convexity -/
theorem form_convex {h d : ℝ} (hd : 0 < h - d) (hd' : 0 < h + d) : 2 * form x c h ≤ form x c (h - d) + form x c (h + d) := by
  have h1 : 0 < (h - d) / 2 := by linarith
  have h2 : 0 < (h + d) / 2 := by linarith
  obtain ⟨i11, e11⟩ := form_split (x := x) (c := c) h1 h1
  obtain ⟨i22, e22⟩ := form_split (x := x) (c := c) h2 h2
  obtain ⟨i12, e12⟩ := form_split (x := x) (c := c) h1 h2
  rw [add_halves] at e11 e22
  rw [show (h - d) / 2 + (h + d) / 2 = h by ring] at e12
  rw [e11, e22, e12]
  have p2 := Real.pi_pos
  have : 0 ≤ ∫ s, (srcField x c ((h - d) / 2) s - srcField x c ((h + d) / 2) s) ^ 2 := integral_nonneg fun s => sq_nonneg _
  have e : ∀ s, (srcField x c ((h - d) / 2) s - srcField x c ((h + d) / 2) s) ^ 2 =
      (srcField x c ((h - d) / 2) s * srcField x c ((h - d) / 2) s + srcField x c ((h + d) / 2) s * srcField x c ((h + d) / 2) s)
        - 2 * (srcField x c ((h - d) / 2) s * srcField x c ((h + d) / 2) s) := fun s => by ring
  simp only [e] at this
  rw [integral_sub (f := fun s => srcField x c ((h - d) / 2) s * srcField x c ((h - d) / 2) s
      + srcField x c ((h + d) / 2) s * srcField x c ((h + d) / 2) s) (i11.add i22) (i12.const_mul 2),
    integral_add i11 i22, integral_const_mul] at this
  have k : 0 < 1 / (2 * π) := by positivity
  nlinarith [mul_le_mul_of_nonneg_left (sub_nonneg.1 this) k.le]

theorem hasDerivAt_rad {x y : ℝ} {h : ℝ} (hh : 0 < h) : HasDerivAt (fun h => rad h x y) (h / rad h x y) h := by
  have p : 0 < h ^ 2 + x ^ 2 + y ^ 2 := by positivity
  unfold rad
  have h1 : HasDerivAt (fun h : ℝ => h ^ 2 + x ^ 2 + y ^ 2) (2 * h) h := by
    simpa using ((hasDerivAt_pow 2 h).add_const (x ^ 2)).add_const (y ^ 2)
  refine (h1.sqrt p.ne').congr_deriv ?_
  have := Real.sqrt_pos.2 p
  field_simp

theorem hasDerivAt_inv_rad {x y : ℝ} {h : ℝ} (hh : 0 < h) : HasDerivAt (fun h => 1 / rad h x y) (-(h / rad h x y ^ 3)) h := by
  have r := rad_pos' hh.ne' x y
  simp only [one_div]
  refine ((hasDerivAt_rad hh).fun_inv r.ne').congr_deriv ?_
  field_simp

theorem hasDerivAt_pois {h : ℝ} (hh : 0 < h) (x s : ℝ × ℝ) :
    HasDerivAt (fun h => pois h x s) (-(3 * h ^ 2 / rad h (s - x).1 (s - x).2 ^ 5 - 1 / rad h (s - x).1 (s - x).2 ^ 3)) h := by
  have r := rad_pos' hh.ne' (s - x).1 (s - x).2
  unfold pois
  refine ((hasDerivAt_id h).fun_div ((hasDerivAt_rad hh).fun_pow 3) (pow_pos r 3).ne').congr_deriv ?_
  simp only [id]
  field_simp
  ring

theorem le_rad (h x y : ℝ) : h ≤ rad h x y := Real.le_sqrt_of_sq_le (by nlinarith [sq_nonneg x, sq_nonneg y])

theorem tendsto_inv_rad (x y : ℝ) : Tendsto (fun h => 1 / rad h x y) atTop (𝓝 0) := by
  simp only [one_div]
  exact (tendsto_atTop_mono (fun h => le_rad h x y) tendsto_id).inv_tendsto_atTop

theorem tendsto_pois (x s : ℝ × ℝ) : Tendsto (fun h => pois h x s) atTop (𝓝 0) := by
  refine squeeze_zero' ?_ ?_ (tendsto_inv_rad (s - x).1 (s - x).2)
  · filter_upwards [eventually_gt_atTop 0] with h hh
    exact div_nonneg hh.le (pow_nonneg (rad_pos' hh.ne' _ _).le 3)
  · filter_upwards [eventually_ge_atTop 1] with h hh
    have h0 : 0 < h := by linarith
    have r := rad_pos' h0.ne' (s - x).1 (s - x).2
    have l := le_rad h (s - x).1 (s - x).2
    unfold pois
    rw [div_le_div_iff₀ (pow_pos r 3) r]
    have : 1 ≤ rad h (s - x).1 (s - x).2 := hh.trans l
    nlinarith [mul_le_mul_of_nonneg_right l r.le, mul_le_mul_of_nonneg_right this (pow_pos r 2).le]

/-- the form of the potentials -/
noncomputable def formPot (x : ι → ℝ × ℝ) (c : ι → ℝ) (h : ℝ) : ℝ :=
  ∑ i, c i * ∑ j, c j * (1 / rad h (x i - x j).1 (x i - x j).2)

/-- the form of the normal gradients -/
noncomputable def formGrad (x : ι → ℝ × ℝ) (c : ι → ℝ) (h : ℝ) : ℝ :=
  ∑ i, c i * ∑ j, c j * (3 * h ^ 2 / rad h (x i - x j).1 (x i - x j).2 ^ 5 - 1 / rad h (x i - x j).1 (x i - x j).2 ^ 3)

theorem hasDerivAt_formPot {h : ℝ} (hh : 0 < h) : HasDerivAt (formPot x c) (-form x c h) h := by
  unfold formPot form srcField
  rw [← Finset.sum_neg_distrib]
  refine HasDerivAt.fun_sum fun i _ => ?_
  rw [← mul_neg, ← Finset.sum_neg_distrib]
  refine HasDerivAt.const_mul _ (HasDerivAt.fun_sum fun j _ => ?_)
  rw [← mul_neg]
  exact (hasDerivAt_inv_rad hh).const_mul _

theorem hasDerivAt_form {h : ℝ} (hh : 0 < h) : HasDerivAt (form x c) (-formGrad x c h) h := by
  unfold formGrad form srcField
  rw [← Finset.sum_neg_distrib]
  refine HasDerivAt.fun_sum fun i _ => ?_
  rw [← mul_neg, ← Finset.sum_neg_distrib]
  refine HasDerivAt.const_mul _ (HasDerivAt.fun_sum fun j _ => ?_)
  rw [← mul_neg]
  exact (hasDerivAt_pois hh _ _).const_mul _

theorem tendsto_formPot : Tendsto (formPot x c) atTop (𝓝 0) := by
  have : Tendsto (formPot x c) atTop (𝓝 (∑ i, c i * ∑ j, c j * 0)) :=
    tendsto_finsetSum _ fun i _ => Tendsto.const_mul _ (tendsto_finsetSum _ fun j _ => (tendsto_inv_rad _ _).const_mul _)
  simpa using this

theorem tendsto_form : Tendsto (form x c) atTop (𝓝 0) := by
  have : Tendsto (form x c) atTop (𝓝 (∑ i, c i * ∑ j, c j * 0)) :=
    tendsto_finsetSum _ fun i _ => Tendsto.const_mul _ (tendsto_finsetSum _ fun j _ => (tendsto_pois _ _).const_mul _)
  simpa using this

theorem formPot_pos (hx : Function.Injective x) (hc : c ≠ 0) {h : ℝ} (hh : 0 < h) : 0 < formPot x c h := by
  have anti : StrictAntiOn (formPot x c) (Ioi 0) := by
    refine strictAntiOn_of_deriv_neg (convex_Ioi 0) (fun y hy => (hasDerivAt_formPot hy).continuousAt.continuousWithinAt) fun y hy => ?_
    rw [interior_Ioi] at hy
    rw [(hasDerivAt_formPot hy).deriv, neg_lt_zero]
    exact form_pos hx hc hy
  have h1 : formPot x c (h + 1) < formPot x c h := anti hh (show 0 < h + 1 by linarith) (by linarith)
  have h2 : 0 ≤ formPot x c (h + 1) := by
    refine le_of_tendsto (tendsto_formPot (x := x) (c := c)) ?_
    filter_upwards [eventually_gt_atTop (h + 1)] with y hy
    exact (anti (show 0 < h + 1 by linarith) (show 0 < y by linarith) hy).le
  linarith

/-- steps of a midpoint-convex function -/
theorem form_steps {h e : ℝ} (he : 0 < e) (hh : 0 < h - e) (n : ℕ) :
    form x c h + n * (form x c h - form x c (h - e)) ≤ form x c (h + n * e) := by
  have step : ∀ n : ℕ, form x c h - form x c (h - e) ≤ form x c (h + (n : ℝ) * e) - form x c (h + n * e - e) := by
    intro n
    induction n with
    | zero => simp
    | succ n ih =>
      have := form_convex (x := x) (c := c) (h := h + n * e) (d := e) (by nlinarith [Nat.cast_nonneg (α := ℝ) n])
        (by nlinarith [Nat.cast_nonneg (α := ℝ) n])
      push_cast
      rw [show h + ((n : ℝ) + 1) * e = h + n * e + e by ring, add_sub_cancel_right]
      linarith
  induction n with
  | zero => simp
  | succ n ih =>
    have := step (n + 1)
    push_cast at this ⊢
    rw [show h + ((n : ℝ) + 1) * e - e = h + n * e by ring] at this
    linarith

theorem formGrad_pos (hx : Function.Injective x) (hc : c ≠ 0) {h : ℝ} (hh : 0 < h) : 0 < formGrad x c h := by
  obtain ⟨d, hd, hl⟩ : ∃ d, 0 < d ∧ form x c (h + d) < form x c h := by
    have t : Tendsto (fun d => form x c (h + d)) atTop (𝓝 0) := (tendsto_form (x := x) (c := c)).comp (tendsto_atTop_add_const_left _ h tendsto_id)
    have := ((t.eventually_lt_const (form_pos hx hc hh)).and (eventually_gt_atTop 0)).exists
    obtain ⟨d, h1, h2⟩ := this
    exact ⟨d, h2, h1⟩
  have lim : Tendsto (fun n : ℕ => ((n : ℝ)) * (form x c h - form x c (h - d / n))) atTop (𝓝 (d * -formGrad x c h)) := by
    have hs := (hasDerivAt_form (x := x) (c := c) hh).tendsto_slope
    have u : Tendsto (fun n : ℕ => h - d / n) atTop (𝓝[≠] h) := by
      refine tendsto_nhdsWithin_iff.2 ⟨?_, ?_⟩
      · have : Tendsto (fun n : ℕ => h - d / (n : ℝ)) atTop (𝓝 (h - 0)) :=
          tendsto_const_nhds.sub (tendsto_const_div_atTop_nhds_zero_nat d)
        rwa [sub_zero] at this
      · filter_upwards [eventually_gt_atTop 0] with n hn
        have : 0 < d / (n : ℝ) := div_pos hd (Nat.cast_pos.2 hn)
        show h - d / n ≠ h
        linarith
    refine ((hs.comp u).const_mul d).congr' ?_
    filter_upwards [eventually_gt_atTop 0] with n hn
    have n0 : (n : ℝ) ≠ 0 := (Nat.cast_pos.2 hn).ne'
    simp only [Function.comp, slope_def_field]
    rw [show h - d / n - h = -(d / n) by ring]
    field_simp
    ring
  have bd : d * -formGrad x c h ≤ form x c (h + d) - form x c h := by
    refine le_of_tendsto lim ?_
    obtain ⟨N, hN⟩ := exists_nat_gt (d / h)
    filter_upwards [eventually_ge_atTop (N + 1)] with n hn
    have n1 : (N : ℝ) + 1 ≤ n := by exact_mod_cast hn
    have n0 : 0 < (n : ℝ) := by linarith [Nat.cast_nonneg (α := ℝ) N]
    have hd' : d / n < h := by
      rw [div_lt_iff₀ n0, mul_comm, ← div_lt_iff₀ hh]; linarith
    have := form_steps (x := x) (c := c) (div_pos hd n0) (show 0 < h - d / n by linarith) n
    rw [mul_div_cancel₀ _ n0.ne'] at this
    linarith
  nlinarith

end Choclo
