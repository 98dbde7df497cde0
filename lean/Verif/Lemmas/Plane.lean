import Mathlib.MeasureTheory.Integral.IntegralEqImproper
import Mathlib.Analysis.SpecialFunctions.ImproperIntegrals
import Verif.Lemmas.TwoD
import Verif.Lemmas.Flux
import Verif.Lemmas.Taylor
import Verif.Props.PrismBounds

/-! # Integrals over whole planes -/

namespace Choclo

open Real Set MeasureTheory Filter Topology

/-! ### along a line, then over a plane -/

theorem line_inv_sq {h : ℝ} (hh : 0 < h) :
    Integrable (fun y : ℝ => 1 / (h ^ 2 + y ^ 2)) ∧ ∫ y : ℝ, 1 / (h ^ 2 + y ^ 2) = π / h := by
  have e : (fun y : ℝ => 1 / (h ^ 2 + y ^ 2)) = fun y => (1 / h ^ 2) * (fun y : ℝ => (1 + y ^ 2)⁻¹) (y / h) := by
    funext y
    simp only
    field_simp
  rw [e]
  refine ⟨(integrable_inv_one_add_sq.comp_div hh.ne').const_mul _, ?_⟩
  rw [integral_const_mul, Measure.integral_comp_div (fun y : ℝ => (1 + y ^ 2)⁻¹), integral_univ_inv_one_add_sq,
    abs_of_pos hh, smul_eq_mul]
  field_simp

theorem tendsto_hyp_top {c : ℝ} (hc : 0 < c) :
    Tendsto (fun y => y / (c * hyp c y)) atTop (𝓝 (1 / c)) := by
  have h0 : Tendsto (fun y : ℝ => 1 / (2 * y ^ 2)) atTop (𝓝 0) := by
    have : Tendsto (fun y : ℝ => 2 * y ^ 2) atTop atTop :=
      (tendsto_pow_atTop two_ne_zero).const_mul_atTop two_pos
    simp only [one_div]
    exact this.inv_tendsto_atTop
  have h1 : Tendsto (fun y => 1 / c - y / (c * hyp c y)) atTop (𝓝 0) := by
    refine tendsto_of_tendsto_of_tendsto_of_le_of_le' tendsto_const_nhds h0 ?_ ?_
    · filter_upwards [eventually_gt_atTop 0] with y hy using (end3 hc hy le_rfl).1
    · filter_upwards [eventually_gt_atTop 0] with y hy using (end3 hc hy le_rfl).2
  have := (tendsto_const_nhds (x := 1 / c)).sub h1
  simpa using this

theorem line_hyp3 {c : ℝ} (hc : 0 < c) :
    Integrable (fun y : ℝ => 1 / hyp c y ^ 3) ∧ ∫ y : ℝ, 1 / hyp c y ^ 3 = 2 / c := by
  have i : Integrable (fun y : ℝ => 1 / hyp c y ^ 3) := by
    have s : 0 < √c := Real.sqrt_pos.2 hc
    refine (((line_inv_sq s).1).const_mul (1 / √c)).mono'
      (continuous_const.div ((continuous_hyp c).pow 3) fun y => (pow_pos (hyp_pos hc y) 3).ne').aestronglyMeasurable
      (Eventually.of_forall fun y => ?_)
    have h := hyp_pos hc y
    have l : √c ≤ hyp c y := Real.sqrt_le_sqrt (by nlinarith [sq_nonneg y])
    rw [Real.norm_of_nonneg (by positivity), Real.sq_sqrt hc.le, ← hyp_sq hc y, one_div_mul_one_div]
    refine one_div_le_one_div_of_le (by positivity) ?_
    rw [show hyp c y ^ 3 = hyp c y * hyp c y ^ 2 by ring]
    exact mul_le_mul_of_nonneg_right l (by positivity)
  refine ⟨i, ?_⟩
  rw [integral_of_hasDerivAt_of_tendsto (f := fun y => y / (c * hyp c y)) (m := -(1 / c)) (n := 1 / c) ?_ i ?_
    (tendsto_hyp_top hc)]
  · ring
  · intro y
    have h := hyp_pos hc y
    have := (hasDerivAt_id y).fun_div ((hasDerivAt_hyp hc y).const_mul c) (by positivity)
    refine this.congr_deriv ?_
    simp only [id]
    have s := hyp_sq hc y
    field_simp
    linear_combination s
  · have := ((tendsto_hyp_top hc).comp tendsto_neg_atBot_atTop).neg
    refine this.congr fun y => ?_
    simp only [Function.comp, hyp_neg]
    ring

theorem rad_hyp' (h x y : ℝ) : rad h x y = hyp (h ^ 2 + x ^ 2) y := by
  unfold rad hyp; rfl

theorem rad_pos' {h : ℝ} (hh : h ≠ 0) (x y : ℝ) : 0 < rad h x y := by
  unfold rad; exact Real.sqrt_pos.2 (by positivity)

theorem plane_rad3 {h : ℝ} (hh : h ≠ 0) :
    Integrable (fun s : ℝ × ℝ => 1 / rad h s.1 s.2 ^ 3) ∧ ∫ s : ℝ × ℝ, 1 / rad h s.1 s.2 ^ 3 = 2 * π / |h| := by
  have hc : ∀ x : ℝ, 0 < h ^ 2 + x ^ 2 := fun x => by positivity
  have sq : (fun x : ℝ => 2 / (h ^ 2 + x ^ 2)) = fun x => 2 * (1 / (|h| ^ 2 + x ^ 2)) := by
    funext x; rw [sq_abs]; ring
  have i2 := line_inv_sq (abs_pos.2 hh)
  have i : Integrable (fun s : ℝ × ℝ => 1 / rad h s.1 s.2 ^ 3) (volume.prod volume) := by
    have m : Continuous fun s : ℝ × ℝ => 1 / rad h s.1 s.2 ^ 3 := by
      refine continuous_const.div (Continuous.pow ?_ 3) fun s => (pow_pos (rad_pos' hh _ _) 3).ne'
      unfold rad; fun_prop
    rw [integrable_prod_iff m.aestronglyMeasurable]
    refine ⟨Eventually.of_forall fun x => ?_, ?_⟩
    · simp only [rad_hyp']; exact (line_hyp3 (hc x)).1
    · have e : (fun x : ℝ => ∫ y : ℝ, ‖1 / rad h x y ^ 3‖) = fun x => 2 / (h ^ 2 + x ^ 2) := by
        funext x
        rw [← (line_hyp3 (hc x)).2]
        congr 1; funext y
        have := rad_pos' hh x y
        rw [Real.norm_of_nonneg (by positivity), rad_hyp']
      simp only [e, sq]
      exact i2.1.const_mul 2
  refine ⟨i, ?_⟩
  rw [Measure.volume_eq_prod, integral_prod _ i]
  simp only [rad_hyp', (line_hyp3 (hc _)).2, sq]
  rw [integral_const_mul, i2.2]
  ring

theorem plane_rad3_shift {h : ℝ} (hh : h ≠ 0) (a b : ℝ) :
    Integrable (fun s : ℝ × ℝ => 1 / rad h (s.1 - a) (s.2 - b) ^ 3) ∧
    ∫ s : ℝ × ℝ, 1 / rad h (s.1 - a) (s.2 - b) ^ 3 = 2 * π / |h| := by
  obtain ⟨h1, h2⟩ := plane_rad3 hh
  refine ⟨h1.comp_sub_right (a, b), ?_⟩
  rw [← h2]
  exact integral_sub_right_eq_self (fun s : ℝ × ℝ => 1 / rad h s.1 s.2 ^ 3) (a, b)

/-! ### derivatives across the plane -/

theorem plane_zero_fst {F F' : ℝ × ℝ → ℝ} (hd : ∀ x y, HasDerivAt (fun x => F (x, y)) (F' (x, y)) x)
    (hi : Integrable F') (ht : ∀ y, Tendsto (fun x => F (x, y)) atTop (𝓝 0))
    (hb : ∀ y, Tendsto (fun x => F (x, y)) atBot (𝓝 0)) : ∫ s, F' s = 0 := by
  have hi' : Integrable F' (volume.prod volume) := hi
  rw [Measure.volume_eq_prod, integral_prod_symm _ hi', ← integral_zero (α := ℝ) (G := ℝ) (μ := volume)]
  refine integral_congr_ae ?_
  filter_upwards [hi'.prod_left_ae] with y hy
  rw [integral_of_hasDerivAt_of_tendsto (fun x => hd x y) hy (hb y) (ht y), sub_zero]

theorem plane_zero_snd {F F' : ℝ × ℝ → ℝ} (hd : ∀ x y, HasDerivAt (fun y => F (x, y)) (F' (x, y)) y)
    (hi : Integrable F') (ht : ∀ x, Tendsto (fun y => F (x, y)) atTop (𝓝 0))
    (hb : ∀ x, Tendsto (fun y => F (x, y)) atBot (𝓝 0)) : ∫ s, F' s = 0 := by
  have hi' : Integrable F' (volume.prod volume) := hi
  rw [Measure.volume_eq_prod, integral_prod _ hi', ← integral_zero (α := ℝ) (G := ℝ) (μ := volume)]
  refine integral_congr_ae ?_
  filter_upwards [hi'.prod_right_ae] with x hx
  rw [integral_of_hasDerivAt_of_tendsto (fun y => hd x y) hx (hb x) (ht x), sub_zero]

theorem decay_line {f : ℝ → ℝ} {K x0 : ℝ} (h : ∀ x, |f x| ≤ K / (x - x0) ^ 2 ∨ x = x0) :
    Tendsto f atTop (𝓝 0) ∧ Tendsto f atBot (𝓝 0) := by
  have key : ∀ l : Filter ℝ, Tendsto (fun x : ℝ => (x - x0) ^ 2) l atTop → (∀ᶠ x in l, x ≠ x0) →
      Tendsto f l (𝓝 0) := by
    intro l hl hn
    have h0 : Tendsto (fun x : ℝ => K / (x - x0) ^ 2) l (𝓝 0) := hl.const_div_atTop K
    refine squeeze_zero_norm' ?_ h0
    filter_upwards [hn] with x hx
    exact (h x).resolve_right hx
  constructor
  · refine key _ ?_ (eventually_ne_atTop x0)
    exact (tendsto_pow_atTop two_ne_zero).comp (tendsto_atTop_add_const_right _ (-x0) tendsto_id)
  · refine key _ ?_ (eventually_ne_atBot x0)
    have : Tendsto (fun x : ℝ => (-(x - x0)) ^ 2) atBot atTop :=
      (tendsto_pow_atTop two_ne_zero).comp
        (tendsto_neg_atBot_atTop.comp (tendsto_atBot_add_const_right _ (-x0) tendsto_id))
    simpa only [neg_sq] using this

theorem off_plane {a : Axis} {t : ℝ} {q : Pt} (h : t ≠ q.coord a) (s : ℝ × ℝ) : Pt.onPlane a t s ≠ q := by
  rintro rfl
  exact h (by cases a <;> rfl)

theorem coord_sub_sq_le (p q : Pt) (a : Axis) : (p.coord a - q.coord a) ^ 2 ≤ dist3 p q ^ 2 := by
  unfold dist3
  rw [Real.sq_sqrt (by positivity)]
  cases a <;> simp only [Pt.coord] <;> nlinarith [sq_nonneg (p.e - q.e), sq_nonneg (p.n - q.n), sq_nonneg (p.u - q.u)]

theorem plane_kernel_zero {a b : Axis} (hab : b ≠ a) {c c' : KComp} (hc : c.Succ c' b) {t : ℝ} {q : Pt}
    (h : t ≠ q.coord a) {K : ℝ} (hK : 0 ≤ K) (hb : ∀ p : Pt, p ≠ q → p.coord a = t → |kpp c p q| ≤ K / dist3 p q ^ 2)
    (hi : Integrable fun s => kpp c' (Pt.onPlane a t s) q) : ∫ s, kpp c' (Pt.onPlane a t s) q = 0 := by
  have low : ∀ p : Pt, p ≠ q → p.coord a = t → |kpp c p q| ≤ K / (p.coord b - q.coord b) ^ 2 ∨ p.coord b = q.coord b := by
    intro p hp ha
    rcases eq_or_ne (p.coord b) (q.coord b) with e | e
    · exact Or.inr e
    · refine Or.inl ((hb p hp ha).trans ?_)
      have : 0 < (p.coord b - q.coord b) ^ 2 := by have := sub_ne_zero.2 e; positivity
      exact div_le_div_of_nonneg_left hK this (coord_sub_sq_le p q b)
  have hd := fun (p : Pt) (hp : p ≠ q) => kp_deriv c c' b hc hp
  have on : ∀ s, (Pt.onPlane a t s).coord a = t := fun s => by cases a <;> rfl
  have fst : (∀ s : ℝ × ℝ, (Pt.onPlane a t s).coord b = s.1) → (∀ (s : ℝ × ℝ) x, (Pt.onPlane a t s).set b x = Pt.onPlane a t (x, s.2)) →
      ∫ s, kpp c' (Pt.onPlane a t s) q = 0 := by
    intro h1 h2
    have l : ∀ y x, |kpp c (Pt.onPlane a t (x, y)) q| ≤ K / (x - q.coord b) ^ 2 ∨ x = q.coord b := by
      intro y x
      have := low _ (off_plane h (x, y)) (on _)
      rwa [h1] at this
    refine plane_zero_fst (F := fun s => kpp c (Pt.onPlane a t s) q) (fun x y => ?_) hi
        (fun y => (decay_line (l y)).1) (fun y => (decay_line (l y)).2)
    have := hd _ (off_plane h (x, y))
    rw [h1] at this
    simp only [h2] at this
    exact this
  have snd : (∀ s : ℝ × ℝ, (Pt.onPlane a t s).coord b = s.2) → (∀ (s : ℝ × ℝ) x, (Pt.onPlane a t s).set b x = Pt.onPlane a t (s.1, x)) →
      ∫ s, kpp c' (Pt.onPlane a t s) q = 0 := by
    intro h1 h2
    have l : ∀ x y, |kpp c (Pt.onPlane a t (x, y)) q| ≤ K / (y - q.coord b) ^ 2 ∨ y = q.coord b := by
      intro x y
      have := low _ (off_plane h (x, y)) (on _)
      rwa [h1] at this
    refine plane_zero_snd (F := fun s => kpp c (Pt.onPlane a t s) q) (fun x y => ?_) hi
        (fun x => (decay_line (l x)).1) (fun x => (decay_line (l x)).2)
    have := hd _ (off_plane h (x, y))
    rw [h1] at this
    simp only [h2] at this
    exact this
  cases a <;> cases b
  · exact absurd rfl hab
  · exact fst (fun _ => rfl) (fun _ _ => rfl)
  · exact snd (fun _ => rfl) (fun _ _ => rfl)
  · exact fst (fun _ => rfl) (fun _ _ => rfl)
  · exact absurd rfl hab
  · exact snd (fun _ => rfl) (fun _ _ => rfl)
  · exact fst (fun _ => rfl) (fun _ _ => rfl)
  · exact snd (fun _ => rfl) (fun _ _ => rfl)
  · exact absurd rfl hab

/-! ### the kernels over a plane -/

theorem measurable_onPlane (a : Axis) (t : ℝ) : Measurable (Pt.onPlane a t) := by
  cases a <;> unfold Pt.onPlane <;> dsimp only <;> fun_prop

theorem measurable_kp_comp {α : Type*} [MeasurableSpace α] (c : KComp) {f g h : α → ℝ} (hf : Measurable f)
    (hg : Measurable g) (hh : Measurable h) : Measurable fun w => kp c (f w) (g w) (h w) :=
  by
  have hr : Measurable fun w => rad (f w) (g w) (h w) := by unfold rad; fun_prop
  cases c <;> simp only [kp] <;> fun_prop

theorem measurable_kpp_plane (c : KComp) (a : Axis) (t : ℝ) :
    Measurable fun w : (ℝ × ℝ) × Pt => kpp c (Pt.onPlane a t w.1) w.2 := by
  unfold kpp
  cases a <;> simp only [Pt.onPlane, Pt.e, Pt.n, Pt.u] <;>
    exact measurable_kp_comp c (by fun_prop) (by fun_prop) (by fun_prop)

theorem dist3_onPlane (a : Axis) (t : ℝ) (s : ℝ × ℝ) (q : Pt) : dist3 (Pt.onPlane a t s) q =
    rad (t - q.coord a)
      (s.1 - match a with | .e => q.n | .n => q.e | .u => q.e)
      (s.2 - match a with | .e => q.u | .n => q.u | .u => q.n) := by
  cases a <;> simp only [dist3, rad, Pt.onPlane, Pt.coord, Pt.e, Pt.n, Pt.u] <;> congr 1 <;> ring

theorem plane_dist3 (a : Axis) {t : ℝ} {q : Pt} (h : t ≠ q.coord a) :
    Integrable (fun s => 1 / dist3 (Pt.onPlane a t s) q ^ 3) ∧
    ∫ s, 1 / dist3 (Pt.onPlane a t s) q ^ 3 = 2 * π / |t - q.coord a| := by
  simp only [dist3_onPlane]
  exact plane_rad3_shift (sub_ne_zero.2 h) _ _

theorem measurable_kpp_slice (c : KComp) (a : Axis) (t : ℝ) (q : Pt) :
    Measurable fun s : ℝ × ℝ => kpp c (Pt.onPlane a t s) q := by
  unfold kpp
  cases a <;> simp only [Pt.onPlane, Pt.e, Pt.n, Pt.u] <;>
    exact measurable_kp_comp c (by fun_prop) (by fun_prop) (by fun_prop)

theorem plane_integrable {c : KComp} (a : Axis) {t K : ℝ} {q : Pt} (h : t ≠ q.coord a)
    (hK : ∀ p : Pt, p ≠ q → p.coord a = t → |kpp c p q| ≤ K / dist3 p q ^ 3) :
    Integrable fun s => kpp c (Pt.onPlane a t s) q := by
  refine ((plane_dist3 a h).1.const_mul K).mono' (measurable_kpp_slice c a t q).aestronglyMeasurable
    (Eventually.of_forall fun s => ?_)
  have := hK _ (off_plane h s) (by cases a <;> rfl)
  rw [Real.norm_eq_abs]
  exact this.trans (le_of_eq (by ring))

theorem abs_kern1_le (a : Axis) {p q : Pt} (h : p ≠ q) : |kpp (kern1 a) p q| ≤ 1 / dist3 p q ^ 2 := by
  have d : 0 < dist3 p q := dist3_pos h
  have e : kpp (kern1 a) p q = (q.coord a - p.coord a) / dist3 p q ^ 3 := by rw [← acc_toK, kpp_acc_dist]
  have l : |q.coord a - p.coord a| ≤ dist3 p q := by
    rw [abs_sub_comm]
    exact abs_le_of_sq_le_sq (coord_sub_sq_le p q a) d.le
  rw [e, abs_div, abs_of_pos (pow_pos d 3), div_le_div_iff₀ (by positivity) (by positivity)]
  nlinarith [pow_pos d 2]

theorem kern1_plane (a : Axis) {t : ℝ} {q : Pt} (s : ℝ × ℝ) :
    kpp (kern1 a) (Pt.onPlane a t s) q = (q.coord a - t) * (1 / dist3 (Pt.onPlane a t s) q ^ 3) := by
  rw [← acc_toK, kpp_acc_dist, show (Pt.onPlane a t s).coord a = t by cases a <;> rfl]
  ring

/-- the normal acceleration of a unit source over a plane -/
theorem plane_kern1 (a : Axis) {t : ℝ} {q : Pt} (h : t ≠ q.coord a) :
    Integrable (fun s => kpp (kern1 a) (Pt.onPlane a t s) q) ∧
    ∫ s, kpp (kern1 a) (Pt.onPlane a t s) q = if q.coord a < t then -(2 * π) else 2 * π := by
  obtain ⟨h1, h2⟩ := plane_dist3 a h
  simp only [kern1_plane]
  refine ⟨h1.const_mul _, ?_⟩
  rw [integral_const_mul, h2]
  split_ifs with hl
  · rw [abs_of_pos (by linarith)]
    have : t - q.coord a ≠ 0 := sub_ne_zero.2 h
    field_simp; ring
  · have hl' : t < q.coord a := lt_of_le_of_ne (not_lt.1 hl) h
    rw [abs_of_neg (by linarith)]
    have : q.coord a - t ≠ 0 := by linarith
    rw [neg_sub]; field_simp

theorem plane_norm_kern1 (a : Axis) {t : ℝ} {q : Pt} (h : t ≠ q.coord a) :
    ∫ s, ‖kpp (kern1 a) (Pt.onPlane a t s) q‖ = 2 * π := by
  obtain ⟨h1, h2⟩ := plane_dist3 a h
  have e : ∀ s, ‖kpp (kern1 a) (Pt.onPlane a t s) q‖ = |t - q.coord a| * (1 / dist3 (Pt.onPlane a t s) q ^ 3) := by
    intro s
    rw [kern1_plane, norm_mul, Real.norm_eq_abs, abs_sub_comm, Real.norm_of_nonneg]
    have := dist3_pos (off_plane h s)
    positivity
  simp only [e]
  rw [integral_const_mul, h2]
  have : |t - q.coord a| ≠ 0 := abs_ne_zero.2 (sub_ne_zero.2 h)
  field_simp

theorem dist_ge (p q : Pt) (a : Axis) : |p.coord a - q.coord a| ≤ dist3 p q :=
  abs_le_of_sq_le_sq (coord_sub_sq_le p q a) (Real.sqrt_nonneg _)

theorem kern3_le_cube {a : Axis} {p q : Pt} {t : ℝ} (h : p.coord a = t) (ht : t ≠ q.coord a) (i j k : Axis) :
    |kpp (kern3 i j k) p q| ≤ 6 / |t - q.coord a| / dist3 p q ^ 3 := by
  have hp : p ≠ q := fun e => ht (by rw [← h, e])
  have d := dist3_pos hp
  have l := dist_ge p q a
  rw [h] at l
  have h0 : 0 < |t - q.coord a| := abs_pos.2 (sub_ne_zero.2 ht)
  refine (abs_kern3_le i j k hp).trans ?_
  rw [div_div, pow_succ' _ 3]
  gcongr

theorem kern2_le_sq {a : Axis} {p q : Pt} {t : ℝ} (h : p.coord a = t) (ht : t ≠ q.coord a) (i j : Axis) :
    |kpp (kern2 i j) p q| ≤ 2 / |t - q.coord a| / dist3 p q ^ 2 := by
  have hp : p ≠ q := fun e => ht (by rw [← h, e])
  have d := dist3_pos hp
  have l := dist_ge p q a
  rw [h] at l
  have h0 : 0 < |t - q.coord a| := abs_pos.2 (sub_ne_zero.2 ht)
  refine (abs_kern2_le i j hp).trans ?_
  rw [div_div, pow_succ' _ 2]
  gcongr

theorem kern2_symm (i j : Axis) : kern2 i j = kern2 j i := by cases i <;> cases j <;> rfl

/-- the second-order kernels integrate to zero over any plane that misses the source -/
theorem plane_kern2 (a i j : Axis) {t : ℝ} {q : Pt} (h : t ≠ q.coord a) :
    Integrable (fun s => kpp (kern2 i j) (Pt.onPlane a t s) q) ∧
    ∫ s, kpp (kern2 i j) (Pt.onPlane a t s) q = 0 := by
  have it : ∀ i j, Integrable fun s => kpp (kern2 i j) (Pt.onPlane a t s) q := fun i j =>
    plane_integrable a h (fun p hp _ => abs_kern2_le i j hp)
  have z : ∀ i j, i ≠ a → ∫ s, kpp (kern2 i j) (Pt.onPlane a t s) q = 0 := fun i j hi =>
    plane_kernel_zero hi (kern_succ j i) h zero_le_one (fun p hp _ => abs_kern1_le j hp) (it i j)
  refine ⟨it i j, ?_⟩
  by_cases hi : i = a
  · by_cases hj : j = a
    · subst hi hj
      have tr : ∀ s, kpp .ee (Pt.onPlane j t s) q + kpp .nn (Pt.onPlane j t s) q + kpp .uu (Pt.onPlane j t s) q = 0 :=
        fun s => kp_trace .ee .nn .uu _ _ _ (rad_ne (off_plane h s)) (by simp)
      cases j
      · have e : ∀ s, kpp (kern2 .e .e) (Pt.onPlane .e t s) q =
            -(kpp (kern2 .n .n) (Pt.onPlane .e t s) q + kpp (kern2 .u .u) (Pt.onPlane .e t s) q) := fun s => by
          have := tr s; simp only [kern2]; linarith
        simp only [e]
        rw [integral_neg, integral_add (it _ _) (it _ _), z .n .n (by decide), z .u .u (by decide)]; simp
      · have e : ∀ s, kpp (kern2 .n .n) (Pt.onPlane .n t s) q =
            -(kpp (kern2 .e .e) (Pt.onPlane .n t s) q + kpp (kern2 .u .u) (Pt.onPlane .n t s) q) := fun s => by
          have := tr s; simp only [kern2]; linarith
        simp only [e]
        rw [integral_neg, integral_add (it _ _) (it _ _), z .e .e (by decide), z .u .u (by decide)]; simp
      · have e : ∀ s, kpp (kern2 .u .u) (Pt.onPlane .u t s) q =
            -(kpp (kern2 .e .e) (Pt.onPlane .u t s) q + kpp (kern2 .n .n) (Pt.onPlane .u t s) q) := fun s => by
          have := tr s; simp only [kern2]; linarith
        simp only [e]
        rw [integral_neg, integral_add (it _ _) (it _ _), z .e .e (by decide), z .n .n (by decide)]; simp
    · rw [kern2_symm]; exact z j i hj
  · exact z i j hi

theorem kern3_symm (i j k : Axis) : kern3 i j k = kern3 j i k ∧ kern3 i j k = kern3 i k j := by
  cases i <;> cases j <;> cases k <;> exact ⟨rfl, rfl⟩

theorem plane_kern3 (a i j k : Axis) {t : ℝ} {q : Pt} (h : t ≠ q.coord a) :
    Integrable (fun s => kpp (kern3 i j k) (Pt.onPlane a t s) q) ∧
    ∫ s, kpp (kern3 i j k) (Pt.onPlane a t s) q = 0 := by
  have it : ∀ i j k, Integrable fun s => kpp (kern3 i j k) (Pt.onPlane a t s) q := fun i j k =>
    plane_integrable a h (fun p hp ha => kern3_le_cube ha h i j k)
  have z : ∀ i j k, j ≠ a → ∫ s, kpp (kern3 i j k) (Pt.onPlane a t s) q = 0 := fun i j k hj =>
    plane_kernel_zero hj (kern2_succ i j k) h (K := 2 / |t - q.coord a|) (by positivity)
      (fun p hp ha => kern2_le_sq ha h i k) (it i j k)
  refine ⟨it i j k, ?_⟩
  by_cases hj : j = a
  · by_cases hi : i = a
    · by_cases hk : k = a
      · subst hi hj hk
        have tr : ∀ (c1 c2 c3 : KComp) (s : ℝ × ℝ), (c1, c2, c3) ∈ [(KComp.ee, KComp.nn, KComp.uu), (.eee, .nne, .uue),
            (.een, .nnn, .uun), (.eeu, .nnu, .uuu)] →
            kpp c1 (Pt.onPlane k t s) q + kpp c2 (Pt.onPlane k t s) q + kpp c3 (Pt.onPlane k t s) q = 0 :=
          fun c1 c2 c3 s hc => kp_trace c1 c2 c3 _ _ _ (rad_ne (off_plane h s)) hc
        cases k
        · have e : ∀ s, kpp (kern3 .e .e .e) (Pt.onPlane .e t s) q =
              -(kpp (kern3 .n .n .e) (Pt.onPlane .e t s) q + kpp (kern3 .u .u .e) (Pt.onPlane .e t s) q) := fun s => by
            have := tr .eee .nne .uue s (by simp); simp only [kern3]; linarith
          simp only [e]
          rw [integral_neg, integral_add (it _ _ _) (it _ _ _), z .n .n .e (by decide), z .u .u .e (by decide)]; simp
        · have e : ∀ s, kpp (kern3 .n .n .n) (Pt.onPlane .n t s) q =
              -(kpp (kern3 .e .e .n) (Pt.onPlane .n t s) q + kpp (kern3 .u .u .n) (Pt.onPlane .n t s) q) := fun s => by
            have := tr .een .nnn .uun s (by simp); simp only [kern3]; linarith
          simp only [e]
          rw [integral_neg, integral_add (it _ _ _) (it _ _ _), z .e .e .n (by decide), z .u .u .n (by decide)]; simp
        · have e : ∀ s, kpp (kern3 .u .u .u) (Pt.onPlane .u t s) q =
              -(kpp (kern3 .e .e .u) (Pt.onPlane .u t s) q + kpp (kern3 .n .n .u) (Pt.onPlane .u t s) q) := fun s => by
            have := tr .eeu .nnu .uuu s (by simp); simp only [kern3]; linarith
          simp only [e]
          rw [integral_neg, integral_add (it _ _ _) (it _ _ _), z .e .e .u (by decide), z .n .n .u (by decide)]; simp
      · rw [(kern3_symm i j k).2]; exact z i k j hk
    · rw [(kern3_symm i j k).1]; exact z j i k hi
  · exact z i j k hj

/-! ### a prism over a plane -/

variable {P : Box}

theorem plane_fubini {c : KComp} (a : Axis) (t : ℝ) {K : ℝ}
    (hi : ∀ q ∈ P.region, t ≠ q.coord a → Integrable (fun s => kpp c (Pt.onPlane a t s) q) ∧
      ∫ s, ‖kpp c (Pt.onPlane a t s) q‖ ≤ K) :
    Integrable (fun w : (ℝ × ℝ) × Pt => kpp c (Pt.onPlane a t w.1) w.2)
      (volume.prod (volume.restrict P.region)) := by
  have hm := (measurable_kpp_plane c a t).aestronglyMeasurable
    (μ := (volume : Measure (ℝ × ℝ)).prod (volume.restrict P.region))
  have ae : ∀ᵐ q ∂(volume.restrict P.region : Measure Pt), q ∈ P.region ∧ t ≠ q.coord a := by
    filter_upwards [ae_restrict_mem (isCompact_region P).measurableSet, ae_restrict_of_ae (ae_coord_ne a t)] with q h1 h2
    exact ⟨h1, h2.symm⟩
  rw [integrable_prod_iff' hm]
  refine ⟨ae.mono fun q hq => (hi q hq.1 hq.2).1, ?_⟩
  have : IsFiniteMeasure (volume.restrict P.region : Measure Pt) :=
    ⟨by rw [Measure.restrict_apply_univ]; exact (isCompact_region P).measure_lt_top⟩
  refine Integrable.of_bound (AEStronglyMeasurable.integral_prod_right' hm.norm.prod_swap) K (ae.mono fun q hq => ?_)
  rw [Real.norm_eq_abs, abs_of_nonneg (integral_nonneg fun _ => norm_nonneg _)]
  exact (hi q hq.1 hq.2).2

theorem coord_mem_region {q : Pt} (h : q ∈ P.region) (a : Axis) : P.lo a ≤ q.coord a ∧ q.coord a ≤ P.hi a := by
  obtain ⟨h1, h2, h3⟩ := h
  cases a
  · exact h1
  · exact h2
  · exact h3

theorem norm_plane_le {c : KComp} (a : Axis) {t K : ℝ} {q : Pt} (h : t ≠ q.coord a)
    (hK : ∀ p : Pt, p ≠ q → p.coord a = t → |kpp c p q| ≤ K / dist3 p q ^ 3) :
    ∫ s, ‖kpp c (Pt.onPlane a t s) q‖ ≤ K * (2 * π / |t - q.coord a|) := by
  obtain ⟨h1, h2⟩ := plane_dist3 a h
  rw [← h2, ← integral_const_mul]
  refine integral_mono (plane_integrable a h hK).norm (h1.const_mul K) fun s => ?_
  have := hK _ (off_plane h s) (by cases a <;> rfl)
  simp only [Real.norm_eq_abs]
  exact this.trans (le_of_eq (by ring))

/-- the planes that miss the prism -/
theorem plane_gap {a : Axis} {t : ℝ} (ht : t < P.lo a ∨ P.hi a < t) :
    ∃ δ, 0 < δ ∧ ∀ q ∈ P.region, δ ≤ |t - q.coord a| := by
  rcases ht with ht | ht
  · refine ⟨P.lo a - t, by linarith, fun q hq => ?_⟩
    have := (coord_mem_region hq a).1
    rw [abs_of_neg (by linarith)]; linarith
  · refine ⟨t - P.hi a, by linarith, fun q hq => ?_⟩
    have := (coord_mem_region hq a).2
    rw [abs_of_pos (by linarith)]; linarith

theorem plane_off_region {a : Axis} {t : ℝ} (ht : t < P.lo a ∨ P.hi a < t) (s : ℝ × ℝ) : Pt.onPlane a t s ∉ P.region := by
  intro h
  have := coord_mem_region h a
  rw [show (Pt.onPlane a t s).coord a = t by cases a <;> rfl] at this
  rcases ht with ht | ht <;> linarith [this.1, this.2]

theorem plane_prism_zero {c : KComp} {a : Axis} {t : ℝ} (ht : t < P.lo a ∨ P.hi a < t)
    (hc : ∀ q : Pt, t ≠ q.coord a → ∫ s, kpp c (Pt.onPlane a t s) q = 0)
    {K : ℝ → ℝ} (hK : ∀ δ, 0 < δ → 0 ≤ K δ ∧ ∀ p q : Pt, p.coord a = t → δ ≤ |t - q.coord a| → |kpp c p q| ≤ K δ / dist3 p q ^ 3) :
    Integrable (fun s => ∫ q in P.region, kpp c (Pt.onPlane a t s) q) ∧
    ∫ s, ∫ q in P.region, kpp c (Pt.onPlane a t s) q = 0 := by
  obtain ⟨δ, h0, hδ⟩ := plane_gap ht
  have ne : ∀ q ∈ P.region, t ≠ q.coord a := fun q hq e => by
    have := hδ q hq
    rw [e, sub_self, abs_zero] at this
    linarith
  have F := plane_fubini (P := P) (c := c) a t (K := K δ * (2 * π / δ)) (fun q hq h => by
    have b : ∀ p : Pt, p ≠ q → p.coord a = t → |kpp c p q| ≤ K δ / dist3 p q ^ 3 :=
      fun p _ hp => (hK δ h0).2 p q hp (hδ q hq)
    refine ⟨plane_integrable a h b, (norm_plane_le a h b).trans ?_⟩
    have := hδ q hq
    have := (hK δ h0).1
    have := Real.pi_pos
    gcongr)
  refine ⟨F.integral_prod_left, ?_⟩
  rw [integral_integral_swap (f := fun s q => kpp c (Pt.onPlane a t s) q) F,
    setIntegral_congr_fun (isCompact_region P).measurableSet (fun q hq => hc q (ne q hq))]
  simp

theorem plane_prism_kern2 {a : Axis} {t : ℝ} (ht : t < P.lo a ∨ P.hi a < t) (i j : Axis) :
    Integrable (fun s => ∫ q in P.region, kpp (kern2 i j) (Pt.onPlane a t s) q) ∧
    ∫ s, ∫ q in P.region, kpp (kern2 i j) (Pt.onPlane a t s) q = 0 :=
  plane_prism_zero ht (fun q h => (plane_kern2 a i j h).2) (K := fun _ => 2) fun δ h0 =>
    ⟨by norm_num, fun p q hp hd => abs_kern2_le i j (by
      rintro rfl
      rw [← hp, sub_self, abs_zero] at hd
      linarith)⟩

theorem plane_prism_kern3 {a : Axis} {t : ℝ} (ht : t < P.lo a ∨ P.hi a < t) (i j k : Axis) :
    Integrable (fun s => ∫ q in P.region, kpp (kern3 i j k) (Pt.onPlane a t s) q) ∧
    ∫ s, ∫ q in P.region, kpp (kern3 i j k) (Pt.onPlane a t s) q = 0 :=
  plane_prism_zero ht (fun q h => (plane_kern3 a i j k h).2) (K := fun δ => 6 / δ) fun δ h0 =>
    ⟨by positivity, fun p q hp hd => by
      have hne : t ≠ q.coord a := by
        rintro e
        rw [e, sub_self, abs_zero] at hd
        linarith
      have d := dist3_pos (p := p) (q := q) (by rintro rfl; exact hne hp.symm)
      refine (kern3_le_cube hp hne i j k).trans ?_
      gcongr⟩

theorem plane_prism_acc_integrable (a : Axis) (t : ℝ) :
    Integrable (fun w : (ℝ × ℝ) × Pt => kpp (kern1 a) (Pt.onPlane a t w.1) w.2)
      (volume.prod (volume.restrict P.region)) :=
  plane_fubini a t (K := 2 * π) fun _ _ h => ⟨(plane_kern1 a h).1, (plane_norm_kern1 a h).le⟩

theorem plane_prism_Vacc (hP : P.Ordered) (a : Axis) (t : ℝ) :
    Integrable (fun s => Vc a.acc (Pt.onPlane a t s) P) ∧
    (∫ s, |Vc a.acc (Pt.onPlane a t s) P|) ≤ 2 * π * P.volume ∧
    (P.hi a ≤ t → ∫ s, Vc a.acc (Pt.onPlane a t s) P = -(2 * π) * P.volume) ∧
    (t ≤ P.lo a → ∫ s, Vc a.acc (Pt.onPlane a t s) P = 2 * π * P.volume) := by
  have F := plane_prism_acc_integrable (P := P) a t
  have e : ∀ p, Vc a.acc p P = ∫ q in P.region, kpp (kern1 a) p q := fun p => by
    rw [← (integral_low hP a.acc (by cases a <;> decide) p).2, acc_toK]
  have ae : ∀ᵐ q ∂(volume.restrict P.region : Measure Pt), q ∈ P.region ∧ t ≠ q.coord a := by
    filter_upwards [ae_restrict_mem (isCompact_region P).measurableSet, ae_restrict_of_ae (ae_coord_ne a t)] with q h1 h2
    exact ⟨h1, h2.symm⟩
  have fin : IsFiniteMeasure (volume.restrict P.region : Measure Pt) :=
    ⟨by rw [Measure.restrict_apply_univ]; exact (isCompact_region P).measure_lt_top⟩
  have vol : ∀ k : ℝ, ∫ _q in P.region, k = k * P.volume := fun k => by
    rw [setIntegral_const, volume_region hP, smul_eq_mul, mul_comm]
  simp only [e]
  refine ⟨F.integral_prod_left, ?_, fun h => ?_, fun h => ?_⟩
  · calc (∫ s, |∫ q in P.region, kpp (kern1 a) (Pt.onPlane a t s) q|)
        ≤ ∫ s, ∫ q in P.region, ‖kpp (kern1 a) (Pt.onPlane a t s) q‖ :=
          integral_mono F.integral_prod_left.norm F.norm.integral_prod_left
            (fun s => by
              have := norm_integral_le_integral_norm (μ := volume.restrict P.region)
                (fun q => kpp (kern1 a) (Pt.onPlane a t s) q)
              rwa [Real.norm_eq_abs] at this)
      _ = ∫ q in P.region, ∫ s, ‖kpp (kern1 a) (Pt.onPlane a t s) q‖ :=
          integral_integral_swap (f := fun s q => ‖kpp (kern1 a) (Pt.onPlane a t s) q‖) F.norm
      _ = ∫ _q in P.region, 2 * π := integral_congr_ae (ae.mono fun q hq => plane_norm_kern1 a hq.2)
      _ = 2 * π * P.volume := vol _
      _ ≤ _ := le_rfl
  · rw [integral_integral_swap (f := fun s q => kpp (kern1 a) (Pt.onPlane a t s) q) F, ← vol]
    refine integral_congr_ae (ae.mono fun q hq => ?_)
    have := (coord_mem_region hq.1 a).2
    have hl : q.coord a < t := lt_of_le_of_ne (this.trans h) hq.2.symm
    simp only
    rw [(plane_kern1 a hq.2).2, if_pos hl]
  · rw [integral_integral_swap (f := fun s q => kpp (kern1 a) (Pt.onPlane a t s) q) F, ← vol]
    refine integral_congr_ae (ae.mono fun q hq => ?_)
    have := (coord_mem_region hq.1 a).1
    simp only
    rw [(plane_kern1 a hq.2).2, if_neg (not_lt.2 (h.trans this))]

theorem plane_prism_cut (hP : P.Ordered) (a : Axis) {t : ℝ} (h : P.lo a ≤ t ∧ t ≤ P.hi a) :
    ∫ s, Vc a.acc (Pt.onPlane a t s) P = -(2 * π) * (P.below t a).volume + 2 * π * (P.above t a).volume := by
  have hb := hP.below a h
  have ha : (P.above t a).Ordered := by
    obtain ⟨h1, h2, h3⟩ := hP
    cases a
    · exact ⟨h.2, h2, h3⟩
    · exact ⟨h1, h.2, h3⟩
    · exact ⟨h1, h2, h.2⟩
  have e : ∀ s, Vc a.acc (Pt.onPlane a t s) P =
      Vc a.acc (Pt.onPlane a t s) (P.below t a) + Vc a.acc (Pt.onPlane a t s) (P.above t a) := fun s => by
    rw [Vc_cut a.acc a h (by cases a <;> simp [Axis.acc, Box.singular])]
    rw [if_neg (by cases a <;> simp [Axis.acc, Axis.diag]), add_zero]
  simp only [e]
  obtain ⟨b1, -, b2, -⟩ := plane_prism_Vacc hb a t
  obtain ⟨a1, -, -, a2⟩ := plane_prism_Vacc ha a t
  rw [integral_add b1 a1, b2 (by cases a <;> exact le_rfl), a2 (by cases a <;> exact le_rfl)]

end Choclo
