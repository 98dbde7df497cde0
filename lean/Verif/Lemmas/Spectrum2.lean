import Verif.Lemmas.Spectrum

/-! # Plane waves of sources, and the spectra of the kernels -/

namespace Choclo

open Real Set MeasureTheory Filter Topology

variable {a : Axis} {t : ℝ} {k : ℝ × ℝ}

/-- a plane wave, continued upward -/
noncomputable def upWave (a : Axis) (t : ℝ) (k : ℝ × ℝ) (φ : ℝ) (p : Pt) : ℝ :=
  exp (-(wavenumber k * (p.coord a - t))) * cos (phase k (p.along a) + φ)

/-- the field of a plane wave of sources on the plane -/
noncomputable def waveLayer (a : Axis) (t : ℝ) (k : ℝ × ℝ) (φ : ℝ) (c : KComp) (p : Pt) : ℝ :=
  layer a t (fun s => cos (phase k s + φ)) c p

theorem upWave_lateral {b : Axis} (hb : b ≠ a) (φ : ℝ) (p : Pt) :
    HasDerivAt (fun x => upWave a t k φ (p.set b x)) (kAlong a b k * upWave a t k (φ + π / 2) p) (p.coord b) := by
  have h2 := (cos_deriv (phase k (p.along a)) (kAlong a b k) (p.coord b) φ (p.coord b)).const_mul
    (exp (-(wavenumber k * (p.coord a - t))))
  refine (h2.congr_of_eventuallyEq (Eventually.of_forall fun x => ?_)).congr_deriv ?_
  · simp only [upWave, coord_set hb, along_set hb]
  · simp only [upWave, sub_self, mul_zero, add_zero, add_assoc]; ring

theorem upWave_normal (φ : ℝ) (p : Pt) :
    HasDerivAt (fun x => upWave a t k φ (p.set a x)) (-wavenumber k * upWave a t k φ p) (p.coord a) := by
  have c : ∀ x, (p.set a x).coord a = x := fun x => by cases a <;> rfl
  have al : ∀ x, (p.set a x).along a = p.along a := fun x => by cases a <;> rfl
  have h : HasDerivAt (fun x => -(wavenumber k * (x - t))) (-wavenumber k) (p.coord a) := by
    have := (((hasDerivAt_id (p.coord a)).sub_const t).const_mul (wavenumber k)).fun_neg
    simpa using this
  refine ((h.exp.mul_const (cos (phase k (p.along a) + φ))).congr_of_eventuallyEq (Eventually.of_forall fun x => ?_)).congr_deriv ?_
  · simp only [upWave, c, al]
  · unfold upWave; ring

theorem upWave_pi (φ : ℝ) (p : Pt) : upWave a t k (φ + π / 2 + π / 2) p = -upWave a t k φ p := by
  unfold upWave
  rw [show phase k (p.along a) + (φ + π / 2 + π / 2) = phase k (p.along a) + φ + π by ring, cos_add_pi]; ring

theorem waveLayer_normal (φ : ℝ) {p : Pt} (hp : t < p.coord a) :
    waveLayer a t k φ (kern1 a) p = -(2 * π) * upWave a t k φ p := by
  have h1 := layer_poisson a t (fun s => cos (phase k s + φ)) p
  rw [poisson_wave hp, damp_eq (by linarith)] at h1
  unfold waveLayer upWave
  rw [h1]
  field_simp

theorem b2 (i j : Axis) {p : Pt} (hp : t < p.coord a) (s : ℝ × ℝ) :
    |kpp (kern2 i j) p (Pt.onPlane a t s)| ≤ 2 / dist3 p (Pt.onPlane a t s) ^ 3 := abs_kern2_le i j (off_src hp.ne s)

theorem b3 (i j l : Axis) {p : Pt} (hp : t < p.coord a) :
    ∀ p' : Pt, t + (p.coord a - t) / 2 ≤ p'.coord a → ∀ s,
      |kpp (kern3 i j l) p' (Pt.onPlane a t s)| ≤ 6 / ((p.coord a - t) / 2) / dist3 p' (Pt.onPlane a t s) ^ 3 := by
  intro p' hp' s
  have h1 : 0 < (p.coord a - t) / 2 := by linarith
  have hne : t ≠ p'.coord a := by intro e; linarith
  have d := dist3_pos (off_src (a := a) hne s)
  refine (abs_kern3_le i j l (off_src hne s)).trans ?_
  have := height_le (a := a) (t := t) p' s
  rw [div_div, pow_succ' _ 3]
  gcongr
  linarith

theorem waveLayer_deriv1 (φ : ℝ) (b : Axis) {p : Pt} (hp : t < p.coord a) :
    HasDerivAt (fun x => waveLayer a t k φ (kern1 a) (p.set b x)) (waveLayer a t k φ (kern2 b a) p) (p.coord b) :=
  src_deriv (measurable_cos_phase k φ) (fun s => abs_cos_le_one _) (kern_succ a b) hp (fun s => (kern1_normal p s).le)
    (fun p' hp' => b2 b a (by linarith))

theorem waveLayer_deriv2 (φ : ℝ) (i j l : Axis) {p : Pt} (hp : t < p.coord a) :
    HasDerivAt (fun x => waveLayer a t k φ (kern2 i l) (p.set j x)) (waveLayer a t k φ (kern3 i j l) p) (p.coord j) :=
  src_deriv (measurable_cos_phase k φ) (fun s => abs_cos_le_one _) (kern2_succ i j l) hp (fun s => b2 i l hp s) (b3 i j l hp)

theorem above_eventually (b : Axis) {p : Pt} (hp : t < p.coord a) : ∀ᶠ x in 𝓝 (p.coord b), t < (p.set b x).coord a := by
  have ca : ContinuousAt (fun x => p.set b x) (p.coord b) := (continuous_set p b).continuousAt
  exact ca.eventually ((isOpen_above a t).mem_nhds (by beta_reduce; rw [set_coord]; exact hp))

theorem waveLayer_aa (φ : ℝ) {p : Pt} (hp : t < p.coord a) :
    waveLayer a t k φ (kern2 a a) p = 2 * π * wavenumber k * upWave a t k φ p := by
  have h1 := waveLayer_deriv1 (k := k) φ a hp
  have h2 := (upWave_normal (a := a) (t := t) (k := k) φ p).const_mul (-(2 * π))
  rw [h1.unique (h2.congr_of_eventuallyEq ((above_eventually a hp).mono fun x hx => waveLayer_normal φ hx))]
  ring

theorem waveLayer_ba (φ : ℝ) {b : Axis} (hb : b ≠ a) {p : Pt} (hp : t < p.coord a) :
    waveLayer a t k φ (kern2 b a) p = -(2 * π * kAlong a b k) * upWave a t k (φ + π / 2) p := by
  have h1 := waveLayer_deriv1 (k := k) φ b hp
  have h2 := (upWave_lateral (t := t) (k := k) hb φ p).const_mul (-(2 * π))
  rw [h1.unique (h2.congr_of_eventuallyEq ((above_eventually b hp).mono fun x hx => waveLayer_normal φ hx))]
  ring

theorem waveLayer_bac (φ : ℝ) {b c : Axis} (hb : b ≠ a) (hc : c ≠ a) {p : Pt} (hp : t < p.coord a) :
    waveLayer a t k φ (kern3 b a c) p = 2 * π * kAlong a b k * kAlong a c k * upWave a t k φ p := by
  rw [(kern3_symm b a c).2]
  have h1 := waveLayer_deriv2 (k := k) φ b c a hp
  have h2 := (upWave_lateral (t := t) (k := k) hc (φ + π / 2) p).const_mul (-(2 * π * kAlong a b k))
  rw [h1.unique (h2.congr_of_eventuallyEq ((above_eventually c hp).mono fun x hx => waveLayer_ba φ hb hx)), upWave_pi]
  ring

theorem waveLayer_small (φ : ℝ) (i j : Axis) {p : Pt} (hp : t < p.coord a) :
    |waveLayer a t k φ (kern2 i j) p| ≤ 4 * π / (p.coord a - t) := by
  obtain ⟨s1, s2⟩ := plane_src (p := p) (a := a) (t := t) hp.ne
  have i1 := src_integrable (measurable_cos_phase k φ) (fun s => abs_cos_le_one _) hp (fun s => b2 i j hp s)
  unfold waveLayer layer
  refine (abs_integral_le_integral_abs).trans ((integral_mono i1.abs (s1.const_mul 2) fun s => ?_).trans ?_)
  · beta_reduce
    rw [abs_mul, mul_one_div]
    exact (mul_le_of_le_one_left (abs_nonneg _) (abs_cos_le_one _)).trans (b2 i j hp s)
  · rw [integral_const_mul, s2, abs_of_neg (by linarith)]
    rw [neg_sub]
    apply le_of_eq
    ring

theorem waveLayer_bc (hk : 0 < wavenumber k) (φ : ℝ) {b c : Axis} (hb : b ≠ a) (hc : c ≠ a) {p : Pt} (hp : t < p.coord a) :
    waveLayer a t k φ (kern2 b c) p = -(2 * π * kAlong a b k * kAlong a c k / wavenumber k) * upWave a t k φ p := by
  have cs : ∀ x, (p.set a x).coord a = x := fun x => by cases a <;> rfl
  have ss : ∀ x y : ℝ, (p.set a x).set a y = p.set a y := fun x y => by cases a <;> rfl
  have al : ∀ x, (p.set a x).along a = p.along a := fun x => by cases a <;> rfl
  have d : ∀ x, 0 < x → HasDerivAt (fun x => waveLayer a t k φ (kern2 b c) (p.set a (t + x)) +
      2 * π * kAlong a b k * kAlong a c k / wavenumber k * upWave a t k φ (p.set a (t + x))) 0 x := by
    intro x hx
    have hx' : t < (p.set a (t + x)).coord a := by rw [cs]; linarith
    have h1 := waveLayer_deriv2 (k := k) φ b a c hx'
    have h2 := (upWave_normal (a := a) (t := t) (k := k) φ (p.set a (t + x))).const_mul
      (2 * π * kAlong a b k * kAlong a c k / wavenumber k)
    have h3 := h1.fun_add h2
    rw [waveLayer_bac φ hb hc hx', cs] at h3
    simp only [ss] at h3
    have h4 : HasDerivAt (fun z : ℝ => t + z) 1 x := by simpa using (hasDerivAt_id x).const_add t
    refine (HasDerivAt.comp_of_eq x h3 h4 rfl).congr_deriv ?_
    field_simp
    ring
  have hh : 0 < p.coord a - t := by linarith
  have con : ∀ x, 0 < x → waveLayer a t k φ (kern2 b c) (p.set a (t + x)) +
      2 * π * kAlong a b k * kAlong a c k / wavenumber k * upWave a t k φ (p.set a (t + x)) =
      waveLayer a t k φ (kern2 b c) p + 2 * π * kAlong a b k * kAlong a c k / wavenumber k * upWave a t k φ p := fun x hx => by
    have := const_of_deriv d hx hh
    rw [this, show t + (p.coord a - t) = p.coord a by ring, set_coord]
  have l1 : Tendsto (fun x => waveLayer a t k φ (kern2 b c) (p.set a (t + x))) atTop (𝓝 0) := by
    refine squeeze_zero_norm' ?_ (tendsto_const_nhds.div_atTop tendsto_id (a := 4 * π))
    filter_upwards [eventually_gt_atTop 0] with x hx
    have := waveLayer_small (k := k) (a := a) (t := t) φ b c (p := p.set a (t + x)) (by rw [cs]; linarith)
    rw [cs, show t + x - t = x by ring] at this
    exact this
  have l2 : Tendsto (fun x => upWave a t k φ (p.set a (t + x))) atTop (𝓝 0) := by
    have e : Tendsto (fun x => exp (-(wavenumber k * x))) atTop (𝓝 0) :=
      tendsto_exp_neg_atTop_nhds_zero.comp (tendsto_id.const_mul_atTop hk)
    refine squeeze_zero_norm (fun x => ?_) e
    unfold upWave
    rw [cs, al, show t + x - t = x by ring, norm_mul, Real.norm_of_nonneg (exp_pos _).le]
    exact mul_le_of_le_one_right (exp_pos _).le (abs_cos_le_one _)
  have l := l1.add (l2.const_mul (2 * π * kAlong a b k * kAlong a c k / wavenumber k))
  rw [mul_zero, add_zero] at l
  have := tendsto_nhds_unique (l.congr' (by
    filter_upwards [eventually_gt_atTop 0] with x hx
    exact con x hx)) tendsto_const_nhds
  linarith

/-! ### sources below the plane, data on it -/

/-- the mirror image of a point in the plane -/
def mirrorIn (a : Axis) (t : ℝ) (q : Pt) : Pt := q.set a (2 * t - q.coord a)

theorem mirrorIn_coord (q : Pt) : (mirrorIn a t q).coord a = 2 * t - q.coord a := by cases a <;> rfl
theorem mirrorIn_along (q : Pt) : (mirrorIn a t q).along a = q.along a := by cases a <;> rfl

theorem upWave_mirror (φ : ℝ) (q : Pt) : upWave a t k φ (mirrorIn a t q) =
    exp (-(wavenumber k * (t - q.coord a))) * cos (phase k (q.along a) + φ) := by
  unfold upWave
  rw [mirrorIn_coord, mirrorIn_along, show 2 * t - q.coord a - t = t - q.coord a by ring]

theorem kern1_mirror (q : Pt) (s : ℝ × ℝ) :
    kpp (kern1 a) (Pt.onPlane a t s) q = kpp (kern1 a) (mirrorIn a t q) (Pt.onPlane a t s) := by
  have e1 : ∀ x y : ℝ, y - x = -(x - y) := fun x y => by ring
  have e2 : ∀ y : ℝ, 2 * t - y - t = t - y := fun y => by ring
  cases a <;> simp only [kpp, kern1, kp, rad, Pt.onPlane, mirrorIn, Pt.set, Pt.coord, Pt.e, Pt.n, Pt.u, e2]
  · rw [e1 s.1, e1 s.2, neg_sq, neg_sq]
  · rw [e1 s.1, e1 s.2, neg_sq, neg_sq]
  · rw [e1 s.1, e1 s.2, neg_sq, neg_sq]

/-- the sign of a coordinate in the mirror image of the difference -/
def eps (a b : Axis) : ℝ := if b = a then 1 else -1

theorem kern2_mirror (i j : Axis) (q : Pt) (s : ℝ × ℝ) : kpp (kern2 i j) (Pt.onPlane a t s) q =
    eps a i * eps a j * kpp (kern2 i j) (mirrorIn a t q) (Pt.onPlane a t s) := by
  have e1 : ∀ x y : ℝ, y - x = -(x - y) := fun x y => by ring
  have e2 : ∀ y : ℝ, 2 * t - y - t = t - y := fun y => by ring
  cases a <;> simp only [kpp, Pt.onPlane, mirrorIn, Pt.set, Pt.coord, Pt.e, Pt.n, Pt.u, e2] <;>
    rw [e1 s.1, e1 s.2] <;> cases i <;> cases j <;>
    simp only [kern2, kp, eps, rad, neg_sq, reduceCtorEq, if_true, if_false] <;> ring

/-! ### complex spectra -/

theorem wave_eq (k s : ℝ × ℝ) : wave k s = (cos (phase k s + 0) : ℂ) + Complex.I * (cos (phase k s + π / 2) : ℂ) := by
  have e : wave k s = Complex.exp (((-phase k s : ℝ) : ℂ) * Complex.I) := by
    unfold wave phase; congr 1; push_cast; ring
  rw [e, Complex.exp_mul_I, ← Complex.ofReal_cos, ← Complex.ofReal_sin, Real.cos_neg, Real.sin_neg, add_zero,
    Real.cos_add_pi_div_two]
  ring

theorem norm_wave (k s : ℝ × ℝ) : ‖wave k s‖ = 1 := by
  unfold wave
  rw [Complex.norm_exp]
  simp

theorem continuous_wave (k : ℝ × ℝ) : Continuous (wave k) := by
  unfold wave; fun_prop

theorem spectrum_eq {g : ℝ × ℝ → ℝ} (hg : Integrable g) (k : ℝ × ℝ) : spectrum g k =
    ((∫ s, cos (phase k s + 0) * g s : ℝ) : ℂ) + Complex.I * ((∫ s, cos (phase k s + π / 2) * g s : ℝ) : ℂ) := by
  have i : ∀ φ, Integrable fun s => cos (phase k s + φ) * g s := fun φ =>
    hg.bdd_mul (c := 1) (measurable_cos_phase k φ).aestronglyMeasurable (Eventually.of_forall fun s => abs_cos_le_one _)
  have ic : ∀ φ, Integrable fun s => ((cos (phase k s + φ) * g s : ℝ) : ℂ) := fun φ => (i φ).ofReal
  unfold spectrum
  rw [← integral_complex_ofReal, ← integral_complex_ofReal, ← integral_const_mul]
  rw [← integral_add (ic 0) ((ic (π / 2)).const_mul _)]
  congr 1; funext s
  rw [wave_eq]
  push_cast
  ring

/-- the wave of the source -/
noncomputable def srcWave (a : Axis) (t : ℝ) (k : ℝ × ℝ) (q : Pt) : ℂ :=
  (exp (-(wavenumber k * (t - q.coord a))) : ℂ) * wave k (q.along a)

theorem srcWave_eq (q : Pt) : srcWave a t k q =
    (upWave a t k 0 (mirrorIn a t q) : ℂ) + Complex.I * (upWave a t k (π / 2) (mirrorIn a t q) : ℂ) := by
  unfold srcWave
  rw [upWave_mirror, upWave_mirror, wave_eq]
  push_cast; ring

theorem spectrum_kern1 {q : Pt} (h : q.coord a < t) :
    spectrum (fun s => kpp (kern1 a) (Pt.onPlane a t s) q) k = -(2 * π) * srcWave a t k q := by
  have hp : t < (mirrorIn a t q).coord a := by rw [mirrorIn_coord]; linarith
  rw [spectrum_eq (plane_kern1 a h.ne').1]
  simp only [kern1_mirror]
  have e := fun φ => waveLayer_normal (k := k) φ hp
  simp only [waveLayer, layer] at e
  rw [e, e, srcWave_eq]
  push_cast; ring

theorem spectrum_kern2 (hk : 0 < wavenumber k) {q : Pt} (h : q.coord a < t) (i j : Axis) :
    spectrum (fun s => kpp (kern2 i j) (Pt.onPlane a t s) q) k =
      derivFactor a i k * derivFactor a j k * (2 * π / wavenumber k) * srcWave a t k q := by
  have hp : t < (mirrorIn a t q).coord a := by rw [mirrorIn_coord]; linarith
  have hk' : (wavenumber k : ℂ) ≠ 0 := by exact_mod_cast hk.ne'
  rw [spectrum_eq (plane_kern2 a i j h.ne').1]
  have e : ∀ φ, ∫ s, cos (phase k s + φ) * kpp (kern2 i j) (Pt.onPlane a t s) q =
      eps a i * eps a j * waveLayer a t k φ (kern2 i j) (mirrorIn a t q) := fun φ => by
    unfold waveLayer layer
    rw [← integral_const_mul]
    congr 1; funext s
    rw [kern2_mirror]; ring
  have p2 : upWave a t k (π / 2 + π / 2) (mirrorIn a t q) = -upWave a t k 0 (mirrorIn a t q) := by
    have := upWave_pi (a := a) (t := t) (k := k) 0 (mirrorIn a t q)
    rwa [zero_add] at this
  rw [e, e, srcWave_eq]
  by_cases hi : i = a
  · by_cases hj : j = a
    · subst hi hj
      rw [waveLayer_aa _ hp, waveLayer_aa _ hp]
      simp only [eps, derivFactor, if_true]
      push_cast
      field_simp
    · subst hi
      rw [kern2_symm, waveLayer_ba _ hj hp, waveLayer_ba _ hj hp, p2, zero_add]
      simp only [eps, derivFactor, if_true, if_neg hj]
      push_cast
      field_simp
      linear_combination (kAlong i j k * upWave i t k (π / 2) (mirrorIn i t q) : ℂ) * Complex.I_sq
  · by_cases hj : j = a
    · subst hj
      rw [waveLayer_ba _ hi hp, waveLayer_ba _ hi hp, p2, zero_add]
      simp only [eps, derivFactor, if_true, if_neg hi]
      push_cast
      field_simp
      linear_combination (kAlong j i k * upWave j t k (π / 2) (mirrorIn j t q) : ℂ) * Complex.I_sq
    · rw [waveLayer_bc hk _ hi hj hp, waveLayer_bc hk _ hi hj hp]
      simp only [eps, derivFactor, if_neg hi, if_neg hj]
      push_cast
      field_simp
      linear_combination (-(kAlong a i k * kAlong a j k * (upWave a t k 0 (mirrorIn a t q) +
        Complex.I * upWave a t k (π / 2) (mirrorIn a t q))) : ℂ) * Complex.I_sq

end Choclo
