import Verif.Spec.Spectrum
import Verif.Lemmas.Layer

/-! # Spectra of the kernels on a plane -/

namespace Choclo

open Real Set MeasureTheory Filter Topology

variable {a : Axis} {t : ℝ} {k : ℝ × ℝ}

/-! ### the differential equation -/

theorem const_of_deriv {g : ℝ → ℝ} (h : ∀ x, 0 < x → HasDerivAt g 0 x) {x y : ℝ} (hx : 0 < x) (hy : 0 < y) : g x = g y :=
  (convex_Ioi (0 : ℝ)).is_const_of_fderivWithin_eq_zero (𝕜 := ℝ) (f := g)
    (fun z hz => (h z hz).differentiableAt.differentiableWithinAt)
    (fun z hz => by
      have := (h z hz).hasFDerivAt.hasFDerivWithinAt (s := Ioi 0)
      rw [this.fderivWithin (isOpen_Ioi.uniqueDiffWithinAt hz)]
      ext; simp) (show x ∈ Ioi (0 : ℝ) from hx) (show y ∈ Ioi (0 : ℝ) from hy)

theorem decay_ode {F F' : ℝ → ℝ} {κ : ℝ} (hκ : 0 < κ) (h1 : ∀ x, 0 < x → HasDerivAt F (F' x) x)
    (h2 : ∀ x, 0 < x → HasDerivAt F' (κ ^ 2 * F x) x) (hb : ∀ x, 0 < x → |F x| ≤ 1)
    (h0 : Tendsto F (𝓝[>] 0) (𝓝 1)) {x : ℝ} (hx : 0 < x) : F x = exp (-(κ * x)) := by
  have de : ∀ (c x : ℝ), HasDerivAt (fun x => exp (c * x)) (c * exp (c * x)) x := fun c x => by
    have := ((hasDerivAt_id x).const_mul c).exp
    simp only [id, mul_one] at this
    rwa [mul_comm c (exp _)]
  obtain ⟨C, hC⟩ : ∃ C, ∀ x, 0 < x → (F' x + κ * F x) * exp (-κ * x) = C :=
    ⟨_, fun x hx => const_of_deriv (g := fun x => (F' x + κ * F x) * exp (-κ * x)) (fun y hy => by
      have := ((h2 y hy).fun_add ((h1 y hy).const_mul κ)).fun_mul (de (-κ) y)
      refine this.congr_deriv ?_
      ring) hx one_pos⟩
  obtain ⟨D, hD⟩ : ∃ D, ∀ x, 0 < x → F x * exp (κ * x) - C / (2 * κ) * exp (2 * κ * x) = D :=
    ⟨_, fun x hx => const_of_deriv (g := fun x => F x * exp (κ * x) - C / (2 * κ) * exp (2 * κ * x)) (fun y hy => by
      have := ((h1 y hy).fun_mul (de κ y)).fun_sub ((de (2 * κ) y).const_mul (C / (2 * κ)))
      refine this.congr_deriv ?_
      have e1 : exp (2 * κ * y) = exp (κ * y) * exp (κ * y) := by rw [← exp_add]; congr 1; ring
      have e2 : exp (-κ * y) * exp (κ * y) = 1 := by rw [← exp_add]; simp
      have e3 : C / (2 * κ) * (2 * κ * exp (2 * κ * y)) = C * exp (2 * κ * y) := by field_simp
      rw [e3, ← hC y hy, e1]
      linear_combination (-(F' y + κ * F y)) * exp (κ * y) * e2) hx one_pos⟩
  have sol : ∀ x, 0 < x → F x = C / (2 * κ) * exp (κ * x) + D * exp (-(κ * x)) := fun x hx => by
    have e1 : exp (2 * κ * x) = exp (κ * x) * exp (κ * x) := by rw [← exp_add]; congr 1; ring
    have e2 : exp (-(κ * x)) * exp (κ * x) = 1 := by rw [← exp_add]; simp
    rw [← hD x hx, e1]
    linear_combination (-(F x) + C / (2 * κ) * exp (κ * x)) * e2
  have lim : ∀ c, 0 < c → Tendsto (fun x => exp (-(c * x))) atTop (𝓝 0) := fun c hc =>
    tendsto_exp_neg_atTop_nhds_zero.comp (tendsto_id.const_mul_atTop hc)
  have C0 : C / (2 * κ) = 0 := by
    have l1 : Tendsto (fun x => F x * exp (-(κ * x)) - D * exp (-(2 * κ * x))) atTop (𝓝 0) := by
      have a1 : Tendsto (fun x => F x * exp (-(κ * x))) atTop (𝓝 0) := by
        refine squeeze_zero_norm' ?_ (lim κ hκ)
        filter_upwards [eventually_gt_atTop 0] with x hx
        rw [norm_mul, Real.norm_eq_abs, Real.norm_of_nonneg (exp_pos _).le]
        exact mul_le_of_le_one_left (exp_pos _).le (hb x hx)
      have := a1.sub ((lim (2 * κ) (by linarith)).const_mul D)
      simpa using this
    refine tendsto_nhds_unique (tendsto_const_nhds.congr' ?_) l1
    filter_upwards [eventually_gt_atTop 0] with x hx
    rw [sol x hx]
    have e2 : exp (κ * x) * exp (-(κ * x)) = 1 := by rw [← exp_add]; simp
    have e3 : exp (-(2 * κ * x)) = exp (-(κ * x)) * exp (-(κ * x)) := by rw [← exp_add]; congr 1; ring
    rw [e3]
    linear_combination (-(C / (2 * κ))) * e2
  have D1 : D = 1 := by
    have l1 : Tendsto (fun x => D * exp (-(κ * x))) (𝓝[>] 0) (𝓝 D) := by
      have : ContinuousAt (fun x => D * exp (-(κ * x))) 0 := by fun_prop
      have := this.tendsto
      simp only [mul_zero, neg_zero, exp_zero, mul_one] at this
      exact this.mono_left nhdsWithin_le_nhds
    refine tendsto_nhds_unique l1 (h0.congr' ?_)
    filter_upwards [self_mem_nhdsWithin] with x hx
    rw [sol x hx, C0]; ring
  rw [sol x hx, C0, D1]; ring

/-! ### plane waves continue upward -/

/-- `k·s` -/
def phase (k s : ℝ × ℝ) : ℝ := k.1 * s.1 + k.2 * s.2

theorem phase_add (k s s' : ℝ × ℝ) : phase k (s + s') = phase k s + phase k s' := by simp [phase]; ring
theorem phase_neg (k s : ℝ × ℝ) : phase k (-s) = -phase k s := by simp [phase]; ring
theorem continuous_phase (k : ℝ × ℝ) : Continuous (phase k) := by unfold phase; fun_prop
theorem measurable_cos_phase (k : ℝ × ℝ) (φ : ℝ) : Measurable fun s => cos (phase k s + φ) :=
  (Continuous.measurable (by have := continuous_phase k; fun_prop))

theorem onPlane_along (p : Pt) : Pt.onPlane a (p.coord a) (p.along a) = p := by cases a <;> rfl
theorem along_onPlane (s : ℝ × ℝ) : (Pt.onPlane a t s).along a = s := by cases a <;> rfl

theorem weight_shift (p : Pt) (s : ℝ × ℝ) :
    upwardWeight a t p (s + p.along a) = upwardWeight a t (Pt.onPlane a (p.coord a) 0) s := by
  unfold upwardWeight dist3
  cases a <;> simp [Pt.onPlane, Pt.along, Pt.coord, Pt.e, Pt.n, Pt.u]

theorem weight_even (h : ℝ) (s : ℝ × ℝ) :
    upwardWeight a t (Pt.onPlane a h 0) (-s) = upwardWeight a t (Pt.onPlane a h 0) s := by
  unfold upwardWeight dist3
  cases a <;> simp [Pt.onPlane, Pt.coord, Pt.e, Pt.n, Pt.u]

/-- the factor by which a plane wave is damped -/
noncomputable def damp (a : Axis) (t : ℝ) (k : ℝ × ℝ) (x : ℝ) : ℝ :=
  poisson a t (fun s => cos (phase k s)) (Pt.onPlane a (t + x) 0)

theorem poisson_wave {p : Pt} (hp : t < p.coord a) (φ : ℝ) :
    poisson a t (fun s => cos (phase k s + φ)) p = damp a t k (p.coord a - t) * cos (phase k (p.along a) + φ) := by
  have hp' : t < (Pt.onPlane a (p.coord a) 0).coord a := by rw [onPlane_coord]; exact hp
  have w1 := (weight_integral hp').1
  have ic : Integrable fun s => cos (phase k s) * upwardWeight a t (Pt.onPlane a (p.coord a) 0) s := by
    have := poisson_integrable (measurable_cos_phase k 0) (fun s => abs_cos_le_one _) hp'
    simpa only [add_zero] using this
  have is : Integrable fun s => sin (phase k s) * upwardWeight a t (Pt.onPlane a (p.coord a) 0) s :=
    poisson_integrable (Continuous.measurable (by have := continuous_phase k; fun_prop)) (fun s => abs_sin_le_one _) hp'
  have s0 : ∫ s, sin (phase k s) * upwardWeight a t (Pt.onPlane a (p.coord a) 0) s = 0 := by
    have := integral_neg_eq_self (fun s => sin (phase k s) * upwardWeight a t (Pt.onPlane a (p.coord a) 0) s) volume
    simp only [phase_neg, sin_neg, weight_even, neg_mul, integral_neg] at this
    linarith
  unfold poisson
  rw [← integral_add_right_eq_self _ (p.along a)]
  simp only [weight_shift, phase_add]
  have e : ∀ s, cos (phase k s + phase k (p.along a) + φ) * upwardWeight a t (Pt.onPlane a (p.coord a) 0) s =
      cos (phase k (p.along a) + φ) * (cos (phase k s) * upwardWeight a t (Pt.onPlane a (p.coord a) 0) s) -
      sin (phase k (p.along a) + φ) * (sin (phase k s) * upwardWeight a t (Pt.onPlane a (p.coord a) 0) s) := fun s => by
    rw [add_assoc, cos_add]; ring
  simp only [e]
  rw [integral_sub (ic.const_mul _) (is.const_mul _), integral_const_mul, integral_const_mul, s0]
  unfold damp poisson
  rw [show t + (p.coord a - t) = p.coord a by ring]
  ring

theorem damp_le {x : ℝ} (hx : 0 < x) : |damp a t k x| ≤ 1 := by
  have hp : t < (Pt.onPlane a (t + x) 0).coord a := by rw [onPlane_coord]; linarith
  obtain ⟨w1, w2⟩ := weight_integral hp
  have i : Integrable fun s => cos (phase k s) * upwardWeight a t (Pt.onPlane a (t + x) 0) s := by
    have := poisson_integrable (measurable_cos_phase k 0) (fun s => abs_cos_le_one _) hp
    simpa only [add_zero] using this
  unfold damp poisson
  refine (abs_integral_le_integral_abs).trans ((integral_mono i.abs w1 fun s => ?_).trans w2.le)
  beta_reduce
  rw [abs_mul, abs_of_nonneg (weight_nonneg hp s)]
  exact mul_le_of_le_one_left (weight_nonneg hp s) (abs_cos_le_one _)

theorem damp_tendsto : Tendsto (damp a t k) (𝓝[>] 0) (𝓝 1) := by
  rw [Metric.tendsto_nhdsWithin_nhds]
  intro ε hε
  have c : ContinuousAt (fun s => cos (phase k s)) 0 := by
    have := continuous_phase k; exact Continuous.continuousAt (by fun_prop)
  obtain ⟨δ, hδ, hc⟩ := Metric.continuousAt_iff.1 c (ε / 2) (by linarith)
  have p0 : phase k 0 = 0 := by simp [phase]
  refine ⟨ε * δ / 24, by positivity, fun {x} hx hd => ?_⟩
  have hx : 0 < x := hx
  rw [Real.dist_eq, sub_zero, abs_of_pos hx] at hd
  have hp : t < (Pt.onPlane a (t + x) 0).coord a := by rw [onPlane_coord]; linarith
  have near := poisson_near (f := fun s => cos (phase k s)) (M := 1) (y := 1) (η := ε / 2) (δ := δ)
    (by simpa using measurable_cos_phase k 0) (fun s => abs_cos_le_one _) hp hδ (by linarith) (by simp) (fun s hs => by
      have n1 := norm_le_dist3 (Pt.onPlane a (t + x) 0) (Pt.onPlane a t s)
      have n2 : ‖s‖ ≤ ‖Pt.onPlane a (t + x) 0 - Pt.onPlane a t s‖ := by
        have e : Pt.onPlane a (t + x) 0 - Pt.onPlane a t s = Pt.onPlane a x (-s) := by
          obtain ⟨s1, s2⟩ := s
          cases a <;> simp [Pt.onPlane]
        rw [e, ← norm_neg s]
        exact (norm_onPlane a x (-s)).1
      have := hc (x := s) (by rw [dist_zero_right]; linarith)
      rw [p0, cos_zero, Real.dist_eq] at this
      exact this.le)
  rw [onPlane_coord] at near
  rw [Real.dist_eq]
  unfold damp
  refine near.trans_lt ?_
  have : 6 * 1 * (t + x - t) / δ < ε / 2 := by
    rw [div_lt_iff₀ hδ]; linarith
  linarith

theorem along_set {b : Axis} (hb : b ≠ a) (p : Pt) (x : ℝ) :
    phase k ((p.set b x).along a) = phase k (p.along a) + kAlong a b k * (x - p.coord b) := by
  cases a <;> cases b <;> first | exact absurd rfl hb | (simp [phase, Pt.along, Pt.set, kAlong, Pt.coord, Pt.e, Pt.n, Pt.u]; ring)

theorem coord_set {b : Axis} (hb : b ≠ a) (p : Pt) (x : ℝ) : (p.set b x).coord a = p.coord a := by
  cases a <;> cases b <;> first | exact absurd rfl hb | rfl

theorem kAlong_sq (a : Axis) (k : ℝ × ℝ) : kAlong a .e k ^ 2 + kAlong a .n k ^ 2 + kAlong a .u k ^ 2 = wavenumber k ^ 2 := by
  unfold wavenumber
  rw [Real.sq_sqrt (by positivity)]
  cases a <;> simp [kAlong]

theorem kAlong_self (a : Axis) (k : ℝ × ℝ) : kAlong a a k = 0 := by cases a <;> rfl

/-- the derivative of `x ↦ cos (α + β (x - y) + φ)` -/
theorem cos_deriv (α β y φ x : ℝ) :
    HasDerivAt (fun x => cos (α + β * (x - y) + φ)) (β * cos (α + β * (x - y) + φ + π / 2)) x := by
  have h : HasDerivAt (fun x => α + β * (x - y) + φ) β x := by
    have := ((((hasDerivAt_id x).sub_const y).const_mul β).const_add α).add_const φ
    simpa using this
  have := h.cos
  rw [cos_add_pi_div_two]
  refine this.congr_deriv (by ring)

theorem damp_eq {x : ℝ} (hx : 0 < x) : damp a t k x = exp (-(wavenumber k * x)) := by
  rcases (Real.sqrt_nonneg (k.1 ^ 2 + k.2 ^ 2)).eq_or_lt with h0 | h0
  · have hk : k.1 ^ 2 + k.2 ^ 2 = 0 := by
      have := Real.sqrt_eq_zero (by positivity : 0 ≤ k.1 ^ 2 + k.2 ^ 2)
      exact this.1 h0.symm
    have k1 : k.1 = 0 := by nlinarith [sq_nonneg k.1, sq_nonneg k.2]
    have k2 : k.2 = 0 := by nlinarith [sq_nonneg k.1, sq_nonneg k.2]
    have hp : t < (Pt.onPlane a (t + x) 0).coord a := by rw [onPlane_coord]; linarith
    have e : wavenumber k = 0 := h0.symm
    rw [e, zero_mul, neg_zero, exp_zero]
    unfold damp poisson
    simp only [phase, k1, k2, zero_mul, add_zero, cos_zero, one_mul]
    exact (weight_integral hp).2
  · obtain ⟨-, D, DD, hh⟩ := harm_poisson (a := a) (t := t) (measurable_cos_phase k 0) (fun s => abs_cos_le_one _)
    have val : ∀ p : Pt, t < p.coord a → poisson a t (fun s => cos (phase k s + 0)) p =
        damp a t k (p.coord a - t) * cos (phase k (p.along a) + 0) := fun p hp => poisson_wave hp 0
    generalize poisson a t (fun s => cos (phase k s + 0)) = w at hh val
    -- along the plane
    have lateral : ∀ b, b ≠ a → ∀ p : Pt, t < p.coord a →
        D b p = damp a t k (p.coord a - t) * (kAlong a b k * cos (phase k (p.along a) + 0 + π / 2)) := by
      intro b hb p hp
      have h1 := ((hh p hp).1 b).1
      have h2 := (cos_deriv (phase k (p.along a)) (kAlong a b k) (p.coord b) 0 (p.coord b)).const_mul (damp a t k (p.coord a - t))
      have := h1.unique (h2.congr_of_eventuallyEq (Eventually.of_forall fun x => by
        beta_reduce
        rw [val _ (by rw [coord_set hb]; exact hp), coord_set hb, along_set hb]))
      rw [this]; simp
    have lateral2 : ∀ b, b ≠ a → ∀ p : Pt, t < p.coord a →
        DD b p = -(kAlong a b k ^ 2 * (damp a t k (p.coord a - t) * cos (phase k (p.along a)))) := by
      intro b hb p hp
      have h1 := ((hh p hp).1 b).2
      have h2 := ((cos_deriv (phase k (p.along a)) (kAlong a b k) (p.coord b) (0 + π / 2) (p.coord b)).const_mul
        (kAlong a b k)).const_mul (damp a t k (p.coord a - t))
      have := h1.unique (h2.congr_of_eventuallyEq (Eventually.of_forall fun x => by
        beta_reduce
        rw [lateral b hb _ (by rw [coord_set hb]; exact hp), coord_set hb, along_set hb]
        simp only [add_assoc]))
      rw [this]
      simp only [sub_self, mul_zero, add_zero, zero_add]
      rw [cos_add_pi_div_two, sin_add_pi_div_two]; ring
    have normal : ∀ p : Pt, t < p.coord a → DD a p = wavenumber k ^ 2 * (damp a t k (p.coord a - t) * cos (phase k (p.along a))) := by
      intro p hp
      have h1 := (hh p hp).2
      have h2 := kAlong_sq a k
      have h3 := kAlong_self a k
      cases a
      · rw [lateral2 .n (by decide) p hp, lateral2 .u (by decide) p hp] at h1
        rw [h3] at h2
        rw [← h2]; linarith
      · rw [lateral2 .e (by decide) p hp, lateral2 .u (by decide) p hp] at h1
        rw [h3] at h2
        rw [← h2]; linarith
      · rw [lateral2 .e (by decide) p hp, lateral2 .n (by decide) p hp] at h1
        rw [h3] at h2
        rw [← h2]; linarith
    have p0 : phase k 0 = 0 := by simp [phase]
    have os : ∀ x y : ℝ, (Pt.onPlane a x 0).set a y = Pt.onPlane a y 0 := fun x y => by cases a <;> rfl
    have ss : ∀ x y : ℝ, HasDerivAt (fun z : ℝ => t + z) 1 y := fun x y => by simpa using (hasDerivAt_id y).const_add t
    refine decay_ode (F' := fun x => D a (Pt.onPlane a (t + x) 0)) h0 (fun y hy => ?_) (fun y hy => ?_)
      (fun y hy => damp_le hy) damp_tendsto hx
    · have h1 := ((hh (Pt.onPlane a (t + y) 0) (by rw [mem_ofPred_eq, onPlane_coord]; linarith)).1 a).1
      rw [onPlane_coord] at h1
      simp only [os] at h1
      have h2 := HasDerivAt.comp_of_eq y h1 (ss 0 y) rfl
      rw [mul_one] at h2
      refine h2.congr_of_eventuallyEq ?_
      filter_upwards [eventually_gt_nhds hy] with z hz
      simp only [Function.comp]
      rw [val _ (by rw [onPlane_coord]; linarith), onPlane_coord, along_onPlane, p0]
      simp
    · have h1 := ((hh (Pt.onPlane a (t + y) 0) (by rw [mem_ofPred_eq, onPlane_coord]; linarith)).1 a).2
      rw [onPlane_coord] at h1
      simp only [os] at h1
      have h2 := HasDerivAt.comp_of_eq y h1 (ss 0 y) rfl
      rw [mul_one, normal _ (by rw [onPlane_coord]; linarith), onPlane_coord, along_onPlane, p0, cos_zero, mul_one,
        show t + y - t = y by ring] at h2
      exact h2

end Choclo
