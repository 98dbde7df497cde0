import Verif.Lemmas.HalfSpace2

/-! # Sources spread over a plane -/

namespace Choclo

open Real Set MeasureTheory Filter Topology

variable {a : Axis} {t : ℝ} {f : ℝ × ℝ → ℝ}

theorem kpp_le_of_far (c : KComp) {δ : ℝ} (hδ : 0 < δ) {p q : Pt} (h : δ ≤ dist3 p q) :
    |kpp c p q| ≤ 6 * (1 / δ + 1 / δ ^ 2 + 1 / δ ^ 3 + 1 / δ ^ 4) := by
  have d : 0 < dist3 p q := by linarith
  have hne : p ≠ q := fun e => by rw [dist3_eq_zero.2 e] at d; exact lt_irrefl _ d
  have k : ∀ (C : ℝ) (n : ℕ), 0 ≤ C → C ≤ 6 → C / dist3 p q ^ n ≤ 6 * (1 / δ ^ n) := fun C n h0 h6 => by
    rw [mul_one_div]; gcongr
  have p1 : 0 < 1 / δ := by positivity
  have p2 : 0 < 1 / δ ^ 2 := by positivity
  have p3 : 0 < 1 / δ ^ 3 := by positivity
  have p4 : 0 < 1 / δ ^ 4 := by positivity
  rcases kern_cases c with rfl | ⟨i, rfl⟩ | ⟨i, j, rfl⟩ | ⟨i, j, l, rfl⟩
  · have e : kpp .pot p q = 1 / dist3 p q ^ 1 := rfl
    rw [e, abs_of_pos (by positivity)]
    have := k 1 1 (by norm_num) (by norm_num)
    rw [pow_one δ] at this
    linarith
  · have := (abs_kern1_le i hne).trans (k 1 2 (by norm_num) (by norm_num)); linarith
  · have := (abs_kern2_le i j hne).trans (k 2 3 (by norm_num) (by norm_num)); linarith
  · have := (abs_kern3_le i j l hne).trans (k 6 4 (by norm_num) (by norm_num)); linarith

/-- the field of sources of density `f` on the plane -/
noncomputable def layer (a : Axis) (t : ℝ) (f : ℝ × ℝ → ℝ) (c : KComp) (p : Pt) : ℝ :=
  ∫ s, f s * kpp c p (Pt.onPlane a t s)

theorem layer_integrable (hf : Integrable f) (c : KComp) {p : Pt} (h : t < p.coord a) :
    Integrable fun s => f s * kpp c p (Pt.onPlane a t s) :=
  hf.mul_bdd (c := 6 * (1 / (p.coord a - t) + 1 / (p.coord a - t) ^ 2 + 1 / (p.coord a - t) ^ 3 + 1 / (p.coord a - t) ^ 4))
    (measurable_kpp_src c a t p).aestronglyMeasurable
    (Eventually.of_forall fun s => kpp_le_of_far c (by linarith) (height_le p s))

theorem layer_deriv (hf : Integrable f) {c c' : KComp} {b : Axis} (hc : c.Succ c' b) {p : Pt} (h : t < p.coord a) :
    HasDerivAt (fun x => layer a t f c (p.set b x)) (layer a t f c' p) (p.coord b) := by
  have h0 : 0 < (p.coord a - t) / 2 := by linarith
  have near : ∀ x ∈ Metric.ball (p.coord b) ((p.coord a - t) / 2), dist3 p (p.set b x) ≤ (p.coord a - t) / 2 := by
    intro x hx
    rw [dist3_set]
    rw [Metric.mem_ball, Real.dist_eq] at hx
    exact hx.le
  have far : ∀ x ∈ Metric.ball (p.coord b) ((p.coord a - t) / 2), ∀ s,
      (p.coord a - t) / 2 ≤ dist3 (p.set b x) (Pt.onPlane a t s) := fun x hx s => by
    have h2 := half_dist (near x hx) s
    have h3 := height_le (a := a) (t := t) p s
    linarith
  generalize hδ : (p.coord a - t) / 2 = δ at *
  have main := hasDerivAt_integral_of_dominated_loc_of_deriv_le (μ := (volume : Measure (ℝ × ℝ)))
    (F := fun x s => f s * kpp c (p.set b x) (Pt.onPlane a t s))
    (F' := fun x s => f s * kpp c' (p.set b x) (Pt.onPlane a t s)) (x₀ := p.coord b)
    (bound := fun s => |f s| * (6 * (1 / δ + 1 / δ ^ 2 + 1 / δ ^ 3 + 1 / δ ^ 4)))
    (Metric.ball_mem_nhds (p.coord b) h0)
    (Eventually.of_forall fun x => hf.aestronglyMeasurable.mul (measurable_kpp_src c a t _).aestronglyMeasurable)
    (by simp only [set_coord]; exact layer_integrable hf c h)
    (hf.aestronglyMeasurable.mul (measurable_kpp_src c' a t _).aestronglyMeasurable)
    (Eventually.of_forall fun s x hx => by
      rw [Real.norm_eq_abs, abs_mul]
      exact mul_le_mul_of_nonneg_left (kpp_le_of_far c' h0 (far x hx s)) (abs_nonneg _))
    (hf.abs.mul_const _)
    (Eventually.of_forall fun s x hx => by
      have d : Pt.onPlane a t s ≠ p.set b x := fun e => by
        have := far x hx s
        rw [← e, dist3_eq_zero.2 rfl] at this
        linarith
      have k := kpp_deriv hc (p := p) (q := Pt.onPlane a t s) (t := x) (fun e => d e.symm)
      exact k.const_mul (f s))
  have := main.2
  simp only [set_coord] at this
  exact this

/-- what has the same normal derivative as the potential of the layer, and vanishes at infinity, is
the potential of the layer -/
theorem layer_eq (hf : Integrable f) {w : Pt → ℝ} {k : ℝ} (hv : VanishAt w a t)
    (hd : ∀ p : Pt, t < p.coord a → HasDerivAt (fun x => w (p.set a x)) (k * layer a t f (kern1 a) p) (p.coord a))
    {p : Pt} (h : t < p.coord a) : w p = k * layer a t f .pot p := by
  have cs : ∀ (q : Pt) (x : ℝ), (q.set a x).coord a = x := fun q x => by cases a <;> rfl
  have ss : ∀ (q : Pt) (x y : ℝ), (q.set a x).set a y = q.set a y := fun q x y => by cases a <;> rfl
  -- the difference along the normal
  have der : ∀ x, t < x → HasDerivAt (fun y => w (p.set a y) - k * layer a t f .pot (p.set a y)) 0 x := by
    intro x hx
    have h1 := hd (p.set a x) (by rw [cs]; exact hx)
    have h2 := layer_deriv (a := a) (t := t) hf (c := .pot) (c' := kern1 a) (b := a) (by cases a <;> rfl) (p := p.set a x) (by rw [cs]; exact hx)
    simp only [ss, cs] at h1 h2
    have := h1.fun_sub (h2.const_mul k)
    rwa [sub_self] at this
  have con : ∀ x, t < x → w (p.set a x) - k * layer a t f .pot (p.set a x) = w p - k * layer a t f .pot p := by
    intro x hx
    have := (convex_Ioi t).is_const_of_fderivWithin_eq_zero (𝕜 := ℝ)
      (f := fun y => w (p.set a y) - k * layer a t f .pot (p.set a y))
      (fun y hy => (der y hy).differentiableAt.differentiableWithinAt)
      (fun y hy => by
        have := (der y hy).hasFDerivAt.hasFDerivWithinAt (s := Ioi t)
        rw [this.fderivWithin (isOpen_Ioi.uniqueDiffWithinAt hy)]
        ext; simp) (show x ∈ Ioi t from hx) (show p.coord a ∈ Ioi t from h)
    simpa only [set_coord] using this
  have lim1 : Tendsto (fun x => k * layer a t f .pot (p.set a x)) atTop (𝓝 0) := by
    have b : Tendsto (fun x : ℝ => |k| * ((∫ s, |f s|) * (1 / (x - t)))) atTop (𝓝 0) := by
      have e : Tendsto (fun x : ℝ => 1 / (x - t)) atTop (𝓝 0) := by
        simp only [one_div]
        exact tendsto_inv_atTop_zero.comp (tendsto_atTop_add_const_right atTop (-t) tendsto_id)
      have := (e.const_mul (∫ s, |f s|)).const_mul |k|
      simpa using this
    refine squeeze_zero_norm' ?_ b
    filter_upwards [eventually_gt_atTop t] with x hx
    rw [Real.norm_eq_abs, abs_mul]
    refine mul_le_mul_of_nonneg_left ?_ (abs_nonneg k)
    have hx' : t < (p.set a x).coord a := by rw [cs]; exact hx
    unfold layer
    rw [← integral_mul_const]
    refine (abs_integral_le_integral_abs).trans (integral_mono (layer_integrable hf .pot hx').abs (hf.abs.mul_const _) fun s => ?_)
    rw [abs_mul]
    refine mul_le_mul_of_nonneg_left ?_ (abs_nonneg _)
    have d := height_le (a := a) (t := t) (p.set a x) s
    rw [cs] at d
    have e : kpp .pot (p.set a x) (Pt.onPlane a t s) = 1 / dist3 (p.set a x) (Pt.onPlane a t s) := kpp_pot_dist _ _
    have d0 : 0 < x - t := by linarith
    rw [e, abs_of_pos (one_div_pos.2 (by linarith))]
    exact one_div_le_one_div_of_le d0 d
  have lim2 : Tendsto (fun x => w (p.set a x)) atTop (𝓝 0) := by
    rw [Metric.tendsto_atTop]
    intro ε hε
    obtain ⟨R, hR⟩ := hv (ε / 2) (by linarith)
    refine ⟨max (t + 1) (R + 1), fun x hx => ?_⟩
    have h1 := (le_max_left _ _).trans hx
    have h2 := (le_max_right _ _).trans hx
    have nx : x ≤ ‖p.set a x‖ := by
      have : |x| ≤ ‖p.set a x‖ := by
        cases a <;> simp only [Pt.set, Prod.norm_def, Real.norm_eq_abs, le_max_iff, le_refl, true_or, or_true]
      exact (le_abs_self x).trans this
    have := hR (p.set a x) (by rw [cs]; linarith) (by linarith)
    rw [Real.dist_eq, sub_zero]
    linarith
  have lim := lim2.sub lim1
  rw [sub_zero] at lim
  have := tendsto_nhds_unique (lim.congr' (by
    filter_upwards [eventually_gt_atTop t] with x hx
    exact con x hx)) tendsto_const_nhds
  linarith

/-- the derivatives follow -/
theorem layer_step (hf : Integrable f) {w w' : Pt → ℝ} {k : ℝ} {c c' : KComp} {b : Axis} (hc : c.Succ c' b)
    (hw : ∀ p : Pt, t < p.coord a → w p = k * layer a t f c p)
    (hd : ∀ p : Pt, t < p.coord a → HasDerivAt (fun x => w (p.set b x)) (w' p) (p.coord b)) :
    ∀ p : Pt, t < p.coord a → w' p = k * layer a t f c' p := fun p hp => by
  have h1 := (layer_deriv (a := a) (t := t) hf hc hp).const_mul k
  have o : ∀ᶠ x in 𝓝 (p.coord b), t < (p.set b x).coord a := by
    have ca : ContinuousAt (fun x => p.set b x) (p.coord b) := (continuous_set p b).continuousAt
    exact ca.eventually ((isOpen_above a t).mem_nhds (by beta_reduce; rw [set_coord]; exact hp))
  exact (hd p hp).unique (h1.congr_of_eventuallyEq (o.mono fun x hx => hw _ hx))

theorem layer_poisson (a : Axis) (t : ℝ) (f : ℝ × ℝ → ℝ) (p : Pt) :
    poisson a t f p = -(1 / (2 * π)) * layer a t f (kern1 a) p := poisson_kern a t f p

/-- every component of a family of derivatives -/
theorem layer_all (hf : Integrable f) {W : KComp → Pt → ℝ} {k : ℝ} (hv : VanishAt (W .pot) a t)
    (hd : ∀ {c c' b}, KComp.Succ c c' b → ∀ p : Pt, t < p.coord a → HasDerivAt (fun x => W c (p.set b x)) (W c' p) (p.coord b))
    (ha : ∀ p : Pt, t < p.coord a → W (kern1 a) p = k * layer a t f (kern1 a) p) (c : KComp) :
    ∀ p : Pt, t < p.coord a → W c p = k * layer a t f c p := by
  have h0 : ∀ p : Pt, t < p.coord a → W .pot p = k * layer a t f .pot p := fun p hp =>
    layer_eq hf hv (fun q hq => by rw [← ha q hq]; exact hd (by cases a <;> rfl) q hq) hp
  have h1 : ∀ i, ∀ p : Pt, t < p.coord a → W (kern1 i) p = k * layer a t f (kern1 i) p := fun i =>
    layer_step hf (c := .pot) (b := i) (by cases i <;> rfl) h0 (hd (by cases i <;> rfl))
  have h2 : ∀ i j, ∀ p : Pt, t < p.coord a → W (kern2 i j) p = k * layer a t f (kern2 i j) p := fun i j =>
    layer_step hf (kern_succ j i) (h1 j) (hd (kern_succ j i))
  rcases kern_cases c with rfl | ⟨i, rfl⟩ | ⟨i, j, rfl⟩ | ⟨i, j, l, rfl⟩
  · exact h0
  · exact h1 i
  · exact h2 i j
  · exact layer_step hf (kern2_succ i j l) (h2 i l) (hd (kern2_succ i j l))

end Choclo
