import Verif.Lemmas.Ball2
import Mathlib.Analysis.Complex.CauchyIntegral
import Mathlib.Analysis.Complex.Liouville
import Mathlib.Analysis.SpecialFunctions.Complex.Analytic
import Mathlib.Analysis.SpecialFunctions.Pow.Deriv
import Mathlib.Analysis.Calculus.ParametricIntegral

/-! # Integrals that depend holomorphically on a parameter; the kernels along complex lines -/

namespace Choclo

open Real Set MeasureTheory Filter Topology

/-- An integral over a compact set whose integrand is holomorphic in the parameter is holomorphic. -/
theorem analytic_param {S : Set Pt} (hS : IsCompact S) {G : Set (ℂ × Pt)} (hG : IsOpen G) {F : ℂ → Pt → ℂ}
    (hc : ContinuousOn (fun w : ℂ × Pt => F w.1 w.2) G)
    (hd : ∀ z q, (z, q) ∈ G → DifferentiableAt ℂ (fun z => F z q) z) {z0 : ℂ} (h0 : ∀ q ∈ S, (z0, q) ∈ G) :
    AnalyticAt ℂ (fun z => ∫ q in S, F z q) z0 := by
  obtain ⟨u, v, hu, hv, hzu, hSv, huv⟩ := generalized_tube_lemma (isCompact_singleton (x := z0)) hS hG
    (by rintro ⟨z, q⟩ ⟨hz, hq⟩; obtain rfl : z = z0 := hz; exact h0 q hq)
  obtain ⟨ε, hε, hball⟩ := Metric.isOpen_iff.1 hu z0 (hzu rfl)
  have hG' : ∀ z ∈ Metric.ball z0 ε, ∀ q ∈ S, (z, q) ∈ G := fun z hz q hq => huv ⟨hball hz, hSv hq⟩
  have hcb : Metric.closedBall z0 (ε / 2) ⊆ Metric.ball z0 ε := Metric.closedBall_subset_ball (by linarith)
  obtain ⟨C, hC⟩ := ((isCompact_closedBall z0 (ε / 2)).prod hS).exists_bound_of_continuousOn
    (hc.mono (fun w hw => hG' _ (hcb hw.1) _ hw.2))
  have hsl : ∀ z ∈ Metric.ball z0 ε, ContinuousOn (F z) S := fun z hz =>
    hc.comp (f := fun q : Pt => (z, q)) (by fun_prop) (fun q hq => hG' z hz q hq)
  have hint : ∀ z ∈ Metric.ball z0 ε, IntegrableOn (F z) S := fun z hz => (hsl z hz).integrableOn_compact hS
  have hder : ∀ z ∈ Metric.ball z0 ε, ∀ q ∈ S, HasDerivAt (fun z => F z q) (deriv (fun z => F z q) z) z :=
    fun z hz q hq => (hd z q (hG' z hz q hq)).hasDerivAt
  have main : DifferentiableOn ℂ (fun z => ∫ q in S, F z q) (Metric.ball z0 (ε / 4)) := by
    intro z hz
    have hz4 : dist z z0 < ε / 4 := hz
    have sub : Metric.ball z (ε / 8) ⊆ Metric.ball z0 ε := fun w hw => by
      have : dist w z < ε / 8 := hw
      have := dist_triangle w z z0
      rw [Metric.mem_ball]; linarith
    have hzb : z ∈ Metric.ball z0 ε := sub (Metric.mem_ball_self (by linarith))
    have hmeas : AEStronglyMeasurable (fun q => deriv (fun z => F z q) z) (volume.restrict S) := by
      refine aestronglyMeasurable_of_tendsto_ae (u := atTop)
        (f := fun (n : ℕ) q => (((ε / 16 / (n + 1) : ℝ) : ℂ))⁻¹ • (F (z + ((ε / 16 / (n + 1) : ℝ) : ℂ)) q - F z q)) ?_ ?_
      · intro n
        have hn : (0 : ℝ) < n + 1 := by positivity
        have hw : z + ((ε / 16 / (n + 1) : ℝ) : ℂ) ∈ Metric.ball z0 ε := sub (by
          rw [Metric.mem_ball, dist_eq_norm, add_sub_cancel_left, Complex.norm_real, Real.norm_eq_abs,
            abs_of_pos (by positivity), div_lt_iff₀ hn]
          nlinarith [hε, (Nat.cast_nonneg n : (0:ℝ) ≤ n)])
        exact AEStronglyMeasurable.const_smul (f := F (z + ((ε / 16 / (n + 1) : ℝ) : ℂ)) - F z)
          (((hint _ hw).aestronglyMeasurable).sub (hint _ hzb).aestronglyMeasurable) (((ε / 16 / (n + 1) : ℝ) : ℂ))⁻¹
      · refine (ae_restrict_iff' hS.measurableSet).2 (Eventually.of_forall fun q hq => ?_)
        have := (hder z hzb q hq).tendsto_slope_zero
        refine this.comp (tendsto_nhdsWithin_of_tendsto_nhds_of_eventually_within _ ?_ (Eventually.of_forall fun n => ?_))
        · have t : Tendsto (fun n : ℕ => (ε / 16 / ((n : ℝ) + 1) : ℝ)) atTop (𝓝 0) :=
            tendsto_const_nhds.div_atTop (tendsto_atTop_add_const_right _ _ tendsto_natCast_atTop_atTop)
          have := (Complex.continuous_ofReal.tendsto 0).comp t
          rw [Complex.ofReal_zero] at this
          exact this
        · have : (0:ℝ) < ε / 16 / ((n : ℝ) + 1) := by positivity
          exact Complex.ofReal_ne_zero.2 this.ne'
    have key := hasDerivAt_integral_of_dominated_loc_of_deriv_le (μ := volume.restrict S)
      (F := F) (F' := fun z q => deriv (fun z => F z q) z) (bound := fun _ => C / (ε / 8)) (x₀ := z)
      (s := Metric.ball z (ε / 8)) (Metric.ball_mem_nhds z (by linarith))
      (by
        filter_upwards [Metric.ball_mem_nhds z (show 0 < ε / 8 by linarith)] with w hw
        exact (hint w (sub hw)).aestronglyMeasurable)
      (hint z hzb) hmeas
      ((ae_restrict_iff' hS.measurableSet).2 (Eventually.of_forall fun q hq w hw => by
        have hw' : dist w z < ε / 8 := hw
        have hwz := dist_triangle w z z0
        refine Complex.norm_deriv_le_of_forall_mem_sphere_norm_le (by linarith) ?_ ?_
        · refine DifferentiableOn.diffContOnCl fun y hy => ?_
          have hy' : y ∈ Metric.closedBall w (ε / 8) := Metric.closure_ball_subset_closedBall hy
          rw [Metric.mem_closedBall] at hy'
          have := dist_triangle y w z0
          exact (hd y q (hG' y (by rw [Metric.mem_ball]; linarith) q hq)).differentiableWithinAt
        · intro y hy
          have hy' : dist y w = ε / 8 := hy
          have := dist_triangle y w z0
          exact hC (y, q) ⟨by rw [Metric.mem_closedBall]; show dist y z0 ≤ _; linarith, hq⟩))
      (integrableOn_const hS.measure_lt_top.ne (by simp))
      ((ae_restrict_iff' hS.measurableSet).2 (Eventually.of_forall fun q hq w hw => hder w (sub hw) q hq))
    exact key.2.differentiableAt.differentiableWithinAt
  exact main.analyticAt (Metric.ball_mem_nhds z0 (by linarith))

/-- complex distance -/
noncomputable def rC (x y z : ℂ) : ℂ := (x ^ 2 + y ^ 2 + z ^ 2) ^ (1 / 2 : ℂ)

/-- the kernels with complex arguments -/
noncomputable def kC (c : KComp) (x y z : ℂ) : ℂ :=
  match c with
  | .pot => (1) / rC x y z ^ 1
  | .e => (-1)*x^1 / rC x y z ^ 3
  | .n => (-1)*y^1 / rC x y z ^ 3
  | .u => (-1)*z^1 / rC x y z ^ 3
  | .ee => (3)*x^2 / rC x y z ^ 5 + (-1) / rC x y z ^ 3
  | .nn => (3)*y^2 / rC x y z ^ 5 + (-1) / rC x y z ^ 3
  | .uu => (3)*z^2 / rC x y z ^ 5 + (-1) / rC x y z ^ 3
  | .en => (3)*x^1*y^1 / rC x y z ^ 5
  | .eu => (3)*x^1*z^1 / rC x y z ^ 5
  | .nu => (3)*y^1*z^1 / rC x y z ^ 5
  | .eee => (9)*x^1 / rC x y z ^ 5 + (-15)*x^3 / rC x y z ^ 7
  | .nnn => (9)*y^1 / rC x y z ^ 5 + (-15)*y^3 / rC x y z ^ 7
  | .uuu => (9)*z^1 / rC x y z ^ 5 + (-15)*z^3 / rC x y z ^ 7
  | .een => (3)*y^1 / rC x y z ^ 5 + (-15)*x^2*y^1 / rC x y z ^ 7
  | .eeu => (3)*z^1 / rC x y z ^ 5 + (-15)*x^2*z^1 / rC x y z ^ 7
  | .nne => (3)*x^1 / rC x y z ^ 5 + (-15)*x^1*y^2 / rC x y z ^ 7
  | .nnu => (3)*z^1 / rC x y z ^ 5 + (-15)*y^2*z^1 / rC x y z ^ 7
  | .uue => (3)*x^1 / rC x y z ^ 5 + (-15)*x^1*z^2 / rC x y z ^ 7
  | .uun => (3)*y^1 / rC x y z ^ 5 + (-15)*y^1*z^2 / rC x y z ^ 7
  | .enu => (-15)*x^1*y^1*z^1 / rC x y z ^ 7

theorem rC_real (x y z : ℝ) : rC x y z = ((rad x y z : ℝ) : ℂ) := by
  unfold rC rad
  rw [Real.sqrt_eq_rpow, Complex.ofReal_cpow (by positivity)]
  push_cast
  rfl

theorem kC_real (c : KComp) (x y z : ℝ) : kC c x y z = ((kp c x y z : ℝ) : ℂ) := by
  cases c <;> simp only [kC, kp, rC_real] <;> push_cast <;> rfl

theorem rC_ne {x y z : ℂ} (h : x ^ 2 + y ^ 2 + z ^ 2 ∈ Complex.slitPlane) : rC x y z ≠ 0 := by
  unfold rC
  intro h'
  rw [Complex.cpow_eq_zero_iff] at h'
  exact Complex.slitPlane_ne_zero h h'.1

/-- squared distance from a point to the complex point at `z` on the line through `p` in direction `d` -/
noncomputable def sqC (p d : Pt) (w : ℂ × Pt) : ℂ :=
  ((p.e : ℂ) + w.1 * d.e - w.2.e) ^ 2 + ((p.n : ℂ) + w.1 * d.n - w.2.n) ^ 2 + ((p.u : ℂ) + w.1 * d.u - w.2.u) ^ 2

theorem continuous_sqC (p d : Pt) : Continuous (sqC p d) := by
  unfold sqC Pt.e Pt.n Pt.u
  fun_prop

/-- the kernel at the complex point at `z` on the line -/
noncomputable def lineC (c : KComp) (p d : Pt) (z : ℂ) (q : Pt) : ℂ :=
  kC c ((p.e : ℂ) + z * d.e - q.e) ((p.n : ℂ) + z * d.n - q.n) ((p.u : ℂ) + z * d.u - q.u)

theorem continuousOn_lineC (c : KComp) (p d : Pt) :
    ContinuousOn (fun w : ℂ × Pt => lineC c p d w.1 w.2) {w | sqC p d w ∈ Complex.slitPlane} := by
  have hx : Continuous fun w : ℂ × Pt => (p.e : ℂ) + w.1 * d.e - w.2.e := by unfold Pt.e; fun_prop
  have hy : Continuous fun w : ℂ × Pt => (p.n : ℂ) + w.1 * d.n - w.2.n := by unfold Pt.n; fun_prop
  have hz : Continuous fun w : ℂ × Pt => (p.u : ℂ) + w.1 * d.u - w.2.u := by unfold Pt.u; fun_prop
  have hr : ContinuousOn (fun w : ℂ × Pt => rC ((p.e : ℂ) + w.1 * d.e - w.2.e) ((p.n : ℂ) + w.1 * d.n - w.2.n)
      ((p.u : ℂ) + w.1 * d.u - w.2.u)) {w | sqC p d w ∈ Complex.slitPlane} :=
    (continuous_sqC p d).continuousOn.cpow_const (fun w hw => hw)
  have hn : ∀ w ∈ {w | sqC p d w ∈ Complex.slitPlane}, rC ((p.e : ℂ) + w.1 * d.e - w.2.e)
      ((p.n : ℂ) + w.1 * d.n - w.2.n) ((p.u : ℂ) + w.1 * d.u - w.2.u) ≠ 0 := fun w hw => rC_ne hw
  have hp : ∀ k : ℕ, ∀ w ∈ {w | sqC p d w ∈ Complex.slitPlane}, rC ((p.e : ℂ) + w.1 * d.e - w.2.e)
      ((p.n : ℂ) + w.1 * d.n - w.2.n) ((p.u : ℂ) + w.1 * d.u - w.2.u) ^ k ≠ 0 := fun k w hw => pow_ne_zero k (hn w hw)
  have m1 : ∀ (P : ℂ × Pt → ℂ), Continuous P → ∀ k : ℕ, ContinuousOn (fun w : ℂ × Pt => P w /
      rC ((p.e : ℂ) + w.1 * d.e - w.2.e) ((p.n : ℂ) + w.1 * d.n - w.2.n) ((p.u : ℂ) + w.1 * d.u - w.2.u) ^ k)
      {w | sqC p d w ∈ Complex.slitPlane} := fun P hP k => hP.continuousOn.div (hr.pow k) (hp k)
  cases c <;> simp only [lineC, kC] <;>
    first
      | exact m1 _ (by fun_prop) _
      | exact (m1 _ (by fun_prop) _).add (m1 _ (by fun_prop) _)

theorem differentiableAt_lineC (c : KComp) (p d : Pt) {z : ℂ} {q : Pt} (h : sqC p d (z, q) ∈ Complex.slitPlane) :
    DifferentiableAt ℂ (fun z => lineC c p d z q) z := by
  have hr : DifferentiableAt ℂ (fun z => rC ((p.e : ℂ) + z * d.e - q.e) ((p.n : ℂ) + z * d.n - q.n)
      ((p.u : ℂ) + z * d.u - q.u)) z := by
    unfold rC
    exact DifferentiableAt.cpow_const (by fun_prop) h
  have m1 : ∀ (P : ℂ → ℂ), Differentiable ℂ P → ∀ k : ℕ, DifferentiableAt ℂ (fun z => P z /
      rC ((p.e : ℂ) + z * d.e - q.e) ((p.n : ℂ) + z * d.n - q.n) ((p.u : ℂ) + z * d.u - q.u) ^ k) z :=
    fun P hP k => (hP z).div (hr.pow k) (pow_ne_zero k (rC_ne h))
  cases c <;> simp only [lineC, kC] <;>
    first
      | exact m1 _ (by fun_prop) _
      | exact (m1 _ (by fun_prop) _).add (m1 _ (by fun_prop) _)

/-- the point at parameter `t` on the line through `p` in direction `d` -/
def lineR (p d : Pt) (t : ℝ) : Pt := (p.e + t * d.e, p.n + t * d.n, p.u + t * d.u)

theorem lineC_real (c : KComp) (p d q : Pt) (t : ℝ) : lineC c p d t q = ((kpp c (lineR p d t) q : ℝ) : ℂ) := by
  unfold kpp lineC
  rw [← kC_real]
  simp only [lineR, Pt.e, Pt.n, Pt.u]
  push_cast
  rfl

/-- Integrals of kernels over a compact set are real-analytic along every line outside the set. -/
theorem analytic_line (c : KComp) {S : Set Pt} (hS : IsCompact S) (p d : Pt) {t : ℝ} (h : lineR p d t ∉ S) :
    AnalyticAt ℝ (fun t => ∫ q in S, kpp c (lineR p d t) q) t := by
  have key := analytic_param hS (G := {w | sqC p d w ∈ Complex.slitPlane})
    (Complex.isOpen_slitPlane.preimage (continuous_sqC p d)) (continuousOn_lineC c p d)
    (fun z q h => differentiableAt_lineC c p d h) (z0 := (t : ℂ)) (fun q hq => by
      have e : sqC p d ((t : ℂ), q) = ((rad ((lineR p d t).e - q.e) ((lineR p d t).n - q.n) ((lineR p d t).u - q.u) ^ 2 : ℝ) : ℂ) := by
        rw [rad_sq]
        simp only [sqC, lineR, Pt.e, Pt.n, Pt.u]
        push_cast
        rfl
      show sqC p d ((t : ℂ), q) ∈ Complex.slitPlane
      rw [e, Complex.ofReal_mem_slitPlane]
      have := rad_ne (show lineR p d t ≠ q from fun h' => h (h' ▸ hq))
      positivity)
  refine key.re_ofReal.congr (Eventually.of_forall fun s => ?_)
  simp only [lineC_real]
  rw [integral_complex_ofReal, Complex.ofReal_re]

end Choclo
