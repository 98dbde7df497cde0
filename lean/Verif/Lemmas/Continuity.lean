import Verif.Lemmas.Integral2
import Verif.Lemmas.Integral3
import Verif.Lemmas.Flux
import Verif.Props.PrismCalc
import Verif.Spec.Path
import Mathlib.Analysis.Calculus.FDeriv.Partial

/-! # Continuity and total differentiability of the potential and the acceleration of a prism -/

namespace Choclo

open Real Set MeasureTheory Filter Topology

variable {P : Box}

/-- the box seen from `p` -/
def relBox (P : Box) (p : Pt) : Set Pt := rbox (P.west - p.e) (P.east - p.e) (P.south - p.n) (P.north - p.n)
      (P.bottom - p.u) (P.top - p.u)

theorem eventually_sub_le {c x0 v : ℝ} (h : v ≠ c - x0) : ∀ᶠ x in 𝓝 x0, (c - x ≤ v ↔ c - x0 ≤ v) := by
  rcases lt_or_gt_of_ne h with h | h
  · have : ∀ᶠ x in 𝓝 x0, v < c - x :=
      (continuous_const.sub continuous_id).continuousAt.eventually (lt_mem_nhds h)
    filter_upwards [this] with x hx
    constructor <;> intro <;> linarith
  · have : ∀ᶠ x in 𝓝 x0, c - x < v :=
      (continuous_const.sub continuous_id).continuousAt.eventually (gt_mem_nhds h)
    filter_upwards [this] with x hx
    constructor <;> intro <;> linarith

theorem eventually_le_sub {c x0 v : ℝ} (h : v ≠ c - x0) : ∀ᶠ x in 𝓝 x0, (v ≤ c - x ↔ v ≤ c - x0) := by
  rcases lt_or_gt_of_ne h with h | h
  · have : ∀ᶠ x in 𝓝 x0, v < c - x :=
      (continuous_const.sub continuous_id).continuousAt.eventually (lt_mem_nhds h)
    filter_upwards [this] with x hx
    constructor <;> intro <;> linarith
  · have : ∀ᶠ x in 𝓝 x0, c - x < v :=
      (continuous_const.sub continuous_id).continuousAt.eventually (gt_mem_nhds h)
    filter_upwards [this] with x hx
    constructor <;> intro <;> linarith

theorem measurableSet_relBox (P : Box) (p : Pt) : MeasurableSet (relBox P p) := measurableSet_rbox _ _ _ _ _ _

/-- the integral of a locally integrable function over a moving box is continuous -/
theorem continuous_integral_relBox (P : Box) {f : Pt → ℝ} (hm : Measurable f)
    (hf : ∀ x1 x2 y1 y2 z1 z2 : ℝ, IntegrableOn f (rbox x1 x2 y1 y2 z1 z2)) :
    Continuous fun p => ∫ v in relBox P p, f v := by
  have e : (fun p => ∫ v in relBox P p, f v) = fun p => ∫ v, (relBox P p).indicator f v := by
    funext p; rw [integral_indicator (measurableSet_relBox P p)]
  rw [e, continuous_iff_continuousAt]
  intro p0
  set big := rbox (P.west - p0.e - 1) (P.east - p0.e + 1) (P.south - p0.n - 1) (P.north - p0.n + 1)
      (P.bottom - p0.u - 1) (P.top - p0.u + 1) with hbig
  have near : ∀ᶠ p in 𝓝 p0, relBox P p ⊆ big := by
    have h1 : ∀ᶠ p : Pt in 𝓝 p0, |p.1 - p0.1| < 1 := by
      have : ContinuousAt (fun p : Pt => |p.1 - p0.1|) p0 := by fun_prop
      exact this.eventually (gt_mem_nhds (by simp))
    have h2 : ∀ᶠ p : Pt in 𝓝 p0, |p.2.1 - p0.2.1| < 1 := by
      have : ContinuousAt (fun p : Pt => |p.2.1 - p0.2.1|) p0 := by fun_prop
      exact this.eventually (gt_mem_nhds (by simp))
    have h3 : ∀ᶠ p : Pt in 𝓝 p0, |p.2.2 - p0.2.2| < 1 := by
      have : ContinuousAt (fun p : Pt => |p.2.2 - p0.2.2|) p0 := by fun_prop
      exact this.eventually (gt_mem_nhds (by simp))
    filter_upwards [h1, h2, h3] with p h1 h2 h3
    rw [abs_lt] at h1 h2 h3
    rintro v ⟨⟨a1, a2⟩, ⟨a3, a4⟩, a5, a6⟩
    simp only [Pt.e, Pt.n, Pt.u] at *
    exact ⟨⟨by linarith, by linarith⟩, ⟨by linarith, by linarith⟩, by linarith, by linarith⟩
  refine continuousAt_of_dominated (bound := big.indicator fun v => ‖f v‖) ?_ ?_ ?_ ?_
  · exact Eventually.of_forall fun p => (hm.indicator (measurableSet_relBox P p)).aestronglyMeasurable
  · filter_upwards [near] with p hp
    refine Eventually.of_forall fun v => ?_
    rw [norm_indicator_eq_indicator_norm]
    exact indicator_le_indicator_of_subset hp (fun _ => norm_nonneg _) v
  · rw [integrable_indicator_iff (measurableSet_rbox _ _ _ _ _ _)]
    exact (hf _ _ _ _ _ _).norm
  · filter_upwards [ae_coord_ne .e (P.west - p0.e), ae_coord_ne .e (P.east - p0.e), ae_coord_ne .n (P.south - p0.n),
      ae_coord_ne .n (P.north - p0.n), ae_coord_ne .u (P.bottom - p0.u), ae_coord_ne .u (P.top - p0.u)]
      with v h1 h2 h3 h4 h5 h6
    have c1 : ContinuousAt (fun p : Pt => p.1) p0 := by fun_prop
    have c2 : ContinuousAt (fun p : Pt => p.2.1) p0 := by fun_prop
    have c3 : ContinuousAt (fun p : Pt => p.2.2) p0 := by fun_prop
    have hev : ∀ᶠ p in 𝓝 p0, (v ∈ relBox P p ↔ v ∈ relBox P p0) := by
      filter_upwards [c1.eventually (eventually_sub_le h1), c1.eventually (eventually_le_sub h2),
        c2.eventually (eventually_sub_le h3), c2.eventually (eventually_le_sub h4),
        c3.eventually (eventually_sub_le h5), c3.eventually (eventually_le_sub h6)] with p g1 g2 g3 g4 g5 g6
      change ((_ ∧ _) ∧ (_ ∧ _) ∧ _ ∧ _) ↔ ((_ ∧ _) ∧ (_ ∧ _) ∧ _ ∧ _)
      simp only [Pt.coord, Pt.e, Pt.n, Pt.u] at *
      rw [g1, g2, g3, g4, g5, g6]
    refine (continuousAt_const (y := (relBox P p0).indicator f v)).congr ?_
    filter_upwards [hev] with p hp
    by_cases hv : v ∈ relBox P p0
    · rw [indicator_of_mem hv, indicator_of_mem (hp.2 hv)]
    · rw [indicator_of_notMem hv, indicator_of_notMem (fun h => hv (hp.1 h))]

theorem continuous_Vpot (hP : P.Ordered) : Continuous fun p => Vc .pot p P := by
  have h := continuous_integral_relBox P (f := fun v : Pt => 1 / rad v.1 v.2.1 v.2.2)
    (measurable_rad3.const_div 1) integrableOn_inv_rad
  refine h.congr fun p => ?_
  rw [← integral_pot hP p]
  simp only [kpp_pot]
  exact (integral_region p P (fun x y z => 1 / rad x y z)).symm

theorem continuous_Ve (hP : P.Ordered) : Continuous fun p => Vc .e p P := by
  have h := continuous_integral_relBox P (f := fun v : Pt => v.1 / rad v.1 v.2.1 v.2.2 ^ 3)
    (measurable_fst.div (measurable_rad3.pow_const 3)) integrableOn_accel
  refine h.congr fun p => ?_
  rw [← integral_acc_e hP p]
  simp only [kpp_e]
  exact (integral_region p P (fun x y z => x / rad x y z ^ 3)).symm

theorem continuous_Vacc (hP : P.Ordered) (a : Axis) : Continuous fun p => Vc a.acc p P := by
  cases a
  · exact continuous_Ve hP
  · refine ((continuous_Ve (hP.swap .en)).comp (Pt.continuous_swap .en)).congr fun p => ?_
    exact Vc_swap (p := p) (P := P) .n .en
  · refine ((continuous_Ve (hP.swap .eu)).comp (Pt.continuous_swap .eu)).congr fun p => ?_
    exact Vc_swap (p := p) (P := P) .u .eu

/-! ### total derivatives -/

/-- a function with continuous partial derivatives is totally differentiable -/
theorem hasFDerivAt_of_partials {F : Pt → ℝ} {G : Axis → Pt → ℝ} {U : Set Pt} (hU : IsOpen U)
    (hd : ∀ a, ∀ p ∈ U, HasDerivAt (fun t => F (p.set a t)) (G a p) (p.coord a))
    (hc : ∀ a, ContinuousOn (G a) U) {u : Pt} (hu : u ∈ U) :
    HasFDerivAt F ((ContinuousLinearMap.toSpanSingleton ℝ (G .e u)).coprod
      ((ContinuousLinearMap.toSpanSingleton ℝ (G .n u)).coprod (ContinuousLinearMap.toSpanSingleton ℝ (G .u u)))) u := by
  have hcont : ∀ a, ∀ p ∈ U, ContinuousAt (G a) p := fun a p hp => (hc a).continuousAt (hU.mem_nhds hp)
  -- the last two coordinates
  have inner : ∀ p ∈ U, HasFDerivAt (fun w : ℝ × ℝ => F (p.1, w))
      ((ContinuousLinearMap.toSpanSingleton ℝ (G .n p)).coprod (ContinuousLinearMap.toSpanSingleton ℝ (G .u p))) p.2 := by
    intro p hp
    have hin : ∀ᶠ w : ℝ × ℝ in 𝓝 p.2, ((p.1, w) : Pt) ∈ U := by
      have : ContinuousAt (fun w : ℝ × ℝ => ((p.1, w) : Pt)) p.2 := by fun_prop
      exact this.preimage_mem_nhds (hU.mem_nhds hp)
    have := hasStrictFDerivAt_uncurry_coprod (𝕜 := ℝ) (u := p.2) (f := fun y z : ℝ => F (p.1, y, z))
      (f₁ := fun y z => ContinuousLinearMap.toSpanSingleton ℝ (G .n (p.1, y, z)))
      (f₂ := fun y z => ContinuousLinearMap.toSpanSingleton ℝ (G .u (p.1, y, z)))
      (by filter_upwards [hin] with w hw; exact (hd .n _ hw).hasFDerivAt)
      (by filter_upwards [hin] with w hw; exact (hd .u _ hw).hasFDerivAt)
      (by
        refine (ContinuousLinearMap.toSpanSingletonCLE (𝕜 := ℝ) (E := ℝ)).continuous.continuousAt.comp ?_
        exact ContinuousAt.comp (f := fun w : ℝ × ℝ => ((p.1, w) : Pt)) (hcont .n p hp) (by fun_prop))
      (by
        refine (ContinuousLinearMap.toSpanSingletonCLE (𝕜 := ℝ) (E := ℝ)).continuous.continuousAt.comp ?_
        exact ContinuousAt.comp (f := fun w : ℝ × ℝ => ((p.1, w) : Pt)) (hcont .u p hp) (by fun_prop))
    exact this.hasFDerivAt
  have hin : ∀ᶠ p in 𝓝 u, p ∈ U := hU.mem_nhds hu
  have c1 : ContinuousAt (fun p => ContinuousLinearMap.toSpanSingleton ℝ (G .e p)) u :=
    (ContinuousLinearMap.toSpanSingletonCLE (𝕜 := ℝ) (E := ℝ)).continuous.continuousAt.comp (hcont .e u hu)
  have c2 : ContinuousAt (fun p => (ContinuousLinearMap.toSpanSingleton ℝ (G .n p)).coprod
      (ContinuousLinearMap.toSpanSingleton ℝ (G .u p))) u := by
    have h1 : ContinuousAt (fun p => ContinuousLinearMap.toSpanSingleton ℝ (G .n p)) u :=
      (ContinuousLinearMap.toSpanSingletonCLE (𝕜 := ℝ) (E := ℝ)).continuous.continuousAt.comp (hcont .n u hu)
    have h2 : ContinuousAt (fun p => ContinuousLinearMap.toSpanSingleton ℝ (G .u p)) u :=
      (ContinuousLinearMap.toSpanSingletonCLE (𝕜 := ℝ) (E := ℝ)).continuous.continuousAt.comp (hcont .u u hu)
    exact (ContinuousLinearMap.coprodEquivL ℝ (𝕜 := ℝ) (E := ℝ) (F := ℝ) (G := ℝ)).continuous.continuousAt.comp (h1.prodMk h2)
  have := hasStrictFDerivAt_uncurry_coprod (𝕜 := ℝ) (u := u) (f := fun (x : ℝ) (w : ℝ × ℝ) => F (x, w))
    (f₁ := fun x w => ContinuousLinearMap.toSpanSingleton ℝ (G .e (x, w)))
    (f₂ := fun x w => (ContinuousLinearMap.toSpanSingleton ℝ (G .n (x, w))).coprod
      (ContinuousLinearMap.toSpanSingleton ℝ (G .u (x, w))))
    (by filter_upwards [hin] with p hp; exact (hd .e _ hp).hasFDerivAt)
    (by filter_upwards [hin] with p hp; exact inner p hp) c1 c2
  exact this.hasFDerivAt

/-- line integrals of gradients -/
theorem line_integral {F : Pt → ℝ} {G : Axis → Pt → ℝ} {U : Set Pt} (hU : IsOpen U)
    (hd : ∀ a, ∀ p ∈ U, HasDerivAt (fun t => F (p.set a t)) (G a p) (p.coord a))
    (hc : ∀ a, ContinuousOn (G a) U) {γ γ' : ℝ → Pt} {s₀ s₁ : ℝ} (hγ : IsPath γ γ' s₀ s₁)
    (hin : ∀ t ∈ Icc s₀ s₁, γ t ∈ U) :
    IntervalIntegrable (fun t => G .e (γ t) * (γ' t).e + G .n (γ t) * (γ' t).n + G .u (γ t) * (γ' t).u)
      volume s₀ s₁ ∧
    ∫ t in s₀..s₁, (G .e (γ t) * (γ' t).e + G .n (γ t) * (γ' t).n + G .u (γ t) * (γ' t).u) =
      F (γ s₁) - F (γ s₀) := by
  obtain ⟨hs, hγc, hγ, hγ'⟩ := hγ
  have hGc : ∀ a, ContinuousOn (fun t => G a (γ t)) (Icc s₀ s₁) := fun a => (hc a).comp hγc hin
  have hi : IntervalIntegrable
      (fun t => G .e (γ t) * (γ' t).e + G .n (γ t) * (γ' t).n + G .u (γ t) * (γ' t).u) volume s₀ s₁ := by
    apply ContinuousOn.intervalIntegrable
    rw [uIcc_of_le hs]
    exact (((hGc .e).mul hγ'.fst).add ((hGc .n).mul hγ'.snd.fst)).add ((hGc .u).mul hγ'.snd.snd)
  refine ⟨hi, ?_⟩
  refine intervalIntegral.integral_eq_sub_of_hasDerivAt_of_le (f := fun t => F (γ t)) hs ?_ ?_ hi
  · have : ContinuousOn F U := fun p hp =>
      (hasFDerivAt_of_partials hU hd hc hp).continuousAt.continuousWithinAt
    exact this.comp hγc hin
  intro t ht
  have h := (hasFDerivAt_of_partials hU hd hc (hin t (Ioo_subset_Icc_self ht))).comp_hasDerivAt t (hγ t ht)
  refine h.congr_deriv ?_
  simp only [ContinuousLinearMap.coprod_apply, ContinuousLinearMap.toSpanSingleton_apply, smul_eq_mul]
  ring

/-- integrals of kernels over the prism are continuous outside it -/
theorem continuousOn_integral_kpp (c : KComp) : ContinuousOn (fun p => ∫ q in P.region, kpp c p q) P.regionᶜ := by
  intro p0 hp0
  apply ContinuousAt.continuousWithinAt
  obtain ⟨ε, hε, hball⟩ := Metric.mem_nhds_iff.1 ((isCompact_region P).isClosed.isOpen_compl.mem_nhds hp0)
  set K := Metric.closedBall p0 (ε / 2) with hK
  have hKm : K ∈ 𝓝 p0 := Metric.closedBall_mem_nhds _ (by linarith)
  have hKx : ∀ p ∈ K, p ∉ P.region := fun p hp => hball (by
    rw [hK, Metric.mem_closedBall] at hp
    rw [Metric.mem_ball]; linarith)
  have hne : ∀ p ∈ K, ∀ q ∈ P.region, p ≠ q := fun p hp q hq he => hKx p hp (he ▸ hq)
  have hcont : ContinuousOn (fun w : Pt × Pt => kpp c w.1 w.2) (K ×ˢ P.region) :=
    (continuousOn_kpp c).mono fun w hw => hne _ hw.1 _ hw.2
  obtain ⟨C, hC⟩ := ((isCompact_closedBall _ _).prod (isCompact_region P)).exists_bound_of_continuousOn hcont
  refine continuousAt_of_dominated (bound := fun _ => C) ?_ ?_ ?_ ?_
  · filter_upwards [hKm] with p hp
    exact (integrableOn_kpp c (hKx p hp)).aestronglyMeasurable
  · filter_upwards [hKm] with p hp
    filter_upwards [ae_restrict_mem (measurableSet_region P)] with q hq
    exact hC (p, q) ⟨hp, hq⟩
  · exact integrableOn_const (by exact (isCompact_region P).measure_lt_top.ne) (by simp)
  · filter_upwards [ae_restrict_mem (measurableSet_region P)] with q hq
    have hne' : p0 ≠ q := hne p0 (Metric.mem_closedBall_self (by linarith)) q hq
    have h1 : ContinuousAt (fun w : Pt × Pt => kpp c w.1 w.2) (p0, q) :=
      (continuousOn_kpp c).continuousAt ((isOpen_ne_fun continuous_fst continuous_snd).mem_nhds hne')
    exact ContinuousAt.comp (f := fun p : Pt => (p, q)) h1 (by fun_prop)

end Choclo
