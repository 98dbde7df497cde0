import Verif.Lemmas.Integral3
import Mathlib.Analysis.Calculus.ContDiff.Operations
import Mathlib.Analysis.Calculus.ParametricIntegral
import Mathlib.Analysis.SpecialFunctions.Pow.Deriv
import Mathlib.Analysis.SpecialFunctions.Sqrt

/-! # Smooth dependence of integrals on a parameter -/

namespace Choclo

open Real Set MeasureTheory Filter Topology ContDiff

section
variable {G : Type} [NormedAddCommGroup G] [NormedSpace ℝ G] {F : Pt × Pt → G} {W : Set (Pt × Pt)} {K U : Set Pt}

theorem bound_near (hF : ContinuousOn F W) (hK : IsCompact K) (hU : IsOpen U) (hUK : U ×ˢ K ⊆ W) {x : Pt} (hx : x ∈ U) :
    ∃ s ∈ 𝓝 x, s ⊆ U ∧ ∃ C, ∀ y ∈ s, ∀ q ∈ K, ‖F (y, q)‖ ≤ C := by
  obtain ⟨ε, hε, hball⟩ := Metric.isOpen_iff.1 hU x hx
  have hsub : Metric.closedBall x (ε / 2) ⊆ U := (Metric.closedBall_subset_ball (by linarith)).trans hball
  obtain ⟨C, hC⟩ := ((isCompact_closedBall x (ε / 2)).prod hK).exists_bound_of_continuousOn
    (hF.mono ((prod_mono hsub le_rfl).trans hUK))
  exact ⟨_, Metric.closedBall_mem_nhds x (by linarith), hsub, C, fun y hy q hq => hC (y, q) ⟨hy, hq⟩⟩

theorem integrableOn_slice (hF : ContinuousOn F W) (hK : IsCompact K) (hUK : U ×ˢ K ⊆ W) {x : Pt} (hx : x ∈ U) :
    IntegrableOn (fun q => F (x, q)) K :=
  ContinuousOn.integrableOn_compact hK
    (hF.comp (f := fun q : Pt => (x, q)) (by fun_prop) fun _ hq => hUK ⟨hx, hq⟩)

theorem continuousOn_integral_param (hF : ContinuousOn F W) (hK : IsCompact K) (hU : IsOpen U) (hUK : U ×ˢ K ⊆ W) :
    ContinuousOn (fun x => ∫ q in K, F (x, q)) U := by
  intro x hx
  apply ContinuousAt.continuousWithinAt
  obtain ⟨s, hs, hsU, C, hC⟩ := bound_near hF hK hU hUK hx
  refine continuousAt_of_dominated (bound := fun _ => C) ?_ ?_ ?_ ?_
  · filter_upwards [hs] with y hy
    exact (integrableOn_slice hF hK hUK (hsU hy)).aestronglyMeasurable
  · filter_upwards [hs] with y hy
    filter_upwards [ae_restrict_mem hK.measurableSet] with q hq
    exact hC y hy q hq
  · exact integrableOn_const hK.measure_lt_top.ne (by simp)
  · filter_upwards [ae_restrict_mem hK.measurableSet] with q hq
    have h1 : ContinuousOn (fun y => F (y, q)) U :=
      hF.comp (f := fun y : Pt => (y, q)) (by fun_prop) fun y hy => hUK ⟨hy, hq⟩
    exact h1.continuousAt (hU.mem_nhds hx)

theorem hasFDerivAt_integral_param (hW : IsOpen W) (hF : ContDiffOn ℝ 1 F W) (hK : IsCompact K) (hU : IsOpen U)
    (hUK : U ×ˢ K ⊆ W) {x : Pt} (hx : x ∈ U) :
    HasFDerivAt (fun x => ∫ q in K, F (x, q))
      (∫ q in K, (fderiv ℝ F (x, q)).comp (ContinuousLinearMap.inl ℝ Pt Pt)) x := by
  have hc := hF.continuousOn
  have hF' : ContinuousOn (fun w => (fderiv ℝ F w).comp (ContinuousLinearMap.inl ℝ Pt Pt)) W :=
    (hF.continuousOn_fderiv_of_isOpen hW (by norm_num)).clm_comp continuousOn_const
  obtain ⟨s, hs, hsU, C, hC⟩ := bound_near hF' hK hU hUK hx
  refine hasFDerivAt_integral_of_dominated_of_fderiv_le (μ := volume.restrict K)
    (F := fun x q => F (x, q)) (F' := fun x q => (fderiv ℝ F (x, q)).comp (ContinuousLinearMap.inl ℝ Pt Pt))
    (bound := fun _ => C) hs ?_ ?_ ?_ ?_ ?_ ?_
  · filter_upwards [hs] with y hy
    exact (integrableOn_slice hc hK hUK (hsU hy)).aestronglyMeasurable
  · exact integrableOn_slice hc hK hUK hx
  · exact (integrableOn_slice hF' hK hUK hx).aestronglyMeasurable
  · filter_upwards [ae_restrict_mem hK.measurableSet] with q hq y hy
    exact hC y hy q hq
  · exact integrableOn_const hK.measure_lt_top.ne (by simp)
  · filter_upwards [ae_restrict_mem hK.measurableSet] with q hq y hy
    have h1 : HasFDerivAt F (fderiv ℝ F (y, q)) (y, q) :=
      ((hF.differentiableOn (by norm_num)).differentiableAt (hW.mem_nhds (hUK ⟨hsU hy, hq⟩))).hasFDerivAt
    have h2 : HasFDerivAt (fun y : Pt => ((y, q) : Pt × Pt)) (ContinuousLinearMap.inl ℝ Pt Pt) y :=
      hasFDerivAt_prodMk_left y q
    exact h1.comp y h2

end

theorem contDiffOn_integral_param (n : ℕ) : ∀ {G : Type} [NormedAddCommGroup G] [NormedSpace ℝ G] {F : Pt × Pt → G}
    {W : Set (Pt × Pt)} {K U : Set Pt}, IsOpen W → ContDiffOn ℝ n F W → IsCompact K → IsOpen U → U ×ˢ K ⊆ W →
    ContDiffOn ℝ n (fun x => ∫ q in K, F (x, q)) U := by
  induction n with
  | zero =>
    intro G _ _ F W K U hW hF hK hU hUK
    have h0 : ContinuousOn F W := hF.continuousOn
    exact contDiffOn_zero.2 (continuousOn_integral_param h0 hK hU hUK)
  | succ n ih =>
    intro G _ _ F W K U hW hF hK hU hUK
    have h1 : ContDiffOn ℝ 1 F W := hF.of_le (by exact_mod_cast Nat.le_add_left 1 n)
    have hd : ∀ x ∈ U, HasFDerivAt (fun x => ∫ q in K, F (x, q))
      (∫ q in K, (fderiv ℝ F (x, q)).comp (ContinuousLinearMap.inl ℝ Pt Pt)) x :=
        fun x hx => hasFDerivAt_integral_param hW h1 hK hU hUK hx
    push_cast
    rw [contDiffOn_succ_iff_fderiv_of_isOpen hU]
    refine ⟨fun x hx => (hd x hx).differentiableAt.differentiableWithinAt, by simp, ?_⟩
    have hF' : ContDiffOn ℝ n (fun w => (fderiv ℝ F w).comp (ContinuousLinearMap.inl ℝ Pt Pt)) W :=
      (hF.fderiv_of_isOpen hW (by norm_cast)).clm_comp contDiffOn_const
    exact (ih hW hF' hK hU hUK).congr fun x hx => (hd x hx).fderiv


/-! ## Kernels of point sources -/

section
variable {E : Type} [NormedAddCommGroup E] [NormedSpace ℝ E] {f g h : E → ℝ} {p : E} {n : WithTop ℕ∞}

theorem contDiffAt_rad (hf : ContDiffAt ℝ n f p) (hg : ContDiffAt ℝ n g p) (hh : ContDiffAt ℝ n h p)
    (hne : rad (f p) (g p) (h p) ≠ 0) : ContDiffAt ℝ n (fun q => rad (f q) (g q) (h q)) p := by
  unfold rad at *
  refine ContDiffAt.sqrt (((hf.pow 2).add (hg.pow 2)).add (hh.pow 2)) ?_
  intro h0
  rw [h0, Real.sqrt_zero] at hne
  exact hne rfl

theorem contDiffAt_kp (c : KComp) (hf : ContDiffAt ℝ n f p) (hg : ContDiffAt ℝ n g p) (hh : ContDiffAt ℝ n h p)
    (hne : rad (f p) (g p) (h p) ≠ 0) : ContDiffAt ℝ n (fun q => kp c (f q) (g q) (h q)) p := by
  have hr := contDiffAt_rad hf hg hh hne
  have hp : ∀ m : ℕ, rad (f p) (g p) (h p) ^ m ≠ 0 := fun m => pow_ne_zero m hne
  have d : ∀ {k : E → ℝ} (m : ℕ), ContDiffAt ℝ n k p → ContDiffAt ℝ n (fun q => k q / rad (f q) (g q) (h q) ^ m) p :=
    fun m hk => hk.div (hr.pow m) (hp m)
  cases c <;> simp only [kp] <;>
    first
      | exact d _ (by fun_prop)
      | exact (d _ (by fun_prop)).add (d _ (by fun_prop))

theorem contDiffAt_Lk (hf : ContDiffAt ℝ n f p) (hg : ContDiffAt ℝ n g p) (hh : ContDiffAt ℝ n h p)
    (hne : ¬(g p = 0 ∧ h p = 0)) : ContDiffAt ℝ n (fun q => Lk (f q) (g q) (h q)) p := by
  have hr : rad (f p) (g p) (h p) ≠ 0 := by rw [Ne, rad_eq_zero]; tauto
  have hpos : ∀ q, ¬(g q = 0 ∧ h q = 0) → 0 < f q + rad (f q) (g q) (h q) := by
    intro q hq
    have h1 : 0 < g q ^ 2 + h q ^ 2 := by
      rcases not_and_or.1 hq with h | h <;> positivity
    have h2 : |f q| < rad (f q) (g q) (h q) := by
      unfold rad; rw [← Real.sqrt_sq_eq_abs]
      exact Real.sqrt_lt_sqrt (sq_nonneg _) (by linarith)
    have := neg_abs_le (f q)
    linarith
  have hev : ∀ᶠ q in 𝓝 p, ¬(g q = 0 ∧ h q = 0) := by
    rcases not_and_or.1 hne with h0 | h0
    · filter_upwards [hg.continuousAt.eventually_ne h0] with q hq hq' using hq hq'.1
    · filter_upwards [hh.continuousAt.eventually_ne h0] with q hq hq' using hq hq'.2
  have key : ContDiffAt ℝ n (fun q => Real.log (f q + rad (f q) (g q) (h q))) p :=
    (hf.add (contDiffAt_rad hf hg hh hr)).log (hpos p hne).ne'
  refine key.congr_of_eventuallyEq ?_
  filter_upwards [hev] with q hq
  exact Lk_eq_log hq

theorem contDiffAt_Tk (hf : ContDiffAt ℝ n f p) (hg : ContDiffAt ℝ n g p) (hh : ContDiffAt ℝ n h p)
    (hne : f p ≠ 0) : ContDiffAt ℝ n (fun q => Tk (f q) (g q) (h q)) p := by
  have hr : rad (f p) (g p) (h p) ≠ 0 := by rw [Ne, rad_eq_zero]; tauto
  have key : ContDiffAt ℝ n (fun q => Real.arctan (g q * h q / (f q * rad (f q) (g q) (h q)))) p :=
    Real.contDiff_arctan.contDiffAt.comp p ((hg.mul hh).div (hf.mul (contDiffAt_rad hf hg hh hr)) (mul_ne_zero hne hr))
  refine key.congr_of_eventuallyEq ?_
  filter_upwards [hf.continuousAt.eventually_ne hne] with q hq
  simp only [Tk, if_neg hq]

theorem contDiffAt_Kc (c : GComp) (hf : ContDiffAt ℝ n f p) (hg : ContDiffAt ℝ n g p) (hh : ContDiffAt ℝ n h p)
    (h1 : f p ≠ 0) (h2 : g p ≠ 0) (h3 : h p ≠ 0) : ContDiffAt ℝ n (fun q => Kc c (f q) (g q) (h q)) p := by
  have l : ∀ {f g h : E → ℝ}, ContDiffAt ℝ n f p → ContDiffAt ℝ n g p → ContDiffAt ℝ n h p → g p ≠ 0 →
      ContDiffAt ℝ n (fun q => Lk (f q) (g q) (h q)) p := fun hf hg hh h0 => contDiffAt_Lk hf hg hh fun h => h0 h.1
  have t : ∀ {f g h : E → ℝ}, ContDiffAt ℝ n f p → ContDiffAt ℝ n g p → ContDiffAt ℝ n h p → f p ≠ 0 →
      ContDiffAt ℝ n (fun q => Tk (f q) (g q) (h q)) p := fun hf hg hh h0 => contDiffAt_Tk hf hg hh h0
  have k : ∀ {f g h : E → ℝ}, ContDiffAt ℝ n f p → ContDiffAt ℝ n g p → ContDiffAt ℝ n h p → f p ≠ 0 → g p ≠ 0 → h p ≠ 0 →
      ContDiffAt ℝ n (fun q => Fk (f q) (g q) (h q)) p := fun hf hg hh h1 h2 h3 =>
    ((hg.mul (l hh hf hg h1)).add (hh.mul (l hg hf hh h1))).sub (hf.mul (t hf hg hh h1))
  cases c <;> simp only [Kc]
  · unfold Pk
    exact ((((((hf.mul hg).mul (l hh hf hg h1)).add ((hg.mul hh).mul (l hf hg hh h2))).add
      ((hf.mul hh).mul (l hg hh hf h3))).sub ((contDiffAt_const.mul (hf.pow 2)).mul (t hf hh hg h1))).sub
      ((contDiffAt_const.mul (hg.pow 2)).mul (t hg hh hf h2))).sub ((contDiffAt_const.mul (hh.pow 2)).mul (t hh hf hg h3))
  · exact (k hf hg hh h1 h2 h3).neg
  · exact (k hg hf hh h2 h1 h3).neg
  · exact (k hh hf hg h3 h1 h2).neg
  · exact (t hf hg hh h1).neg
  · exact (t hg hf hh h2).neg
  · exact (t hh hf hg h3).neg
  · exact l hh hf hg h1
  · exact l hg hf hh h1
  · exact l hf hg hh h2

end

theorem contDiffOn_kpp (c : KComp) (n : WithTop ℕ∞) :
    ContDiffOn ℝ n (fun w : Pt × Pt => kpp c w.1 w.2) {w | w.1 ≠ w.2} := by
  rintro ⟨p, q⟩ hw
  have hw' : p ≠ q := hw
  apply ContDiffAt.contDiffWithinAt
  unfold kpp
  simp only [Pt.e, Pt.n, Pt.u]
  exact contDiffAt_kp c (p := ((p, q) : Pt × Pt)) (by fun_prop) (by fun_prop) (by fun_prop) (rad_ne hw')

theorem isOpen_offDiag : IsOpen {w : Pt × Pt | w.1 ≠ w.2} := isOpen_ne_fun continuous_fst continuous_snd

/-- outside a compact body -/
theorem contDiffOn_integral_kpp (c : KComp) {K : Set Pt} (hK : IsCompact K) :
    ContDiffOn ℝ ∞ (fun p => ∫ q in K, kpp c p q) Kᶜ := by
  rw [contDiffOn_infty]
  intro n
  refine contDiffOn_integral_param n isOpen_offDiag (contDiffOn_kpp c n) hK hK.isClosed.isOpen_compl ?_
  rintro ⟨p, q⟩ ⟨hp, hq⟩ h
  have h' : p = q := h
  exact hp (h' ▸ hq)

end Choclo
