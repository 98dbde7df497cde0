import Verif.Spec.Flux
import Verif.Lemmas.Integral3
import Verif.Lemmas.Laplace

/-! # Flux of a point mass, and of bodies made of point masses, through the surface of a box -/

namespace Choclo

open Real Set MeasureTheory Filter Topology

/-- a quarter of the solid angle of a rectangle centred on the axis: odd in every argument, and zero
when any of them is -/
noncomputable def Ar (x y z : ℝ) : ℝ := Real.arctan (y * z / (x * rad x y z))

theorem Ar_eq_Tk {x : ℝ} (hx : x ≠ 0) (y z : ℝ) : Ar x y z = Tk x y z := by
  simp only [Ar, Tk, if_neg hx]

theorem Ar_zero1 (y z : ℝ) : Ar 0 y z = 0 := by simp [Ar]
theorem Ar_zero2 (x z : ℝ) : Ar x 0 z = 0 := by simp [Ar]
theorem Ar_zero3 (x y : ℝ) : Ar x y 0 = 0 := by simp [Ar]

theorem Ar_trace (x y z : ℝ) : Ar x y z + Ar y x z + Ar z x y =
    π / 2 * (Real.sign x * (Real.sign y * Real.sign z)) := by
  by_cases hx : x = 0
  · subst hx; simp [Ar_zero1, Ar_zero2]
  by_cases hy : y = 0
  · subst hy; simp [Ar_zero1, Ar_zero2, Ar_zero3]
  by_cases hz : z = 0
  · subst hz; simp [Ar_zero1, Ar_zero3]
  rw [Ar_eq_Tk hx, Ar_eq_Tk hy, Ar_eq_Tk hz, Tk_trace_ne hx hy hz]

/-- second difference -/
noncomputable def D2 (f : ℝ → ℝ → ℝ) (y1 y2 z1 z2 : ℝ) : ℝ := (f y2 z2 - f y2 z1) - (f y1 z2 - f y1 z1)

theorem integrableOn_face (x b c y1 y2 z1 z2 : ℝ) :
    IntegrableOn (fun s : ℝ × ℝ => x / rad x (s.1 - b) (s.2 - c) ^ 3) (Icc y1 y2 ×ˢ Icc z1 z2) := by
  by_cases hx : x = 0
  · subst hx; simp only [zero_div]; exact integrableOn_zero
  refine ContinuousOn.integrableOn_compact (isCompact_Icc.prod isCompact_Icc) (Continuous.continuousOn ?_)
  have hr : ∀ y z, rad x y z ≠ 0 := fun y z => by rw [Ne, rad_eq_zero]; tauto
  refine continuous_const.div ?_ fun s => pow_ne_zero _ (hr _ _)
  exact (Continuous.rad (by fun_prop) (by fun_prop) (by fun_prop)).pow 3

theorem integral_face {x b c y1 y2 z1 z2 : ℝ} (hy : y1 ≤ y2) (hz : z1 ≤ z2) :
    ∫ s in Icc y1 y2 ×ˢ Icc z1 z2, x / rad x (s.1 - b) (s.2 - c) ^ 3 =
      D2 (Ar x) (y1 - b) (y2 - b) (z1 - c) (z2 - c) := by
  have hI := integrableOn_face x b c y1 y2 z1 z2
  by_cases hx : x = 0
  · subst hx; simp [D2, Ar_zero1]
  have hr : ∀ y z, rad x y z ≠ 0 := fun y z => by rw [Ne, rad_eq_zero]; tauto
  have hI' : IntegrableOn (fun s : ℝ × ℝ => x / rad x (s.1 - b) (s.2 - c) ^ 3) (Icc y1 y2 ×ˢ Icc z1 z2)
    ((volume : Measure ℝ).prod (volume : Measure ℝ)) := hI
  rw [show (volume : Measure (ℝ × ℝ)) = (volume : Measure ℝ).prod (volume : Measure ℝ) from rfl,
    setIntegral_prod _ hI', integral_Icc_eq_integral_Ioc, ← intervalIntegral.integral_of_le hy]
  have inner : ∀ y, ∫ z in Icc z1 z2, x / rad x (y - b) (z - c) ^ 3 =
      x * (z2 - c) / (rad x (y - b) (z2 - c) * (x ^ 2 + (y - b) ^ 2))
        - x * (z1 - c) / (rad x (y - b) (z1 - c) * (x ^ 2 + (y - b) ^ 2)) := by
    intro y
    rw [integral_Icc_eq_integral_Ioc, ← intervalIntegral.integral_of_le hz]
    refine intervalIntegral.integral_eq_sub_of_hasDerivAt
      (f := fun z => x * (z - c) / (rad x (y - b) (z - c) * (x ^ 2 + (y - b) ^ 2))) ?_ ?_
    · intro z _
      have hp : x ^ 2 + (y - b) ^ 2 ≠ 0 := by positivity
      have hr' := hr (y - b) (z - c)
      have h1 := ((((hasDerivAt_id (z - c)).const_mul x).div
        ((hasDerivAt_rad3 hr').mul_const (x ^ 2 + (y - b) ^ 2)) (mul_ne_zero hr' hp))).comp_sub_const z c
      refine h1.congr_deriv ?_
      have := rad_sq x (y - b) (z - c)
      simp only [id]
      field_simp
      simp only [this]
      ring
    · apply Continuous.intervalIntegrable
      refine continuous_const.div ?_ fun s => pow_ne_zero _ (hr _ _)
      exact (Continuous.rad (by fun_prop) (by fun_prop) (by fun_prop)).pow 3
  simp only [inner]
  have hcont : ∀ z, Continuous fun y => x * (z - c) / (rad x (y - b) (z - c) * (x ^ 2 + (y - b) ^ 2)) := by
    intro z
    refine continuous_const.div ?_ fun y => mul_ne_zero (hr _ _) (by positivity)
    exact (Continuous.rad (by fun_prop) (by fun_prop) (by fun_prop)).mul (by fun_prop)
  rw [intervalIntegral.integral_eq_sub_of_hasDerivAt
    (f := fun y => Tk x (y - b) (z2 - c) - Tk x (y - b) (z1 - c)) (fun y _ =>
      (((hasDerivAt_Tk2 (y - b) (z2 - c) hx).comp_sub_const y b).sub
        ((hasDerivAt_Tk2 (y - b) (z1 - c) hx).comp_sub_const y b)))
    (((hcont z2).sub (hcont z1)).intervalIntegrable _ _)]
  simp only [D2, Ar_eq_Tk hx]

/-! ### one point mass -/

theorem acc_face (a : Axis) (t : ℝ) (s : ℝ × ℝ) (q : Pt) : kpp a.acc.toK (Pt.onPlane a t s) q =
    -((t - q.coord a) / rad (t - q.coord a)
      (s.1 - match a with | .e => q.n | .n => q.e | .u => q.e)
      (s.2 - match a with | .e => q.u | .n => q.u | .u => q.n) ^ 3) := by
  cases a <;> simp only [kpp, kp, Axis.acc, GComp.toK, Pt.onPlane, Pt.coord, Pt.e, Pt.n, Pt.u, pow_one]
  · ring
  · rw [rad_perm1]; ring
  · rw [rad_perm4 (s.1 - q.1)]; ring

theorem isCompact_cross (B : Box) (a : Axis) : IsCompact (B.cross a) := by
  cases a <;> exact isCompact_Icc.prod isCompact_Icc

theorem measurableSet_cross (B : Box) (a : Axis) : MeasurableSet (B.cross a) :=
  (isCompact_cross B a).measurableSet

theorem integrableOn_acc_face (B : Box) (a : Axis) (t : ℝ) (q : Pt) :
    IntegrableOn (fun s => kpp a.acc.toK (Pt.onPlane a t s) q) (B.cross a) := by
  simp only [acc_face]
  cases a <;> exact (integrableOn_face _ _ _ _ _ _ _).neg

/-- the flux of a unit mass through a face -/
noncomputable def fluxFace (B : Box) (a : Axis) (x : ℝ) (q : Pt) : ℝ :=
  match a with
  | .e => -D2 (Ar x) (B.south - q.n) (B.north - q.n) (B.bottom - q.u) (B.top - q.u)
  | .n => -D2 (Ar x) (B.west - q.e) (B.east - q.e) (B.bottom - q.u) (B.top - q.u)
  | .u => -D2 (Ar x) (B.west - q.e) (B.east - q.e) (B.south - q.n) (B.north - q.n)

theorem faceIntegral_acc {B : Box} (hB : B.Ordered) (a : Axis) (t : ℝ) (q : Pt) :
    B.faceIntegral a t (fun p => kpp a.acc.toK p q) = fluxFace B a (t - q.coord a) q := by
  unfold Box.faceIntegral
  simp only [acc_face]
  rw [integral_neg]
  cases a <;> simp only [Box.cross, fluxFace]
  · rw [integral_face hB.2.1 hB.2.2]
  · rw [integral_face hB.1 hB.2.2]
  · rw [integral_face hB.1 hB.2.1]

/-- total flux of a unit mass -/
theorem outwardFlux_point {B : Box} (hB : B.Ordered) (q : Pt) :
    B.outwardFlux (fun a p => kpp a.acc.toK p q) =
      -(π / 2) * ((Real.sign (B.east - q.e) - Real.sign (B.west - q.e)) *
        ((Real.sign (B.north - q.n) - Real.sign (B.south - q.n)) *
          (Real.sign (B.top - q.u) - Real.sign (B.bottom - q.u)))) := by
  unfold Box.outwardFlux
  simp only [faceIntegral_acc hB]
  simp only [fluxFace, D2, Box.hi, Box.lo, Pt.coord]
  have t := Ar_trace
  linear_combination -t (B.east - q.e) (B.north - q.n) (B.top - q.u)
    + t (B.east - q.e) (B.north - q.n) (B.bottom - q.u)
    + t (B.east - q.e) (B.south - q.n) (B.top - q.u)
    - t (B.east - q.e) (B.south - q.n) (B.bottom - q.u)
    + t (B.west - q.e) (B.north - q.n) (B.top - q.u)
    - t (B.west - q.e) (B.north - q.n) (B.bottom - q.u)
    - t (B.west - q.e) (B.south - q.n) (B.top - q.u)
    + t (B.west - q.e) (B.south - q.n) (B.bottom - q.u)

theorem outwardFlux_point_inside {B : Box} (hB : B.Ordered) {q : Pt} (h : q ∈ B.inside) :
    B.outwardFlux (fun a p => kpp a.acc.toK p q) = -(4 * π) := by
  obtain ⟨⟨h1, h2⟩, ⟨h3, h4⟩, h5, h6⟩ := h
  rw [outwardFlux_point hB, sign_sub_in (by linarith) (by linarith), sign_sub_in (by linarith) (by linarith),
    sign_sub_in (by linarith) (by linarith)]
  ring

theorem outwardFlux_point_outside {B : Box} (hB : B.Ordered) {q : Pt} (h : q ∉ B.region) :
    B.outwardFlux (fun a p => kpp a.acc.toK p q) = 0 := by
  rw [outwardFlux_point hB]
  have key : ∀ {l u t : ℝ}, l ≤ u → t ∉ Icc l u → Real.sign (u - t) - Real.sign (l - t) = 0 := by
    intro l u t hlu ht
    rw [mem_Icc, not_and_or, not_le, not_le] at ht
    rcases ht with h | h
    · exact sign_sub_out (Or.inl ⟨by linarith, by linarith⟩)
    · exact sign_sub_out (Or.inr ⟨by linarith, by linarith⟩)
  have h' : ¬(q.e ∈ Icc B.west B.east ∧ q.n ∈ Icc B.south B.north ∧ q.u ∈ Icc B.bottom B.top) := h
  by_cases h1 : q.e ∈ Icc B.west B.east
  · by_cases h2 : q.n ∈ Icc B.south B.north
    · rw [key hB.2.2 (fun h3 => h' ⟨h1, h2, h3⟩)]; ring
    · rw [key hB.2.1 h2]; ring
  · rw [key hB.1 h1]; ring

/-! ### a prism -/

theorem measurable_acc_face (a : Axis) (t : ℝ) :
    Measurable fun w : (ℝ × ℝ) × Pt => kpp a.acc.toK (Pt.onPlane a t w.1) w.2 := by
  have hr : ∀ {f g h : (ℝ × ℝ) × Pt → ℝ}, Measurable f → Measurable g → Measurable h →
      Measurable fun w => rad (f w) (g w) (h w) := fun hf hg hh =>
    measurable_rad3.comp (hf.prodMk (hg.prodMk hh))
  simp only [acc_face]
  cases a <;> simp only [Pt.coord, Pt.e, Pt.n, Pt.u] <;>
    exact (Measurable.div (by fun_prop) ((hr (by fun_prop) (by fun_prop) (by fun_prop)).pow_const 3)).neg

theorem abs_Ar_le (x y z : ℝ) : |Ar x y z| ≤ π / 2 :=
  abs_le.mpr ⟨(Real.neg_pi_div_two_lt_arctan _).le, (Real.arctan_lt_pi_div_two _).le⟩

theorem abs_D2_Ar_le (x y1 y2 z1 z2 : ℝ) : |D2 (Ar x) y1 y2 z1 z2| ≤ 2 * π := by
  have h := fun y z => abs_le.1 (abs_Ar_le x y z)
  unfold D2
  rw [abs_le]
  have h1 := h y2 z2
  have h2 := h y2 z1
  have h3 := h y1 z2
  have h4 := h y1 z1
  constructor <;> linarith [h1.1, h1.2, h2.1, h2.2, h3.1, h3.2, h4.1, h4.2]

theorem norm_face_le {B : Box} (hB : B.Ordered) (a : Axis) (t : ℝ) (q : Pt) :
    ∫ s in B.cross a, ‖kpp a.acc.toK (Pt.onPlane a t s) q‖ ≤ 2 * π := by
  have e : ∀ s, ‖kpp a.acc.toK (Pt.onPlane a t s) q‖ = |t - q.coord a| / rad |t - q.coord a|
      (s.1 - match a with | .e => q.n | .n => q.e | .u => q.e)
      (s.2 - match a with | .e => q.u | .n => q.u | .u => q.n) ^ 3 := by
    intro s
    rw [acc_face, norm_neg, norm_div, Real.norm_eq_abs, Real.norm_eq_abs, abs_pow, abs_of_nonneg (rad_nonneg' _ _ _)]
    congr 2
    unfold rad; rw [sq_abs]
  simp only [e]
  cases a <;> simp only [Box.cross]
  · rw [integral_face hB.2.1 hB.2.2]; exact (le_abs_self _).trans (abs_D2_Ar_le _ _ _ _ _)
  · rw [integral_face hB.1 hB.2.2]; exact (le_abs_self _).trans (abs_D2_Ar_le _ _ _ _ _)
  · rw [integral_face hB.1 hB.2.1]; exact (le_abs_self _).trans (abs_D2_Ar_le _ _ _ _ _)

theorem integrable_face_region {B : Box} (hB : B.Ordered) (P : Box) (a : Axis) (t : ℝ) :
    Integrable (fun w : (ℝ × ℝ) × Pt => kpp a.acc.toK (Pt.onPlane a t w.1) w.2)
      ((volume.restrict (B.cross a)).prod (volume.restrict P.region)) := by
  have hm := (measurable_acc_face a t).aestronglyMeasurable
    (μ := (volume.restrict (B.cross a)).prod (volume.restrict P.region))
  rw [integrable_prod_iff' hm]
  refine ⟨Eventually.of_forall fun q => integrableOn_acc_face B a t q, ?_⟩
  have : IsFiniteMeasure (volume.restrict P.region : Measure Pt) :=
    ⟨by rw [Measure.restrict_apply_univ]; exact (isCompact_region P).measure_lt_top⟩
  refine Integrable.of_bound (AEStronglyMeasurable.integral_prod_right' hm.norm.prod_swap) (2 * π) (Eventually.of_forall fun q => ?_)
  rw [Real.norm_eq_abs, abs_of_nonneg (integral_nonneg fun _ => norm_nonneg _)]
  exact norm_face_le hB a t q

variable {P B : Box}

theorem integrableOn_Vacc_face (hB : B.Ordered) (hP : P.Ordered) (a : Axis) (t : ℝ) :
    IntegrableOn (fun s => Vc a.acc (Pt.onPlane a t s) P) (B.cross a) := by
  have h := (integrable_face_region hB P a t).integral_prod_left
  have e : ∀ p, ∫ q in P.region, kpp a.acc.toK p q = Vc a.acc p P :=
    fun p => (integral_low hP a.acc (by cases a <;> decide) p).2
  simp only [e] at h
  exact h

theorem faceIntegral_Vacc (hB : B.Ordered) (hP : P.Ordered) (a : Axis) (t : ℝ) :
    B.faceIntegral a t (fun p => Vc a.acc p P) =
      ∫ q in P.region, B.faceIntegral a t (fun p => kpp a.acc.toK p q) := by
  have e : ∀ p, Vc a.acc p P = ∫ q in P.region, kpp a.acc.toK p q :=
    fun p => (integral_low hP a.acc (by cases a <;> decide) p).2.symm
  unfold Box.faceIntegral
  simp only [e]
  exact integral_integral_swap (integrable_face_region hB P a t)

theorem integrableOn_faceIntegral (hB : B.Ordered) (P : Box) (a : Axis) (t : ℝ) :
    IntegrableOn (fun q => B.faceIntegral a t (fun p => kpp a.acc.toK p q)) P.region :=
  (integrable_face_region hB P a t).integral_prod_right

theorem ae_coord_ne (a : Axis) (c : ℝ) : ∀ᵐ q : Pt, q.coord a ≠ c := by
  have h0 : ∀ᵐ x : ℝ ∂volume, x ≠ c := by rw [ae_iff]; simp
  have hf : ∀ᵐ q : Pt, q.1 ≠ c := Measure.quasiMeasurePreserving_fst.ae h0
  have hs : ∀ᵐ q : ℝ × ℝ, q.1 ≠ c := Measure.quasiMeasurePreserving_fst.ae h0
  have hs' : ∀ᵐ q : ℝ × ℝ, q.2 ≠ c := Measure.quasiMeasurePreserving_snd.ae h0
  cases a
  · exact hf
  · exact Measure.quasiMeasurePreserving_snd.ae hs
  · exact Measure.quasiMeasurePreserving_snd.ae hs'

theorem integral_six {X : Type*} [MeasurableSpace X] {μ : Measure X} {f1 f2 f3 f4 f5 f6 : X → ℝ}
    (h1 : Integrable f1 μ) (h2 : Integrable f2 μ) (h3 : Integrable f3 μ) (h4 : Integrable f4 μ)
    (h5 : Integrable f5 μ) (h6 : Integrable f6 μ) :
    ∫ q, ((f1 q - f2 q) + (f3 q - f4 q) + (f5 q - f6 q)) ∂μ =
      ((∫ q, f1 q ∂μ) - ∫ q, f2 q ∂μ) + ((∫ q, f3 q ∂μ) - ∫ q, f4 q ∂μ)
        + ((∫ q, f5 q ∂μ) - ∫ q, f6 q ∂μ) := by
  have a : ∫ q, ((f1 q - f2 q) + (f3 q - f4 q) + (f5 q - f6 q)) ∂μ =
      (∫ q, ((f1 q - f2 q) + (f3 q - f4 q)) ∂μ) + ∫ q, (f5 q - f6 q) ∂μ :=
    integral_add ((h1.sub h2).add (h3.sub h4)) (h5.sub h6)
  have b : ∫ q, ((f1 q - f2 q) + (f3 q - f4 q)) ∂μ = (∫ q, (f1 q - f2 q) ∂μ) + ∫ q, (f3 q - f4 q) ∂μ :=
    integral_add (h1.sub h2) (h3.sub h4)
  rw [a, b, integral_sub h1 h2, integral_sub h3 h4, integral_sub h5 h6]

theorem outwardFlux_prism (hB : B.Ordered) (hP : P.Ordered) :
    B.outwardFlux (fun a p => Vc a.acc p P) = -(4 * π) * volume.real (P.region ∩ B.region) := by
  have i := fun a t => integrableOn_faceIntegral hB P a t
  have h1 : B.outwardFlux (fun a p => Vc a.acc p P) =
      ∫ q in P.region, B.outwardFlux (fun a p => kpp a.acc.toK p q) := by
    unfold Box.outwardFlux
    simp only [faceIntegral_Vacc hB hP]
    exact (integral_six (i _ _) (i _ _) (i _ _) (i _ _) (i _ _) (i _ _)).symm
  have h2 : ∫ q in P.region, B.outwardFlux (fun a p => kpp a.acc.toK p q) =
      ∫ q in P.region, B.region.indicator (fun _ => -(4 * π)) q := by
    refine integral_congr_ae (ae_restrict_of_ae ?_)
    filter_upwards [ae_coord_ne .e B.west, ae_coord_ne .e B.east, ae_coord_ne .n B.south,
      ae_coord_ne .n B.north, ae_coord_ne .u B.bottom, ae_coord_ne .u B.top] with q h1 h2 h3 h4 h5 h6
    by_cases hq : q ∈ B.region
    · rw [indicator_of_mem hq]
      refine outwardFlux_point_inside hB ?_
      obtain ⟨⟨a1, a2⟩, ⟨a3, a4⟩, a5, a6⟩ := hq
      exact ⟨⟨lt_of_le_of_ne a1 (Ne.symm h1), lt_of_le_of_ne a2 h2⟩,
        ⟨lt_of_le_of_ne a3 (Ne.symm h3), lt_of_le_of_ne a4 h4⟩,
        lt_of_le_of_ne a5 (Ne.symm h5), lt_of_le_of_ne a6 h6⟩
    · rw [indicator_of_notMem hq]
      exact outwardFlux_point_outside hB hq
  rw [h1, h2, setIntegral_indicator (measurableSet_region B), setIntegral_const, smul_eq_mul, mul_comm]

theorem outwardFlux_mul (B : Box) (k : ℝ) (F : Axis → Pt → ℝ) :
    B.outwardFlux (fun a p => k * F a p) = k * B.outwardFlux F := by
  unfold Box.outwardFlux Box.faceIntegral
  simp only [integral_const_mul]
  ring

end Choclo
