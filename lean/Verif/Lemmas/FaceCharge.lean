import Verif.Props.Shape
import Verif.Props.FaceValues
import Mathlib.Analysis.SpecialFunctions.Integrability.Basic
import Mathlib.Topology.Algebra.Module.Cardinality

/-! # Fields of a prism as integrals over its faces -/

namespace Choclo

open Real MeasureTheory Set Filter Topology

variable {P : Box}

/-- both faces perpendicular to an axis moved by the same amount -/
def Box.slide (P : Box) (a : Axis) (s : ℝ) : Box := (P.moveHi a (P.hi a + s)).moveLo a (P.lo a + s)

theorem Box.slide_lo (P : Box) (a : Axis) (s : ℝ) : (P.slide a s).lo a = P.lo a + s := by cases a <;> rfl
theorem Box.slide_hi (P : Box) (a : Axis) (s : ℝ) : (P.slide a s).hi a = P.hi a + s := by cases a <;> rfl
theorem Box.slide_cross (P : Box) (a : Axis) (s : ℝ) : (P.slide a s).cross a = P.cross a := by cases a <;> rfl

theorem Box.Ordered.slide (hP : P.Ordered) (a : Axis) (s : ℝ) : (P.slide a s).Ordered := by
  obtain ⟨h1, h2, h3⟩ := hP
  cases a <;> refine ⟨?_, ?_, ?_⟩ <;> simp only [Box.slide, Box.moveHi, Box.moveLo, Box.hi, Box.lo] <;> linarith

theorem Vc_slide {c : GComp} (hc : c.letters ≤ 1) (a : Axis) (p : Pt) (P : Box) (t : ℝ) :
    Vc c (p.set a t) P = Vc c p (P.slide a (p.coord a - t)) := by
  have h0 : ∀ q Q, corr c q Q = 0 := by
    intro q Q
    cases c <;> first | rfl | (exact absurd hc (by decide))
  unfold Vc
  rw [h0, h0]
  unfold Dv
  congr 2 <;> cases a <;> simp only [Pt.set, Pt.coord, Pt.e, Pt.n, Pt.u, Box.slide, Box.moveHi, Box.moveLo, Box.hi, Box.lo] <;> ring

/-- the prism with both faces perpendicular to an axis moved outwards -/
def Box.wider (P : Box) (a : Axis) : Box := (P.moveHi a (P.hi a + 1)).moveLo a (P.lo a - 1)

theorem face_shift_deriv (hP : P.Ordered) {c : GComp} (hc : c.letters ≤ 1) (a : Axis) {p : Pt} (hh : p ∉ P.sheet a (P.hi a))
    (hl : p ∉ P.sheet a (P.lo a)) :
    HasDerivAt (fun t => Vc c (p.set a t) P) (P.faceIntegral a (P.lo a) (kpp c.toK p) - P.faceIntegral a (P.hi a) (kpp c.toK p))
      (p.coord a) := by
  set f := kpp c.toK p
  have hf : ContinuousOn f {q | q ≠ p} := continuousOn_kpp_right _ p
  have hlh : P.lo a ≤ P.hi a := by obtain ⟨h1, h2, h3⟩ := hP; cases a <;> assumption
  have hw : (P.wider a).Ordered := by
    obtain ⟨h1, h2, h3⟩ := hP
    cases a <;> refine ⟨?_, ?_, ?_⟩ <;> simp only [Box.wider, Box.moveHi, Box.moveLo, Box.hi, Box.lo] <;> linarith
  have hwi := (slice hw a (integral_low hw c hc p).1).1
  have ewl : (P.wider a).lo a = P.lo a - 1 := by cases a <;> rfl
  have ewh : (P.wider a).hi a = P.hi a + 1 := by cases a <;> rfl
  have ewf : ∀ t, (P.wider a).faceIntegral a t f = P.faceIntegral a t f := by intro t; cases a <;> rfl
  rw [ewl, ewh] at hwi
  change IntervalIntegrable (fun t => (P.wider a).faceIntegral a t f) _ _ _ at hwi
  simp only [ewf] at hwi
  have hmeas : ∀ x, P.lo a ≤ x → x ≤ P.hi a → StronglyMeasurableAtFilter (fun t => P.faceIntegral a t f) (𝓝 x) volume := by
    intro x h1 h2
    rw [intervalIntegrable_iff_integrableOn_Ioc_of_le (by linarith)] at hwi
    exact ⟨_, Ioc_mem_nhds (by linarith) (by linarith), hwi.aestronglyMeasurable⟩
  have hI : IntervalIntegrable (fun t => P.faceIntegral a t f) volume (P.lo a) (P.hi a) :=
    hwi.mono_set (by rw [uIcc_of_le hlh, uIcc_of_le (by linarith)]; exact Icc_subset_Icc (by linarith) (by linarith))
  have hD := intervalIntegral.integral_hasFDerivAt hI (hmeas _ le_rfl hlh) (hmeas _ hlh le_rfl)
    (continuousAt_faceIntegral hl hf) (continuousAt_faceIntegral hh hf)
  have e : ∀ t, Vc c (p.set a t) P = ∫ x in (P.lo a + (p.coord a - t))..(P.hi a + (p.coord a - t)), P.faceIntegral a x f := by
    intro t
    rw [Vc_slide hc, ← (integral_low (hP.slide a _) c hc p).2, (slice (hP.slide a _) a (integral_low (hP.slide a _) c hc p).1).2,
      Box.slide_lo, Box.slide_hi]
    have : ∀ x, (P.slide a (p.coord a - t)).faceIntegral a x (kpp c.toK p) = P.faceIntegral a x f := by
      intro x; unfold Box.faceIntegral; rw [Box.slide_cross]
    simp only [this]
  simp only [e]
  have hi : HasDerivAt (fun t : ℝ => (P.lo a + (p.coord a - t), P.hi a + (p.coord a - t))) ((-1 : ℝ), (-1 : ℝ)) (p.coord a) :=
    ((hasDerivAt_id _).const_sub (p.coord a) |>.const_add _).prodMk ((hasDerivAt_id _).const_sub (p.coord a) |>.const_add _)
  have hD' : HasFDerivAt (fun w : ℝ × ℝ => ∫ x in w.1..w.2, P.faceIntegral a x f)
      ((ContinuousLinearMap.snd ℝ ℝ ℝ).smulRight (P.faceIntegral a (P.hi a) f)
        - (ContinuousLinearMap.fst ℝ ℝ ℝ).smulRight (P.faceIntegral a (P.lo a) f))
      (P.lo a + (p.coord a - p.coord a), P.hi a + (p.coord a - p.coord a)) := by
    simpa only [sub_self, add_zero] using hD
  have := hD'.comp_hasDerivAt (p.coord a) hi
  refine this.congr_deriv ?_
  simp
  ring


/-! ### one over the distance is integrable over a rectangle -/

theorem integrableOn_inv_sqrt (c l h : ℝ) : IntegrableOn (fun x : ℝ => 1 / √|x - c|) (Icc l h) := by
  have key : ∀ b : ℝ, IntervalIntegrable (fun x : ℝ => 1 / √|x|) volume 0 b := by
    have pos : ∀ b : ℝ, 0 ≤ b → IntervalIntegrable (fun x : ℝ => 1 / √|x|) volume 0 b := by
      intro b hb
      have h := intervalIntegral.intervalIntegrable_rpow' (a := 0) (b := b) (r := -(1 / 2)) (by norm_num)
      refine h.congr ?_
      intro x hx
      rw [uIoc_of_le hb] at hx
      simp only
      rw [abs_of_pos hx.1, Real.sqrt_eq_rpow, Real.rpow_neg hx.1.le, ← one_div]
    intro b
    rcases le_total 0 b with hb | hb
    · exact pos b hb
    · have := (pos (-b) (by linarith)).comp_sub_left 0
      simpa only [zero_sub, abs_neg, neg_neg, neg_zero] using this
  rcases le_total l h with hlh | hlh
  · have := ((key (l - c)).symm.trans (key (h - c))).comp_sub_right c
    rw [sub_add_cancel, sub_add_cancel, intervalIntegrable_iff_integrableOn_Icc_of_le hlh] at this
    exact this
  · have e : Icc l h ⊆ {h} := fun x hx => le_antisymm hx.2 (hlh.trans hx.1)
    have e0 : volume (Icc l h) = 0 := measure_mono_null e (by simp)
    exact IntegrableOn.of_measure_zero e0

/-- the two coordinates of a point other than the one along an axis -/
def Pt.flat (a : Axis) (p : Pt) : ℝ × ℝ :=
  match a with
  | .e => (p.n, p.u)
  | .n => (p.e, p.u)
  | .u => (p.e, p.n)

theorem kpp_pot_plane (a : Axis) (p : Pt) (t : ℝ) (s : ℝ × ℝ) : kpp .pot p (Pt.onPlane a t s) =
    1 / rad (t - p.coord a) (s.1 - (p.flat a).1) (s.2 - (p.flat a).2) := by
  rw [kpp_pot]
  cases a <;> simp only [Pt.onPlane, Pt.flat, Pt.coord, Pt.e, Pt.n, Pt.u]
  · rw [rad_perm1]
  · rw [rad_perm3]

theorem ae_flat_ne (c : ℝ × ℝ) (S : Set (ℝ × ℝ)) : ∀ᵐ s ∂(volume.restrict S), s.1 ≠ c.1 ∧ s.2 ≠ c.2 := by
  apply ae_restrict_of_ae
  have h1 : ∀ᵐ s : ℝ × ℝ, s.1 ≠ c.1 := by
    have := (Measure.quasiMeasurePreserving_fst (μ := (volume : Measure ℝ)) (ν := (volume : Measure ℝ))).ae
      (Measure.ae_ne volume c.1)
    exact this
  have h2 : ∀ᵐ s : ℝ × ℝ, s.2 ≠ c.2 := by
    have := (Measure.quasiMeasurePreserving_snd (μ := (volume : Measure ℝ)) (ν := (volume : Measure ℝ))).ae
      (Measure.ae_ne volume c.2)
    exact this
  exact h1.and h2

theorem inv_rad_le {x y z : ℝ} (hy : y ≠ 0) (hz : z ≠ 0) : 1 / rad x y z ≤ 1 / √|y| * (1 / √|z|) := by
  have h1 : 0 < |y| := abs_pos.2 hy
  have h2 : 0 < |z| := abs_pos.2 hz
  rw [div_mul_div_comm, one_mul, ← Real.sqrt_mul h1.le]
  refine one_div_le_one_div_of_le (Real.sqrt_pos.2 (mul_pos h1 h2)) (Real.sqrt_le_sqrt ?_)
  nlinarith [sq_nonneg (|y| - |z|), sq_abs y, sq_abs z, sq_nonneg x, mul_pos h1 h2]

theorem integrableOn_plane (P : Box) (a : Axis) (c : ℝ × ℝ) :
    IntegrableOn (fun s : ℝ × ℝ => 1 / √|s.1 - c.1| * (1 / √|s.2 - c.2|)) (P.cross a) := by
  have key : ∀ l h l' h' : ℝ, IntegrableOn (fun s : ℝ × ℝ => 1 / √|s.1 - c.1| * (1 / √|s.2 - c.2|)) (Icc l h ×ˢ Icc l' h') := by
    intro l h l' h'
    unfold IntegrableOn
    rw [Measure.volume_eq_prod, ← Measure.prod_restrict]
    exact (integrableOn_inv_sqrt c.1 l h).mul_prod (integrableOn_inv_sqrt c.2 l' h')
  cases a <;> exact key _ _ _ _

theorem measurable_pot_plane (a : Axis) (p : Pt) (t : ℝ) : Measurable fun s => kpp .pot p (Pt.onPlane a t s) := by
  simp only [kpp_pot_plane]
  exact measurable_const.div (measurable_rad3.comp (g := fun v : Pt => rad v.1 v.2.1 v.2.2)
    (measurable_const.prodMk ((measurable_fst.sub_const _).prodMk (measurable_snd.sub_const _))))

theorem pot_plane_le (a : Axis) (p : Pt) (t : ℝ) (S : Set (ℝ × ℝ)) : ∀ᵐ s ∂(volume.restrict S),
    ‖kpp .pot p (Pt.onPlane a t s)‖ ≤ 1 / √|s.1 - (p.flat a).1| * (1 / √|s.2 - (p.flat a).2|) := by
  filter_upwards [ae_flat_ne (p.flat a) S] with s hs
  rw [kpp_pot_plane, norm_of_nonneg (div_nonneg zero_le_one (rad_nonneg' _ _ _))]
  exact inv_rad_le (sub_ne_zero.2 hs.1) (sub_ne_zero.2 hs.2)

/-- one over the distance is integrable over every rectangle, whether or not the point lies on it -/
theorem integrableOn_pot_plane (P : Box) (a : Axis) (p : Pt) (t : ℝ) :
    IntegrableOn (fun s => kpp .pot p (Pt.onPlane a t s)) (P.cross a) :=
  (integrableOn_plane P a (p.flat a)).mono' (measurable_pot_plane a p t).aestronglyMeasurable (pot_plane_le a p t _)

theorem continuous_pot_plane (P : Box) (a : Axis) (p : Pt) (t : ℝ) :
    Continuous fun x => P.faceIntegral a t (kpp .pot (p.set a x)) := by
  have ef : ∀ x, (p.set a x).flat a = p.flat a := by intro x; cases a <;> rfl
  have ec : ∀ x, (p.set a x).coord a = x := by intro x; cases a <;> rfl
  unfold Box.faceIntegral
  refine continuous_of_dominated (fun x => (measurable_pot_plane a _ t).aestronglyMeasurable) (fun x => ?_)
    (integrableOn_plane P a (p.flat a)) ?_
  · have := pot_plane_le a (p.set a x) t (P.cross a)
    simpa only [ef] using this
  · filter_upwards [ae_flat_ne (p.flat a) (P.cross a)] with s hs
    simp only [kpp_pot_plane, ef, ec]
    refine continuous_const.div ?_ ?_
    · unfold rad; fun_prop
    · intro x h0
      have := abs_le_rad (s.1 - (p.flat a).1) (t - x) (s.2 - (p.flat a).2)
      rw [rad_perm1, h0] at this
      exact hs.1 (sub_eq_zero.1 (abs_eq_zero.1 (le_antisymm this (abs_nonneg _))))

theorem sheet_closed {a : Axis} {p : Pt} (hP : P.Ordered) (h : p ∉ P.closedFaces a) :
    p ∉ P.sheet a (P.hi a) ∧ p ∉ P.sheet a (P.lo a) := by
  refine ⟨fun h' => h ⟨sheet_hi_region hP a h', Or.inr ?_⟩, fun h' => h ⟨sheet_lo_region hP a h', Or.inl ?_⟩⟩ <;>
  · obtain ⟨s, _, rfl⟩ := h'
    cases a <;> rfl

/-- the acceleration is the difference of the potentials of its two faces, everywhere -/
theorem Vacc_faces (hP : P.Ordered) (a : Axis) (p : Pt) : Vc a.acc p P =
    P.faceIntegral a (P.lo a) (kpp .pot p) - P.faceIntegral a (P.hi a) (kpp .pot p) := by
  have off : ∀ q : Pt, q.coord a ≠ P.lo a → q.coord a ≠ P.hi a → Vc a.acc q P =
      P.faceIntegral a (P.lo a) (kpp .pot q) - P.faceIntegral a (P.hi a) (kpp .pot q) := by
    intro q h1 h2
    have hq := sheet_closed (a := a) (p := q) hP (fun h => h.2.elim h1 h2)
    exact (hasDerivAt_Vpot a q P).unique (face_shift_deriv hP (c := .pot) (by decide) a hq.1 hq.2)
  have ec : ∀ x, (p.set a x).coord a = x := by intro x; cases a <;> rfl
  have es : p.set a (p.coord a) = p := by cases a <;> rfl
  have hset : Continuous fun x => p.set a x := by
    cases a <;> simp only [Pt.set] <;> fun_prop
  have := Continuous.ext_on (s := {P.lo a, P.hi a}ᶜ) (Set.Countable.dense_compl ℝ (Set.toFinite {P.lo a, P.hi a}).countable)
    ((continuous_Vacc hP a).comp hset) ((continuous_pot_plane P a p (P.lo a)).sub (continuous_pot_plane P a p (P.hi a)))
    (fun x hx => by
      simp only [mem_compl_iff, mem_insert_iff, mem_singleton_iff, not_or] at hx
      exact off _ (by rw [ec]; exact hx.1) (by rw [ec]; exact hx.2))
  have := congrFun this (p.coord a)
  simpa only [Function.comp, Pi.sub_apply, es] using this

theorem singular_closed_any (hP : P.Ordered) (a b : Axis) {p : Pt} (hs : p ∈ P.singular (tensor a b)) :
    p ∈ P.closedFaces b := by
  by_cases hab : a = b
  · subst hab; exact singular_closed hP a hs
  · obtain ⟨h1, h2, h3⟩ := hP
    simp only [Box.closedFaces, Box.region, mem_prod, mem_Icc, mem_ofPred_eq]
    cases a <;> cases b <;> first | exact absurd rfl hab | skip
    all_goals
      simp only [tensor, Box.singular, Box.edgesE, Box.edgesN, Box.edgesU, mem_ofPred_eq, mem_Icc] at hs
      simp only [Pt.coord, Box.lo, Box.hi]
      simp only [Pt.e, Pt.n, Pt.u] at *
      grind

theorem Vtensor_faces (hP : P.Ordered) (a b : Axis) {p : Pt} (h : p ∉ P.closedFaces b) : Vc (tensor a b) p P =
    P.faceIntegral b (P.lo b) (kpp a.acc.toK p) - P.faceIntegral b (P.hi b) (kpp a.acc.toK p) := by
  have hq := sheet_closed hP h
  have d1 : HasDerivAt (fun t => Vc a.acc (p.set b t) P) (Vc (tensor a b) p P) (p.coord b) := by
    by_cases hab : a = b
    · subst hab
      exact hasDerivAt_Vacc_diag a hP h
    · exact hasDerivAt_Vacc_off hab hP (fun hs => h (singular_closed_any hP a b hs))
  exact d1.unique (face_shift_deriv hP (c := a.acc) (by cases a <;> decide) b hq.1 hq.2)


/-! ### the solid angle bounds -/

theorem faceIntegral_own_bound (hP : P.Ordered) (a : Axis) (p : Pt) (t : ℝ) :
    |P.faceIntegral a t (kpp a.acc.toK p)| ≤ 2 * π ∧
      (p.coord a ≤ t → 0 ≤ P.faceIntegral a t (kpp a.acc.toK p)) ∧
      (t ≤ p.coord a → P.faceIntegral a t (kpp a.acc.toK p) ≤ 0) := by
  have e : ∀ q, kpp a.acc.toK p q = -kpp a.acc.toK q p := by
    intro q
    rw [kpp_acc_dist, kpp_acc_dist, dist3_comm q p]; ring
  have hs : ∀ s, (Pt.onPlane a t s).coord a = t := by intro s; cases a <;> rfl
  refine ⟨?_, fun h => ?_, fun h => ?_⟩
  · unfold Box.faceIntegral
    refine (norm_integral_le_integral_norm (μ := volume.restrict (P.cross a))
      (fun s => kpp a.acc.toK p (Pt.onPlane a t s))).trans ?_
    have : ∀ s, ‖kpp a.acc.toK p (Pt.onPlane a t s)‖ = ‖kpp a.acc.toK (Pt.onPlane a t s) p‖ := by
      intro s; rw [e, norm_neg]
    simp only [this]
    exact norm_face_le hP a t p
  · refine integral_nonneg fun s => ?_
    show 0 ≤ kpp a.acc.toK p (Pt.onPlane a t s)
    rw [kpp_acc_dist, hs]
    exact div_nonneg (by linarith) (pow_nonneg (Real.sqrt_nonneg _) 3)
  · refine integral_nonpos fun s => ?_
    show kpp a.acc.toK p (Pt.onPlane a t s) ≤ 0
    rw [kpp_acc_dist, hs]
    exact div_nonpos_of_nonpos_of_nonneg (by linarith) (pow_nonneg (Real.sqrt_nonneg _) 3)

theorem Vdiag_bound_off (hP : P.Ordered) (a : Axis) {p : Pt} (h : p ∉ P.closedFaces a) :
    |Vc (tensor a a) p P| ≤ 4 * π ∧ (p.coord a ∉ Ioo (P.lo a) (P.hi a) → |Vc (tensor a a) p P| ≤ 2 * π) := by
  have hlh : P.lo a ≤ P.hi a := by obtain ⟨h1, h2, h3⟩ := hP; cases a <;> assumption
  obtain ⟨l1, l2, l3⟩ := faceIntegral_own_bound hP a p (P.lo a)
  obtain ⟨u1, u2, u3⟩ := faceIntegral_own_bound hP a p (P.hi a)
  rw [Vtensor_faces hP a a h]
  rw [abs_le] at l1 u1
  refine ⟨abs_le.2 ⟨by linarith, by linarith⟩, fun hp => abs_le.2 ?_⟩
  rw [mem_Ioo, not_and_or, not_lt, not_lt] at hp
  rcases hp with hp | hp
  · have := l2 hp
    have := u2 (hp.trans hlh)
    constructor <;> linarith
  · have := l3 (hlh.trans hp)
    have := u3 hp
    constructor <;> linarith


/-- a point of a closed face perpendicular to an axis, off the edges that bound it, lies on that open face -/
theorem closedFaces_open (hP : P.Proper) {a : Axis} {p : Pt} (h : p ∈ P.closedFaces a) (hs : p ∉ P.singular (tensor a a)) :
    p ∈ P.faceHi a ∪ P.faceLo a := by
  obtain ⟨h1, h2, h3⟩ := hP
  obtain ⟨⟨⟨w1, w2⟩, ⟨w3, w4⟩, w5, w6⟩, hc⟩ := h
  cases a <;>
    simp only [tensor, Box.singular, Box.edgesE, Box.edgesN, Box.edgesU, mem_union, mem_ofPred_eq, mem_Icc, Pt.e, Pt.n, Pt.u] at hs <;>
    simp only [Box.faceHi, Box.faceLo, mem_union, Box.faceEast, Box.faceWest, Box.faceNorth, Box.faceSouth, Box.faceTop,
      Box.faceBottom, mem_prod, mem_Ioo, mem_singleton_iff] <;>
    simp only [Pt.coord, Box.lo, Box.hi, Pt.e, Pt.n, Pt.u] at hc <;> grind

theorem Vdiag_bound (hP : P.Proper) (a : Axis) {p : Pt} (h : p ∉ P.singular (tensor a a)) :
    |Vc (tensor a a) p P| ≤ 4 * π ∧ (p.coord a ∉ Ioo (P.lo a) (P.hi a) → |Vc (tensor a a) p P| ≤ 2 * π) := by
  have hO := hP.ordered
  by_cases hc : p ∈ P.closedFaces a
  · have hf := closedFaces_open hP hc h
    have hf' : p ∈ P.faces := by
      simp only [Box.faces, mem_union]
      cases a <;> simp only [Box.faceHi, Box.faceLo, mem_union] at hf <;> tauto
    have ht := (tendsto_tensor hP hf' a a).abs
    have hr := (face_off_edges hP hf').2.2
    have hb : ∀ᶠ q in 𝓝[P.regionᶜ] p, |Vc (tensor a a) q P| ≤ 2 * π := by
      have ev : ∀ᶠ q in 𝓝 p, q ∉ P.region → q.coord a ∉ Ioo (P.lo a) (P.hi a) := by
        have io : ∀ {l h x : ℝ}, x ∈ Ioo l h → Ioo l h ∈ 𝓝 x := fun hx => Ioo_mem_nhds hx.1 hx.2
        have t1 : Tendsto (fun q : Pt => q.1) (𝓝 p) (𝓝 p.1) := continuous_fst.tendsto _
        have t2 : Tendsto (fun q : Pt => q.2.1) (𝓝 p) (𝓝 p.2.1) := (continuous_fst.comp continuous_snd).tendsto _
        have t3 : Tendsto (fun q : Pt => q.2.2) (𝓝 p) (𝓝 p.2.2) := (continuous_snd.comp continuous_snd).tendsto _
        cases a
        · have g2 : p.2.1 ∈ Ioo P.south P.north := by rcases hf with h | h <;> exact h.2.1
          have g3 : p.2.2 ∈ Ioo P.bottom P.top := by rcases hf with h | h <;> exact h.2.2
          filter_upwards [t2 (io g2), t3 (io g3)] with q q2 q3 hq hq'
          exact hq ⟨⟨hq'.1.le, hq'.2.le⟩, ⟨q2.1.le, q2.2.le⟩, q3.1.le, q3.2.le⟩
        · have g2 : p.1 ∈ Ioo P.west P.east := by rcases hf with h | h <;> exact h.1
          have g3 : p.2.2 ∈ Ioo P.bottom P.top := by rcases hf with h | h <;> exact h.2.2
          filter_upwards [t1 (io g2), t3 (io g3)] with q q2 q3 hq hq'
          exact hq ⟨⟨q2.1.le, q2.2.le⟩, ⟨hq'.1.le, hq'.2.le⟩, q3.1.le, q3.2.le⟩
        · have g2 : p.1 ∈ Ioo P.west P.east := by rcases hf with h | h <;> exact h.1
          have g3 : p.2.1 ∈ Ioo P.south P.north := by rcases hf with h | h <;> exact h.2.1
          filter_upwards [t1 (io g2), t2 (io g3)] with q q2 q3 hq hq'
          exact hq ⟨⟨q2.1.le, q2.2.le⟩, ⟨q3.1.le, q3.2.le⟩, hq'.1.le, hq'.2.le⟩
      filter_upwards [self_mem_nhdsWithin, ev.filter_mono nhdsWithin_le_nhds] with q hq hq'
      exact (Vdiag_bound_off hO a (fun h' => hq h'.1)).2 (hq' hq)
    have ne : (𝓝[P.regionᶜ] p).NeBot := C28_approachable hP p hf'
    have := le_of_tendsto ht hb
    exact ⟨this.trans (by linarith [Real.pi_pos]), fun _ => this⟩
  · exact Vdiag_bound_off hO a hc

end Choclo
