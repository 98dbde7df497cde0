import Verif.Lemmas.Flux
import Verif.Props.PrismIntegral

/-! # Flux of dipoles and magnetized prisms -/

namespace Choclo

open Real Set MeasureTheory Filter Topology

theorem kpp_deriv_src {c c' : KComp} {b : Axis} (hc : c.Succ c' b) {p q : Pt} (h : p ≠ q) :
    HasDerivAt (fun t => kpp c p (q.set b t)) (-kpp c' p q) (q.coord b) := by
  have h1 := kp_deriv c c' b hc h
  have h2 : HasDerivAt (fun t : ℝ => p.coord b + q.coord b - t) (-1) (q.coord b) := by
    simpa using (hasDerivAt_id (q.coord b)).const_sub (p.coord b + q.coord b)
  have h3 := HasDerivAt.comp_of_eq (q.coord b) h1 h2 (by ring)
  refine (h3.congr_deriv (by rw [mul_neg_one]; rfl)).congr_of_eventuallyEq (Eventually.of_forall fun t => ?_)
  cases b <;> simp only [Function.comp, kpp, Pt.set, Pt.coord, Pt.e, Pt.n, Pt.u] <;> congr 1 <;> ring

theorem Pt.continuous_onPlane (a : Axis) (t : ℝ) : Continuous (Pt.onPlane a t) := by
  cases a <;> unfold Pt.onPlane <;> fun_prop

/-- a closed face, as a set of points -/
def Box.face (B : Box) (a : Axis) (t : ℝ) : Set Pt := Pt.onPlane a t '' B.cross a

theorem isCompact_face (B : Box) (a : Axis) (t : ℝ) : IsCompact (B.face a t) :=
  (isCompact_cross B a).image (Pt.continuous_onPlane a t)

theorem continuousOn_kpp_face (c : KComp) {B : Box} {a : Axis} {t : ℝ} {q : Pt} (h : q ∉ B.face a t) :
    ContinuousOn (fun s => kpp c (Pt.onPlane a t s) q) (B.cross a) :=
  (continuousOn_kpp c).comp (f := fun s => (Pt.onPlane a t s, q))
    ((Pt.continuous_onPlane a t).prodMk continuous_const).continuousOn
    (fun s hs he => h ⟨s, hs, he⟩)

theorem integrableOn_kpp_face (c : KComp) {B : Box} {a : Axis} {t : ℝ} {q : Pt} (h : q ∉ B.face a t) :
    IntegrableOn (fun s => kpp c (Pt.onPlane a t s) q) (B.cross a) :=
  (continuousOn_kpp_face c h).integrableOn_compact (isCompact_cross B a)

theorem hasDerivAt_faceIntegral {c c' : KComp} {b : Axis} (hc : c.Succ c' b) {B : Box} {a : Axis} {T : ℝ}
    {q : Pt} (h : q ∉ B.face a T) :
    HasDerivAt (fun t => B.faceIntegral a T (fun p => kpp c p (q.set b t)))
      (-B.faceIntegral a T (fun p => kpp c' p q)) (q.coord b) := by
  have hset := Pt.continuous_set q b
  have hqq : q.set b (q.coord b) = q := Pt.set_coord q b
  have hev : ∀ᶠ t in 𝓝 (q.coord b), q.set b t ∉ B.face a T := by
    have : (B.face a T)ᶜ ∈ 𝓝 (q.set b (q.coord b)) := by
      rw [hqq]; exact (isCompact_face B a T).isClosed.isOpen_compl.mem_nhds h
    exact hset.continuousAt.preimage_mem_nhds this
  obtain ⟨ε, hε, hball⟩ := Metric.mem_nhds_iff.1 hev
  set s := Metric.closedBall (q.coord b) (ε / 2) with hs
  have hsm : s ∈ 𝓝 (q.coord b) := Metric.closedBall_mem_nhds _ (by linarith)
  have hsx : ∀ t ∈ s, q.set b t ∉ B.face a T := fun t ht => hball (by
    rw [hs, Metric.mem_closedBall] at ht
    rw [Metric.mem_ball]; linarith)
  have hne : ∀ t ∈ s, ∀ w ∈ B.cross a, Pt.onPlane a T w ≠ q.set b t :=
    fun t ht w hw he => hsx t ht ⟨w, hw, he⟩
  have hpl := Pt.continuous_onPlane a T
  have hcont : ContinuousOn (fun w : ℝ × (ℝ × ℝ) => kpp c' (Pt.onPlane a T w.2) (q.set b w.1)) (s ×ˢ B.cross a) :=
    (continuousOn_kpp c').comp (f := fun w : ℝ × (ℝ × ℝ) => (Pt.onPlane a T w.2, q.set b w.1))
      ((by fun_prop : Continuous fun w : ℝ × (ℝ × ℝ) => (Pt.onPlane a T w.2, q.set b w.1)).continuousOn)
      (fun w hw => hne _ hw.1 _ hw.2)
  obtain ⟨C, hC⟩ := ((isCompact_closedBall _ _).prod (isCompact_cross B a)).exists_bound_of_continuousOn hcont
  have key := hasDerivAt_integral_of_dominated_loc_of_deriv_le
    (μ := volume.restrict (B.cross a)) (F := fun t w => kpp c (Pt.onPlane a T w) (q.set b t))
    (F' := fun t w => -kpp c' (Pt.onPlane a T w) (q.set b t)) (bound := fun _ => C) (x₀ := q.coord b) (s := s) hsm
    (by
      filter_upwards [hsm] with t ht
      exact (integrableOn_kpp_face c (hsx t ht)).aestronglyMeasurable)
    (by rw [hqq]; exact integrableOn_kpp_face c h)
    (by
      simp only [hqq]
      exact (integrableOn_kpp_face c' h).neg.aestronglyMeasurable)
    (by
      filter_upwards [ae_restrict_mem (measurableSet_cross B a)] with w hw t ht
      rw [norm_neg]
      exact hC (t, w) ⟨ht, hw⟩)
    (integrableOn_const (by exact (isCompact_cross B a).measure_lt_top.ne) (by simp))
    (by
      filter_upwards [ae_restrict_mem (measurableSet_cross B a)] with w hw t ht
      have := kpp_deriv_src (c := c) (c' := c') (b := b) hc (hne t ht w hw)
      have e : (q.set b t).coord b = t := by cases b <;> rfl
      have e2 : ∀ t', (q.set b t).set b t' = q.set b t' := fun t' => by cases b <;> rfl
      rw [e] at this
      simp only [e2] at this
      exact this)
  have h2 := key.2
  simp only [hqq, integral_neg] at h2
  exact h2

variable {B P : Box}

theorem face_lo_subset (B : Box) (a : Axis) : B.face a (B.lo a) ⊆ B.surface := by
  rintro _ ⟨s, hs, rfl⟩; exact ⟨a, s, hs, Or.inl rfl⟩
theorem face_hi_subset (B : Box) (a : Axis) : B.face a (B.hi a) ⊆ B.surface := by
  rintro _ ⟨s, hs, rfl⟩; exact ⟨a, s, hs, Or.inr rfl⟩

theorem inside_of_not_surface {q : Pt} (h : q ∉ B.surface) (hr : q ∈ B.region) : q ∈ B.inside := by
  obtain ⟨⟨a1, a2⟩, ⟨a3, a4⟩, a5, a6⟩ := hr
  have m : ∀ a s, s ∈ B.cross a → q ≠ Pt.onPlane a (B.lo a) s ∧ q ≠ Pt.onPlane a (B.hi a) s :=
    fun a s hs => ⟨fun he => h ⟨a, s, hs, Or.inl he⟩, fun he => h ⟨a, s, hs, Or.inr he⟩⟩
  have me := m .e (q.n, q.u) ⟨⟨a3, a4⟩, a5, a6⟩
  have mn := m .n (q.e, q.u) ⟨⟨a1, a2⟩, a5, a6⟩
  have mu := m .u (q.e, q.n) ⟨⟨a1, a2⟩, a3, a4⟩
  refine ⟨⟨lt_of_le_of_ne a1 ?_, lt_of_le_of_ne a2 ?_⟩, ⟨lt_of_le_of_ne a3 ?_, lt_of_le_of_ne a4 ?_⟩,
    lt_of_le_of_ne a5 ?_, lt_of_le_of_ne a6 ?_⟩ <;> intro he
  · exact me.1 (by simp only [Pt.onPlane, Box.lo, he])
  · exact me.2 (by simp only [Pt.onPlane, Box.hi, ← he])
  · exact mn.1 (by simp only [Pt.onPlane, Box.lo, he])
  · exact mn.2 (by simp only [Pt.onPlane, Box.hi, ← he])
  · exact mu.1 (by simp only [Pt.onPlane, Box.lo, he])
  · exact mu.2 (by simp only [Pt.onPlane, Box.hi, ← he])

theorem isOpen_inside (B : Box) : IsOpen B.inside := isOpen_Ioo.prod (isOpen_Ioo.prod isOpen_Ioo)

/-- the flux of a row of the tensor of a point mass through a closed surface vanishes -/
theorem outwardFlux_kern2 (hB : B.Ordered) {q : Pt} (h : q ∉ B.surface) (b : Axis) :
    B.outwardFlux (fun a p => kpp (kern2 a b) p q) = 0 := by
  have d := fun (a : Axis) (T : ℝ) (hT : q ∉ B.face a T) =>
    hasDerivAt_faceIntegral (B := B) (kern_succ a b) hT
  have lo := fun a hq => h (face_lo_subset B a hq)
  have hi := fun a hq => h (face_hi_subset B a hq)
  have d1 := (((d .e _ (hi .e)).sub (d .e _ (lo .e))).add ((d .n _ (hi .n)).sub (d .n _ (lo .n)))).add
    ((d .u _ (hi .u)).sub (d .u _ (lo .u)))
  have hset := Pt.continuous_set q b
  have hqq : q.set b (q.coord b) = q := Pt.set_coord q b
  have hconst : ∃ k : ℝ, ∀ᶠ t in 𝓝 (q.coord b),
      B.outwardFlux (fun a p => kpp a.acc.toK p (q.set b t)) = k := by
    by_cases hr : q ∈ B.region
    · refine ⟨-(4 * π), ?_⟩
      have : B.inside ∈ 𝓝 (q.set b (q.coord b)) := by
        rw [hqq]; exact (isOpen_inside B).mem_nhds (inside_of_not_surface h hr)
      filter_upwards [hset.continuousAt.preimage_mem_nhds this] with t ht
      exact outwardFlux_point_inside hB ht
    · refine ⟨0, ?_⟩
      have : (B.region)ᶜ ∈ 𝓝 (q.set b (q.coord b)) := by
        rw [hqq]; exact (isCompact_region B).isClosed.isOpen_compl.mem_nhds hr
      filter_upwards [hset.continuousAt.preimage_mem_nhds this] with t ht
      exact outwardFlux_point_outside hB ht
  obtain ⟨k, hk⟩ := hconst
  have d2 : HasDerivAt (fun t => B.outwardFlux (fun a p => kpp a.acc.toK p (q.set b t))) 0 (q.coord b) :=
    (hasDerivAt_const (q.coord b) k).congr_of_eventuallyEq hk
  have := d1.unique d2
  have sym : ∀ a, kern2 b a = kern2 a b := fun a => by cases a <;> cases b <;> rfl
  simp only [sym] at this
  unfold Box.outwardFlux
  linarith

theorem outwardFlux_lin3 {F G H : Axis → Pt → ℝ} (x y z : ℝ)
    (hF : ∀ a, IntegrableOn (fun s => F a (Pt.onPlane a (B.lo a) s)) (B.cross a) ∧
      IntegrableOn (fun s => F a (Pt.onPlane a (B.hi a) s)) (B.cross a))
    (hG : ∀ a, IntegrableOn (fun s => G a (Pt.onPlane a (B.lo a) s)) (B.cross a) ∧
      IntegrableOn (fun s => G a (Pt.onPlane a (B.hi a) s)) (B.cross a))
    (hH : ∀ a, IntegrableOn (fun s => H a (Pt.onPlane a (B.lo a) s)) (B.cross a) ∧
      IntegrableOn (fun s => H a (Pt.onPlane a (B.hi a) s)) (B.cross a)) :
    B.outwardFlux (fun a p => F a p * x + G a p * y + H a p * z) =
      B.outwardFlux F * x + B.outwardFlux G * y + B.outwardFlux H * z := by
  have key : ∀ {f g h : ℝ × ℝ → ℝ} {S : Set (ℝ × ℝ)}, IntegrableOn f S → IntegrableOn g S → IntegrableOn h S →
      ∫ s in S, (f s * x + g s * y + h s * z) =
        (∫ s in S, f s) * x + (∫ s in S, g s) * y + (∫ s in S, h s) * z := by
    intro f g h S hf hg hk
    have h1 : ∫ q in S, (f q * x + g q * y + h q * z) =
        (∫ q in S, (f q * x + g q * y)) + ∫ q in S, h q * z :=
      integral_add ((hf.mul_const x).add (hg.mul_const y)) (hk.mul_const z)
    have h2 : ∫ q in S, (f q * x + g q * y) = (∫ q in S, f q * x) + ∫ q in S, g q * y :=
      integral_add (hf.mul_const x) (hg.mul_const y)
    rw [h1, h2, integral_mul_const, integral_mul_const, integral_mul_const]
  unfold Box.outwardFlux Box.faceIntegral
  rw [key (hF .e).2 (hG .e).2 (hH .e).2, key (hF .e).1 (hG .e).1 (hH .e).1,
    key (hF .n).2 (hG .n).2 (hH .n).2, key (hF .n).1 (hG .n).1 (hH .n).1,
    key (hF .u).2 (hG .u).2 (hH .u).2, key (hF .u).1 (hG .u).1 (hH .u).1]
  ring

/-! ### prisms -/

theorem integrable_face_region_kpp (c : KComp) {a : Axis} {t : ℝ} (h : ∀ q ∈ P.region, q ∉ B.face a t) :
    Integrable (fun w : (ℝ × ℝ) × Pt => kpp c (Pt.onPlane a t w.1) w.2)
      ((volume.restrict (B.cross a)).prod (volume.restrict P.region)) := by
  rw [Measure.prod_restrict]
  refine ContinuousOn.integrableOn_compact ((isCompact_cross B a).prod (isCompact_region P)) ?_
  have hpl := Pt.continuous_onPlane a t
  exact (continuousOn_kpp c).comp (f := fun w : (ℝ × ℝ) × Pt => (Pt.onPlane a t w.1, w.2))
    ((by fun_prop : Continuous fun w : (ℝ × ℝ) × Pt => (Pt.onPlane a t w.1, w.2)).continuousOn)
    (fun w hw he => h w.2 hw.2 ⟨w.1, hw.1, he⟩)

theorem Vtensor_eq (hP : P.Ordered) (a b : Axis) {p : Pt} (h : p ∉ P.region) :
    Vc (tensor a b) p P = ∫ q in P.region, kpp (kern2 a b) p q := by
  rw [Vc_tensor_integral hP a b h, tensor_toK]
  congr 1; funext q; congr 1; cases a <;> cases b <;> rfl

theorem integrableOn_Vtensor_face (hP : P.Ordered) (a b : Axis) {a' : Axis} {t : ℝ}
    (h : ∀ q ∈ P.region, q ∉ B.face a' t) :
    IntegrableOn (fun s => Vc (tensor a b) (Pt.onPlane a' t s) P) (B.cross a') := by
  have hI := (integrable_face_region_kpp (kern2 a b) h).integral_prod_left
  have hI' : IntegrableOn (fun s => ∫ q in P.region, kpp (kern2 a b) (Pt.onPlane a' t s) q) (B.cross a') := hI
  refine hI'.congr_fun (fun s hs => ?_) (measurableSet_cross B a')
  exact (Vtensor_eq hP a b (fun hp => h _ hp ⟨s, hs, rfl⟩)).symm

theorem faceIntegral_Vtensor (hP : P.Ordered) (a b : Axis) {a' : Axis} {t : ℝ}
    (h : ∀ q ∈ P.region, q ∉ B.face a' t) :
    B.faceIntegral a' t (fun p => Vc (tensor a b) p P) =
      ∫ q in P.region, B.faceIntegral a' t (fun p => kpp (kern2 a b) p q) := by
  unfold Box.faceIntegral
  rw [setIntegral_congr_fun (measurableSet_cross B a')
    (fun s hs => Vtensor_eq hP a b (fun hp => h _ hp ⟨s, hs, rfl⟩))]
  exact integral_integral_swap (integrable_face_region_kpp (kern2 a b) h)

theorem outwardFlux_Vtensor (hB : B.Ordered) (hP : P.Ordered) (h : Disjoint B.surface P.region) (b : Axis) :
    B.outwardFlux (fun a p => Vc (tensor a b) p P) = 0 := by
  have lo : ∀ a, ∀ q ∈ P.region, q ∉ B.face a (B.lo a) := fun a q hq hf =>
    Set.disjoint_left.1 h (face_lo_subset B a hf) hq
  have hi : ∀ a, ∀ q ∈ P.region, q ∉ B.face a (B.hi a) := fun a q hq hf =>
    Set.disjoint_left.1 h (face_hi_subset B a hf) hq
  have i := fun (a : Axis) (t : ℝ) (ht : ∀ q ∈ P.region, q ∉ B.face a t) =>
    (integrable_face_region_kpp (kern2 a b) ht).integral_prod_right
  have h1 : B.outwardFlux (fun a p => Vc (tensor a b) p P) =
      ∫ q in P.region, B.outwardFlux (fun a p => kpp (kern2 a b) p q) := by
    unfold Box.outwardFlux
    rw [faceIntegral_Vtensor hP _ b (hi .e), faceIntegral_Vtensor hP _ b (lo .e),
      faceIntegral_Vtensor hP _ b (hi .n), faceIntegral_Vtensor hP _ b (lo .n),
      faceIntegral_Vtensor hP _ b (hi .u), faceIntegral_Vtensor hP _ b (lo .u)]
    exact (integral_six (i _ _ (hi .e)) (i _ _ (lo .e)) (i _ _ (hi .n)) (i _ _ (lo .n))
      (i _ _ (hi .u)) (i _ _ (lo .u))).symm
  rw [h1, setIntegral_congr_fun (measurableSet_region P)
    (fun q hq => outwardFlux_kern2 hB (fun hs => Set.disjoint_left.1 h hs hq) b)]
  simp

end Choclo
