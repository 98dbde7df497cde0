import Verif.Lemmas.Shape
import Verif.Props.Grid

/-! # C91: how the field of a prism changes when one of its faces is moved -/

namespace Choclo

open Real MeasureTheory Set Filter Topology

variable {P : Box}

theorem continuousOn_kpp_right (c : KComp) (p : Pt) : ContinuousOn (kpp c p) {q | q ≠ p} :=
  (continuousOn_kpp c).comp (f := fun q : Pt => (p, q)) (by fun_prop) fun _ hq => Ne.symm hq

theorem sheet_ne {a : Axis} {t : ℝ} {p q : Pt} (hp : p ∉ P.sheet a t) (hq : q ∈ P.sheet a t) : p ≠ q :=
  fun h => hp (h ▸ hq)

theorem sheet_hi_region (hP : P.Ordered) (a : Axis) : P.sheet a (P.hi a) ⊆ P.region := by
  obtain ⟨h1, h2, h3⟩ := hP
  rintro _ ⟨s, hs, rfl⟩
  cases a <;> simp only [Box.cross, mem_prod, mem_Icc] at hs <;>
    simp only [Pt.onPlane, Box.region, mem_prod, mem_Icc, Box.hi] <;> grind

theorem sheet_lo_region (hP : P.Ordered) (a : Axis) : P.sheet a (P.lo a) ⊆ P.region := by
  obtain ⟨h1, h2, h3⟩ := hP
  rintro _ ⟨s, hs, rfl⟩
  cases a <;> simp only [Box.cross, mem_prod, mem_Icc] at hs <;>
    simp only [Pt.onPlane, Box.region, mem_prod, mem_Icc, Box.lo] <;> grind

theorem sensitivity_hi (hP : P.Ordered) {a : Axis} (hlt : P.lo a < P.hi a) {p : Pt}
    (hp : p ∉ P.sheet a (P.hi a)) {f : Pt → ℝ} (hf : ContinuousOn f {q | q ≠ p}) {call : Box → Py (Fl Exact)}
    (hc : ∀ᶠ t in 𝓝 (P.hi a), IntegrableOn f (P.moveHi a t).region ∧
      Returns (call (P.moveHi a t)) (∫ q in (P.moveHi a t).region, f q)) :
    HasSensitivity (fun t => call (P.moveHi a t)) (P.faceIntegral a (P.hi a) f) (P.hi a) := by
  obtain ⟨t₁, h1, h2⟩ : ∃ t₁, P.hi a < t₁ ∧ IntegrableOn f (P.moveHi a t₁).region := by
    have h1 : ∀ᶠ t in 𝓝[>] P.hi a, IntegrableOn f (P.moveHi a t).region :=
      (hc.filter_mono nhdsWithin_le_nhds).mono fun t h => h.1
    have := h1.and self_mem_nhdsWithin
    obtain ⟨t, ht, ht'⟩ := this.exists
    exact ⟨t, ht', ht⟩
  exact ⟨_, hc.mono fun t h => h.2, hasDerivAt_moveHi hP hlt hp hf h1 h2⟩

theorem sensitivity_lo (hP : P.Ordered) {a : Axis} (hlt : P.lo a < P.hi a) {p : Pt}
    (hp : p ∉ P.sheet a (P.lo a)) {f : Pt → ℝ} (hf : ContinuousOn f {q | q ≠ p}) {call : Box → Py (Fl Exact)}
    (hc : ∀ᶠ t in 𝓝 (P.lo a), IntegrableOn f (P.moveLo a t).region ∧
      Returns (call (P.moveLo a t)) (∫ q in (P.moveLo a t).region, f q)) :
    HasSensitivity (fun t => call (P.moveLo a t)) (-P.faceIntegral a (P.lo a) f) (P.lo a) := by
  obtain ⟨t₁, h1, h2⟩ : ∃ t₁, t₁ < P.lo a ∧ IntegrableOn f (P.moveLo a t₁).region := by
    have h1 : ∀ᶠ t in 𝓝[<] P.lo a, IntegrableOn f (P.moveLo a t).region :=
      (hc.filter_mono nhdsWithin_le_nhds).mono fun t h => h.1
    have := h1.and self_mem_nhdsWithin
    obtain ⟨t, ht, ht'⟩ := this.exists
    exact ⟨t, ht', ht⟩
  exact ⟨_, hc.mono fun t h => h.2, hasDerivAt_moveLo hP hlt hp hf h1 h2⟩

theorem eventually_ordered_hi (hP : P.Ordered) {a : Axis} (hlt : P.lo a < P.hi a) :
    ∀ᶠ t in 𝓝 (P.hi a), (P.moveHi a t).Ordered :=
  (lt_mem_nhds hlt).mono fun _ h => hP.moveHi h.le

theorem eventually_ordered_lo (hP : P.Ordered) {a : Axis} (hlt : P.lo a < P.hi a) :
    ∀ᶠ t in 𝓝 (P.lo a), (P.moveLo a t).Ordered :=
  (gt_mem_nhds hlt).mono fun _ h => hP.moveLo h.le

/-- potential and acceleration, anywhere -/
theorem low_integral_returns {Q : Box} (hQ : Q.Ordered) {c : GComp} (hc : c.letters ≤ 1) (p : Pt) (ρ : ℝ) :
    IntegrableOn (fun q => Gc * ρ * kpp c.toK p q) Q.region ∧
      Returns (onPrism (A := Exact) (prismGravity c) p Q ρ) (∫ q in Q.region, Gc * ρ * kpp c.toK p q) := by
  obtain ⟨h1, h2⟩ := integral_low hQ c hc p
  refine ⟨h1.const_mul _, ?_⟩
  rw [integral_const_mul, h2]
  exact Ex.gravity_returns hQ (low_singular hc Q) ρ

/-- every component, outside -/
theorem ext_integral_returns {Q : Box} (hQ : Q.Ordered) (c : GComp) {p : Pt} (h : p ∉ Q.region) (ρ : ℝ) :
    IntegrableOn (fun q => Gc * ρ * kpp c.toK p q) Q.region ∧
      Returns (onPrism (A := Exact) (prismGravity c) p Q ρ) (∫ q in Q.region, Gc * ρ * kpp c.toK p q) := by
  have ht : c.letters ≤ 1 ∨ ∃ a b, c = tensor a b := by
    cases c <;> first
      | exact .inl (by decide)
      | exact .inr ⟨.e, .e, rfl⟩ | exact .inr ⟨.n, .n, rfl⟩ | exact .inr ⟨.u, .u, rfl⟩
      | exact .inr ⟨.e, .n, rfl⟩ | exact .inr ⟨.e, .u, rfl⟩ | exact .inr ⟨.n, .u, rfl⟩
  rcases ht with hc | ⟨a, b, rfl⟩
  · exact low_integral_returns hQ hc p ρ
  · refine ⟨(integrableOn_kpp _ h).const_mul _, ?_⟩
    rw [integral_const_mul, ← Vc_tensor_integral hQ a b h]
    exact Ex.gravity_returns hQ (exterior_singular hQ h _) ρ

theorem field_integral_returns {Q : Box} (hQ : Q.Ordered) (b : Axis) {p : Pt} (h : p ∉ Q.region) (M : Vec) :
    IntegrableOn (fun q => Bd b p q M) Q.region ∧
      Returns (onPrism (A := Exact) (prismMagnetic b.field) p Q M.e M.n M.u) (∫ q in Q.region, Bd b p q M) := by
  have i := fun c => integrableOn_kpp (P := Q) c h
  refine ⟨((((i _).mul_const _).add ((i _).mul_const _)).add ((i _).mul_const _)).const_mul _, ?_⟩
  have := Bc_field_integral hQ b h M
  have h2 := Ex.magnetic_returns hQ (c := b.field) (exterior_edges hQ h) (fun h' => h (inside_subset_region h')) M.e M.n M.u
  rw [this] at h2
  exact h2

/-! ## C91 -/

/-- The rate at which a gravity component at an exterior point changes when the high face of the prism
along an axis (east, north or top) is moved outwards is the surface integral over that face of the
same component of point masses of the prism's density per unit area. -/
theorem C91_gravity_hi (hP : P.Ordered) (c : GComp) (a : Axis) (hlt : P.lo a < P.hi a) (p : Pt) (h : p ∉ P.region) (ρ : ℝ) :
    ∃ F : Pt → ℝ, (∀ q ∈ P.sheet a (P.hi a), Returns (onPair (A := Exact) (pointGravity c) p q ρ) (F q)) ∧
      HasSensitivity (fun t => onPrism (A := Exact) (prismGravity c) p (P.moveHi a t) ρ)
        (P.faceIntegral a (P.hi a) F) (P.hi a) := by
  have hp : p ∉ P.sheet a (P.hi a) := fun h' => h (sheet_hi_region hP a h')
  refine ⟨fun q => Gc * ρ * kpp c.toK p q, fun q hq => Ex.pointGravity_fin c (sheet_ne hp hq) ρ, ?_⟩
  refine sensitivity_hi (call := fun Q => onPrism (A := Exact) (prismGravity c) p Q ρ) hP hlt hp
    (continuousOn_const.mul (continuousOn_kpp_right _ p)) ?_
  filter_upwards [eventually_ordered_hi hP hlt, moveHi_exterior h] with t h1 h2
  exact ext_integral_returns h1 c h2 ρ

/-- The same for the low face (west, south or bottom): moving it in the direction of its axis removes
matter, so the rate is minus the surface integral. -/
theorem C91_gravity_lo (hP : P.Ordered) (c : GComp) (a : Axis) (hlt : P.lo a < P.hi a) (p : Pt) (h : p ∉ P.region) (ρ : ℝ) :
    ∃ F : Pt → ℝ, (∀ q ∈ P.sheet a (P.lo a), Returns (onPair (A := Exact) (pointGravity c) p q ρ) (F q)) ∧
      HasSensitivity (fun t => onPrism (A := Exact) (prismGravity c) p (P.moveLo a t) ρ)
        (-P.faceIntegral a (P.lo a) F) (P.lo a) := by
  have hp : p ∉ P.sheet a (P.lo a) := fun h' => h (sheet_lo_region hP a h')
  refine ⟨fun q => Gc * ρ * kpp c.toK p q, fun q hq => Ex.pointGravity_fin c (sheet_ne hp hq) ρ, ?_⟩
  refine sensitivity_lo (call := fun Q => onPrism (A := Exact) (prismGravity c) p Q ρ) hP hlt hp
    (continuousOn_const.mul (continuousOn_kpp_right _ p)) ?_
  filter_upwards [eventually_ordered_lo hP hlt, moveLo_exterior h] with t h1 h2
  exact ext_integral_returns h1 c h2 ρ

/-- Potential and acceleration: also at points inside the prism and on the other faces, anywhere off
the closed face that is moved. -/
theorem C91_anywhere_hi (hP : P.Ordered) (c : GComp) (hc : c.letters ≤ 1) (a : Axis) (hlt : P.lo a < P.hi a) (p : Pt)
    (hp : p ∉ P.sheet a (P.hi a)) (ρ : ℝ) :
    ∃ F : Pt → ℝ, (∀ q ∈ P.sheet a (P.hi a), Returns (onPair (A := Exact) (pointGravity c) p q ρ) (F q)) ∧
      HasSensitivity (fun t => onPrism (A := Exact) (prismGravity c) p (P.moveHi a t) ρ)
        (P.faceIntegral a (P.hi a) F) (P.hi a) := by
  refine ⟨fun q => Gc * ρ * kpp c.toK p q, fun q hq => Ex.pointGravity_fin c (sheet_ne hp hq) ρ, ?_⟩
  refine sensitivity_hi (call := fun Q => onPrism (A := Exact) (prismGravity c) p Q ρ) hP hlt hp
    (continuousOn_const.mul (continuousOn_kpp_right _ p)) ?_
  filter_upwards [eventually_ordered_hi hP hlt] with t h1
  exact low_integral_returns h1 hc p ρ

theorem C91_anywhere_lo (hP : P.Ordered) (c : GComp) (hc : c.letters ≤ 1) (a : Axis) (hlt : P.lo a < P.hi a) (p : Pt)
    (hp : p ∉ P.sheet a (P.lo a)) (ρ : ℝ) :
    ∃ F : Pt → ℝ, (∀ q ∈ P.sheet a (P.lo a), Returns (onPair (A := Exact) (pointGravity c) p q ρ) (F q)) ∧
      HasSensitivity (fun t => onPrism (A := Exact) (prismGravity c) p (P.moveLo a t) ρ)
        (-P.faceIntegral a (P.lo a) F) (P.lo a) := by
  refine ⟨fun q => Gc * ρ * kpp c.toK p q, fun q hq => Ex.pointGravity_fin c (sheet_ne hp hq) ρ, ?_⟩
  refine sensitivity_lo (call := fun Q => onPrism (A := Exact) (prismGravity c) p Q ρ) hP hlt hp
    (continuousOn_const.mul (continuousOn_kpp_right _ p)) ?_
  filter_upwards [eventually_ordered_lo hP hlt] with t h1
  exact low_integral_returns h1 hc p ρ

/-- The magnetic field at an exterior point: the surface integral over the moved face of dipoles with
the prism's magnetization per unit area. -/
theorem C91_magnetic_hi (hP : P.Ordered) (b a : Axis) (hlt : P.lo a < P.hi a) (p : Pt) (h : p ∉ P.region) (M : Vec) :
    ∃ F : Pt → ℝ,
      (∀ q ∈ P.sheet a (P.hi a), Returns (onPair (A := Exact) (dipoleMagnetic b) p q M.e M.n M.u) (F q)) ∧
      HasSensitivity (fun t => onPrism (A := Exact) (prismMagnetic b.field) p (P.moveHi a t) M.e M.n M.u)
        (P.faceIntegral a (P.hi a) F) (P.hi a) := by
  have hp : p ∉ P.sheet a (P.hi a) := fun h' => h (sheet_hi_region hP a h')
  have k := fun c => continuousOn_kpp_right c p
  refine ⟨fun q => Bd b p q M, fun q hq => dipole_fin b (sheet_ne hp hq) M, ?_⟩
  refine sensitivity_hi (call := fun Q => onPrism (A := Exact) (prismMagnetic b.field) p Q M.e M.n M.u) hP hlt hp
    (continuousOn_const.mul ((((k _).mul continuousOn_const).add ((k _).mul continuousOn_const)).add
      ((k _).mul continuousOn_const))) ?_
  filter_upwards [eventually_ordered_hi hP hlt, moveHi_exterior h] with t h1 h2
  exact field_integral_returns h1 b h2 M

theorem C91_magnetic_lo (hP : P.Ordered) (b a : Axis) (hlt : P.lo a < P.hi a) (p : Pt) (h : p ∉ P.region) (M : Vec) :
    ∃ F : Pt → ℝ,
      (∀ q ∈ P.sheet a (P.lo a), Returns (onPair (A := Exact) (dipoleMagnetic b) p q M.e M.n M.u) (F q)) ∧
      HasSensitivity (fun t => onPrism (A := Exact) (prismMagnetic b.field) p (P.moveLo a t) M.e M.n M.u)
        (-P.faceIntegral a (P.lo a) F) (P.lo a) := by
  have hp : p ∉ P.sheet a (P.lo a) := fun h' => h (sheet_lo_region hP a h')
  have k := fun c => continuousOn_kpp_right c p
  refine ⟨fun q => Bd b p q M, fun q hq => dipole_fin b (sheet_ne hp hq) M, ?_⟩
  refine sensitivity_lo (call := fun Q => onPrism (A := Exact) (prismMagnetic b.field) p Q M.e M.n M.u) hP hlt hp
    (continuousOn_const.mul ((((k _).mul continuousOn_const).add ((k _).mul continuousOn_const)).add
      ((k _).mul continuousOn_const))) ?_
  filter_upwards [eventually_ordered_lo hP hlt, moveLo_exterior h] with t h1 h2
  exact field_integral_returns h1 b h2 M

/-- an exterior point above the top face, and the centre of the prism, meet the hypotheses -/
example : exBox.lo .u < exBox.hi .u ∧ ((0, 0, 1) : Pt) ∉ exBox.region ∧
    ((0, 0, -1) : Pt) ∉ exBox.sheet .u (exBox.hi .u) ∧ ((0, 0, -1) : Pt) ∈ exBox.region := by
  refine ⟨by norm_num [exBox, Box.lo, Box.hi], by norm_num [exBox, Box.region], ?_, by norm_num [exBox, Box.region]⟩
  rintro ⟨s, _, hs⟩
  have := congrArg (fun q : Pt => q.u) hs
  norm_num [Pt.onPlane, Box.hi, exBox, Pt.u] at this

end Choclo
