import Verif.Lemmas.Plane
import Verif.Spec.KernelSteps

/-! # C133: integrals of the fields over whole planes

`Pt.onPlane a t s` (Spec/Flux.lean) is the point of the plane `coordinate a = t` whose two other
coordinates are `s`; the integrals are over all `s : ℝ × ℝ`. -/

namespace Choclo

open Real Set MeasureTheory Filter Topology

variable {P : Box}

/-! ## C133 -/

/-- **The mass of a point source from gravity on one plane.**  On any plane that does not contain a
point source, the acceleration normal to the plane is integrable, and its integral is `2 π G mass`,
whatever the distance and the position of the source; negative when the source is on the lower side. -/
theorem C133_point (a : Axis) (t : ℝ) (q : Pt) (h : t ≠ q.coord a) (m : ℝ) :
    ∃ g : ℝ × ℝ → ℝ, (∀ s, Returns (onPair (A := Exact) (pointGravity a.acc) (Pt.onPlane a t s) q m) (g s)) ∧
      Integrable g ∧
      (q.coord a < t → ∫ s, g s = -(2 * π * 6.6743e-11 * m)) ∧
      (t < q.coord a → ∫ s, g s = 2 * π * 6.6743e-11 * m) := by
  obtain ⟨h1, h2⟩ := plane_kern1 a h
  refine ⟨fun s => Gc * m * kpp (kern1 a) (Pt.onPlane a t s) q, fun s => ?_, h1.const_mul _, fun hl => ?_, fun hl => ?_⟩
  · rw [← acc_toK]; exact Ex.pointGravity_fin a.acc (off_plane h s) m
  · rw [integral_const_mul, h2, if_pos hl, Gc]; ring
  · rw [integral_const_mul, h2, if_neg (not_lt.2 hl.le), Gc]; ring

/-- **The mass of a prism from gravity on one plane.**  On *any* plane, also one that touches or cuts
the prism, the acceleration normal to the plane is integrable, and its integral is `-2 π G` times the
mass on the lower side plus `2 π G` times the mass on the upper side of the plane. -/
theorem C133_prism (hP : P.Ordered) (a : Axis) (t ρ : ℝ) :
    ∃ g : ℝ × ℝ → ℝ, (∀ s, Returns (onPrism (A := Exact) (prismGravity a.acc) (Pt.onPlane a t s) P ρ) (g s)) ∧
      Integrable g ∧
      (P.hi a ≤ t → ∫ s, g s = -(2 * π * 6.6743e-11 * (ρ * P.volume))) ∧
      (t ≤ P.lo a → ∫ s, g s = 2 * π * 6.6743e-11 * (ρ * P.volume)) ∧
      (P.lo a ≤ t → t ≤ P.hi a → ∫ s, g s =
        2 * π * 6.6743e-11 * (ρ * (P.above t a).volume) - 2 * π * 6.6743e-11 * (ρ * (P.below t a).volume)) := by
  obtain ⟨h1, -, h2, h3⟩ := plane_prism_Vacc hP a t
  refine ⟨fun s => Gc * ρ * Vc a.acc (Pt.onPlane a t s) P, fun s => acc_returns a _ P ρ, h1.const_mul _,
    fun h => ?_, fun h => ?_, fun h h' => ?_⟩
  · rw [integral_const_mul, h2 h, Gc]; ring
  · rw [integral_const_mul, h3 h, Gc]; ring
  · rw [integral_const_mul, plane_prism_cut hP a ⟨h, h'⟩, Gc]; ring

/-- **A finite survey never finds too much mass.**  Over any part of any plane, the
integral of the normal acceleration of a prism is at most `2 π G |density| volume` in absolute value. -/
theorem C133_part (hP : P.Ordered) (a : Axis) (t ρ : ℝ) (S : Set (ℝ × ℝ)) :
    ∃ g : ℝ × ℝ → ℝ, (∀ s, Returns (onPrism (A := Exact) (prismGravity a.acc) (Pt.onPlane a t s) P ρ) (g s)) ∧
      IntegrableOn g S ∧ |∫ s in S, g s| ≤ 2 * π * 6.6743e-11 * (|ρ| * P.volume) := by
  obtain ⟨h1, h2, -, -⟩ := plane_prism_Vacc hP a t
  refine ⟨fun s => Gc * ρ * Vc a.acc (Pt.onPlane a t s) P, fun s => acc_returns a _ P ρ,
    (h1.const_mul _).integrableOn, ?_⟩
  rw [integral_const_mul, abs_mul, abs_mul, abs_of_pos Gc_pos]
  have l : |∫ s in S, Vc a.acc (Pt.onPlane a t s) P| ≤ 2 * π * P.volume := by
    refine (abs_integral_le_integral_abs).trans (le_trans ?_ h2)
    exact setIntegral_le_integral h1.abs (Eventually.of_forall fun _ => abs_nonneg _)
  have n : 0 ≤ Gc * |ρ| := mul_nonneg Gc_pos.le (abs_nonneg ρ)
  refine (mul_le_mul_of_nonneg_left l n).trans (le_of_eq ?_)
  rw [Gc]; ring

/-- **Larger surveys find more of it.**  For a non-negative density and a plane not below the prism,
the integral over a part `S` of the plane is between zero and minus the whole, and moves towards the
whole as the part grows. -/
theorem C133_nested (hP : P.Ordered) (a : Axis) {t ρ : ℝ} (ht : P.hi a ≤ t) (hρ : 0 ≤ ρ) {S T : Set (ℝ × ℝ)}
    (hST : S ⊆ T) :
    ∃ g : ℝ × ℝ → ℝ, (∀ s, Returns (onPrism (A := Exact) (prismGravity a.acc) (Pt.onPlane a t s) P ρ) (g s)) ∧
      -(2 * π * 6.6743e-11 * (ρ * P.volume)) ≤ ∫ s in T, g s ∧ ∫ s in T, g s ≤ ∫ s in S, g s ∧
      ∫ s in S, g s ≤ 0 := by
  obtain ⟨h1, -, h2, -⟩ := plane_prism_Vacc hP a t
  have neg : ∀ s, Gc * ρ * Vc a.acc (Pt.onPlane a t s) P ≤ 0 := fun s => by
    refine mul_nonpos_of_nonneg_of_nonpos (mul_nonneg Gc_pos.le hρ) ?_
    rw [← (integral_low hP a.acc (by cases a <;> decide) _).2]
    refine setIntegral_nonpos (isCompact_region P).measurableSet fun q hq => ?_
    rw [kpp_acc_dist, show (Pt.onPlane a t s).coord a = t by cases a <;> rfl]
    have := (coord_mem_region hq a).2
    exact div_nonpos_of_nonpos_of_nonneg (by linarith) (pow_nonneg (Real.sqrt_nonneg _) 3)
  have i : Integrable fun s => Gc * ρ * Vc a.acc (Pt.onPlane a t s) P := h1.const_mul _
  have key : ∀ {μ ν : Measure (ℝ × ℝ)}, μ ≤ ν → Integrable (fun s => Gc * ρ * Vc a.acc (Pt.onPlane a t s) P) ν →
      ∫ s, Gc * ρ * Vc a.acc (Pt.onPlane a t s) P ∂ν ≤ ∫ s, Gc * ρ * Vc a.acc (Pt.onPlane a t s) P ∂μ := by
    intro μ ν hμν hi
    have := integral_mono_measure hμν (Eventually.of_forall fun s => neg_nonneg.2 (neg s)) hi.neg
    rw [integral_neg, integral_neg] at this
    linarith
  refine ⟨fun s => Gc * ρ * Vc a.acc (Pt.onPlane a t s) P, fun s => acc_returns a _ P ρ, ?_, ?_, ?_⟩
  · have := key (Measure.restrict_le_self (μ := volume) (s := T)) i
    rw [integral_const_mul, h2 ht] at this
    refine le_trans (le_of_eq ?_) this
    rw [Gc]; ring
  · exact key (Measure.restrict_mono hST le_rfl) i.integrableOn
  · exact integral_nonpos neg

/-- **No net gradient.**  Every kernel of second or third order integrates to zero over every plane
that does not contain the source. -/
theorem C133_kernel (a : Axis) (t : ℝ) (q : Pt) (h : t ≠ q.coord a) (c : KComp) (hc : 2 ≤ c.order) :
    ∃ k : ℝ × ℝ → ℝ, (∀ s, Returns (callKernel (A := Exact) c (Pt.onPlane a t s) q) (k s)) ∧
      Integrable k ∧ ∫ s, k s = 0 := by
  refine ⟨fun s => kpp c (Pt.onPlane a t s) q, fun s => Ex.callKernel_fin c (off_plane h s), ?_⟩
  cases c <;> simp only [KComp.order, KComp.index] at hc <;> first | omega | skip
  · exact plane_kern2 a .e .e h
  · exact plane_kern2 a .n .n h
  · exact plane_kern2 a .u .u h
  · exact plane_kern2 a .e .n h
  · exact plane_kern2 a .e .u h
  · exact plane_kern2 a .n .u h
  · exact plane_kern3 a .e .e .e h
  · exact plane_kern3 a .n .n .n h
  · exact plane_kern3 a .u .u .u h
  · exact plane_kern3 a .e .e .n h
  · exact plane_kern3 a .e .e .u h
  · exact plane_kern3 a .n .n .e h
  · exact plane_kern3 a .n .n .u h
  · exact plane_kern3 a .u .u .e h
  · exact plane_kern3 a .u .u .n h
  · exact plane_kern3 a .e .n .u h

/-- Every component of the gravity gradient tensor of a point source integrates to zero over every
plane that does not contain it; every component of that of a prism, over every plane that misses it. -/
theorem C133_tensor (a i j : Axis) (t : ℝ) :
    (∀ (q : Pt) (m : ℝ), t ≠ q.coord a →
      ∃ g : ℝ × ℝ → ℝ, (∀ s, Returns (onPair (A := Exact) (pointGravity (tensor i j)) (Pt.onPlane a t s) q m) (g s)) ∧
        Integrable g ∧ ∫ s, g s = 0) ∧
    (∀ (P : Box) (ρ : ℝ), P.Ordered → (t < P.lo a ∨ P.hi a < t) →
      ∃ g : ℝ × ℝ → ℝ, (∀ s, Returns (onPrism (A := Exact) (prismGravity (tensor i j)) (Pt.onPlane a t s) P ρ) (g s)) ∧
        Integrable g ∧ ∫ s, g s = 0) := by
  constructor
  · intro q m h
    obtain ⟨h1, h2⟩ := plane_kern2 a j i h
    refine ⟨fun s => Gc * m * kpp (kern2 j i) (Pt.onPlane a t s) q, fun s => ?_, h1.const_mul _, ?_⟩
    · rw [← tensor_toK]; exact Ex.pointGravity_fin _ (off_plane h s) m
    · rw [integral_const_mul, h2, mul_zero]
  · intro P ρ hP ht
    obtain ⟨h1, h2⟩ := plane_prism_kern2 (P := P) ht j i
    refine ⟨fun s => Gc * ρ * ∫ q in P.region, kpp (kern2 j i) (Pt.onPlane a t s) q, fun s => ?_, h1.const_mul _, ?_⟩
    · have hx := plane_off_region ht s
      simp only [← tensor_toK, ← Vc_tensor_integral hP i j hx]
      exact Ex.gravity_returns hP (exterior_singular hP hx _) ρ
    · rw [integral_const_mul, h2, mul_zero]

/-- **No net magnetic field.**  Every component of the field of a dipole integrates to zero over every
plane that does not contain it; every component of the field and of the field's gradient of a prism,
over every plane that misses it. -/
theorem C133_magnetic (a i j : Axis) (t : ℝ) :
    (∀ q m : Pt, t ≠ q.coord a →
      ∃ B : ℝ × ℝ → ℝ, (∀ s, Returns (onPair (A := Exact) (dipoleMagnetic i) (Pt.onPlane a t s) q m.e m.n m.u) (B s)) ∧
        Integrable B ∧ ∫ s, B s = 0) ∧
    (∀ (P : Box) (M : Vec), P.Ordered → (t < P.lo a ∨ P.hi a < t) →
      (∃ B : ℝ × ℝ → ℝ, (∀ s, Returns (onPrism (A := Exact) (prismMagnetic i.field) (Pt.onPlane a t s) P M.e M.n M.u) (B s)) ∧
        Integrable B ∧ ∫ s, B s = 0) ∧
      (∃ J : ℝ × ℝ → ℝ,
        (∀ s, Returns (onPrism (A := Exact) (prismMagnetic (gradComp i j)) (Pt.onPlane a t s) P M.e M.n M.u) (J s)) ∧
        Integrable J ∧ ∫ s, J s = 0)) := by
  have lin : ∀ {f g h : ℝ × ℝ → ℝ} (k x y z : ℝ), (Integrable f ∧ ∫ s, f s = 0) → (Integrable g ∧ ∫ s, g s = 0) →
      (Integrable h ∧ ∫ s, h s = 0) →
      Integrable (fun s => k * (f s * x + g s * y + h s * z)) ∧ ∫ s, k * (f s * x + g s * y + h s * z) = 0 := by
    intro f g h k x y z hf hg hh
    refine ⟨(((hf.1.mul_const x).add (hg.1.mul_const y)).add (hh.1.mul_const z)).const_mul k, ?_⟩
    have e : ∫ s, (f s * x + g s * y + h s * z) = (∫ s, f s * x) + (∫ s, g s * y) + ∫ s, h s * z := by
      rw [← integral_add (hf.1.mul_const x) (hg.1.mul_const y)]
      exact integral_add (f := fun s => f s * x + g s * y) ((hf.1.mul_const x).add (hg.1.mul_const y)) (hh.1.mul_const z)
    rw [integral_const_mul, e, integral_mul_const, integral_mul_const, integral_mul_const, hf.2, hg.2, hh.2]
    ring
  constructor
  · intro q m h
    exact ⟨fun s => Bd i (Pt.onPlane a t s) q m, fun s => dipole_fin i (off_plane h s) m,
      lin _ _ _ _ (plane_kern2 a i .e h) (plane_kern2 a i .n h) (plane_kern2 a i .u h)⟩
  · intro P M hP ht
    have ret := fun (c : MComp) s => Ex.magnetic_returns hP (c := c) (exterior_edges hP (plane_off_region ht s))
      (fun h' => plane_off_region ht s (inside_subset_region h')) M.e M.n M.u
    constructor
    · refine ⟨_, ret i.field, ?_⟩
      have e : ∀ s, mu0 / 4 / π * Bc i.field (Pt.onPlane a t s) P M.e M.n M.u = mu0 / 4 / π *
          ((∫ q in P.region, kpp (kern2 i .e) (Pt.onPlane a t s) q) * M.e +
            (∫ q in P.region, kpp (kern2 i .n) (Pt.onPlane a t s) q) * M.n +
            (∫ q in P.region, kpp (kern2 i .u) (Pt.onPlane a t s) q) * M.u) := fun s => by
        have k := fun c => integrableOn_kpp (P := P) c (plane_off_region ht s)
        rw [Bc_field_integral hP i (plane_off_region ht s) M, integral_const_mul, integral_lin3 (k _) (k _) (k _)]
      simp only [e]
      exact lin _ _ _ _ (plane_prism_kern2 ht i .e) (plane_prism_kern2 ht i .n) (plane_prism_kern2 ht i .u)
    · refine ⟨_, ret (gradComp i j), ?_⟩
      have e : ∀ s, mu0 / 4 / π * Bc (gradComp i j) (Pt.onPlane a t s) P M.e M.n M.u = mu0 / 4 / π *
          ((∫ q in P.region, kpp (kern3 i j .e) (Pt.onPlane a t s) q) * M.e +
            (∫ q in P.region, kpp (kern3 i j .n) (Pt.onPlane a t s) q) * M.n +
            (∫ q in P.region, kpp (kern3 i j .u) (Pt.onPlane a t s) q) * M.u) := fun s => by
        have k := fun c => integrableOn_kpp (P := P) c (plane_off_region ht s)
        rw [Bc_grad_integral hP i j (plane_off_region ht s) M, integral_lin3 (k _) (k _) (k _)]
      simp only [e]
      exact lin _ _ _ _ (plane_prism_kern3 ht i j .e) (plane_prism_kern3 ht i j .n) (plane_prism_kern3 ht i j .u)

/-- non-vacuity: the plane `upward = 0` touches the example prism, `upward = 1` misses it, and
`upward = -1` cuts it. -/
example : exBox.hi .u ≤ 0 ∧ (1 < exBox.lo .u ∨ exBox.hi .u < 1) ∧ exBox.lo .u ≤ -1 ∧ -1 ≤ exBox.hi .u ∧
    (exBox.below (-1) .u).volume = 4 ∧ exBox.volume = 8 := by
  refine ⟨?_, ?_, ?_, ?_, ?_, ?_⟩ <;> norm_num [exBox, Box.hi, Box.lo, Box.below, Box.volume]

/-- non-vacuity: a point source under the plane `upward = 0`, and a kernel of second order -/
example : (0 : ℝ) ≠ Pt.coord (1, 2, -3) .u ∧ Pt.coord (1, 2, -3) .u < 0 ∧ 2 ≤ KComp.order .eu := by
  refine ⟨?_, ?_, ?_⟩ <;> norm_num [Pt.coord, Pt.u, KComp.order, KComp.index]

end Choclo
