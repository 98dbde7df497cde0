import Verif.Lemmas.Moments
import Verif.Props.Survey
import Verif.Spec.Moments

/-! # C143: first moments of data on a plane

`discAt c R` is the disc of radius `R` around `c` in a plane and `Pt.foot a o` the foot of the perpendicular from `o` to the plane
`coordinate a = t` (Spec/Survey.lean); `Pt.onPlane a t s` is the point of the plane with the other two coordinates `s`
(Spec/Flux.lean); `firstMoment` and `MomentTends` are in Spec/Moments.lean.  The moments do not converge absolutely; they are limits over growing discs around any point `o`. -/

namespace Choclo

open Real Set MeasureTheory Filter Topology

variable {a b : Axis} {t : ℝ}

theorem MomentTends.const_mul {o : Pt} {g : ℝ × ℝ → ℝ} {L : ℝ} (h : MomentTends a b t o g L) (k : ℝ) :
    MomentTends a b t o (fun s => k * g s) (k * L) := by
  have e : ∀ s, ((Pt.onPlane a t s).coord b - o.coord b) * (k * g s) = k * (((Pt.onPlane a t s).coord b - o.coord b) * g s) :=
    fun s => by ring
  refine ⟨fun R => ?_, ?_⟩
  · simp only [e]; exact (h.1 R).const_mul k
  · have := h.2.const_mul k
    refine this.congr fun R => ?_
    unfold firstMoment
    simp only [e, integral_const_mul]

theorem MomentTends.add {o : Pt} {g g' : ℝ × ℝ → ℝ} {L L' : ℝ} (h : MomentTends a b t o g L) (h' : MomentTends a b t o g' L') :
    MomentTends a b t o (fun s => g s + g' s) (L + L') := by
  have e : ∀ s, ((Pt.onPlane a t s).coord b - o.coord b) * (g s + g' s) =
      ((Pt.onPlane a t s).coord b - o.coord b) * g s + ((Pt.onPlane a t s).coord b - o.coord b) * g' s := fun s => by ring
  refine ⟨fun R => ?_, ?_⟩
  · simp only [e]; exact (h.1 R).add (h'.1 R)
  · refine (h.2.add h'.2).congr fun R => ?_
    unfold firstMoment
    simp only [e]
    exact (integral_add (h.1 R) (h'.1 R)).symm

theorem MomentTends.lin3 {o : Pt} {f g k : ℝ × ℝ → ℝ} {x y z : ℝ} (hf : MomentTends a b t o f x) (hg : MomentTends a b t o g y)
    (hk : MomentTends a b t o k z) (K u v w : ℝ) :
    MomentTends a b t o (fun s => K * (f s * u + g s * v + k s * w)) (K * (x * u + y * v + z * w)) := by
  have := (((hf.const_mul u).add (hg.const_mul v)).add (hk.const_mul w)).const_mul K
  simp only [mul_comm u, mul_comm v, mul_comm w] at this
  exact this

theorem MomentTends.sum {ι : Type*} {o : Pt} (I : Finset ι) {g : ι → ℝ × ℝ → ℝ} {L : ι → ℝ}
    (h : ∀ i ∈ I, MomentTends a b t o (g i) (L i)) : MomentTends a b t o (fun s => ∑ i ∈ I, g i s) (∑ i ∈ I, L i) := by
  classical
  induction I using Finset.induction_on with
  | empty =>
    refine ⟨fun R => by simp, ?_⟩
    unfold firstMoment
    simp
  | insert i I hi ih =>
    simp only [Finset.sum_insert hi]
    exact (h i (Finset.mem_insert_self _ _)).add (ih fun j hj => h j (Finset.mem_insert_of_mem hj))

theorem mom_of {c : KComp} {o q : Pt} (i : Integrable fun s => kpp c (Pt.onPlane a t s) q) {L : ℝ}
    (hab : b ≠ a) (h : Tendsto (fun R => ∫ s in discAt (o.foot a) R, ((Pt.onPlane a t s).coord b - o.coord b) *
      kpp c (Pt.onPlane a t s) q) atTop (𝓝 L)) : MomentTends a b t o (fun s => kpp c (Pt.onPlane a t s) q) L := by
  refine ⟨fun R => ?_, h⟩
  have mw : Measurable fun s => (Pt.onPlane a t s).coord b - o.coord b := (measurable_coord_onPlane a b t).sub_const _
  refine i.integrableOn.bdd_mul (c := |R|) mw.aestronglyMeasurable ?_
  exact (ae_restrict_mem (measurable_disc (o.foot a) R)).mono fun s hs => coord_disc_le hab hs

theorem foot_disc (q o : Pt) : q.foot a ∈ discAt (o.foot a) (dist3 q o) := by
  show _ ≤ √_ ^ 2
  rw [Real.sq_sqrt (by positivity)]
  cases a <;> simp only [Pt.foot] <;> nlinarith [sq_nonneg (q.e - o.e), sq_nonneg (q.n - o.n), sq_nonneg (q.u - o.u)]

theorem mom_point_kern1 {o q : Pt} (hab : b ≠ a) (hq : q.coord a < t) :
    MomentTends a b t o (fun s => kpp (kern1 a) (Pt.onPlane a t s) q) (-(2 * π) * (q.coord b - o.coord b)) :=
  mom_of (plane_kern1 a hq.ne').1 hab (mom_kern1 hab hq (Real.sqrt_nonneg _) (foot_disc q o)).2

theorem mom_point_kern2 {o q : Pt} (hab : b ≠ a) (i j : Axis) (hq : q.coord a < t) :
    MomentTends a b t o (fun s => kpp (kern2 i j) (Pt.onPlane a t s) q) (momVal a b i j) :=
  mom_of (plane_kern2 a i j hq.ne').1 hab (mom_kern2 hab i j hq (Real.sqrt_nonneg _) (foot_disc q o)).2

/-! ## C143 -/

/-- **The place of a point source from gravity on one plane.**  The first moment of the normal acceleration on a plane above a point
source, about any point `o` and along any axis `b` in the plane, tends to `-2 π G mass (q_b - o_b)` as the survey grows. -/
theorem C143_point (hab : b ≠ a) {q : Pt} (hq : q.coord a < t) (o : Pt) (m : ℝ) :
    ∃ g : ℝ × ℝ → ℝ, (∀ s, Returns (onPair (A := Exact) (pointGravity a.acc) (Pt.onPlane a t s) q m) (g s)) ∧
      MomentTends a b t o g (-(2 * π * 6.6743e-11 * (m * (q.coord b - o.coord b)))) := by
  refine ⟨fun s => Gc * m * kpp (kern1 a) (Pt.onPlane a t s) q, fun s => ?_, ?_⟩
  · rw [← acc_toK]; exact Ex.pointGravity_fin a.acc (off_plane hq.ne' s) m
  · convert (mom_point_kern1 (o := o) hab hq).const_mul (Gc * m) using 1
    rw [Gc]; ring

/-- **The place of a body from gravity on one plane.**  The normal accelerations of any finite family of prisms under the plane
(they may touch it), added up, have a first moment that tends to `-2 π G` times the first moment of the mass: the sum over
the prisms of density times volume times the offset of the centre. -/
theorem C143_prisms (hab : b ≠ a) {ι : Type*} (I : Finset ι) {P : ι → Box} (hP : ∀ i ∈ I, (P i).Ordered)
    (ht : ∀ i ∈ I, (P i).hi a ≤ t) (ρ : ι → ℝ) (o : Pt) :
    ∃ g : ι → ℝ × ℝ → ℝ,
      (∀ i ∈ I, ∀ s, Returns (onPrism (A := Exact) (prismGravity a.acc) (Pt.onPlane a t s) (P i) (ρ i)) (g i s)) ∧
      MomentTends a b t o (fun s => ∑ i ∈ I, g i s)
        (-(2 * π * 6.6743e-11 * ∑ i ∈ I, ρ i * (P i).volume * ((P i).centre b - o.coord b))) := by
  refine ⟨fun i s => Gc * ρ i * Vc a.acc (Pt.onPlane a t s) (P i), fun i hi s => acc_returns a _ (P i) (ρ i), ?_⟩
  have := MomentTends.sum I (a := a) (b := b) (t := t) (o := o) (g := fun i s => Gc * ρ i * Vc a.acc (Pt.onPlane a t s) (P i))
    (L := fun i => Gc * ρ i * (-(2 * π) * ((P i).volume * ((P i).centre b - o.coord b)))) fun i hi =>
      MomentTends.const_mul (g := fun s => Vc a.acc (Pt.onPlane a t s) (P i)) (mom_prism_acc (hP i hi) hab (ht i hi) o) _
  convert this using 1
  rw [Finset.mul_sum, ← Finset.sum_neg_distrib]
  refine Finset.sum_congr rfl fun i _ => ?_
  rw [Gc]; ring

/-- **The centre of mass from gravity on one plane.**  When the masses do not add up to zero, the first moment of the normal acceleration
divided by its total over the whole plane tends to the offset of the centre of mass from `o`. -/
theorem C143_centroid (hab : b ≠ a) {ι : Type*} (I : Finset ι) {P : ι → Box} (hP : ∀ i ∈ I, (P i).Ordered)
    (ht : ∀ i ∈ I, (P i).hi a ≤ t) (ρ : ι → ℝ) (o : Pt) (hm : ∑ i ∈ I, ρ i * (P i).volume ≠ 0) :
    ∃ g : ι → ℝ × ℝ → ℝ,
      (∀ i ∈ I, ∀ s, Returns (onPrism (A := Exact) (prismGravity a.acc) (Pt.onPlane a t s) (P i) (ρ i)) (g i s)) ∧
      Integrable (fun s => ∑ i ∈ I, g i s) ∧
      Tendsto (fun R => o.coord b + firstMoment a b t o (fun s => ∑ i ∈ I, g i s) R / ∫ s, ∑ i ∈ I, g i s) atTop
        (𝓝 ((∑ i ∈ I, ρ i * (P i).volume * (P i).centre b) / ∑ i ∈ I, ρ i * (P i).volume)) := by
  obtain ⟨g, h1, h2⟩ := C143_prisms hab I hP ht ρ o
  have tot : ∀ i ∈ I, Integrable (g i) ∧ ∫ s, g i s = -(2 * π * 6.6743e-11 * (ρ i * (P i).volume)) := by
    intro i hi
    obtain ⟨g', r, x1, x2, -⟩ := C133_prism (hP i hi) a t (ρ i)
    have e : g i = g' := funext fun s => Returns.inj (h1 i hi s) (r s)
    rw [e]
    exact ⟨x1, x2 (ht i hi)⟩
  have T : ∫ s, ∑ i ∈ I, g i s = -(2 * π * 6.6743e-11 * ∑ i ∈ I, ρ i * (P i).volume) := by
    rw [integral_finsetSum _ fun i hi => (tot i hi).1, Finset.sum_congr rfl fun i hi => (tot i hi).2,
      Finset.sum_neg_distrib, Finset.mul_sum]
  refine ⟨g, h1, integrable_finsetSum _ fun i hi => (tot i hi).1, ?_⟩
  rw [T]
  have l := (h2.2.div_const (-(2 * π * 6.6743e-11 * ∑ i ∈ I, ρ i * (P i).volume))).const_add (o.coord b)
  convert l using 2
  have k : 2 * π * 6.6743e-11 ≠ 0 := by have := Real.pi_pos; positivity
  have s : ∑ i ∈ I, ρ i * (P i).volume * ((P i).centre b - o.coord b) =
      (∑ i ∈ I, ρ i * (P i).volume * (P i).centre b) - o.coord b * ∑ i ∈ I, ρ i * (P i).volume := by
    rw [Finset.mul_sum, ← Finset.sum_sub_distrib]
    exact Finset.sum_congr rfl fun i _ => by ring
  rw [s, neg_div_neg_eq, mul_div_mul_left _ _ k]
  field_simp
  ring

/-- **Moments of the gravity gradient.**  On a plane above the source the component of the tensor along the normal and the axis `b`
has the first moment `2 π G mass` along `b`; every other component has the first moment zero.  The same holds for a prism
strictly below the plane. -/
theorem C143_tensor (hab : b ≠ a) (i j : Axis) (o : Pt) :
    (∀ (q : Pt) (m : ℝ), q.coord a < t →
      ∃ g : ℝ × ℝ → ℝ, (∀ s, Returns (onPair (A := Exact) (pointGravity (tensor i j)) (Pt.onPlane a t s) q m) (g s)) ∧
        MomentTends a b t o g (if (i = a ∧ j = b) ∨ (i = b ∧ j = a) then 2 * π * 6.6743e-11 * m else 0)) ∧
    (∀ (P : Box) (ρ : ℝ), P.Ordered → P.hi a < t →
      ∃ g : ℝ × ℝ → ℝ, (∀ s, Returns (onPrism (A := Exact) (prismGravity (tensor i j)) (Pt.onPlane a t s) P ρ) (g s)) ∧
        MomentTends a b t o g (if (i = a ∧ j = b) ∨ (i = b ∧ j = a) then 2 * π * 6.6743e-11 * (ρ * P.volume) else 0)) := by
  have sy : momVal a b j i = momVal a b i j := by unfold momVal; exact if_congr (by tauto) rfl rfl
  constructor
  · intro q m hq
    refine ⟨fun s => Gc * m * kpp (kern2 j i) (Pt.onPlane a t s) q, fun s => ?_, ?_⟩
    · rw [← tensor_toK]; exact Ex.pointGravity_fin _ (off_plane hq.ne' s) m
    · convert (mom_point_kern2 (o := o) hab j i hq).const_mul (Gc * m) using 1
      rw [sy, momVal, Gc]; split_ifs <;> ring
  · intro P ρ hP ht
    refine ⟨fun s => Gc * ρ * ∫ q in P.region, kpp (kern2 j i) (Pt.onPlane a t s) q, fun s => ?_, ?_⟩
    · have hx := plane_off_region (P := P) (.inr ht) s
      simp only [← tensor_toK, ← Vc_tensor_integral hP i j hx]
      exact Ex.gravity_returns hP (exterior_singular hP hx _) ρ
    · convert MomentTends.const_mul (g := fun s => ∫ q in P.region, kpp (kern2 j i) (Pt.onPlane a t s) q)
        (mom_prism_kern2 hP hab j i ht o) (Gc * ρ) using 1
      rw [sy, momVal, Gc]; split_ifs <;> ring

theorem momVal_normal (hab : b ≠ a) (x : Vec) :
    momVal a b a .e * x.e + momVal a b a .n * x.n + momVal a b a .u * x.u = 2 * π * x.coord b := by
  cases a <;> cases b <;> first | exact absurd rfl hab | simp [momVal, Pt.coord]

theorem momVal_along (hab : b ≠ a) (x : Vec) :
    momVal a b b .e * x.e + momVal a b b .n * x.n + momVal a b b .u * x.u = 2 * π * x.coord a := by
  cases a <;> cases b <;> first | exact absurd rfl hab | simp [momVal, Pt.coord]

theorem momVal_across {c : Axis} (hca : c ≠ a) (hcb : c ≠ b) (x : Vec) :
    momVal a b c .e * x.e + momVal a b c .n * x.n + momVal a b c .u * x.u = 0 := by
  simp [momVal, hca, hcb]

/-- **The moment of a dipole from the field on one plane** (Helbig's integrals).  On a plane above a dipole the first moment along `b` of
the normal component of the field tends to `μ₀ / 2` times the component of the dipole along `b`, that of the component along
`b` to `μ₀ / 2` times the normal component of the dipole, and that of the third component to zero: wherever the dipole is and
about whatever point. -/
theorem C143_dipole (hab : b ≠ a) {q : Pt} (hq : q.coord a < t) (o m : Pt) :
    ∃ B : Axis → ℝ × ℝ → ℝ,
      (∀ i s, Returns (onPair (A := Exact) (dipoleMagnetic i) (Pt.onPlane a t s) q m.e m.n m.u) (B i s)) ∧
      MomentTends a b t o (B a) (1.25663706212e-06 / 2 * m.coord b) ∧
      MomentTends a b t o (B b) (1.25663706212e-06 / 2 * m.coord a) ∧
      ∀ c, c ≠ a → c ≠ b → MomentTends a b t o (B c) 0 := by
  have L : ∀ i, MomentTends a b t o (fun s => Bd i (Pt.onPlane a t s) q m)
      (mu0 / 4 / π * (momVal a b i .e * m.e + momVal a b i .n * m.n + momVal a b i .u * m.u)) := fun i =>
    (mom_point_kern2 (o := o) hab i .e hq).lin3 (mom_point_kern2 hab i .n hq) (mom_point_kern2 hab i .u hq)
    (mu0 / 4 / π) m.e m.n m.u
  have pp := Real.pi_pos
  refine ⟨fun i s => Bd i (Pt.onPlane a t s) q m, fun i s => dipole_fin i (off_plane hq.ne' s) m, ?_, ?_, fun c hca hcb => ?_⟩
  · convert L a using 1
    rw [momVal_normal hab, mu0]; field_simp; ring
  · convert L b using 1
    rw [momVal_along hab, mu0]; field_simp; ring
  · convert L c using 1
    rw [momVal_across hca hcb, mul_zero]

/-- **The total magnetic moment of a body from the field on one plane** (Helbig's integrals).  For any finite family of uniformly
magnetized prisms strictly below the plane, the first moment along `b` of the normal component of the summed field tends to
`μ₀ / 2` times the component along `b` of the total moment (the sum of volume times magnetization), that of the component
along `b` to `μ₀ / 2` times its normal component, and that of the third component to zero. -/
theorem C143_magnetic (hab : b ≠ a) {ι : Type*} (I : Finset ι) {P : ι → Box} (hP : ∀ i ∈ I, (P i).Ordered)
    (ht : ∀ i ∈ I, (P i).hi a < t) (M : ι → Vec) (o : Pt) :
    ∃ B : Axis → ι → ℝ × ℝ → ℝ,
      (∀ k, ∀ i ∈ I, ∀ s, Returns (onPrism (A := Exact) (prismMagnetic k.field) (Pt.onPlane a t s) (P i) (M i).e (M i).n (M i).u) (B k i s)) ∧
      MomentTends a b t o (fun s => ∑ i ∈ I, B a i s) (1.25663706212e-06 / 2 * ∑ i ∈ I, (P i).volume * (M i).coord b) ∧
      MomentTends a b t o (fun s => ∑ i ∈ I, B b i s) (1.25663706212e-06 / 2 * ∑ i ∈ I, (P i).volume * (M i).coord a) ∧
      ∀ c, c ≠ a → c ≠ b → MomentTends a b t o (fun s => ∑ i ∈ I, B c i s) 0 := by
  have pp := Real.pi_pos
  have one : ∀ i ∈ I, ∀ k, MomentTends a b t o (fun s => mu0 / 4 / π * Bc k.field (Pt.onPlane a t s) (P i) (M i).e (M i).n (M i).u)
      ((P i).volume * (mu0 / 4 / π * (momVal a b k .e * (M i).e + momVal a b k .n * (M i).n + momVal a b k .u * (M i).u))) := by
    intro i hi k
    have e : ∀ s, mu0 / 4 / π * Bc k.field (Pt.onPlane a t s) (P i) (M i).e (M i).n (M i).u = mu0 / 4 / π *
        ((∫ q in (P i).region, kpp (kern2 k .e) (Pt.onPlane a t s) q) * (M i).e +
          (∫ q in (P i).region, kpp (kern2 k .n) (Pt.onPlane a t s) q) * (M i).n +
          (∫ q in (P i).region, kpp (kern2 k .u) (Pt.onPlane a t s) q) * (M i).u) := fun s => by
      have x := plane_off_region (P := P i) (.inr (ht i hi)) s
      have k' := fun c => integrableOn_kpp (P := P i) c x
      rw [Bc_field_integral (hP i hi) k x (M i), integral_const_mul, integral_lin3 (k' _) (k' _) (k' _)]
    simp only [e]
    have m := fun j => mom_prism_kern2 (hP i hi) hab k j (ht i hi) o
    have := MomentTends.lin3 (m .e) (m .n) (m .u) (mu0 / 4 / π) (M i).e (M i).n (M i).u
    convert this using 1
    ring
  have ret := fun (k : Axis) (i : ι) (hi : i ∈ I) s => Ex.magnetic_returns (hP i hi) (c := k.field)
    (exterior_edges (hP i hi) (plane_off_region (.inr (ht i hi)) s))
    (fun h' => plane_off_region (P := P i) (.inr (ht i hi)) s (inside_subset_region h')) (M i).e (M i).n (M i).u
  refine ⟨fun k i s => mu0 / 4 / π * Bc k.field (Pt.onPlane a t s) (P i) (M i).e (M i).n (M i).u, ret, ?_, ?_, fun c hca hcb => ?_⟩
  · convert MomentTends.sum I fun i hi => one i hi a using 1
    rw [Finset.mul_sum]
    refine Finset.sum_congr rfl fun i _ => ?_
    rw [momVal_normal hab, mu0]; field_simp; ring
  · convert MomentTends.sum I fun i hi => one i hi b using 1
    rw [Finset.mul_sum]
    refine Finset.sum_congr rfl fun i _ => ?_
    rw [momVal_along hab, mu0]; field_simp; ring
  · convert MomentTends.sum I fun i hi => one i hi c using 1
    simp [momVal_across hca hcb]

/-- non-vacuity: the moments of gravity, over growing discs around the point (5, 0), above the example prism of mass 8 kg centred
under the origin, divided by the total, find its centre. -/
example : ∃ g : Unit → ℝ × ℝ → ℝ,
    (∀ i ∈ Finset.univ, ∀ s, Returns (onPrism (A := Exact) (prismGravity Axis.u.acc) (Pt.onPlane .u 0 s) exBox (1:ℝ)) (g i s)) ∧
    Integrable (fun s => ∑ i, g i s) ∧
    Tendsto (fun R => (5:ℝ) + firstMoment .u .e 0 (5, 0, 0) (fun s => ∑ i, g i s) R / ∫ s, ∑ i, g i s) atTop (𝓝 0) := by
  have := C143_centroid (a := .u) (b := .e) (t := 0) (by decide) (Finset.univ : Finset Unit) (P := fun _ => exBox)
    (fun _ _ => exBox_ordered) (fun _ _ => by norm_num [exBox, Box.hi]) (fun _ => (1:ℝ)) (5, 0, 0)
    (by norm_num [exBox, Box.volume])
  have z : (∑ _i : Unit, (1:ℝ) * exBox.volume * exBox.centre .e) / ∑ _i : Unit, (1:ℝ) * exBox.volume = 0 := by
    norm_num [exBox, Box.centre, Box.lo, Box.hi]
  rw [z] at this
  exact this

/-- non-vacuity: a dipole three metres under the plane -/
example : (Axis.e ≠ Axis.u) ∧ Pt.coord (1, 2, -3) .u < 0 ∧ exBox.hi .u < 1 := by
  refine ⟨by decide, ?_, ?_⟩ <;> norm_num [Pt.coord, Pt.u, exBox, Box.hi]

end Choclo
