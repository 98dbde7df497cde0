import Verif.Spec.Integral
import Verif.Lemmas.Integral3
import Verif.Props.PrismCalc
import Verif.Props.PrismMagCalc
import Verif.Props.Dipole

/-! # C21, C22, C23, C41, C47: prisms are volume integrals of points and dipoles -/

namespace Choclo

open Real Set MeasureTheory Filter Topology

variable {P : Box}

theorem kpp_pot_dist (p q : Pt) : kpp .pot p q = 1 / dist3 p q := by
  simp only [kpp, kp, dist3_eq_rad, pow_one]

theorem kpp_acc_dist (a : Axis) (p q : Pt) : kpp a.acc.toK p q = (q.coord a - p.coord a) / dist3 p q ^ 3 := by
  cases a <;> simp only [kpp, kp, dist3_eq_rad, pow_one, Axis.acc, GComp.toK, Pt.coord] <;> ring

theorem low_isVolumeIntegral (hP : P.Ordered) (c : GComp) (hc : c.letters ≤ 1) (p : Pt) (ρ : ℝ) :
    IsVolumeIntegral (onPrism (A := Exact) (prismGravity c) p P ρ)
      (fun q => onPair (A := Exact) (pointGravity c) p q ρ) P.region p := by
  obtain ⟨h1, h2⟩ := integral_low hP c hc p
  refine ⟨fun q => Gc * ρ * kpp c.toK p q, fun q _ hq => Ex.pointGravity_fin c (Ne.symm hq) ρ,
    h1.const_mul _, ?_⟩
  rw [integral_const_mul, h2]
  refine Ex.gravity_returns hP ?_ ρ
  cases c <;> simp [GComp.letters, GComp.index] at hc <;> simp [Box.singular]

/-! ## C21 -/

/-- The prism potential is the volume integral over the prism of `choclo.point`'s potential, at every
observation point. -/
theorem C21_point_integral (hP : P.Ordered) (p : Pt) (ρ : ℝ) :
    IsVolumeIntegral (onPrism (A := Exact) prism.gravity_pot p P ρ)
      (fun q => onPair (A := Exact) point.gravity_pot p q ρ) P.region p :=
  low_isVolumeIntegral hP .pot (by decide) p ρ

/-- The same with the textbook integrand. -/
theorem C21_newton_integral (hP : P.Ordered) (p : Pt) (ρ : ℝ) :
    IntegrableOn (fun q => 6.6743e-11 * ρ / dist3 p q) P.region ∧
    Returns (onPrism (A := Exact) prism.gravity_pot p P ρ)
      (∫ q in P.region, 6.6743e-11 * ρ / dist3 p q) := by
  obtain ⟨h1, h2⟩ := integral_low hP .pot (by decide) p
  have e : (fun q : Pt => 6.6743e-11 * ρ / dist3 p q) = fun q => Gc * ρ * kpp .pot p q := by
    funext q; rw [kpp_pot_dist, Gc]; ring
  rw [e]
  refine ⟨h1.const_mul _, ?_⟩
  have : ∫ q in P.region, Gc * ρ * kpp .pot p q = Gc * ρ * Vc .pot p P := by
    rw [integral_const_mul]; exact congrArg _ h2
  rw [this]
  exact Ex.gravity_pot_eval p P ρ

/-! ## C22 -/

/-- Each acceleration component is the volume integral of `choclo.point`'s, at every observation
point. -/
theorem C22_point_integral (hP : P.Ordered) (a : Axis) (p : Pt) (ρ : ℝ) :
    IsVolumeIntegral (onPrism (A := Exact) (prismGravity a.acc) p P ρ)
      (fun q => onPair (A := Exact) (pointGravity a.acc) p q ρ) P.region p :=
  low_isVolumeIntegral hP a.acc (by cases a <;> decide) p ρ

/-- The same with the textbook integrand: attraction towards every mass element. -/
theorem C22_newton_integral (hP : P.Ordered) (a : Axis) (p : Pt) (ρ : ℝ) :
    IntegrableOn (fun q => 6.6743e-11 * ρ * (q.coord a - p.coord a) / dist3 p q ^ 3) P.region ∧
    Returns (onPrism (A := Exact) (prismGravity a.acc) p P ρ)
      (∫ q in P.region, 6.6743e-11 * ρ * (q.coord a - p.coord a) / dist3 p q ^ 3) := by
  obtain ⟨h1, h2⟩ := integral_low hP a.acc (by cases a <;> decide) p
  have e : (fun q : Pt => 6.6743e-11 * ρ * (q.coord a - p.coord a) / dist3 p q ^ 3) =
      fun q => Gc * ρ * kpp a.acc.toK p q := by
    funext q; rw [kpp_acc_dist, Gc]; ring
  rw [e]
  refine ⟨h1.const_mul _, ?_⟩
  rw [integral_const_mul, h2]
  exact acc_returns a p P ρ

/-- the hypotheses are met by a vertex, an edge point and an interior point of the example prism -/
example : exBox.Ordered ∧ ((1, 1, 0) : Pt) ∈ exBox.region ∧ ((0, 0, -1) : Pt) ∈ exBox.region := by
  refine ⟨exBox_ordered, ?_, ?_⟩ <;> norm_num [exBox, Box.region]

/-! ## C23 -/

theorem tensor_toK (a b : Axis) : (tensor a b).toK = kern2 b a := by cases a <;> cases b <;> rfl
theorem acc_toK (a : Axis) : a.acc.toK = kern1 a := by cases a <;> rfl

theorem Vc_tensor_integral (hP : P.Ordered) (a b : Axis) {p : Pt} (h : p ∉ P.region) :
    Vc (tensor a b) p P = ∫ q in P.region, kpp (tensor a b).toK p q := by
  have d1 : HasDerivAt (fun t => Vc a.acc (p.set b t) P) (Vc (tensor a b) p P) (p.coord b) := by
    by_cases hab : a = b
    · subst hab
      exact hasDerivAt_Vacc_diag a hP (fun h' => h h'.1)
    · exact hasDerivAt_Vacc_off hab hP (exterior_singular hP h _)
  have d2 : HasDerivAt (fun t => ∫ q in P.region, kpp (kern1 a) (p.set b t) q)
      (∫ q in P.region, kpp (kern2 b a) p q) (p.coord b) := hasDerivAt_integral_kpp (kern_succ a b) h
  have e : (fun t => Vc a.acc (p.set b t) P) = fun t => ∫ q in P.region, kpp (kern1 a) (p.set b t) q := by
    funext t
    rw [← acc_toK]
    exact (integral_low hP a.acc (by cases a <;> decide) _).2.symm
  rw [e] at d1
  rw [tensor_toK]
  exact d1.unique d2

/-- Outside the closed prism each tensor component is the volume integral of `choclo.point`'s. -/
theorem C23_point_integral (hP : P.Ordered) (a b : Axis) (p : Pt) (h : p ∉ P.region) (ρ : ℝ) :
    IsVolumeIntegral (onPrism (A := Exact) (prismGravity (tensor a b)) p P ρ)
      (fun q => onPair (A := Exact) (pointGravity (tensor a b)) p q ρ) P.region p := by
  refine ⟨fun q => Gc * ρ * kpp (tensor a b).toK p q,
    fun q _ hq => Ex.pointGravity_fin _ (Ne.symm hq) ρ, (integrableOn_kpp _ h).const_mul _, ?_⟩
  rw [integral_const_mul, ← Vc_tensor_integral hP a b h]
  exact Ex.gravity_returns hP (exterior_singular hP h _) ρ

/-- exterior points in the plane of a face and on the line of an edge -/
example : ((1, 0, 3) : Pt) ∉ exBox.region ∧ ((1, 1, 3) : Pt) ∉ exBox.region := by
  norm_num [exBox, Box.region]

/-! ## C41 -/

theorem integral_lin3 {f g k : Pt → ℝ} {S : Set Pt} (hf : IntegrableOn f S) (hg : IntegrableOn g S)
    (hk : IntegrableOn k S) (x y z : ℝ) :
    ∫ q in S, (f q * x + g q * y + k q * z) =
      (∫ q in S, f q) * x + (∫ q in S, g q) * y + (∫ q in S, k q) * z := by
  have h1 : ∫ q in S, (f q * x + g q * y + k q * z) =
      (∫ q in S, (f q * x + g q * y)) + ∫ q in S, k q * z :=
    integral_add ((hf.mul_const x).add (hg.mul_const y)) (hk.mul_const z)
  have h2 : ∫ q in S, (f q * x + g q * y) = (∫ q in S, f q * x) + ∫ q in S, g q * y :=
    integral_add (hf.mul_const x) (hg.mul_const y)
  rw [h1, h2, integral_mul_const, integral_mul_const, integral_mul_const]

theorem Bc_field_integral (hP : P.Ordered) (a : Axis) {p : Pt} (h : p ∉ P.region) (M : Vec) :
    mu0 / 4 / π * Bc a.field p P M.e M.n M.u = ∫ q in P.region, mu0 / 4 / π *
      (kpp (kern2 a .e) p q * M.e + kpp (kern2 a .n) p q * M.n + kpp (kern2 a .u) p q * M.u) := by
  have i := fun c => integrableOn_kpp (P := P) c h
  have t : ∀ b, Vc (tensor a b) p P = ∫ q in P.region, kpp (kern2 a b) p q := fun b => by
    rw [Vc_tensor_integral hP a b h, tensor_toK]
    congr 1; funext q; congr 1; cases a <;> cases b <;> rfl
  rw [integral_const_mul, integral_lin3 (i _) (i _) (i _), ← t, ← t, ← t]
  rw [Bc_field]; ring

/-- Outside the closed prism each component of the magnetic field is the volume integral of
`choclo.dipole`'s, the moment of a volume element being the magnetization times its volume. -/
theorem C41_dipole_integral (hP : P.Ordered) (a : Axis) (p : Pt) (h : p ∉ P.region) (M : Vec) :
    IsVolumeIntegral (onPrism (A := Exact) (prismMagnetic a.field) p P M.e M.n M.u)
      (fun q => onPair (A := Exact) (dipoleMagnetic a) p q M.e M.n M.u) P.region p := by
  have i := fun c => integrableOn_kpp (P := P) c h
  refine ⟨fun q => mu0 / 4 / π *
      (kpp (kern2 a .e) p q * M.e + kpp (kern2 a .n) p q * M.n + kpp (kern2 a .u) p q * M.u),
    fun q _ hq => dipole_fin a (Ne.symm hq) M,
    ((((i _).mul_const _).add ((i _).mul_const _)).add ((i _).mul_const _)).const_mul _, ?_⟩
  rw [← Bc_field_integral hP a h M]
  exact Ex.magnetic_returns hP (exterior_edges hP h) (fun h' => h (inside_subset_region h')) _ _ _

/-! ## C47 -/

theorem Bc_grad_integral (hP : P.Ordered) (a b : Axis) {p : Pt} (h : p ∉ P.region) (M : Vec) :
    Bc (gradComp a b) p P M.e M.n M.u = ∫ q in P.region,
      (kpp (kern3 a b .e) p q * M.e + kpp (kern3 a b .n) p q * M.n + kpp (kern3 a b .u) p q * M.u) := by
  have i := fun c => integrableOn_kpp (P := P) c h
  have d := hasDerivAt_Bfield a b hP h M
  have s := fun c => hasDerivAt_integral_kpp (P := P) (kern2_succ a b c) h
  have d2 := (((s .e).mul_const M.e).add ((s .n).mul_const M.n)).add ((s .u).mul_const M.u)
  rw [integral_lin3 (i _) (i _) (i _)]
  refine d.unique (d2.congr_of_eventuallyEq ?_)
  filter_upwards [eventually_exterior b h] with t ht
  have hmu : mu0 / 4 / π ≠ 0 := by have := mu0_pos; have := Real.pi_pos; positivity
  have j := fun c => integrableOn_kpp (P := P) c ht
  have e := Bc_field_integral hP a ht M
  rw [integral_const_mul, integral_lin3 (j _) (j _) (j _)] at e
  exact mul_left_cancel₀ hmu e

/-- Outside the closed prism each magnetic gradient component is `mu0 / 4 pi` times the volume
integral of `choclo.point`'s third-order kernels contracted with the magnetization. -/
theorem C47_kernel_integral (hP : P.Ordered) (a b : Axis) (p : Pt) (h : p ∉ P.region) (M : Vec) :
    ∃ k : Axis → Pt → ℝ,
      (∀ i, ∀ q ∈ P.region, Returns (callKernel (A := Exact) (kern3 a b i) p q) (k i q)) ∧
      (∀ i, IntegrableOn (k i) P.region) ∧
      Returns (onPrism (A := Exact) (prismMagnetic (gradComp a b)) p P M.e M.n M.u)
        (1.25663706212e-06 / (4 * π) *
          ∫ q in P.region, (k .e q * M.e + k .n q * M.n + k .u q * M.u)) := by
  refine ⟨fun i q => kpp (kern3 a b i) p q, fun i q hq => ?_, fun i => integrableOn_kpp _ h, ?_⟩
  · exact Ex.callKernel_fin _ (fun h' => h (h' ▸ hq))
  · rw [← Bc_grad_integral hP a b h M]
    have := Ex.magnetic_returns hP (c := gradComp a b) (exterior_edges hP h)
      (fun h' => h (inside_subset_region h')) M.e M.n M.u
    have e : mu0 / 4 / π = 1.25663706212e-06 / (4 * π) := by rw [mu0, div_div]
    rwa [← e]

end Choclo
