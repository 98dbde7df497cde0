import Verif.Lemmas.PrismEval
import Verif.Spec.Point
import Mathlib.Analysis.SpecialFunctions.Sqrt
import Mathlib.Analysis.Calculus.Deriv.Add
import Mathlib.Analysis.Calculus.Deriv.Mul
import Mathlib.Analysis.Calculus.Deriv.Inv
import Mathlib.Analysis.Calculus.Deriv.Pow

/-! # Evaluation and derivatives of the point kernels in exact arithmetic -/

namespace Choclo

open Real

/-- real-valued point kernels as functions of the offset `p - q` -/
noncomputable def kp (c : KComp) (x y z : ℝ) : ℝ :=
  match c with
  | .pot => (1) / rad x y z ^ 1
  | .e => (-1)*x^1 / rad x y z ^ 3
  | .n => (-1)*y^1 / rad x y z ^ 3
  | .u => (-1)*z^1 / rad x y z ^ 3
  | .ee => (3)*x^2 / rad x y z ^ 5 + (-1) / rad x y z ^ 3
  | .nn => (3)*y^2 / rad x y z ^ 5 + (-1) / rad x y z ^ 3
  | .uu => (3)*z^2 / rad x y z ^ 5 + (-1) / rad x y z ^ 3
  | .en => (3)*x^1*y^1 / rad x y z ^ 5
  | .eu => (3)*x^1*z^1 / rad x y z ^ 5
  | .nu => (3)*y^1*z^1 / rad x y z ^ 5
  | .eee => (9)*x^1 / rad x y z ^ 5 + (-15)*x^3 / rad x y z ^ 7
  | .nnn => (9)*y^1 / rad x y z ^ 5 + (-15)*y^3 / rad x y z ^ 7
  | .uuu => (9)*z^1 / rad x y z ^ 5 + (-15)*z^3 / rad x y z ^ 7
  | .een => (3)*y^1 / rad x y z ^ 5 + (-15)*x^2*y^1 / rad x y z ^ 7
  | .eeu => (3)*z^1 / rad x y z ^ 5 + (-15)*x^2*z^1 / rad x y z ^ 7
  | .nne => (3)*x^1 / rad x y z ^ 5 + (-15)*x^1*y^2 / rad x y z ^ 7
  | .nnu => (3)*z^1 / rad x y z ^ 5 + (-15)*y^2*z^1 / rad x y z ^ 7
  | .uue => (3)*x^1 / rad x y z ^ 5 + (-15)*x^1*z^2 / rad x y z ^ 7
  | .uun => (3)*y^1 / rad x y z ^ 5 + (-15)*y^1*z^2 / rad x y z ^ 7
  | .enu => (-15)*x^1*y^1*z^1 / rad x y z ^ 7

theorem dist3_eq_rad (p q : Pt) : dist3 p q = rad (p.e - q.e) (p.n - q.n) (p.u - q.u) := rfl

theorem dist3_eq_zero {p q : Pt} : dist3 p q = 0 ↔ p = q := by
  rw [dist3_eq_rad, rad_eq_zero, sub_eq_zero, sub_eq_zero, sub_eq_zero]
  constructor
  · rintro ⟨h1, h2, h3⟩
    exact Prod.ext h1 (Prod.ext h2 h3)
  · rintro rfl; exact ⟨rfl, rfl, rfl⟩

namespace Ex

theorem distance_cartesian_fin (p q : Pt) :
    onPair (A := Exact) utils.distance_cartesian p q = .ok (xf (dist3 p q)) := by
  unfold onPair utils.distance_cartesian dist3
  simp only [sub_fin, pow_fin, add_fin]
  rw [sqrt_fin _ (by positivity)]
  rfl

theorem pointKernel_fin (c : KComp) {p q : Pt} (h : p ≠ q) :
    onPair (A := Exact) (pointKernel c) p q (xf (dist3 p q)) =
      .ok (xf (kp c (p.e - q.e) (p.n - q.n) (p.u - q.u))) := by
  have hd : dist3 p q ≠ 0 := fun h' => h (dist3_eq_zero.mp h')
  unfold onPair
  rw [dist3_eq_rad] at hd ⊢
  cases c <;>
  simp only [pointKernel, point.kernel_pot, point.kernel_e, point.kernel_n, point.kernel_u,
    point.kernel_ee, point.kernel_nn, point.kernel_uu, point.kernel_en, point.kernel_eu,
    point.kernel_nu, point.kernel_eee, point.kernel_nnn, point.kernel_uuu, point.kernel_een,
    point.kernel_eeu, point.kernel_nne, point.kernel_nnu, point.kernel_uue, point.kernel_uun,
    point.kernel_enu, sub_fin, neg_fin, pow_fin, ofNat_fin, one_fin, mul_fin,
    div_fin hd, div_fin (pow_ne_zero _ hd), ok_bind, pure_ok, kp] <;>
  congr 2 <;> ring

theorem pointKernel_raises (c : KComp) (p : Pt) :
    onPair (A := Exact) (pointKernel c) p p (xf 0) = .error .zeroDivision := by
  unfold onPair
  cases c <;>
  simp [pointKernel, point.kernel_pot, point.kernel_e, point.kernel_n, point.kernel_u,
    point.kernel_ee, point.kernel_nn, point.kernel_uu, point.kernel_en, point.kernel_eu,
    point.kernel_nu, point.kernel_eee, point.kernel_nnn, point.kernel_uuu, point.kernel_een,
    point.kernel_eeu, point.kernel_nne, point.kernel_nnu, point.kernel_uue, point.kernel_uun,
    point.kernel_enu, div_fin_zero]

theorem callKernel_fin (c : KComp) {p q : Pt} (h : p ≠ q) :
    callKernel (A := Exact) c p q = .ok (xf (kp c (p.e - q.e) (p.n - q.n) (p.u - q.u))) := by
  unfold callKernel
  rw [distance_cartesian_fin, ok_bind, pointKernel_fin c h]

end Ex

/-- the point kernel behind a gravity component -/
def GComp.toK : GComp → KComp
  | .pot => .pot | .e => .e | .n => .n | .u => .u | .ee => .ee | .nn => .nn | .uu => .uu
  | .en => .en | .eu => .eu | .nu => .nu

namespace Ex

theorem pointGravity_eq {A : Arith} (c : GComp) (p q : Pt) (m : Fl A) :
    onPair (A := A) (pointGravity c) p q m = (do
      let distance ← onPair (A := A) utils.distance_cartesian p q
      let kernel ← onPair (pointKernel c.toK) p q distance
      return GRAVITATIONAL_CONST * m * kernel) := by
  cases c <;> rfl

theorem pointGravity_fin (c : GComp) {p q : Pt} (h : p ≠ q) (m : ℝ) :
    onPair (A := Exact) (pointGravity c) p q m =
      .ok (xf (Gc * m * kp c.toK (p.e - q.e) (p.n - q.n) (p.u - q.u))) := by
  rw [pointGravity_eq, distance_cartesian_fin, ok_bind, pointKernel_fin _ h, ok_bind, G_fin]
  rfl

theorem pointGravity_raises (c : GComp) (p : Pt) (m : ℝ) :
    onPair (A := Exact) (pointGravity c) p p m = .error .zeroDivision := by
  rw [pointGravity_eq, distance_cartesian_fin, ok_bind, dist3_eq_zero.mpr rfl, pointKernel_raises]
  rfl

end Ex

/-- derivative of the radius along the first coordinate -/
theorem hasDerivAt_rad1 {x y z : ℝ} (h : rad x y z ≠ 0) :
    HasDerivAt (fun t => rad t y z) (x / rad x y z) x := by
  unfold rad at h ⊢
  have h0 : x ^ 2 + y ^ 2 + z ^ 2 ≠ 0 := fun h' => h (by rw [h', Real.sqrt_zero])
  have h1 : HasDerivAt (fun t : ℝ => t ^ 2 + y ^ 2 + z ^ 2) (2 * x) x := by
    have := (((hasDerivAt_id x).pow 2).add_const (y ^ 2)).add_const (z ^ 2)
    simpa using this
  have h2 := h1.sqrt h0
  convert h2 using 1
  field_simp

theorem hasDerivAt_rad2 {x y z : ℝ} (h : rad x y z ≠ 0) :
    HasDerivAt (fun t => rad x t z) (y / rad x y z) y := by
  have := hasDerivAt_rad1 (x := y) (y := x) (z := z) (by rwa [rad_perm1])
  simpa only [rad_perm1] using this

theorem hasDerivAt_rad3 {x y z : ℝ} (h : rad x y z ≠ 0) :
    HasDerivAt (fun t => rad x y t) (z / rad x y z) z := by
  have := hasDerivAt_rad1 (x := z) (y := x) (z := y) (by rwa [rad_perm4])
  simpa only [rad_perm4] using this

/-- derivative of two monomials over powers of the radius -/
theorem hasDerivAt_terms {r : ℝ → ℝ} {x : ℝ} (h : r x ≠ 0) (hr : HasDerivAt r (x / r x) x)
    (a b : ℝ) (i j m n : ℕ) :
    HasDerivAt (fun t => a * t ^ i / r t ^ m + b * t ^ j / r t ^ n)
      (a * (i * x ^ (i - 1)) / r x ^ m - m * a * x ^ (i + 1) / r x ^ (m + 2)
        + (b * (j * x ^ (j - 1)) / r x ^ n - n * b * x ^ (j + 1) / r x ^ (n + 2))) x := by
  have key : ∀ (a : ℝ) (i m : ℕ), HasDerivAt (fun t => a * t ^ i / r t ^ m)
      (a * (i * x ^ (i - 1)) / r x ^ m - m * a * x ^ (i + 1) / r x ^ (m + 2)) x := by
    intro a i m
    have h1 : HasDerivAt (fun t : ℝ => a * t ^ i) (a * (i * x ^ (i - 1))) x :=
      (hasDerivAt_pow i x).const_mul a
    have h2 : HasDerivAt (fun t => r t ^ m) (m * r x ^ (m - 1) * (x / r x)) x := hr.pow m
    have h3 := h1.div h2 (pow_ne_zero m h)
    refine h3.congr_deriv ?_
    rcases m with _ | m
    · simp
    · simp only [Nat.add_sub_cancel]
      field_simp
      ring
  exact (key a i m).add (key b j n)

/-- the derivative of one kernel along the first coordinate -/
def KComp.Succ (c c' : KComp) (a : Axis) : Prop :=
  c'.index = (c.index.1 + a.index.1, c.index.2.1 + a.index.2.1, c.index.2.2 + a.index.2.2)

theorem kp_deriv_e {c c' : KComp} (hc : c.Succ c' .e) {x y z : ℝ} (h : rad x y z ≠ 0) :
    HasDerivAt (fun t => kp c t y z) (kp c' x y z) x := by
  have hr := hasDerivAt_rad1 h
  cases c <;> cases c' <;> simp only [KComp.Succ, KComp.index, Axis.index, Prod.mk.injEq] at hc <;>
    (try (exfalso; omega))
  · have := hasDerivAt_terms (r := fun t => rad t y z) h hr ((1)) ((0)) 0 0 1 0
    refine (this.congr_deriv ?_).congr_of_eventuallyEq (Filter.Eventually.of_forall fun t => ?_)
    · simp only [kp]; norm_num; try field_simp
      try ring
    · simp only [kp]; ring
  · have := hasDerivAt_terms (r := fun t => rad t y z) h hr ((-1)) ((0)) 1 0 3 0
    refine (this.congr_deriv ?_).congr_of_eventuallyEq (Filter.Eventually.of_forall fun t => ?_)
    · simp only [kp]; norm_num; try field_simp
      try ring
    · simp only [kp]; ring
  · have := hasDerivAt_terms (r := fun t => rad t y z) h hr ((-1)*y^1) ((0)) 0 0 3 0
    refine (this.congr_deriv ?_).congr_of_eventuallyEq (Filter.Eventually.of_forall fun t => ?_)
    · simp only [kp]; norm_num; try field_simp
      try ring
    · simp only [kp]; ring
  · have := hasDerivAt_terms (r := fun t => rad t y z) h hr ((-1)*z^1) ((0)) 0 0 3 0
    refine (this.congr_deriv ?_).congr_of_eventuallyEq (Filter.Eventually.of_forall fun t => ?_)
    · simp only [kp]; norm_num; try field_simp
      try ring
    · simp only [kp]; ring
  · have := hasDerivAt_terms (r := fun t => rad t y z) h hr ((3)) ((-1)) 2 0 5 3
    refine (this.congr_deriv ?_).congr_of_eventuallyEq (Filter.Eventually.of_forall fun t => ?_)
    · simp only [kp]; norm_num; try field_simp
      try ring
    · simp only [kp]; ring
  · have := hasDerivAt_terms (r := fun t => rad t y z) h hr ((3)*y^2) ((-1)) 0 0 5 3
    refine (this.congr_deriv ?_).congr_of_eventuallyEq (Filter.Eventually.of_forall fun t => ?_)
    · simp only [kp]; norm_num; try field_simp
      try ring
    · simp only [kp]; ring
  · have := hasDerivAt_terms (r := fun t => rad t y z) h hr ((3)*z^2) ((-1)) 0 0 5 3
    refine (this.congr_deriv ?_).congr_of_eventuallyEq (Filter.Eventually.of_forall fun t => ?_)
    · simp only [kp]; norm_num; try field_simp
      try ring
    · simp only [kp]; ring
  · have := hasDerivAt_terms (r := fun t => rad t y z) h hr ((3)*y^1) ((0)) 1 0 5 0
    refine (this.congr_deriv ?_).congr_of_eventuallyEq (Filter.Eventually.of_forall fun t => ?_)
    · simp only [kp]; norm_num; try field_simp
      try ring
    · simp only [kp]; ring
  · have := hasDerivAt_terms (r := fun t => rad t y z) h hr ((3)*z^1) ((0)) 1 0 5 0
    refine (this.congr_deriv ?_).congr_of_eventuallyEq (Filter.Eventually.of_forall fun t => ?_)
    · simp only [kp]; norm_num; try field_simp
      try ring
    · simp only [kp]; ring
  · have := hasDerivAt_terms (r := fun t => rad t y z) h hr ((3)*y^1*z^1) ((0)) 0 0 5 0
    refine (this.congr_deriv ?_).congr_of_eventuallyEq (Filter.Eventually.of_forall fun t => ?_)
    · simp only [kp]; norm_num; try field_simp
      try ring
    · simp only [kp]; ring

theorem kp_deriv_n {c c' : KComp} (hc : c.Succ c' .n) {x y z : ℝ} (h : rad x y z ≠ 0) :
    HasDerivAt (fun t => kp c x t z) (kp c' x y z) y := by
  have hr := hasDerivAt_rad2 h
  cases c <;> cases c' <;> simp only [KComp.Succ, KComp.index, Axis.index, Prod.mk.injEq] at hc <;>
    (try (exfalso; omega))
  · have := hasDerivAt_terms (r := fun t => rad x t z) h hr ((1)) ((0)) 0 0 1 0
    refine (this.congr_deriv ?_).congr_of_eventuallyEq (Filter.Eventually.of_forall fun t => ?_)
    · simp only [kp]; norm_num; try field_simp
      try ring
    · simp only [kp]; ring
  · have := hasDerivAt_terms (r := fun t => rad x t z) h hr ((-1)*x^1) ((0)) 0 0 3 0
    refine (this.congr_deriv ?_).congr_of_eventuallyEq (Filter.Eventually.of_forall fun t => ?_)
    · simp only [kp]; norm_num; try field_simp
      try ring
    · simp only [kp]; ring
  · have := hasDerivAt_terms (r := fun t => rad x t z) h hr ((-1)) ((0)) 1 0 3 0
    refine (this.congr_deriv ?_).congr_of_eventuallyEq (Filter.Eventually.of_forall fun t => ?_)
    · simp only [kp]; norm_num; try field_simp
      try ring
    · simp only [kp]; ring
  · have := hasDerivAt_terms (r := fun t => rad x t z) h hr ((-1)*z^1) ((0)) 0 0 3 0
    refine (this.congr_deriv ?_).congr_of_eventuallyEq (Filter.Eventually.of_forall fun t => ?_)
    · simp only [kp]; norm_num; try field_simp
      try ring
    · simp only [kp]; ring
  · have := hasDerivAt_terms (r := fun t => rad x t z) h hr ((3)*x^2) ((-1)) 0 0 5 3
    refine (this.congr_deriv ?_).congr_of_eventuallyEq (Filter.Eventually.of_forall fun t => ?_)
    · simp only [kp]; norm_num; try field_simp
      try ring
    · simp only [kp]; ring
  · have := hasDerivAt_terms (r := fun t => rad x t z) h hr ((3)) ((-1)) 2 0 5 3
    refine (this.congr_deriv ?_).congr_of_eventuallyEq (Filter.Eventually.of_forall fun t => ?_)
    · simp only [kp]; norm_num; try field_simp
      try ring
    · simp only [kp]; ring
  · have := hasDerivAt_terms (r := fun t => rad x t z) h hr ((3)*z^2) ((-1)) 0 0 5 3
    refine (this.congr_deriv ?_).congr_of_eventuallyEq (Filter.Eventually.of_forall fun t => ?_)
    · simp only [kp]; norm_num; try field_simp
      try ring
    · simp only [kp]; ring
  · have := hasDerivAt_terms (r := fun t => rad x t z) h hr ((3)*x^1) ((0)) 1 0 5 0
    refine (this.congr_deriv ?_).congr_of_eventuallyEq (Filter.Eventually.of_forall fun t => ?_)
    · simp only [kp]; norm_num; try field_simp
      try ring
    · simp only [kp]; ring
  · have := hasDerivAt_terms (r := fun t => rad x t z) h hr ((3)*x^1*z^1) ((0)) 0 0 5 0
    refine (this.congr_deriv ?_).congr_of_eventuallyEq (Filter.Eventually.of_forall fun t => ?_)
    · simp only [kp]; norm_num; try field_simp
      try ring
    · simp only [kp]; ring
  · have := hasDerivAt_terms (r := fun t => rad x t z) h hr ((3)*z^1) ((0)) 1 0 5 0
    refine (this.congr_deriv ?_).congr_of_eventuallyEq (Filter.Eventually.of_forall fun t => ?_)
    · simp only [kp]; norm_num; try field_simp
      try ring
    · simp only [kp]; ring

theorem kp_deriv_u {c c' : KComp} (hc : c.Succ c' .u) {x y z : ℝ} (h : rad x y z ≠ 0) :
    HasDerivAt (fun t => kp c x y t) (kp c' x y z) z := by
  have hr := hasDerivAt_rad3 h
  cases c <;> cases c' <;> simp only [KComp.Succ, KComp.index, Axis.index, Prod.mk.injEq] at hc <;>
    (try (exfalso; omega))
  · have := hasDerivAt_terms (r := fun t => rad x y t) h hr ((1)) ((0)) 0 0 1 0
    refine (this.congr_deriv ?_).congr_of_eventuallyEq (Filter.Eventually.of_forall fun t => ?_)
    · simp only [kp]; norm_num; try field_simp
      try ring
    · simp only [kp]; ring
  · have := hasDerivAt_terms (r := fun t => rad x y t) h hr ((-1)*x^1) ((0)) 0 0 3 0
    refine (this.congr_deriv ?_).congr_of_eventuallyEq (Filter.Eventually.of_forall fun t => ?_)
    · simp only [kp]; norm_num; try field_simp
      try ring
    · simp only [kp]; ring
  · have := hasDerivAt_terms (r := fun t => rad x y t) h hr ((-1)*y^1) ((0)) 0 0 3 0
    refine (this.congr_deriv ?_).congr_of_eventuallyEq (Filter.Eventually.of_forall fun t => ?_)
    · simp only [kp]; norm_num; try field_simp
      try ring
    · simp only [kp]; ring
  · have := hasDerivAt_terms (r := fun t => rad x y t) h hr ((-1)) ((0)) 1 0 3 0
    refine (this.congr_deriv ?_).congr_of_eventuallyEq (Filter.Eventually.of_forall fun t => ?_)
    · simp only [kp]; norm_num; try field_simp
      try ring
    · simp only [kp]; ring
  · have := hasDerivAt_terms (r := fun t => rad x y t) h hr ((3)*x^2) ((-1)) 0 0 5 3
    refine (this.congr_deriv ?_).congr_of_eventuallyEq (Filter.Eventually.of_forall fun t => ?_)
    · simp only [kp]; norm_num; try field_simp
      try ring
    · simp only [kp]; ring
  · have := hasDerivAt_terms (r := fun t => rad x y t) h hr ((3)*y^2) ((-1)) 0 0 5 3
    refine (this.congr_deriv ?_).congr_of_eventuallyEq (Filter.Eventually.of_forall fun t => ?_)
    · simp only [kp]; norm_num; try field_simp
      try ring
    · simp only [kp]; ring
  · have := hasDerivAt_terms (r := fun t => rad x y t) h hr ((3)) ((-1)) 2 0 5 3
    refine (this.congr_deriv ?_).congr_of_eventuallyEq (Filter.Eventually.of_forall fun t => ?_)
    · simp only [kp]; norm_num; try field_simp
      try ring
    · simp only [kp]; ring
  · have := hasDerivAt_terms (r := fun t => rad x y t) h hr ((3)*x^1*y^1) ((0)) 0 0 5 0
    refine (this.congr_deriv ?_).congr_of_eventuallyEq (Filter.Eventually.of_forall fun t => ?_)
    · simp only [kp]; norm_num; try field_simp
      try ring
    · simp only [kp]; ring
  · have := hasDerivAt_terms (r := fun t => rad x y t) h hr ((3)*x^1) ((0)) 1 0 5 0
    refine (this.congr_deriv ?_).congr_of_eventuallyEq (Filter.Eventually.of_forall fun t => ?_)
    · simp only [kp]; norm_num; try field_simp
      try ring
    · simp only [kp]; ring
  · have := hasDerivAt_terms (r := fun t => rad x y t) h hr ((3)*y^1) ((0)) 1 0 5 0
    refine (this.congr_deriv ?_).congr_of_eventuallyEq (Filter.Eventually.of_forall fun t => ?_)
    · simp only [kp]; norm_num; try field_simp
      try ring
    · simp only [kp]; ring

end Choclo
