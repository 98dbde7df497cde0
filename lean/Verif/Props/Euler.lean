import Verif.Props.Dipole
import Verif.Spec.PrismSym
import Mathlib.LinearAlgebra.Matrix.Determinant.Basic
import Mathlib.LinearAlgebra.Matrix.Notation

/-! # C96: Euler's relation, invariants of the tensor, and the source from the data -/

namespace Choclo

open Real

theorem kp_euler1 {x y z : ℝ} (h : rad x y z ≠ 0) :
    x * kp .e x y z + y * kp .n x y z + z * kp .u x y z = -kp .pot x y z := by
  have h2 := rad_sq x y z
  simp only [kp]
  generalize rad x y z = r at *
  field_simp
  grind

theorem kp_euler2 {x y z : ℝ} (h : rad x y z ≠ 0) (a : Axis) :
    x * kp (kern2 a .e) x y z + y * kp (kern2 a .n) x y z + z * kp (kern2 a .u) x y z = -2 * kp (kern1 a) x y z := by
  have h2 := rad_sq x y z
  cases a <;> simp only [kp, kern2, kern1] <;>
  generalize rad x y z = r at * <;>
  field_simp <;>
  grind

theorem kp_euler3 {x y z : ℝ} (h : rad x y z ≠ 0) (a b : Axis) :
    x * kp (kern3 a b .e) x y z + y * kp (kern3 a b .n) x y z + z * kp (kern3 a b .u) x y z
      = -3 * kp (kern2 a b) x y z := by
  have h2 := rad_sq x y z
  cases a <;> cases b <;> simp only [kp, kern2, kern3] <;>
  generalize rad x y z = r at * <;>
  field_simp <;>
  grind

theorem kp_frobenius {x y z : ℝ} (h : rad x y z ≠ 0) :
    kp .ee x y z ^ 2 + kp .nn x y z ^ 2 + kp .uu x y z ^ 2 + 2 * (kp .en x y z ^ 2 + kp .eu x y z ^ 2 + kp .nu x y z ^ 2)
      = 6 / rad x y z ^ 6 := by
  have h2 := rad_sq x y z
  simp only [kp]
  generalize rad x y z = r at *
  field_simp
  have hz : z ^ 2 = r ^ 2 - x ^ 2 - y ^ 2 := by linarith
  grind

theorem kp_det {x y z : ℝ} (h : rad x y z ≠ 0) :
    kp .ee x y z * (kp .nn x y z * kp .uu x y z - kp .nu x y z ^ 2)
      - kp .en x y z * (kp .en x y z * kp .uu x y z - kp .nu x y z * kp .eu x y z)
      + kp .eu x y z * (kp .en x y z * kp .nu x y z - kp .nn x y z * kp .eu x y z)
      = 2 / rad x y z ^ 9 := by
  have h2 := rad_sq x y z
  simp only [kp]
  generalize rad x y z = r at *
  have hz : z ^ 2 = r ^ 2 - x ^ 2 - y ^ 2 := by linarith
  field_simp
  grind

theorem kp_norm1 {x y z : ℝ} (h : rad x y z ≠ 0) :
    kp .e x y z ^ 2 + kp .n x y z ^ 2 + kp .u x y z ^ 2 = kp .pot x y z ^ 4 := by
  have h2 := rad_sq x y z
  simp only [kp]
  generalize rad x y z = r at *
  field_simp
  grind

/-- The scalar product of a direction with the offset of two points. -/
def along (p q : Pt) (f : Axis → ℝ) : ℝ := (p.e - q.e) * f .e + (p.n - q.n) * f .n + (p.u - q.u) * f .u

/-- **C96.** Euler's relation for a point mass (structural indices 1 and 2): the returned acceleration
times the offset from the source is minus the potential, the returned tensor times the offset is minus
twice the acceleration. -/
theorem C96_euler_gravity (p q : Pt) (h : p ≠ q) (m : ℝ) :
    ∃ (V : ℝ) (g : Axis → ℝ) (T : Axis → Axis → ℝ),
      Returns (onPair (A := Exact) point.gravity_pot p q m) V ∧
      (∀ a, Returns (onPair (A := Exact) (pointGravity a.acc) p q m) (g a)) ∧
      (∀ a b, Returns (onPair (A := Exact) (pointGravity (tensor a b)) p q m) (T a b)) ∧
      along p q g = -V ∧ ∀ a, along p q (T a) = -2 * g a := by
  have hr := rad_ne h
  refine ⟨_, fun a => _, fun a b => _, Ex.pointGravity_fin .pot h m, fun a => Ex.pointGravity_fin a.acc h m,
    fun a b => Ex.pointGravity_fin (tensor a b) h m, ?_, fun a => ?_⟩
  · have := kp_euler1 hr
    simp only [along, Axis.acc, GComp.toK]
    linear_combination Gc * m * this
  · have := kp_euler2 hr a
    cases a <;> simp only [along, tensor, Axis.acc, GComp.toK, kern2, kern1] at this ⊢ <;>
      linear_combination Gc * m * this

/-- **C96.** Euler's relation for the third-order kernels (index 3). -/
theorem C96_euler_kernels (p q : Pt) (h : p ≠ q) :
    ∃ (k : Axis → Axis → ℝ) (K : Axis → Axis → Axis → ℝ),
      (∀ a b, Returns (callKernel (A := Exact) (kern2 a b) p q) (k a b)) ∧
      (∀ a b c, Returns (callKernel (A := Exact) (kern3 a b c) p q) (K a b c)) ∧
      ∀ a b, along p q (K a b) = -3 * k a b :=
  ⟨_, _, fun _ _ => Ex.callKernel_fin _ h, fun _ _ _ => Ex.callKernel_fin _ h,
    fun a b => kp_euler3 (rad_ne h) a b⟩

/-- **C96.** Position and mass of a point source follow from the returned potential and acceleration:
its distance is `V / |g|`, its mass `V² / (G |g|)`, and it lies in the direction of the acceleration. -/
theorem C96_source (p q : Pt) (h : p ≠ q) {m : ℝ} (hm : 0 < m) :
    ∃ (V : ℝ) (g : Axis → ℝ),
      Returns (onPair (A := Exact) point.gravity_pot p q m) V ∧
      (∀ a, Returns (onPair (A := Exact) (pointGravity a.acc) p q m) (g a)) ∧
      0 < V ∧ 0 < √(g .e ^ 2 + g .n ^ 2 + g .u ^ 2) ∧
      dist3 p q = V / √(g .e ^ 2 + g .n ^ 2 + g .u ^ 2) ∧
      m = V ^ 2 / (6.6743e-11 * √(g .e ^ 2 + g .n ^ 2 + g .u ^ 2)) ∧
      ∀ a, q.coord a = p.coord a + V * g a / (g .e ^ 2 + g .n ^ 2 + g .u ^ 2) := by
  have hr := rad_ne h
  have hd : 0 < rad (p.e - q.e) (p.n - q.n) (p.u - q.u) := lt_of_le_of_ne (rad_nonneg _ _ _) hr.symm
  refine ⟨_, fun a => _, Ex.pointGravity_fin .pot h m, fun a => Ex.pointGravity_fin a.acc h m, ?_⟩
  have hG := Gc_pos
  have e2 : (Gc * m * kp Axis.e.acc.toK (p.e - q.e) (p.n - q.n) (p.u - q.u)) ^ 2
      + (Gc * m * kp Axis.n.acc.toK (p.e - q.e) (p.n - q.n) (p.u - q.u)) ^ 2
      + (Gc * m * kp Axis.u.acc.toK (p.e - q.e) (p.n - q.n) (p.u - q.u)) ^ 2
      = (Gc * m / rad (p.e - q.e) (p.n - q.n) (p.u - q.u) ^ 2) ^ 2 := by
    have h1 := kp_norm1 hr
    have h2 : kp .pot (p.e - q.e) (p.n - q.n) (p.u - q.u) = 1 / rad (p.e - q.e) (p.n - q.n) (p.u - q.u) := by
      simp only [kp, pow_one]
    rw [h2] at h1
    simp only [Axis.acc, GComp.toK]
    have h3 : (Gc * m / rad (p.e - q.e) (p.n - q.n) (p.u - q.u) ^ 2) ^ 2
        = (Gc * m) ^ 2 * (1 / rad (p.e - q.e) (p.n - q.n) (p.u - q.u)) ^ 4 := by
      field_simp
    rw [h3]
    linear_combination (Gc * m) ^ 2 * h1
  have es := Real.sqrt_sq (show 0 ≤ Gc * m / rad (p.e - q.e) (p.n - q.n) (p.u - q.u) ^ 2 by positivity)
  simp only [e2, es]
  rw [dist3_eq_rad, show (6.6743e-11 : ℝ) = Gc from rfl]
  simp only [GComp.toK, kp, pow_one]
  refine ⟨by positivity, by positivity, by field_simp, by field_simp, fun a => ?_⟩
  cases a <;> simp only [Axis.acc, Pt.coord] <;> field_simp <;> ring

/-- **C96.** Invariants of the gravity tensor of a point mass: sum of the squares of its nine components,
and determinant. -/
theorem C96_invariants (p q : Pt) (h : p ≠ q) (m : ℝ) :
    ∃ T : Axis → Axis → ℝ,
      (∀ a b, Returns (onPair (A := Exact) (pointGravity (tensor a b)) p q m) (T a b)) ∧
      (T .e .e ^ 2 + T .e .n ^ 2 + T .e .u ^ 2) + (T .n .e ^ 2 + T .n .n ^ 2 + T .n .u ^ 2)
        + (T .u .e ^ 2 + T .u .n ^ 2 + T .u .u ^ 2) = 6 * (6.6743e-11 * m / dist3 p q ^ 3) ^ 2 ∧
      Matrix.det !![T .e .e, T .e .n, T .e .u; T .n .e, T .n .n, T .n .u; T .u .e, T .u .n, T .u .u]
        = 2 * (6.6743e-11 * m / dist3 p q ^ 3) ^ 3 := by
  have hr := rad_ne h
  refine ⟨fun a b => _, fun a b => Ex.pointGravity_fin (tensor a b) h m, ?_, ?_⟩
  · have := kp_frobenius hr
    rw [dist3_eq_rad, show (6.6743e-11 : ℝ) = Gc from rfl,
      show 6 * (Gc * m / rad (p.e - q.e) (p.n - q.n) (p.u - q.u) ^ 3) ^ 2
        = (Gc * m) ^ 2 * (6 / rad (p.e - q.e) (p.n - q.n) (p.u - q.u) ^ 6) by field_simp, ← this]
    simp only [tensor, GComp.toK]
    ring
  · have := kp_det hr
    rw [dist3_eq_rad, show (6.6743e-11 : ℝ) = Gc from rfl,
      show 2 * (Gc * m / rad (p.e - q.e) (p.n - q.n) (p.u - q.u) ^ 3) ^ 3
        = (Gc * m) ^ 3 * (2 / rad (p.e - q.e) (p.n - q.n) (p.u - q.u) ^ 9) by field_simp, ← this,
      Matrix.det_fin_three]
    simp only [tensor, GComp.toK, Matrix.of_apply, Matrix.cons_val', Matrix.cons_val_zero,
      Matrix.cons_val_one, Matrix.cons_val, Matrix.cons_val_fin_one]
    ring

/-- **C96.** The dipole field: component along the offset and strength. -/
theorem C96_dipole (p q : Pt) (h : p ≠ q) (m : Pt) :
    ∃ B : Axis → ℝ, (∀ a, Returns (onPair (A := Exact) (dipoleMagnetic a) p q m.e m.n m.u) (B a)) ∧
      along p q B = 2 * (1.25663706212e-06 / 4 / π) * along p q m.coord / dist3 p q ^ 3 ∧
      B .e ^ 2 + B .n ^ 2 + B .u ^ 2 = (1.25663706212e-06 / 4 / π) ^ 2 *
        (3 * (along p q m.coord / dist3 p q) ^ 2 + (m.e ^ 2 + m.n ^ 2 + m.u ^ 2)) / dist3 p q ^ 6 := by
  have hr := rad_ne h
  have h2 := rad_sq (p.e - q.e) (p.n - q.n) (p.u - q.u)
  refine ⟨_, fun a => dipole_fin a h m, ?_, ?_⟩
  · rw [dist3_eq_rad, show (1.25663706212e-06 : ℝ) = mu0 from rfl]
    simp only [along, Bd, kp, kern2, Pt.coord]
    generalize mu0 / 4 / π = k
    generalize rad (p.e - q.e) (p.n - q.n) (p.u - q.u) = r at *
    generalize p.e - q.e = x at *
    generalize p.n - q.n = y at *
    generalize p.u - q.u = z at *
    have hz : z ^ 2 = r ^ 2 - x ^ 2 - y ^ 2 := by linarith
    field_simp
    grind
  · rw [dist3_eq_rad, show (1.25663706212e-06 : ℝ) = mu0 from rfl]
    simp only [along, Bd, kp, kern2, Pt.coord]
    generalize mu0 / 4 / π = k
    generalize rad (p.e - q.e) (p.n - q.n) (p.u - q.u) = r at *
    generalize p.e - q.e = x at *
    generalize p.n - q.n = y at *
    generalize p.u - q.u = z at *
    have hz : z ^ 2 = r ^ 2 - x ^ 2 - y ^ 2 := by linarith
    field_simp
    grind

/-- **C96.** Euler's relation for the dipole field (structural index 3): on the ray from the dipole through
the observation point the field falls off with the third power of the distance. -/
theorem C96_euler_dipole (a : Axis) (q d m : Pt) (hd : d ≠ (0, 0, 0)) {s : ℝ} (hs : 0 < s) :
    ∃ B : ℝ, Returns (onPair (A := Exact) (dipoleMagnetic a) (q + d) q m.e m.n m.u) B ∧
      Returns (onPair (A := Exact) (dipoleMagnetic a) (q + s • d) q m.e m.n m.u) (B / s ^ 3) := by
  have h1 : q + d ≠ q := fun h => hd (show d = 0 by simpa using h)
  have h2 : q + s • d ≠ q := fun h => hd (by
    have : s • d = 0 := by simpa using h
    exact (smul_eq_zero.1 this).resolve_left hs.ne')
  refine ⟨_, dipole_fin a h1 m, ?_⟩
  have e := dipole_fin a h2 m
  have : Bd a (q + s • d) q m = Bd a (q + d) q m / s ^ 3 := by
    have c1 : (q + d).e - q.e = d.1 := by simp [Pt.e]
    have c2 : (q + d).n - q.n = d.2.1 := by simp [Pt.n]
    have c3 : (q + d).u - q.u = d.2.2 := by simp [Pt.u]
    have c4 : (q + s • d).e - q.e = s * d.1 := by simp [Pt.e]
    have c5 : (q + s • d).n - q.n = s * d.2.1 := by simp [Pt.n]
    have c6 : (q + s • d).u - q.u = s * d.2.2 := by simp [Pt.u]
    have hr : rad d.1 d.2.1 d.2.2 ≠ 0 := by
      rw [Ne, rad_eq_zero]
      rintro ⟨r1, r2, r3⟩
      exact hd (Prod.ext r1 (Prod.ext r2 r3))
    have hrs : rad (s * d.1) (s * d.2.1) (s * d.2.2) = s * rad d.1 d.2.1 d.2.2 := by
      unfold rad
      rw [show (s * d.1) ^ 2 + (s * d.2.1) ^ 2 + (s * d.2.2) ^ 2 = s ^ 2 * (d.1 ^ 2 + d.2.1 ^ 2 + d.2.2 ^ 2) by ring,
        Real.sqrt_mul (sq_nonneg s), Real.sqrt_sq hs.le]
    unfold Bd
    rw [c1, c2, c3, c4, c5, c6]
    have hs' := hs.ne'
    cases a <;> simp only [kp, kern2, hrs] <;> field_simp
  rw [this] at e
  exact e

/-- two points and a mass to which the statements apply -/
example : ((3, 4, 0) : Pt) ≠ (0, 0, -100) ∧ (0 : ℝ) < 1000 := by norm_num [Prod.ext_iff]

end Choclo
