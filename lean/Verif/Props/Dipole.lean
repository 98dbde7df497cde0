import Verif.Props.Point
import Verif.Lemmas.MagEval

/-! # Properties of `choclo.dipole` in exact arithmetic: C14-C17 -/

namespace Choclo

open Real

/-- name of the second-order kernel for two axes -/
def kern2 : Axis → Axis → KComp
  | .e, .e => .ee
  | .e, .n => .en
  | .e, .u => .eu
  | .n, .e => .en
  | .n, .n => .nn
  | .n, .u => .nu
  | .u, .e => .eu
  | .u, .n => .nu
  | .u, .u => .uu

/-- real value of a dipole component -/
noncomputable def Bd (a : Axis) (p q m : Pt) : ℝ :=
  mu0 / 4 / π * (kp (kern2 a .e) (p.e - q.e) (p.n - q.n) (p.u - q.u) * m.e
    + kp (kern2 a .n) (p.e - q.e) (p.n - q.n) (p.u - q.u) * m.n
    + kp (kern2 a .u) (p.e - q.e) (p.n - q.n) (p.u - q.u) * m.u)

theorem dipole_fin (a : Axis) {p q : Pt} (h : p ≠ q) (m : Pt) :
    onPair (A := Exact) (dipoleMagnetic a) p q m.e m.n m.u = .ok (xf (Bd a p q m)) := by
  have hr : √((p.e - q.e) ^ 2 + (p.n - q.n) ^ 2 + (p.u - q.u) ^ 2) ≠ 0 := rad_ne h
  have hr' : √((p.e - q.e) ^ 2 + (p.n - q.n) ^ 2 + (p.u - q.u) ^ 2) =
    rad (p.e - q.e) (p.n - q.n) (p.u - q.u) := rfl
  have hr2 := rad_sq (p.e - q.e) (p.n - q.n) (p.u - q.u)
  unfold onPair
  cases a <;>
  · simp only [dipoleMagnetic, dipole.magnetic_e, dipole.magnetic_n, dipole.magnetic_u, Ex.sub_fin,
      Ex.pow_fin, Ex.add_fin, Ex.mul_fin, Ex.ofNat_fin, Ex.pi_fin]
    rw [Ex.sqrt_fin _ (by positivity)]
    simp only [Ex.pow_fin, Ex.div_fin (pow_ne_zero _ hr), Ex.ok_bind, Ex.cm1_fin, Ex.cm2_fin,
      Ex.sub_fin, Ex.mul_fin, Ex.pure_ok]
    congr 2
    rw [hr'] at hr ⊢
    simp only [Bd, kern2, kp]
    ring

theorem dipole_raises (a : Axis) (p m : Pt) :
    onPair (A := Exact) (dipoleMagnetic a) p p m.e m.n m.u = .error .zeroDivision := by
  unfold onPair
  cases a <;>
  · simp only [dipoleMagnetic, dipole.magnetic_e, dipole.magnetic_n, dipole.magnetic_u, Ex.sub_fin,
      Ex.pow_fin, Ex.add_fin, Ex.mul_fin, Ex.ofNat_fin, Ex.pi_fin]
    rw [Ex.sqrt_fin _ (by positivity)]
    simp [Ex.div_fin_zero]

theorem dipole_field_fin {p q : Pt} (h : p ≠ q) (m : Pt) :
    onPair (A := Exact) dipole.magnetic_field p q m.e m.n m.u =
      .ok (xf (Bd .e p q m), xf (Bd .n p q m), xf (Bd .u p q m)) := by
  have hr : √((p.e - q.e) ^ 2 + (p.n - q.n) ^ 2 + (p.u - q.u) ^ 2) ≠ 0 := rad_ne h
  have hr' : √((p.e - q.e) ^ 2 + (p.n - q.n) ^ 2 + (p.u - q.u) ^ 2) =
    rad (p.e - q.e) (p.n - q.n) (p.u - q.u) := rfl
  unfold onPair
  simp only [dipole.magnetic_field, Ex.sub_fin,
      Ex.pow_fin, Ex.add_fin, Ex.mul_fin, Ex.ofNat_fin, Ex.pi_fin]
  rw [Ex.sqrt_fin _ (by positivity)]
  simp only [Ex.pow_fin, Ex.div_fin (pow_ne_zero _ hr), Ex.ok_bind, Ex.cm1_fin, Ex.cm2_fin,
      Ex.sub_fin, Ex.mul_fin, Ex.pure_ok]
  rw [hr'] at hr ⊢
  simp only [Bd, kern2, kp]
  congr 2
  · congr 1; ring
  · congr 2 <;> ring

theorem dipole_field_raises (p m : Pt) :
    onPair (A := Exact) dipole.magnetic_field p p m.e m.n m.u = .error .zeroDivision := by
  unfold onPair
  simp only [dipole.magnetic_field, Ex.sub_fin,
      Ex.pow_fin, Ex.add_fin, Ex.mul_fin, Ex.ofNat_fin, Ex.pi_fin]
  rw [Ex.sqrt_fin _ (by positivity)]
  simp [Ex.div_fin_zero, Ex.cm1_fin, Ex.cm2_fin]

/-! ## C14 -/

/-- **C14.** `dipole.magnetic_e/n/u` raise `ZeroDivisionError` exactly at the dipole and return
finite numbers everywhere else. -/
theorem C14_raises_iff (a : Axis) (p q m : Pt) :
    (RaisesZeroDivision (onPair (A := Exact) (dipoleMagnetic a) p q m.e m.n m.u) ↔ p = q) ∧
    (ReturnsFinite (onPair (A := Exact) (dipoleMagnetic a) p q m.e m.n m.u) ↔ p ≠ q) := by
  by_cases h : p = q
  · subst h
    unfold RaisesZeroDivision ReturnsFinite Returns
    rw [dipole_raises]
    refine ⟨⟨fun _ => rfl, fun _ => rfl⟩, ⟨?_, fun h => absurd rfl h⟩⟩
    rintro ⟨x, hx⟩
    cases hx
  · unfold RaisesZeroDivision ReturnsFinite Returns
    rw [dipole_fin a h]
    exact ⟨⟨fun h' => (by cases h'), fun h' => absurd h' h⟩, ⟨fun _ => h, fun _ => ⟨_, rfl⟩⟩⟩

/-- **C14.** Same for `dipole.magnetic_field`. -/
theorem C14_field_raises_iff (p q m : Pt) :
    (RaisesZeroDivision (onPair (A := Exact) dipole.magnetic_field p q m.e m.n m.u) ↔ p = q) ∧
    ((∃ x y z : ℝ, onPair (A := Exact) dipole.magnetic_field p q m.e m.n m.u =
      .ok (Fl.fin x, Fl.fin y, Fl.fin z)) ↔ p ≠ q) := by
  by_cases h : p = q
  · subst h
    unfold RaisesZeroDivision
    rw [dipole_field_raises]
    refine ⟨⟨fun _ => rfl, fun _ => rfl⟩, ⟨?_, fun h => absurd rfl h⟩⟩
    rintro ⟨x, y, z, hx⟩
    cases hx
  · unfold RaisesZeroDivision
    rw [dipole_field_fin h]
    exact ⟨⟨fun h' => (by cases h'), fun h' => absurd h' h⟩, ⟨fun _ => h, fun _ => ⟨_, _, _, rfl⟩⟩⟩

/-! ## C15 -/

/-- The magnetic scalar potential of a dipole `m` at `q`: `mu0 / 4 pi * m.r / r^3`, `r = p - q`. -/
noncomputable def dipolePotential (p q m : Pt) : ℝ :=
  1.25663706212e-06 / (4 * π) *
    (m.e * (p.e - q.e) + m.n * (p.n - q.n) + m.u * (p.u - q.u)) / dist3 p q ^ 3

theorem dipolePotential_eq (p q m : Pt) : dipolePotential p q m =
    -(mu0 / 4 / π * (kp .e (p.e - q.e) (p.n - q.n) (p.u - q.u) * m.e
    + kp .n (p.e - q.e) (p.n - q.n) (p.u - q.u) * m.n
    + kp .u (p.e - q.e) (p.n - q.n) (p.u - q.u) * m.u)) := by
  unfold dipolePotential mu0
  simp only [kp, dist3_eq_rad]
  ring

/-- name of the first-order kernel -/
def kern1 : Axis → KComp
  | .e => .e
  | .n => .n
  | .u => .u

theorem kern_succ (i a : Axis) : (kern1 i).Succ (kern2 a i) a := by
  cases i <;> cases a <;> rfl

/-- **C15.** Each field component returns minus the partial derivative of the dipole's scalar
potential. -/
theorem C15_minus_gradient (a : Axis) (p q : Pt) (h : p ≠ q) (m : Pt) :
    ∃ B : ℝ, Returns (onPair (A := Exact) (dipoleMagnetic a) p q m.e m.n m.u) B ∧
      HasDerivAt (fun t => dipolePotential (p.set a t) q m) (-B) (p.coord a) := by
  refine ⟨_, dipole_fin a h m, ?_⟩
  simp only [dipolePotential_eq]
  have h1 := kp_deriv _ _ a (kern_succ .e a) h
  have h2 := kp_deriv _ _ a (kern_succ .n a) h
  have h3 := kp_deriv _ _ a (kern_succ .u a) h
  exact ((((h1.mul_const m.e).add (h2.mul_const m.n)).add (h3.mul_const m.u)).const_mul _).neg

/-- **C15.** The dipole field is `mu0 / 4 pi` times the matrix of second-order point kernels applied
to the moment. -/
theorem C15_point_kernels (a : Axis) (p q : Pt) (h : p ≠ q) (m : Pt) :
    ∃ k1 k2 k3 : ℝ, Returns (callKernel (A := Exact) (kern2 a .e) p q) k1 ∧
      Returns (callKernel (A := Exact) (kern2 a .n) p q) k2 ∧
      Returns (callKernel (A := Exact) (kern2 a .u) p q) k3 ∧
      Returns (onPair (A := Exact) (dipoleMagnetic a) p q m.e m.n m.u)
        (1.25663706212e-06 / 4 / π * (k1 * m.e + k2 * m.n + k3 * m.u)) :=
  ⟨_, _, _, Ex.callKernel_fin _ h, Ex.callKernel_fin _ h, Ex.callKernel_fin _ h, dipole_fin a h m⟩

/-! ## C16 -/

/-- name of the third-order kernel -/
def kern3 : Axis → Axis → Axis → KComp
  | .e, .e, .e => .eee
  | .e, .e, .n => .een
  | .e, .e, .u => .eeu
  | .e, .n, .e => .een
  | .e, .n, .n => .nne
  | .e, .n, .u => .enu
  | .e, .u, .e => .eeu
  | .e, .u, .n => .enu
  | .e, .u, .u => .uue
  | .n, .e, .e => .een
  | .n, .e, .n => .nne
  | .n, .e, .u => .enu
  | .n, .n, .e => .nne
  | .n, .n, .n => .nnn
  | .n, .n, .u => .nnu
  | .n, .u, .e => .enu
  | .n, .u, .n => .nnu
  | .n, .u, .u => .uun
  | .u, .e, .e => .eeu
  | .u, .e, .n => .enu
  | .u, .e, .u => .uue
  | .u, .n, .e => .enu
  | .u, .n, .n => .nnu
  | .u, .n, .u => .uun
  | .u, .u, .e => .uue
  | .u, .u, .n => .uun
  | .u, .u, .u => .uuu

theorem kern2_succ (a b i : Axis) : (kern2 a i).Succ (kern3 a b i) b := by
  cases i <;> cases a <;> cases b <;> rfl

/-- gradient of the dipole field -/
noncomputable def Jd (a b : Axis) (p q m : Pt) : ℝ :=
  mu0 / 4 / π * (kp (kern3 a b .e) (p.e - q.e) (p.n - q.n) (p.u - q.u) * m.e
    + kp (kern3 a b .n) (p.e - q.e) (p.n - q.n) (p.u - q.u) * m.n
    + kp (kern3 a b .u) (p.e - q.e) (p.n - q.n) (p.u - q.u) * m.u)

theorem Bd_deriv (a b : Axis) {p q : Pt} (h : p ≠ q) (m : Pt) :
    HasDerivAt (fun t => Bd a (p.set b t) q m) (Jd a b p q m) (p.coord b) := by
  have h1 := kp_deriv _ _ b (kern2_succ a b .e) h
  have h2 := kp_deriv _ _ b (kern2_succ a b .n) h
  have h3 := kp_deriv _ _ b (kern2_succ a b .u) h
  exact ((((h1.mul_const m.e).add (h2.mul_const m.n)).add (h3.mul_const m.u)).const_mul _)

/-- **C16.** Away from the dipole all partial derivatives of the field components exist, their
trace vanishes (no divergence) and cross derivatives agree (no curl). -/
theorem C16_div_curl_free (p q : Pt) (h : p ≠ q) (m : Pt) :
    ∃ J : Axis → Axis → ℝ,
      (∀ a b, HasPartial (fun p' => onPair (A := Exact) (dipoleMagnetic a) p' q m.e m.n m.u) p b (J a b)) ∧
      J .e .e + J .n .n + J .u .u = 0 ∧ (∀ a b, J a b = J b a) := by
  refine ⟨fun a b => Jd a b p q m, fun a b =>
    ⟨_, (set_ne h b).mono fun _ ht => dipole_fin a ht m, Bd_deriv a b h m⟩, ?_, ?_⟩
  · have hr := rad_ne h
    have t1 := kp_trace .eee .nne .uue _ _ _ hr (by simp)
    have t2 := kp_trace .een .nnn .uun _ _ _ hr (by simp)
    have t3 := kp_trace .eeu .nnu .uuu _ _ _ hr (by simp)
    simp only [Jd, kern3]
    linear_combination (mu0 / 4 / π * m.e) * t1 + (mu0 / 4 / π * m.n) * t2
      + (mu0 / 4 / π * m.u) * t3
  · intro a b
    cases a <;> cases b <;> rfl

/-- non-vacuity of the hypothesis `p ≠ q` together with a non-trivial field -/
example : ((1, 0, 0) : Pt) ≠ (0, 0, 0) ∧ Bd .e (1, 0, 0) (0, 0, 0) (1, 0, 0) ≠ 0 := by
  constructor
  · intro h; have := congrArg Prod.fst h; norm_num at this
  · have hr : rad 1 0 0 = 1 := by unfold rad; norm_num
    simp only [Bd, kern2, kp, Pt.e, Pt.n, Pt.u, sub_zero, hr]
    have := mu0_pos
    have := Real.pi_pos
    norm_num
    exact mu0_pos.ne'

/-! ## C17 -/

/-- **C17.** Linearity in the moment. -/
theorem C17_linear (a : Axis) (p q : Pt) (h : p ≠ q) (m₁ m₂ : Pt) (s t : ℝ) :
    ∃ b₁ b₂ : ℝ, Returns (onPair (A := Exact) (dipoleMagnetic a) p q m₁.e m₁.n m₁.u) b₁ ∧
      Returns (onPair (A := Exact) (dipoleMagnetic a) p q m₂.e m₂.n m₂.u) b₂ ∧
      Returns (onPair (A := Exact) (dipoleMagnetic a) p q (s • m₁ + t • m₂).e (s • m₁ + t • m₂).n
        (s • m₁ + t • m₂).u) (s * b₁ + t * b₂) := by
  refine ⟨_, _, dipole_fin a h m₁, dipole_fin a h m₂, ?_⟩
  unfold Returns
  rw [dipole_fin a h]
  congr 2
  simp only [Bd, Pt.e, Pt.n, Pt.u, Prod.fst_add, Prod.snd_add, Prod.smul_fst, Prod.smul_snd, smul_eq_mul]
  ring

theorem kp2_neg (a b : Axis) (x y z : ℝ) : kp (kern2 a b) (-x) (-y) (-z) = kp (kern2 a b) x y z := by
  cases a <;> cases b <;> simp only [kern2, kp, rad_neg] <;> ring

theorem Bd_exchange (a : Axis) (p q m : Pt) : Bd a q p m = Bd a p q m := by
  unfold Bd
  rw [← neg_sub p.e, ← neg_sub p.n, ← neg_sub p.u, kp2_neg, kp2_neg, kp2_neg]

/-- **C17.** Exchanging observation point and dipole location changes nothing. -/
theorem C17_exchange (a : Axis) (p q m : Pt) :
    onPair (A := Exact) (dipoleMagnetic a) q p m.e m.n m.u =
      onPair (A := Exact) (dipoleMagnetic a) p q m.e m.n m.u := by
  by_cases h : p = q
  · subst h; rfl
  · rw [dipole_fin a h, dipole_fin a (Ne.symm h), Bd_exchange]

/-- **C17.** Translation invariance. -/
theorem C17_translation (a : Axis) (p q v m : Pt) :
    onPair (A := Exact) (dipoleMagnetic a) (p + v) (q + v) m.e m.n m.u =
      onPair (A := Exact) (dipoleMagnetic a) p q m.e m.n m.u := by
  by_cases h : p = q
  · subst h; rw [dipole_raises, dipole_raises]
  · rw [dipole_fin a h, dipole_fin a (by simpa using h)]
    congr 2
    unfold Bd
    simp only [Pt.e, Pt.n, Pt.u, Prod.fst_add, Prod.snd_add, add_sub_add_right_eq_sub]

/-- **C17.** The field decays as the inverse cube of the distance. -/
theorem C17_homogeneity (a : Axis) (p q : Pt) (h : p ≠ q) (m : Pt) (l : ℝ) (hl : 0 < l) :
    ∃ b : ℝ, Returns (onPair (A := Exact) (dipoleMagnetic a) p q m.e m.n m.u) b ∧
      Returns (onPair (A := Exact) (dipoleMagnetic a) (l • p) (l • q) m.e m.n m.u) (b / l ^ 3) := by
  refine ⟨_, dipole_fin a h m, ?_⟩
  have h' : l • p ≠ l • q := by
    intro h'; exact h (smul_right_injective _ hl.ne' h')
  unfold Returns
  rw [dipole_fin a h']
  congr 2
  have hr := rad_ne h
  have hrl := rad_mul hl (p.e - q.e) (p.n - q.n) (p.u - q.u)
  have hl' := hl.ne'
  have hpi := Real.pi_ne_zero
  have e1 : (l • p).e - (l • q).e = l * (p.e - q.e) := by
    simp only [Pt.e, Prod.smul_fst, smul_eq_mul]; ring
  have e2 : (l • p).n - (l • q).n = l * (p.n - q.n) := by
    simp only [Pt.n, Prod.smul_fst, Prod.smul_snd, smul_eq_mul]; ring
  have e3 : (l • p).u - (l • q).u = l * (p.u - q.u) := by
    simp only [Pt.u, Prod.smul_snd, smul_eq_mul]; ring
  unfold Bd
  rw [e1, e2, e3]
  cases a <;> simp only [kern2, kp, hrl] <;> field_simp

/-- **C17.** Reciprocity: `m₂ · B(m₁ at q, seen from p) = m₁ · B(m₂ at p, seen from q)`. -/
theorem C17_reciprocity (p q : Pt) (h : p ≠ q) (m₁ m₂ : Pt) :
    ∃ B₁ B₂ : Axis → ℝ,
      (∀ a, Returns (onPair (A := Exact) (dipoleMagnetic a) p q m₁.e m₁.n m₁.u) (B₁ a)) ∧
      (∀ a, Returns (onPair (A := Exact) (dipoleMagnetic a) q p m₂.e m₂.n m₂.u) (B₂ a)) ∧
      m₂.e * B₁ .e + m₂.n * B₁ .n + m₂.u * B₁ .u = m₁.e * B₂ .e + m₁.n * B₂ .n + m₁.u * B₂ .u := by
  refine ⟨_, _, fun a => dipole_fin a h m₁, fun a => dipole_fin a (Ne.symm h) m₂, ?_⟩
  simp only [Bd_exchange _ p q]
  unfold Bd
  simp only [kern2]
  ring

end Choclo
