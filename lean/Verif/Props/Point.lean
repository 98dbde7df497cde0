import Verif.Lemmas.PointEval
import Mathlib.Analysis.Calculus.Deriv.Shift
import Mathlib.LinearAlgebra.UnitaryGroup
import Mathlib.Topology.Algebra.Order.LiminfLimsup

/-! # Properties of `choclo.point` in exact arithmetic: C05-C12 -/

namespace Choclo

open Real

/-! ## C05, C08: derivatives -/

theorem set_ne {p q : Pt} (h : p ≠ q) (a : Axis) : ∀ᶠ t in nhds (p.coord a), p.set a t ≠ q := by
  have hc : ContinuousAt (fun t => p.set a t) (p.coord a) := by
    cases a <;> (simp only [Pt.set]; fun_prop)
  have h0 : p.set a (p.coord a) ≠ q := by cases a <;> exact h
  exact hc.eventually_ne h0

theorem kp_deriv (c c' : KComp) (a : Axis) (hc : c.Succ c' a) {p q : Pt} (h : p ≠ q) :
    HasDerivAt (fun t => kp c ((p.set a t).e - q.e) ((p.set a t).n - q.n) ((p.set a t).u - q.u))
      (kp c' (p.e - q.e) (p.n - q.n) (p.u - q.u)) (p.coord a) := by
  have hr : rad (p.e - q.e) (p.n - q.n) (p.u - q.u) ≠ 0 := by
    rw [← dist3_eq_rad]; exact fun h' => h (dist3_eq_zero.mp h')
  cases a
  · exact (kp_deriv_e hc hr).comp_sub_const _ _
  · exact (kp_deriv_n hc hr).comp_sub_const _ _
  · exact (kp_deriv_u hc hr).comp_sub_const _ _

/-- **C05.** Whenever the name of kernel `c'` is that of kernel `c` with one letter `a` more, kernel
`c'` returns the partial derivative of kernel `c` along axis `a`, at all distinct points.  Starting
from `kernel_pot` this covers all kernels up to third order and all mixed derivatives. -/
theorem C05_kernels_are_derivatives (c c' : KComp) (a : Axis)
    (hc : c'.index = (c.index.1 + a.index.1, c.index.2.1 + a.index.2.1, c.index.2.2 + a.index.2.2))
    (p q : Pt) (h : p ≠ q) :
    IsDerivOf (callKernel (A := Exact) c' p q) (fun t => callKernel (A := Exact) c (p.set a t) q)
      (p.coord a) :=
  ⟨_, _, (set_ne h a).mono fun _ ht => Ex.callKernel_fin c ht, Ex.callKernel_fin c' h,
    kp_deriv c c' a hc h⟩

/-- **C05.** The start of the chain: `kernel_pot` returns one over the distance. -/
theorem C05_kernel_pot (p q : Pt) (h : p ≠ q) :
    Returns (callKernel (A := Exact) .pot p q) (1 / dist3 p q) := by
  have := Ex.callKernel_fin .pot h
  unfold Returns
  rw [this]
  simp [kp, dist3_eq_rad]

/-- non-vacuity: `kernel_enu` is reached from `kernel_en` along the upward axis -/
example : KComp.enu.index = (KComp.en.index.1 + Axis.u.index.1, KComp.en.index.2.1 + Axis.u.index.2.1,
    KComp.en.index.2.2 + Axis.u.index.2.2) ∧ ((0, 0, 0) : Pt) ≠ (1, 2, 3) := by
  constructor
  · rfl
  · intro h; have := congrArg Prod.fst h; norm_num at this

/-- **C08.** Whenever the name of `gravity_<c'>` is that of `gravity_<c>` with one letter `a` more,
it returns the partial derivative of `gravity_<c>` along axis `a`: acceleration = gradient of the
potential, tensor = gradient of the acceleration. -/
theorem C08_gravity_derivatives (c c' : GComp) (a : Axis)
    (hc : c'.index = (c.index.1 + a.index.1, c.index.2.1 + a.index.2.1, c.index.2.2 + a.index.2.2))
    (p q : Pt) (h : p ≠ q) (m : ℝ) :
    IsDerivOf (onPair (A := Exact) (pointGravity c') p q m)
      (fun t => onPair (A := Exact) (pointGravity c) (p.set a t) q m) (p.coord a) := by
  have hc' : c.toK.Succ c'.toK a := by
    have e : ∀ c : GComp, c.toK.index = c.index := by intro c; cases c <;> rfl
    unfold KComp.Succ
    rw [e, e]; exact hc
  exact ⟨_, _, (set_ne h a).mono fun _ ht => Ex.pointGravity_fin c ht m, Ex.pointGravity_fin c' h m,
    (kp_deriv _ _ a hc' h).const_mul _⟩

/-- non-vacuity -/
example : GComp.en.index = (GComp.n.index.1 + Axis.e.index.1, GComp.n.index.2.1 + Axis.e.index.2.1,
    GComp.n.index.2.2 + Axis.e.index.2.2) := rfl

/-! ## C06: Laplace -/

theorem rad_ne {p q : Pt} (h : p ≠ q) : rad (p.e - q.e) (p.n - q.n) (p.u - q.u) ≠ 0 := by
  rw [← dist3_eq_rad]; exact fun h' => h (dist3_eq_zero.mp h')

theorem kp_trace (c1 c2 c3 : KComp) (x y z : ℝ) (h : rad x y z ≠ 0)
    (ht : (c1, c2, c3) ∈ [(KComp.ee, KComp.nn, KComp.uu), (.eee, .nne, .uue), (.een, .nnn, .uun),
      (.eeu, .nnu, .uuu)]) :
    kp c1 x y z + kp c2 x y z + kp c3 x y z = 0 := by
  have hr := rad_sq x y z
  simp only [List.mem_cons, Prod.mk.injEq, List.not_mem_nil, or_false] at ht
  rcases ht with ⟨rfl, rfl, rfl⟩ | ⟨rfl, rfl, rfl⟩ | ⟨rfl, rfl, rfl⟩ | ⟨rfl, rfl, rfl⟩ <;>
  · simp only [kp]
    field_simp
    rw [hr]; ring

/-- **C06.** The second-order kernels and each trace of third-order kernels add up to zero. -/
theorem C06_laplace (c1 c2 c3 : KComp)
    (ht : (c1, c2, c3) ∈ [(KComp.ee, KComp.nn, KComp.uu), (.eee, .nne, .uue), (.een, .nnn, .uun),
      (.eeu, .nnu, .uuu)]) (p q : Pt) (h : p ≠ q) :
    ∃ k1 k2 k3 : ℝ, Returns (callKernel (A := Exact) c1 p q) k1 ∧
      Returns (callKernel (A := Exact) c2 p q) k2 ∧ Returns (callKernel (A := Exact) c3 p q) k3 ∧
      k1 + k2 + k3 = 0 :=
  ⟨_, _, _, Ex.callKernel_fin c1 h, Ex.callKernel_fin c2 h, Ex.callKernel_fin c3 h,
    kp_trace c1 c2 c3 _ _ _ (rad_ne h) ht⟩

/-- non-vacuity -/
example : (KComp.een, KComp.nnn, KComp.uun) ∈ [(KComp.ee, KComp.nn, KComp.uu), (.eee, .nne, .uue),
    (.een, .nnn, .uun), (.eeu, .nnu, .uuu)] := by simp

/-! ## C07: exceptions -/

/-- **C07.** Every `point.gravity_*` raises `ZeroDivisionError` exactly when the observation point
is the source point, and returns a finite number otherwise. -/
theorem C07_raises_iff (c : GComp) (p q : Pt) (m : ℝ) :
    (RaisesZeroDivision (onPair (A := Exact) (pointGravity c) p q m) ↔ p = q) ∧
    (ReturnsFinite (onPair (A := Exact) (pointGravity c) p q m) ↔ p ≠ q) := by
  by_cases h : p = q
  · subst h
    have := Ex.pointGravity_raises c p m
    unfold RaisesZeroDivision ReturnsFinite Returns
    rw [this]
    refine ⟨⟨fun _ => rfl, fun _ => rfl⟩, ⟨?_, fun h => absurd rfl h⟩⟩
    rintro ⟨x, hx⟩
    cases hx
  · have := Ex.pointGravity_fin c h m
    unfold RaisesZeroDivision ReturnsFinite Returns
    rw [this]
    refine ⟨⟨fun h' => (by cases h'), fun h' => absurd h' h⟩, ⟨fun _ => h, fun _ => ⟨_, rfl⟩⟩⟩

/-! ## C09: Newton's law -/

/-- The point function returns what it should: potential. -/
theorem C09_potential (p q : Pt) (h : p ≠ q) (m : ℝ) :
    Returns (onPair (A := Exact) point.gravity_pot p q m) (6.6743e-11 * m / dist3 p q) := by
  have := Ex.pointGravity_fin .pot h m
  unfold Returns
  rw [show point.gravity_pot (A := Exact) = pointGravity .pot from rfl, this]
  congr 2
  simp only [kp, GComp.toK, dist3_eq_rad, Gc]
  ring

/-- **C09.** The acceleration vector is `G m / d²` times the unit vector from the observation point
to the source. -/
theorem C09_newton (p q : Pt) (h : p ≠ q) (m : ℝ) :
    Returns (onPair (A := Exact) point.gravity_e p q m)
      (6.6743e-11 * m / dist3 p q ^ 2 * ((q.e - p.e) / dist3 p q)) ∧
    Returns (onPair (A := Exact) point.gravity_n p q m)
      (6.6743e-11 * m / dist3 p q ^ 2 * ((q.n - p.n) / dist3 p q)) ∧
    Returns (onPair (A := Exact) point.gravity_u p q m)
      (6.6743e-11 * m / dist3 p q ^ 2 * ((q.u - p.u) / dist3 p q)) := by
  have hd := rad_ne h
  refine ⟨?_, ?_, ?_⟩
  · have := Ex.pointGravity_fin .e h m
    unfold Returns
    rw [show point.gravity_e (A := Exact) = pointGravity .e from rfl, this]
    congr 2
    simp only [kp, GComp.toK, dist3_eq_rad, Gc]
    field_simp; ring
  · have := Ex.pointGravity_fin .n h m
    unfold Returns
    rw [show point.gravity_n (A := Exact) = pointGravity .n from rfl, this]
    congr 2
    simp only [kp, GComp.toK, dist3_eq_rad, Gc]
    field_simp; ring
  · have := Ex.pointGravity_fin .u h m
    unfold Returns
    rw [show point.gravity_u (A := Exact) = pointGravity .u from rfl, this]
    congr 2
    simp only [kp, GComp.toK, dist3_eq_rad, Gc]
    field_simp; ring

theorem dist_two : dist3 (2, 0, 0) (0, 0, 0) = 2 := by
  unfold dist3
  simp only [Pt.e, Pt.n, Pt.u]
  rw [show ((2 - 0 : ℝ) ^ 2 + (0 - 0) ^ 2 + (0 - 0) ^ 2) = 2 ^ 2 by norm_num]
  exact Real.sqrt_sq (by norm_num)

/-- **C09.** The formula of the docstring of `point.gravity_pot`
(`/repo/src/choclo/point/_forward.py:44-50`), with the squared distance, is not what the code
returns: the documentation is wrong, not the code. -/
theorem C09_docstring_pot_wrong :
    ¬ ∀ (p q : Pt) (m : ℝ), p ≠ q →
      Returns (onPair (A := Exact) point.gravity_pot p q m) (6.6743e-11 * m / dist3 p q ^ 2) := by
  intro hall
  have hne : ((2, 0, 0) : Pt) ≠ (0, 0, 0) := by
    intro h; have := congrArg Prod.fst h; norm_num at this
  have := (C09_potential _ _ hne 1).inj (hall _ _ 1 hne)
  rw [dist_two] at this
  norm_num at this

/-- **C09.** Same for the docstring of `point.gravity_e`
(`/repo/src/choclo/point/_forward.py:92-98`). -/
theorem C09_docstring_e_wrong :
    ¬ ∀ (p q : Pt) (m : ℝ), p ≠ q →
      Returns (onPair (A := Exact) point.gravity_e p q m)
        (-(6.6743e-11 * m / dist3 p q ^ 2 * (p.e - q.e))) := by
  intro hall
  have hne : ((2, 0, 0) : Pt) ≠ (0, 0, 0) := by
    intro h; have := congrArg Prod.fst h; norm_num at this
  have := ((C09_newton _ _ hne 1).1).inj (hall _ _ 1 hne)
  rw [dist_two] at this
  simp only [Pt.e] at this
  norm_num at this

/-! ## C10: linearity, parity -/

/-- number of letters in the name of a component -/
def GComp.order : GComp → ℕ
  | .pot => 0
  | .e | .n | .u => 1
  | .ee | .nn | .uu | .en | .eu | .nu => 2

/-- **C10.** Every `point.gravity_*` is linear in the mass. -/
theorem C10_linear (c : GComp) (p q : Pt) (h : p ≠ q) (m₁ m₂ a b : ℝ) :
    ∃ g₁ g₂ : ℝ, Returns (onPair (A := Exact) (pointGravity c) p q m₁) g₁ ∧
      Returns (onPair (A := Exact) (pointGravity c) p q m₂) g₂ ∧
      Returns (onPair (A := Exact) (pointGravity c) p q (Fl.fin (a * m₁ + b * m₂))) (a * g₁ + b * g₂) := by
  refine ⟨_, _, Ex.pointGravity_fin c h m₁, Ex.pointGravity_fin c h m₂, ?_⟩
  unfold Returns
  rw [Ex.pointGravity_fin c h]
  congr 2; ring

theorem rad_neg (x y z : ℝ) : rad (-x) (-y) (-z) = rad x y z := by
  unfold rad; congr 1; ring

/-- **C10.** Exchanging observation and source point multiplies the result by `-1` per letter in
the name of the component: accelerations change sign, potential and tensor do not. -/
theorem C10_exchange (c : GComp) (p q : Pt) (h : p ≠ q) (m : ℝ) :
    ∃ g : ℝ, Returns (onPair (A := Exact) (pointGravity c) p q m) g ∧
      Returns (onPair (A := Exact) (pointGravity c) q p m) ((-1) ^ c.order * g) := by
  refine ⟨_, Ex.pointGravity_fin c h m, ?_⟩
  unfold Returns
  rw [Ex.pointGravity_fin c (Ne.symm h)]
  congr 2
  rw [← neg_sub p.e, ← neg_sub p.n, ← neg_sub p.u]
  cases c <;> simp only [GComp.toK, kp, GComp.order, rad_neg] <;> ring

/-! ## C11: translation, homogeneity -/

/-- **C11.** Translating both points changes nothing. -/
theorem C11_translation (c : GComp) (p q v : Pt) (m : ℝ) :
    onPair (A := Exact) (pointGravity c) (p + v) (q + v) m =
      onPair (A := Exact) (pointGravity c) p q m := by
  by_cases h : p = q
  · subst h
    rw [Ex.pointGravity_raises, Ex.pointGravity_raises]
  · rw [Ex.pointGravity_fin c h, Ex.pointGravity_fin c (by simpa using h)]
    congr 2
    simp only [Pt.e, Pt.n, Pt.u, Prod.fst_add, Prod.snd_add, add_sub_add_right_eq_sub]

theorem rad_mul {l : ℝ} (hl : 0 < l) (x y z : ℝ) : rad (l * x) (l * y) (l * z) = l * rad x y z := by
  unfold rad
  rw [show (l * x) ^ 2 + (l * y) ^ 2 + (l * z) ^ 2 = l ^ 2 * (x ^ 2 + y ^ 2 + z ^ 2) by ring,
    Real.sqrt_mul (by positivity), Real.sqrt_sq hl.le]

/-- **C11.** Scaling all coordinates by `l > 0` divides the potential by `l`, accelerations by
`l²` and tensor components by `l³`. -/
theorem C11_homogeneity (c : GComp) (p q : Pt) (h : p ≠ q) (m l : ℝ) (hl : 0 < l) :
    ∃ g : ℝ, Returns (onPair (A := Exact) (pointGravity c) p q m) g ∧
      Returns (onPair (A := Exact) (pointGravity c) (l • p) (l • q) m) (g / l ^ (c.order + 1)) := by
  refine ⟨_, Ex.pointGravity_fin c h m, ?_⟩
  have h' : l • p ≠ l • q := by
    intro h'; exact h (smul_right_injective _ hl.ne' h')
  unfold Returns
  rw [Ex.pointGravity_fin c h']
  congr 2
  have hr := rad_ne h
  have e1 : (l • p).e - (l • q).e = l * (p.e - q.e) := by
    simp only [Pt.e, Prod.smul_fst, smul_eq_mul]; ring
  have e2 : (l • p).n - (l • q).n = l * (p.n - q.n) := by
    simp only [Pt.n, Prod.smul_fst, Prod.smul_snd, smul_eq_mul]; ring
  have e3 : (l • p).u - (l • q).u = l * (p.u - q.u) := by
    simp only [Pt.u, Prod.smul_snd, smul_eq_mul]; ring
  rw [e1, e2, e3]
  have hrl := rad_mul hl (p.e - q.e) (p.n - q.n) (p.u - q.u)
  have hl' := hl.ne'
  cases c <;> simp only [GComp.toK, kp, GComp.order, hrl] <;> field_simp <;> try ring

/-! ## C12: rotations -/

/-- A point as a vector. -/
def Pt.vec (p : Pt) : Fin 3 → ℝ := ![p.e, p.n, p.u]

/-- A vector as a point. -/
def ofVec (v : Fin 3 → ℝ) : Pt := (v 0, v 1, v 2)

/-- The image of a point under a matrix. -/
def Pt.map (R : Matrix (Fin 3) (Fin 3) ℝ) (p : Pt) : Pt := ofVec (R.mulVec p.vec)

/-- The name of the acceleration component along an axis. -/
def accComp : Fin 3 → GComp
  | 0 => .e
  | 1 => .n
  | 2 => .u

/-- The name of the tensor component in a row and column. -/
def tensorComp : Fin 3 → Fin 3 → GComp
  | 0, 0 => .ee
  | 0, 1 => .en
  | 0, 2 => .eu
  | 1, 0 => .en
  | 1, 1 => .nn
  | 1, 2 => .nu
  | 2, 0 => .eu
  | 2, 1 => .nu
  | 2, 2 => .uu

/-- The offset between two points. -/
def offset (p q : Pt) : Fin 3 → ℝ := ![p.e - q.e, p.n - q.n, p.u - q.u]

theorem offset_eq (p q : Pt) : offset p q = p.vec - q.vec := by
  funext i; fin_cases i <;> rfl

theorem offset_map (R : Matrix (Fin 3) (Fin 3) ℝ) (p q : Pt) :
    offset (p.map R) (q.map R) = R.mulVec (offset p q) := by
  rw [offset_eq, offset_eq, Matrix.mulVec_sub]
  funext i; fin_cases i <;> rfl

theorem rad_offset (p q : Pt) :
    rad (p.e - q.e) (p.n - q.n) (p.u - q.u) = √(offset p q ⬝ᵥ offset p q) := by
  unfold rad
  congr 1
  simp [dotProduct, Fin.sum_univ_three, offset]
  ring

theorem rad_map {R : Matrix (Fin 3) (Fin 3) ℝ} (hR : R ∈ Matrix.orthogonalGroup (Fin 3) ℝ) (p q : Pt) :
    rad ((p.map R).e - (q.map R).e) ((p.map R).n - (q.map R).n) ((p.map R).u - (q.map R).u) =
      rad (p.e - q.e) (p.n - q.n) (p.u - q.u) := by
  rw [rad_offset, rad_offset, offset_map, Matrix.dotProduct_mulVec, Matrix.vecMul_mulVec]
  have : Matrix.transpose R * R = 1 := (Matrix.mem_orthogonalGroup_iff' (Fin 3) ℝ).mp hR
  rw [this, Matrix.vecMul_one]

theorem map_ne {R : Matrix (Fin 3) (Fin 3) ℝ} (hR : R ∈ Matrix.orthogonalGroup (Fin 3) ℝ) {p q : Pt}
    (h : p ≠ q) : p.map R ≠ q.map R := by
  intro h'
  have h1 := rad_map hR p q
  rw [h'] at h1
  simp only [sub_self] at h1
  exact rad_ne h (h1.symm.trans (rad_eq_zero.mpr ⟨rfl, rfl, rfl⟩))

theorem kp_acc (i : Fin 3) (p q : Pt) :
    kp (accComp i).toK (p.e - q.e) (p.n - q.n) (p.u - q.u) =
      -(offset p q i) / rad (p.e - q.e) (p.n - q.n) (p.u - q.u) ^ 3 := by
  fin_cases i <;> simp [accComp, GComp.toK, kp, offset]

theorem kp_tensor (i j : Fin 3) (p q : Pt) :
    kp (tensorComp i j).toK (p.e - q.e) (p.n - q.n) (p.u - q.u) =
      3 * (offset p q i * offset p q j) / rad (p.e - q.e) (p.n - q.n) (p.u - q.u) ^ 5
        - (1 : Matrix (Fin 3) (Fin 3) ℝ) i j / rad (p.e - q.e) (p.n - q.n) (p.u - q.u) ^ 3 := by
  fin_cases i <;> fin_cases j <;> simp [tensorComp, GComp.toK, kp, offset] <;> ring

/-- **C12.** Rotation equivariance: under an orthogonal transformation `R` of both points the
potential is unchanged, the acceleration is mapped by `R` and the gradient tensor by
`T ↦ R T Rᵀ`. -/
theorem C12_rotation (R : Matrix (Fin 3) (Fin 3) ℝ) (hR : R ∈ Matrix.orthogonalGroup (Fin 3) ℝ)
    (p q : Pt) (h : p ≠ q) (m : ℝ) :
    ∃ (V : ℝ) (g : Fin 3 → ℝ) (T : Matrix (Fin 3) (Fin 3) ℝ),
      (Returns (onPair (A := Exact) (pointGravity .pot) p q m) V ∧
        (∀ i, Returns (onPair (A := Exact) (pointGravity (accComp i)) p q m) (g i)) ∧
        ∀ i j, Returns (onPair (A := Exact) (pointGravity (tensorComp i j)) p q m) (T i j)) ∧
      (Returns (onPair (A := Exact) (pointGravity .pot) (p.map R) (q.map R) m) V ∧
        (∀ i, Returns (onPair (A := Exact) (pointGravity (accComp i)) (p.map R) (q.map R) m)
          (R.mulVec g i)) ∧
        ∀ i j, Returns (onPair (A := Exact) (pointGravity (tensorComp i j)) (p.map R) (q.map R) m)
          ((R * T * R.transpose) i j)) := by
  have hm := map_ne hR h
  have hr := rad_map hR p q
  set r := rad (p.e - q.e) (p.n - q.n) (p.u - q.u) with hrdef
  refine ⟨_, fun i => Gc * m * (-(offset p q i) / r ^ 3),
    Matrix.of fun i j => Gc * m * (3 * (offset p q i * offset p q j) / r ^ 5
      - (1 : Matrix (Fin 3) (Fin 3) ℝ) i j / r ^ 3), ⟨Ex.pointGravity_fin .pot h m, ?_, ?_⟩, ?_, ?_, ?_⟩
  · intro i
    unfold Returns
    rw [Ex.pointGravity_fin _ h, kp_acc]
  · intro i j
    unfold Returns
    rw [Ex.pointGravity_fin _ h, kp_tensor]
    rfl
  · unfold Returns
    rw [Ex.pointGravity_fin _ hm]
    simp only [GComp.toK, kp]
    rw [hr]
  · intro i
    unfold Returns
    rw [Ex.pointGravity_fin _ hm, kp_acc, hr, offset_map]
    congr 2
    simp only [Matrix.mulVec, dotProduct, Fin.sum_univ_three]
    ring
  · intro i j
    unfold Returns
    rw [Ex.pointGravity_fin _ hm, kp_tensor, hr, offset_map]
    congr 2
    have h1 : (1 : Matrix (Fin 3) (Fin 3) ℝ) i j = (R * R.transpose) i j := by
      rw [(Matrix.mem_orthogonalGroup_iff (Fin 3) ℝ).mp hR]
    rw [h1]
    simp only [Matrix.mul_apply, Matrix.mulVec, dotProduct, Fin.sum_univ_three, Matrix.transpose_apply,
      Matrix.of_apply, Matrix.one_apply]
    simp
    ring

/-- non-vacuity: a quarter turn about the vertical is orthogonal and not the identity -/
example : !![0, -1, 0; 1, 0, 0; 0, 0, (1 : ℝ)] ∈ Matrix.orthogonalGroup (Fin 3) ℝ := by
  rw [Matrix.mem_orthogonalGroup_iff]
  ext i j
  fin_cases i <;> fin_cases j <;> simp [Matrix.mul_apply, Fin.sum_univ_three]

end Choclo
