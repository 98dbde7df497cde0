import Verif.Lemmas.EquivSource
import Verif.Spec.KernelSteps

/-! # C142: equivalent sources under the observation points

`Pt.onPlane a t s` (Spec/Flux.lean) is the point of the plane `coordinate a = t` whose two other coordinates are `s`. -/

namespace Choclo

open Real Set MeasureTheory Filter Topology

variable {a : Axis} {t h : ℝ} {ι : Type*} [Fintype ι] {x : ι → ℝ × ℝ}

theorem kern2_diag_planes (a : Axis) (t t' : ℝ) (s y : ℝ × ℝ) :
    kpp (kern2 a a) (Pt.onPlane a t s) (Pt.onPlane a t' y) =
      3 * (t - t') ^ 2 / rad (t - t') (s - y).1 (s - y).2 ^ 5 - 1 / rad (t - t') (s - y).1 (s - y).2 ^ 3 := by
  rw [← dist3_planes a]
  cases a <;> simp only [kern2, kpp, kp, dist3_eq_rad] <;> simp only [Pt.onPlane, Pt.e, Pt.n, Pt.u] <;> ring

theorem pot_planes (a : Axis) (t t' : ℝ) (s y : ℝ × ℝ) :
    kpp .pot (Pt.onPlane a t s) (Pt.onPlane a t' y) = 1 / rad (t - t') (s - y).1 (s - y).2 := by
  rw [← dist3_planes a]
  simp only [kpp, kp, dist3_eq_rad, pow_one]

theorem planes_ne (hh : 0 < h) (s y : ℝ × ℝ) : Pt.onPlane a t s ≠ Pt.onPlane a (t - h) y := fun e => by
  have := congrArg (fun p => Pt.coord p a) e
  simp only [coord_onPlane] at this
  linarith

/-- the three forms -/
theorem forms (hx : Function.Injective x) (hh : 0 < h) {m : ι → ℝ} (hm : m ≠ 0) :
    0 < ∑ i, m i * ∑ j, m j * kpp .pot (Pt.onPlane a t (x i)) (Pt.onPlane a (t - h) (x j)) ∧
    ∑ i, m i * ∑ j, m j * kpp (kern1 a) (Pt.onPlane a t (x i)) (Pt.onPlane a (t - h) (x j)) < 0 ∧
    0 < ∑ i, m i * ∑ j, m j * kpp (kern2 a a) (Pt.onPlane a t (x i)) (Pt.onPlane a (t - h) (x j)) := by
  simp only [pot_planes, kern1_pois, kern2_diag_planes, sub_sub_cancel, mul_neg, Finset.sum_neg_distrib]
  exact ⟨formPot_pos hx hm hh, neg_lt_zero.2 (form_pos hx hm hh), formGrad_pos hx hm hh⟩

/-- a square system with a definite matrix has one solution -/
theorem definite_solves {A : ι → ι → ℝ} (hA : ∀ m : ι → ℝ, m ≠ 0 → ∑ i, m i * ∑ j, m j * A i j ≠ 0) (d : ι → ℝ) :
    ∃! m : ι → ℝ, ∀ i, ∑ j, m j * A i j = d i := by
  let L : (ι → ℝ) →ₗ[ℝ] (ι → ℝ) :=
    { toFun := fun m i => ∑ j, m j * A i j
      map_add' := fun m m' => by
        funext i; simp only [Pi.add_apply, add_mul, Finset.sum_add_distrib]
      map_smul' := fun k m => by
        funext i; simp only [Pi.smul_apply, smul_eq_mul, RingHom.id_apply, Finset.mul_sum, mul_assoc] }
  have inj : Function.Injective L := by
    rw [← LinearMap.ker_eq_bot, LinearMap.ker_eq_bot']
    intro m hm
    by_contra hne
    refine hA m hne ?_
    refine Finset.sum_eq_zero fun i _ => ?_
    have : ∑ j, m j * A i j = 0 := congrFun hm i
    rw [this, mul_zero]
  obtain ⟨m, hm⟩ := LinearMap.injective_iff_surjective.1 inj d
  refine ⟨m, fun i => congrFun hm i, fun m' hm' => inj ?_⟩
  rw [hm]
  exact funext hm'

/-! ## C142 -/

/-- **Equivalent sources.**  Point masses `m`, not all zero, at the depth `h` straight below different observation points of a plane:
the potentials and the normal gradients they produce at those points form a positive definite matrix, the normal accelerations a
negative definite one. -/
theorem C142_definite (hx : Function.Injective x) (hh : 0 < h) {m : ι → ℝ} (hm : m ≠ 0) :
    ∃ f : GComp → ι → ι → ℝ,
      (∀ c i j, Returns (onPair (A := Exact) (pointGravity c) (Pt.onPlane a t (x i)) (Pt.onPlane a (t - h) (x j)) (m j)) (f c i j)) ∧
      0 < ∑ i, m i * ∑ j, f .pot i j ∧ ∑ i, m i * ∑ j, f a.acc i j < 0 ∧ 0 < ∑ i, m i * ∑ j, f (tensor a a) i j := by
  refine ⟨fun c i j => Gc * m j * kpp c.toK (Pt.onPlane a t (x i)) (Pt.onPlane a (t - h) (x j)),
    fun c i j => Ex.pointGravity_fin c (planes_ne hh _ _) (m j), ?_⟩
  obtain ⟨h1, h2, h3⟩ := forms (a := a) (t := t) hx hh hm
  have e : ∀ k : KComp, ∑ i, m i * ∑ j, Gc * m j * kpp k (Pt.onPlane a t (x i)) (Pt.onPlane a (t - h) (x j)) =
      Gc * ∑ i, m i * ∑ j, m j * kpp k (Pt.onPlane a t (x i)) (Pt.onPlane a (t - h) (x j)) := fun k => by
    rw [Finset.mul_sum]
    refine Finset.sum_congr rfl fun i _ => ?_
    simp only [mul_assoc]
    rw [← Finset.mul_sum]; ring
  rw [e, e, e, acc_toK, tensor_toK]
  exact ⟨mul_pos Gc_pos h1, mul_neg_of_pos_of_neg Gc_pos h2, mul_pos Gc_pos h3⟩

/-- **There is exactly one set of equivalent sources.**  For any data at different points of a plane there are masses at the depth `h`
below the points, and only one choice of them, that produce the data: data of the potential, of the normal acceleration or of its
normal gradient. -/
theorem C142_unique (hx : Function.Injective x) (hh : 0 < h) {c : GComp} (hc : c = .pot ∨ c = a.acc ∨ c = tensor a a) (d : ι → ℝ) :
    ∃! m : ι → ℝ, ∀ i, ∃ f : ι → ℝ,
      (∀ j, Returns (onPair (A := Exact) (pointGravity c) (Pt.onPlane a t (x i)) (Pt.onPlane a (t - h) (x j)) (m j)) (f j)) ∧
        ∑ j, f j = d i := by
  have ret := fun i j (y : ℝ) => Ex.pointGravity_fin c (planes_ne (a := a) (t := t) hh (x i) (x j)) y
  have def0 : ∀ m : ι → ℝ, m ≠ 0 →
      ∑ i, m i * ∑ j, m j * (Gc * kpp c.toK (Pt.onPlane a t (x i)) (Pt.onPlane a (t - h) (x j))) ≠ 0 := by
    intro m hm
    obtain ⟨h1, h2, h3⟩ := forms (a := a) (t := t) hx hh hm
    have e : ∑ i, m i * ∑ j, m j * (Gc * kpp c.toK (Pt.onPlane a t (x i)) (Pt.onPlane a (t - h) (x j))) =
        Gc * ∑ i, m i * ∑ j, m j * kpp c.toK (Pt.onPlane a t (x i)) (Pt.onPlane a (t - h) (x j)) := by
      simp only [Finset.mul_sum]
      refine Finset.sum_congr rfl fun i _ => Finset.sum_congr rfl fun j _ => ?_
      ring
    rw [e]
    refine mul_ne_zero Gc_pos.ne' ?_
    rcases hc with rfl | rfl | rfl
    · exact h1.ne'
    · rw [acc_toK]; exact h2.ne
    · rw [tensor_toK]; exact h3.ne'
  have iff : ∀ (m : ι → ℝ) i, (∃ f : ι → ℝ,
      (∀ j, Returns (onPair (A := Exact) (pointGravity c) (Pt.onPlane a t (x i)) (Pt.onPlane a (t - h) (x j)) (m j)) (f j)) ∧
        ∑ j, f j = d i) ↔ ∑ j, m j * (Gc * kpp c.toK (Pt.onPlane a t (x i)) (Pt.onPlane a (t - h) (x j))) = d i := by
    intro m i
    have e : ∀ j, m j * (Gc * kpp c.toK (Pt.onPlane a t (x i)) (Pt.onPlane a (t - h) (x j))) =
        Gc * m j * kpp c.toK (Pt.onPlane a t (x i)) (Pt.onPlane a (t - h) (x j)) := fun j => by ring
    simp only [e]
    constructor
    · rintro ⟨f, hf, hs⟩
      rw [← hs]
      exact Finset.sum_congr rfl fun j _ => Returns.inj (ret i j (m j)) (hf j)
    · intro hs
      exact ⟨_, fun j => ret i j (m j), hs⟩
  simp only [iff]
  exact definite_solves def0 d

/-- The same for the kernels `kernel_pot`, `kernel_u`, `kernel_uu` (and those of the other axes): exactly one set of coefficients. -/
theorem C142_kernel (hx : Function.Injective x) (hh : 0 < h) {c : KComp} (hc : c = .pot ∨ c = kern1 a ∨ c = kern2 a a) (d : ι → ℝ) :
    ∃ k : ι → ι → ℝ, (∀ i j, Returns (callKernel (A := Exact) c (Pt.onPlane a t (x i)) (Pt.onPlane a (t - h) (x j))) (k i j)) ∧
      ∃! m : ι → ℝ, ∀ i, ∑ j, m j * k i j = d i := by
  refine ⟨fun i j => kpp c (Pt.onPlane a t (x i)) (Pt.onPlane a (t - h) (x j)),
    fun i j => Ex.callKernel_fin c (planes_ne hh _ _), definite_solves (fun m hm => ?_) d⟩
  obtain ⟨h1, h2, h3⟩ := forms (a := a) (t := t) hx hh hm
  rcases hc with rfl | rfl | rfl
  · exact h1.ne'
  · exact h2.ne
  · exact h3.ne'

/-- The same for dipoles whose moments are normal to the plane and the normal component of their field. -/
theorem C142_dipole (hx : Function.Injective x) (hh : 0 < h) (d : ι → ℝ) :
    ∃! m : ι → ℝ, ∀ i, ∃ f : ι → ℝ,
      (∀ j, Returns (onPair (A := Exact) (dipoleMagnetic a) (Pt.onPlane a t (x i)) (Pt.onPlane a (t - h) (x j))
        (Pt.set (0, 0, 0) a (m j)).e (Pt.set (0, 0, 0) a (m j)).n (Pt.set (0, 0, 0) a (m j)).u) (f j)) ∧
        ∑ j, f j = d i := by
  have val : ∀ (p q : Pt) (y : ℝ), Bd a p q (Pt.set (0, 0, 0) a y) = y * (mu0 / 4 / π * kpp (kern2 a a) p q) := fun p q y => by
    unfold Bd kpp
    cases a <;> simp only [Pt.set, Pt.e, Pt.n, Pt.u] <;> ring
  have ret := fun i j (y : ℝ) => dipole_fin a (planes_ne (a := a) (t := t) hh (x i) (x j)) (Pt.set (0, 0, 0) a y)
  have k0 : mu0 / 4 / π ≠ 0 := by
    have := Real.pi_pos
    have : mu0 ≠ 0 := by unfold mu0; norm_num
    positivity
  have def0 : ∀ m : ι → ℝ, m ≠ 0 →
      ∑ i, m i * ∑ j, m j * (mu0 / 4 / π * kpp (kern2 a a) (Pt.onPlane a t (x i)) (Pt.onPlane a (t - h) (x j))) ≠ 0 := by
    intro m hm
    obtain ⟨-, -, h3⟩ := forms (a := a) (t := t) hx hh hm
    have e : ∑ i, m i * ∑ j, m j * (mu0 / 4 / π * kpp (kern2 a a) (Pt.onPlane a t (x i)) (Pt.onPlane a (t - h) (x j))) =
        mu0 / 4 / π * ∑ i, m i * ∑ j, m j * kpp (kern2 a a) (Pt.onPlane a t (x i)) (Pt.onPlane a (t - h) (x j)) := by
      simp only [Finset.mul_sum]
      refine Finset.sum_congr rfl fun i _ => Finset.sum_congr rfl fun j _ => ?_
      ring
    rw [e]
    exact mul_ne_zero k0 h3.ne'
  have iff : ∀ (m : ι → ℝ) i, (∃ f : ι → ℝ,
      (∀ j, Returns (onPair (A := Exact) (dipoleMagnetic a) (Pt.onPlane a t (x i)) (Pt.onPlane a (t - h) (x j))
        (Pt.set (0, 0, 0) a (m j)).e (Pt.set (0, 0, 0) a (m j)).n (Pt.set (0, 0, 0) a (m j)).u) (f j)) ∧
        ∑ j, f j = d i) ↔ ∑ j, m j * (mu0 / 4 / π * kpp (kern2 a a) (Pt.onPlane a t (x i)) (Pt.onPlane a (t - h) (x j))) = d i := by
    intro m i
    simp only [← val]
    constructor
    · rintro ⟨f, hf, hs⟩
      rw [← hs]
      exact Finset.sum_congr rfl fun j _ => Returns.inj (ret i j (m j)) (hf j)
    · intro hs
      exact ⟨_, fun j => ret i j (m j), hs⟩
  simp only [iff]
  exact definite_solves def0 d

/-- **Different points are needed.**  If two of the observation points coincide, so do the sources below them, and many choices of
masses produce the same data. -/
theorem C142_coincident [DecidableEq ι] {i j : ι} (hij : i ≠ j) (he : x i = x j) (hh : 0 < h) (c : GComp) :
    ∃ m : ι → ℝ, m ≠ 0 ∧ ∀ p : Pt, p.coord a = t → ∃ f : ι → ℝ,
      (∀ k, Returns (onPair (A := Exact) (pointGravity c) p (Pt.onPlane a (t - h) (x k)) (m k)) (f k)) ∧ ∑ k, f k = 0 := by
  refine ⟨fun k => (if k = i then 1 else 0) - (if k = j then 1 else 0), fun hz => ?_, fun p hp => ?_⟩
  · have := congrFun hz i
    simp [hij] at this
  · have hne : ∀ k, p ≠ Pt.onPlane a (t - h) (x k) := fun k e => by
      rw [e, coord_onPlane] at hp; linarith
    refine ⟨_, fun k => Ex.pointGravity_fin c (hne k) _, ?_⟩
    simp only [mul_sub, sub_mul, Finset.sum_sub_distrib, mul_ite, mul_one, mul_zero, ite_mul, zero_mul, Finset.sum_ite_eq',
      Finset.mem_univ, if_true]
    rw [he, sub_self]

/-- non-vacuity: two different points of a plane, and masses that are not all zero -/
example : Function.Injective (fun i : Fin 2 => (((i : ℕ) : ℝ), (0 : ℝ))) ∧ (fun _ : Fin 2 => (1 : ℝ)) ≠ 0 := by
  constructor
  · intro i j e
    have := congrArg Prod.fst e
    simp only at this
    exact Fin.ext (by exact_mod_cast this)
  · intro e
    have := congrFun e 0
    simp at this

end Choclo
