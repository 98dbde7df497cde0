import Verif.Lemmas.Scaling
import Verif.Model.Binary53
import Verif.Props.Bits3
import Verif.Props.ErrorBound
import Verif.Spec.PrismSym
import Verif.Lemmas.Unroll

/-! # C82: changing units by powers of two, bit for bit -/

namespace Choclo

variable {A : Arith}

/-- Number of axis letters in the name of a point kernel. -/
def KComp.letterCount (c : KComp) : ℕ := c.index.1 + c.index.2.1 + c.index.2.2

/-- **C82.** Barring over- and underflow, multiplying all coordinates by a power of two multiplies the
computed distance by exactly that power of two, -/
theorem C82_distance (hA : A.ScaleInvariant) (k : ℤ) (e n u e' n' u' : Fl A) :
    utils.distance_cartesian (e.scale k) (n.scale k) (u.scale k) (e'.scale k) (n'.scale k) (u'.scale k) =
      Py.scaled k (utils.distance_cartesian e n u e' n' u') := by
  unfold utils.distance_cartesian
  simp only [Fl.scale_sub hA, Fl.scale_pow hA _ _ _ two_ne_zero, Fl.scale_add hA]
  show (pure _ : Py (Fl A)) = pure (Fl.scale k _)
  rw [← Fl.scale_sqrt hA]
  rfl

theorem scale_div_left (hA : A.ScaleInvariant) (k : ℤ) (a b : Fl A) : a /. b.scale k = Py.scaled (-k) (a /. b) := by
  have := Fl.scale_div hA 0 k a b
  rwa [Fl.scale_by_zero, zero_sub] at this

/-- each of the twenty point kernels by the power its dimension says, -/
theorem C82_kernel (hA : A.ScaleInvariant) (k : ℤ) (c : KComp) (e n u e' n' u' d : Fl A) :
    pointKernel c (e.scale k) (n.scale k) (u.scale k) (e'.scale k) (n'.scale k) (u'.scale k) (d.scale k) =
      Py.scaled (-(1 + c.letterCount) * k) (pointKernel c e n u e' n' u' d) := by
  cases c <;>
  simp only [pointKernel, KComp.letterCount, KComp.index, point.kernel_pot, point.kernel_e, point.kernel_n, point.kernel_u,
    point.kernel_ee, point.kernel_nn, point.kernel_uu, point.kernel_en, point.kernel_eu, point.kernel_nu,
    point.kernel_eee, point.kernel_nnn, point.kernel_uuu, point.kernel_een, point.kernel_eeu, point.kernel_nne,
    point.kernel_nnu, point.kernel_uue, point.kernel_uun, point.kernel_enu,
    Fl.scale_sub hA, Fl.scale_neg, Fl.scale_pow hA _ _ 2 two_ne_zero, Fl.scale_pow hA _ _ 3 three_ne_zero,
    Fl.scale_pow hA _ _ 5 (by norm_num : 5 ≠ 0), Fl.scale_pow hA _ _ 7 (by norm_num : 7 ≠ 0),
    Fl.mul_scale hA, Fl.scale_mul_left hA, Fl.scale_scale]
  case pot => rw [scale_div_left hA]; congr 1; push_cast; ring
  all_goals first
    | (rw [Fl.scale_div hA]; congr 1; push_cast; ring1)
    | (refine sub_div_scale hA ?_ ?_ _ _ _ _ <;> push_cast <;> ring1)
    | (have h1 := sub_div_scale hA (j := 2 * k) (k := 5 * k) (l := 0) (m := 3 * k) (t := -(1 + 2) * k)
        (by ring) (by ring)
       simp only [Fl.scale_by_zero] at h1
       exact_mod_cast h1 _ _ _ _)

theorem Py.scaled_bind' {k l : ℤ} {X : Py (Fl A)} {f g : Fl A → Py (Fl A)}
    (h : ∀ a, f (a.scale k) = Py.scaled l (g a)) : (Py.scaled k X >>= f) = Py.scaled l (X >>= g) := by
  cases X with
  | error e => rfl
  | ok a => exact h a

theorem Py.scaled_ret (hA : A.ScaleInvariant) {j k : ℤ} {X : Py (Fl A)} (a b : Fl A) :
    (Py.scaled k X >>= fun x => pure (a * b.scale j * x)) = Py.scaled (j + k) (X >>= fun x => pure (a * b * x)) := by
  cases X with
  | error e => rfl
  | ok x =>
    show Except.ok (a * b.scale j * x.scale k) = Except.ok (Fl.scale (j + k) (a * b * x))
    rw [Fl.mul_scale hA j a b, Fl.scale_mul hA]

/-- every `point.gravity_*` by the power its dimension says (`2 ^ j` for the mass), -/
theorem C82_point (hA : A.ScaleInvariant) (k j : ℤ) (c : GComp) (e n u e' n' u' m : Fl A) :
    pointGravity c (e.scale k) (n.scale k) (u.scale k) (e'.scale k) (n'.scale k) (u'.scale k) (m.scale j) =
      Py.scaled (j - (1 + c.letters) * k) (pointGravity c e n u e' n' u' m) := by
  have key : ∀ (K : KComp) (d : Fl A),
      (do
        let kernel ← pointKernel K (e.scale k) (n.scale k) (u.scale k) (e'.scale k) (n'.scale k) (u'.scale k) (d.scale k)
        return GRAVITATIONAL_CONST * m.scale j * kernel : Py (Fl A)) =
      Py.scaled (j + -(1 + K.letterCount) * k) (do
        let kernel ← pointKernel K e n u e' n' u' d
        return GRAVITATIONAL_CONST * m * kernel) := by
    intro K d
    rw [C82_kernel hA, Py.scaled_ret hA]
  have e1 : ∀ L : ℤ, j - (1 + L) * k = j + -(1 + L) * k := fun L => by ring
  rw [e1]
  cases c <;>
    simp only [pointGravity, point.gravity_pot, point.gravity_e, point.gravity_n, point.gravity_u, point.gravity_ee,
      point.gravity_nn, point.gravity_uu, point.gravity_en, point.gravity_eu, point.gravity_nu, C82_distance hA]
  · exact Py.scaled_bind' fun d => key .pot d
  · exact Py.scaled_bind' fun d => key .e d
  · exact Py.scaled_bind' fun d => key .n d
  · exact Py.scaled_bind' fun d => key .u d
  · exact Py.scaled_bind' fun d => key .ee d
  · exact Py.scaled_bind' fun d => key .nn d
  · exact Py.scaled_bind' fun d => key .uu d
  · exact Py.scaled_bind' fun d => key .en d
  · exact Py.scaled_bind' fun d => key .eu d
  · exact Py.scaled_bind' fun d => key .nu d

theorem Py.scaled_tail (hA : A.ScaleInvariant) (l : ℤ) (v : Fl A) : (do
      let z ← (VACUUM_MAGNETIC_PERMEABILITY : Fl A) /. 4
      let w ← z /. Fl.pi
      pure (w * v.scale l)) = Py.scaled l (do
      let z ← (VACUUM_MAGNETIC_PERMEABILITY : Fl A) /. 4
      let w ← z /. Fl.pi
      pure (w * v)) := by
  cases (VACUUM_MAGNETIC_PERMEABILITY : Fl A) /. 4 with
  | error err => rfl
  | ok z =>
    show (do let w ← z /. Fl.pi; pure (w * v.scale l) : Py (Fl A)) =
      Py.scaled l (do let w ← z /. Fl.pi; pure (w * v))
    cases z /. Fl.pi with
    | error err => rfl
    | ok w => exact congrArg Except.ok (Fl.mul_scale hA l w v)

/-- the field of a dipole by the moment's power and the inverse cube of the lengths', -/
theorem C82_dipole (hA : A.ScaleInvariant) (k j : ℤ) (a : Axis) (e n u e' n' u' me mn mu : Fl A) :
    dipoleMagnetic a (e.scale k) (n.scale k) (u.scale k) (e'.scale k) (n'.scale k) (u'.scale k)
        (me.scale j) (mn.scale j) (mu.scale j) =
      Py.scaled (j - 3 * k) (dipoleMagnetic a e n u e' n' u' me mn mu) := by
  have key : ∀ {l1 m1 l2 m2 : ℤ} (_ : l1 - m1 = j - 3 * k) (_ : l2 - m2 = j - 3 * k) (a b c d : Fl A),
      (do
        let x ← a.scale l1 /. b.scale m1
        let y ← c.scale l2 /. d.scale m2
        let z ← (VACUUM_MAGNETIC_PERMEABILITY : Fl A) /. 4
        let w ← z /. Fl.pi
        pure (w * (x - y)) : Py (Fl A)) = Py.scaled (j - 3 * k) (do
        let x ← a /. b
        let y ← c /. d
        let z ← (VACUUM_MAGNETIC_PERMEABILITY : Fl A) /. 4
        let w ← z /. Fl.pi
        pure (w * (x - y))) := by
    intro l1 m1 l2 m2 h1 h2 a b c d
    rw [Fl.scale_div hA, Fl.scale_div hA, h1, h2]
    refine Py.scaled_bind' fun x => ?_
    refine Py.scaled_bind' fun y => ?_
    rw [Fl.scale_sub hA]
    exact Py.scaled_tail hA _ _
  cases a <;>
  · simp only [dipoleMagnetic, dipole.magnetic_e, dipole.magnetic_n, dipole.magnetic_u, Fl.scale_sub hA,
      Fl.scale_pow hA _ _ 2 two_ne_zero, Fl.scale_add hA, Nat.cast_ofNat, Fl.scale_sqrt hA, Fl.scale_mul hA,
      Fl.scale_pow hA _ _ 5 (by norm_num : 5 ≠ 0), Fl.scale_pow hA _ _ 3 three_ne_zero, Fl.mul_scale hA]
    exact key (by ring) (by ring) _ _ _ _

/-! ### prisms -/

theorem Py.scaled_if {c : Prop} [Decidable c] {l : ℤ} {X Y : Py (Fl A)} (h : X = Py.scaled l Y) :
    (if c then (.ok Fl.nan : Py (Fl A)) else X) = Py.scaled l (if c then .ok Fl.nan else Y) := by
  split
  · rfl
  · exact h

/-- every `prism.gravity_*` by the density's power, -/
theorem C82_density (hA : A.ScaleInvariant) (j : ℤ) (c : GComp) (e n u w E s N b t ρ : Fl A) :
    prismGravity c e n u w E s N b t (ρ.scale j) = Py.scaled j (prismGravity c e n u w E s N b t ρ) := by
  obtain ⟨K, hK⟩ := factored_prism c e n u w E s N b t
  rw [hK, hK]
  have := Py.scaled_ret hA (j := j) (k := 0) (X := K) GRAVITATIONAL_CONST ρ
  rwa [Py.scaled_by_zero, add_zero] at this

/-- a kernel that is homogeneous of degree `l` in floating point -/
def HomKernel (k l : ℤ) (K : prism.Kernel A) : Prop :=
  ∀ x y z r, K (Fl.scale k x) (Fl.scale k y) (Fl.scale k z) (Fl.scale k r) = Py.scaled l (K x y z r)

theorem HomKernel.vker (hA : A.ScaleInvariant) {k l : ℤ} {K : prism.Kernel A} (h : HomKernel k l K) (x y z : Fl A) :
    prism.vker K (x.scale k) (y.scale k) (z.scale k) = Py.scaled l (prism.vker K x y z) := by
  unfold prism.vker prism.vrad
  simp only [Fl.scale_pow hA _ _ 2 two_ne_zero, Fl.scale_add hA, Nat.cast_ofNat, Fl.scale_sqrt hA]
  exact h x y z _

theorem HomKernel.id (K : prism.Kernel A) : HomKernel 0 0 K := by
  intro x y z r
  simp only [Fl.scale_by_zero, Py.scaled_by_zero]

theorem compStep_scale (hA : A.ScaleInvariant) {k l j : ℤ} {K1 K2 K3 : prism.Kernel A} (h1 : HomKernel k l K1)
    (h2 : HomKernel k l K2) (h3 : HomKernel k l K3) (m : ℕ) (x y z Me Mn Mu acc : Fl A) :
    prism.compStep m (x.scale k) (y.scale k) (z.scale k) (Me.scale j) (Mn.scale j) (Mu.scale j) K1 K2 K3
      (acc.scale (j + l)) = Py.scaled (j + l) (prism.compStep m x y z Me Mn Mu K1 K2 K3 acc) := by
  unfold prism.compStep
  rw [h1.vker hA, h2.vker hA, h3.vker hA]
  refine Py.scaled_bind' fun a => ?_
  refine Py.scaled_bind' fun b => ?_
  refine Py.scaled_bind' fun c => ?_
  rw [Fl.scale_mul hA, Fl.scale_mul hA, Fl.scale_mul hA, Fl.scale_add hA, Fl.scale_add hA, Fl.mul_scale hA,
    Fl.scale_add hA]
  rfl

theorem component_scale (hA : A.ScaleInvariant) {k l j : ℤ} {K1 K2 K3 : prism.Kernel A} (h1 : HomKernel k l K1)
    (h2 : HomKernel k l K2) (h3 : HomKernel k l K3) (e n u w E s N b t Me Mn Mu : Fl A) :
    prism._calculate_component (e.scale k) (n.scale k) (u.scale k) (w.scale k) (E.scale k) (s.scale k) (N.scale k)
        (b.scale k) (t.scale k) (Me.scale j) (Mn.scale j) (Mu.scale j) K1 K2 K3 =
      Py.scaled (j + l) (prism._calculate_component e n u w E s N b t Me Mn Mu K1 K2 K3) := by
  rw [prism.calculate_component_steps, prism.calculate_component_steps]
  simp only [Fl.scale_sub hA]
  have step0 : ∀ x y z : Fl A, prism.compStep 0 (x.scale k) (y.scale k) (z.scale k) (Me.scale j) (Mn.scale j) (Mu.scale j)
      K1 K2 K3 0 = Py.scaled (j + l) (prism.compStep 0 x y z Me Mn Mu K1 K2 K3 0) := by
    intro x y z
    have := compStep_scale hA h1 h2 h3 (j := j) 0 x y z Me Mn Mu 0
    rwa [Fl.scale_zero] at this
  rw [step0]
  iterate 7
    refine Py.scaled_bind' fun v => ?_
    rw [compStep_scale hA h1 h2 h3]

/-- every `prism.magnetic_*` by the magnetization's power, -/
theorem C82_magnetization (hA : A.ScaleInvariant) (j : ℤ) (c : MComp) (e n u w E s N b t Me Mn Mu : Fl A) :
    prismMagnetic c e n u w E s N b t (Me.scale j) (Mn.scale j) (Mu.scale j) =
      Py.scaled j (prismMagnetic c e n u w E s N b t Me Mn Mu) := by
  have hc : ∀ K1 K2 K3 : prism.Kernel A, prism._calculate_component e n u w E s N b t (Me.scale j) (Mn.scale j) (Mu.scale j) K1 K2 K3 =
      Py.scaled j (prism._calculate_component e n u w E s N b t Me Mn Mu K1 K2 K3) := by
    intro K1 K2 K3
    have := component_scale hA (j := j) (HomKernel.id K1) (HomKernel.id K2) (HomKernel.id K3) e n u w E s N b t Me Mn Mu
    simpa only [Fl.scale_by_zero, add_zero] using this
  cases c
  case e | n | u =>
    simp only [prismMagnetic, prism.magnetic_e, prism.magnetic_n, prism.magnetic_u]
    refine Py.scaled_if ?_
    rw [hc]
    refine Py.scaled_bind' fun v => ?_
    split
    · rw [Fl.mul_scale hA, Fl.scale_add hA]
      exact Py.scaled_tail hA _ _
    · exact Py.scaled_tail hA _ _
  all_goals
    simp only [prismMagnetic, prism.magnetic_ee, prism.magnetic_nn, prism.magnetic_uu,
      prism.magnetic_en, prism.magnetic_eu, prism.magnetic_nu]
    refine Py.scaled_if ?_
    rw [hc]
    exact Py.scaled_bind' fun v => Py.scaled_tail hA _ v

/-! #### lengths -/

theorem safe_atan2_scale (hA : A.ScaleInvariant) (k : ℤ) (y x : Fl A) :
    prism._safe_atan2 (y.scale k) (x.scale k) = prism._safe_atan2 y x := by
  unfold prism._safe_atan2
  simp only [Fl.eq_scale_zero, Fl.lt_scale_zero, Fl.lt_zero_scale, Fl.scale_div hA, sub_self, Py.scaled_by_zero]

theorem hom_diag (hA : A.ScaleInvariant) (k : ℤ) : HomKernel (A := A) k 0 prism.kernel_ee ∧
    HomKernel (A := A) k 0 prism.kernel_nn ∧ HomKernel (A := A) k 0 prism.kernel_uu := by
  refine ⟨fun x y z r => ?_, fun x y z r => ?_, fun x y z r => ?_⟩ <;>
  simp only [prism.kernel_ee, prism.kernel_nn, prism.kernel_uu, Fl.eq_scale_zero, Fl.scale_mul hA, safe_atan2_scale hA,
    Py.scaled_by_zero]

theorem hom_iij (hA : A.ScaleInvariant) (k : ℤ) : HomKernel (A := A) k (-k) prism._kernel_iij := by
  intro x y z r
  unfold prism._kernel_iij
  simp only [Fl.eq_scale_zero]
  split
  · rfl
  · split
    · show Except.ok (0 : Fl A) = Except.ok (Fl.scale (-k) 0)
      rw [Fl.scale_zero]
    · simp only [Fl.scale_mul hA, Fl.scale_pow hA _ _ 2 two_ne_zero, Fl.scale_add hA, Fl.scale_div hA]
      congr 1
      push_cast; ring

theorem hom_iii (hA : A.ScaleInvariant) (k : ℤ) : HomKernel (A := A) k (-k) prism._kernel_iii := by
  intro x y z r
  unfold prism._kernel_iii
  simp only [Fl.eq_scale_zero]
  split
  · rfl
  · split
    · show Except.ok (0 : Fl A) = Except.ok (Fl.scale (-k) 0)
      rw [Fl.scale_zero]
    · simp only [Fl.scale_mul hA, Fl.scale_pow hA _ _ 2 two_ne_zero, Fl.mul_scale hA, Fl.scale_neg, Fl.scale_add hA,
        Fl.scale_div hA]
      congr 1
      push_cast; ring

theorem hom_enu (hA : A.ScaleInvariant) (k : ℤ) : HomKernel (A := A) k (-k) prism.kernel_enu := by
  intro x y z r
  unfold prism.kernel_enu
  simp only [Fl.eq_scale_zero]
  split
  · rfl
  · simp only [scale_div_left hA]

theorem evaluate_scale (hA : A.ScaleInvariant) {k l : ℤ} {K : prism.Kernel A} (h : HomKernel k l K)
    (e n u w E s N b t : Fl A) :
    prism._evaluate_kernel (e.scale k) (n.scale k) (u.scale k) (w.scale k) (E.scale k) (s.scale k) (N.scale k)
        (b.scale k) (t.scale k) K = Py.scaled l (prism._evaluate_kernel e n u w E s N b t K) := by
  rw [prism.evaluate_kernel_unroll, prism.evaluate_kernel_unroll]
  simp only [Fl.scale_sub hA, h.vker hA]
  iterate 8 refine Py.scaled_bind' fun _ => ?_
  simp only [Fl.mul_scale hA]
  conv_lhs => rw [← Fl.scale_zero (A := A) l]
  simp only [Fl.scale_add hA]
  rfl

/-- the diagonal gravity tensor components do not change at all when all lengths change by a power of two, -/
theorem C82_diagonal (hA : A.ScaleInvariant) (k : ℤ) (a : Axis) (e n u w E s N b t ρ : Fl A) :
    prismGravity a.diag (e.scale k) (n.scale k) (u.scale k) (w.scale k) (E.scale k) (s.scale k) (N.scale k)
        (b.scale k) (t.scale k) ρ = prismGravity a.diag e n u w E s N b t ρ := by
  obtain ⟨h1, h2, h3⟩ := hom_diag hA k
  cases a <;>
  simp only [Axis.diag, prismGravity, prism.gravity_ee, prism.gravity_nn, prism.gravity_uu, evaluate_scale hA h1,
    evaluate_scale hA h2, evaluate_scale hA h3, Py.scaled_by_zero, prism.is_point_on_easting_edge,
    prism.is_point_on_northing_edge, prism.is_point_on_upward_edge, prism.is_point_on_east_face,
    prism.is_point_on_north_face, prism.is_point_on_top_face, Fl.lt_scale, Fl.le_scale, Fl.eq_scale] <;> rfl

/-- and the magnetic gradients are divided by exactly that power of two. -/
theorem C82_gradient (hA : A.ScaleInvariant) (k j : ℤ) (a b' : Axis) (e n u w E s N b t Me Mn Mu : Fl A) :
    prismMagnetic (gradComp a b') (e.scale k) (n.scale k) (u.scale k) (w.scale k) (E.scale k) (s.scale k) (N.scale k)
        (b.scale k) (t.scale k) (Me.scale j) (Mn.scale j) (Mu.scale j) =
      Py.scaled (j - k) (prismMagnetic (gradComp a b') e n u w E s N b t Me Mn Mu) := by
  have hiii := hom_iii hA k
  have hiij := hom_iij hA k
  have henu := hom_enu hA k
  have key : ∀ {K1 K2 K3 : prism.Kernel A}, HomKernel k (-k) K1 → HomKernel k (-k) K2 → HomKernel k (-k) K3 →
      (prism._calculate_component (e.scale k) (n.scale k) (u.scale k) (w.scale k) (E.scale k) (s.scale k) (N.scale k)
        (b.scale k) (t.scale k) (Me.scale j) (Mn.scale j) (Mu.scale j) K1 K2 K3 >>= fun v => do
      let z ← (VACUUM_MAGNETIC_PERMEABILITY : Fl A) /. 4
      let w ← z /. Fl.pi
      pure (w * v)) = Py.scaled (j - k) (prism._calculate_component e n u w E s N b t Me Mn Mu K1 K2 K3 >>= fun v => do
      let z ← (VACUUM_MAGNETIC_PERMEABILITY : Fl A) /. 4
      let w ← z /. Fl.pi
      pure (w * v)) := by
    intro K1 K2 K3 h1 h2 h3
    rw [component_scale hA h1 h2 h3]
    exact Py.scaled_bind' fun v => Py.scaled_tail hA _ v
  have e1 : HomKernel (A := A) k (-k) prism.kernel_eee := fun x y z r => hiii x y z r
  have e2 : HomKernel (A := A) k (-k) prism.kernel_nnn := fun x y z r => hiii _ _ _ r
  have e3 : HomKernel (A := A) k (-k) prism.kernel_uuu := fun x y z r => hiii _ _ _ r
  have e4 : HomKernel (A := A) k (-k) prism.kernel_een := fun x y z r => hiij _ _ _ r
  have e5 : HomKernel (A := A) k (-k) prism.kernel_eeu := fun x y z r => hiij _ _ _ r
  have e6 : HomKernel (A := A) k (-k) prism.kernel_enn := fun x y z r => hiij _ _ _ r
  have e7 : HomKernel (A := A) k (-k) prism.kernel_nnu := fun x y z r => hiij _ _ _ r
  have e8 : HomKernel (A := A) k (-k) prism.kernel_euu := fun x y z r => hiij _ _ _ r
  have e9 : HomKernel (A := A) k (-k) prism.kernel_nuu := fun x y z r => hiij _ _ _ r
  cases a <;> cases b' <;>
  · simp only [gradComp, prismMagnetic, prism.magnetic_ee, prism.magnetic_nn, prism.magnetic_uu,
      prism.magnetic_en, prism.magnetic_eu, prism.magnetic_nu, prism.is_point_on_edge, prism.is_interior_point,
      prism.is_point_on_easting_edge, prism.is_point_on_northing_edge, prism.is_point_on_upward_edge,
      Fl.lt_scale, Fl.le_scale, Fl.eq_scale]
    refine Py.scaled_if ?_
    first
      | exact key e1 e4 e5 | exact key e6 e2 e7 | exact key e8 e9 e3 | exact key e4 e6 henu
      | exact key e5 henu e8 | exact key henu e7 e9

/-! ### IEEE double precision, with its limits -/

theorem G64 : ∃ G0 : ℝ, Binary64.rnd 6.6743e-11 = .fin G0 ∧ 2 ^ (-34 : ℤ) ≤ G0 ∧ G0 ≤ 2 ^ (-33 : ℤ) := by
  have h1 : (2 : ℝ) ^ (-34 : ℤ) ≤ 6.6743e-11 := by norm_num
  have h2 : (6.6743e-11 : ℝ) ≤ 2 ^ (-33 : ℤ) := by norm_num
  refine ⟨B64.round 6.6743e-11, ?_, ?_, ?_⟩
  · refine B64.rnd_of_le ?_
    rw [abs_of_nonneg (by norm_num)]
    exact h2.trans (zpow_le_zpow_right₀ (by norm_num) (by norm_num))
  · have := B64.round_mono h1
    rwa [(B64.isF_zpow (by norm_num : (-1074 : ℤ) ≤ -34)).round] at this
  · have := B64.round_mono h2
    rwa [(B64.isF_zpow (by norm_num : (-1074 : ℤ) ≤ -33)).round] at this

theorem Factored.double {f : Fl Binary64 → Py (Fl Binary64)} {K : Py (Fl Binary64)} (h : Factored f K) {ρ y : ℝ} {j : ℤ}
    (h1 : 2 ^ (-980 : ℤ) ≤ |ρ|) (h2 : 2 ^ (-980 : ℤ) ≤ |2 ^ j * ρ|) (h3 : |2 ^ j * ρ| ≤ 2 ^ (1023 : ℤ))
    (hy : Returns (f ρ) y) (h4 : 2 ^ (-1022 : ℤ) < |y|) (h5 : 2 ^ (-1022 : ℤ) < |2 ^ j * y|)
    (h6 : |2 ^ j * y| < 2 ^ (1024 : ℤ)) : Returns (f ((2 ^ j * ρ : ℝ) : Fl Binary64)) (2 ^ j * y) := by
  obtain ⟨G0, g, k, a, b, c, d⟩ := h.spec hy
  obtain ⟨G1, a', l1, l2⟩ := G64
  obtain rfl : G0 = G1 := Raw.fin.inj (a.symm.trans a')
  have hj := B64.two_zpow_pos j
  have hG : 0 < G0 := lt_of_lt_of_le (B64.two_zpow_pos _) l1
  obtain ⟨b1, -⟩ := B64.rnd_eq_fin b
  obtain ⟨d1, -⟩ := B64.rnd_eq_fin d
  have lo : ∀ {r : ℝ}, 2 ^ (-980 : ℤ) ≤ |r| → (2 : ℝ) ^ (-1022 : ℤ) ≤ |G0 * r| := by
    intro r hr
    rw [abs_mul, abs_of_pos hG]
    calc (2 : ℝ) ^ (-1022 : ℤ) ≤ 2 ^ (-34 : ℤ) * 2 ^ (-980 : ℤ) := by
          rw [← zpow_add₀ (by norm_num)]; exact zpow_le_zpow_right₀ (by norm_num) (by norm_num)
      _ ≤ _ := mul_le_mul l1 hr (B64.two_zpow_pos _).le hG.le
  have e1 : G0 * (2 ^ j * ρ) = 2 ^ j * (G0 * ρ) := by ring
  have b2 : B64.rnd (G0 * (2 ^ j * ρ)) = .fin (2 ^ j * g) := by
    rw [B64.rnd_of_le, e1, B64.round_scale (lo h1) (by rw [← e1]; exact lo h2), b1]
    rw [abs_mul, abs_of_pos hG]
    calc G0 * |2 ^ j * ρ| ≤ 2 ^ (-33 : ℤ) * 2 ^ (1023 : ℤ) := mul_le_mul l2 h3 (abs_nonneg _) (B64.two_zpow_pos _).le
      _ ≤ _ := by rw [← zpow_add₀ (by norm_num)]; exact zpow_le_zpow_right₀ (by norm_num) (by norm_num)
  have n1 : (2 : ℝ) ^ (-1022 : ℤ) ≤ |g * k| := by
    by_contra hh
    have := B64.round_mono (not_le.1 hh).le
    rw [← B64.abs_round, d1, (B64.isF_zpow (by norm_num : (-1074 : ℤ) ≤ -1022)).round] at this
    exact absurd h4 (not_lt.2 this)
  have n2 : (2 : ℝ) ^ (-1022 : ℤ) ≤ |2 ^ j * (g * k)| := by
    by_contra hh
    rw [not_le, abs_mul, abs_of_pos hj, ← lt_div_iff₀' hj, ← zpow_sub₀ (by norm_num)] at hh
    have hz : (-1022 : ℤ) < -1022 - j := by
      have := n1.trans_lt hh
      exact (zpow_lt_zpow_iff_right₀ (by norm_num)).1 this
    have := B64.round_mono hh.le
    rw [← B64.abs_round, d1, (B64.isF_zpow (by omega : (-1074 : ℤ) ≤ -1022 - j)).round, zpow_sub₀ (by norm_num),
      le_div_iff₀' hj] at this
    rw [abs_mul, abs_of_pos hj] at h5
    exact absurd h5 (not_lt.2 this)
  have d2 : B64.rnd (2 ^ j * g * k) = .fin (2 ^ j * y) := by
    have e2 : B64.round (2 ^ j * g * k) = 2 ^ j * y := by rw [mul_assoc, B64.round_scale n1 n2, d1]
    unfold B64.rnd
    rw [e2, if_pos h6]
  unfold Returns
  rw [h, c]
  show Except.ok _ = Except.ok _
  congr 1
  have e : (GRAVITATIONAL_CONST : Fl Binary64) = (G0 : Fl Binary64) := a
  rw [e]
  show Fl.mul (Fl.ofRaw (B64.rnd (G0 * (2 ^ j * ρ)))) (Fl.fin k) = Fl.fin (2 ^ j * y)
  rw [b2]
  show Fl.ofRaw (B64.rnd (2 ^ j * g * k)) = Fl.fin (2 ^ j * y)
  rw [d2]; rfl

/-- **C82.** In IEEE double precision proper: multiplying the density by a power of two multiplies the
returned double by exactly that power of two, whenever neither result is subnormal or overflows
(densities above `2^-980 ≈ 1e-295`). -/
theorem C82_density_double (c : GComp) (p : Pt) (P : Box) {ρ y : ℝ} {j : ℤ}
    (h1 : 2 ^ (-980 : ℤ) ≤ |ρ|) (h2 : 2 ^ (-980 : ℤ) ≤ |2 ^ j * ρ|) (h3 : |2 ^ j * ρ| ≤ 2 ^ (1023 : ℤ))
    (hy : Returns (onPrism (A := Binary64) (prismGravity c) p P ρ) y)
    (h4 : 2 ^ (-1022 : ℤ) < |y|) (h5 : 2 ^ (-1022 : ℤ) < |2 ^ j * y|) (h6 : |2 ^ j * y| < 2 ^ (1024 : ℤ)) :
    Returns (onPrism (A := Binary64) (prismGravity c) p P ((2 ^ j * ρ : ℝ) : Fl Binary64)) (2 ^ j * y) := by
  obtain ⟨K, hK⟩ := factored_prism c (p.e : Fl Binary64) p.n p.u P.west P.east P.south P.north P.bottom P.top
  exact hK.double h1 h2 h3 hy h4 h5 h6

/-- **C82.** The same for the mass of a point. -/
theorem C82_mass_double (c : GComp) (p q : Pt) {m y : ℝ} {j : ℤ}
    (h1 : 2 ^ (-980 : ℤ) ≤ |m|) (h2 : 2 ^ (-980 : ℤ) ≤ |2 ^ j * m|) (h3 : |2 ^ j * m| ≤ 2 ^ (1023 : ℤ))
    (hy : Returns (onPair (A := Binary64) (pointGravity c) p q m) y)
    (h4 : 2 ^ (-1022 : ℤ) < |y|) (h5 : 2 ^ (-1022 : ℤ) < |2 ^ j * y|) (h6 : |2 ^ j * y| < 2 ^ (1024 : ℤ)) :
    Returns (onPair (A := Binary64) (pointGravity c) p q ((2 ^ j * m : ℝ) : Fl Binary64)) (2 ^ j * y) :=
  (factored_point c (p.e : Fl Binary64) p.n p.u q.e q.n q.u).double h1 h2 h3 hy h4 h5 h6

/-- Binary floating point and exact arithmetic satisfy the law: metres against units of 4 m. -/
example (ρ : Fl Binary53) : prismGravity .uu (Fl.scale (-2) (Fl.fin 10)) (Fl.scale (-2) (Fl.fin 20))
      (Fl.scale (-2) (Fl.fin 30)) (Fl.scale (-2) (Fl.fin (-50))) (Fl.scale (-2) (Fl.fin 60)) (Fl.scale (-2) (Fl.fin (-70)))
      (Fl.scale (-2) (Fl.fin 80)) (Fl.scale (-2) (Fl.fin (-200))) (Fl.scale (-2) (Fl.fin (-100))) ρ =
    prismGravity .uu (Fl.fin 10) (Fl.fin 20) (Fl.fin 30) (Fl.fin (-50)) (Fl.fin 60) (Fl.fin (-70))
      (Fl.fin 80) (Fl.fin (-200)) (Fl.fin (-100)) ρ :=
  C82_diagonal Binary53_scaleInvariant (-2) .u _ _ _ _ _ _ _ _ _ _

/-- a case of the double-precision theorem: a point mass of 2^40 kg one metre away, doubled -/
example : ∃ y : ℝ, 1 ≤ y ∧ Returns (onPair (A := Binary64) (pointGravity .pot) (1, 0, 0) (0, 0, 0)
      ((2 ^ (40 : ℤ) : ℝ) : Fl Binary64)) y ∧
    Returns (onPair (A := Binary64) (pointGravity .pot) (1, 0, 0) (0, 0, 0)
      ((2 ^ (1 : ℤ) * 2 ^ (40 : ℤ) : ℝ) : Fl Binary64)) (2 ^ (1 : ℤ) * y) := by
  obtain ⟨y, hy, hy2⟩ := (C50_double (1, 0, 0) (0, 0, 0) (by norm_num [Prod.ext_iff]) (2 ^ (40 : ℤ))
    (by
      intro a
      cases a <;> simp only [Pt.coord, Pt.e, Pt.n, Pt.u]
      · exact moderate_of (by norm_num [abs_of_pos]) (by norm_num [abs_of_pos])
      · exact .inl (by norm_num)
      · exact .inl (by norm_num))
    (.inr ⟨by norm_num [abs_of_pos], by norm_num [abs_of_pos]⟩)).2.1
  have hd : dist3 (1, 0, 0) (0, 0, 0) = 1 := by simp [dist3, Pt.e, Pt.n, Pt.u]
  rw [hd] at hy2
  have hx : |(6.6743e-11 * 2 ^ (40 : ℤ) / 1 : ℝ)| = 6.6743e-11 * 2 ^ (40 : ℤ) := by
    rw [abs_of_pos (by positivity)]; norm_num
  rw [hx, abs_le] at hy2
  have h : 1 ≤ y := by norm_num at hy2; linarith [hy2.1]
  have h' : y ≤ 2 ^ (10 : ℤ) := by norm_num at hy2 ⊢; linarith [hy2.2]
  refine ⟨y, h, hy, ?_⟩
  have hm : ∀ {a b : ℤ}, a ≤ b → (2 : ℝ) ^ a ≤ 2 ^ b := fun h => zpow_le_zpow_right₀ (by norm_num) h
  have hl : ∀ {a b : ℤ}, a < b → (2 : ℝ) ^ a < 2 ^ b := fun h => zpow_lt_zpow_right₀ (by norm_num) h
  have e : |(2 : ℝ) ^ (1 : ℤ) * 2 ^ (40 : ℤ)| = 2 ^ (41 : ℤ) := by norm_num
  have h1 : (2 : ℝ) ^ (-1022 : ℤ) < 1 := by simpa using hl (a := -1022) (b := 0) (by norm_num)
  have h2 : |(2 : ℝ) ^ (1 : ℤ) * y| = 2 * y := by rw [abs_of_nonneg (by positivity)]; norm_num
  have h3 : 2 * y < 2 ^ (1024 : ℤ) := by
    refine lt_of_le_of_lt (b := (2 : ℝ) ^ (11 : ℤ)) ?_ (hl (by norm_num))
    have : (2 : ℝ) ^ (11 : ℤ) = 2 * 2 ^ (10 : ℤ) := by norm_num
    linarith
  refine C82_mass_double .pot (1, 0, 0) (0, 0, 0) (j := 1) ?_ ?_ ?_ hy ?_ ?_ ?_
  · rw [abs_of_pos (B64.two_zpow_pos _)]; exact hm (by norm_num)
  · rw [e]; exact hm (by norm_num)
  · rw [e]; exact hm (by norm_num)
  · rw [abs_of_nonneg (by linarith)]; linarith
  · rw [h2]; linarith
  · rw [h2]; exact h3

end Choclo
