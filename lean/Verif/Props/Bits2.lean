import Verif.Props.Bits
import Verif.Props.FieldTriples
import Verif.Lemmas.Eval
import Verif.Spec.PrismSym

/-! # Bit-level translation invariance, sign laws and exceptions: C59, C60, C61 -/

namespace Choclo

variable {A : Arith}

/-! ## C59: translations are exact in every arithmetic -/

theorem Fl.sub_shift (x y t : ℝ) :
    ((x + t : ℝ) : Fl A) - ((y + t : ℝ) : Fl A) = (x : Fl A) - (y : Fl A) := by
  show (Fl.ofRaw (A.rnd (x + t + -(y + t))) : Fl A) = Fl.ofRaw (A.rnd (x + -y))
  rw [show x + t + -(y + t) = x + -y by ring]

theorem Fl.lt_shift (x y t : ℝ) :
    Fl.lt ((x + t : ℝ) : Fl A) ((y + t : ℝ) : Fl A) = Fl.lt (x : Fl A) (y : Fl A) := by
  show decide (x + t < y + t) = decide (x < y)
  simp

theorem Fl.le_shift (x y t : ℝ) :
    Fl.le ((x + t : ℝ) : Fl A) ((y + t : ℝ) : Fl A) = Fl.le (x : Fl A) (y : Fl A) := by
  show decide (x + t ≤ y + t) = decide (x ≤ y)
  simp

theorem Fl.eq_shift (x y t : ℝ) :
    Fl.eq ((x + t : ℝ) : Fl A) ((y + t : ℝ) : Fl A) = Fl.eq (x : Fl A) (y : Fl A) := by
  show decide (x + t = y + t) = decide (x = y)
  simp

/-- **C59.** In every arithmetic `distance_cartesian` is bit-for-bit unchanged when both points are
translated exactly (the arguments are the translated numbers themselves). -/
theorem C59_distance (p q t : Pt) :
    onPair (A := A) utils.distance_cartesian (p.shift t) (q.shift t) =
      onPair (A := A) utils.distance_cartesian p q := by
  simp only [onPair, Pt.shift, Pt.e, Pt.n, Pt.u, utils.distance_cartesian, Fl.sub_shift]

/-- **C59.** So is every `point.gravity_*`, exceptions included. -/
theorem C59_point (c : GComp) (p q t : Pt) (m : Fl A) :
    onPair (A := A) (pointGravity c) (p.shift t) (q.shift t) m =
      onPair (A := A) (pointGravity c) p q m := by
  cases c <;>
  simp only [onPair, Pt.shift, Pt.e, Pt.n, Pt.u, pointGravity, point.gravity_pot, point.gravity_e,
    point.gravity_n, point.gravity_u, point.gravity_ee, point.gravity_nn, point.gravity_uu,
    point.gravity_en, point.gravity_eu, point.gravity_nu, point.kernel_pot, point.kernel_e,
    point.kernel_n, point.kernel_u, point.kernel_ee, point.kernel_nn, point.kernel_uu,
    point.kernel_en, point.kernel_eu, point.kernel_nu, utils.distance_cartesian, Fl.sub_shift]

/-- **C59.** So is every `dipole.magnetic_*`. -/
theorem C59_dipole (a : Axis) (p q t : Pt) (me mn mu : Fl A) :
    onPair (A := A) (dipoleMagnetic a) (p.shift t) (q.shift t) me mn mu =
      onPair (A := A) (dipoleMagnetic a) p q me mn mu := by
  cases a <;>
  simp only [onPair, Pt.shift, Pt.e, Pt.n, Pt.u, dipoleMagnetic, dipole.magnetic_e,
    dipole.magnetic_n, dipole.magnetic_u, Fl.sub_shift]

/-- **C59.** So is every `prism.gravity_*`, NaN included, for boundaries in any order. -/
theorem C59_prism_gravity (c : GComp) (p t : Pt) (P : Box) (ρ : Fl A) :
    onPrism (A := A) (prismGravity c) (p.shift t) (P.shift t) ρ =
      onPrism (A := A) (prismGravity c) p P ρ := by
  cases c <;>
  simp only [onPrism, Pt.shift, Pt.e, Pt.n, Pt.u, Box.shift, prismGravity, prism.gravity_pot,
    prism.gravity_e, prism.gravity_n, prism.gravity_u, prism.gravity_ee, prism.gravity_nn,
    prism.gravity_uu, prism.gravity_en, prism.gravity_eu, prism.gravity_nu,
    prism.evaluate_kernel_unroll, prism.is_point_on_easting_edge, prism.is_point_on_northing_edge,
    prism.is_point_on_upward_edge, prism.is_point_on_east_face, prism.is_point_on_north_face,
    prism.is_point_on_top_face, Fl.sub_shift, Fl.lt_shift, Fl.le_shift, Fl.eq_shift] <;> rfl

/-- **C59.** So is every scalar `prism.magnetic_*`. -/
theorem C59_prism_magnetic (c : MComp) (p t : Pt) (P : Box) (Me Mn Mu : Fl A) :
    onPrism (A := A) (prismMagnetic c) (p.shift t) (P.shift t) Me Mn Mu =
      onPrism (A := A) (prismMagnetic c) p P Me Mn Mu := by
  cases c <;>
  simp only [onPrism, Pt.shift, Pt.e, Pt.n, Pt.u, Box.shift, prismMagnetic, prism.magnetic_e,
    prism.magnetic_n, prism.magnetic_u, prism.magnetic_ee, prism.magnetic_nn,
    prism.magnetic_uu, prism.magnetic_en, prism.magnetic_eu, prism.magnetic_nu,
    prism.calculate_component_steps, prism.is_point_on_edge, prism.is_interior_point,
    prism.is_point_on_easting_edge, prism.is_point_on_northing_edge,
    prism.is_point_on_upward_edge, prism.is_point_on_east_face, prism.is_point_on_north_face,
    prism.is_point_on_top_face, Fl.sub_shift, Fl.lt_shift, Fl.le_shift, Fl.eq_shift] <;> rfl

/-- **C59.** So is `prism.magnetic_field`. -/
theorem C59_prism_field (p t : Pt) (P : Box) (Me Mn Mu : Fl A) :
    onPrism (A := A) prism.magnetic_field (p.shift t) (P.shift t) Me Mn Mu =
      onPrism (A := A) prism.magnetic_field p P Me Mn Mu := by
  have he := C59_prism_magnetic (A := A) .e p t P Me Mn Mu
  have hn := C59_prism_magnetic (A := A) .n p t P Me Mn Mu
  have hu := C59_prism_magnetic (A := A) .u p t P Me Mn Mu
  simp only [onPrism, prismMagnetic] at he hn hu ⊢
  rw [C39_field_is_components, C39_field_is_components, he, hn, hu]

/-- instance: in double precision, a survey in UTM coordinates (all numbers and shifted numbers are
integers, hence exact) gives the same bits as in local coordinates -/
example : onPrism (A := Binary64) (prismGravity .uu) (500010, 7000020, 1030)
      ⟨500000, 500100, 7000000, 7000100, -200, 0⟩ (Fl.fin 2670) =
    onPrism (A := Binary64) (prismGravity .uu) (10, 20, 30) ⟨0, 100, 0, 100, -1200, -1000⟩
      (Fl.fin 2670) := by
  have h := C59_prism_gravity (A := Binary64) .uu (10, 20, 30) (500000, 7000000, 1000)
    ⟨0, 100, 0, 100, -1200, -1000⟩ (Fl.fin 2670)
  norm_num [Pt.shift, Box.shift, Pt.e, Pt.n, Pt.u] at h
  exact h

/-! ## C60: sign laws to the last bit -/

/-- **C60.** Exchanging observation point and dipole changes no bit of the field. -/
theorem C60_dipole_exchange (h : A.SignSymmetric) (a : Axis) (e n u e' n' u' me mn mu : Fl A) :
    dipoleMagnetic a e' n' u' e n u me mn mu = dipoleMagnetic a e n u e' n' u' me mn mu := by
  cases a <;>
  simp only [dipoleMagnetic, dipole.magnetic_e, dipole.magnetic_n, dipole.magnetic_u,
    Fl.sub_swap h e e', Fl.sub_swap h n n', Fl.sub_swap h u u', Fl.mul_neg' h, Fl.neg_mul' h,
    Fl.add_neg_neg h, Fl.neg_neg', Fl.pow_neg_even h _ even_two]

/-- **C60.** Reversing the moment reverses the field, to the last bit and with the same exceptions. -/
theorem C60_dipole_negate (h : A.SignSymmetric) (a : Axis) (e n u e' n' u' me mn mu : Fl A) :
    dipoleMagnetic a e n u e' n' u' (-me) (-mn) (-mu) =
      Py.negated (dipoleMagnetic a e n u e' n' u' me mn mu) := by
  have key : ∀ a b c d : Fl A, (do
      let x ← (-a) /. b
      let y ← (-c) /. d
      let z ← (VACUUM_MAGNETIC_PERMEABILITY : Fl A) /. 4
      let w ← z /. Fl.pi
      pure (w * (x - y))) = Py.negated (do
      let x ← a /. b
      let y ← c /. d
      let z ← (VACUUM_MAGNETIC_PERMEABILITY : Fl A) /. 4
      let w ← z /. Fl.pi
      pure (w * (x - y))) := by
    intro a b c d
    rw [Fl.neg_div' h, Fl.neg_div' h]
    cases a /. b with
    | error err => rfl
    | ok x =>
      cases c /. d with
      | error err => rfl
      | ok y =>
        cases (VACUUM_MAGNETIC_PERMEABILITY : Fl A) /. 4 with
        | error err => rfl
        | ok z =>
          show (do let w ← z /. Fl.pi; pure (w * (-x - -y)) : Py (Fl A)) =
            Py.negated (do let w ← z /. Fl.pi; pure (w * (x - y)))
          cases z /. Fl.pi with
          | error err => rfl
          | ok w =>
            show Except.ok (w * (-x - -y)) = Except.ok (-(w * (x - y)))
            rw [Fl.sub_def, Fl.add_neg_neg h, ← Fl.sub_def, Fl.mul_neg' h]
  cases a <;>
  · simp only [dipoleMagnetic, dipole.magnetic_e, dipole.magnetic_n, dipole.magnetic_u,
      Fl.mul_neg' h, Fl.neg_mul' h, Fl.add_neg_neg h]
    exact key _ _ _ _

theorem Fl.neg_sub_neg (h : A.SignSymmetric) (x y : ℝ) :
    ((-x : ℝ) : Fl A) - ((-y : ℝ) : Fl A) = -((x : Fl A) - (y : Fl A)) := by
  show (-(x : Fl A)) + -(-(y : Fl A)) = -((x : Fl A) + -(y : Fl A))
  rw [Fl.add_neg_neg h]

theorem Fl.neg_sub_neg' (h : A.SignSymmetric) (a b : Fl A) : -a - -b = -(a - b) :=
  Fl.add_neg_neg h a (-b)

/-- **C60.** Mirror symmetry of the point functions is exact: reflecting both points in an axis
changes the sign once per occurrence of the axis in the name of the component and no other bit. -/
theorem C60_point_mirror (h : A.SignSymmetric) (c : GComp) (a : Axis) (p q : Pt) (m : Fl A) :
    onPair (A := A) (pointGravity c) (p.mirror a) (q.mirror a) m =
      if Odd (c.count a) then Py.negated (onPair (A := A) (pointGravity c) p q m)
      else onPair (A := A) (pointGravity c) p q m := by
  have key : ∀ (x d : Fl A), (do
      let k ← (-x) /. d
      return GRAVITATIONAL_CONST * m * k) = Py.negated (do
      let k ← x /. d
      return GRAVITATIONAL_CONST * m * k) := by
    intro x d
    rw [Fl.neg_div' h]
    cases x /. d with
    | error err => rfl
    | ok v => exact congrArg Except.ok (Fl.mul_neg' h _ _)
  have odd1 : Odd 1 := odd_one
  have odd0 : ¬ Odd 0 := by decide
  have odd2 : ¬ Odd 2 := by decide
  cases c <;> cases a <;>
  · simp only [GComp.count, GComp.index, odd0, odd1, odd2, if_true, if_false]
    simp only [onPair, Pt.mirror, Pt.e, Pt.n, Pt.u, pointGravity, point.gravity_pot, point.gravity_e,
      point.gravity_n, point.gravity_u, point.gravity_ee, point.gravity_nn, point.gravity_uu,
      point.gravity_en, point.gravity_eu, point.gravity_nu, point.kernel_pot, point.kernel_e,
      point.kernel_n, point.kernel_u, point.kernel_ee, point.kernel_nn, point.kernel_uu,
      point.kernel_en, point.kernel_eu, point.kernel_nu, utils.distance_cartesian,
      Fl.neg_sub_neg h, Fl.pow_neg_even h _ even_two, Fl.mul_neg' h, Fl.neg_mul' h, pure_bind]
    try exact key _ _

/-- **C60.** Mirror symmetry of the dipole functions is exact: reflecting both points and the moment
in an axis reverses the component of the field along that axis and changes no other bit. -/
theorem C60_dipole_mirror (h : A.SignSymmetric) (a b : Axis) (p q m : Pt) :
    onPair (A := A) (dipoleMagnetic b) (p.mirror a) (q.mirror a)
        ((m.mirror a).e : Fl A) ((m.mirror a).n : Fl A) ((m.mirror a).u : Fl A) =
      if a = b then Py.negated (onPair (A := A) (dipoleMagnetic b) p q (m.e : Fl A) (m.n : Fl A) (m.u : Fl A))
      else onPair (A := A) (dipoleMagnetic b) p q (m.e : Fl A) (m.n : Fl A) (m.u : Fl A) := by
  have key : ∀ a b c d : Fl A, (do
      let x ← (-a) /. b
      let y ← (-c) /. d
      let z ← (VACUUM_MAGNETIC_PERMEABILITY : Fl A) /. 4
      let w ← z /. Fl.pi
      pure (w * (x - y))) = Py.negated (do
      let x ← a /. b
      let y ← c /. d
      let z ← (VACUUM_MAGNETIC_PERMEABILITY : Fl A) /. 4
      let w ← z /. Fl.pi
      pure (w * (x - y))) := by
    intro a b c d
    rw [Fl.neg_div' h, Fl.neg_div' h]
    cases a /. b with
    | error err => rfl
    | ok x =>
      cases c /. d with
      | error err => rfl
      | ok y =>
        cases (VACUUM_MAGNETIC_PERMEABILITY : Fl A) /. 4 with
        | error err => rfl
        | ok z =>
          show (do let w ← z /. Fl.pi; pure (w * (-x - -y)) : Py (Fl A)) =
            Py.negated (do let w ← z /. Fl.pi; pure (w * (x - y)))
          cases z /. Fl.pi with
          | error err => rfl
          | ok w =>
            show Except.ok (w * (-x - -y)) = Except.ok (-(w * (x - y)))
            rw [Fl.sub_def, Fl.add_neg_neg h, ← Fl.sub_def, Fl.mul_neg' h]
  have nf : ∀ x : ℝ, ((-x : ℝ) : Fl A) = -(x : Fl A) := fun _ => rfl
  cases a <;> cases b <;>
  · simp only [reduceCtorEq, if_true, if_false]
    simp only [onPair, Pt.mirror, Pt.e, Pt.n, Pt.u, dipoleMagnetic, dipole.magnetic_e,
      dipole.magnetic_n, dipole.magnetic_u, Fl.neg_sub_neg' h, Fl.pow_neg_even h _ even_two, nf,
      Fl.mul_neg' h, Fl.neg_mul' h, Fl.neg_neg']
    try exact key _ _ _ _

theorem Fl.neg_zero' : -(0 : Fl A) = 0 := by
  show Fl.fin (-((0 : ℕ) : ℝ)) = Fl.fin ((0 : ℕ) : ℝ)
  simp

theorem prism.compStep_neg (h : A.SignSymmetric) (m : ℕ) (x y z Me Mn Mu : Fl A)
    (K1 K2 K3 : prism.Kernel A) (acc : Fl A) :
    prism.compStep m x y z (-Me) (-Mn) (-Mu) K1 K2 K3 (-acc) =
      Py.negated (prism.compStep m x y z Me Mn Mu K1 K2 K3 acc) := by
  unfold prism.compStep
  cases prism.vker K1 x y z with
  | error err => rfl
  | ok k1 =>
    cases prism.vker K2 x y z with
    | error err => rfl
    | ok k2 =>
      cases prism.vker K3 x y z with
      | error err => rfl
      | ok k3 =>
        show Except.ok (-acc + prism.sgn m * (-Me * k1 + -Mn * k2 + -Mu * k3)) =
          Except.ok (-(acc + prism.sgn m * (Me * k1 + Mn * k2 + Mu * k3)))
        rw [Fl.neg_mul' h, Fl.neg_mul' h, Fl.neg_mul' h, Fl.add_neg_neg h, Fl.add_neg_neg h,
          Fl.mul_neg' h, Fl.add_neg_neg h]

theorem Py.negated_bind {x : Py (Fl A)} {f g : Fl A → Py (Fl A)}
    (hfg : ∀ v, f (-v) = Py.negated (g v)) : (Py.negated x >>= f) = Py.negated (x >>= g) := by
  cases x with
  | error err => rfl
  | ok v => exact hfg v

theorem prism.component_neg (h : A.SignSymmetric) (e n u w E s N b t Me Mn Mu : Fl A)
    (K1 K2 K3 : prism.Kernel A) :
    prism._calculate_component e n u w E s N b t (-Me) (-Mn) (-Mu) K1 K2 K3 =
      Py.negated (prism._calculate_component e n u w E s N b t Me Mn Mu K1 K2 K3) := by
  rw [prism.calculate_component_steps, prism.calculate_component_steps]
  have step0 : prism.compStep 0 (E - e) (N - n) (t - u) (-Me) (-Mn) (-Mu) K1 K2 K3 0 =
      Py.negated (prism.compStep 0 (E - e) (N - n) (t - u) Me Mn Mu K1 K2 K3 0) := by
    have := prism.compStep_neg h 0 (E - e) (N - n) (t - u) Me Mn Mu K1 K2 K3 0
    rwa [Fl.neg_zero'] at this
  rw [step0]
  refine Py.negated_bind fun v => ?_
  rw [prism.compStep_neg h]
  refine Py.negated_bind fun v => ?_
  rw [prism.compStep_neg h]
  refine Py.negated_bind fun v => ?_
  rw [prism.compStep_neg h]
  refine Py.negated_bind fun v => ?_
  rw [prism.compStep_neg h]
  refine Py.negated_bind fun v => ?_
  rw [prism.compStep_neg h]
  refine Py.negated_bind fun v => ?_
  rw [prism.compStep_neg h]
  refine Py.negated_bind fun v => ?_
  rw [prism.compStep_neg h]

/-- **C60.** Reversing the magnetization reverses every prism magnetic component, to the last bit and
with the same exceptions, for all arguments. -/
theorem C60_magnetization_negate (h : A.SignSymmetric) (c : MComp)
    (e n u w E s N b t Me Mn Mu : Fl A) :
    prismMagnetic c e n u w E s N b t (-Me) (-Mn) (-Mu) =
      Py.negated (prismMagnetic c e n u w E s N b t Me Mn Mu) := by
  have key2 : ∀ (b : Prop) [Decidable b] (k k' : Py (Fl A)), k = Py.negated k' →
      (if b then (.ok Fl.nan : Py (Fl A)) else k) = Py.negated (if b then .ok Fl.nan else k') := by
    intro b _ k k' hk
    split
    · rfl
    · exact hk
  have tail : ∀ v : Fl A, (do
      let z ← (VACUUM_MAGNETIC_PERMEABILITY : Fl A) /. 4
      let w ← z /. Fl.pi
      pure (w * -v)) = Py.negated (do
      let z ← (VACUUM_MAGNETIC_PERMEABILITY : Fl A) /. 4
      let w ← z /. Fl.pi
      pure (w * v)) := by
    intro v
    cases (VACUUM_MAGNETIC_PERMEABILITY : Fl A) /. 4 with
    | error err => rfl
    | ok z =>
      show (do let w ← z /. Fl.pi; pure (w * -v) : Py (Fl A)) =
        Py.negated (do let w ← z /. Fl.pi; pure (w * v))
      cases z /. Fl.pi with
      | error err => rfl
      | ok w => exact congrArg Except.ok (Fl.mul_neg' h w v)
  cases c
  case e | n | u =>
    simp only [prismMagnetic, prism.magnetic_e, prism.magnetic_n, prism.magnetic_u]
    refine key2 _ _ _ ?_
    rw [prism.component_neg h]
    refine Py.negated_bind fun v => ?_
    split
    · rw [Fl.mul_neg' h, Fl.add_neg_neg h]
      exact tail _
    · exact tail _
  all_goals
    simp only [prismMagnetic, prism.magnetic_ee, prism.magnetic_nn, prism.magnetic_uu,
      prism.magnetic_en, prism.magnetic_eu, prism.magnetic_nu]
    refine key2 _ _ _ ?_
    rw [prism.component_neg h]
    exact Py.negated_bind fun v => tail v

/-- non-vacuity: these hold in IEEE binary64 -/
example (c : MComp) (e n u w E s N b t Me Mn Mu : Fl Binary64) :
    prismMagnetic c e n u w E s N b t (-Me) (-Mn) (-Mu) =
      Py.negated (prismMagnetic c e n u w E s N b t Me Mn Mu) :=
  C60_magnetization_negate Binary64_signSymmetric c _ _ _ _ _ _ _ _ _ _ _ _

/-! ## C61: coincident points raise in floating point too -/

/-- The arithmetic computes `0 + 0`, `0 ** n` and `sqrt 0` exactly. -/
def Arith.ExactAtZero (A : Arith) : Prop := A.rnd 0 = .fin 0 ∧ ∀ n : ℕ, n ≠ 0 → A.pow 0 n = .fin 0

theorem Fl.sub_self_fin (hA : A.ExactAtZero) (x : ℝ) : (x : Fl A) - (x : Fl A) = Fl.fin 0 := by
  show (Fl.ofRaw (A.rnd (x + -x)) : Fl A) = _
  rw [add_neg_cancel, hA.1]; rfl

theorem Fl.zero_pow' (hA : A.ExactAtZero) {n : ℕ} (hn : n ≠ 0) : (Fl.fin 0 : Fl A) ^ n = Fl.fin 0 := by
  show (Fl.ofRaw (A.pow 0 n) : Fl A) = _
  rw [hA.2 n hn]; rfl

theorem Fl.zero_add_zero' (hA : A.ExactAtZero) : (Fl.fin 0 : Fl A) + Fl.fin 0 = Fl.fin 0 := by
  show (Fl.ofRaw (A.rnd (0 + 0)) : Fl A) = _
  rw [add_zero, hA.1]; rfl

theorem Fl.sqrt_zero' (hA : A.ExactAtZero) : Fl.sqrt (Fl.fin 0 : Fl A) = Fl.fin 0 := by
  show (if (0 : ℝ) < 0 then _ else (Fl.ofRaw (A.rnd (Real.sqrt 0)) : Fl A)) = _
  rw [if_neg (lt_irrefl _), Real.sqrt_zero, hA.1]; rfl

theorem Fl.div_fin_zero (a : Fl A) : a /. (Fl.fin 0) = .error .zeroDivision := by
  cases a <;> exact if_pos rfl

theorem C61_distance_zero (hA : A.ExactAtZero) (p : Pt) :
    onPair (A := A) utils.distance_cartesian p p = .ok (Fl.fin 0) := by
  simp only [onPair, utils.distance_cartesian, Fl.sub_self_fin hA,
    Fl.zero_pow' hA (n := 2) (by norm_num), Fl.zero_add_zero' hA, Fl.sqrt_zero' hA]
  rfl

/-- **C61.** In every arithmetic that is exact at zero, all ten `point.gravity_*` raise
`ZeroDivisionError` when the observation point is the source, whatever the mass (0, NaN, infinite). -/
theorem C61_point (hA : A.ExactAtZero) (c : GComp) (p : Pt) (m : Fl A) :
    RaisesZeroDivision (onPair (A := A) (pointGravity c) p p m) := by
  have hd := C61_distance_zero hA p
  simp only [onPair] at hd
  cases c <;>
  · simp only [RaisesZeroDivision, onPair, pointGravity, point.gravity_pot, point.gravity_e,
      point.gravity_n, point.gravity_u, point.gravity_ee, point.gravity_nn, point.gravity_uu,
      point.gravity_en, point.gravity_eu, point.gravity_nu, point.kernel_pot, point.kernel_e,
      point.kernel_n, point.kernel_u, point.kernel_ee, point.kernel_nn, point.kernel_uu,
      point.kernel_en, point.kernel_eu, point.kernel_nu, hd]
    simp only [Ex.ok_bind, Fl.zero_pow' hA (n := 3) (by norm_num),
      Fl.zero_pow' hA (n := 5) (by norm_num), Fl.div_fin_zero]
    rfl

/-- **C61.** So do `dipole.magnetic_e/n/u` and `dipole.magnetic_field` at the dipole. -/
theorem C61_dipole (hA : A.ExactAtZero) (a : Axis) (p : Pt) (me mn mu : Fl A) :
    RaisesZeroDivision (onPair (A := A) (dipoleMagnetic a) p p me mn mu) := by
  cases a <;>
  · simp only [RaisesZeroDivision, onPair, dipoleMagnetic, dipole.magnetic_e, dipole.magnetic_n,
      dipole.magnetic_u, Fl.sub_self_fin hA, Fl.zero_pow' hA (n := 2) (by norm_num),
      Fl.zero_add_zero' hA, Fl.sqrt_zero' hA, Fl.zero_pow' hA (n := 5) (by norm_num),
      Fl.div_fin_zero]
    rfl

/-- non-vacuity: double precision is exact at zero -/
theorem Binary64_exactAtZero : Binary64.ExactAtZero := by
  refine ⟨B64.rnd_zero, fun n hn => ?_⟩
  show B64.rnd (0 ^ n) = _
  rw [zero_pow hn, B64.rnd_zero]

example : RaisesZeroDivision (onPair (A := Binary64) (pointGravity .uu) (1, 2, 3) (1, 2, 3) (Fl.fin 5)) :=
  C61_point Binary64_exactAtZero _ _ _

end Choclo
