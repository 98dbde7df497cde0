import Verif.Props.Bits3
import Verif.Lemmas.MixedSigns
import Verif.Model.Binary32

/-! # C120: symmetries to the last bit for float32 and float64 arguments -/

namespace Choclo

variable {S D : Arith}

/-- **C120.** `distance_cartesian(p, q)` and `distance_cartesian(q, p)` are the identical number, of the identical
type, for every mixture of float32 and float64 arguments, NaN and infinities included. -/
theorem C120_distance_exchange (hS : S.SignSymmetric) (hD : D.SignSymmetric) (e n u e' n' u' : MFl S D) :
    Mixed.utils.distance_cartesian e n u e' n' u' = Mixed.utils.distance_cartesian e' n' u' e n u := by
  unfold Mixed.utils.distance_cartesian
  rw [MFl.sub_sq_swap hS hD e e', MFl.sub_sq_swap hS hD n n', MFl.sub_sq_swap hS hD u u']

theorem Mixed.two_mul_mul_swap {r s : MFl S D} (hr : DoublesExactly r.toD) (hs : DoublesExactly s.toD) :
    2 * r * s = 2 * s * r := by
  have key : ∀ a b : MFl S D, 2 * a * b = .f64 (2 * a.toD * b.toD) := by
    intro a b; cases a <;> cases b <;> rfl
  rw [key, key, Choclo.two_mul_mul_swap hr hs]

/-- **C120.** So are the two spherical distances, when doubling the radii is exact in float64. -/
theorem C120_spherical_exchange (hS : S.SignSymmetric) (hD : D.SignSymmetric) (lon lat r lon' lat' r' : MFl S D)
    (hr : DoublesExactly r.toD) (hr' : DoublesExactly r'.toD) :
    Mixed.utils.distance_spherical lon lat r lon' lat' r' =
      Mixed.utils.distance_spherical lon' lat' r' lon lat r := by
  unfold Mixed.utils.distance_spherical Mixed.utils.distance_spherical_core
  simp only [pure_bind]
  rw [MFl.sub_sq_swap hS hD r r', Mixed.two_mul_mul_swap hr hr', MFl.sub_swap hS hD (MFl.radians lon),
    MFl.cos_neg' hS hD, MFl.mul_comm' (MFl.sin (MFl.radians lat')), MFl.mul_comm' (MFl.cos (MFl.radians lat'))]

/-- **C120.** Exchanging observation and source point negates the acceleration components and leaves
potential and tensor unchanged, to the last bit and with the same type and the same exceptions. -/
theorem C120_exchange (hS : S.SignSymmetric) (hD : D.SignSymmetric) (c : GComp) (e n u e' n' u' m : MFl S D) :
    (c.odd → Mixed.pointGravity c e' n' u' e n u m = Mixed.negated (Mixed.pointGravity c e n u e' n' u' m)) ∧
    (¬c.odd → Mixed.pointGravity c e' n' u' e n u m = Mixed.pointGravity c e n u e' n' u' m) := by
  have key : ∀ (a b d : MFl S D), (do
      let k ← -(b - a) /ₘ d
      return Mixed.GRAVITATIONAL_CONST * m * k) = Mixed.negated (do
      let k ← -(a - b) /ₘ d
      return Mixed.GRAVITATIONAL_CONST * m * k) := by
    intro a b d
    rw [MFl.neg_div' hS hD, MFl.neg_div' hS hD, MFl.sub_swap hS hD, MFl.neg_div' hS hD]
    cases (a - b) /ₘ d with
    | error err => rfl
    | ok v =>
      show Except.ok (Mixed.GRAVITATIONAL_CONST * m * - -v) = Except.ok (-(Mixed.GRAVITATIONAL_CONST * m * -v))
      rw [MFl.neg_neg', MFl.mul_neg' hS hD, MFl.neg_neg']
  constructor
  · intro hc
    cases c <;> first | exact hc.elim | skip
    all_goals
      simp only [Mixed.pointGravity, Mixed.point.gravity_e, Mixed.point.gravity_n, Mixed.point.gravity_u,
        Mixed.point.kernel_e, Mixed.point.kernel_n, Mixed.point.kernel_u,
        C120_distance_exchange hS hD e' n' u' e n u]
      rw [Mixed.utils.distance_cartesian]
      simp only [pure_bind]
      exact key _ _ _
  · intro hc
    cases c <;> first | exact absurd trivial hc | skip
    all_goals
      simp only [Mixed.pointGravity, Mixed.point.gravity_pot, Mixed.point.gravity_ee, Mixed.point.gravity_nn,
        Mixed.point.gravity_uu, Mixed.point.gravity_en, Mixed.point.gravity_eu, Mixed.point.gravity_nu,
        Mixed.point.kernel_pot, Mixed.point.kernel_ee, Mixed.point.kernel_nn, Mixed.point.kernel_uu,
        Mixed.point.kernel_en, Mixed.point.kernel_eu, Mixed.point.kernel_nu,
        C120_distance_exchange hS hD e' n' u' e n u, MFl.sub_swap hS hD e e', MFl.sub_swap hS hD n n',
        MFl.sub_swap hS hD u u', MFl.mul_neg' hS hD, MFl.neg_mul' hS hD, MFl.neg_neg',
        MFl.pow_neg_even hS hD _ even_two]

/-- **C120.** Negating the mass negates every result. -/
theorem C120_negate_mass (hS : S.SignSymmetric) (hD : D.SignSymmetric) (c : GComp) (e n u e' n' u' m : MFl S D) :
    Mixed.pointGravity c e n u e' n' u' (-m) = Mixed.negated (Mixed.pointGravity c e n u e' n' u' m) := by
  have key : ∀ (k : Py (MFl S D)), (do return Mixed.GRAVITATIONAL_CONST * -m * (← k)) =
      Mixed.negated (do return Mixed.GRAVITATIONAL_CONST * m * (← k)) := by
    intro k
    cases k with
    | error err => rfl
    | ok v =>
      show Except.ok (Mixed.GRAVITATIONAL_CONST * -m * v) = Except.ok (-(Mixed.GRAVITATIONAL_CONST * m * v))
      rw [MFl.mul_neg' hS hD, MFl.neg_mul' hS hD]
  cases c <;> exact key _

/-- **C120.** Negating the density negates every prism gravity component, NaN cases included. -/
theorem C120_negate_density (hS : S.SignSymmetric) (hD : D.SignSymmetric) (c : GComp)
    (e n u w E s N b t ρ : MFl S D) :
    Mixed.prismGravity c e n u w E s N b t (-ρ) = Mixed.negated (Mixed.prismGravity c e n u w E s N b t ρ) := by
  have key : ∀ (k : Py (MFl S D)), (do return Mixed.GRAVITATIONAL_CONST * -ρ * (← k)) =
      Mixed.negated (do return Mixed.GRAVITATIONAL_CONST * ρ * (← k)) := by
    intro k
    cases k with
    | error err => rfl
    | ok v =>
      show Except.ok (Mixed.GRAVITATIONAL_CONST * -ρ * v) = Except.ok (-(Mixed.GRAVITATIONAL_CONST * ρ * v))
      rw [MFl.mul_neg' hS hD, MFl.neg_mul' hS hD]
  have key2 : ∀ (b : Prop) [Decidable b] (k k' : Py (MFl S D)), k = Mixed.negated k' →
      (if b then (.ok MFl.nan : Py (MFl S D)) else k) = Mixed.negated (if b then .ok MFl.nan else k') := by
    intro b _ k k' hk
    split
    · rfl
    · exact hk
  cases c
  case pot => exact key _
  case e => exact key _
  case n => exact key _
  case u => exact key _
  case en => exact key2 _ _ _ (key _)
  case eu => exact key2 _ _ _ (key _)
  case nu => exact key2 _ _ _ (key _)
  all_goals
    simp only [Mixed.prismGravity, Mixed.prism.gravity_ee, Mixed.prism.gravity_nn, Mixed.prism.gravity_uu]
    refine key2 _ _ _ ?_
    split
    · have key3 : ∀ k : Py (MFl S D), (do
            let r ← k
            return Mixed.GRAVITATIONAL_CONST * -ρ * (r + 4 * MFl.pi)) = Mixed.negated (do
            let r ← k
            return Mixed.GRAVITATIONAL_CONST * ρ * (r + 4 * MFl.pi)) := by
        intro k
        have := key (do let r ← k; return r + 4 * MFl.pi)
        simp only [bind_assoc, pure_bind] at this
        exact this
      exact key3 _
    · exact key _

/-- **C120.** Exchanging observation point and dipole changes no bit of the field. -/
theorem C120_dipole_exchange (hS : S.SignSymmetric) (hD : D.SignSymmetric) (a : Axis)
    (e n u e' n' u' me mn mu : MFl S D) :
    Mixed.dipoleMagnetic a e' n' u' e n u me mn mu = Mixed.dipoleMagnetic a e n u e' n' u' me mn mu := by
  cases a <;>
  simp only [Mixed.dipoleMagnetic, Mixed.dipole.magnetic_e, Mixed.dipole.magnetic_n, Mixed.dipole.magnetic_u,
    MFl.sub_swap hS hD e e', MFl.sub_swap hS hD n n', MFl.sub_swap hS hD u u', MFl.mul_neg' hS hD, MFl.neg_mul' hS hD,
    MFl.add_neg_neg hS hD, MFl.neg_neg', MFl.pow_neg_even hS hD _ even_two]

theorem Mixed.dipole_key (hS : S.SignSymmetric) (hD : D.SignSymmetric) (a b c d : MFl S D) : (do
      let x ← (-a) /ₘ b
      let y ← (-c) /ₘ d
      let z ← (Mixed.VACUUM_MAGNETIC_PERMEABILITY : MFl S D) /ₘ 4
      let w ← z /ₘ MFl.pi
      pure (w * (x - y))) = Mixed.negated (do
      let x ← a /ₘ b
      let y ← c /ₘ d
      let z ← (Mixed.VACUUM_MAGNETIC_PERMEABILITY : MFl S D) /ₘ 4
      let w ← z /ₘ MFl.pi
      pure (w * (x - y))) := by
  rw [MFl.neg_div' hS hD, MFl.neg_div' hS hD]
  cases a /ₘ b with
  | error err => rfl
  | ok x =>
    cases c /ₘ d with
    | error err => rfl
    | ok y =>
      cases (Mixed.VACUUM_MAGNETIC_PERMEABILITY : MFl S D) /ₘ 4 with
      | error err => rfl
      | ok z =>
        show (do let w ← z /ₘ MFl.pi; pure (w * (-x - -y)) : Py (MFl S D)) =
          Mixed.negated (do let w ← z /ₘ MFl.pi; pure (w * (x - y)))
        cases z /ₘ MFl.pi with
        | error err => rfl
        | ok w =>
          show Except.ok (w * (-x - -y)) = Except.ok (-(w * (x - y)))
          rw [MFl.neg_sub_neg' hS hD, MFl.mul_neg' hS hD]

/-- **C120.** Reversing the moment reverses the field of a dipole. -/
theorem C120_dipole_negate (hS : S.SignSymmetric) (hD : D.SignSymmetric) (a : Axis)
    (e n u e' n' u' me mn mu : MFl S D) :
    Mixed.dipoleMagnetic a e n u e' n' u' (-me) (-mn) (-mu) =
      Mixed.negated (Mixed.dipoleMagnetic a e n u e' n' u' me mn mu) := by
  cases a <;>
  · simp only [Mixed.dipoleMagnetic, Mixed.dipole.magnetic_e, Mixed.dipole.magnetic_n, Mixed.dipole.magnetic_u,
      MFl.mul_neg' hS hD, MFl.neg_mul' hS hD, MFl.add_neg_neg hS hD]
    exact Mixed.dipole_key hS hD _ _ _ _

/-- **C120.** Reversing the magnetization reverses every prism magnetic component, NaN cases included. -/
theorem C120_magnetization_negate (hS : S.SignSymmetric) (hD : D.SignSymmetric) (c : MComp)
    (e n u w E s N b t Me Mn Mu : MFl S D) :
    Mixed.prismMagnetic c e n u w E s N b t (-Me) (-Mn) (-Mu) =
      Mixed.negated (Mixed.prismMagnetic c e n u w E s N b t Me Mn Mu) := by
  have key2 : ∀ (b : Prop) [Decidable b] (k k' : Py (MFl S D)), k = Mixed.negated k' →
      (if b then (.ok MFl.nan : Py (MFl S D)) else k) = Mixed.negated (if b then .ok MFl.nan else k') := by
    intro b _ k k' hk
    split
    · rfl
    · exact hk
  have tail : ∀ v : MFl S D, (do
      let z ← (Mixed.VACUUM_MAGNETIC_PERMEABILITY : MFl S D) /ₘ 4
      let w ← z /ₘ MFl.pi
      pure (w * -v)) = Mixed.negated (do
      let z ← (Mixed.VACUUM_MAGNETIC_PERMEABILITY : MFl S D) /ₘ 4
      let w ← z /ₘ MFl.pi
      pure (w * v)) := by
    intro v
    cases (Mixed.VACUUM_MAGNETIC_PERMEABILITY : MFl S D) /ₘ 4 with
    | error err => rfl
    | ok z =>
      show (do let w ← z /ₘ MFl.pi; pure (w * -v) : Py (MFl S D)) =
        Mixed.negated (do let w ← z /ₘ MFl.pi; pure (w * v))
      cases z /ₘ MFl.pi with
      | error err => rfl
      | ok w => exact congrArg Except.ok (MFl.mul_neg' hS hD w v)
  cases c
  case e | n | u =>
    simp only [Mixed.prismMagnetic, Mixed.prism.magnetic_e, Mixed.prism.magnetic_n, Mixed.prism.magnetic_u]
    refine key2 _ _ _ ?_
    rw [Mixed.prism.component_neg hS hD]
    refine Mixed.negated_bind fun v => ?_
    split
    · rw [MFl.mul_neg' hS hD, MFl.add_neg_neg hS hD]
      exact tail _
    · exact tail _
  all_goals
    simp only [Mixed.prismMagnetic, Mixed.prism.magnetic_ee, Mixed.prism.magnetic_nn, Mixed.prism.magnetic_uu,
      Mixed.prism.magnetic_en, Mixed.prism.magnetic_eu, Mixed.prism.magnetic_nu]
    refine key2 _ _ _ ?_
    rw [Mixed.prism.component_neg hS hD]
    exact Mixed.negated_bind fun v => tail v

/-- An axis of a point given by three float32 or float64 numbers is negated. -/
def Axis.flip (a b : Axis) (x : MFl S D) : MFl S D := if a = b then -x else x

/-- **C120.** Mirror symmetry of the point functions is exact: negating the same coordinate of both points changes the
sign once per occurrence of the axis in the name of the component and no other bit. -/
theorem C120_point_mirror (hS : S.SignSymmetric) (hD : D.SignSymmetric) (c : GComp) (a : Axis)
    (e n u e' n' u' m : MFl S D) :
    Mixed.pointGravity c (a.flip .e e) (a.flip .n n) (a.flip .u u) (a.flip .e e') (a.flip .n n') (a.flip .u u') m =
      if Odd (c.count a) then Mixed.negated (Mixed.pointGravity c e n u e' n' u' m)
      else Mixed.pointGravity c e n u e' n' u' m := by
  have key : ∀ (x d : MFl S D), (do
      let k ← (-x) /ₘ d
      return Mixed.GRAVITATIONAL_CONST * m * k) = Mixed.negated (do
      let k ← x /ₘ d
      return Mixed.GRAVITATIONAL_CONST * m * k) := by
    intro x d
    rw [MFl.neg_div' hS hD]
    cases x /ₘ d with
    | error err => rfl
    | ok v => exact congrArg Except.ok (MFl.mul_neg' hS hD _ _)
  have odd1 : Odd 1 := odd_one
  have odd0 : ¬ Odd 0 := by decide
  have odd2 : ¬ Odd 2 := by decide
  cases c <;> cases a <;>
  · simp only [GComp.count, GComp.index, odd0, odd1, odd2, if_true, if_false, Axis.flip, reduceCtorEq]
    simp only [Mixed.pointGravity, Mixed.point.gravity_pot, Mixed.point.gravity_e,
      Mixed.point.gravity_n, Mixed.point.gravity_u, Mixed.point.gravity_ee, Mixed.point.gravity_nn,
      Mixed.point.gravity_uu, Mixed.point.gravity_en, Mixed.point.gravity_eu, Mixed.point.gravity_nu,
      Mixed.point.kernel_pot, Mixed.point.kernel_e, Mixed.point.kernel_n, Mixed.point.kernel_u,
      Mixed.point.kernel_ee, Mixed.point.kernel_nn, Mixed.point.kernel_uu, Mixed.point.kernel_en,
      Mixed.point.kernel_eu, Mixed.point.kernel_nu, Mixed.utils.distance_cartesian,
      MFl.neg_sub_neg' hS hD, MFl.pow_neg_even hS hD _ even_two, MFl.mul_neg' hS hD, MFl.neg_mul' hS hD, pure_bind]
    try exact key _ _

/-- **C120.** Mirror symmetry of the dipole functions is exact: negating the same coordinate of both points and of the
moment reverses the component of the field along that axis and changes no other bit. -/
theorem C120_dipole_mirror (hS : S.SignSymmetric) (hD : D.SignSymmetric) (a b : Axis)
    (e n u e' n' u' me mn mu : MFl S D) :
    Mixed.dipoleMagnetic b (a.flip .e e) (a.flip .n n) (a.flip .u u) (a.flip .e e') (a.flip .n n') (a.flip .u u')
        (a.flip .e me) (a.flip .n mn) (a.flip .u mu) =
      if a = b then Mixed.negated (Mixed.dipoleMagnetic b e n u e' n' u' me mn mu)
      else Mixed.dipoleMagnetic b e n u e' n' u' me mn mu := by
  cases a <;> cases b <;>
  · simp only [reduceCtorEq, if_true, if_false, Axis.flip]
    simp only [Mixed.dipoleMagnetic, Mixed.dipole.magnetic_e, Mixed.dipole.magnetic_n, Mixed.dipole.magnetic_u,
      MFl.neg_sub_neg' hS hD, MFl.pow_neg_even hS hD _ even_two, MFl.mul_neg' hS hD, MFl.neg_mul' hS hD, MFl.neg_neg']
    try exact Mixed.dipole_key hS hD _ _ _ _

/-- **C120.** Exchanging the roles of easting and northing renames every component but `gravity_en` of a point mass and
every component of a dipole, bit for bit. -/
theorem C120_rename (e n u e' n' u' : MFl S D) :
    Mixed.utils.distance_cartesian n e u n' e' u' = Mixed.utils.distance_cartesian e n u e' n' u' ∧
    (∀ c m, c ≠ GComp.en →
      Mixed.pointGravity (c.swap .en) n e u n' e' u' m = Mixed.pointGravity c e n u e' n' u' m) ∧
    (∀ a me mn mu, Mixed.dipoleMagnetic (Axis.exchangeEN a) n e u n' e' u' mn me mu =
      Mixed.dipoleMagnetic a e n u e' n' u' me mn mu) := by
  have hd : Mixed.utils.distance_cartesian n e u n' e' u' = Mixed.utils.distance_cartesian e n u e' n' u' := by
    unfold Mixed.utils.distance_cartesian
    rw [MFl.add_comm' ((n - n') ^ 2)]
  refine ⟨hd, fun c m hc => ?_, fun a me mn mu => ?_⟩
  · cases c <;> first
      | (exfalso; exact hc rfl)
      | (simp only [GComp.swap, Mixed.pointGravity, Mixed.point.gravity_pot, Mixed.point.gravity_e,
          Mixed.point.gravity_n, Mixed.point.gravity_u, Mixed.point.gravity_ee, Mixed.point.gravity_nn,
          Mixed.point.gravity_uu, Mixed.point.gravity_eu, Mixed.point.gravity_nu, hd]; rfl)
  · cases a <;> simp only [Axis.exchangeEN, Mixed.dipoleMagnetic, Mixed.dipole.magnetic_e, Mixed.dipole.magnetic_n,
        Mixed.dipole.magnetic_u] <;>
      rw [MFl.add_comm' ((n - n') ^ 2), MFl.add_comm' (mn * (n - n'))]

/-- non-vacuity: IEEE binary32 and binary64 meet the hypotheses; a float32 magnetization is reversed -/
example (c : MComp) (e n u w E s N b t : Fl Binary32) (Me Mn Mu : Fl Binary32) :
    Mixed.prismMagnetic (S := Binary32) (D := Binary64) c (.f32 e) (.f32 n) (.f32 u) (.f32 w) (.f32 E) (.f32 s)
        (.f32 N) (.f32 b) (.f32 t) (.f32 (-Me)) (.f32 (-Mn)) (.f32 (-Mu)) =
      Mixed.negated (Mixed.prismMagnetic c (.f32 e) (.f32 n) (.f32 u) (.f32 w) (.f32 E) (.f32 s)
        (.f32 N) (.f32 b) (.f32 t) (.f32 Me) (.f32 Mn) (.f32 Mu)) :=
  C120_magnetization_negate Binary32_signSymmetric Binary64_signSymmetric c _ _ _ _ _ _ _ _ _
    (.f32 Me) (.f32 Mn) (.f32 Mu)

end Choclo
