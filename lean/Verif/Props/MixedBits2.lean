import Verif.Props.Bits2
import Verif.Lemmas.MixedField
import Verif.Lemmas.MixedNoRaise
import Verif.Model.Binary32

/-! # C122: translations and coincident points for float32 and float64 arguments -/

namespace Choclo

variable {S D : Arith}

/-- The real number `x` as a float32 (`wide = false`) or as a float64 (`wide = true`). -/
def MFl.typed (wide : Bool) (x : ℝ) : MFl S D := if wide then .f64 (Fl.fin x) else .f32 (Fl.fin x)

/-- The types of the six coordinates of two points. -/
structure PairTypes where
  /-- easting of the observation point -/
  e : Bool
  /-- northing of the observation point -/
  n : Bool
  /-- upward coordinate of the observation point -/
  u : Bool
  /-- easting of the source -/
  e' : Bool
  /-- northing of the source -/
  n' : Bool
  /-- upward coordinate of the source -/
  u' : Bool

/-- Call a function of two points, each coordinate being passed as a float32 or a float64. -/
def Mixed.onPairT {β : Type} (τ : PairTypes)
    (f : MFl S D → MFl S D → MFl S D → MFl S D → MFl S D → MFl S D → β) (p q : Pt) : β :=
  f (.typed τ.e p.e) (.typed τ.n p.n) (.typed τ.u p.u) (.typed τ.e' q.e) (.typed τ.n' q.n) (.typed τ.u' q.u)

/-- The types of the coordinates of the observation point and of the three pairs of boundaries. -/
structure PrismTypes where
  /-- easting of the observation point -/
  e : Bool
  /-- northing of the observation point -/
  n : Bool
  /-- upward coordinate of the observation point -/
  u : Bool
  /-- west and east boundaries -/
  E : Bool
  /-- south and north boundaries -/
  N : Bool
  /-- bottom and top boundaries -/
  U : Bool

/-- Call a function of a point and a prism, each coordinate being passed as a float32 or a float64. -/
def Mixed.onPrismT {β : Type} (τ : PrismTypes)
    (f : MFl S D → MFl S D → MFl S D → MFl S D → MFl S D → MFl S D → MFl S D → MFl S D → MFl S D → β)
    (p : Pt) (P : Box) : β :=
  f (.typed τ.e p.e) (.typed τ.n p.n) (.typed τ.u p.u) (.typed τ.E P.west) (.typed τ.E P.east)
    (.typed τ.N P.south) (.typed τ.N P.north) (.typed τ.U P.bottom) (.typed τ.U P.top)

theorem MFl.sub_shift (σ τ : Bool) (x y t : ℝ) :
    (MFl.typed σ (x + t) : MFl S D) - MFl.typed τ (y + t) = MFl.typed σ x - MFl.typed τ y := by
  cases σ <;> cases τ
  · exact congrArg MFl.f32 (Fl.sub_shift x y t)
  · exact congrArg MFl.f64 (Fl.sub_shift x y t)
  · exact congrArg MFl.f64 (Fl.sub_shift x y t)
  · exact congrArg MFl.f64 (Fl.sub_shift x y t)

theorem MFl.typed_toD (σ : Bool) (x : ℝ) : (MFl.typed σ x : MFl S D).toD = Fl.fin x := by
  cases σ <;> rfl

theorem MFl.lt_shift (σ τ : Bool) (x y t : ℝ) :
    MFl.lt (MFl.typed σ (x + t) : MFl S D) (MFl.typed τ (y + t)) = MFl.lt (MFl.typed σ x : MFl S D) (MFl.typed τ y) := by
  unfold MFl.lt
  rw [typed_toD, typed_toD, typed_toD, typed_toD]
  exact Fl.lt_shift x y t

theorem MFl.le_shift (σ τ : Bool) (x y t : ℝ) :
    MFl.le (MFl.typed σ (x + t) : MFl S D) (MFl.typed τ (y + t)) = MFl.le (MFl.typed σ x : MFl S D) (MFl.typed τ y) := by
  unfold MFl.le
  rw [typed_toD, typed_toD, typed_toD, typed_toD]
  exact Fl.le_shift x y t

theorem MFl.eq_shift (σ τ : Bool) (x y t : ℝ) :
    MFl.eq (MFl.typed σ (x + t) : MFl S D) (MFl.typed τ (y + t)) = MFl.eq (MFl.typed σ x : MFl S D) (MFl.typed τ y) := by
  unfold MFl.eq
  rw [typed_toD, typed_toD, typed_toD, typed_toD]
  exact Fl.eq_shift x y t

/-! ## Translations -/

/-- **C122.** For every assignment of types, `distance_cartesian` is bit-for-bit unchanged when both points are
translated exactly, -/
theorem C122_distance (τ : PairTypes) (p q t : Pt) :
    Mixed.onPairT (S := S) (D := D) τ Mixed.utils.distance_cartesian (p.shift t) (q.shift t) =
      Mixed.onPairT τ Mixed.utils.distance_cartesian p q := by
  simp only [Mixed.onPairT, Pt.shift, Pt.e, Pt.n, Pt.u, Mixed.utils.distance_cartesian, MFl.sub_shift]

/-- so is every `point.gravity_*`, exceptions included, -/
theorem C122_point (τ : PairTypes) (c : GComp) (p q t : Pt) (m : MFl S D) :
    Mixed.onPairT τ (Mixed.pointGravity c) (p.shift t) (q.shift t) m =
      Mixed.onPairT τ (Mixed.pointGravity c) p q m := by
  cases c <;>
  simp only [Mixed.onPairT, Pt.shift, Pt.e, Pt.n, Pt.u, Mixed.pointGravity, Mixed.point.gravity_pot,
    Mixed.point.gravity_e, Mixed.point.gravity_n, Mixed.point.gravity_u, Mixed.point.gravity_ee,
    Mixed.point.gravity_nn, Mixed.point.gravity_uu, Mixed.point.gravity_en, Mixed.point.gravity_eu,
    Mixed.point.gravity_nu, Mixed.point.kernel_pot, Mixed.point.kernel_e, Mixed.point.kernel_n, Mixed.point.kernel_u,
    Mixed.point.kernel_ee, Mixed.point.kernel_nn, Mixed.point.kernel_uu, Mixed.point.kernel_en, Mixed.point.kernel_eu,
    Mixed.point.kernel_nu, Mixed.utils.distance_cartesian, MFl.sub_shift]

/-- every `dipole.magnetic_*`, -/
theorem C122_dipole (τ : PairTypes) (a : Axis) (p q t : Pt) (me mn mu : MFl S D) :
    Mixed.onPairT τ (Mixed.dipoleMagnetic a) (p.shift t) (q.shift t) me mn mu =
      Mixed.onPairT τ (Mixed.dipoleMagnetic a) p q me mn mu := by
  cases a <;>
  simp only [Mixed.onPairT, Pt.shift, Pt.e, Pt.n, Pt.u, Mixed.dipoleMagnetic, Mixed.dipole.magnetic_e,
    Mixed.dipole.magnetic_n, Mixed.dipole.magnetic_u, MFl.sub_shift]

/-- every `prism.gravity_*`, NaN included, -/
theorem C122_prism_gravity (τ : PrismTypes) (c : GComp) (p t : Pt) (P : Box) (ρ : MFl S D) :
    Mixed.onPrismT τ (Mixed.prismGravity c) (p.shift t) (P.shift t) ρ =
      Mixed.onPrismT τ (Mixed.prismGravity c) p P ρ := by
  cases c <;>
  simp only [Mixed.onPrismT, Pt.shift, Pt.e, Pt.n, Pt.u, Box.shift, Mixed.prismGravity, Mixed.prism.gravity_pot,
    Mixed.prism.gravity_e, Mixed.prism.gravity_n, Mixed.prism.gravity_u, Mixed.prism.gravity_ee,
    Mixed.prism.gravity_nn, Mixed.prism.gravity_uu, Mixed.prism.gravity_en, Mixed.prism.gravity_eu,
    Mixed.prism.gravity_nu, Mixed.prism.evaluate_kernel_unroll, Mixed.prism.is_point_on_easting_edge,
    Mixed.prism.is_point_on_northing_edge, Mixed.prism.is_point_on_upward_edge, Mixed.prism.is_point_on_east_face,
    Mixed.prism.is_point_on_north_face, Mixed.prism.is_point_on_top_face, MFl.sub_shift, MFl.lt_shift, MFl.le_shift,
    MFl.eq_shift] <;> rfl

/-- and every scalar `prism.magnetic_*`. -/
theorem C122_prism_magnetic (τ : PrismTypes) (c : MComp) (p t : Pt) (P : Box) (Me Mn Mu : MFl S D) :
    Mixed.onPrismT τ (Mixed.prismMagnetic c) (p.shift t) (P.shift t) Me Mn Mu =
      Mixed.onPrismT τ (Mixed.prismMagnetic c) p P Me Mn Mu := by
  cases c <;>
  simp only [Mixed.onPrismT, Pt.shift, Pt.e, Pt.n, Pt.u, Box.shift, Mixed.prismMagnetic, Mixed.prism.magnetic_e,
    Mixed.prism.magnetic_n, Mixed.prism.magnetic_u, Mixed.prism.magnetic_ee, Mixed.prism.magnetic_nn,
    Mixed.prism.magnetic_uu, Mixed.prism.magnetic_en, Mixed.prism.magnetic_eu, Mixed.prism.magnetic_nu,
    Mixed.prism.calculate_component_steps, Mixed.prism.is_point_on_edge, Mixed.prism.is_interior_point,
    Mixed.prism.is_point_on_easting_edge, Mixed.prism.is_point_on_northing_edge, Mixed.prism.is_point_on_upward_edge,
    Mixed.prism.is_point_on_east_face, Mixed.prism.is_point_on_north_face, Mixed.prism.is_point_on_top_face,
    MFl.sub_shift, MFl.lt_shift, MFl.le_shift, MFl.eq_shift] <;> rfl

/-- instance: float32 coordinates, all of them integers below `2 ^ 24` and hence exact, in a local and in a shifted
frame -/
example : Mixed.onPrismT (S := Binary32) (D := Binary64) ⟨false, false, false, false, false, false⟩
      (Mixed.prismGravity .uu) (500010, 7000020, 1030) ⟨500000, 500100, 7000000, 7000100, -200, 0⟩ (.f32 (Fl.fin 2670)) =
    Mixed.onPrismT ⟨false, false, false, false, false, false⟩
      (Mixed.prismGravity .uu) (10, 20, 30) ⟨0, 100, 0, 100, -1200, -1000⟩ (.f32 (Fl.fin 2670)) := by
  have h := C122_prism_gravity (S := Binary32) (D := Binary64) ⟨false, false, false, false, false, false⟩ .uu
    (10, 20, 30) (500000, 7000000, 1000) ⟨0, 100, 0, 100, -1200, -1000⟩ (.f32 (Fl.fin 2670))
  norm_num [Pt.shift, Box.shift, Pt.e, Pt.n, Pt.u] at h
  exact h

/-! ## Coincident points -/

/-- The call raises `ZeroDivisionError`. -/
def Mixed.Raises (call : Py (MFl S D)) : Prop := call = .error .zeroDivision

theorem MFl.zero_sub (hS : S.ExactAtZero) (hD : D.ExactAtZero) {a b : MFl S D} {x : ℝ} (ha : a.IsReal x)
    (hb : b.IsReal x) : (a - b).IsReal 0 := by
  cases a with
  | f32 y =>
    cases b with
    | f32 z =>
      have ha' : y = Fl.fin x := ha
      have hb' : z = Fl.fin x := hb
      rw [ha', hb']
      exact Fl.sub_self_fin hS x
    | f64 z =>
      have ha' : y.up = (Fl.fin x : Fl D) := ha
      have hb' : z = Fl.fin x := hb
      show y.up - z = (Fl.fin 0 : Fl D)
      rw [ha', hb']
      exact Fl.sub_self_fin hD x
  | f64 y =>
    cases b with
    | f32 z =>
      have ha' : y = (Fl.fin x : Fl D) := ha
      have hb' : z.up = (Fl.fin x : Fl D) := hb
      show y - z.up = (Fl.fin 0 : Fl D)
      rw [ha', hb']
      exact Fl.sub_self_fin hD x
    | f64 z =>
      have ha' : y = (Fl.fin x : Fl D) := ha
      have hb' : z = (Fl.fin x : Fl D) := hb
      show y - z = (Fl.fin 0 : Fl D)
      rw [ha', hb']
      exact Fl.sub_self_fin hD x

theorem MFl.zero_add_zero (hS : S.ExactAtZero) (hD : D.ExactAtZero) {a b : MFl S D} (ha : a.IsReal 0)
    (hb : b.IsReal 0) : (a + b).IsReal 0 := by
  cases a with
  | f32 y =>
    cases b with
    | f32 z =>
      have ha' : y = Fl.fin 0 := ha
      have hb' : z = Fl.fin 0 := hb
      rw [ha', hb']
      exact Fl.zero_add_zero' hS
    | f64 z =>
      have ha' : y.up = (Fl.fin 0 : Fl D) := ha
      have hb' : z = Fl.fin 0 := hb
      show y.up + z = (Fl.fin 0 : Fl D)
      rw [ha', hb']
      exact Fl.zero_add_zero' hD
  | f64 y =>
    cases b with
    | f32 z =>
      have ha' : y = (Fl.fin 0 : Fl D) := ha
      have hb' : z.up = (Fl.fin 0 : Fl D) := hb
      show y + z.up = (Fl.fin 0 : Fl D)
      rw [ha', hb']
      exact Fl.zero_add_zero' hD
    | f64 z =>
      have ha' : y = (Fl.fin 0 : Fl D) := ha
      have hb' : z = (Fl.fin 0 : Fl D) := hb
      show y + z = (Fl.fin 0 : Fl D)
      rw [ha', hb']
      exact Fl.zero_add_zero' hD

theorem MFl.zero_pow (hS : S.ExactAtZero) (hD : D.ExactAtZero) {a : MFl S D} (ha : a.IsReal 0) {n : ℕ} (hn : n ≠ 0) :
    (a ^ n).IsReal 0 := by
  cases a with
  | f32 y =>
    have ha' : y = Fl.fin 0 := ha
    rw [ha']
    exact Fl.zero_pow' hS hn
  | f64 y =>
    have ha' : y = Fl.fin 0 := ha
    rw [ha']
    exact Fl.zero_pow' hD hn

theorem MFl.sqrt_zero (hS : S.ExactAtZero) (hD : D.ExactAtZero) {a : MFl S D} (ha : a.IsReal 0) :
    (MFl.sqrt a).IsReal 0 := by
  cases a with
  | f32 y =>
    have ha' : y = Fl.fin 0 := ha
    rw [ha']
    exact Fl.sqrt_zero' hS
  | f64 y =>
    have ha' : y = Fl.fin 0 := ha
    rw [ha']
    exact Fl.sqrt_zero' hD

theorem MFl.div_zero {a b : MFl S D} (hb : b.IsReal 0) : a /ₘ b = .error .zeroDivision := by
  cases a with
  | f32 y =>
    cases b with
    | f32 z =>
      have hb' : z = Fl.fin 0 := hb
      rw [hb']
      exact congrArg (Except.map MFl.f32) (Fl.div_fin_zero y)
    | f64 z =>
      have hb' : z = Fl.fin 0 := hb
      rw [hb']
      exact congrArg (Except.map MFl.f64) (Fl.div_fin_zero (A := D) y.up)
  | f64 y =>
    cases b with
    | f32 z =>
      have hb' : z = Fl.fin 0 := hb
      rw [hb']
      exact congrArg (Except.map MFl.f64) (Fl.div_fin_zero (A := D) y)
    | f64 z =>
      have hb' : z = Fl.fin 0 := hb
      rw [hb']
      exact congrArg (Except.map MFl.f64) (Fl.div_fin_zero y)

/-- **C122.** The distance between a point and itself is zero, whatever the types of its coordinates in the two places, -/
theorem C122_distance_zero (hS : S.ExactAtZero) (hD : D.ExactAtZero) {e n u e' n' u' : MFl S D} {p : Pt}
    (h : ArePoints e n u e' n' u' p p) :
    ∃ d, Mixed.utils.distance_cartesian e n u e' n' u' = .ok d ∧ d.IsReal 0 :=
  ⟨_, rfl, MFl.sqrt_zero hS hD (MFl.zero_add_zero hS hD (MFl.zero_add_zero hS hD
    (MFl.zero_pow hS hD (MFl.zero_sub hS hD h.ep h.eq) two_ne_zero)
    (MFl.zero_pow hS hD (MFl.zero_sub hS hD h.np h.nq) two_ne_zero))
    (MFl.zero_pow hS hD (MFl.zero_sub hS hD h.up h.uq) two_ne_zero))⟩

/-- all ten `point.gravity_*` raise `ZeroDivisionError` there, whatever the mass, -/
theorem C122_point_raises (hS : S.ExactAtZero) (hD : D.ExactAtZero) (c : GComp) {e n u e' n' u' : MFl S D} {p : Pt}
    (h : ArePoints e n u e' n' u' p p) (m : MFl S D) :
    Mixed.Raises (Mixed.pointGravity c e n u e' n' u' m) := by
  obtain ⟨d, hd, h0⟩ := C122_distance_zero hS hD h
  have h3 := MFl.zero_pow hS hD h0 (n := 3) (by norm_num)
  have h5 := MFl.zero_pow hS hD h0 (n := 5) (by norm_num)
  have ok : ∀ (f : MFl S D → Py (MFl S D)), ((.ok d : Py (MFl S D)) >>= f) = f d := fun _ => rfl
  cases c <;>
  · simp only [Mixed.Raises, Mixed.pointGravity, Mixed.point.gravity_pot, Mixed.point.gravity_e, Mixed.point.gravity_n,
      Mixed.point.gravity_u, Mixed.point.gravity_ee, Mixed.point.gravity_nn, Mixed.point.gravity_uu,
      Mixed.point.gravity_en, Mixed.point.gravity_eu, Mixed.point.gravity_nu, hd, Mixed.point.kernel_pot,
      Mixed.point.kernel_e, Mixed.point.kernel_n, Mixed.point.kernel_u, Mixed.point.kernel_ee, Mixed.point.kernel_nn,
      Mixed.point.kernel_uu, Mixed.point.kernel_en, Mixed.point.kernel_eu, Mixed.point.kernel_nu]
    rw [ok]
    first
      | rw [MFl.div_zero h5]; rfl
      | rw [MFl.div_zero h3]; rfl
      | rw [MFl.div_zero h0]; rfl

/-- and so do the three `dipole.magnetic_*`. -/
theorem C122_dipole_raises (hS : S.ExactAtZero) (hD : D.ExactAtZero) (a : Axis) {e n u e' n' u' : MFl S D} {p : Pt}
    (h : ArePoints e n u e' n' u' p p) (me mn mu : MFl S D) :
    Mixed.Raises (Mixed.dipoleMagnetic a e n u e' n' u' me mn mu) := by
  obtain ⟨d, hd, h0⟩ := C122_distance_zero hS hD h
  have h5 := MFl.zero_pow hS hD h0 (n := 5) (by norm_num)
  have hd' : MFl.sqrt ((e - e') ^ 2 + (n - n') ^ 2 + (u - u') ^ 2) = d := by
    cases hd; rfl
  cases a <;>
  · simp only [Mixed.Raises, Mixed.dipoleMagnetic, Mixed.dipole.magnetic_e, Mixed.dipole.magnetic_n,
      Mixed.dipole.magnetic_u, hd']
    rw [MFl.div_zero h5]; rfl

theorem Binary32_exactAtZero' : Binary32.ExactAtZero := by
  refine ⟨B32.rnd_zero, fun n hn => ?_⟩
  show B32.rnd (0 ^ n) = _
  rw [zero_pow hn, B32.rnd_zero]

/-- non-vacuity: a float32 observation point at a float64 source -/
example (p : Pt) (m : MFl Binary32 Binary64) :
    Mixed.Raises (Mixed.onPairT ⟨false, false, false, true, true, true⟩ (Mixed.pointGravity .uu) p p m) :=
  C122_point_raises Binary32_exactAtZero' Binary64_exactAtZero .uu
    ⟨MFl.typed_toD _ _, MFl.typed_toD _ _, MFl.typed_toD _ _, MFl.typed_toD _ _, MFl.typed_toD _ _, MFl.typed_toD _ _⟩ _

end Choclo
