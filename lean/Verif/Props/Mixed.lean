import Verif.Lemmas.Mixed
import Verif.Model.Binary32
import Verif.Lemmas.NumbaPow

/-!
# Calls that mix float32 and float64 arguments (C106)

Observation points stored in float32 arrays are commonly used with sources in float64 (or the other way round).
If on every axis at least one of the two coordinates is a float64, every function computes, bit for bit, what it
computes when the float32 arguments are converted to float64 first: nothing runs in single precision.
-/

namespace Choclo

variable {S D : Arith}

/-- On every axis the coordinate of `p` or that of `q` is a float64. -/
structure WidePair (ep np up eq nq uq : MFl S D) : Prop where
  easting : ep.Wide ∨ eq.Wide
  northing : np.Wide ∨ nq.Wide
  upward : up.Wide ∨ uq.Wide

/-- On every axis the coordinate of the observation point is a float64, or both boundaries of the prism are. -/
structure WideCall (e n u w E s N b t : MFl S D) : Prop where
  easting : e.Wide ∨ (w.Wide ∧ E.Wide)
  northing : n.Wide ∨ (s.Wide ∧ N.Wide)
  upward : u.Wide ∨ (b.Wide ∧ t.Wide)

section pairs
variable {ep np up eq nq uq : MFl S D}

/-- `distance_cartesian`. -/
theorem C106_distance (h : WidePair ep np up eq nq uq) :
    SameCall64 (Mixed.utils.distance_cartesian ep np up eq nq uq)
      (utils.distance_cartesian ep.toD np.toD up.toD eq.toD nq.toD uq.toD) :=
  Mixed.distance64 (MFl.sub_wide h.easting) (MFl.sub_wide h.northing) (MFl.sub_wide h.upward)

/-- The kernels of `choclo.point`, called with a float64 distance. -/
theorem C106_point_kernels (h : WidePair ep np up eq nq uq) (d : Fl D) :
    SameCall64 (Mixed.point.kernel_pot ep np up eq nq uq (.f64 d)) (point.kernel_pot ep.toD np.toD up.toD eq.toD nq.toD uq.toD d) ∧
    SameCall64 (Mixed.point.kernel_e ep np up eq nq uq (.f64 d)) (point.kernel_e ep.toD np.toD up.toD eq.toD nq.toD uq.toD d) ∧
    SameCall64 (Mixed.point.kernel_n ep np up eq nq uq (.f64 d)) (point.kernel_n ep.toD np.toD up.toD eq.toD nq.toD uq.toD d) ∧
    SameCall64 (Mixed.point.kernel_u ep np up eq nq uq (.f64 d)) (point.kernel_u ep.toD np.toD up.toD eq.toD nq.toD uq.toD d) ∧
    SameCall64 (Mixed.point.kernel_ee ep np up eq nq uq (.f64 d)) (point.kernel_ee ep.toD np.toD up.toD eq.toD nq.toD uq.toD d) ∧
    SameCall64 (Mixed.point.kernel_nn ep np up eq nq uq (.f64 d)) (point.kernel_nn ep.toD np.toD up.toD eq.toD nq.toD uq.toD d) ∧
    SameCall64 (Mixed.point.kernel_uu ep np up eq nq uq (.f64 d)) (point.kernel_uu ep.toD np.toD up.toD eq.toD nq.toD uq.toD d) ∧
    SameCall64 (Mixed.point.kernel_en ep np up eq nq uq (.f64 d)) (point.kernel_en ep.toD np.toD up.toD eq.toD nq.toD uq.toD d) ∧
    SameCall64 (Mixed.point.kernel_eu ep np up eq nq uq (.f64 d)) (point.kernel_eu ep.toD np.toD up.toD eq.toD nq.toD uq.toD d) ∧
    SameCall64 (Mixed.point.kernel_nu ep np up eq nq uq (.f64 d)) (point.kernel_nu ep.toD np.toD up.toD eq.toD nq.toD uq.toD d) ∧
    SameCall64 (Mixed.point.kernel_eee ep np up eq nq uq (.f64 d)) (point.kernel_eee ep.toD np.toD up.toD eq.toD nq.toD uq.toD d) ∧
    SameCall64 (Mixed.point.kernel_nnn ep np up eq nq uq (.f64 d)) (point.kernel_nnn ep.toD np.toD up.toD eq.toD nq.toD uq.toD d) ∧
    SameCall64 (Mixed.point.kernel_uuu ep np up eq nq uq (.f64 d)) (point.kernel_uuu ep.toD np.toD up.toD eq.toD nq.toD uq.toD d) ∧
    SameCall64 (Mixed.point.kernel_een ep np up eq nq uq (.f64 d)) (point.kernel_een ep.toD np.toD up.toD eq.toD nq.toD uq.toD d) ∧
    SameCall64 (Mixed.point.kernel_eeu ep np up eq nq uq (.f64 d)) (point.kernel_eeu ep.toD np.toD up.toD eq.toD nq.toD uq.toD d) ∧
    SameCall64 (Mixed.point.kernel_nne ep np up eq nq uq (.f64 d)) (point.kernel_nne ep.toD np.toD up.toD eq.toD nq.toD uq.toD d) ∧
    SameCall64 (Mixed.point.kernel_nnu ep np up eq nq uq (.f64 d)) (point.kernel_nnu ep.toD np.toD up.toD eq.toD nq.toD uq.toD d) ∧
    SameCall64 (Mixed.point.kernel_uue ep np up eq nq uq (.f64 d)) (point.kernel_uue ep.toD np.toD up.toD eq.toD nq.toD uq.toD d) ∧
    SameCall64 (Mixed.point.kernel_uun ep np up eq nq uq (.f64 d)) (point.kernel_uun ep.toD np.toD up.toD eq.toD nq.toD uq.toD d) ∧
    SameCall64 (Mixed.point.kernel_enu ep np up eq nq uq (.f64 d)) (point.kernel_enu ep.toD np.toD up.toD eq.toD nq.toD uq.toD d) := by
  have a := MFl.sub_wide h.easting
  have b := MFl.sub_wide h.northing
  have c := MFl.sub_wide h.upward
  exact ⟨Mixed.kernel_pot64 a b c d, Mixed.kernel_e64 a b c d, Mixed.kernel_n64 a b c d, Mixed.kernel_u64 a b c d, Mixed.kernel_ee64 a b c d, Mixed.kernel_nn64 a b c d, Mixed.kernel_uu64 a b c d, Mixed.kernel_en64 a b c d, Mixed.kernel_eu64 a b c d, Mixed.kernel_nu64 a b c d, Mixed.kernel_eee64 a b c d, Mixed.kernel_nnn64 a b c d, Mixed.kernel_uuu64 a b c d, Mixed.kernel_een64 a b c d, Mixed.kernel_eeu64 a b c d, Mixed.kernel_nne64 a b c d, Mixed.kernel_nnu64 a b c d, Mixed.kernel_uue64 a b c d, Mixed.kernel_uun64 a b c d, Mixed.kernel_enu64 a b c d⟩

/-- The gravity field of a point mass; the mass may be of either type. -/
theorem C106_point_gravity (h : WidePair ep np up eq nq uq) (m : MFl S D) :
    SameCall64 (Mixed.point.gravity_pot ep np up eq nq uq m) (point.gravity_pot ep.toD np.toD up.toD eq.toD nq.toD uq.toD m.toD) ∧
    SameCall64 (Mixed.point.gravity_e ep np up eq nq uq m) (point.gravity_e ep.toD np.toD up.toD eq.toD nq.toD uq.toD m.toD) ∧
    SameCall64 (Mixed.point.gravity_n ep np up eq nq uq m) (point.gravity_n ep.toD np.toD up.toD eq.toD nq.toD uq.toD m.toD) ∧
    SameCall64 (Mixed.point.gravity_u ep np up eq nq uq m) (point.gravity_u ep.toD np.toD up.toD eq.toD nq.toD uq.toD m.toD) ∧
    SameCall64 (Mixed.point.gravity_ee ep np up eq nq uq m) (point.gravity_ee ep.toD np.toD up.toD eq.toD nq.toD uq.toD m.toD) ∧
    SameCall64 (Mixed.point.gravity_nn ep np up eq nq uq m) (point.gravity_nn ep.toD np.toD up.toD eq.toD nq.toD uq.toD m.toD) ∧
    SameCall64 (Mixed.point.gravity_uu ep np up eq nq uq m) (point.gravity_uu ep.toD np.toD up.toD eq.toD nq.toD uq.toD m.toD) ∧
    SameCall64 (Mixed.point.gravity_en ep np up eq nq uq m) (point.gravity_en ep.toD np.toD up.toD eq.toD nq.toD uq.toD m.toD) ∧
    SameCall64 (Mixed.point.gravity_eu ep np up eq nq uq m) (point.gravity_eu ep.toD np.toD up.toD eq.toD nq.toD uq.toD m.toD) ∧
    SameCall64 (Mixed.point.gravity_nu ep np up eq nq uq m) (point.gravity_nu ep.toD np.toD up.toD eq.toD nq.toD uq.toD m.toD) := by
  have a := MFl.sub_wide h.easting
  have b := MFl.sub_wide h.northing
  have c := MFl.sub_wide h.upward
  exact ⟨Mixed.gravity_pot64 a b c m, Mixed.gravity_e64 a b c m, Mixed.gravity_n64 a b c m, Mixed.gravity_u64 a b c m, Mixed.gravity_ee64 a b c m, Mixed.gravity_nn64 a b c m, Mixed.gravity_uu64 a b c m, Mixed.gravity_en64 a b c m, Mixed.gravity_eu64 a b c m, Mixed.gravity_nu64 a b c m⟩

/-- The magnetic field of a dipole; the moment may be of either type. -/
theorem C106_dipole (h : WidePair ep np up eq nq uq) (me mn mu : MFl S D) :
    SameCall64 (Mixed.dipole.magnetic_e ep np up eq nq uq me mn mu) (dipole.magnetic_e ep.toD np.toD up.toD eq.toD nq.toD uq.toD me.toD mn.toD mu.toD) ∧
    SameCall64 (Mixed.dipole.magnetic_n ep np up eq nq uq me mn mu) (dipole.magnetic_n ep.toD np.toD up.toD eq.toD nq.toD uq.toD me.toD mn.toD mu.toD) ∧
    SameCall64 (Mixed.dipole.magnetic_u ep np up eq nq uq me mn mu) (dipole.magnetic_u ep.toD np.toD up.toD eq.toD nq.toD uq.toD me.toD mn.toD mu.toD) ∧
    SameCall64x3 (Mixed.dipole.magnetic_field ep np up eq nq uq me mn mu) (dipole.magnetic_field ep.toD np.toD up.toD eq.toD nq.toD uq.toD me.toD mn.toD mu.toD) := by
  have a := MFl.sub_wide h.easting
  have b := MFl.sub_wide h.northing
  have c := MFl.sub_wide h.upward
  exact ⟨Mixed.dipole_e64 a b c me mn mu, Mixed.dipole_n64 a b c me mn mu, Mixed.dipole_u64 a b c me mn mu, Mixed.dipole_field64 a b c me mn mu⟩

end pairs

section prisms
variable {e n u w E s N b t : MFl S D}

theorem WideCall.subs (h : WideCall e n u w E s N b t) :
    w - e = .f64 (w.toD - e.toD) ∧ E - e = .f64 (E.toD - e.toD) ∧ s - n = .f64 (s.toD - n.toD) ∧
    N - n = .f64 (N.toD - n.toD) ∧ b - u = .f64 (b.toD - u.toD) ∧ t - u = .f64 (t.toD - u.toD) :=
  ⟨MFl.sub_wide (h.easting.elim .inr fun q => .inl q.1), MFl.sub_wide (h.easting.elim .inr fun q => .inl q.2),
    MFl.sub_wide (h.northing.elim .inr fun q => .inl q.1), MFl.sub_wide (h.northing.elim .inr fun q => .inl q.2),
    MFl.sub_wide (h.upward.elim .inr fun q => .inl q.1), MFl.sub_wide (h.upward.elim .inr fun q => .inl q.2)⟩

/-- The gravity field of a prism; the density may be of either type. -/
theorem C106_prism_gravity (h : WideCall e n u w E s N b t) (rho : MFl S D) :
    SameCall64 (Mixed.prism.gravity_pot e n u w E s N b t rho) (prism.gravity_pot e.toD n.toD u.toD w.toD E.toD s.toD N.toD b.toD t.toD rho.toD) ∧
    SameCall64 (Mixed.prism.gravity_e e n u w E s N b t rho) (prism.gravity_e e.toD n.toD u.toD w.toD E.toD s.toD N.toD b.toD t.toD rho.toD) ∧
    SameCall64 (Mixed.prism.gravity_n e n u w E s N b t rho) (prism.gravity_n e.toD n.toD u.toD w.toD E.toD s.toD N.toD b.toD t.toD rho.toD) ∧
    SameCall64 (Mixed.prism.gravity_u e n u w E s N b t rho) (prism.gravity_u e.toD n.toD u.toD w.toD E.toD s.toD N.toD b.toD t.toD rho.toD) ∧
    SameCall64 (Mixed.prism.gravity_ee e n u w E s N b t rho) (prism.gravity_ee e.toD n.toD u.toD w.toD E.toD s.toD N.toD b.toD t.toD rho.toD) ∧
    SameCall64 (Mixed.prism.gravity_nn e n u w E s N b t rho) (prism.gravity_nn e.toD n.toD u.toD w.toD E.toD s.toD N.toD b.toD t.toD rho.toD) ∧
    SameCall64 (Mixed.prism.gravity_uu e n u w E s N b t rho) (prism.gravity_uu e.toD n.toD u.toD w.toD E.toD s.toD N.toD b.toD t.toD rho.toD) ∧
    SameCall64 (Mixed.prism.gravity_en e n u w E s N b t rho) (prism.gravity_en e.toD n.toD u.toD w.toD E.toD s.toD N.toD b.toD t.toD rho.toD) ∧
    SameCall64 (Mixed.prism.gravity_eu e n u w E s N b t rho) (prism.gravity_eu e.toD n.toD u.toD w.toD E.toD s.toD N.toD b.toD t.toD rho.toD) ∧
    SameCall64 (Mixed.prism.gravity_nu e n u w E s N b t rho) (prism.gravity_nu e.toD n.toD u.toD w.toD E.toD s.toD N.toD b.toD t.toD rho.toD) := by
  obtain ⟨h1, h2, h3, h4, h5, h6⟩ := h.subs
  exact ⟨Mixed.prism_gravity_pot64 h1 h2 h3 h4 h5 h6 rho, Mixed.prism_gravity_e64 h1 h2 h3 h4 h5 h6 rho, Mixed.prism_gravity_n64 h1 h2 h3 h4 h5 h6 rho, Mixed.prism_gravity_u64 h1 h2 h3 h4 h5 h6 rho, Mixed.prism_gravity_ee64 h1 h2 h3 h4 h5 h6 rho, Mixed.prism_gravity_nn64 h1 h2 h3 h4 h5 h6 rho, Mixed.prism_gravity_uu64 h1 h2 h3 h4 h5 h6 rho, Mixed.prism_gravity_en64 h1 h2 h3 h4 h5 h6 rho, Mixed.prism_gravity_eu64 h1 h2 h3 h4 h5 h6 rho, Mixed.prism_gravity_nu64 h1 h2 h3 h4 h5 h6 rho⟩

/-- The magnetic field of a prism and its gradient; the magnetization may be of either type. -/
theorem C106_prism_magnetic (h : WideCall e n u w E s N b t) (Me Mn Mu : MFl S D) :
    SameCall64 (Mixed.prism.magnetic_e e n u w E s N b t Me Mn Mu) (prism.magnetic_e e.toD n.toD u.toD w.toD E.toD s.toD N.toD b.toD t.toD Me.toD Mn.toD Mu.toD) ∧
    SameCall64 (Mixed.prism.magnetic_n e n u w E s N b t Me Mn Mu) (prism.magnetic_n e.toD n.toD u.toD w.toD E.toD s.toD N.toD b.toD t.toD Me.toD Mn.toD Mu.toD) ∧
    SameCall64 (Mixed.prism.magnetic_u e n u w E s N b t Me Mn Mu) (prism.magnetic_u e.toD n.toD u.toD w.toD E.toD s.toD N.toD b.toD t.toD Me.toD Mn.toD Mu.toD) ∧
    SameCall64 (Mixed.prism.magnetic_ee e n u w E s N b t Me Mn Mu) (prism.magnetic_ee e.toD n.toD u.toD w.toD E.toD s.toD N.toD b.toD t.toD Me.toD Mn.toD Mu.toD) ∧
    SameCall64 (Mixed.prism.magnetic_nn e n u w E s N b t Me Mn Mu) (prism.magnetic_nn e.toD n.toD u.toD w.toD E.toD s.toD N.toD b.toD t.toD Me.toD Mn.toD Mu.toD) ∧
    SameCall64 (Mixed.prism.magnetic_uu e n u w E s N b t Me Mn Mu) (prism.magnetic_uu e.toD n.toD u.toD w.toD E.toD s.toD N.toD b.toD t.toD Me.toD Mn.toD Mu.toD) ∧
    SameCall64 (Mixed.prism.magnetic_en e n u w E s N b t Me Mn Mu) (prism.magnetic_en e.toD n.toD u.toD w.toD E.toD s.toD N.toD b.toD t.toD Me.toD Mn.toD Mu.toD) ∧
    SameCall64 (Mixed.prism.magnetic_eu e n u w E s N b t Me Mn Mu) (prism.magnetic_eu e.toD n.toD u.toD w.toD E.toD s.toD N.toD b.toD t.toD Me.toD Mn.toD Mu.toD) ∧
    SameCall64 (Mixed.prism.magnetic_nu e n u w E s N b t Me Mn Mu) (prism.magnetic_nu e.toD n.toD u.toD w.toD E.toD s.toD N.toD b.toD t.toD Me.toD Mn.toD Mu.toD) ∧
    SameCall64x3 (Mixed.prism.magnetic_field e n u w E s N b t Me Mn Mu) (prism.magnetic_field e.toD n.toD u.toD w.toD E.toD s.toD N.toD b.toD t.toD Me.toD Mn.toD Mu.toD) := by
  obtain ⟨h1, h2, h3, h4, h5, h6⟩ := h.subs
  exact ⟨Mixed.prism_magnetic_e64 h1 h2 h3 h4 h5 h6 Me Mn Mu, Mixed.prism_magnetic_n64 h1 h2 h3 h4 h5 h6 Me Mn Mu, Mixed.prism_magnetic_u64 h1 h2 h3 h4 h5 h6 Me Mn Mu, Mixed.prism_magnetic_ee64 h1 h2 h3 h4 h5 h6 Me Mn Mu, Mixed.prism_magnetic_nn64 h1 h2 h3 h4 h5 h6 Me Mn Mu, Mixed.prism_magnetic_uu64 h1 h2 h3 h4 h5 h6 Me Mn Mu, Mixed.prism_magnetic_en64 h1 h2 h3 h4 h5 h6 Me Mn Mu, Mixed.prism_magnetic_eu64 h1 h2 h3 h4 h5 h6 Me Mn Mu, Mixed.prism_magnetic_nu64 h1 h2 h3 h4 h5 h6 Me Mn Mu, Mixed.prism_magnetic_field64 h1 h2 h3 h4 h5 h6 Me Mn Mu⟩

end prisms

/-! ### a concrete call: observation point in float32, sources in float64 -/

example : WidePair (S := Numba32) (D := Numba64) (.f32 (Fl.fin 1)) (.f32 (Fl.fin 2)) (.f32 (Fl.fin 3)) (.f64 (Fl.fin 4))
    (.f64 (Fl.fin 5)) (.f64 (Fl.fin 6)) := ⟨.inr ⟨_, rfl⟩, .inr ⟨_, rfl⟩, .inr ⟨_, rfl⟩⟩

example : WideCall (S := Numba32) (D := Numba64) (.f32 (Fl.fin 1)) (.f32 (Fl.fin 2)) (.f32 (Fl.fin 30)) (.f64 (Fl.fin 0))
    (.f64 (Fl.fin 5)) (.f64 (Fl.fin 0)) (.f64 (Fl.fin 5)) (.f64 (Fl.fin (-5))) (.f64 (Fl.fin 0)) :=
  ⟨.inr ⟨⟨_, rfl⟩, _, rfl⟩, .inr ⟨⟨_, rfl⟩, _, rfl⟩, .inr ⟨⟨_, rfl⟩, _, rfl⟩⟩

end Choclo
