import Verif.Spec.Mixed
import Verif.Lemmas.Unroll

set_option linter.unusedSimpArgs false
set_option linter.unusedVariables false
set_option linter.unusedSectionVars false

/-! # Computations in which every difference of coordinates is a float64 -/

namespace Choclo

variable {S D : Arith}

namespace MFl

@[simp] theorem toD_f64 (x : Fl D) : (.f64 x : MFl S D).toD = x := rfl
@[simp] theorem f64_add (x : Fl D) (b : MFl S D) : .f64 x + b = .f64 (x + b.toD) := by cases b <;> rfl
@[simp] theorem add_f64 (b : MFl S D) (x : Fl D) : b + .f64 x = .f64 (b.toD + x) := by cases b <;> rfl
@[simp] theorem f64_sub (x : Fl D) (b : MFl S D) : .f64 x - b = .f64 (x - b.toD) := by cases b <;> rfl
@[simp] theorem sub_f64 (b : MFl S D) (x : Fl D) : b - .f64 x = .f64 (b.toD - x) := by cases b <;> rfl
@[simp] theorem f64_mul (x : Fl D) (b : MFl S D) : .f64 x * b = .f64 (x * b.toD) := by cases b <;> rfl
@[simp] theorem mul_f64 (b : MFl S D) (x : Fl D) : b * .f64 x = .f64 (b.toD * x) := by cases b <;> rfl
@[simp] theorem f64_div (x : Fl D) (b : MFl S D) : .f64 x /ₘ b = (x /. b.toD).map .f64 := by cases b <;> rfl
@[simp] theorem div_f64 (b : MFl S D) (x : Fl D) : b /ₘ .f64 x = (b.toD /. x).map .f64 := by cases b <;> rfl
@[simp] theorem neg_f64 (x : Fl D) : -(.f64 x : MFl S D) = .f64 (-x) := rfl
@[simp] theorem pow_f64 (x : Fl D) (n : ℕ) : (.f64 x : MFl S D) ^ n = .f64 (x ^ n) := rfl
@[simp] theorem sqrt_f64 (x : Fl D) : sqrt (.f64 x : MFl S D) = .f64 (Fl.sqrt x) := rfl
@[simp] theorem log_f64 (x : Fl D) : log (.f64 x : MFl S D) = .f64 (Fl.log x) := rfl
@[simp] theorem arctan_f64 (x : Fl D) : arctan (.f64 x : MFl S D) = .f64 (Fl.arctan x) := rfl
@[simp] theorem cos_f64 (x : Fl D) : cos (.f64 x : MFl S D) = .f64 (Fl.cos x) := rfl
@[simp] theorem sin_f64 (x : Fl D) : sin (.f64 x : MFl S D) = .f64 (Fl.sin x) := rfl
@[simp] theorem radians_f64 (x : Fl D) : radians (.f64 x : MFl S D) = .f64 (Fl.radians x) := rfl
@[simp] theorem widen_f64 (x : Fl D) : widen (.f64 x : MFl S D) = .f64 x := rfl
@[simp] theorem ofNat_eq (n : ℕ) : (OfNat.ofNat n : MFl S D) = .f64 (OfNat.ofNat n) := rfl
@[simp] theorem intCast_eq (n : ℤ) : ((n : MFl S D)) = .f64 (n : Fl D) := rfl
@[simp] theorem nan_eq : (nan : MFl S D) = .f64 Fl.nan := rfl
@[simp] theorem pi_eq : (pi : MFl S D) = .f64 Fl.pi := rfl
@[simp] theorem half_eq : (half : MFl S D) = .f64 Fl.half := rfl
@[simp] theorem lt_eq (a b : MFl S D) : lt a b = Fl.lt a.toD b.toD := rfl
@[simp] theorem le_eq (a b : MFl S D) : le a b = Fl.le a.toD b.toD := rfl
@[simp] theorem eq_eq (a b : MFl S D) : eq a b = Fl.eq a.toD b.toD := rfl

theorem sub_wide {a b : MFl S D} (h : a.Wide ∨ b.Wide) : a - b = .f64 (a.toD - b.toD) := by
  rcases h with ⟨x, rfl⟩ | ⟨x, rfl⟩ <;> simp

end MFl

namespace Py
variable {α β γ : Type}

@[simp] theorem map_bind (x : Py α) (g : α → Py β) (f : β → γ) : Except.map f (x >>= g) = x >>= fun a => Except.map f (g a) := by
  cases x <;> rfl
@[simp] theorem bind_map (x : Py α) (f : α → β) (g : β → Py γ) : (Except.map f x >>= g) = x >>= fun a => g (f a) := by
  cases x <;> rfl
@[simp] theorem fmap_eq (x : Py α) (f : α → β) : f <$> x = Except.map f x := rfl
@[simp] theorem map_pure (x : α) (f : α → β) : Except.map f (pure x : Py α) = pure (f x) := rfl
@[simp] theorem map_map (x : Py α) (f : α → β) (g : β → γ) : Except.map g (Except.map f x) = Except.map (fun a => g (f a)) x := by
  cases x <;> rfl
theorem map_eq_bind (x : Py α) (f : α → β) : Except.map f x = x >>= fun a => pure (f a) := by cases x <;> rfl
end Py

namespace Mixed

@[simp] theorem G_eq : (GRAVITATIONAL_CONST : MFl S D) = .f64 Choclo.GRAVITATIONAL_CONST := rfl
@[simp] theorem mu_eq : (VACUUM_MAGNETIC_PERMEABILITY : MFl S D) = .f64 Choclo.VACUUM_MAGNETIC_PERMEABILITY := rfl

section pairs
variable {ep np up eq nq uq : MFl S D} (he : ep - eq = .f64 (ep.toD - eq.toD)) (hn : np - nq = .f64 (np.toD - nq.toD))
  (hu : up - uq = .f64 (up.toD - uq.toD))
include he hn hu

theorem distance64 : utils.distance_cartesian ep np up eq nq uq
    = (Choclo.utils.distance_cartesian ep.toD np.toD up.toD eq.toD nq.toD uq.toD).map .f64 := by
  simp [utils.distance_cartesian, Choclo.utils.distance_cartesian, he, hn, hu]

theorem kernel_pot64 (d : Fl D) : point.kernel_pot ep np up eq nq uq (.f64 d)
    = (Choclo.point.kernel_pot ep.toD np.toD up.toD eq.toD nq.toD uq.toD d).map .f64 := by
  simp [point.kernel_pot, Choclo.point.kernel_pot, he, hn, hu]

theorem kernel_e64 (d : Fl D) : point.kernel_e ep np up eq nq uq (.f64 d)
    = (Choclo.point.kernel_e ep.toD np.toD up.toD eq.toD nq.toD uq.toD d).map .f64 := by
  simp [point.kernel_e, Choclo.point.kernel_e, he, hn, hu]

theorem kernel_n64 (d : Fl D) : point.kernel_n ep np up eq nq uq (.f64 d)
    = (Choclo.point.kernel_n ep.toD np.toD up.toD eq.toD nq.toD uq.toD d).map .f64 := by
  simp [point.kernel_n, Choclo.point.kernel_n, he, hn, hu]

theorem kernel_u64 (d : Fl D) : point.kernel_u ep np up eq nq uq (.f64 d)
    = (Choclo.point.kernel_u ep.toD np.toD up.toD eq.toD nq.toD uq.toD d).map .f64 := by
  simp [point.kernel_u, Choclo.point.kernel_u, he, hn, hu]

theorem kernel_ee64 (d : Fl D) : point.kernel_ee ep np up eq nq uq (.f64 d)
    = (Choclo.point.kernel_ee ep.toD np.toD up.toD eq.toD nq.toD uq.toD d).map .f64 := by
  simp [point.kernel_ee, Choclo.point.kernel_ee, he, hn, hu]

theorem kernel_nn64 (d : Fl D) : point.kernel_nn ep np up eq nq uq (.f64 d)
    = (Choclo.point.kernel_nn ep.toD np.toD up.toD eq.toD nq.toD uq.toD d).map .f64 := by
  simp [point.kernel_nn, Choclo.point.kernel_nn, he, hn, hu]

theorem kernel_uu64 (d : Fl D) : point.kernel_uu ep np up eq nq uq (.f64 d)
    = (Choclo.point.kernel_uu ep.toD np.toD up.toD eq.toD nq.toD uq.toD d).map .f64 := by
  simp [point.kernel_uu, Choclo.point.kernel_uu, he, hn, hu]

theorem kernel_en64 (d : Fl D) : point.kernel_en ep np up eq nq uq (.f64 d)
    = (Choclo.point.kernel_en ep.toD np.toD up.toD eq.toD nq.toD uq.toD d).map .f64 := by
  simp [point.kernel_en, Choclo.point.kernel_en, he, hn, hu]

theorem kernel_eu64 (d : Fl D) : point.kernel_eu ep np up eq nq uq (.f64 d)
    = (Choclo.point.kernel_eu ep.toD np.toD up.toD eq.toD nq.toD uq.toD d).map .f64 := by
  simp [point.kernel_eu, Choclo.point.kernel_eu, he, hn, hu]

theorem kernel_nu64 (d : Fl D) : point.kernel_nu ep np up eq nq uq (.f64 d)
    = (Choclo.point.kernel_nu ep.toD np.toD up.toD eq.toD nq.toD uq.toD d).map .f64 := by
  simp [point.kernel_nu, Choclo.point.kernel_nu, he, hn, hu]

theorem kernel_eee64 (d : Fl D) : point.kernel_eee ep np up eq nq uq (.f64 d)
    = (Choclo.point.kernel_eee ep.toD np.toD up.toD eq.toD nq.toD uq.toD d).map .f64 := by
  simp [point.kernel_eee, Choclo.point.kernel_eee, he, hn, hu]

theorem kernel_nnn64 (d : Fl D) : point.kernel_nnn ep np up eq nq uq (.f64 d)
    = (Choclo.point.kernel_nnn ep.toD np.toD up.toD eq.toD nq.toD uq.toD d).map .f64 := by
  simp [point.kernel_nnn, Choclo.point.kernel_nnn, he, hn, hu]

theorem kernel_uuu64 (d : Fl D) : point.kernel_uuu ep np up eq nq uq (.f64 d)
    = (Choclo.point.kernel_uuu ep.toD np.toD up.toD eq.toD nq.toD uq.toD d).map .f64 := by
  simp [point.kernel_uuu, Choclo.point.kernel_uuu, he, hn, hu]

theorem kernel_een64 (d : Fl D) : point.kernel_een ep np up eq nq uq (.f64 d)
    = (Choclo.point.kernel_een ep.toD np.toD up.toD eq.toD nq.toD uq.toD d).map .f64 := by
  simp [point.kernel_een, Choclo.point.kernel_een, he, hn, hu]

theorem kernel_eeu64 (d : Fl D) : point.kernel_eeu ep np up eq nq uq (.f64 d)
    = (Choclo.point.kernel_eeu ep.toD np.toD up.toD eq.toD nq.toD uq.toD d).map .f64 := by
  simp [point.kernel_eeu, Choclo.point.kernel_eeu, he, hn, hu]

theorem kernel_nne64 (d : Fl D) : point.kernel_nne ep np up eq nq uq (.f64 d)
    = (Choclo.point.kernel_nne ep.toD np.toD up.toD eq.toD nq.toD uq.toD d).map .f64 := by
  simp [point.kernel_nne, Choclo.point.kernel_nne, he, hn, hu]

theorem kernel_nnu64 (d : Fl D) : point.kernel_nnu ep np up eq nq uq (.f64 d)
    = (Choclo.point.kernel_nnu ep.toD np.toD up.toD eq.toD nq.toD uq.toD d).map .f64 := by
  simp [point.kernel_nnu, Choclo.point.kernel_nnu, he, hn, hu]

theorem kernel_uue64 (d : Fl D) : point.kernel_uue ep np up eq nq uq (.f64 d)
    = (Choclo.point.kernel_uue ep.toD np.toD up.toD eq.toD nq.toD uq.toD d).map .f64 := by
  simp [point.kernel_uue, Choclo.point.kernel_uue, he, hn, hu]

theorem kernel_uun64 (d : Fl D) : point.kernel_uun ep np up eq nq uq (.f64 d)
    = (Choclo.point.kernel_uun ep.toD np.toD up.toD eq.toD nq.toD uq.toD d).map .f64 := by
  simp [point.kernel_uun, Choclo.point.kernel_uun, he, hn, hu]

theorem kernel_enu64 (d : Fl D) : point.kernel_enu ep np up eq nq uq (.f64 d)
    = (Choclo.point.kernel_enu ep.toD np.toD up.toD eq.toD nq.toD uq.toD d).map .f64 := by
  simp [point.kernel_enu, Choclo.point.kernel_enu, he, hn, hu]

theorem gravity_pot64 (m : MFl S D) : point.gravity_pot ep np up eq nq uq m
    = (Choclo.point.gravity_pot ep.toD np.toD up.toD eq.toD nq.toD uq.toD m.toD).map .f64 := by
  simp [point.gravity_pot, Choclo.point.gravity_pot, distance64 he hn hu, kernel_pot64 he hn hu]

theorem gravity_e64 (m : MFl S D) : point.gravity_e ep np up eq nq uq m
    = (Choclo.point.gravity_e ep.toD np.toD up.toD eq.toD nq.toD uq.toD m.toD).map .f64 := by
  simp [point.gravity_e, Choclo.point.gravity_e, distance64 he hn hu, kernel_e64 he hn hu]

theorem gravity_n64 (m : MFl S D) : point.gravity_n ep np up eq nq uq m
    = (Choclo.point.gravity_n ep.toD np.toD up.toD eq.toD nq.toD uq.toD m.toD).map .f64 := by
  simp [point.gravity_n, Choclo.point.gravity_n, distance64 he hn hu, kernel_n64 he hn hu]

theorem gravity_u64 (m : MFl S D) : point.gravity_u ep np up eq nq uq m
    = (Choclo.point.gravity_u ep.toD np.toD up.toD eq.toD nq.toD uq.toD m.toD).map .f64 := by
  simp [point.gravity_u, Choclo.point.gravity_u, distance64 he hn hu, kernel_u64 he hn hu]

theorem gravity_ee64 (m : MFl S D) : point.gravity_ee ep np up eq nq uq m
    = (Choclo.point.gravity_ee ep.toD np.toD up.toD eq.toD nq.toD uq.toD m.toD).map .f64 := by
  simp [point.gravity_ee, Choclo.point.gravity_ee, distance64 he hn hu, kernel_ee64 he hn hu]

theorem gravity_nn64 (m : MFl S D) : point.gravity_nn ep np up eq nq uq m
    = (Choclo.point.gravity_nn ep.toD np.toD up.toD eq.toD nq.toD uq.toD m.toD).map .f64 := by
  simp [point.gravity_nn, Choclo.point.gravity_nn, distance64 he hn hu, kernel_nn64 he hn hu]

theorem gravity_uu64 (m : MFl S D) : point.gravity_uu ep np up eq nq uq m
    = (Choclo.point.gravity_uu ep.toD np.toD up.toD eq.toD nq.toD uq.toD m.toD).map .f64 := by
  simp [point.gravity_uu, Choclo.point.gravity_uu, distance64 he hn hu, kernel_uu64 he hn hu]

theorem gravity_en64 (m : MFl S D) : point.gravity_en ep np up eq nq uq m
    = (Choclo.point.gravity_en ep.toD np.toD up.toD eq.toD nq.toD uq.toD m.toD).map .f64 := by
  simp [point.gravity_en, Choclo.point.gravity_en, distance64 he hn hu, kernel_en64 he hn hu]

theorem gravity_eu64 (m : MFl S D) : point.gravity_eu ep np up eq nq uq m
    = (Choclo.point.gravity_eu ep.toD np.toD up.toD eq.toD nq.toD uq.toD m.toD).map .f64 := by
  simp [point.gravity_eu, Choclo.point.gravity_eu, distance64 he hn hu, kernel_eu64 he hn hu]

theorem gravity_nu64 (m : MFl S D) : point.gravity_nu ep np up eq nq uq m
    = (Choclo.point.gravity_nu ep.toD np.toD up.toD eq.toD nq.toD uq.toD m.toD).map .f64 := by
  simp [point.gravity_nu, Choclo.point.gravity_nu, distance64 he hn hu, kernel_nu64 he hn hu]

theorem dipole_e64 (me mn mu : MFl S D) : dipole.magnetic_e ep np up eq nq uq me mn mu
    = (Choclo.dipole.magnetic_e ep.toD np.toD up.toD eq.toD nq.toD uq.toD me.toD mn.toD mu.toD).map .f64 := by
  simp [dipole.magnetic_e, Choclo.dipole.magnetic_e, he, hn, hu]

theorem dipole_n64 (me mn mu : MFl S D) : dipole.magnetic_n ep np up eq nq uq me mn mu
    = (Choclo.dipole.magnetic_n ep.toD np.toD up.toD eq.toD nq.toD uq.toD me.toD mn.toD mu.toD).map .f64 := by
  simp [dipole.magnetic_n, Choclo.dipole.magnetic_n, he, hn, hu]

theorem dipole_u64 (me mn mu : MFl S D) : dipole.magnetic_u ep np up eq nq uq me mn mu
    = (Choclo.dipole.magnetic_u ep.toD np.toD up.toD eq.toD nq.toD uq.toD me.toD mn.toD mu.toD).map .f64 := by
  simp [dipole.magnetic_u, Choclo.dipole.magnetic_u, he, hn, hu]

theorem dipole_field64 (me mn mu : MFl S D) : dipole.magnetic_field ep np up eq nq uq me mn mu
    = (Choclo.dipole.magnetic_field ep.toD np.toD up.toD eq.toD nq.toD uq.toD me.toD mn.toD mu.toD).map
      fun r => (.f64 r.1, .f64 r.2.1, .f64 r.2.2) := by
  simp [dipole.magnetic_field, Choclo.dipole.magnetic_field, he, hn, hu]

end pairs

/-! ### prism kernels -/

section kernels
variable (x y z r : Fl D)

theorem safe_atan64 : prism._safe_atan2 (.f64 y : MFl S D) (.f64 x) = (Choclo.prism._safe_atan2 y x).map .f64 := by
  unfold prism._safe_atan2 Choclo.prism._safe_atan2
  simp only [MFl.eq_eq, MFl.lt_eq, MFl.toD_f64, MFl.ofNat_eq]
  by_cases q0 : Fl.eq x 0 = true <;> by_cases q1 : Fl.lt 0 y = true <;> by_cases q2 : Fl.lt y 0 = true <;> simp [q0, q1, q2]

theorem safe_log64 : prism._safe_log (.f64 x : MFl S D) (.f64 y) (.f64 z) (.f64 r) = (Choclo.prism._safe_log x y z r).map .f64 := by
  unfold prism._safe_log Choclo.prism._safe_log
  simp only [MFl.eq_eq, MFl.lt_eq, MFl.toD_f64, MFl.ofNat_eq]
  by_cases q0 : Fl.eq r 0 = true <;> by_cases q1 : Fl.lt x 0 = true <;> by_cases q2 : Fl.eq y 0 = true <;> by_cases q3 : Fl.eq z 0 = true <;> simp [q0, q1, q2, q3]

theorem iii64 : prism._kernel_iii (.f64 x : MFl S D) (.f64 y) (.f64 z) (.f64 r) = (Choclo.prism._kernel_iii x y z r).map .f64 := by
  unfold prism._kernel_iii Choclo.prism._kernel_iii
  simp only [MFl.eq_eq, MFl.lt_eq, MFl.toD_f64, MFl.ofNat_eq]
  by_cases q0 : Fl.eq r 0 = true <;> by_cases q1 : Fl.eq x 0 = true <;> by_cases q2 : Fl.eq y 0 = true <;> by_cases q3 : Fl.eq z 0 = true <;> simp [q0, q1, q2, q3]

theorem iij64 : prism._kernel_iij (.f64 x : MFl S D) (.f64 y) (.f64 z) (.f64 r) = (Choclo.prism._kernel_iij x y z r).map .f64 := by
  unfold prism._kernel_iij Choclo.prism._kernel_iij
  simp only [MFl.eq_eq, MFl.lt_eq, MFl.toD_f64, MFl.ofNat_eq]
  by_cases q0 : Fl.eq r 0 = true <;> by_cases q1 : Fl.eq x 0 = true <;> by_cases q2 : Fl.eq y 0 = true <;> by_cases q3 : Fl.eq z 0 = true <;> simp [q0, q1, q2, q3]

/-- a kernel of float64 numbers -/
def Wide (K : prism.Kernel S D) (K' : Choclo.prism.Kernel D) : Prop :=
  ∀ x y z r, K (.f64 x) (.f64 y) (.f64 z) (.f64 r) = (K' x y z r).map .f64

theorem kernel_pot_wide : Wide (S := S) (D := D) prism.kernel_pot Choclo.prism.kernel_pot := by
  intro x y z r
  simp [prism.kernel_pot, Choclo.prism.kernel_pot, safe_log64, safe_atan64]

theorem kernel_e_wide : Wide (S := S) (D := D) prism.kernel_e Choclo.prism.kernel_e := by
  intro x y z r
  simp [prism.kernel_e, Choclo.prism.kernel_e, safe_log64, safe_atan64]

theorem kernel_n_wide : Wide (S := S) (D := D) prism.kernel_n Choclo.prism.kernel_n := by
  intro x y z r
  simp [prism.kernel_n, Choclo.prism.kernel_n, safe_log64, safe_atan64]

theorem kernel_u_wide : Wide (S := S) (D := D) prism.kernel_u Choclo.prism.kernel_u := by
  intro x y z r
  simp [prism.kernel_u, Choclo.prism.kernel_u, safe_log64, safe_atan64]

theorem kernel_ee_wide : Wide (S := S) (D := D) prism.kernel_ee Choclo.prism.kernel_ee := by
  intro x y z r
  unfold prism.kernel_ee Choclo.prism.kernel_ee
  simp only [MFl.eq_eq, MFl.toD_f64, MFl.ofNat_eq]
  by_cases q0 : Fl.eq r 0 = true <;> simp [q0, safe_log64, safe_atan64]

theorem kernel_nn_wide : Wide (S := S) (D := D) prism.kernel_nn Choclo.prism.kernel_nn := by
  intro x y z r
  unfold prism.kernel_nn Choclo.prism.kernel_nn
  simp only [MFl.eq_eq, MFl.toD_f64, MFl.ofNat_eq]
  by_cases q0 : Fl.eq r 0 = true <;> simp [q0, safe_log64, safe_atan64]

theorem kernel_uu_wide : Wide (S := S) (D := D) prism.kernel_uu Choclo.prism.kernel_uu := by
  intro x y z r
  unfold prism.kernel_uu Choclo.prism.kernel_uu
  simp only [MFl.eq_eq, MFl.toD_f64, MFl.ofNat_eq]
  by_cases q0 : Fl.eq r 0 = true <;> simp [q0, safe_log64, safe_atan64]

theorem kernel_en_wide : Wide (S := S) (D := D) prism.kernel_en Choclo.prism.kernel_en := by
  intro x y z r
  unfold prism.kernel_en Choclo.prism.kernel_en
  simp only [MFl.eq_eq, MFl.toD_f64, MFl.ofNat_eq]
  by_cases q0 : Fl.eq r 0 = true <;> simp [q0, safe_log64, safe_atan64]

theorem kernel_eu_wide : Wide (S := S) (D := D) prism.kernel_eu Choclo.prism.kernel_eu := by
  intro x y z r
  unfold prism.kernel_eu Choclo.prism.kernel_eu
  simp only [MFl.eq_eq, MFl.toD_f64, MFl.ofNat_eq]
  by_cases q0 : Fl.eq r 0 = true <;> simp [q0, safe_log64, safe_atan64]

theorem kernel_nu_wide : Wide (S := S) (D := D) prism.kernel_nu Choclo.prism.kernel_nu := by
  intro x y z r
  unfold prism.kernel_nu Choclo.prism.kernel_nu
  simp only [MFl.eq_eq, MFl.toD_f64, MFl.ofNat_eq]
  by_cases q0 : Fl.eq r 0 = true <;> simp [q0, safe_log64, safe_atan64]

theorem kernel_eee_wide : Wide (S := S) (D := D) prism.kernel_eee Choclo.prism.kernel_eee := by
  intro x y z r
  simp [prism.kernel_eee, Choclo.prism.kernel_eee, iii64, iij64]

theorem kernel_nnn_wide : Wide (S := S) (D := D) prism.kernel_nnn Choclo.prism.kernel_nnn := by
  intro x y z r
  simp [prism.kernel_nnn, Choclo.prism.kernel_nnn, iii64, iij64]

theorem kernel_uuu_wide : Wide (S := S) (D := D) prism.kernel_uuu Choclo.prism.kernel_uuu := by
  intro x y z r
  simp [prism.kernel_uuu, Choclo.prism.kernel_uuu, iii64, iij64]

theorem kernel_een_wide : Wide (S := S) (D := D) prism.kernel_een Choclo.prism.kernel_een := by
  intro x y z r
  simp [prism.kernel_een, Choclo.prism.kernel_een, iii64, iij64]

theorem kernel_eeu_wide : Wide (S := S) (D := D) prism.kernel_eeu Choclo.prism.kernel_eeu := by
  intro x y z r
  simp [prism.kernel_eeu, Choclo.prism.kernel_eeu, iii64, iij64]

theorem kernel_enn_wide : Wide (S := S) (D := D) prism.kernel_enn Choclo.prism.kernel_enn := by
  intro x y z r
  simp [prism.kernel_enn, Choclo.prism.kernel_enn, iii64, iij64]

theorem kernel_nnu_wide : Wide (S := S) (D := D) prism.kernel_nnu Choclo.prism.kernel_nnu := by
  intro x y z r
  simp [prism.kernel_nnu, Choclo.prism.kernel_nnu, iii64, iij64]

theorem kernel_euu_wide : Wide (S := S) (D := D) prism.kernel_euu Choclo.prism.kernel_euu := by
  intro x y z r
  simp [prism.kernel_euu, Choclo.prism.kernel_euu, iii64, iij64]

theorem kernel_nuu_wide : Wide (S := S) (D := D) prism.kernel_nuu Choclo.prism.kernel_nuu := by
  intro x y z r
  simp [prism.kernel_nuu, Choclo.prism.kernel_nuu, iii64, iij64]

theorem kernel_enu_wide : Wide (S := S) (D := D) prism.kernel_enu Choclo.prism.kernel_enu := by
  intro x y z r
  unfold prism.kernel_enu Choclo.prism.kernel_enu
  simp only [MFl.eq_eq, MFl.toD_f64, MFl.ofNat_eq]
  by_cases q0 : Fl.eq r 0 = true <;> simp [q0, safe_log64, safe_atan64]

end kernels

theorem is_interior_point64 (e n u w E s N b t : MFl S D) : prism.is_interior_point e n u w E s N b t
    = Choclo.prism.is_interior_point e.toD n.toD u.toD w.toD E.toD s.toD N.toD b.toD t.toD := rfl

theorem is_point_on_easting_edge64 (e n u w E s N b t : MFl S D) : prism.is_point_on_easting_edge e n u w E s N b t
    = Choclo.prism.is_point_on_easting_edge e.toD n.toD u.toD w.toD E.toD s.toD N.toD b.toD t.toD := rfl

theorem is_point_on_northing_edge64 (e n u w E s N b t : MFl S D) : prism.is_point_on_northing_edge e n u w E s N b t
    = Choclo.prism.is_point_on_northing_edge e.toD n.toD u.toD w.toD E.toD s.toD N.toD b.toD t.toD := rfl

theorem is_point_on_upward_edge64 (e n u w E s N b t : MFl S D) : prism.is_point_on_upward_edge e n u w E s N b t
    = Choclo.prism.is_point_on_upward_edge e.toD n.toD u.toD w.toD E.toD s.toD N.toD b.toD t.toD := rfl

theorem is_point_on_edge64 (e n u w E s N b t : MFl S D) : prism.is_point_on_edge e n u w E s N b t
    = Choclo.prism.is_point_on_edge e.toD n.toD u.toD w.toD E.toD s.toD N.toD b.toD t.toD := rfl

theorem is_point_on_east_face64 (e n u w E s N b t : MFl S D) : prism.is_point_on_east_face e n u w E s N b t
    = Choclo.prism.is_point_on_east_face e.toD n.toD u.toD w.toD E.toD s.toD N.toD b.toD t.toD := rfl

theorem is_point_on_north_face64 (e n u w E s N b t : MFl S D) : prism.is_point_on_north_face e n u w E s N b t
    = Choclo.prism.is_point_on_north_face e.toD n.toD u.toD w.toD E.toD s.toD N.toD b.toD t.toD := rfl

theorem is_point_on_top_face64 (e n u w E s N b t : MFl S D) : prism.is_point_on_top_face e n u w E s N b t
    = Choclo.prism.is_point_on_top_face e.toD n.toD u.toD w.toD E.toD s.toD N.toD b.toD t.toD := rfl

end Mixed

namespace Mixed.prism

/-- radius at a shifted vertex, as the loops compute it -/
noncomputable def vrad (x y z : MFl S D) : MFl S D := MFl.sqrt (x ^ 2 + y ^ 2 + z ^ 2)

/-- the kernel at a shifted vertex -/
noncomputable def vker (K : Kernel S D) (x y z : MFl S D) : Py (MFl S D) := K x y z (vrad x y z)

/-- `(-1) ** m` -/
def sgn (m : ℕ) : MFl S D := (((-1 : ℤ) ^ m : ℤ) : MFl S D)

/-- one vertex of the loop of `magnetic_field` -/
noncomputable def fieldStep (m : ℕ) (x y z Me Mn Mu : MFl S D) (acc : MFl S D × MFl S D × MFl S D) :
    Py (MFl S D × MFl S D × MFl S D) := do
  let k_ee ← vker kernel_ee x y z
  let k_nn ← vker kernel_nn x y z
  let k_uu ← vker kernel_uu x y z
  let k_en ← vker kernel_en x y z
  let k_eu ← vker kernel_eu x y z
  let k_nu ← vker kernel_nu x y z
  return (acc.1 + sgn m * (Me * k_ee + Mn * k_en + Mu * k_eu),
    acc.2.1 + sgn m * (Me * k_en + Mn * k_nn + Mu * k_nu),
    acc.2.2 + sgn m * (Me * k_eu + Mn * k_nu + Mu * k_uu))

/-- the end of `magnetic_field`, after the loop -/
noncomputable def fieldTail (e n u w E s N b t Me Mn Mu : MFl S D) (acc : MFl S D × MFl S D × MFl S D) :
    Py (MFl S D × MFl S D × MFl S D) := do
  let b_e := if is_point_on_east_face e n u w E s N b t = true then acc.1 + 4 * MFl.pi * Me else acc.1
  let b_n := if is_point_on_north_face e n u w E s N b t = true then acc.2.1 + 4 * MFl.pi * Mn else acc.2.1
  let b_u := if is_point_on_top_face e n u w E s N b t = true then acc.2.2 + 4 * MFl.pi * Mu else acc.2.2
  let c_m ← (← VACUUM_MAGNETIC_PERMEABILITY /ₘ 4) /ₘ MFl.pi
  return (b_e * c_m, b_n * c_m, b_u * c_m)

/-- the loop of `magnetic_field` -/
noncomputable def fieldLoop (e n u w E s N b t Me Mn Mu : MFl S D) : Py (MFl S D × MFl S D × MFl S D) := do
  let mut b_e : MFl S D := 0
  let mut b_n : MFl S D := 0
  let mut b_u : MFl S D := 0
  for i in [0, 1] do
    let shift_east := if i = 0 then E - e else w - e
    let shift_east_sq := shift_east ^ 2
    for j in [0, 1] do
      let shift_north := if j = 0 then N - n else s - n
      let shift_north_sq := shift_north ^ 2
      for k in [0, 1] do
        let shift_upward := if k = 0 then t - u else b - u
        let shift_upward_sq := shift_upward ^ 2
        let radius := MFl.sqrt (shift_east_sq + shift_north_sq + shift_upward_sq)
        let k_ee ← kernel_ee shift_east shift_north shift_upward radius
        let k_nn ← kernel_nn shift_east shift_north shift_upward radius
        let k_uu ← kernel_uu shift_east shift_north shift_upward radius
        let k_en ← kernel_en shift_east shift_north shift_upward radius
        let k_eu ← kernel_eu shift_east shift_north shift_upward radius
        let k_nu ← kernel_nu shift_east shift_north shift_upward radius
        let sign := ((((-1 : ℤ) ^ (i + j + k : ℕ)) : ℤ) : MFl S D)
        b_e := b_e + sign
          * (Me * k_ee + Mn * k_en + Mu * k_eu)
        b_n := b_n + sign
          * (Me * k_en + Mn * k_nn + Mu * k_nu)
        b_u := b_u + sign
          * (Me * k_eu + Mn * k_nu + Mu * k_uu)
  return (b_e, b_n, b_u)

theorem fieldLoop_unroll (e n u w E s N b t Me Mn Mu : MFl S D) :
    fieldLoop e n u w E s N b t Me Mn Mu = (do
      let acc ← fieldStep 0 (E - e) (N - n) (t - u) Me Mn Mu (0, 0, 0)
      let acc ← fieldStep 1 (E - e) (N - n) (b - u) Me Mn Mu acc
      let acc ← fieldStep 1 (E - e) (s - n) (t - u) Me Mn Mu acc
      let acc ← fieldStep 2 (E - e) (s - n) (b - u) Me Mn Mu acc
      let acc ← fieldStep 1 (w - e) (N - n) (t - u) Me Mn Mu acc
      let acc ← fieldStep 2 (w - e) (N - n) (b - u) Me Mn Mu acc
      let acc ← fieldStep 2 (w - e) (s - n) (t - u) Me Mn Mu acc
      let acc ← fieldStep 3 (w - e) (s - n) (b - u) Me Mn Mu acc
      return acc) := by
  unfold fieldLoop
  simp only [List.forIn_cons, List.forIn_nil, fieldStep, vker, vrad, sgn, bind_assoc, pure_bind,
      if_true, one_ne_zero, if_false, Nat.reduceAdd]

theorem magnetic_field_unroll (e n u w E s N b t Me Mn Mu : MFl S D) :
    magnetic_field e n u w E s N b t Me Mn Mu =
    if (is_point_on_edge e n u w E s N b t || is_interior_point e n u w E s N b t) = true then
      .ok (MFl.nan, MFl.nan, MFl.nan)
    else fieldLoop e n u w E s N b t Me Mn Mu >>= fieldTail e n u w E s N b t Me Mn Mu := by
  unfold magnetic_field
  split
  · rfl
  · unfold fieldLoop fieldTail
    simp only [bind_assoc, pure_bind]
    refine bind_congr fun r => ?_
    split <;> split <;> split <;> rfl

end Mixed.prism

namespace Mixed

theorem fieldStep64 (m : ℕ) (x y z : Fl D) (Me Mn Mu : MFl S D) (acc : Fl D × Fl D × Fl D) :
    prism.fieldStep m (.f64 x) (.f64 y) (.f64 z) Me Mn Mu (.f64 acc.1, .f64 acc.2.1, .f64 acc.2.2)
    = (Choclo.prism.fieldStep m x y z Me.toD Mn.toD Mu.toD acc).map (fun r : Fl D × Fl D × Fl D => ((.f64 r.1, .f64 r.2.1, .f64 r.2.2) : MFl S D × MFl S D × MFl S D)) := by
  simp [prism.fieldStep, Choclo.prism.fieldStep, prism.vker, Choclo.prism.vker, prism.vrad, Choclo.prism.vrad, prism.sgn,
    Choclo.prism.sgn, kernel_ee_wide _ _ _ _, kernel_nn_wide _ _ _ _, kernel_uu_wide _ _ _ _, kernel_en_wide _ _ _ _,
    kernel_eu_wide _ _ _ _, kernel_nu_wide _ _ _ _]

section prisms
variable {e n u w E s N b t : MFl S D}
  (hw : w - e = .f64 (w.toD - e.toD)) (hE : E - e = .f64 (E.toD - e.toD))
  (hs : s - n = .f64 (s.toD - n.toD)) (hN : N - n = .f64 (N.toD - n.toD))
  (hb : b - u = .f64 (b.toD - u.toD)) (ht : t - u = .f64 (t.toD - u.toD))
include hw hE hs hN hb ht

theorem evaluate64 {K : prism.Kernel S D} {K' : Choclo.prism.Kernel D} (hK : Wide K K') :
    prism._evaluate_kernel e n u w E s N b t K
    = (Choclo.prism._evaluate_kernel e.toD n.toD u.toD w.toD E.toD s.toD N.toD b.toD t.toD K').map .f64 := by
  simp [prism._evaluate_kernel, Choclo.prism._evaluate_kernel, hw, hE, hs, hN, hb, ht, hK _ _ _ _]

theorem component64 (Me Mn Mu : MFl S D) {K1 K2 K3 : prism.Kernel S D} {K1' K2' K3' : Choclo.prism.Kernel D}
    (h1 : Wide K1 K1') (h2 : Wide K2 K2') (h3 : Wide K3 K3') :
    prism._calculate_component e n u w E s N b t Me Mn Mu K1 K2 K3
    = (Choclo.prism._calculate_component e.toD n.toD u.toD w.toD E.toD s.toD N.toD b.toD t.toD Me.toD Mn.toD Mu.toD
        K1' K2' K3').map .f64 := by
  simp [prism._calculate_component, Choclo.prism._calculate_component, hw, hE, hs, hN, hb, ht, h1 _ _ _ _, h2 _ _ _ _,
    h3 _ _ _ _]

theorem prism_gravity_pot64 (d : MFl S D) : prism.gravity_pot e n u w E s N b t d
    = (Choclo.prism.gravity_pot e.toD n.toD u.toD w.toD E.toD s.toD N.toD b.toD t.toD d.toD).map .f64 := by
  unfold prism.gravity_pot Choclo.prism.gravity_pot
  simp only [evaluate64 hw hE hs hN hb ht kernel_pot_wide, is_interior_point64, is_point_on_edge64, is_point_on_east_face64, is_point_on_north_face64, is_point_on_top_face64]
  simp

theorem prism_gravity_e64 (d : MFl S D) : prism.gravity_e e n u w E s N b t d
    = (Choclo.prism.gravity_e e.toD n.toD u.toD w.toD E.toD s.toD N.toD b.toD t.toD d.toD).map .f64 := by
  unfold prism.gravity_e Choclo.prism.gravity_e
  simp only [evaluate64 hw hE hs hN hb ht kernel_e_wide, is_interior_point64, is_point_on_edge64, is_point_on_east_face64, is_point_on_north_face64, is_point_on_top_face64]
  simp

theorem prism_gravity_n64 (d : MFl S D) : prism.gravity_n e n u w E s N b t d
    = (Choclo.prism.gravity_n e.toD n.toD u.toD w.toD E.toD s.toD N.toD b.toD t.toD d.toD).map .f64 := by
  unfold prism.gravity_n Choclo.prism.gravity_n
  simp only [evaluate64 hw hE hs hN hb ht kernel_n_wide, is_interior_point64, is_point_on_edge64, is_point_on_east_face64, is_point_on_north_face64, is_point_on_top_face64]
  simp

theorem prism_gravity_u64 (d : MFl S D) : prism.gravity_u e n u w E s N b t d
    = (Choclo.prism.gravity_u e.toD n.toD u.toD w.toD E.toD s.toD N.toD b.toD t.toD d.toD).map .f64 := by
  unfold prism.gravity_u Choclo.prism.gravity_u
  simp only [evaluate64 hw hE hs hN hb ht kernel_u_wide, is_interior_point64, is_point_on_edge64, is_point_on_east_face64, is_point_on_north_face64, is_point_on_top_face64]
  simp

theorem prism_gravity_ee64 (d : MFl S D) : prism.gravity_ee e n u w E s N b t d
    = (Choclo.prism.gravity_ee e.toD n.toD u.toD w.toD E.toD s.toD N.toD b.toD t.toD d.toD).map .f64 := by
  unfold prism.gravity_ee Choclo.prism.gravity_ee
  simp only [evaluate64 hw hE hs hN hb ht kernel_ee_wide, is_interior_point64, is_point_on_easting_edge64, is_point_on_northing_edge64, is_point_on_upward_edge64, is_point_on_edge64, is_point_on_east_face64, is_point_on_north_face64, is_point_on_top_face64]
  by_cases q0 : Choclo.prism.is_point_on_northing_edge e.toD n.toD u.toD w.toD E.toD s.toD N.toD b.toD t.toD = true <;> by_cases q2 : Choclo.prism.is_point_on_upward_edge e.toD n.toD u.toD w.toD E.toD s.toD N.toD b.toD t.toD = true <;> by_cases q1 : Choclo.prism.is_point_on_east_face e.toD n.toD u.toD w.toD E.toD s.toD N.toD b.toD t.toD = true <;> simp [q0, q1, q2]

theorem prism_gravity_nn64 (d : MFl S D) : prism.gravity_nn e n u w E s N b t d
    = (Choclo.prism.gravity_nn e.toD n.toD u.toD w.toD E.toD s.toD N.toD b.toD t.toD d.toD).map .f64 := by
  unfold prism.gravity_nn Choclo.prism.gravity_nn
  simp only [evaluate64 hw hE hs hN hb ht kernel_nn_wide, is_interior_point64, is_point_on_easting_edge64, is_point_on_northing_edge64, is_point_on_upward_edge64, is_point_on_edge64, is_point_on_east_face64, is_point_on_north_face64, is_point_on_top_face64]
  by_cases q0 : Choclo.prism.is_point_on_easting_edge e.toD n.toD u.toD w.toD E.toD s.toD N.toD b.toD t.toD = true <;> by_cases q2 : Choclo.prism.is_point_on_upward_edge e.toD n.toD u.toD w.toD E.toD s.toD N.toD b.toD t.toD = true <;> by_cases q1 : Choclo.prism.is_point_on_north_face e.toD n.toD u.toD w.toD E.toD s.toD N.toD b.toD t.toD = true <;> simp [q0, q1, q2]

theorem prism_gravity_uu64 (d : MFl S D) : prism.gravity_uu e n u w E s N b t d
    = (Choclo.prism.gravity_uu e.toD n.toD u.toD w.toD E.toD s.toD N.toD b.toD t.toD d.toD).map .f64 := by
  unfold prism.gravity_uu Choclo.prism.gravity_uu
  simp only [evaluate64 hw hE hs hN hb ht kernel_uu_wide, is_interior_point64, is_point_on_easting_edge64, is_point_on_northing_edge64, is_point_on_upward_edge64, is_point_on_edge64, is_point_on_east_face64, is_point_on_north_face64, is_point_on_top_face64]
  by_cases q0 : Choclo.prism.is_point_on_easting_edge e.toD n.toD u.toD w.toD E.toD s.toD N.toD b.toD t.toD = true <;> by_cases q2 : Choclo.prism.is_point_on_northing_edge e.toD n.toD u.toD w.toD E.toD s.toD N.toD b.toD t.toD = true <;> by_cases q1 : Choclo.prism.is_point_on_top_face e.toD n.toD u.toD w.toD E.toD s.toD N.toD b.toD t.toD = true <;> simp [q0, q1, q2]

theorem prism_gravity_en64 (d : MFl S D) : prism.gravity_en e n u w E s N b t d
    = (Choclo.prism.gravity_en e.toD n.toD u.toD w.toD E.toD s.toD N.toD b.toD t.toD d.toD).map .f64 := by
  unfold prism.gravity_en Choclo.prism.gravity_en
  simp only [evaluate64 hw hE hs hN hb ht kernel_en_wide, is_interior_point64, is_point_on_easting_edge64, is_point_on_northing_edge64, is_point_on_upward_edge64, is_point_on_edge64, is_point_on_east_face64, is_point_on_north_face64, is_point_on_top_face64]
  by_cases q0 : Choclo.prism.is_point_on_upward_edge e.toD n.toD u.toD w.toD E.toD s.toD N.toD b.toD t.toD = true <;> simp [q0]

theorem prism_gravity_eu64 (d : MFl S D) : prism.gravity_eu e n u w E s N b t d
    = (Choclo.prism.gravity_eu e.toD n.toD u.toD w.toD E.toD s.toD N.toD b.toD t.toD d.toD).map .f64 := by
  unfold prism.gravity_eu Choclo.prism.gravity_eu
  simp only [evaluate64 hw hE hs hN hb ht kernel_eu_wide, is_interior_point64, is_point_on_easting_edge64, is_point_on_northing_edge64, is_point_on_upward_edge64, is_point_on_edge64, is_point_on_east_face64, is_point_on_north_face64, is_point_on_top_face64]
  by_cases q0 : Choclo.prism.is_point_on_northing_edge e.toD n.toD u.toD w.toD E.toD s.toD N.toD b.toD t.toD = true <;> simp [q0]

theorem prism_gravity_nu64 (d : MFl S D) : prism.gravity_nu e n u w E s N b t d
    = (Choclo.prism.gravity_nu e.toD n.toD u.toD w.toD E.toD s.toD N.toD b.toD t.toD d.toD).map .f64 := by
  unfold prism.gravity_nu Choclo.prism.gravity_nu
  simp only [evaluate64 hw hE hs hN hb ht kernel_nu_wide, is_interior_point64, is_point_on_easting_edge64, is_point_on_northing_edge64, is_point_on_upward_edge64, is_point_on_edge64, is_point_on_east_face64, is_point_on_north_face64, is_point_on_top_face64]
  by_cases q0 : Choclo.prism.is_point_on_easting_edge e.toD n.toD u.toD w.toD E.toD s.toD N.toD b.toD t.toD = true <;> simp [q0]

theorem prism_magnetic_e64 (Me Mn Mu : MFl S D) : prism.magnetic_e e n u w E s N b t Me Mn Mu
    = (Choclo.prism.magnetic_e e.toD n.toD u.toD w.toD E.toD s.toD N.toD b.toD t.toD Me.toD Mn.toD Mu.toD).map .f64 := by
  unfold prism.magnetic_e Choclo.prism.magnetic_e
  simp only [component64 hw hE hs hN hb ht Me Mn Mu kernel_ee_wide kernel_en_wide kernel_eu_wide, is_interior_point64, is_point_on_edge64, is_point_on_east_face64, is_point_on_north_face64, is_point_on_top_face64]
  by_cases q0 : Choclo.prism.is_point_on_edge e.toD n.toD u.toD w.toD E.toD s.toD N.toD b.toD t.toD = true <;>
    by_cases q1 : Choclo.prism.is_interior_point e.toD n.toD u.toD w.toD E.toD s.toD N.toD b.toD t.toD = true <;>
    by_cases q2 : Choclo.prism.is_point_on_east_face e.toD n.toD u.toD w.toD E.toD s.toD N.toD b.toD t.toD = true <;> simp [q0, q1, q2]

theorem prism_magnetic_n64 (Me Mn Mu : MFl S D) : prism.magnetic_n e n u w E s N b t Me Mn Mu
    = (Choclo.prism.magnetic_n e.toD n.toD u.toD w.toD E.toD s.toD N.toD b.toD t.toD Me.toD Mn.toD Mu.toD).map .f64 := by
  unfold prism.magnetic_n Choclo.prism.magnetic_n
  simp only [component64 hw hE hs hN hb ht Me Mn Mu kernel_en_wide kernel_nn_wide kernel_nu_wide, is_interior_point64, is_point_on_edge64, is_point_on_east_face64, is_point_on_north_face64, is_point_on_top_face64]
  by_cases q0 : Choclo.prism.is_point_on_edge e.toD n.toD u.toD w.toD E.toD s.toD N.toD b.toD t.toD = true <;>
    by_cases q1 : Choclo.prism.is_interior_point e.toD n.toD u.toD w.toD E.toD s.toD N.toD b.toD t.toD = true <;>
    by_cases q2 : Choclo.prism.is_point_on_north_face e.toD n.toD u.toD w.toD E.toD s.toD N.toD b.toD t.toD = true <;> simp [q0, q1, q2]

theorem prism_magnetic_u64 (Me Mn Mu : MFl S D) : prism.magnetic_u e n u w E s N b t Me Mn Mu
    = (Choclo.prism.magnetic_u e.toD n.toD u.toD w.toD E.toD s.toD N.toD b.toD t.toD Me.toD Mn.toD Mu.toD).map .f64 := by
  unfold prism.magnetic_u Choclo.prism.magnetic_u
  simp only [component64 hw hE hs hN hb ht Me Mn Mu kernel_eu_wide kernel_nu_wide kernel_uu_wide, is_interior_point64, is_point_on_edge64, is_point_on_east_face64, is_point_on_north_face64, is_point_on_top_face64]
  by_cases q0 : Choclo.prism.is_point_on_edge e.toD n.toD u.toD w.toD E.toD s.toD N.toD b.toD t.toD = true <;>
    by_cases q1 : Choclo.prism.is_interior_point e.toD n.toD u.toD w.toD E.toD s.toD N.toD b.toD t.toD = true <;>
    by_cases q2 : Choclo.prism.is_point_on_top_face e.toD n.toD u.toD w.toD E.toD s.toD N.toD b.toD t.toD = true <;> simp [q0, q1, q2]

theorem prism_magnetic_ee64 (Me Mn Mu : MFl S D) : prism.magnetic_ee e n u w E s N b t Me Mn Mu
    = (Choclo.prism.magnetic_ee e.toD n.toD u.toD w.toD E.toD s.toD N.toD b.toD t.toD Me.toD Mn.toD Mu.toD).map .f64 := by
  unfold prism.magnetic_ee Choclo.prism.magnetic_ee
  simp only [component64 hw hE hs hN hb ht Me Mn Mu kernel_eee_wide kernel_een_wide kernel_eeu_wide, is_interior_point64, is_point_on_edge64, is_point_on_east_face64, is_point_on_north_face64, is_point_on_top_face64]
  by_cases q0 : Choclo.prism.is_point_on_edge e.toD n.toD u.toD w.toD E.toD s.toD N.toD b.toD t.toD = true <;>
    by_cases q1 : Choclo.prism.is_interior_point e.toD n.toD u.toD w.toD E.toD s.toD N.toD b.toD t.toD = true <;> simp [q0, q1]

theorem prism_magnetic_nn64 (Me Mn Mu : MFl S D) : prism.magnetic_nn e n u w E s N b t Me Mn Mu
    = (Choclo.prism.magnetic_nn e.toD n.toD u.toD w.toD E.toD s.toD N.toD b.toD t.toD Me.toD Mn.toD Mu.toD).map .f64 := by
  unfold prism.magnetic_nn Choclo.prism.magnetic_nn
  simp only [component64 hw hE hs hN hb ht Me Mn Mu kernel_enn_wide kernel_nnn_wide kernel_nnu_wide, is_interior_point64, is_point_on_edge64, is_point_on_east_face64, is_point_on_north_face64, is_point_on_top_face64]
  by_cases q0 : Choclo.prism.is_point_on_edge e.toD n.toD u.toD w.toD E.toD s.toD N.toD b.toD t.toD = true <;>
    by_cases q1 : Choclo.prism.is_interior_point e.toD n.toD u.toD w.toD E.toD s.toD N.toD b.toD t.toD = true <;> simp [q0, q1]

theorem prism_magnetic_uu64 (Me Mn Mu : MFl S D) : prism.magnetic_uu e n u w E s N b t Me Mn Mu
    = (Choclo.prism.magnetic_uu e.toD n.toD u.toD w.toD E.toD s.toD N.toD b.toD t.toD Me.toD Mn.toD Mu.toD).map .f64 := by
  unfold prism.magnetic_uu Choclo.prism.magnetic_uu
  simp only [component64 hw hE hs hN hb ht Me Mn Mu kernel_euu_wide kernel_nuu_wide kernel_uuu_wide, is_interior_point64, is_point_on_edge64, is_point_on_east_face64, is_point_on_north_face64, is_point_on_top_face64]
  by_cases q0 : Choclo.prism.is_point_on_edge e.toD n.toD u.toD w.toD E.toD s.toD N.toD b.toD t.toD = true <;>
    by_cases q1 : Choclo.prism.is_interior_point e.toD n.toD u.toD w.toD E.toD s.toD N.toD b.toD t.toD = true <;> simp [q0, q1]

theorem prism_magnetic_en64 (Me Mn Mu : MFl S D) : prism.magnetic_en e n u w E s N b t Me Mn Mu
    = (Choclo.prism.magnetic_en e.toD n.toD u.toD w.toD E.toD s.toD N.toD b.toD t.toD Me.toD Mn.toD Mu.toD).map .f64 := by
  unfold prism.magnetic_en Choclo.prism.magnetic_en
  simp only [component64 hw hE hs hN hb ht Me Mn Mu kernel_een_wide kernel_enn_wide kernel_enu_wide, is_interior_point64, is_point_on_edge64, is_point_on_east_face64, is_point_on_north_face64, is_point_on_top_face64]
  by_cases q0 : Choclo.prism.is_point_on_edge e.toD n.toD u.toD w.toD E.toD s.toD N.toD b.toD t.toD = true <;>
    by_cases q1 : Choclo.prism.is_interior_point e.toD n.toD u.toD w.toD E.toD s.toD N.toD b.toD t.toD = true <;> simp [q0, q1]

theorem prism_magnetic_eu64 (Me Mn Mu : MFl S D) : prism.magnetic_eu e n u w E s N b t Me Mn Mu
    = (Choclo.prism.magnetic_eu e.toD n.toD u.toD w.toD E.toD s.toD N.toD b.toD t.toD Me.toD Mn.toD Mu.toD).map .f64 := by
  unfold prism.magnetic_eu Choclo.prism.magnetic_eu
  simp only [component64 hw hE hs hN hb ht Me Mn Mu kernel_eeu_wide kernel_enu_wide kernel_euu_wide, is_interior_point64, is_point_on_edge64, is_point_on_east_face64, is_point_on_north_face64, is_point_on_top_face64]
  by_cases q0 : Choclo.prism.is_point_on_edge e.toD n.toD u.toD w.toD E.toD s.toD N.toD b.toD t.toD = true <;>
    by_cases q1 : Choclo.prism.is_interior_point e.toD n.toD u.toD w.toD E.toD s.toD N.toD b.toD t.toD = true <;> simp [q0, q1]

theorem prism_magnetic_nu64 (Me Mn Mu : MFl S D) : prism.magnetic_nu e n u w E s N b t Me Mn Mu
    = (Choclo.prism.magnetic_nu e.toD n.toD u.toD w.toD E.toD s.toD N.toD b.toD t.toD Me.toD Mn.toD Mu.toD).map .f64 := by
  unfold prism.magnetic_nu Choclo.prism.magnetic_nu
  simp only [component64 hw hE hs hN hb ht Me Mn Mu kernel_enu_wide kernel_nnu_wide kernel_nuu_wide, is_interior_point64, is_point_on_edge64, is_point_on_east_face64, is_point_on_north_face64, is_point_on_top_face64]
  by_cases q0 : Choclo.prism.is_point_on_edge e.toD n.toD u.toD w.toD E.toD s.toD N.toD b.toD t.toD = true <;>
    by_cases q1 : Choclo.prism.is_interior_point e.toD n.toD u.toD w.toD E.toD s.toD N.toD b.toD t.toD = true <;> simp [q0, q1]

theorem fieldLoop64 (Me Mn Mu : MFl S D) : prism.fieldLoop e n u w E s N b t Me Mn Mu
    = (Choclo.prism.fieldLoop e.toD n.toD u.toD w.toD E.toD s.toD N.toD b.toD t.toD Me.toD Mn.toD Mu.toD).map (fun r : Fl D × Fl D × Fl D => ((.f64 r.1, .f64 r.2.1, .f64 r.2.2) : MFl S D × MFl S D × MFl S D)) := by
  rw [prism.fieldLoop_unroll, Choclo.prism.fieldLoop_unroll, hw, hE, hs, hN, hb, ht]
  have h0 := fieldStep64 (S := S) 0 (E.toD - e.toD) (N.toD - n.toD) (t.toD - u.toD) Me Mn Mu (0, 0, 0)
  simp only [MFl.ofNat_eq, h0, Py.bind_map, fieldStep64, Py.map_bind, Py.map_pure]

theorem prism_magnetic_field64 (Me Mn Mu : MFl S D) : prism.magnetic_field e n u w E s N b t Me Mn Mu
    = (Choclo.prism.magnetic_field e.toD n.toD u.toD w.toD E.toD s.toD N.toD b.toD t.toD Me.toD Mn.toD Mu.toD).map (fun r : Fl D × Fl D × Fl D => ((.f64 r.1, .f64 r.2.1, .f64 r.2.2) : MFl S D × MFl S D × MFl S D)) := by
  rw [prism.magnetic_field_unroll, Choclo.prism.magnetic_field_unroll]
  by_cases q0 : (Choclo.prism.is_point_on_edge e.toD n.toD u.toD w.toD E.toD s.toD N.toD b.toD t.toD || Choclo.prism.is_interior_point e.toD n.toD u.toD w.toD E.toD s.toD N.toD b.toD t.toD) = true
  · rw [if_pos q0, if_pos (show (prism.is_point_on_edge e n u w E s N b t || prism.is_interior_point e n u w E s N b t) = true from q0)]; rfl
  rw [if_neg q0, if_neg (show ¬ (prism.is_point_on_edge e n u w E s N b t || prism.is_interior_point e n u w E s N b t) = true from q0), fieldLoop64 hw hE hs hN hb ht, Py.bind_map, Py.map_bind]
  refine bind_congr fun r => ?_
  simp only [prism.fieldTail, Choclo.prism.fieldTail, is_point_on_east_face64, is_point_on_north_face64, is_point_on_top_face64]
  by_cases q2 : Choclo.prism.is_point_on_east_face e.toD n.toD u.toD w.toD E.toD s.toD N.toD b.toD t.toD = true <;>
    by_cases q3 : Choclo.prism.is_point_on_north_face e.toD n.toD u.toD w.toD E.toD s.toD N.toD b.toD t.toD = true <;>
    by_cases q4 : Choclo.prism.is_point_on_top_face e.toD n.toD u.toD w.toD E.toD s.toD N.toD b.toD t.toD = true <;> simp [q2, q3, q4]

end prisms
end Mixed
end Choclo
