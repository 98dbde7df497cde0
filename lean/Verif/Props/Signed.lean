import Verif.Lemmas.Signed
import Mathlib.Tactic.NormNum

/-! # The sign of a zero never matters (C88)

`Verif/Model/Signed` is the model read in an arithmetic where zeros are signed as in IEEE 754.  The first
theorem of each pair says that forgetting the signs at the end is the same as never having had them, so
every other theorem of this project, stated without signs, holds of the program with signs; the second
says that a caller cannot observe the sign of a zero argument, except as the sign of a zero result. -/

namespace Choclo

variable {A : Arith}

theorem SFl.erase_eq_iff (a b : SFl A) : a.erase = b.erase ↔ SameNumber a b := by
  constructor
  · intro h
    cases a with
    | nan =>
      cases b with
      | nan => exact Or.inl rfl
      | _ => exact absurd h (by intro h; cases h)
    | inf s =>
      cases b with
      | inf t => exact Or.inl (by injection h with h; rw [h])
      | _ => exact absurd h (by intro h; cases h)
    | zero s =>
      cases b with
      | zero t => exact Or.inr ⟨s, t, rfl, rfl⟩
      | num y hy => exact absurd (Raw.fin.inj h).symm hy
      | _ => exact absurd h (by intro h; cases h)
    | num x hx =>
      cases b with
      | zero t => exact absurd (Raw.fin.inj h) hx
      | num y hy =>
        have e := Raw.fin.inj h
        subst e
        exact Or.inl rfl
      | _ => exact absurd h (by intro h; cases h)
  · rintro (h | ⟨s, t, ha, hb⟩)
    · rw [h]
    · subst ha; subst hb; rfl

theorem sameOutcome_of_erase {x y : Py (SFl A)} (h : Py.erase x = Py.erase y) : SameOutcome x y := by
  cases x with
  | error e =>
    cases y with
    | error e' => injection h
    | ok b => exact absurd h (by intro h; cases h)
  | ok a =>
    cases y with
    | error e' => exact absurd h (by intro h; cases h)
    | ok b => exact (SFl.erase_eq_iff a b).1 (Except.ok.inj h)

theorem sameOutcome3_of_erase {x y : Py (SFl A × SFl A × SFl A)} (h : Py.erase3 x = Py.erase3 y) :
    SameOutcome3 x y := by
  cases x with
  | error e =>
    cases y with
    | error e' => injection h
    | ok b => exact absurd h (by intro h; cases h)
  | ok a =>
    cases y with
    | error e' => exact absurd h (by intro h; cases h)
    | ok b =>
      have h' := Except.ok.inj h
      have h1 := congrArg Prod.fst h'
      have h2 := congrArg (fun r => r.2.1) h'
      have h3 := congrArg (fun r => r.2.2) h'
      exact ⟨(SFl.erase_eq_iff _ _).1 h1, (SFl.erase_eq_iff _ _).1 h2, (SFl.erase_eq_iff _ _).1 h3⟩

theorem onSame_of_without {α β : Type} {R : α → α → Prop} (e : α → β) (hR : ∀ x y, e x = e y → R x y) :
    ∀ (n : ℕ) (f f' : Args (SFl A) α n) (g : Args (Fl A) β n),
      WithoutZeroSigns (fun x y => e x = y) n f g → WithoutZeroSigns (fun x y => e x = y) n f' g →
      OnSameNumbers R n f f' := by
  intro n
  induction n with
  | zero => intro f f' g h h'; exact hR _ _ (h.trans h'.symm)
  | succ n ih =>
    intro f f' g h h' a b hab
    refine ih (f a) (f' b) (g a.erase) (h a) ?_
    rw [(SFl.erase_eq_iff a b).2 hab]
    exact h' b

theorem ignores_of_erases {n : ℕ} {f : Args (SFl A) (Py (SFl A)) n} {g : Args (Fl A) (Py (Fl A)) n}
    (h : Erases n f g) : IgnoresZeroSigns n f :=
  onSame_of_without Py.erase (fun _ _ => sameOutcome_of_erase) n f f g h h

theorem ignores3_of_erases {n : ℕ} {f : Args (SFl A) (Py (SFl A × SFl A × SFl A)) n}
    {g : Args (Fl A) (Py (Fl A × Fl A × Fl A)) n} (h : Erases3 n f g) : IgnoresZeroSigns3 n f :=
  onSame_of_without Py.erase3 (fun _ _ => sameOutcome3_of_erase) n f f g h h

theorem ignoresBool_of_erases {n : ℕ} {f : Args (SFl A) Bool n} {g : Args (Fl A) Bool n}
    (h : WithoutZeroSigns (fun x y => x = y) n f g) : OnSameNumbers (fun x y => x = y) n f f :=
  onSame_of_without id (fun _ _ h => h) n f f g h h

theorem C88_utils_erase :
    Erases 6 (Signed.utils.distance_cartesian (A := A)) utils.distance_cartesian
    ∧ Erases3 8 (Signed.utils.distance_spherical_core (A := A)) utils.distance_spherical_core
    ∧ Erases 6 (Signed.utils.distance_spherical (A := A)) utils.distance_spherical :=
  ⟨Signed.utils.er_distance_cartesian, Signed.utils.er_distance_spherical_core, Signed.utils.er_distance_spherical⟩

theorem C88_utils :
    IgnoresZeroSigns 6 (Signed.utils.distance_cartesian (A := A))
    ∧ IgnoresZeroSigns3 8 (Signed.utils.distance_spherical_core (A := A))
    ∧ IgnoresZeroSigns 6 (Signed.utils.distance_spherical (A := A)) :=
  ⟨ignores_of_erases Signed.utils.er_distance_cartesian, ignores3_of_erases Signed.utils.er_distance_spherical_core, ignores_of_erases Signed.utils.er_distance_spherical⟩

theorem C88_point_kernels_erase :
    Erases 7 (Signed.point.kernel_pot (A := A)) point.kernel_pot
    ∧ Erases 7 (Signed.point.kernel_e (A := A)) point.kernel_e
    ∧ Erases 7 (Signed.point.kernel_n (A := A)) point.kernel_n
    ∧ Erases 7 (Signed.point.kernel_u (A := A)) point.kernel_u
    ∧ Erases 7 (Signed.point.kernel_ee (A := A)) point.kernel_ee
    ∧ Erases 7 (Signed.point.kernel_nn (A := A)) point.kernel_nn
    ∧ Erases 7 (Signed.point.kernel_uu (A := A)) point.kernel_uu
    ∧ Erases 7 (Signed.point.kernel_en (A := A)) point.kernel_en
    ∧ Erases 7 (Signed.point.kernel_eu (A := A)) point.kernel_eu
    ∧ Erases 7 (Signed.point.kernel_nu (A := A)) point.kernel_nu
    ∧ Erases 7 (Signed.point.kernel_eee (A := A)) point.kernel_eee
    ∧ Erases 7 (Signed.point.kernel_nnn (A := A)) point.kernel_nnn
    ∧ Erases 7 (Signed.point.kernel_uuu (A := A)) point.kernel_uuu
    ∧ Erases 7 (Signed.point.kernel_een (A := A)) point.kernel_een
    ∧ Erases 7 (Signed.point.kernel_eeu (A := A)) point.kernel_eeu
    ∧ Erases 7 (Signed.point.kernel_nne (A := A)) point.kernel_nne
    ∧ Erases 7 (Signed.point.kernel_nnu (A := A)) point.kernel_nnu
    ∧ Erases 7 (Signed.point.kernel_uue (A := A)) point.kernel_uue
    ∧ Erases 7 (Signed.point.kernel_uun (A := A)) point.kernel_uun
    ∧ Erases 7 (Signed.point.kernel_enu (A := A)) point.kernel_enu :=
  ⟨Signed.point.er_kernel_pot, Signed.point.er_kernel_e, Signed.point.er_kernel_n, Signed.point.er_kernel_u, Signed.point.er_kernel_ee, Signed.point.er_kernel_nn, Signed.point.er_kernel_uu, Signed.point.er_kernel_en, Signed.point.er_kernel_eu, Signed.point.er_kernel_nu, Signed.point.er_kernel_eee, Signed.point.er_kernel_nnn, Signed.point.er_kernel_uuu, Signed.point.er_kernel_een, Signed.point.er_kernel_eeu, Signed.point.er_kernel_nne, Signed.point.er_kernel_nnu, Signed.point.er_kernel_uue, Signed.point.er_kernel_uun, Signed.point.er_kernel_enu⟩

theorem C88_point_kernels :
    IgnoresZeroSigns 7 (Signed.point.kernel_pot (A := A))
    ∧ IgnoresZeroSigns 7 (Signed.point.kernel_e (A := A))
    ∧ IgnoresZeroSigns 7 (Signed.point.kernel_n (A := A))
    ∧ IgnoresZeroSigns 7 (Signed.point.kernel_u (A := A))
    ∧ IgnoresZeroSigns 7 (Signed.point.kernel_ee (A := A))
    ∧ IgnoresZeroSigns 7 (Signed.point.kernel_nn (A := A))
    ∧ IgnoresZeroSigns 7 (Signed.point.kernel_uu (A := A))
    ∧ IgnoresZeroSigns 7 (Signed.point.kernel_en (A := A))
    ∧ IgnoresZeroSigns 7 (Signed.point.kernel_eu (A := A))
    ∧ IgnoresZeroSigns 7 (Signed.point.kernel_nu (A := A))
    ∧ IgnoresZeroSigns 7 (Signed.point.kernel_eee (A := A))
    ∧ IgnoresZeroSigns 7 (Signed.point.kernel_nnn (A := A))
    ∧ IgnoresZeroSigns 7 (Signed.point.kernel_uuu (A := A))
    ∧ IgnoresZeroSigns 7 (Signed.point.kernel_een (A := A))
    ∧ IgnoresZeroSigns 7 (Signed.point.kernel_eeu (A := A))
    ∧ IgnoresZeroSigns 7 (Signed.point.kernel_nne (A := A))
    ∧ IgnoresZeroSigns 7 (Signed.point.kernel_nnu (A := A))
    ∧ IgnoresZeroSigns 7 (Signed.point.kernel_uue (A := A))
    ∧ IgnoresZeroSigns 7 (Signed.point.kernel_uun (A := A))
    ∧ IgnoresZeroSigns 7 (Signed.point.kernel_enu (A := A)) :=
  ⟨ignores_of_erases Signed.point.er_kernel_pot, ignores_of_erases Signed.point.er_kernel_e, ignores_of_erases Signed.point.er_kernel_n, ignores_of_erases Signed.point.er_kernel_u, ignores_of_erases Signed.point.er_kernel_ee, ignores_of_erases Signed.point.er_kernel_nn, ignores_of_erases Signed.point.er_kernel_uu, ignores_of_erases Signed.point.er_kernel_en, ignores_of_erases Signed.point.er_kernel_eu, ignores_of_erases Signed.point.er_kernel_nu, ignores_of_erases Signed.point.er_kernel_eee, ignores_of_erases Signed.point.er_kernel_nnn, ignores_of_erases Signed.point.er_kernel_uuu, ignores_of_erases Signed.point.er_kernel_een, ignores_of_erases Signed.point.er_kernel_eeu, ignores_of_erases Signed.point.er_kernel_nne, ignores_of_erases Signed.point.er_kernel_nnu, ignores_of_erases Signed.point.er_kernel_uue, ignores_of_erases Signed.point.er_kernel_uun, ignores_of_erases Signed.point.er_kernel_enu⟩

theorem C88_point_gravity_erase :
    Erases 7 (Signed.point.gravity_pot (A := A)) point.gravity_pot
    ∧ Erases 7 (Signed.point.gravity_e (A := A)) point.gravity_e
    ∧ Erases 7 (Signed.point.gravity_n (A := A)) point.gravity_n
    ∧ Erases 7 (Signed.point.gravity_u (A := A)) point.gravity_u
    ∧ Erases 7 (Signed.point.gravity_ee (A := A)) point.gravity_ee
    ∧ Erases 7 (Signed.point.gravity_nn (A := A)) point.gravity_nn
    ∧ Erases 7 (Signed.point.gravity_uu (A := A)) point.gravity_uu
    ∧ Erases 7 (Signed.point.gravity_en (A := A)) point.gravity_en
    ∧ Erases 7 (Signed.point.gravity_eu (A := A)) point.gravity_eu
    ∧ Erases 7 (Signed.point.gravity_nu (A := A)) point.gravity_nu :=
  ⟨Signed.point.er_gravity_pot, Signed.point.er_gravity_e, Signed.point.er_gravity_n, Signed.point.er_gravity_u, Signed.point.er_gravity_ee, Signed.point.er_gravity_nn, Signed.point.er_gravity_uu, Signed.point.er_gravity_en, Signed.point.er_gravity_eu, Signed.point.er_gravity_nu⟩

theorem C88_point_gravity :
    IgnoresZeroSigns 7 (Signed.point.gravity_pot (A := A))
    ∧ IgnoresZeroSigns 7 (Signed.point.gravity_e (A := A))
    ∧ IgnoresZeroSigns 7 (Signed.point.gravity_n (A := A))
    ∧ IgnoresZeroSigns 7 (Signed.point.gravity_u (A := A))
    ∧ IgnoresZeroSigns 7 (Signed.point.gravity_ee (A := A))
    ∧ IgnoresZeroSigns 7 (Signed.point.gravity_nn (A := A))
    ∧ IgnoresZeroSigns 7 (Signed.point.gravity_uu (A := A))
    ∧ IgnoresZeroSigns 7 (Signed.point.gravity_en (A := A))
    ∧ IgnoresZeroSigns 7 (Signed.point.gravity_eu (A := A))
    ∧ IgnoresZeroSigns 7 (Signed.point.gravity_nu (A := A)) :=
  ⟨ignores_of_erases Signed.point.er_gravity_pot, ignores_of_erases Signed.point.er_gravity_e, ignores_of_erases Signed.point.er_gravity_n, ignores_of_erases Signed.point.er_gravity_u, ignores_of_erases Signed.point.er_gravity_ee, ignores_of_erases Signed.point.er_gravity_nn, ignores_of_erases Signed.point.er_gravity_uu, ignores_of_erases Signed.point.er_gravity_en, ignores_of_erases Signed.point.er_gravity_eu, ignores_of_erases Signed.point.er_gravity_nu⟩

theorem C88_dipole_erase :
    Erases3 9 (Signed.dipole.magnetic_field (A := A)) dipole.magnetic_field
    ∧ Erases 9 (Signed.dipole.magnetic_e (A := A)) dipole.magnetic_e
    ∧ Erases 9 (Signed.dipole.magnetic_n (A := A)) dipole.magnetic_n
    ∧ Erases 9 (Signed.dipole.magnetic_u (A := A)) dipole.magnetic_u :=
  ⟨Signed.dipole.er_magnetic_field, Signed.dipole.er_magnetic_e, Signed.dipole.er_magnetic_n, Signed.dipole.er_magnetic_u⟩

theorem C88_dipole :
    IgnoresZeroSigns3 9 (Signed.dipole.magnetic_field (A := A))
    ∧ IgnoresZeroSigns 9 (Signed.dipole.magnetic_e (A := A))
    ∧ IgnoresZeroSigns 9 (Signed.dipole.magnetic_n (A := A))
    ∧ IgnoresZeroSigns 9 (Signed.dipole.magnetic_u (A := A)) :=
  ⟨ignores3_of_erases Signed.dipole.er_magnetic_field, ignores_of_erases Signed.dipole.er_magnetic_e, ignores_of_erases Signed.dipole.er_magnetic_n, ignores_of_erases Signed.dipole.er_magnetic_u⟩

theorem C88_prism_kernels_erase :
    Erases 4 (Signed.prism.kernel_pot (A := A)) prism.kernel_pot
    ∧ Erases 4 (Signed.prism.kernel_e (A := A)) prism.kernel_e
    ∧ Erases 4 (Signed.prism.kernel_n (A := A)) prism.kernel_n
    ∧ Erases 4 (Signed.prism.kernel_u (A := A)) prism.kernel_u
    ∧ Erases 4 (Signed.prism.kernel_ee (A := A)) prism.kernel_ee
    ∧ Erases 4 (Signed.prism.kernel_nn (A := A)) prism.kernel_nn
    ∧ Erases 4 (Signed.prism.kernel_uu (A := A)) prism.kernel_uu
    ∧ Erases 4 (Signed.prism.kernel_en (A := A)) prism.kernel_en
    ∧ Erases 4 (Signed.prism.kernel_eu (A := A)) prism.kernel_eu
    ∧ Erases 4 (Signed.prism.kernel_nu (A := A)) prism.kernel_nu
    ∧ Erases 4 (Signed.prism.kernel_eee (A := A)) prism.kernel_eee
    ∧ Erases 4 (Signed.prism.kernel_nnn (A := A)) prism.kernel_nnn
    ∧ Erases 4 (Signed.prism.kernel_uuu (A := A)) prism.kernel_uuu
    ∧ Erases 4 (Signed.prism.kernel_een (A := A)) prism.kernel_een
    ∧ Erases 4 (Signed.prism.kernel_eeu (A := A)) prism.kernel_eeu
    ∧ Erases 4 (Signed.prism.kernel_enn (A := A)) prism.kernel_enn
    ∧ Erases 4 (Signed.prism.kernel_nnu (A := A)) prism.kernel_nnu
    ∧ Erases 4 (Signed.prism.kernel_euu (A := A)) prism.kernel_euu
    ∧ Erases 4 (Signed.prism.kernel_nuu (A := A)) prism.kernel_nuu
    ∧ Erases 4 (Signed.prism.kernel_enu (A := A)) prism.kernel_enu :=
  ⟨Signed.prism.er_kernel_pot, Signed.prism.er_kernel_e, Signed.prism.er_kernel_n, Signed.prism.er_kernel_u, Signed.prism.er_kernel_ee, Signed.prism.er_kernel_nn, Signed.prism.er_kernel_uu, Signed.prism.er_kernel_en, Signed.prism.er_kernel_eu, Signed.prism.er_kernel_nu, Signed.prism.er_kernel_eee, Signed.prism.er_kernel_nnn, Signed.prism.er_kernel_uuu, Signed.prism.er_kernel_een, Signed.prism.er_kernel_eeu, Signed.prism.er_kernel_enn, Signed.prism.er_kernel_nnu, Signed.prism.er_kernel_euu, Signed.prism.er_kernel_nuu, Signed.prism.er_kernel_enu⟩

theorem C88_prism_kernels :
    IgnoresZeroSigns 4 (Signed.prism.kernel_pot (A := A))
    ∧ IgnoresZeroSigns 4 (Signed.prism.kernel_e (A := A))
    ∧ IgnoresZeroSigns 4 (Signed.prism.kernel_n (A := A))
    ∧ IgnoresZeroSigns 4 (Signed.prism.kernel_u (A := A))
    ∧ IgnoresZeroSigns 4 (Signed.prism.kernel_ee (A := A))
    ∧ IgnoresZeroSigns 4 (Signed.prism.kernel_nn (A := A))
    ∧ IgnoresZeroSigns 4 (Signed.prism.kernel_uu (A := A))
    ∧ IgnoresZeroSigns 4 (Signed.prism.kernel_en (A := A))
    ∧ IgnoresZeroSigns 4 (Signed.prism.kernel_eu (A := A))
    ∧ IgnoresZeroSigns 4 (Signed.prism.kernel_nu (A := A))
    ∧ IgnoresZeroSigns 4 (Signed.prism.kernel_eee (A := A))
    ∧ IgnoresZeroSigns 4 (Signed.prism.kernel_nnn (A := A))
    ∧ IgnoresZeroSigns 4 (Signed.prism.kernel_uuu (A := A))
    ∧ IgnoresZeroSigns 4 (Signed.prism.kernel_een (A := A))
    ∧ IgnoresZeroSigns 4 (Signed.prism.kernel_eeu (A := A))
    ∧ IgnoresZeroSigns 4 (Signed.prism.kernel_enn (A := A))
    ∧ IgnoresZeroSigns 4 (Signed.prism.kernel_nnu (A := A))
    ∧ IgnoresZeroSigns 4 (Signed.prism.kernel_euu (A := A))
    ∧ IgnoresZeroSigns 4 (Signed.prism.kernel_nuu (A := A))
    ∧ IgnoresZeroSigns 4 (Signed.prism.kernel_enu (A := A)) :=
  ⟨ignores_of_erases Signed.prism.er_kernel_pot, ignores_of_erases Signed.prism.er_kernel_e, ignores_of_erases Signed.prism.er_kernel_n, ignores_of_erases Signed.prism.er_kernel_u, ignores_of_erases Signed.prism.er_kernel_ee, ignores_of_erases Signed.prism.er_kernel_nn, ignores_of_erases Signed.prism.er_kernel_uu, ignores_of_erases Signed.prism.er_kernel_en, ignores_of_erases Signed.prism.er_kernel_eu, ignores_of_erases Signed.prism.er_kernel_nu, ignores_of_erases Signed.prism.er_kernel_eee, ignores_of_erases Signed.prism.er_kernel_nnn, ignores_of_erases Signed.prism.er_kernel_uuu, ignores_of_erases Signed.prism.er_kernel_een, ignores_of_erases Signed.prism.er_kernel_eeu, ignores_of_erases Signed.prism.er_kernel_enn, ignores_of_erases Signed.prism.er_kernel_nnu, ignores_of_erases Signed.prism.er_kernel_euu, ignores_of_erases Signed.prism.er_kernel_nuu, ignores_of_erases Signed.prism.er_kernel_enu⟩

theorem C88_prism_gravity_erase :
    Erases 10 (Signed.prism.gravity_pot (A := A)) prism.gravity_pot
    ∧ Erases 10 (Signed.prism.gravity_e (A := A)) prism.gravity_e
    ∧ Erases 10 (Signed.prism.gravity_n (A := A)) prism.gravity_n
    ∧ Erases 10 (Signed.prism.gravity_u (A := A)) prism.gravity_u
    ∧ Erases 10 (Signed.prism.gravity_ee (A := A)) prism.gravity_ee
    ∧ Erases 10 (Signed.prism.gravity_nn (A := A)) prism.gravity_nn
    ∧ Erases 10 (Signed.prism.gravity_uu (A := A)) prism.gravity_uu
    ∧ Erases 10 (Signed.prism.gravity_en (A := A)) prism.gravity_en
    ∧ Erases 10 (Signed.prism.gravity_eu (A := A)) prism.gravity_eu
    ∧ Erases 10 (Signed.prism.gravity_nu (A := A)) prism.gravity_nu :=
  ⟨Signed.prism.er_gravity_pot, Signed.prism.er_gravity_e, Signed.prism.er_gravity_n, Signed.prism.er_gravity_u, Signed.prism.er_gravity_ee, Signed.prism.er_gravity_nn, Signed.prism.er_gravity_uu, Signed.prism.er_gravity_en, Signed.prism.er_gravity_eu, Signed.prism.er_gravity_nu⟩

theorem C88_prism_gravity :
    IgnoresZeroSigns 10 (Signed.prism.gravity_pot (A := A))
    ∧ IgnoresZeroSigns 10 (Signed.prism.gravity_e (A := A))
    ∧ IgnoresZeroSigns 10 (Signed.prism.gravity_n (A := A))
    ∧ IgnoresZeroSigns 10 (Signed.prism.gravity_u (A := A))
    ∧ IgnoresZeroSigns 10 (Signed.prism.gravity_ee (A := A))
    ∧ IgnoresZeroSigns 10 (Signed.prism.gravity_nn (A := A))
    ∧ IgnoresZeroSigns 10 (Signed.prism.gravity_uu (A := A))
    ∧ IgnoresZeroSigns 10 (Signed.prism.gravity_en (A := A))
    ∧ IgnoresZeroSigns 10 (Signed.prism.gravity_eu (A := A))
    ∧ IgnoresZeroSigns 10 (Signed.prism.gravity_nu (A := A)) :=
  ⟨ignores_of_erases Signed.prism.er_gravity_pot, ignores_of_erases Signed.prism.er_gravity_e, ignores_of_erases Signed.prism.er_gravity_n, ignores_of_erases Signed.prism.er_gravity_u, ignores_of_erases Signed.prism.er_gravity_ee, ignores_of_erases Signed.prism.er_gravity_nn, ignores_of_erases Signed.prism.er_gravity_uu, ignores_of_erases Signed.prism.er_gravity_en, ignores_of_erases Signed.prism.er_gravity_eu, ignores_of_erases Signed.prism.er_gravity_nu⟩

theorem C88_prism_magnetic_erase :
    Erases3 12 (Signed.prism.magnetic_field (A := A)) prism.magnetic_field
    ∧ Erases 12 (Signed.prism.magnetic_e (A := A)) prism.magnetic_e
    ∧ Erases 12 (Signed.prism.magnetic_n (A := A)) prism.magnetic_n
    ∧ Erases 12 (Signed.prism.magnetic_u (A := A)) prism.magnetic_u
    ∧ Erases 12 (Signed.prism.magnetic_ee (A := A)) prism.magnetic_ee
    ∧ Erases 12 (Signed.prism.magnetic_nn (A := A)) prism.magnetic_nn
    ∧ Erases 12 (Signed.prism.magnetic_uu (A := A)) prism.magnetic_uu
    ∧ Erases 12 (Signed.prism.magnetic_en (A := A)) prism.magnetic_en
    ∧ Erases 12 (Signed.prism.magnetic_eu (A := A)) prism.magnetic_eu
    ∧ Erases 12 (Signed.prism.magnetic_nu (A := A)) prism.magnetic_nu :=
  ⟨Signed.prism.er_magnetic_field, Signed.prism.er_magnetic_e, Signed.prism.er_magnetic_n, Signed.prism.er_magnetic_u, Signed.prism.er_magnetic_ee, Signed.prism.er_magnetic_nn, Signed.prism.er_magnetic_uu, Signed.prism.er_magnetic_en, Signed.prism.er_magnetic_eu, Signed.prism.er_magnetic_nu⟩

theorem C88_prism_magnetic :
    IgnoresZeroSigns3 12 (Signed.prism.magnetic_field (A := A))
    ∧ IgnoresZeroSigns 12 (Signed.prism.magnetic_e (A := A))
    ∧ IgnoresZeroSigns 12 (Signed.prism.magnetic_n (A := A))
    ∧ IgnoresZeroSigns 12 (Signed.prism.magnetic_u (A := A))
    ∧ IgnoresZeroSigns 12 (Signed.prism.magnetic_ee (A := A))
    ∧ IgnoresZeroSigns 12 (Signed.prism.magnetic_nn (A := A))
    ∧ IgnoresZeroSigns 12 (Signed.prism.magnetic_uu (A := A))
    ∧ IgnoresZeroSigns 12 (Signed.prism.magnetic_en (A := A))
    ∧ IgnoresZeroSigns 12 (Signed.prism.magnetic_eu (A := A))
    ∧ IgnoresZeroSigns 12 (Signed.prism.magnetic_nu (A := A)) :=
  ⟨ignores3_of_erases Signed.prism.er_magnetic_field, ignores_of_erases Signed.prism.er_magnetic_e, ignores_of_erases Signed.prism.er_magnetic_n, ignores_of_erases Signed.prism.er_magnetic_u, ignores_of_erases Signed.prism.er_magnetic_ee, ignores_of_erases Signed.prism.er_magnetic_nn, ignores_of_erases Signed.prism.er_magnetic_uu, ignores_of_erases Signed.prism.er_magnetic_en, ignores_of_erases Signed.prism.er_magnetic_eu, ignores_of_erases Signed.prism.er_magnetic_nu⟩

theorem C88_prism_points_erase :
    WithoutZeroSigns (fun x y => x = y) 9 (Signed.prism.is_interior_point (A := A)) prism.is_interior_point
    ∧ WithoutZeroSigns (fun x y => x = y) 9 (Signed.prism.is_point_on_easting_edge (A := A)) prism.is_point_on_easting_edge
    ∧ WithoutZeroSigns (fun x y => x = y) 9 (Signed.prism.is_point_on_northing_edge (A := A)) prism.is_point_on_northing_edge
    ∧ WithoutZeroSigns (fun x y => x = y) 9 (Signed.prism.is_point_on_upward_edge (A := A)) prism.is_point_on_upward_edge
    ∧ WithoutZeroSigns (fun x y => x = y) 9 (Signed.prism.is_point_on_edge (A := A)) prism.is_point_on_edge
    ∧ WithoutZeroSigns (fun x y => x = y) 9 (Signed.prism.is_point_on_east_face (A := A)) prism.is_point_on_east_face
    ∧ WithoutZeroSigns (fun x y => x = y) 9 (Signed.prism.is_point_on_north_face (A := A)) prism.is_point_on_north_face
    ∧ WithoutZeroSigns (fun x y => x = y) 9 (Signed.prism.is_point_on_top_face (A := A)) prism.is_point_on_top_face :=
  ⟨Signed.prism.is_interior_point_erase, Signed.prism.is_point_on_easting_edge_erase, Signed.prism.is_point_on_northing_edge_erase, Signed.prism.is_point_on_upward_edge_erase, Signed.prism.is_point_on_edge_erase, Signed.prism.is_point_on_east_face_erase, Signed.prism.is_point_on_north_face_erase, Signed.prism.is_point_on_top_face_erase⟩

theorem C88_prism_points :
    OnSameNumbers (fun x y => x = y) 9 (Signed.prism.is_interior_point (A := A)) Signed.prism.is_interior_point
    ∧ OnSameNumbers (fun x y => x = y) 9 (Signed.prism.is_point_on_easting_edge (A := A)) Signed.prism.is_point_on_easting_edge
    ∧ OnSameNumbers (fun x y => x = y) 9 (Signed.prism.is_point_on_northing_edge (A := A)) Signed.prism.is_point_on_northing_edge
    ∧ OnSameNumbers (fun x y => x = y) 9 (Signed.prism.is_point_on_upward_edge (A := A)) Signed.prism.is_point_on_upward_edge
    ∧ OnSameNumbers (fun x y => x = y) 9 (Signed.prism.is_point_on_edge (A := A)) Signed.prism.is_point_on_edge
    ∧ OnSameNumbers (fun x y => x = y) 9 (Signed.prism.is_point_on_east_face (A := A)) Signed.prism.is_point_on_east_face
    ∧ OnSameNumbers (fun x y => x = y) 9 (Signed.prism.is_point_on_north_face (A := A)) Signed.prism.is_point_on_north_face
    ∧ OnSameNumbers (fun x y => x = y) 9 (Signed.prism.is_point_on_top_face (A := A)) Signed.prism.is_point_on_top_face :=
  ⟨ignoresBool_of_erases Signed.prism.is_interior_point_erase, ignoresBool_of_erases Signed.prism.is_point_on_easting_edge_erase, ignoresBool_of_erases Signed.prism.is_point_on_northing_edge_erase, ignoresBool_of_erases Signed.prism.is_point_on_upward_edge_erase, ignoresBool_of_erases Signed.prism.is_point_on_edge_erase, ignoresBool_of_erases Signed.prism.is_point_on_east_face_erase, ignoresBool_of_erases Signed.prism.is_point_on_north_face_erase, ignoresBool_of_erases Signed.prism.is_point_on_top_face_erase⟩

/-! The signs do occur: north of a point mass the kernel of the easting acceleration is a negative zero,
and a positive zero if the easting of the observation point is given as `-0.0`; the outcomes differ, but only
in the sign of a zero. -/

/-- A zero of the given sign (`true` = negative). -/
def szero (s : Bool) : SFl A := SRaw.zero s

theorem SFl.ofRaw_zero (s : Bool) : (SFl.ofRaw s (.fin 0) : SFl A) = szero s := dif_pos rfl

theorem SFl.fin_num {x : ℝ} (h : x ≠ 0) : (SFl.fin x : SFl A) = SRaw.num x h := dif_neg h

theorem SFl.kernel_e_zero (s : Bool) :
    Signed.point.kernel_e (A := Exact) (szero s) (1 : SFl Exact) (0 : SFl Exact) (szero false)
      (0 : SFl Exact) (0 : SFl Exact) (1 : SFl Exact) = .ok (szero (!s)) := by
  have h1 : ((szero s : SFl Exact) - (szero false : SFl Exact) : SFl Exact) = szero s := by
    show SFl.ofRaw (s && true) (.fin (0 + 0)) = _
    rw [add_zero, Bool.and_true]
    exact SFl.ofRaw_zero s
  have h2 : ((1 : SFl Exact) ^ 3 : SFl Exact) = SRaw.num 1 one_ne_zero := by
    have : (1 : SFl Exact) = SRaw.num 1 one_ne_zero := by
      show SFl.fin ((1 : ℕ) : ℝ) = _
      rw [Nat.cast_one]
      exact SFl.fin_num one_ne_zero
    rw [this]
    show SFl.ofRaw _ (.fin ((1 : ℝ) ^ 3)) = _
    rw [one_pow]
    exact dif_neg one_ne_zero
  show (-((szero s : SFl Exact) - (szero false : SFl Exact) : SFl Exact)) /± ((1 : SFl Exact) ^ 3) = _
  rw [h1, h2]
  show Except.ok (SFl.ofRaw (xor (!s) (decide ((1 : ℝ) < 0))) (.fin (0 / 1))) = _
  rw [zero_div, decide_eq_false (by norm_num : ¬ (1 : ℝ) < 0), Bool.xor_false]
  exact congrArg Except.ok (SFl.ofRaw_zero _)

example : Signed.point.kernel_e (A := Exact) (szero true) (1 : SFl Exact) (0 : SFl Exact) (szero false)
      (0 : SFl Exact) (0 : SFl Exact) (1 : SFl Exact)
    ≠ Signed.point.kernel_e (A := Exact) (szero false) (1 : SFl Exact) (0 : SFl Exact) (szero false)
      (0 : SFl Exact) (0 : SFl Exact) (1 : SFl Exact) := by
  rw [SFl.kernel_e_zero, SFl.kernel_e_zero]
  intro h
  have h' := Except.ok.inj h
  injection h' with h'
  exact absurd h' (by decide)

example : SameOutcome
    (Signed.point.kernel_e (A := Exact) (szero true) (1 : SFl Exact) (0 : SFl Exact) (szero false)
      (0 : SFl Exact) (0 : SFl Exact) (1 : SFl Exact))
    (Signed.point.kernel_e (A := Exact) (szero false) (1 : SFl Exact) (0 : SFl Exact) (szero false)
      (0 : SFl Exact) (0 : SFl Exact) (1 : SFl Exact)) :=
  C88_point_kernels.2.1 _ _ (Or.inr ⟨true, false, rfl, rfl⟩) _ _ (Or.inl rfl) _ _ (Or.inl rfl) _ _ (Or.inl rfl)
    _ _ (Or.inl rfl) _ _ (Or.inl rfl) _ _ (Or.inl rfl)

end Choclo
