import Verif.Lemmas.NpInt
import Verif.Props.Typed
import Verif.Props.NumbaPow

/-! # Integer arguments without Numba (C147)

With `NUMBA_DISABLE_JIT=1` (`/repo/Makefile:30`) and arguments that are NumPy int64 scalars, such as the elements of an integer
array, the functions are run by the Python interpreter on NumPy scalars: int64 arithmetic wraps around as it does in compiled
code, and a division by zero gives infinity or NaN instead of raising.  Whatever the integers, also those that overflow: a call that
returns when compiled returns the very same number when interpreted, and a call that raises when compiled returns something that is
not a finite number.  So the results for integers within the bounds of C89 are those for floats, and the wrong results beyond those
bounds are the same as in compiled code. -/

namespace Choclo

variable {A : Arith}

theorem agreesT_of_ag {x y : Py (TFl A)} (h : Ag x y) : AgreesT x y := by
  cases x with
  | ok v => exact h
  | error e => exact h

theorem agreesT3_of_ag {x y : Py (TFl A × TFl A × TFl A)} (h : Ag x y) : AgreesT3 x y := by
  cases x with
  | ok v => exact h
  | error e => exact h

theorem nagrees1_4 {f g : Args (TFl A) (Py (TFl A)) 4} (h : ∀ a0 a1 a2 a3, Ag (f a0 a1 a2 a3) (g a0 a1 a2 a3)) :
    AtAllT AgreesT 4 f g :=
  fun a0 a1 a2 a3 => agreesT_of_ag (h a0 a1 a2 a3)

theorem nagrees1_6 {f g : Args (TFl A) (Py (TFl A)) 6} (h : ∀ a0 a1 a2 a3 a4 a5, Ag (f a0 a1 a2 a3 a4 a5) (g a0 a1 a2 a3 a4 a5)) :
    AtAllT AgreesT 6 f g :=
  fun a0 a1 a2 a3 a4 a5 => agreesT_of_ag (h a0 a1 a2 a3 a4 a5)

theorem nagrees1_7 {f g : Args (TFl A) (Py (TFl A)) 7} (h : ∀ a0 a1 a2 a3 a4 a5 a6, Ag (f a0 a1 a2 a3 a4 a5 a6) (g a0 a1 a2 a3 a4 a5 a6)) :
    AtAllT AgreesT 7 f g :=
  fun a0 a1 a2 a3 a4 a5 a6 => agreesT_of_ag (h a0 a1 a2 a3 a4 a5 a6)

theorem nagrees1_9 {f g : Args (TFl A) (Py (TFl A)) 9} (h : ∀ a0 a1 a2 a3 a4 a5 a6 a7 a8, Ag (f a0 a1 a2 a3 a4 a5 a6 a7 a8) (g a0 a1 a2 a3 a4 a5 a6 a7 a8)) :
    AtAllT AgreesT 9 f g :=
  fun a0 a1 a2 a3 a4 a5 a6 a7 a8 => agreesT_of_ag (h a0 a1 a2 a3 a4 a5 a6 a7 a8)

theorem nagrees1_10 {f g : Args (TFl A) (Py (TFl A)) 10} (h : ∀ a0 a1 a2 a3 a4 a5 a6 a7 a8 a9, Ag (f a0 a1 a2 a3 a4 a5 a6 a7 a8 a9) (g a0 a1 a2 a3 a4 a5 a6 a7 a8 a9)) :
    AtAllT AgreesT 10 f g :=
  fun a0 a1 a2 a3 a4 a5 a6 a7 a8 a9 => agreesT_of_ag (h a0 a1 a2 a3 a4 a5 a6 a7 a8 a9)

theorem nagrees1_12 {f g : Args (TFl A) (Py (TFl A)) 12} (h : ∀ a0 a1 a2 a3 a4 a5 a6 a7 a8 a9 a10 a11, Ag (f a0 a1 a2 a3 a4 a5 a6 a7 a8 a9 a10 a11) (g a0 a1 a2 a3 a4 a5 a6 a7 a8 a9 a10 a11)) :
    AtAllT AgreesT 12 f g :=
  fun a0 a1 a2 a3 a4 a5 a6 a7 a8 a9 a10 a11 => agreesT_of_ag (h a0 a1 a2 a3 a4 a5 a6 a7 a8 a9 a10 a11)

theorem nagrees3_8 {f g : Args (TFl A) (Py (TFl A × TFl A × TFl A)) 8} (h : ∀ a0 a1 a2 a3 a4 a5 a6 a7, Ag (f a0 a1 a2 a3 a4 a5 a6 a7) (g a0 a1 a2 a3 a4 a5 a6 a7)) :
    AtAllT AgreesT3 8 f g :=
  fun a0 a1 a2 a3 a4 a5 a6 a7 => agreesT3_of_ag (h a0 a1 a2 a3 a4 a5 a6 a7)

theorem nagrees3_9 {f g : Args (TFl A) (Py (TFl A × TFl A × TFl A)) 9} (h : ∀ a0 a1 a2 a3 a4 a5 a6 a7 a8, Ag (f a0 a1 a2 a3 a4 a5 a6 a7 a8) (g a0 a1 a2 a3 a4 a5 a6 a7 a8)) :
    AtAllT AgreesT3 9 f g :=
  fun a0 a1 a2 a3 a4 a5 a6 a7 a8 => agreesT3_of_ag (h a0 a1 a2 a3 a4 a5 a6 a7 a8)

theorem nagrees3_12 {f g : Args (TFl A) (Py (TFl A × TFl A × TFl A)) 12} (h : ∀ a0 a1 a2 a3 a4 a5 a6 a7 a8 a9 a10 a11, Ag (f a0 a1 a2 a3 a4 a5 a6 a7 a8 a9 a10 a11) (g a0 a1 a2 a3 a4 a5 a6 a7 a8 a9 a10 a11)) :
    AtAllT AgreesT3 12 f g :=
  fun a0 a1 a2 a3 a4 a5 a6 a7 a8 a9 a10 a11 => agreesT3_of_ag (h a0 a1 a2 a3 a4 a5 a6 a7 a8 a9 a10 a11)

/-! ### The three arithmetics satisfy the hypothesis -/

theorem Exact_ints (n : ℤ) : Exact.rnd n = .fin 0 ↔ n = 0 := by
  constructor
  · intro h
    exact Int.cast_eq_zero.1 (Raw.fin.inj h)
  · rintro rfl
    exact congrArg Raw.fin Int.cast_zero

theorem Binary64_ints (n : ℤ) : Binary64.rnd n = .fin 0 ↔ n = 0 := by
  constructor
  · intro h
    by_contra hn
    have h1 : (1 : ℝ) ≤ |(n : ℝ)| := by
      rw [← Int.cast_abs]
      exact_mod_cast Int.one_le_abs hn
    have h2 : (2 : ℝ) ^ (-1022 : ℤ) ≤ 1 := zpow_le_one_of_nonpos₀ one_le_two (by norm_num)
    have h3 := B64.abs_round_sub_le (x := (n : ℝ)) (h2.trans h1)
    rw [(B64.rnd_eq_fin h).1, zero_sub, abs_neg] at h3
    have h4 : (2 : ℝ) ^ (-53 : ℤ) ≤ 1 / 2 := by
      rw [show (1 / 2 : ℝ) = 2 ^ (-1 : ℤ) by norm_num]
      exact zpow_le_zpow_right₀ one_le_two (by norm_num)
    have h5 := mul_le_mul_of_nonneg_right h4 (abs_nonneg (n : ℝ))
    have h6 : |(n : ℝ)| ≤ 1 / 2 * |(n : ℝ)| := h3.trans h5
    generalize |(n : ℝ)| = t at h1 h6
    linarith
  · rintro rfl
    rw [Int.cast_zero]
    exact B64.rnd_zero

theorem Numba64_ints (n : ℤ) : Numba64.rnd n = .fin 0 ↔ n = 0 := Binary64_ints n

/-- distances -/
theorem C147_utils (hA : ∀ n : ℤ, A.rnd n = .fin 0 ↔ n = 0) :
    AtAllT AgreesT 6 (Typed.utils.distance_cartesian (A := A)) NpInt.utils.distance_cartesian
    ∧ AtAllT AgreesT3 8 (Typed.utils.distance_spherical_core (A := A)) NpInt.utils.distance_spherical_core
    ∧ AtAllT AgreesT 6 (Typed.utils.distance_spherical (A := A)) NpInt.utils.distance_spherical :=
  haveI : NpInt.IntsNonzero A := ⟨hA⟩
  ⟨nagrees1_6 NpInt.utils.ag_distance_cartesian,
   nagrees3_8 NpInt.utils.ag_distance_spherical_core,
   nagrees1_6 NpInt.utils.ag_distance_spherical⟩

/-- point kernels -/
theorem C147_point_kernels (hA : ∀ n : ℤ, A.rnd n = .fin 0 ↔ n = 0) :
    AtAllT AgreesT 7 (Typed.point.kernel_pot (A := A)) NpInt.point.kernel_pot
    ∧ AtAllT AgreesT 7 (Typed.point.kernel_e (A := A)) NpInt.point.kernel_e
    ∧ AtAllT AgreesT 7 (Typed.point.kernel_n (A := A)) NpInt.point.kernel_n
    ∧ AtAllT AgreesT 7 (Typed.point.kernel_u (A := A)) NpInt.point.kernel_u
    ∧ AtAllT AgreesT 7 (Typed.point.kernel_ee (A := A)) NpInt.point.kernel_ee
    ∧ AtAllT AgreesT 7 (Typed.point.kernel_nn (A := A)) NpInt.point.kernel_nn
    ∧ AtAllT AgreesT 7 (Typed.point.kernel_uu (A := A)) NpInt.point.kernel_uu
    ∧ AtAllT AgreesT 7 (Typed.point.kernel_en (A := A)) NpInt.point.kernel_en
    ∧ AtAllT AgreesT 7 (Typed.point.kernel_eu (A := A)) NpInt.point.kernel_eu
    ∧ AtAllT AgreesT 7 (Typed.point.kernel_nu (A := A)) NpInt.point.kernel_nu
    ∧ AtAllT AgreesT 7 (Typed.point.kernel_eee (A := A)) NpInt.point.kernel_eee
    ∧ AtAllT AgreesT 7 (Typed.point.kernel_nnn (A := A)) NpInt.point.kernel_nnn
    ∧ AtAllT AgreesT 7 (Typed.point.kernel_uuu (A := A)) NpInt.point.kernel_uuu
    ∧ AtAllT AgreesT 7 (Typed.point.kernel_een (A := A)) NpInt.point.kernel_een
    ∧ AtAllT AgreesT 7 (Typed.point.kernel_eeu (A := A)) NpInt.point.kernel_eeu
    ∧ AtAllT AgreesT 7 (Typed.point.kernel_nne (A := A)) NpInt.point.kernel_nne
    ∧ AtAllT AgreesT 7 (Typed.point.kernel_nnu (A := A)) NpInt.point.kernel_nnu
    ∧ AtAllT AgreesT 7 (Typed.point.kernel_uue (A := A)) NpInt.point.kernel_uue
    ∧ AtAllT AgreesT 7 (Typed.point.kernel_uun (A := A)) NpInt.point.kernel_uun
    ∧ AtAllT AgreesT 7 (Typed.point.kernel_enu (A := A)) NpInt.point.kernel_enu :=
  haveI : NpInt.IntsNonzero A := ⟨hA⟩
  ⟨nagrees1_7 NpInt.point.ag_kernel_pot,
   nagrees1_7 NpInt.point.ag_kernel_e,
   nagrees1_7 NpInt.point.ag_kernel_n,
   nagrees1_7 NpInt.point.ag_kernel_u,
   nagrees1_7 NpInt.point.ag_kernel_ee,
   nagrees1_7 NpInt.point.ag_kernel_nn,
   nagrees1_7 NpInt.point.ag_kernel_uu,
   nagrees1_7 NpInt.point.ag_kernel_en,
   nagrees1_7 NpInt.point.ag_kernel_eu,
   nagrees1_7 NpInt.point.ag_kernel_nu,
   nagrees1_7 NpInt.point.ag_kernel_eee,
   nagrees1_7 NpInt.point.ag_kernel_nnn,
   nagrees1_7 NpInt.point.ag_kernel_uuu,
   nagrees1_7 NpInt.point.ag_kernel_een,
   nagrees1_7 NpInt.point.ag_kernel_eeu,
   nagrees1_7 NpInt.point.ag_kernel_nne,
   nagrees1_7 NpInt.point.ag_kernel_nnu,
   nagrees1_7 NpInt.point.ag_kernel_uue,
   nagrees1_7 NpInt.point.ag_kernel_uun,
   nagrees1_7 NpInt.point.ag_kernel_enu⟩

/-- gravity of a point mass -/
theorem C147_point_gravity (hA : ∀ n : ℤ, A.rnd n = .fin 0 ↔ n = 0) :
    AtAllT AgreesT 7 (Typed.point.gravity_pot (A := A)) NpInt.point.gravity_pot
    ∧ AtAllT AgreesT 7 (Typed.point.gravity_e (A := A)) NpInt.point.gravity_e
    ∧ AtAllT AgreesT 7 (Typed.point.gravity_n (A := A)) NpInt.point.gravity_n
    ∧ AtAllT AgreesT 7 (Typed.point.gravity_u (A := A)) NpInt.point.gravity_u
    ∧ AtAllT AgreesT 7 (Typed.point.gravity_ee (A := A)) NpInt.point.gravity_ee
    ∧ AtAllT AgreesT 7 (Typed.point.gravity_nn (A := A)) NpInt.point.gravity_nn
    ∧ AtAllT AgreesT 7 (Typed.point.gravity_uu (A := A)) NpInt.point.gravity_uu
    ∧ AtAllT AgreesT 7 (Typed.point.gravity_en (A := A)) NpInt.point.gravity_en
    ∧ AtAllT AgreesT 7 (Typed.point.gravity_eu (A := A)) NpInt.point.gravity_eu
    ∧ AtAllT AgreesT 7 (Typed.point.gravity_nu (A := A)) NpInt.point.gravity_nu :=
  haveI : NpInt.IntsNonzero A := ⟨hA⟩
  ⟨nagrees1_7 NpInt.point.ag_gravity_pot,
   nagrees1_7 NpInt.point.ag_gravity_e,
   nagrees1_7 NpInt.point.ag_gravity_n,
   nagrees1_7 NpInt.point.ag_gravity_u,
   nagrees1_7 NpInt.point.ag_gravity_ee,
   nagrees1_7 NpInt.point.ag_gravity_nn,
   nagrees1_7 NpInt.point.ag_gravity_uu,
   nagrees1_7 NpInt.point.ag_gravity_en,
   nagrees1_7 NpInt.point.ag_gravity_eu,
   nagrees1_7 NpInt.point.ag_gravity_nu⟩

/-- magnetic field of a dipole -/
theorem C147_dipole (hA : ∀ n : ℤ, A.rnd n = .fin 0 ↔ n = 0) :
    AtAllT AgreesT3 9 (Typed.dipole.magnetic_field (A := A)) NpInt.dipole.magnetic_field
    ∧ AtAllT AgreesT 9 (Typed.dipole.magnetic_e (A := A)) NpInt.dipole.magnetic_e
    ∧ AtAllT AgreesT 9 (Typed.dipole.magnetic_n (A := A)) NpInt.dipole.magnetic_n
    ∧ AtAllT AgreesT 9 (Typed.dipole.magnetic_u (A := A)) NpInt.dipole.magnetic_u :=
  haveI : NpInt.IntsNonzero A := ⟨hA⟩
  ⟨nagrees3_9 NpInt.dipole.ag_magnetic_field,
   nagrees1_9 NpInt.dipole.ag_magnetic_e,
   nagrees1_9 NpInt.dipole.ag_magnetic_n,
   nagrees1_9 NpInt.dipole.ag_magnetic_u⟩

/-- prism kernels -/
theorem C147_prism_kernels (hA : ∀ n : ℤ, A.rnd n = .fin 0 ↔ n = 0) :
    AtAllT AgreesT 4 (Typed.prism.kernel_pot (A := A)) NpInt.prism.kernel_pot
    ∧ AtAllT AgreesT 4 (Typed.prism.kernel_e (A := A)) NpInt.prism.kernel_e
    ∧ AtAllT AgreesT 4 (Typed.prism.kernel_n (A := A)) NpInt.prism.kernel_n
    ∧ AtAllT AgreesT 4 (Typed.prism.kernel_u (A := A)) NpInt.prism.kernel_u
    ∧ AtAllT AgreesT 4 (Typed.prism.kernel_ee (A := A)) NpInt.prism.kernel_ee
    ∧ AtAllT AgreesT 4 (Typed.prism.kernel_nn (A := A)) NpInt.prism.kernel_nn
    ∧ AtAllT AgreesT 4 (Typed.prism.kernel_uu (A := A)) NpInt.prism.kernel_uu
    ∧ AtAllT AgreesT 4 (Typed.prism.kernel_en (A := A)) NpInt.prism.kernel_en
    ∧ AtAllT AgreesT 4 (Typed.prism.kernel_eu (A := A)) NpInt.prism.kernel_eu
    ∧ AtAllT AgreesT 4 (Typed.prism.kernel_nu (A := A)) NpInt.prism.kernel_nu
    ∧ AtAllT AgreesT 4 (Typed.prism.kernel_eee (A := A)) NpInt.prism.kernel_eee
    ∧ AtAllT AgreesT 4 (Typed.prism.kernel_nnn (A := A)) NpInt.prism.kernel_nnn
    ∧ AtAllT AgreesT 4 (Typed.prism.kernel_uuu (A := A)) NpInt.prism.kernel_uuu
    ∧ AtAllT AgreesT 4 (Typed.prism.kernel_een (A := A)) NpInt.prism.kernel_een
    ∧ AtAllT AgreesT 4 (Typed.prism.kernel_eeu (A := A)) NpInt.prism.kernel_eeu
    ∧ AtAllT AgreesT 4 (Typed.prism.kernel_enn (A := A)) NpInt.prism.kernel_enn
    ∧ AtAllT AgreesT 4 (Typed.prism.kernel_nnu (A := A)) NpInt.prism.kernel_nnu
    ∧ AtAllT AgreesT 4 (Typed.prism.kernel_euu (A := A)) NpInt.prism.kernel_euu
    ∧ AtAllT AgreesT 4 (Typed.prism.kernel_nuu (A := A)) NpInt.prism.kernel_nuu
    ∧ AtAllT AgreesT 4 (Typed.prism.kernel_enu (A := A)) NpInt.prism.kernel_enu :=
  haveI : NpInt.IntsNonzero A := ⟨hA⟩
  ⟨nagrees1_4 NpInt.prism.ag_kernel_pot,
   nagrees1_4 NpInt.prism.ag_kernel_e,
   nagrees1_4 NpInt.prism.ag_kernel_n,
   nagrees1_4 NpInt.prism.ag_kernel_u,
   nagrees1_4 NpInt.prism.ag_kernel_ee,
   nagrees1_4 NpInt.prism.ag_kernel_nn,
   nagrees1_4 NpInt.prism.ag_kernel_uu,
   nagrees1_4 NpInt.prism.ag_kernel_en,
   nagrees1_4 NpInt.prism.ag_kernel_eu,
   nagrees1_4 NpInt.prism.ag_kernel_nu,
   nagrees1_4 NpInt.prism.ag_kernel_eee,
   nagrees1_4 NpInt.prism.ag_kernel_nnn,
   nagrees1_4 NpInt.prism.ag_kernel_uuu,
   nagrees1_4 NpInt.prism.ag_kernel_een,
   nagrees1_4 NpInt.prism.ag_kernel_eeu,
   nagrees1_4 NpInt.prism.ag_kernel_enn,
   nagrees1_4 NpInt.prism.ag_kernel_nnu,
   nagrees1_4 NpInt.prism.ag_kernel_euu,
   nagrees1_4 NpInt.prism.ag_kernel_nuu,
   nagrees1_4 NpInt.prism.ag_kernel_enu⟩

/-- gravity of a prism -/
theorem C147_prism_gravity (hA : ∀ n : ℤ, A.rnd n = .fin 0 ↔ n = 0) :
    AtAllT AgreesT 10 (Typed.prism.gravity_pot (A := A)) NpInt.prism.gravity_pot
    ∧ AtAllT AgreesT 10 (Typed.prism.gravity_e (A := A)) NpInt.prism.gravity_e
    ∧ AtAllT AgreesT 10 (Typed.prism.gravity_n (A := A)) NpInt.prism.gravity_n
    ∧ AtAllT AgreesT 10 (Typed.prism.gravity_u (A := A)) NpInt.prism.gravity_u
    ∧ AtAllT AgreesT 10 (Typed.prism.gravity_ee (A := A)) NpInt.prism.gravity_ee
    ∧ AtAllT AgreesT 10 (Typed.prism.gravity_nn (A := A)) NpInt.prism.gravity_nn
    ∧ AtAllT AgreesT 10 (Typed.prism.gravity_uu (A := A)) NpInt.prism.gravity_uu
    ∧ AtAllT AgreesT 10 (Typed.prism.gravity_en (A := A)) NpInt.prism.gravity_en
    ∧ AtAllT AgreesT 10 (Typed.prism.gravity_eu (A := A)) NpInt.prism.gravity_eu
    ∧ AtAllT AgreesT 10 (Typed.prism.gravity_nu (A := A)) NpInt.prism.gravity_nu :=
  haveI : NpInt.IntsNonzero A := ⟨hA⟩
  ⟨nagrees1_10 NpInt.prism.ag_gravity_pot,
   nagrees1_10 NpInt.prism.ag_gravity_e,
   nagrees1_10 NpInt.prism.ag_gravity_n,
   nagrees1_10 NpInt.prism.ag_gravity_u,
   nagrees1_10 NpInt.prism.ag_gravity_ee,
   nagrees1_10 NpInt.prism.ag_gravity_nn,
   nagrees1_10 NpInt.prism.ag_gravity_uu,
   nagrees1_10 NpInt.prism.ag_gravity_en,
   nagrees1_10 NpInt.prism.ag_gravity_eu,
   nagrees1_10 NpInt.prism.ag_gravity_nu⟩

/-- magnetic field and gradient of a prism -/
theorem C147_prism_magnetic (hA : ∀ n : ℤ, A.rnd n = .fin 0 ↔ n = 0) :
    AtAllT AgreesT3 12 (Typed.prism.magnetic_field (A := A)) NpInt.prism.magnetic_field
    ∧ AtAllT AgreesT 12 (Typed.prism.magnetic_e (A := A)) NpInt.prism.magnetic_e
    ∧ AtAllT AgreesT 12 (Typed.prism.magnetic_n (A := A)) NpInt.prism.magnetic_n
    ∧ AtAllT AgreesT 12 (Typed.prism.magnetic_u (A := A)) NpInt.prism.magnetic_u
    ∧ AtAllT AgreesT 12 (Typed.prism.magnetic_ee (A := A)) NpInt.prism.magnetic_ee
    ∧ AtAllT AgreesT 12 (Typed.prism.magnetic_nn (A := A)) NpInt.prism.magnetic_nn
    ∧ AtAllT AgreesT 12 (Typed.prism.magnetic_uu (A := A)) NpInt.prism.magnetic_uu
    ∧ AtAllT AgreesT 12 (Typed.prism.magnetic_en (A := A)) NpInt.prism.magnetic_en
    ∧ AtAllT AgreesT 12 (Typed.prism.magnetic_eu (A := A)) NpInt.prism.magnetic_eu
    ∧ AtAllT AgreesT 12 (Typed.prism.magnetic_nu (A := A)) NpInt.prism.magnetic_nu :=
  haveI : NpInt.IntsNonzero A := ⟨hA⟩
  ⟨nagrees3_12 NpInt.prism.ag_magnetic_field,
   nagrees1_12 NpInt.prism.ag_magnetic_e,
   nagrees1_12 NpInt.prism.ag_magnetic_n,
   nagrees1_12 NpInt.prism.ag_magnetic_u,
   nagrees1_12 NpInt.prism.ag_magnetic_ee,
   nagrees1_12 NpInt.prism.ag_magnetic_nn,
   nagrees1_12 NpInt.prism.ag_magnetic_uu,
   nagrees1_12 NpInt.prism.ag_magnetic_en,
   nagrees1_12 NpInt.prism.ag_magnetic_eu,
   nagrees1_12 NpInt.prism.ag_magnetic_nu⟩

/-! ### What this means for the caller -/

theorem AtAllT.imp {α β : Type} {R : α → α → Prop} {S : α → α → Prop} (h : ∀ x y, R x y → S x y) :
    ∀ (n : ℕ) {f g : Args (TFl A) α n}, AtAllT R n f g → AtAllT S n f g
  | 0, _, _, hf => h _ _ hf
  | _ + 1, _, _, hf => fun a => AtAllT.imp (β := β) h _ (hf a)

/-- An interpreted call never raises, and if it returns a finite number then the compiled call returns the same number. -/
theorem C147_finite {n : ℕ} {f g : Args (TFl A) (Py (TFl A)) n} (h : AtAllT AgreesT n f g) :
    AtAllT (fun compiled interpreted => ∃ w, interpreted = .ok w ∧ (w.IsNumber → compiled = .ok w)) n f g :=
  AtAllT.imp (β := Unit) (fun x y hxy => by
    cases x with
    | ok v => exact ⟨v, hxy, fun _ => rfl⟩
    | error e =>
      obtain ⟨w, hw, hb⟩ := hxy
      exact ⟨w, hw, fun h => absurd h hb⟩) n h

theorem sameNumpy_of {x : Py (TFl A)} {y : Py (Fl A)} {z : Py (TFl A)} (h : SameCall x y) (k : AgreesT x z) : SameNumpy z y := by
  unfold SameCall at h
  subst h
  cases y with
  | ok v => exact k
  | error e => exact k

theorem sameNumpy3_of {x : Py (TFl A × TFl A × TFl A)} {y : Py (Fl A × Fl A × Fl A)} {z : Py (TFl A × TFl A × TFl A)}
    (h : SameCall3 x y) (k : AgreesT3 x z) : SameNumpy3 z y := by
  unfold SameCall3 at h
  subst h
  cases y with
  | ok v => exact k
  | error e => exact k

/-- `AtAllT` for functions of one argument for each entry of a list of bounds -/
def AtAllB {α : Type} (R : α → α → Prop) : (l : List ℕ) → ArgsB (TFl A) α l → ArgsB (TFl A) α l → Prop
  | [], x, y => R x y
  | _ :: l, f, g => ∀ a : TFl A, AtAllB R l (f a) (g a)

theorem onInts_numpy {α β : Type} {R : α → β → Prop} {S : α → α → Prop} {T : α → β → Prop} (h : ∀ x y z, R x y → S x z → T z y) :
    ∀ (l : List ℕ) {f k : ArgsB (TFl A) α l} {g : ArgsB (Fl A) β l}, OnInts R l f g → AtAllB S l f k → OnInts T l k g
  | [], _, _, _, h1, h2 => h _ _ _ h1 h2
  | _ :: l, _, _, _, h1, h2 => fun a ha => onInts_numpy h l (h1 a ha) (h2 a)

section
variable {L C M : ℕ}

/-- Integers up to `C` for the coordinates: the interpreted gravity of a point mass is that of the same coordinates as floats, bit for
bit. -/
theorem C147_ints_point_gravity (hI : A.ExactInts L) (hL : L < 2 ^ 63) (hC : 12 * C ^ 2 ≤ L) (h15 : 15 ≤ L)
    (hA : ∀ n : ℤ, A.rnd n = .fin 0 ↔ n = 0) :
    OnInts SameNumpy [C, C, C, C, C, C, L] (NpInt.point.gravity_pot (A := A)) point.gravity_pot
    ∧ OnInts SameNumpy [C, C, C, C, C, C, L] (NpInt.point.gravity_e (A := A)) point.gravity_e
    ∧ OnInts SameNumpy [C, C, C, C, C, C, L] (NpInt.point.gravity_n (A := A)) point.gravity_n
    ∧ OnInts SameNumpy [C, C, C, C, C, C, L] (NpInt.point.gravity_u (A := A)) point.gravity_u
    ∧ OnInts SameNumpy [C, C, C, C, C, C, L] (NpInt.point.gravity_ee (A := A)) point.gravity_ee
    ∧ OnInts SameNumpy [C, C, C, C, C, C, L] (NpInt.point.gravity_nn (A := A)) point.gravity_nn
    ∧ OnInts SameNumpy [C, C, C, C, C, C, L] (NpInt.point.gravity_uu (A := A)) point.gravity_uu
    ∧ OnInts SameNumpy [C, C, C, C, C, C, L] (NpInt.point.gravity_en (A := A)) point.gravity_en
    ∧ OnInts SameNumpy [C, C, C, C, C, C, L] (NpInt.point.gravity_eu (A := A)) point.gravity_eu
    ∧ OnInts SameNumpy [C, C, C, C, C, C, L] (NpInt.point.gravity_nu (A := A)) point.gravity_nu :=
  have h := C89_point_gravity hI hL hC h15
  have k := C147_point_gravity hA
  ⟨onInts_numpy (R := SameCall) (S := AgreesT) (T := SameNumpy) (fun _ _ _ => sameNumpy_of) [C, C, C, C, C, C, L] (f := Typed.point.gravity_pot) (k := NpInt.point.gravity_pot) h.1 k.1,
   onInts_numpy (R := SameCall) (S := AgreesT) (T := SameNumpy) (fun _ _ _ => sameNumpy_of) [C, C, C, C, C, C, L] (f := Typed.point.gravity_e) (k := NpInt.point.gravity_e) h.2.1 k.2.1,
   onInts_numpy (R := SameCall) (S := AgreesT) (T := SameNumpy) (fun _ _ _ => sameNumpy_of) [C, C, C, C, C, C, L] (f := Typed.point.gravity_n) (k := NpInt.point.gravity_n) h.2.2.1 k.2.2.1,
   onInts_numpy (R := SameCall) (S := AgreesT) (T := SameNumpy) (fun _ _ _ => sameNumpy_of) [C, C, C, C, C, C, L] (f := Typed.point.gravity_u) (k := NpInt.point.gravity_u) h.2.2.2.1 k.2.2.2.1,
   onInts_numpy (R := SameCall) (S := AgreesT) (T := SameNumpy) (fun _ _ _ => sameNumpy_of) [C, C, C, C, C, C, L] (f := Typed.point.gravity_ee) (k := NpInt.point.gravity_ee) h.2.2.2.2.1 k.2.2.2.2.1,
   onInts_numpy (R := SameCall) (S := AgreesT) (T := SameNumpy) (fun _ _ _ => sameNumpy_of) [C, C, C, C, C, C, L] (f := Typed.point.gravity_nn) (k := NpInt.point.gravity_nn) h.2.2.2.2.2.1 k.2.2.2.2.2.1,
   onInts_numpy (R := SameCall) (S := AgreesT) (T := SameNumpy) (fun _ _ _ => sameNumpy_of) [C, C, C, C, C, C, L] (f := Typed.point.gravity_uu) (k := NpInt.point.gravity_uu) h.2.2.2.2.2.2.1 k.2.2.2.2.2.2.1,
   onInts_numpy (R := SameCall) (S := AgreesT) (T := SameNumpy) (fun _ _ _ => sameNumpy_of) [C, C, C, C, C, C, L] (f := Typed.point.gravity_en) (k := NpInt.point.gravity_en) h.2.2.2.2.2.2.2.1 k.2.2.2.2.2.2.2.1,
   onInts_numpy (R := SameCall) (S := AgreesT) (T := SameNumpy) (fun _ _ _ => sameNumpy_of) [C, C, C, C, C, C, L] (f := Typed.point.gravity_eu) (k := NpInt.point.gravity_eu) h.2.2.2.2.2.2.2.2.1 k.2.2.2.2.2.2.2.2.1,
   onInts_numpy (R := SameCall) (S := AgreesT) (T := SameNumpy) (fun _ _ _ => sameNumpy_of) [C, C, C, C, C, C, L] (f := Typed.point.gravity_nu) (k := NpInt.point.gravity_nu) h.2.2.2.2.2.2.2.2.2 k.2.2.2.2.2.2.2.2.2⟩

/-- The same for the gravity of a prism. -/
theorem C147_ints_prism_gravity (hI : A.ExactInts L) (hL : L < 2 ^ 63) (hC : 12 * C ^ 2 ≤ L) (h15 : 15 ≤ L)
    (hA : ∀ n : ℤ, A.rnd n = .fin 0 ↔ n = 0) :
    OnInts SameNumpy [C, C, C, C, C, C, C, C, C, L] (NpInt.prism.gravity_pot (A := A)) prism.gravity_pot
    ∧ OnInts SameNumpy [C, C, C, C, C, C, C, C, C, L] (NpInt.prism.gravity_e (A := A)) prism.gravity_e
    ∧ OnInts SameNumpy [C, C, C, C, C, C, C, C, C, L] (NpInt.prism.gravity_n (A := A)) prism.gravity_n
    ∧ OnInts SameNumpy [C, C, C, C, C, C, C, C, C, L] (NpInt.prism.gravity_u (A := A)) prism.gravity_u
    ∧ OnInts SameNumpy [C, C, C, C, C, C, C, C, C, L] (NpInt.prism.gravity_ee (A := A)) prism.gravity_ee
    ∧ OnInts SameNumpy [C, C, C, C, C, C, C, C, C, L] (NpInt.prism.gravity_nn (A := A)) prism.gravity_nn
    ∧ OnInts SameNumpy [C, C, C, C, C, C, C, C, C, L] (NpInt.prism.gravity_uu (A := A)) prism.gravity_uu
    ∧ OnInts SameNumpy [C, C, C, C, C, C, C, C, C, L] (NpInt.prism.gravity_en (A := A)) prism.gravity_en
    ∧ OnInts SameNumpy [C, C, C, C, C, C, C, C, C, L] (NpInt.prism.gravity_eu (A := A)) prism.gravity_eu
    ∧ OnInts SameNumpy [C, C, C, C, C, C, C, C, C, L] (NpInt.prism.gravity_nu (A := A)) prism.gravity_nu :=
  have h := C89_prism_gravity hI hL hC h15
  have k := C147_prism_gravity hA
  ⟨onInts_numpy (R := SameCall) (S := AgreesT) (T := SameNumpy) (fun _ _ _ => sameNumpy_of) [C, C, C, C, C, C, C, C, C, L] (f := Typed.prism.gravity_pot) (k := NpInt.prism.gravity_pot) h.1 k.1,
   onInts_numpy (R := SameCall) (S := AgreesT) (T := SameNumpy) (fun _ _ _ => sameNumpy_of) [C, C, C, C, C, C, C, C, C, L] (f := Typed.prism.gravity_e) (k := NpInt.prism.gravity_e) h.2.1 k.2.1,
   onInts_numpy (R := SameCall) (S := AgreesT) (T := SameNumpy) (fun _ _ _ => sameNumpy_of) [C, C, C, C, C, C, C, C, C, L] (f := Typed.prism.gravity_n) (k := NpInt.prism.gravity_n) h.2.2.1 k.2.2.1,
   onInts_numpy (R := SameCall) (S := AgreesT) (T := SameNumpy) (fun _ _ _ => sameNumpy_of) [C, C, C, C, C, C, C, C, C, L] (f := Typed.prism.gravity_u) (k := NpInt.prism.gravity_u) h.2.2.2.1 k.2.2.2.1,
   onInts_numpy (R := SameCall) (S := AgreesT) (T := SameNumpy) (fun _ _ _ => sameNumpy_of) [C, C, C, C, C, C, C, C, C, L] (f := Typed.prism.gravity_ee) (k := NpInt.prism.gravity_ee) h.2.2.2.2.1 k.2.2.2.2.1,
   onInts_numpy (R := SameCall) (S := AgreesT) (T := SameNumpy) (fun _ _ _ => sameNumpy_of) [C, C, C, C, C, C, C, C, C, L] (f := Typed.prism.gravity_nn) (k := NpInt.prism.gravity_nn) h.2.2.2.2.2.1 k.2.2.2.2.2.1,
   onInts_numpy (R := SameCall) (S := AgreesT) (T := SameNumpy) (fun _ _ _ => sameNumpy_of) [C, C, C, C, C, C, C, C, C, L] (f := Typed.prism.gravity_uu) (k := NpInt.prism.gravity_uu) h.2.2.2.2.2.2.1 k.2.2.2.2.2.2.1,
   onInts_numpy (R := SameCall) (S := AgreesT) (T := SameNumpy) (fun _ _ _ => sameNumpy_of) [C, C, C, C, C, C, C, C, C, L] (f := Typed.prism.gravity_en) (k := NpInt.prism.gravity_en) h.2.2.2.2.2.2.2.1 k.2.2.2.2.2.2.2.1,
   onInts_numpy (R := SameCall) (S := AgreesT) (T := SameNumpy) (fun _ _ _ => sameNumpy_of) [C, C, C, C, C, C, C, C, C, L] (f := Typed.prism.gravity_eu) (k := NpInt.prism.gravity_eu) h.2.2.2.2.2.2.2.2.1 k.2.2.2.2.2.2.2.2.1,
   onInts_numpy (R := SameCall) (S := AgreesT) (T := SameNumpy) (fun _ _ _ => sameNumpy_of) [C, C, C, C, C, C, C, C, C, L] (f := Typed.prism.gravity_nu) (k := NpInt.prism.gravity_nu) h.2.2.2.2.2.2.2.2.2 k.2.2.2.2.2.2.2.2.2⟩

/-- The same for the magnetic field of a prism. -/
theorem C147_ints_prism_magnetic (hI : A.ExactInts L) (hL : L < 2 ^ 63) (hC : 12 * C ^ 2 ≤ L) (h15 : 15 ≤ L)
    (hA : ∀ n : ℤ, A.rnd n = .fin 0 ↔ n = 0) :
    OnInts SameNumpy3 [C, C, C, C, C, C, C, C, C, L, L, L] (NpInt.prism.magnetic_field (A := A)) prism.magnetic_field
    ∧ OnInts SameNumpy [C, C, C, C, C, C, C, C, C, L, L, L] (NpInt.prism.magnetic_e (A := A)) prism.magnetic_e
    ∧ OnInts SameNumpy [C, C, C, C, C, C, C, C, C, L, L, L] (NpInt.prism.magnetic_n (A := A)) prism.magnetic_n
    ∧ OnInts SameNumpy [C, C, C, C, C, C, C, C, C, L, L, L] (NpInt.prism.magnetic_u (A := A)) prism.magnetic_u :=
  have h := C89_prism_magnetic hI hL hC h15
  have k := C147_prism_magnetic hA
  ⟨onInts_numpy (R := SameCall3) (S := AgreesT3) (T := SameNumpy3) (fun _ _ _ => sameNumpy3_of) [C, C, C, C, C, C, C, C, C, L, L, L] (f := Typed.prism.magnetic_field) (k := NpInt.prism.magnetic_field) h.1 k.1,
   onInts_numpy (R := SameCall) (S := AgreesT) (T := SameNumpy) (fun _ _ _ => sameNumpy_of) [C, C, C, C, C, C, C, C, C, L, L, L] (f := Typed.prism.magnetic_e) (k := NpInt.prism.magnetic_e) h.2.1 k.2.1,
   onInts_numpy (R := SameCall) (S := AgreesT) (T := SameNumpy) (fun _ _ _ => sameNumpy_of) [C, C, C, C, C, C, C, C, C, L, L, L] (f := Typed.prism.magnetic_n) (k := NpInt.prism.magnetic_n) h.2.2.1 k.2.2.1,
   onInts_numpy (R := SameCall) (S := AgreesT) (T := SameNumpy) (fun _ _ _ => sameNumpy_of) [C, C, C, C, C, C, C, C, C, L, L, L] (f := Typed.prism.magnetic_u) (k := NpInt.prism.magnetic_u) h.2.2.2 k.2.2.2.1⟩

/-- The same for the magnetic gradients of a prism, for smaller integers. -/
theorem C147_ints_prism_gradients (hI : A.ExactInts L) (hL : L < 2 ^ 63) (hC : 64 * C ^ 4 ≤ L) (h15 : 15 ≤ L)
    (hA : ∀ n : ℤ, A.rnd n = .fin 0 ↔ n = 0) :
    OnInts SameNumpy [C, C, C, C, C, C, C, C, C, L, L, L] (NpInt.prism.magnetic_ee (A := A)) prism.magnetic_ee
    ∧ OnInts SameNumpy [C, C, C, C, C, C, C, C, C, L, L, L] (NpInt.prism.magnetic_nn (A := A)) prism.magnetic_nn
    ∧ OnInts SameNumpy [C, C, C, C, C, C, C, C, C, L, L, L] (NpInt.prism.magnetic_uu (A := A)) prism.magnetic_uu
    ∧ OnInts SameNumpy [C, C, C, C, C, C, C, C, C, L, L, L] (NpInt.prism.magnetic_en (A := A)) prism.magnetic_en
    ∧ OnInts SameNumpy [C, C, C, C, C, C, C, C, C, L, L, L] (NpInt.prism.magnetic_eu (A := A)) prism.magnetic_eu
    ∧ OnInts SameNumpy [C, C, C, C, C, C, C, C, C, L, L, L] (NpInt.prism.magnetic_nu (A := A)) prism.magnetic_nu :=
  have h := C89_prism_gradients hI hL hC h15
  have k := C147_prism_magnetic hA
  ⟨onInts_numpy (R := SameCall) (S := AgreesT) (T := SameNumpy) (fun _ _ _ => sameNumpy_of) [C, C, C, C, C, C, C, C, C, L, L, L] (f := Typed.prism.magnetic_ee) (k := NpInt.prism.magnetic_ee) h.1 k.2.2.2.2.1,
   onInts_numpy (R := SameCall) (S := AgreesT) (T := SameNumpy) (fun _ _ _ => sameNumpy_of) [C, C, C, C, C, C, C, C, C, L, L, L] (f := Typed.prism.magnetic_nn) (k := NpInt.prism.magnetic_nn) h.2.1 k.2.2.2.2.2.1,
   onInts_numpy (R := SameCall) (S := AgreesT) (T := SameNumpy) (fun _ _ _ => sameNumpy_of) [C, C, C, C, C, C, C, C, C, L, L, L] (f := Typed.prism.magnetic_uu) (k := NpInt.prism.magnetic_uu) h.2.2.1 k.2.2.2.2.2.2.1,
   onInts_numpy (R := SameCall) (S := AgreesT) (T := SameNumpy) (fun _ _ _ => sameNumpy_of) [C, C, C, C, C, C, C, C, C, L, L, L] (f := Typed.prism.magnetic_en) (k := NpInt.prism.magnetic_en) h.2.2.2.1 k.2.2.2.2.2.2.2.1,
   onInts_numpy (R := SameCall) (S := AgreesT) (T := SameNumpy) (fun _ _ _ => sameNumpy_of) [C, C, C, C, C, C, C, C, C, L, L, L] (f := Typed.prism.magnetic_eu) (k := NpInt.prism.magnetic_eu) h.2.2.2.2.1 k.2.2.2.2.2.2.2.2.1,
   onInts_numpy (R := SameCall) (S := AgreesT) (T := SameNumpy) (fun _ _ _ => sameNumpy_of) [C, C, C, C, C, C, C, C, C, L, L, L] (f := Typed.prism.magnetic_nu) (k := NpInt.prism.magnetic_nu) h.2.2.2.2.2 k.2.2.2.2.2.2.2.2.2⟩

/-- The same for the field of a dipole. -/
theorem C147_ints_dipole (hI : A.ExactInts L) (hL : L < 2 ^ 63) (hC : 12 * C ^ 2 ≤ L) (h15 : 15 ≤ L)
    (h36 : 36 * (M * C ^ 2) ≤ L) (hM : M ≤ L)
    (hA : ∀ n : ℤ, A.rnd n = .fin 0 ↔ n = 0) :
    OnInts SameNumpy3 [C, C, C, C, C, C, M, M, M] (NpInt.dipole.magnetic_field (A := A)) dipole.magnetic_field
    ∧ OnInts SameNumpy [C, C, C, C, C, C, M, M, M] (NpInt.dipole.magnetic_e (A := A)) dipole.magnetic_e
    ∧ OnInts SameNumpy [C, C, C, C, C, C, M, M, M] (NpInt.dipole.magnetic_n (A := A)) dipole.magnetic_n
    ∧ OnInts SameNumpy [C, C, C, C, C, C, M, M, M] (NpInt.dipole.magnetic_u (A := A)) dipole.magnetic_u :=
  have h := C89_dipole hI hL hC h15 h36 hM
  have k := C147_dipole hA
  ⟨onInts_numpy (R := SameCall3) (S := AgreesT3) (T := SameNumpy3) (fun _ _ _ => sameNumpy3_of) [C, C, C, C, C, C, M, M, M] (f := Typed.dipole.magnetic_field) (k := NpInt.dipole.magnetic_field) h.1 k.1,
   onInts_numpy (R := SameCall) (S := AgreesT) (T := SameNumpy) (fun _ _ _ => sameNumpy_of) [C, C, C, C, C, C, M, M, M] (f := Typed.dipole.magnetic_e) (k := NpInt.dipole.magnetic_e) h.2.1 k.2.1,
   onInts_numpy (R := SameCall) (S := AgreesT) (T := SameNumpy) (fun _ _ _ => sameNumpy_of) [C, C, C, C, C, C, M, M, M] (f := Typed.dipole.magnetic_n) (k := NpInt.dipole.magnetic_n) h.2.2.1 k.2.2.1,
   onInts_numpy (R := SameCall) (S := AgreesT) (T := SameNumpy) (fun _ _ _ => sameNumpy_of) [C, C, C, C, C, C, M, M, M] (f := Typed.dipole.magnetic_u) (k := NpInt.dipole.magnetic_u) h.2.2.2 k.2.2.2⟩

end

/-! ### Double precision -/

/-- In double precision: integer coordinates up to `2^24` m (16777 km; `2^11` m for the magnetic gradients). -/
theorem C147_ints_double :
    OnInts SameNumpy (List.replicate 6 (2 ^ 24) ++ [2 ^ 53]) (NpInt.point.gravity_u (A := Numba64)) point.gravity_u
    ∧ OnInts SameNumpy (List.replicate 9 (2 ^ 24) ++ [2 ^ 53]) (NpInt.prism.gravity_uu (A := Numba64)) prism.gravity_uu
    ∧ OnInts SameNumpy3 (List.replicate 9 (2 ^ 24) ++ List.replicate 3 (2 ^ 53)) (NpInt.prism.magnetic_field (A := Numba64))
        prism.magnetic_field
    ∧ OnInts SameNumpy (List.replicate 9 (2 ^ 11) ++ List.replicate 3 (2 ^ 53)) (NpInt.prism.magnetic_uu (A := Numba64))
        prism.magnetic_uu := by
  have e : Numba64.ExactInts (2 ^ 53) := C90_laws.2.2.2.2.1
  have h1 := C147_ints_point_gravity (C := 2 ^ 24) e (by norm_num) (by norm_num) (by norm_num) Numba64_ints
  have h2 := C147_ints_prism_gravity (C := 2 ^ 24) e (by norm_num) (by norm_num) (by norm_num) Numba64_ints
  have h3 := C147_ints_prism_magnetic (C := 2 ^ 24) e (by norm_num) (by norm_num) (by norm_num) Numba64_ints
  have h4 := C147_ints_prism_gradients (C := 2 ^ 11) e (by norm_num) (by norm_num) (by norm_num) Numba64_ints
  exact ⟨h1.2.2.2.1, h2.2.2.2.2.2.2.1, h3.1, h4.2.2.1⟩

/-- `C147_ints_dipole`: coordinates up to 16384 m and moments up to 262144 A m². -/
example : SameNumpy3 (NpInt.dipole.magnetic_field (A := Numba64) (.int 0) (.int 100) (.int 10) (.int 3) (.int (-5000)) (.int (-70))
      (.int 1000) (.int (-20)) (.flt 3))
    (dipole.magnetic_field (TFl.int 0).toFl (TFl.int 100).toFl (TFl.int 10).toFl (TFl.int 3).toFl (TFl.int (-5000)).toFl
      (TFl.int (-70)).toFl (TFl.int 1000).toFl (TFl.int (-20)).toFl 3) :=
  (C147_ints_dipole (C := 2 ^ 14) (M := 2 ^ 18) C90_laws.2.2.2.2.1 (by norm_num) (by norm_num) (by norm_num) (by norm_num)
    (by norm_num) Numba64_ints).1 _ (by norm_num [UpTo]) _ (by norm_num [UpTo]) _ (by norm_num [UpTo]) _ (by norm_num [UpTo]) _
    (by norm_num [UpTo]) _ (by norm_num [UpTo]) _ (by norm_num [UpTo]) _ (by norm_num [UpTo]) _ (by norm_num [UpTo])

/-- `C147_finite`: the hypothesis is what the theorems above provide. -/
example (a b c d e f m : TFl Numba64) : ∃ w, NpInt.point.gravity_pot a b c d e f m = .ok w
    ∧ (w.IsNumber → Typed.point.gravity_pot a b c d e f m = .ok w) :=
  C147_finite (n := 7) (C147_point_gravity Numba64_ints).1 a b c d e f m

/-! ### Overflow -/

/-- The wrong results of `C89_overflow_point` and `C89_overflow` appear in interpreted calls too.  `point.kernel_eee` has the wrong
sign for a displacement of 2^21 m given as an int64, and `prism.magnetic_ee` of the prism between 1 m and 65536 m, which returns a
number for floats, returns infinity or NaN for int64 coordinates. -/
theorem C147_overflow (Me Mn Mu : ℝ) :
    (point.kernel_eee (A := Exact) 2097152 0 0 0 0 0 2097152 = .ok (Fl.fin (-6 / 2 ^ 84))
    ∧ NpInt.point.kernel_eee (A := Exact) (.int 2097152) (.int 0) (.int 0) (.int 0) (.int 0) (.int 0) (.flt 2097152)
      = .ok (.flt (Fl.fin (10 / 2 ^ 84))))
    ∧ (∃ v : ℝ, Returns (onPrism (A := Exact) prism.magnetic_ee (0, 0, 0) bigPrism Me Mn Mu) v)
    ∧ (∃ w, NpInt.prism.magnetic_ee (A := Exact) (.int 0) (.int 0) (.int 0) (.int 1) (.int 65536) (.int 1) (.int 65536)
        (.int 1) (.int 65536) (.flt Me) (.flt Mn) (.flt Mu) = .ok w ∧ ¬w.IsNumber)
    ∧ (∃ w, NpInt.prism.magnetic_ee (A := Binary64) (.int 0) (.int 0) (.int 0) (.int 1) (.int 65536) (.int 1) (.int 65536)
        (.int 1) (.int 65536) (.flt Me) (.flt Mn) (.flt Mu) = .ok w ∧ ¬w.IsNumber) := by
  obtain ⟨p1, p2⟩ := C89_overflow_point
  obtain ⟨q1, q2, q3⟩ := C89_overflow Me Mn Mu
  have k := (C147_point_kernels Exact_ints).2.2.2.2.2.2.2.2.2.2.1 (.int 2097152) (.int 0) (.int 0) (.int 0) (.int 0) (.int 0) (.flt 2097152)
  rw [p2] at k
  have k1 := (C147_prism_magnetic Exact_ints).2.2.2.2.1 (.int 0) (.int 0) (.int 0) (.int 1) (.int 65536) (.int 1) (.int 65536)
    (.int 1) (.int 65536) (.flt Me) (.flt Mn) (.flt Mu)
  rw [q2] at k1
  have k2 := (C147_prism_magnetic Binary64_ints).2.2.2.2.1 (.int 0) (.int 0) (.int 0) (.int 1) (.int 65536) (.int 1) (.int 65536)
    (.int 1) (.int 65536) (.flt Me) (.flt Mn) (.flt Mu)
  rw [q3] at k2
  exact ⟨⟨p1, k⟩, q1, k1, k2⟩

end Choclo
