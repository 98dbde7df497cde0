import Verif.Lemmas.Interp
import Verif.Props.Signed
import Verif.Model.Binary64

/-! # Running without Numba (C100)

With `NUMBA_DISABLE_JIT=1` (`/repo/Makefile:30`) the same functions are run by the Python interpreter on NumPy
scalars, where a division by zero does not raise.  Whatever the arguments: a call that returns when compiled
returns the very same number when interpreted; a call that raises when compiled returns infinity or NaN when
interpreted.  Hence a finite number returned by an interpreted call is also the result of the compiled call. -/

namespace Choclo

variable {A : Arith}

theorem agrees_of_ag {x y : Py (SFl A)} (h : Ag x y) : Agrees x y := by
  cases x with
  | ok v => exact h
  | error e => exact h

theorem agrees3_of_ag {x y : Py (SFl A × SFl A × SFl A)} (h : Ag x y) : Agrees3 x y := by
  cases x with
  | ok v => exact h
  | error e => exact h

theorem agrees1_4 {f g : Args (SFl A) (Py (SFl A)) 4} (h : ∀ a0 a1 a2 a3, Ag (f a0 a1 a2 a3) (g a0 a1 a2 a3)) : AgreesAtAll 4 f g :=
  fun a0 a1 a2 a3 => agrees_of_ag (h a0 a1 a2 a3)

theorem agrees1_6 {f g : Args (SFl A) (Py (SFl A)) 6} (h : ∀ a0 a1 a2 a3 a4 a5, Ag (f a0 a1 a2 a3 a4 a5) (g a0 a1 a2 a3 a4 a5)) : AgreesAtAll 6 f g :=
  fun a0 a1 a2 a3 a4 a5 => agrees_of_ag (h a0 a1 a2 a3 a4 a5)

theorem agrees1_7 {f g : Args (SFl A) (Py (SFl A)) 7} (h : ∀ a0 a1 a2 a3 a4 a5 a6, Ag (f a0 a1 a2 a3 a4 a5 a6) (g a0 a1 a2 a3 a4 a5 a6)) : AgreesAtAll 7 f g :=
  fun a0 a1 a2 a3 a4 a5 a6 => agrees_of_ag (h a0 a1 a2 a3 a4 a5 a6)

theorem agrees1_9 {f g : Args (SFl A) (Py (SFl A)) 9} (h : ∀ a0 a1 a2 a3 a4 a5 a6 a7 a8, Ag (f a0 a1 a2 a3 a4 a5 a6 a7 a8) (g a0 a1 a2 a3 a4 a5 a6 a7 a8)) : AgreesAtAll 9 f g :=
  fun a0 a1 a2 a3 a4 a5 a6 a7 a8 => agrees_of_ag (h a0 a1 a2 a3 a4 a5 a6 a7 a8)

theorem agrees1_10 {f g : Args (SFl A) (Py (SFl A)) 10} (h : ∀ a0 a1 a2 a3 a4 a5 a6 a7 a8 a9, Ag (f a0 a1 a2 a3 a4 a5 a6 a7 a8 a9) (g a0 a1 a2 a3 a4 a5 a6 a7 a8 a9)) : AgreesAtAll 10 f g :=
  fun a0 a1 a2 a3 a4 a5 a6 a7 a8 a9 => agrees_of_ag (h a0 a1 a2 a3 a4 a5 a6 a7 a8 a9)

theorem agrees1_12 {f g : Args (SFl A) (Py (SFl A)) 12} (h : ∀ a0 a1 a2 a3 a4 a5 a6 a7 a8 a9 a10 a11, Ag (f a0 a1 a2 a3 a4 a5 a6 a7 a8 a9 a10 a11) (g a0 a1 a2 a3 a4 a5 a6 a7 a8 a9 a10 a11)) : AgreesAtAll 12 f g :=
  fun a0 a1 a2 a3 a4 a5 a6 a7 a8 a9 a10 a11 => agrees_of_ag (h a0 a1 a2 a3 a4 a5 a6 a7 a8 a9 a10 a11)

theorem agrees3_8 {f g : Args (SFl A) (Py (SFl A × SFl A × SFl A)) 8} (h : ∀ a0 a1 a2 a3 a4 a5 a6 a7, Ag (f a0 a1 a2 a3 a4 a5 a6 a7) (g a0 a1 a2 a3 a4 a5 a6 a7)) : AgreesAtAll3 8 f g :=
  fun a0 a1 a2 a3 a4 a5 a6 a7 => agrees3_of_ag (h a0 a1 a2 a3 a4 a5 a6 a7)

theorem agrees3_9 {f g : Args (SFl A) (Py (SFl A × SFl A × SFl A)) 9} (h : ∀ a0 a1 a2 a3 a4 a5 a6 a7 a8, Ag (f a0 a1 a2 a3 a4 a5 a6 a7 a8) (g a0 a1 a2 a3 a4 a5 a6 a7 a8)) : AgreesAtAll3 9 f g :=
  fun a0 a1 a2 a3 a4 a5 a6 a7 a8 => agrees3_of_ag (h a0 a1 a2 a3 a4 a5 a6 a7 a8)

theorem agrees3_12 {f g : Args (SFl A) (Py (SFl A × SFl A × SFl A)) 12} (h : ∀ a0 a1 a2 a3 a4 a5 a6 a7 a8 a9 a10 a11, Ag (f a0 a1 a2 a3 a4 a5 a6 a7 a8 a9 a10 a11) (g a0 a1 a2 a3 a4 a5 a6 a7 a8 a9 a10 a11)) : AgreesAtAll3 12 f g :=
  fun a0 a1 a2 a3 a4 a5 a6 a7 a8 a9 a10 a11 => agrees3_of_ag (h a0 a1 a2 a3 a4 a5 a6 a7 a8 a9 a10 a11)

/-- distances -/
theorem C100_utils :
    AgreesAtAll 6 (Signed.utils.distance_cartesian (A := A)) Interp.utils.distance_cartesian
    ∧ AgreesAtAll3 8 (Signed.utils.distance_spherical_core (A := A)) Interp.utils.distance_spherical_core
    ∧ AgreesAtAll 6 (Signed.utils.distance_spherical (A := A)) Interp.utils.distance_spherical :=
  ⟨agrees1_6 Interp.utils.ag_distance_cartesian, agrees3_8 Interp.utils.ag_distance_spherical_core, agrees1_6 Interp.utils.ag_distance_spherical⟩

/-- point kernels -/
theorem C100_point_kernels :
    AgreesAtAll 7 (Signed.point.kernel_pot (A := A)) Interp.point.kernel_pot
    ∧ AgreesAtAll 7 (Signed.point.kernel_e (A := A)) Interp.point.kernel_e
    ∧ AgreesAtAll 7 (Signed.point.kernel_n (A := A)) Interp.point.kernel_n
    ∧ AgreesAtAll 7 (Signed.point.kernel_u (A := A)) Interp.point.kernel_u
    ∧ AgreesAtAll 7 (Signed.point.kernel_ee (A := A)) Interp.point.kernel_ee
    ∧ AgreesAtAll 7 (Signed.point.kernel_nn (A := A)) Interp.point.kernel_nn
    ∧ AgreesAtAll 7 (Signed.point.kernel_uu (A := A)) Interp.point.kernel_uu
    ∧ AgreesAtAll 7 (Signed.point.kernel_en (A := A)) Interp.point.kernel_en
    ∧ AgreesAtAll 7 (Signed.point.kernel_eu (A := A)) Interp.point.kernel_eu
    ∧ AgreesAtAll 7 (Signed.point.kernel_nu (A := A)) Interp.point.kernel_nu
    ∧ AgreesAtAll 7 (Signed.point.kernel_eee (A := A)) Interp.point.kernel_eee
    ∧ AgreesAtAll 7 (Signed.point.kernel_nnn (A := A)) Interp.point.kernel_nnn
    ∧ AgreesAtAll 7 (Signed.point.kernel_uuu (A := A)) Interp.point.kernel_uuu
    ∧ AgreesAtAll 7 (Signed.point.kernel_een (A := A)) Interp.point.kernel_een
    ∧ AgreesAtAll 7 (Signed.point.kernel_eeu (A := A)) Interp.point.kernel_eeu
    ∧ AgreesAtAll 7 (Signed.point.kernel_nne (A := A)) Interp.point.kernel_nne
    ∧ AgreesAtAll 7 (Signed.point.kernel_nnu (A := A)) Interp.point.kernel_nnu
    ∧ AgreesAtAll 7 (Signed.point.kernel_uue (A := A)) Interp.point.kernel_uue
    ∧ AgreesAtAll 7 (Signed.point.kernel_uun (A := A)) Interp.point.kernel_uun
    ∧ AgreesAtAll 7 (Signed.point.kernel_enu (A := A)) Interp.point.kernel_enu :=
  ⟨agrees1_7 Interp.point.ag_kernel_pot, agrees1_7 Interp.point.ag_kernel_e, agrees1_7 Interp.point.ag_kernel_n, agrees1_7 Interp.point.ag_kernel_u, agrees1_7 Interp.point.ag_kernel_ee, agrees1_7 Interp.point.ag_kernel_nn, agrees1_7 Interp.point.ag_kernel_uu, agrees1_7 Interp.point.ag_kernel_en, agrees1_7 Interp.point.ag_kernel_eu, agrees1_7 Interp.point.ag_kernel_nu, agrees1_7 Interp.point.ag_kernel_eee, agrees1_7 Interp.point.ag_kernel_nnn, agrees1_7 Interp.point.ag_kernel_uuu, agrees1_7 Interp.point.ag_kernel_een, agrees1_7 Interp.point.ag_kernel_eeu, agrees1_7 Interp.point.ag_kernel_nne, agrees1_7 Interp.point.ag_kernel_nnu, agrees1_7 Interp.point.ag_kernel_uue, agrees1_7 Interp.point.ag_kernel_uun, agrees1_7 Interp.point.ag_kernel_enu⟩

/-- gravity of a point mass -/
theorem C100_point_gravity :
    AgreesAtAll 7 (Signed.point.gravity_pot (A := A)) Interp.point.gravity_pot
    ∧ AgreesAtAll 7 (Signed.point.gravity_e (A := A)) Interp.point.gravity_e
    ∧ AgreesAtAll 7 (Signed.point.gravity_n (A := A)) Interp.point.gravity_n
    ∧ AgreesAtAll 7 (Signed.point.gravity_u (A := A)) Interp.point.gravity_u
    ∧ AgreesAtAll 7 (Signed.point.gravity_ee (A := A)) Interp.point.gravity_ee
    ∧ AgreesAtAll 7 (Signed.point.gravity_nn (A := A)) Interp.point.gravity_nn
    ∧ AgreesAtAll 7 (Signed.point.gravity_uu (A := A)) Interp.point.gravity_uu
    ∧ AgreesAtAll 7 (Signed.point.gravity_en (A := A)) Interp.point.gravity_en
    ∧ AgreesAtAll 7 (Signed.point.gravity_eu (A := A)) Interp.point.gravity_eu
    ∧ AgreesAtAll 7 (Signed.point.gravity_nu (A := A)) Interp.point.gravity_nu :=
  ⟨agrees1_7 Interp.point.ag_gravity_pot, agrees1_7 Interp.point.ag_gravity_e, agrees1_7 Interp.point.ag_gravity_n, agrees1_7 Interp.point.ag_gravity_u, agrees1_7 Interp.point.ag_gravity_ee, agrees1_7 Interp.point.ag_gravity_nn, agrees1_7 Interp.point.ag_gravity_uu, agrees1_7 Interp.point.ag_gravity_en, agrees1_7 Interp.point.ag_gravity_eu, agrees1_7 Interp.point.ag_gravity_nu⟩

/-- magnetic field of a dipole -/
theorem C100_dipole :
    AgreesAtAll3 9 (Signed.dipole.magnetic_field (A := A)) Interp.dipole.magnetic_field
    ∧ AgreesAtAll 9 (Signed.dipole.magnetic_e (A := A)) Interp.dipole.magnetic_e
    ∧ AgreesAtAll 9 (Signed.dipole.magnetic_n (A := A)) Interp.dipole.magnetic_n
    ∧ AgreesAtAll 9 (Signed.dipole.magnetic_u (A := A)) Interp.dipole.magnetic_u :=
  ⟨agrees3_9 Interp.dipole.ag_magnetic_field, agrees1_9 Interp.dipole.ag_magnetic_e, agrees1_9 Interp.dipole.ag_magnetic_n, agrees1_9 Interp.dipole.ag_magnetic_u⟩

/-- prism kernels -/
theorem C100_prism_kernels :
    AgreesAtAll 4 (Signed.prism.kernel_pot (A := A)) Interp.prism.kernel_pot
    ∧ AgreesAtAll 4 (Signed.prism.kernel_e (A := A)) Interp.prism.kernel_e
    ∧ AgreesAtAll 4 (Signed.prism.kernel_n (A := A)) Interp.prism.kernel_n
    ∧ AgreesAtAll 4 (Signed.prism.kernel_u (A := A)) Interp.prism.kernel_u
    ∧ AgreesAtAll 4 (Signed.prism.kernel_ee (A := A)) Interp.prism.kernel_ee
    ∧ AgreesAtAll 4 (Signed.prism.kernel_nn (A := A)) Interp.prism.kernel_nn
    ∧ AgreesAtAll 4 (Signed.prism.kernel_uu (A := A)) Interp.prism.kernel_uu
    ∧ AgreesAtAll 4 (Signed.prism.kernel_en (A := A)) Interp.prism.kernel_en
    ∧ AgreesAtAll 4 (Signed.prism.kernel_eu (A := A)) Interp.prism.kernel_eu
    ∧ AgreesAtAll 4 (Signed.prism.kernel_nu (A := A)) Interp.prism.kernel_nu
    ∧ AgreesAtAll 4 (Signed.prism.kernel_eee (A := A)) Interp.prism.kernel_eee
    ∧ AgreesAtAll 4 (Signed.prism.kernel_nnn (A := A)) Interp.prism.kernel_nnn
    ∧ AgreesAtAll 4 (Signed.prism.kernel_uuu (A := A)) Interp.prism.kernel_uuu
    ∧ AgreesAtAll 4 (Signed.prism.kernel_een (A := A)) Interp.prism.kernel_een
    ∧ AgreesAtAll 4 (Signed.prism.kernel_eeu (A := A)) Interp.prism.kernel_eeu
    ∧ AgreesAtAll 4 (Signed.prism.kernel_enn (A := A)) Interp.prism.kernel_enn
    ∧ AgreesAtAll 4 (Signed.prism.kernel_nnu (A := A)) Interp.prism.kernel_nnu
    ∧ AgreesAtAll 4 (Signed.prism.kernel_euu (A := A)) Interp.prism.kernel_euu
    ∧ AgreesAtAll 4 (Signed.prism.kernel_nuu (A := A)) Interp.prism.kernel_nuu
    ∧ AgreesAtAll 4 (Signed.prism.kernel_enu (A := A)) Interp.prism.kernel_enu :=
  ⟨agrees1_4 Interp.prism.ag_kernel_pot, agrees1_4 Interp.prism.ag_kernel_e, agrees1_4 Interp.prism.ag_kernel_n, agrees1_4 Interp.prism.ag_kernel_u, agrees1_4 Interp.prism.ag_kernel_ee, agrees1_4 Interp.prism.ag_kernel_nn, agrees1_4 Interp.prism.ag_kernel_uu, agrees1_4 Interp.prism.ag_kernel_en, agrees1_4 Interp.prism.ag_kernel_eu, agrees1_4 Interp.prism.ag_kernel_nu, agrees1_4 Interp.prism.ag_kernel_eee, agrees1_4 Interp.prism.ag_kernel_nnn, agrees1_4 Interp.prism.ag_kernel_uuu, agrees1_4 Interp.prism.ag_kernel_een, agrees1_4 Interp.prism.ag_kernel_eeu, agrees1_4 Interp.prism.ag_kernel_enn, agrees1_4 Interp.prism.ag_kernel_nnu, agrees1_4 Interp.prism.ag_kernel_euu, agrees1_4 Interp.prism.ag_kernel_nuu, agrees1_4 Interp.prism.ag_kernel_enu⟩

/-- gravity of a prism -/
theorem C100_prism_gravity :
    AgreesAtAll 10 (Signed.prism.gravity_pot (A := A)) Interp.prism.gravity_pot
    ∧ AgreesAtAll 10 (Signed.prism.gravity_e (A := A)) Interp.prism.gravity_e
    ∧ AgreesAtAll 10 (Signed.prism.gravity_n (A := A)) Interp.prism.gravity_n
    ∧ AgreesAtAll 10 (Signed.prism.gravity_u (A := A)) Interp.prism.gravity_u
    ∧ AgreesAtAll 10 (Signed.prism.gravity_ee (A := A)) Interp.prism.gravity_ee
    ∧ AgreesAtAll 10 (Signed.prism.gravity_nn (A := A)) Interp.prism.gravity_nn
    ∧ AgreesAtAll 10 (Signed.prism.gravity_uu (A := A)) Interp.prism.gravity_uu
    ∧ AgreesAtAll 10 (Signed.prism.gravity_en (A := A)) Interp.prism.gravity_en
    ∧ AgreesAtAll 10 (Signed.prism.gravity_eu (A := A)) Interp.prism.gravity_eu
    ∧ AgreesAtAll 10 (Signed.prism.gravity_nu (A := A)) Interp.prism.gravity_nu :=
  ⟨agrees1_10 Interp.prism.ag_gravity_pot, agrees1_10 Interp.prism.ag_gravity_e, agrees1_10 Interp.prism.ag_gravity_n, agrees1_10 Interp.prism.ag_gravity_u, agrees1_10 Interp.prism.ag_gravity_ee, agrees1_10 Interp.prism.ag_gravity_nn, agrees1_10 Interp.prism.ag_gravity_uu, agrees1_10 Interp.prism.ag_gravity_en, agrees1_10 Interp.prism.ag_gravity_eu, agrees1_10 Interp.prism.ag_gravity_nu⟩

/-- magnetic field and gradient of a prism -/
theorem C100_prism_magnetic :
    AgreesAtAll3 12 (Signed.prism.magnetic_field (A := A)) Interp.prism.magnetic_field
    ∧ AgreesAtAll 12 (Signed.prism.magnetic_e (A := A)) Interp.prism.magnetic_e
    ∧ AgreesAtAll 12 (Signed.prism.magnetic_n (A := A)) Interp.prism.magnetic_n
    ∧ AgreesAtAll 12 (Signed.prism.magnetic_u (A := A)) Interp.prism.magnetic_u
    ∧ AgreesAtAll 12 (Signed.prism.magnetic_ee (A := A)) Interp.prism.magnetic_ee
    ∧ AgreesAtAll 12 (Signed.prism.magnetic_nn (A := A)) Interp.prism.magnetic_nn
    ∧ AgreesAtAll 12 (Signed.prism.magnetic_uu (A := A)) Interp.prism.magnetic_uu
    ∧ AgreesAtAll 12 (Signed.prism.magnetic_en (A := A)) Interp.prism.magnetic_en
    ∧ AgreesAtAll 12 (Signed.prism.magnetic_eu (A := A)) Interp.prism.magnetic_eu
    ∧ AgreesAtAll 12 (Signed.prism.magnetic_nu (A := A)) Interp.prism.magnetic_nu :=
  ⟨agrees3_12 Interp.prism.ag_magnetic_field, agrees1_12 Interp.prism.ag_magnetic_e, agrees1_12 Interp.prism.ag_magnetic_n, agrees1_12 Interp.prism.ag_magnetic_u, agrees1_12 Interp.prism.ag_magnetic_ee, agrees1_12 Interp.prism.ag_magnetic_nn, agrees1_12 Interp.prism.ag_magnetic_uu, agrees1_12 Interp.prism.ag_magnetic_en, agrees1_12 Interp.prism.ag_magnetic_eu, agrees1_12 Interp.prism.ag_magnetic_nu⟩

/-! ### What agreement means for the caller -/

theorem AtAll.imp {α : Type} {R S : α → α → Prop} (h : ∀ x y, R x y → S x y) :
    ∀ (n : ℕ) {f g : Args (SFl A) α n}, AtAll R n f g → AtAll S n f g
  | 0, _, _, hf => h _ _ hf
  | _ + 1, _, _, hf => fun a => AtAll.imp h _ (hf a)

/-- An interpreted call never raises, and if it returns a finite number then the compiled call returns the
same number. -/
theorem C100_finite {n : ℕ} {f g : Args (SFl A) (Py (SFl A)) n} (h : AgreesAtAll n f g) :
    AtAll (fun compiled interpreted => ∃ w, interpreted = .ok w ∧ (w.IsNumber → compiled = .ok w)) n f g :=
  AtAll.imp (fun x y hxy => by
    cases x with
    | ok v => exact ⟨v, hxy, fun _ => rfl⟩
    | error e =>
      obtain ⟨w, hw, hb⟩ := hxy
      exact ⟨w, hw, fun h => absurd h hb⟩) n h

/-! ### The coincident point -/

/-- `0` and `0 ** n` are computed exactly. -/
structure Arith.ExactZero (A : Arith) : Prop where
  rnd_zero : A.rnd 0 = .fin 0
  pow_zero : ∀ n : ℕ, n ≠ 0 → A.pow 0 n = .fin 0

theorem exact_exactZero : Exact.ExactZero := ⟨rfl, fun _ hn => congrArg Raw.fin (zero_pow hn)⟩

theorem binary64_exactZero : Binary64.ExactZero := ⟨Binary64_accurate.rnd_zero, Binary64_accurate.pow_zero⟩

namespace SFl

/-- a zero of some sign -/
def IsZero (a : SFl A) : Prop := ∃ s, a = SRaw.zero s

theorem ofRaw_fin_zero (s : Bool) : (ofRaw s (.fin 0) : SFl A) = SRaw.zero s := dif_pos rfl

theorem sub_self_zero (hA : A.ExactZero) {a : SFl A} (h : a.IsNumber) : a - a = szero false := by
  rcases h with ⟨s, rfl⟩ | ⟨x, hx, rfl⟩
  · show ofRaw (s && !s) (A.rnd (0 + 0)) = _
    rw [add_zero, hA.rnd_zero, Bool.and_not_self]
    exact ofRaw_fin_zero _
  · show ofRaw (decide (x + -x < 0)) (A.rnd (x + -x)) = _
    rw [add_neg_cancel, hA.rnd_zero, decide_eq_false (lt_irrefl _)]
    exact ofRaw_fin_zero _

theorem pow_zero' (hA : A.ExactZero) {n : ℕ} (hn : n ≠ 0) : ((szero false : SFl A) ^ n : SFl A) = szero false := by
  show ofRaw (false && _) (A.pow 0 n) = _
  rw [hA.pow_zero n hn]
  exact ofRaw_fin_zero _

theorem add_zero' (hA : A.ExactZero) (s t : Bool) : ((szero s : SFl A) + (szero t : SFl A) : SFl A) = szero (s && t) := by
  show ofRaw (s && t) (A.rnd (0 + 0)) = _
  rw [add_zero, hA.rnd_zero]
  exact ofRaw_fin_zero _

theorem sqrt_zero' (hA : A.ExactZero) : sqrt (szero false : SFl A) = szero false := by
  show ofRaw false (A.rnd (Real.sqrt 0)) = _
  rw [Real.sqrt_zero, hA.rnd_zero]
  exact ofRaw_fin_zero _

theorem isZero_mul (hA : A.ExactZero) {a b : SFl A} (ha : a.IsNumber) (hb : b.IsZero) : (a * b).IsZero := by
  obtain ⟨t, rfl⟩ := hb
  rcases ha with ⟨s, rfl⟩ | ⟨x, hx, rfl⟩
  · refine ⟨xor s t, ?_⟩
    show ofRaw (xor s t) (A.rnd (0 * 0)) = _
    rw [mul_zero, hA.rnd_zero]
    exact ofRaw_fin_zero _
  · refine ⟨xor (decide (x < 0)) t, ?_⟩
    show ofRaw _ (A.rnd (x * 0)) = _
    rw [mul_zero, hA.rnd_zero]
    exact ofRaw_fin_zero _

theorem IsZero.number {a : SFl A} (h : a.IsZero) : a.IsNumber := .inl h

theorem isZero_add (hA : A.ExactZero) {a b : SFl A} (ha : a.IsZero) (hb : b.IsZero) : (a + b).IsZero := by
  obtain ⟨s, rfl⟩ := ha
  obtain ⟨t, rfl⟩ := hb
  exact ⟨_, add_zero' hA s t⟩

theorem isZero_neg {a : SFl A} (ha : a.IsZero) : (-a).IsZero := by
  obtain ⟨s, rfl⟩ := ha
  exact ⟨!s, rfl⟩

theorem number_three : (3 : SFl A).IsNumber :=
  .inr ⟨((3 : ℕ) : ℝ), by norm_num, dif_neg (by norm_num)⟩

theorem interpDiv_zero_zero {a b : SFl A} (ha : a.IsZero) (hb : b.IsZero) : (a /∞ b) = .ok nan := by
  obtain ⟨s, rfl⟩ := ha
  obtain ⟨t, rfl⟩ := hb
  rfl

theorem nan_sub (a : SFl A) : (nan - a : SFl A) = nan := rfl

theorem mul_nan (a : SFl A) : (a * nan : SFl A) = nan := by cases a <;> rfl

end SFl

open SFl

theorem interp_distance_self (hA : A.ExactZero) {x y z : SFl A} (hx : x.IsNumber) (hy : y.IsNumber) (hz : z.IsNumber) :
    Interp.utils.distance_cartesian x y z x y z = .ok (szero false : SFl A) := by
  show Except.ok (SFl.sqrt ((x - x) ^ 2 + (y - y) ^ 2 + (z - z) ^ 2)) = _
  rw [sub_self_zero hA hx, sub_self_zero hA hy, sub_self_zero hA hz, pow_zero' hA two_ne_zero, add_zero' hA,
    Bool.and_self, add_zero' hA, Bool.and_self, sqrt_zero' hA]

/-- The interpreted potential at the point mass itself is infinite, with the sign of the mass, unless the
product of the gravitational constant and the mass underflows or overflows.
(`/repo/test/test_point_gravity.py:149-161`.) -/
theorem C100_coincident_pot {u lo hi : ℝ} (hA : A.Accurate u lo hi) {x y z : SFl A} (hx : x.IsNumber) (hy : y.IsNumber)
    (hz : z.IsNumber) {m : ℝ} (hG : lo ≤ 6.6743e-11) (hG' : (6.6743e-11 : ℝ) ≤ hi) (hm : 2 * lo ≤ 6.6743e-11 * |m|)
    (hm' : 2 * (6.6743e-11 * |m|) ≤ hi) :
    Interp.point.gravity_pot x y z x y z (SFl.fin m) = .ok (SFl.inf (decide (m < 0)) : SFl A) := by
  have hE : A.ExactZero := ⟨hA.rnd_zero, hA.pow_zero⟩
  show (do
    let d ← Interp.utils.distance_cartesian x y z x y z
    let k ← Interp.point.kernel_pot x y z x y z d
    return Signed.GRAVITATIONAL_CONST * SFl.fin m * k : Py (SFl A)) = _
  rw [interp_distance_self hE hx hy hz]
  have h1 : Interp.point.kernel_pot x y z x y z (szero false : SFl A) = .ok (SFl.inf false : SFl A) := by
    have h1 : (1 : SFl A) = SRaw.num ((1 : ℕ) : ℝ) (by norm_num) := dif_neg (by norm_num)
    show ((1 : SFl A) /∞ szero false) = _
    rw [h1]
    show Except.ok (SFl.inf (xor (decide (((1 : ℕ) : ℝ) < 0)) false) : SFl A) = _
    rw [decide_eq_false (by norm_num), Bool.xor_false]
  show (do
    let k ← Interp.point.kernel_pot x y z x y z (szero false : SFl A)
    return Signed.GRAVITATIONAL_CONST * SFl.fin m * k : Py (SFl A)) = _
  rw [h1]
  show Except.ok (Signed.GRAVITATIONAL_CONST * SFl.fin m * (SFl.inf false : SFl A) : SFl A) = _
  congr 1
  have hu := hA.u_small
  have hl := hA.lo_pos
  have hm0 : m ≠ 0 := by
    rintro rfl
    rw [abs_zero, mul_zero] at hm
    linarith
  have hGa : |(6.6743e-11 : ℝ)| = 6.6743e-11 := abs_of_pos (by norm_num)
  obtain ⟨d, hd, eG⟩ := hA.rnd_rel 6.6743e-11 (by rw [hGa]; exact hG) (by rw [hGa]; exact hG')
  obtain ⟨d1, d2⟩ := abs_le.1 hd
  have hd0 : 0 < 1 + d := by linarith
  have hg : (0 : ℝ) < 6.6743e-11 * (1 + d) := by positivity
  have eG' : (Signed.GRAVITATIONAL_CONST : SFl A) = SRaw.num (6.6743e-11 * (1 + d)) hg.ne' := by
    show ofRaw _ (A.rnd 6.6743e-11) = _
    rw [eG]
    exact dif_neg hg.ne'
  have habs : |6.6743e-11 * (1 + d) * m| = 6.6743e-11 * |m| * (1 + d) := by
    rw [abs_mul, abs_of_pos hg]; ring
  have hM : 0 < 6.6743e-11 * |m| := by positivity
  generalize 6.6743e-11 * |m| = M at *
  obtain ⟨f, hf, eP⟩ := hA.rnd_rel (6.6743e-11 * (1 + d) * m) (by rw [habs]; nlinarith) (by rw [habs]; nlinarith)
  obtain ⟨f1, f2⟩ := abs_le.1 hf
  have hf0 : 0 < 1 + f := by linarith
  have hw : 6.6743e-11 * (1 + d) * m * (1 + f) ≠ 0 := mul_ne_zero (mul_ne_zero hg.ne' hm0) hf0.ne'
  have eP' : (Signed.GRAVITATIONAL_CONST * SFl.fin m : SFl A) = SRaw.num _ hw := by
    rw [eG', SFl.fin_num hm0]
    show ofRaw _ (A.rnd (6.6743e-11 * (1 + d) * m)) = _
    rw [eP]
    exact dif_neg hw
  rw [eP']
  show (if 0 < 6.6743e-11 * (1 + d) * m * (1 + f) then SFl.inf false else SFl.inf (!false) : SFl A) = _
  have hs : 0 < 6.6743e-11 * (1 + d) * m * (1 + f) ↔ 0 < m := by
    rw [mul_pos_iff_of_pos_right hf0, mul_pos_iff_of_pos_left hg]
  rcases lt_or_gt_of_ne hm0 with h | h
  · rw [if_neg (by rw [hs]; exact h.not_gt), decide_eq_true h]; rfl
  · rw [if_pos (hs.2 h), decide_eq_false h.not_gt]

/-- With double precision: any finite position, any mass of a size between 1e-300 and 1e300. -/
theorem C100_coincident_pot_double {x y z : SFl Binary64} (hx : x.IsNumber) (hy : y.IsNumber) (hz : z.IsNumber)
    {m : ℝ} (hm : (2 : ℝ) ^ (-980 : ℤ) ≤ |m|) (hm' : |m| ≤ (2 : ℝ) ^ (1000 : ℤ)) :
    Interp.point.gravity_pot x y z x y z (SFl.fin m) = .ok (SFl.inf (decide (m < 0)) : SFl Binary64) := by
  have e1 : (2 : ℝ) ^ (-1022 : ℤ) = 2 ^ (-980 : ℤ) * 2 ^ (-42 : ℤ) := by rw [← zpow_add₀ two_ne_zero]; norm_num
  have e2 : (2 : ℝ) ^ (1023 : ℤ) = 2 ^ (1000 : ℤ) * 2 ^ (23 : ℤ) := by rw [← zpow_add₀ two_ne_zero]; norm_num
  have l1 : (2 : ℝ) ^ (-980 : ℤ) ≤ 1 := zpow_le_one_of_nonpos₀ one_le_two (by norm_num)
  have l2 : (1 : ℝ) ≤ 2 ^ (1000 : ℤ) := one_le_zpow₀ one_le_two (by norm_num)
  have p1 : (0 : ℝ) < 2 ^ (-980 : ℤ) := by positivity
  have hA := Binary64_accurate
  rw [e1, e2] at hA
  clear e1 e2
  generalize (2 : ℝ) ^ (-980 : ℤ) = a at *
  generalize (2 : ℝ) ^ (1000 : ℤ) = b at *
  refine C100_coincident_pot hA hx hy hz ?_ ?_ ?_ ?_ <;> norm_num <;> linarith

theorem coincident_nan {d : Py (SFl A)} {d₀ g : SFl A} {K : SFl A → Py (SFl A)} (hd : d = .ok d₀) (hk : K d₀ = .ok SFl.nan) :
    (do
      let distance ← d
      let kernel ← K distance
      return g * kernel : Py (SFl A)) = .ok SFl.nan := by
  subst hd
  show (K d₀ >>= _) = _
  rw [hk]
  exact congrArg Except.ok (mul_nan g)

/-- All other components at the point mass itself are NaN. -/
theorem C100_coincident_gravity (hA : A.ExactZero) {x y z : SFl A} (hx : x.IsNumber) (hy : y.IsNumber) (hz : z.IsNumber)
    (m : SFl A) :
    Interp.point.gravity_e x y z x y z m = .ok SFl.nan
    ∧ Interp.point.gravity_n x y z x y z m = .ok SFl.nan
    ∧ Interp.point.gravity_u x y z x y z m = .ok SFl.nan
    ∧ Interp.point.gravity_ee x y z x y z m = .ok SFl.nan
    ∧ Interp.point.gravity_nn x y z x y z m = .ok SFl.nan
    ∧ Interp.point.gravity_uu x y z x y z m = .ok SFl.nan
    ∧ Interp.point.gravity_en x y z x y z m = .ok SFl.nan
    ∧ Interp.point.gravity_eu x y z x y z m = .ok SFl.nan
    ∧ Interp.point.gravity_nu x y z x y z m = .ok SFl.nan := by
  have Z : (szero false : SFl A).IsZero := ⟨false, rfl⟩
  have p2 : (szero false ^ 2 : SFl A) = szero false := pow_zero' hA (by norm_num)
  have p3 : (szero false ^ 3 : SFl A) = szero false := pow_zero' hA (by norm_num)
  have p5 : (szero false ^ 5 : SFl A) = szero false := pow_zero' hA (by norm_num)
  have T := isZero_mul hA number_three Z
  have hd := interp_distance_self hA hx hy hz
  have acc : ∀ a : SFl A, a.IsNumber → (-(a - a) /∞ (szero false) ^ 3) = .ok SFl.nan := fun a ha => by
    rw [sub_self_zero hA ha, p3]; exact interpDiv_zero_zero (isZero_neg Z) Z
  have diag : ∀ a : SFl A, a.IsNumber → (do
      return (← 3 * (a - a) ^ 2 /∞ (szero false) ^ 5) - (← 1 /∞ (szero false) ^ 3) : Py (SFl A)) = .ok SFl.nan :=
    fun a ha => by rw [sub_self_zero hA ha, p2, p5, interpDiv_zero_zero T Z]; rfl
  have off : ∀ a b : SFl A, a.IsNumber → b.IsNumber → (3 * (a - a) * (b - b) /∞ (szero false) ^ 5) = .ok SFl.nan :=
    fun a b ha hb => by
      rw [sub_self_zero hA ha, sub_self_zero hA hb, p5]
      exact interpDiv_zero_zero (isZero_mul hA T.number Z) Z
  exact ⟨coincident_nan hd (acc x hx), coincident_nan hd (acc y hy), coincident_nan hd (acc z hz),
    coincident_nan hd (diag x hx), coincident_nan hd (diag y hy), coincident_nan hd (diag z hz),
    coincident_nan hd (off x y hx hy), coincident_nan hd (off x z hx hz), coincident_nan hd (off y z hy hz)⟩

/-- The interpreted field of a dipole of finite moment at its own position is NaN. -/
theorem C100_coincident_dipole (hA : A.ExactZero) {x y z : SFl A} (hx : x.IsNumber) (hy : y.IsNumber) (hz : z.IsNumber)
    {m₁ m₂ m₃ : SFl A} (h₁ : m₁.IsNumber) (h₂ : m₂.IsNumber) (h₃ : m₃.IsNumber) :
    Interp.dipole.magnetic_field x y z x y z m₁ m₂ m₃ = .ok (SFl.nan, SFl.nan, SFl.nan)
    ∧ Interp.dipole.magnetic_e x y z x y z m₁ m₂ m₃ = .ok SFl.nan
    ∧ Interp.dipole.magnetic_n x y z x y z m₁ m₂ m₃ = .ok SFl.nan
    ∧ Interp.dipole.magnetic_u x y z x y z m₁ m₂ m₃ = .ok SFl.nan := by
  have Z : (szero false : SFl A).IsZero := ⟨false, rfl⟩
  have p2 : (szero false ^ 2 : SFl A) = szero false := pow_zero' hA (by norm_num)
  have p3 : (szero false ^ 3 : SFl A) = szero false := pow_zero' hA (by norm_num)
  have p5 : (szero false ^ 5 : SFl A) = szero false := pow_zero' hA (by norm_num)
  have hq : SFl.sqrt ((x - x) ^ 2 + (y - y) ^ 2 + (z - z) ^ 2) = szero false := by
    rw [sub_self_zero hA hx, sub_self_zero hA hy, sub_self_zero hA hz, p2, add_zero' hA,
      Bool.and_self, add_zero' hA, Bool.and_self, sqrt_zero' hA]
  have hz0 : (m₁ * szero false + m₂ * szero false + m₃ * szero false : SFl A).IsZero :=
    isZero_add hA (isZero_add hA (isZero_mul hA h₁ Z) (isZero_mul hA h₂ Z)) (isZero_mul hA h₃ Z)
  have hc : ((3 * (m₁ * szero false + m₂ * szero false + m₃ * szero false) * szero false : SFl A) /∞ szero false)
      = .ok SFl.nan :=
    interpDiv_zero_zero (isZero_mul hA (isZero_mul hA number_three hz0).number Z) Z
  obtain ⟨c, hC⟩ : ∃ c, (do (← Signed.VACUUM_MAGNETIC_PERMEABILITY /∞ 4) /∞ SFl.pi : Py (SFl A)) = .ok c := ⟨_, rfl⟩
  have one : ∀ m : SFl A, (do
      let result := (← (3 * (m₁ * szero false + m₂ * szero false + m₃ * szero false) * szero false : SFl A) /∞ szero false)
        - (← m /∞ szero false)
      return (← (← Signed.VACUUM_MAGNETIC_PERMEABILITY /∞ 4) /∞ SFl.pi) * result : Py (SFl A)) = .ok SFl.nan := fun m => by
    rw [hc]
    exact congrArg Except.ok (mul_nan _)
  refine ⟨?_, ?_, ?_, ?_⟩
  · unfold Interp.dipole.magnetic_field
    dsimp only
    rw [hq, sub_self_zero hA hx, sub_self_zero hA hy, sub_self_zero hA hz, p3, p5, hc]
    exact congrArg Except.ok (by show (_ * SFl.nan, _ * SFl.nan, _ * SFl.nan) = _; rw [mul_nan])
  · unfold Interp.dipole.magnetic_e
    dsimp only
    rw [hq, sub_self_zero hA hx, sub_self_zero hA hy, sub_self_zero hA hz, p3, p5]
    exact one _
  · unfold Interp.dipole.magnetic_n
    dsimp only
    rw [hq, sub_self_zero hA hx, sub_self_zero hA hy, sub_self_zero hA hz, p3, p5]
    exact one _
  · unfold Interp.dipole.magnetic_u
    dsimp only
    rw [hq, sub_self_zero hA hx, sub_self_zero hA hy, sub_self_zero hA hz, p3, p5]
    exact one _

/-! The point of `/repo/test/test_point_gravity.py:159`: compiled the potential raises, interpreted it is infinite. -/

theorem number_fin (x : ℝ) : (SFl.fin x : SFl A).IsNumber := by
  by_cases h : x = 0
  · exact .inl ⟨false, dif_pos h⟩
  · exact .inr ⟨x, h, dif_neg h⟩

example : Interp.point.gravity_pot (SFl.fin 4.6) (SFl.fin (-8.9)) (SFl.fin (-50.3)) (SFl.fin 4.6) (SFl.fin (-8.9))
    (SFl.fin (-50.3)) (SFl.fin (-1)) = .ok (SFl.inf true : SFl Binary64) := by
  have h := C100_coincident_pot_double (m := -1) (number_fin 4.6) (number_fin (-8.9)) (number_fin (-50.3))
    (by rw [abs_neg, abs_one]; exact zpow_le_one_of_nonpos₀ one_le_two (by norm_num))
    (by rw [abs_neg, abs_one]; exact one_le_zpow₀ one_le_two (by norm_num))
  rwa [decide_eq_true (by norm_num : (-1 : ℝ) < 0)] at h

example : Signed.point.gravity_e (A := Exact) (SFl.fin 4.6) (SFl.fin (-8.9)) (SFl.fin (-50.3)) (SFl.fin 4.6)
    (SFl.fin (-8.9)) (SFl.fin (-50.3)) (SFl.fin 1) = .error .zeroDivision := by
  have e := number_fin (A := Exact) 4.6
  show Signed.utils.distance_cartesian _ _ _ _ _ _ >>= _ = _
  rw [show Signed.utils.distance_cartesian (A := Exact) (SFl.fin 4.6) (SFl.fin (-8.9)) (SFl.fin (-50.3)) (SFl.fin 4.6)
    (SFl.fin (-8.9)) (SFl.fin (-50.3)) = .ok (szero false) from
    interp_distance_self exact_exactZero e (number_fin _) (number_fin _)]
  show ((_ /± ((szero false : SFl Exact) ^ 3)) >>= _) = _
  rw [pow_zero' exact_exactZero (by norm_num)]
  rfl

/-- a call that returns: the interpreted kernel is the compiled one -/
example : Interp.point.kernel_e (A := Exact) (szero true) (1 : SFl Exact) (0 : SFl Exact) (szero false)
      (0 : SFl Exact) (0 : SFl Exact) (1 : SFl Exact) = .ok (szero false) := by
  have h := (C100_point_kernels (A := Exact)).2.1 (szero true) (1 : SFl Exact) (0 : SFl Exact) (szero false)
      (0 : SFl Exact) (0 : SFl Exact) (1 : SFl Exact)
  show _ = _
  rw [SFl.kernel_e_zero] at h
  exact h

end Choclo
