import Verif.Lemmas.TypedPrism
import Verif.Lemmas.MagEval
import Verif.Model.Binary64

/-! # Integer arguments (C89)

`Verif/Model/Typed` is the model of what Numba compiles when some arguments are integers.  As long as the
integers are small enough, the results are bit for bit those for the same numbers given as floats; beyond
that int64 arithmetic overflows silently. -/

namespace Choclo

variable {A : Arith} {L C M : ℕ}

theorem two_mul_le_of_sq (h : 12 * C ^ 2 ≤ L) : 2 * C ≤ L := by
  rcases Nat.eq_zero_or_pos C with h0 | h0
  · subst h0; omega
  · nlinarith

theorem two_mul_le_of_sq' (h : 4 * C ^ 2 ≤ L) : 2 * C ≤ L := by
  rcases Nat.eq_zero_or_pos C with h0 | h0
  · subst h0; omega
  · nlinarith

theorem cube_bounds (h : 120 * C ^ 3 ≤ L) :
    12 * C ^ 2 ≤ L ∧ 18 * C ≤ L ∧ 30 * C ≤ L ∧ 60 * C ^ 2 ≤ L := by
  rcases Nat.eq_zero_or_pos C with h0 | h0
  · subst h0; simp
  · have h1 : C ≤ C ^ 3 := Nat.le_self_pow (by norm_num) C
    have h2 : C ^ 2 ≤ C ^ 3 := Nat.pow_le_pow_right h0 (by norm_num)
    omega

theorem fourth_bounds {D : ℕ} (h : 4 * D ^ 4 ≤ L) : 3 * D ^ 2 ≤ L ∧ 2 * D ≤ L ∧ 4 * D ^ 2 ≤ L := by
  rcases Nat.eq_zero_or_pos D with h0 | h0
  · subst h0; simp
  · have h1 : D ≤ D ^ 4 := Nat.le_self_pow (by norm_num) D
    have h2 : D ^ 2 ≤ D ^ 4 := Nat.pow_le_pow_right h0 (by norm_num)
    omega

theorem moment_bounds (h : 36 * (M * C ^ 2) ≤ L) (hM : M * C ≤ M * C ^ 2) : 18 * (M * C) ≤ L := by
  omega

/-- The Cartesian distance of points with integer coordinates up to `C` in magnitude (or any mixture of such
integers and arbitrary floats) is the distance computed for the same numbers given as floats, where `12 C² ≤
L` and `L` bounds the integers that are exact floats. -/
theorem C89_distance (hA : A.ExactInts L) (hL : L < 2 ^ 63) (hC : 12 * C ^ 2 ≤ L) :
    OnInts SameCall [C, C, C, C, C, C] (Typed.utils.distance_cartesian (A := A)) utils.distance_cartesian := by
  have ok : IntOK A L := ⟨hA, hL⟩
  have h2 := two_mul_le_of_sq hC
  have hCL : C ≤ L := by omega
  · intro x0 k0 x1 k1 x2 k2 x3 k3 x4 k4 x5 k5
    exact Typed.utils.et_distance_cartesian ok hC h2 (Rep.of_upTo ok hCL k0) (Rep.of_upTo ok hCL k1) (Rep.of_upTo ok hCL k2) (Rep.of_upTo ok hCL k3) (Rep.of_upTo ok hCL k4) (Rep.of_upTo ok hCL k5)

/-- The same for the spherical distances. -/
theorem C89_spherical (hA : A.ExactInts L) (hL : L < 2 ^ 63) (hC : 4 * C ^ 2 ≤ L) (h15 : 15 ≤ L) :
    OnInts SameCall [C, C, C, C, C, C] (Typed.utils.distance_spherical (A := A)) utils.distance_spherical
    ∧ OnInts SameCall3 [C, C, C, C, C, C, C, C] (Typed.utils.distance_spherical_core (A := A)) utils.distance_spherical_core := by
  have ok : IntOK A L := ⟨hA, hL⟩
  have h2 := two_mul_le_of_sq' hC
  have hCL : C ≤ L := by omega
  refine ⟨?_, ?_⟩
  · intro x0 k0 x1 k1 x2 k2 x3 k3 x4 k4 x5 k5
    exact Typed.utils.et_distance_spherical ok hC h2 (by omega) (Rep.of_upTo ok hCL k0) (Rep.of_upTo ok hCL k1) (Rep.of_upTo ok hCL k2) (Rep.of_upTo ok hCL k3) (Rep.of_upTo ok hCL k4) (Rep.of_upTo ok hCL k5)
  · intro x0 k0 x1 k1 x2 k2 x3 k3 x4 k4 x5 k5 x6 k6 x7 k7
    exact Typed.utils.et_distance_spherical_core ok hC h2 (by omega) (Rep.of_upTo ok hCL k0) (Rep.of_upTo ok hCL k1) (Rep.of_upTo ok hCL k2) (Rep.of_upTo ok hCL k3) (Rep.of_upTo ok hCL k4) (Rep.of_upTo ok hCL k5) (Rep.of_upTo ok hCL k6) (Rep.of_upTo ok hCL k7)

/-- The same for the gravity fields of point masses; the mass may be an integer up to `L`. -/
theorem C89_point_gravity (hA : A.ExactInts L) (hL : L < 2 ^ 63) (hC : 12 * C ^ 2 ≤ L) (h15 : 15 ≤ L) :
    OnInts SameCall [C, C, C, C, C, C, L] (Typed.point.gravity_pot (A := A)) point.gravity_pot
    ∧ OnInts SameCall [C, C, C, C, C, C, L] (Typed.point.gravity_e (A := A)) point.gravity_e
    ∧ OnInts SameCall [C, C, C, C, C, C, L] (Typed.point.gravity_n (A := A)) point.gravity_n
    ∧ OnInts SameCall [C, C, C, C, C, C, L] (Typed.point.gravity_u (A := A)) point.gravity_u
    ∧ OnInts SameCall [C, C, C, C, C, C, L] (Typed.point.gravity_ee (A := A)) point.gravity_ee
    ∧ OnInts SameCall [C, C, C, C, C, C, L] (Typed.point.gravity_nn (A := A)) point.gravity_nn
    ∧ OnInts SameCall [C, C, C, C, C, C, L] (Typed.point.gravity_uu (A := A)) point.gravity_uu
    ∧ OnInts SameCall [C, C, C, C, C, C, L] (Typed.point.gravity_en (A := A)) point.gravity_en
    ∧ OnInts SameCall [C, C, C, C, C, C, L] (Typed.point.gravity_eu (A := A)) point.gravity_eu
    ∧ OnInts SameCall [C, C, C, C, C, C, L] (Typed.point.gravity_nu (A := A)) point.gravity_nu := by
  have ok : IntOK A L := ⟨hA, hL⟩
  have h2 := two_mul_le_of_sq hC
  have hCL : C ≤ L := by omega
  refine ⟨?_, ?_, ?_, ?_, ?_, ?_, ?_, ?_, ?_, ?_⟩
  · intro x0 k0 x1 k1 x2 k2 x3 k3 x4 k4 x5 k5 x6 k6
    exact Typed.point.et_gravity_pot ok hC h2 h15 (Rep.of_upTo ok hCL k0) (Rep.of_upTo ok hCL k1) (Rep.of_upTo ok hCL k2) (Rep.of_upTo ok hCL k3) (Rep.of_upTo ok hCL k4) (Rep.of_upTo ok hCL k5) (Rep.of_upTo ok le_rfl k6)
  · intro x0 k0 x1 k1 x2 k2 x3 k3 x4 k4 x5 k5 x6 k6
    exact Typed.point.et_gravity_e ok hC h2 h15 (Rep.of_upTo ok hCL k0) (Rep.of_upTo ok hCL k1) (Rep.of_upTo ok hCL k2) (Rep.of_upTo ok hCL k3) (Rep.of_upTo ok hCL k4) (Rep.of_upTo ok hCL k5) (Rep.of_upTo ok le_rfl k6)
  · intro x0 k0 x1 k1 x2 k2 x3 k3 x4 k4 x5 k5 x6 k6
    exact Typed.point.et_gravity_n ok hC h2 h15 (Rep.of_upTo ok hCL k0) (Rep.of_upTo ok hCL k1) (Rep.of_upTo ok hCL k2) (Rep.of_upTo ok hCL k3) (Rep.of_upTo ok hCL k4) (Rep.of_upTo ok hCL k5) (Rep.of_upTo ok le_rfl k6)
  · intro x0 k0 x1 k1 x2 k2 x3 k3 x4 k4 x5 k5 x6 k6
    exact Typed.point.et_gravity_u ok hC h2 h15 (Rep.of_upTo ok hCL k0) (Rep.of_upTo ok hCL k1) (Rep.of_upTo ok hCL k2) (Rep.of_upTo ok hCL k3) (Rep.of_upTo ok hCL k4) (Rep.of_upTo ok hCL k5) (Rep.of_upTo ok le_rfl k6)
  · intro x0 k0 x1 k1 x2 k2 x3 k3 x4 k4 x5 k5 x6 k6
    exact Typed.point.et_gravity_ee ok hC h2 h15 (Rep.of_upTo ok hCL k0) (Rep.of_upTo ok hCL k1) (Rep.of_upTo ok hCL k2) (Rep.of_upTo ok hCL k3) (Rep.of_upTo ok hCL k4) (Rep.of_upTo ok hCL k5) (Rep.of_upTo ok le_rfl k6)
  · intro x0 k0 x1 k1 x2 k2 x3 k3 x4 k4 x5 k5 x6 k6
    exact Typed.point.et_gravity_nn ok hC h2 h15 (Rep.of_upTo ok hCL k0) (Rep.of_upTo ok hCL k1) (Rep.of_upTo ok hCL k2) (Rep.of_upTo ok hCL k3) (Rep.of_upTo ok hCL k4) (Rep.of_upTo ok hCL k5) (Rep.of_upTo ok le_rfl k6)
  · intro x0 k0 x1 k1 x2 k2 x3 k3 x4 k4 x5 k5 x6 k6
    exact Typed.point.et_gravity_uu ok hC h2 h15 (Rep.of_upTo ok hCL k0) (Rep.of_upTo ok hCL k1) (Rep.of_upTo ok hCL k2) (Rep.of_upTo ok hCL k3) (Rep.of_upTo ok hCL k4) (Rep.of_upTo ok hCL k5) (Rep.of_upTo ok le_rfl k6)
  · intro x0 k0 x1 k1 x2 k2 x3 k3 x4 k4 x5 k5 x6 k6
    exact Typed.point.et_gravity_en ok hC h2 h15 (Rep.of_upTo ok hCL k0) (Rep.of_upTo ok hCL k1) (Rep.of_upTo ok hCL k2) (Rep.of_upTo ok hCL k3) (Rep.of_upTo ok hCL k4) (Rep.of_upTo ok hCL k5) (Rep.of_upTo ok le_rfl k6)
  · intro x0 k0 x1 k1 x2 k2 x3 k3 x4 k4 x5 k5 x6 k6
    exact Typed.point.et_gravity_eu ok hC h2 h15 (Rep.of_upTo ok hCL k0) (Rep.of_upTo ok hCL k1) (Rep.of_upTo ok hCL k2) (Rep.of_upTo ok hCL k3) (Rep.of_upTo ok hCL k4) (Rep.of_upTo ok hCL k5) (Rep.of_upTo ok le_rfl k6)
  · intro x0 k0 x1 k1 x2 k2 x3 k3 x4 k4 x5 k5 x6 k6
    exact Typed.point.et_gravity_nu ok hC h2 h15 (Rep.of_upTo ok hCL k0) (Rep.of_upTo ok hCL k1) (Rep.of_upTo ok hCL k2) (Rep.of_upTo ok hCL k3) (Rep.of_upTo ok hCL k4) (Rep.of_upTo ok hCL k5) (Rep.of_upTo ok le_rfl k6)

/-- The same for the gravity fields of prisms. -/
theorem C89_prism_gravity (hA : A.ExactInts L) (hL : L < 2 ^ 63) (hC : 12 * C ^ 2 ≤ L) (h15 : 15 ≤ L) :
    OnInts SameCall [C, C, C, C, C, C, C, C, C, L] (Typed.prism.gravity_pot (A := A)) prism.gravity_pot
    ∧ OnInts SameCall [C, C, C, C, C, C, C, C, C, L] (Typed.prism.gravity_e (A := A)) prism.gravity_e
    ∧ OnInts SameCall [C, C, C, C, C, C, C, C, C, L] (Typed.prism.gravity_n (A := A)) prism.gravity_n
    ∧ OnInts SameCall [C, C, C, C, C, C, C, C, C, L] (Typed.prism.gravity_u (A := A)) prism.gravity_u
    ∧ OnInts SameCall [C, C, C, C, C, C, C, C, C, L] (Typed.prism.gravity_ee (A := A)) prism.gravity_ee
    ∧ OnInts SameCall [C, C, C, C, C, C, C, C, C, L] (Typed.prism.gravity_nn (A := A)) prism.gravity_nn
    ∧ OnInts SameCall [C, C, C, C, C, C, C, C, C, L] (Typed.prism.gravity_uu (A := A)) prism.gravity_uu
    ∧ OnInts SameCall [C, C, C, C, C, C, C, C, C, L] (Typed.prism.gravity_en (A := A)) prism.gravity_en
    ∧ OnInts SameCall [C, C, C, C, C, C, C, C, C, L] (Typed.prism.gravity_eu (A := A)) prism.gravity_eu
    ∧ OnInts SameCall [C, C, C, C, C, C, C, C, C, L] (Typed.prism.gravity_nu (A := A)) prism.gravity_nu := by
  have ok : IntOK A L := ⟨hA, hL⟩
  have h2 := two_mul_le_of_sq hC
  have hCL : C ≤ L := by omega
  have h3 : 3 * (C + C) ^ 2 ≤ L := by linarith [hC, (by ring : 3 * (C + C) ^ 2 = 12 * C ^ 2)]
  have hD : 2 * (C + C) ≤ L := by
    rcases Nat.eq_zero_or_pos C with h0 | h0
    · subst h0; omega
    · nlinarith
  refine ⟨?_, ?_, ?_, ?_, ?_, ?_, ?_, ?_, ?_, ?_⟩
  · intro x0 k0 x1 k1 x2 k2 x3 k3 x4 k4 x5 k5 x6 k6 x7 k7 x8 k8 x9 k9
    exact Typed.prism.et_gravity_pot ok h3 hD rfl h15 (Rep.of_upTo ok hCL k0) (Rep.of_upTo ok hCL k1) (Rep.of_upTo ok hCL k2) (Rep.of_upTo ok hCL k3) (Rep.of_upTo ok hCL k4) (Rep.of_upTo ok hCL k5) (Rep.of_upTo ok hCL k6) (Rep.of_upTo ok hCL k7) (Rep.of_upTo ok hCL k8) (Rep.of_upTo ok le_rfl k9)
  · intro x0 k0 x1 k1 x2 k2 x3 k3 x4 k4 x5 k5 x6 k6 x7 k7 x8 k8 x9 k9
    exact Typed.prism.et_gravity_e ok h3 hD rfl h15 (Rep.of_upTo ok hCL k0) (Rep.of_upTo ok hCL k1) (Rep.of_upTo ok hCL k2) (Rep.of_upTo ok hCL k3) (Rep.of_upTo ok hCL k4) (Rep.of_upTo ok hCL k5) (Rep.of_upTo ok hCL k6) (Rep.of_upTo ok hCL k7) (Rep.of_upTo ok hCL k8) (Rep.of_upTo ok le_rfl k9)
  · intro x0 k0 x1 k1 x2 k2 x3 k3 x4 k4 x5 k5 x6 k6 x7 k7 x8 k8 x9 k9
    exact Typed.prism.et_gravity_n ok h3 hD rfl h15 (Rep.of_upTo ok hCL k0) (Rep.of_upTo ok hCL k1) (Rep.of_upTo ok hCL k2) (Rep.of_upTo ok hCL k3) (Rep.of_upTo ok hCL k4) (Rep.of_upTo ok hCL k5) (Rep.of_upTo ok hCL k6) (Rep.of_upTo ok hCL k7) (Rep.of_upTo ok hCL k8) (Rep.of_upTo ok le_rfl k9)
  · intro x0 k0 x1 k1 x2 k2 x3 k3 x4 k4 x5 k5 x6 k6 x7 k7 x8 k8 x9 k9
    exact Typed.prism.et_gravity_u ok h3 hD rfl h15 (Rep.of_upTo ok hCL k0) (Rep.of_upTo ok hCL k1) (Rep.of_upTo ok hCL k2) (Rep.of_upTo ok hCL k3) (Rep.of_upTo ok hCL k4) (Rep.of_upTo ok hCL k5) (Rep.of_upTo ok hCL k6) (Rep.of_upTo ok hCL k7) (Rep.of_upTo ok hCL k8) (Rep.of_upTo ok le_rfl k9)
  · intro x0 k0 x1 k1 x2 k2 x3 k3 x4 k4 x5 k5 x6 k6 x7 k7 x8 k8 x9 k9
    exact Typed.prism.et_gravity_ee ok h3 hD rfl h15 (Rep.of_upTo ok hCL k0) (Rep.of_upTo ok hCL k1) (Rep.of_upTo ok hCL k2) (Rep.of_upTo ok hCL k3) (Rep.of_upTo ok hCL k4) (Rep.of_upTo ok hCL k5) (Rep.of_upTo ok hCL k6) (Rep.of_upTo ok hCL k7) (Rep.of_upTo ok hCL k8) (Rep.of_upTo ok le_rfl k9)
  · intro x0 k0 x1 k1 x2 k2 x3 k3 x4 k4 x5 k5 x6 k6 x7 k7 x8 k8 x9 k9
    exact Typed.prism.et_gravity_nn ok h3 hD rfl h15 (Rep.of_upTo ok hCL k0) (Rep.of_upTo ok hCL k1) (Rep.of_upTo ok hCL k2) (Rep.of_upTo ok hCL k3) (Rep.of_upTo ok hCL k4) (Rep.of_upTo ok hCL k5) (Rep.of_upTo ok hCL k6) (Rep.of_upTo ok hCL k7) (Rep.of_upTo ok hCL k8) (Rep.of_upTo ok le_rfl k9)
  · intro x0 k0 x1 k1 x2 k2 x3 k3 x4 k4 x5 k5 x6 k6 x7 k7 x8 k8 x9 k9
    exact Typed.prism.et_gravity_uu ok h3 hD rfl h15 (Rep.of_upTo ok hCL k0) (Rep.of_upTo ok hCL k1) (Rep.of_upTo ok hCL k2) (Rep.of_upTo ok hCL k3) (Rep.of_upTo ok hCL k4) (Rep.of_upTo ok hCL k5) (Rep.of_upTo ok hCL k6) (Rep.of_upTo ok hCL k7) (Rep.of_upTo ok hCL k8) (Rep.of_upTo ok le_rfl k9)
  · intro x0 k0 x1 k1 x2 k2 x3 k3 x4 k4 x5 k5 x6 k6 x7 k7 x8 k8 x9 k9
    exact Typed.prism.et_gravity_en ok h3 hD rfl h15 (Rep.of_upTo ok hCL k0) (Rep.of_upTo ok hCL k1) (Rep.of_upTo ok hCL k2) (Rep.of_upTo ok hCL k3) (Rep.of_upTo ok hCL k4) (Rep.of_upTo ok hCL k5) (Rep.of_upTo ok hCL k6) (Rep.of_upTo ok hCL k7) (Rep.of_upTo ok hCL k8) (Rep.of_upTo ok le_rfl k9)
  · intro x0 k0 x1 k1 x2 k2 x3 k3 x4 k4 x5 k5 x6 k6 x7 k7 x8 k8 x9 k9
    exact Typed.prism.et_gravity_eu ok h3 hD rfl h15 (Rep.of_upTo ok hCL k0) (Rep.of_upTo ok hCL k1) (Rep.of_upTo ok hCL k2) (Rep.of_upTo ok hCL k3) (Rep.of_upTo ok hCL k4) (Rep.of_upTo ok hCL k5) (Rep.of_upTo ok hCL k6) (Rep.of_upTo ok hCL k7) (Rep.of_upTo ok hCL k8) (Rep.of_upTo ok le_rfl k9)
  · intro x0 k0 x1 k1 x2 k2 x3 k3 x4 k4 x5 k5 x6 k6 x7 k7 x8 k8 x9 k9
    exact Typed.prism.et_gravity_nu ok h3 hD rfl h15 (Rep.of_upTo ok hCL k0) (Rep.of_upTo ok hCL k1) (Rep.of_upTo ok hCL k2) (Rep.of_upTo ok hCL k3) (Rep.of_upTo ok hCL k4) (Rep.of_upTo ok hCL k5) (Rep.of_upTo ok hCL k6) (Rep.of_upTo ok hCL k7) (Rep.of_upTo ok hCL k8) (Rep.of_upTo ok le_rfl k9)

/-- The same for the magnetic field of prisms. -/
theorem C89_prism_magnetic (hA : A.ExactInts L) (hL : L < 2 ^ 63) (hC : 12 * C ^ 2 ≤ L) (h15 : 15 ≤ L) :
    OnInts SameCall3 [C, C, C, C, C, C, C, C, C, L, L, L] (Typed.prism.magnetic_field (A := A)) prism.magnetic_field
    ∧ OnInts SameCall [C, C, C, C, C, C, C, C, C, L, L, L] (Typed.prism.magnetic_e (A := A)) prism.magnetic_e
    ∧ OnInts SameCall [C, C, C, C, C, C, C, C, C, L, L, L] (Typed.prism.magnetic_n (A := A)) prism.magnetic_n
    ∧ OnInts SameCall [C, C, C, C, C, C, C, C, C, L, L, L] (Typed.prism.magnetic_u (A := A)) prism.magnetic_u := by
  have ok : IntOK A L := ⟨hA, hL⟩
  have h2 := two_mul_le_of_sq hC
  have hCL : C ≤ L := by omega
  have h3 : 3 * (C + C) ^ 2 ≤ L := by linarith [hC, (by ring : 3 * (C + C) ^ 2 = 12 * C ^ 2)]
  have hD : 2 * (C + C) ≤ L := by
    rcases Nat.eq_zero_or_pos C with h0 | h0
    · subst h0; omega
    · nlinarith
  refine ⟨?_, ?_, ?_, ?_⟩
  · intro x0 k0 x1 k1 x2 k2 x3 k3 x4 k4 x5 k5 x6 k6 x7 k7 x8 k8 x9 k9 x10 k10 x11 k11
    exact Typed.prism.et_magnetic_field ok h3 hD rfl h15 (Rep.of_upTo ok hCL k0) (Rep.of_upTo ok hCL k1) (Rep.of_upTo ok hCL k2) (Rep.of_upTo ok hCL k3) (Rep.of_upTo ok hCL k4) (Rep.of_upTo ok hCL k5) (Rep.of_upTo ok hCL k6) (Rep.of_upTo ok hCL k7) (Rep.of_upTo ok hCL k8) (Rep.of_upTo ok le_rfl k9) (Rep.of_upTo ok le_rfl k10) (Rep.of_upTo ok le_rfl k11)
  · intro x0 k0 x1 k1 x2 k2 x3 k3 x4 k4 x5 k5 x6 k6 x7 k7 x8 k8 x9 k9 x10 k10 x11 k11
    exact Typed.prism.et_magnetic_e ok h3 hD rfl h15 (Rep.of_upTo ok hCL k0) (Rep.of_upTo ok hCL k1) (Rep.of_upTo ok hCL k2) (Rep.of_upTo ok hCL k3) (Rep.of_upTo ok hCL k4) (Rep.of_upTo ok hCL k5) (Rep.of_upTo ok hCL k6) (Rep.of_upTo ok hCL k7) (Rep.of_upTo ok hCL k8) (Rep.of_upTo ok le_rfl k9) (Rep.of_upTo ok le_rfl k10) (Rep.of_upTo ok le_rfl k11)
  · intro x0 k0 x1 k1 x2 k2 x3 k3 x4 k4 x5 k5 x6 k6 x7 k7 x8 k8 x9 k9 x10 k10 x11 k11
    exact Typed.prism.et_magnetic_n ok h3 hD rfl h15 (Rep.of_upTo ok hCL k0) (Rep.of_upTo ok hCL k1) (Rep.of_upTo ok hCL k2) (Rep.of_upTo ok hCL k3) (Rep.of_upTo ok hCL k4) (Rep.of_upTo ok hCL k5) (Rep.of_upTo ok hCL k6) (Rep.of_upTo ok hCL k7) (Rep.of_upTo ok hCL k8) (Rep.of_upTo ok le_rfl k9) (Rep.of_upTo ok le_rfl k10) (Rep.of_upTo ok le_rfl k11)
  · intro x0 k0 x1 k1 x2 k2 x3 k3 x4 k4 x5 k5 x6 k6 x7 k7 x8 k8 x9 k9 x10 k10 x11 k11
    exact Typed.prism.et_magnetic_u ok h3 hD rfl h15 (Rep.of_upTo ok hCL k0) (Rep.of_upTo ok hCL k1) (Rep.of_upTo ok hCL k2) (Rep.of_upTo ok hCL k3) (Rep.of_upTo ok hCL k4) (Rep.of_upTo ok hCL k5) (Rep.of_upTo ok hCL k6) (Rep.of_upTo ok hCL k7) (Rep.of_upTo ok hCL k8) (Rep.of_upTo ok le_rfl k9) (Rep.of_upTo ok le_rfl k10) (Rep.of_upTo ok le_rfl k11)

/-- The same for the magnetic gradients of prisms, where fourth powers of the coordinates have to be exact. -/
theorem C89_prism_gradients (hA : A.ExactInts L) (hL : L < 2 ^ 63) (hC : 64 * C ^ 4 ≤ L) (h15 : 15 ≤ L) :
    OnInts SameCall [C, C, C, C, C, C, C, C, C, L, L, L] (Typed.prism.magnetic_ee (A := A)) prism.magnetic_ee
    ∧ OnInts SameCall [C, C, C, C, C, C, C, C, C, L, L, L] (Typed.prism.magnetic_nn (A := A)) prism.magnetic_nn
    ∧ OnInts SameCall [C, C, C, C, C, C, C, C, C, L, L, L] (Typed.prism.magnetic_uu (A := A)) prism.magnetic_uu
    ∧ OnInts SameCall [C, C, C, C, C, C, C, C, C, L, L, L] (Typed.prism.magnetic_en (A := A)) prism.magnetic_en
    ∧ OnInts SameCall [C, C, C, C, C, C, C, C, C, L, L, L] (Typed.prism.magnetic_eu (A := A)) prism.magnetic_eu
    ∧ OnInts SameCall [C, C, C, C, C, C, C, C, C, L, L, L] (Typed.prism.magnetic_nu (A := A)) prism.magnetic_nu := by
  have ok : IntOK A L := ⟨hA, hL⟩
  have h4 : 4 * (C + C) ^ 4 ≤ L := by linarith [hC, (by ring : 4 * (C + C) ^ 4 = 64 * C ^ 4)]
  obtain ⟨h3, hD, h4'⟩ := fourth_bounds h4
  have hCL : C ≤ L := by omega
  refine ⟨?_, ?_, ?_, ?_, ?_, ?_⟩
  · intro x0 k0 x1 k1 x2 k2 x3 k3 x4 k4 x5 k5 x6 k6 x7 k7 x8 k8 x9 k9 x10 k10 x11 k11
    exact Typed.prism.et_magnetic_ee ok h4 h4' h3 hD rfl h15 (Rep.of_upTo ok hCL k0) (Rep.of_upTo ok hCL k1) (Rep.of_upTo ok hCL k2) (Rep.of_upTo ok hCL k3) (Rep.of_upTo ok hCL k4) (Rep.of_upTo ok hCL k5) (Rep.of_upTo ok hCL k6) (Rep.of_upTo ok hCL k7) (Rep.of_upTo ok hCL k8) (Rep.of_upTo ok le_rfl k9) (Rep.of_upTo ok le_rfl k10) (Rep.of_upTo ok le_rfl k11)
  · intro x0 k0 x1 k1 x2 k2 x3 k3 x4 k4 x5 k5 x6 k6 x7 k7 x8 k8 x9 k9 x10 k10 x11 k11
    exact Typed.prism.et_magnetic_nn ok h4 h4' h3 hD rfl h15 (Rep.of_upTo ok hCL k0) (Rep.of_upTo ok hCL k1) (Rep.of_upTo ok hCL k2) (Rep.of_upTo ok hCL k3) (Rep.of_upTo ok hCL k4) (Rep.of_upTo ok hCL k5) (Rep.of_upTo ok hCL k6) (Rep.of_upTo ok hCL k7) (Rep.of_upTo ok hCL k8) (Rep.of_upTo ok le_rfl k9) (Rep.of_upTo ok le_rfl k10) (Rep.of_upTo ok le_rfl k11)
  · intro x0 k0 x1 k1 x2 k2 x3 k3 x4 k4 x5 k5 x6 k6 x7 k7 x8 k8 x9 k9 x10 k10 x11 k11
    exact Typed.prism.et_magnetic_uu ok h4 h4' h3 hD rfl h15 (Rep.of_upTo ok hCL k0) (Rep.of_upTo ok hCL k1) (Rep.of_upTo ok hCL k2) (Rep.of_upTo ok hCL k3) (Rep.of_upTo ok hCL k4) (Rep.of_upTo ok hCL k5) (Rep.of_upTo ok hCL k6) (Rep.of_upTo ok hCL k7) (Rep.of_upTo ok hCL k8) (Rep.of_upTo ok le_rfl k9) (Rep.of_upTo ok le_rfl k10) (Rep.of_upTo ok le_rfl k11)
  · intro x0 k0 x1 k1 x2 k2 x3 k3 x4 k4 x5 k5 x6 k6 x7 k7 x8 k8 x9 k9 x10 k10 x11 k11
    exact Typed.prism.et_magnetic_en ok h4 h4' h3 hD rfl h15 (Rep.of_upTo ok hCL k0) (Rep.of_upTo ok hCL k1) (Rep.of_upTo ok hCL k2) (Rep.of_upTo ok hCL k3) (Rep.of_upTo ok hCL k4) (Rep.of_upTo ok hCL k5) (Rep.of_upTo ok hCL k6) (Rep.of_upTo ok hCL k7) (Rep.of_upTo ok hCL k8) (Rep.of_upTo ok le_rfl k9) (Rep.of_upTo ok le_rfl k10) (Rep.of_upTo ok le_rfl k11)
  · intro x0 k0 x1 k1 x2 k2 x3 k3 x4 k4 x5 k5 x6 k6 x7 k7 x8 k8 x9 k9 x10 k10 x11 k11
    exact Typed.prism.et_magnetic_eu ok h4 h4' h3 hD rfl h15 (Rep.of_upTo ok hCL k0) (Rep.of_upTo ok hCL k1) (Rep.of_upTo ok hCL k2) (Rep.of_upTo ok hCL k3) (Rep.of_upTo ok hCL k4) (Rep.of_upTo ok hCL k5) (Rep.of_upTo ok hCL k6) (Rep.of_upTo ok hCL k7) (Rep.of_upTo ok hCL k8) (Rep.of_upTo ok le_rfl k9) (Rep.of_upTo ok le_rfl k10) (Rep.of_upTo ok le_rfl k11)
  · intro x0 k0 x1 k1 x2 k2 x3 k3 x4 k4 x5 k5 x6 k6 x7 k7 x8 k8 x9 k9 x10 k10 x11 k11
    exact Typed.prism.et_magnetic_nu ok h4 h4' h3 hD rfl h15 (Rep.of_upTo ok hCL k0) (Rep.of_upTo ok hCL k1) (Rep.of_upTo ok hCL k2) (Rep.of_upTo ok hCL k3) (Rep.of_upTo ok hCL k4) (Rep.of_upTo ok hCL k5) (Rep.of_upTo ok hCL k6) (Rep.of_upTo ok hCL k7) (Rep.of_upTo ok hCL k8) (Rep.of_upTo ok le_rfl k9) (Rep.of_upTo ok le_rfl k10) (Rep.of_upTo ok le_rfl k11)

/-- The same for the magnetic field of dipoles, with integer moments up to `M`. -/
theorem C89_dipole (hA : A.ExactInts L) (hL : L < 2 ^ 63) (hC : 12 * C ^ 2 ≤ L) (h15 : 15 ≤ L)
    (h36 : 36 * (M * C ^ 2) ≤ L) (hM' : M ≤ L) :
    OnInts SameCall3 [C, C, C, C, C, C, M, M, M] (Typed.dipole.magnetic_field (A := A)) dipole.magnetic_field
    ∧ OnInts SameCall [C, C, C, C, C, C, M, M, M] (Typed.dipole.magnetic_e (A := A)) dipole.magnetic_e
    ∧ OnInts SameCall [C, C, C, C, C, C, M, M, M] (Typed.dipole.magnetic_n (A := A)) dipole.magnetic_n
    ∧ OnInts SameCall [C, C, C, C, C, C, M, M, M] (Typed.dipole.magnetic_u (A := A)) dipole.magnetic_u := by
  have ok : IntOK A L := ⟨hA, hL⟩
  have h2 := two_mul_le_of_sq hC
  have hCL : C ≤ L := by omega
  have hM : M ≤ L := by omega
  have hMC : M * C ≤ M * C ^ 2 := by
    refine Nat.mul_le_mul_left _ ?_
    exact Nat.le_self_pow (by norm_num) C
  have h18 := moment_bounds h36 hMC
  refine ⟨?_, ?_, ?_, ?_⟩
  · intro x0 k0 x1 k1 x2 k2 x3 k3 x4 k4 x5 k5 x6 k6 x7 k7 x8 k8
    exact Typed.dipole.et_magnetic_field ok hC h2 hM h18 h36 h15 (Rep.of_upTo ok hCL k0) (Rep.of_upTo ok hCL k1) (Rep.of_upTo ok hCL k2) (Rep.of_upTo ok hCL k3) (Rep.of_upTo ok hCL k4) (Rep.of_upTo ok hCL k5) (Rep.of_upTo ok hM k6) (Rep.of_upTo ok hM k7) (Rep.of_upTo ok hM k8)
  · intro x0 k0 x1 k1 x2 k2 x3 k3 x4 k4 x5 k5 x6 k6 x7 k7 x8 k8
    exact Typed.dipole.et_magnetic_e ok hC h2 hM h18 h36 h15 (Rep.of_upTo ok hCL k0) (Rep.of_upTo ok hCL k1) (Rep.of_upTo ok hCL k2) (Rep.of_upTo ok hCL k3) (Rep.of_upTo ok hCL k4) (Rep.of_upTo ok hCL k5) (Rep.of_upTo ok hM k6) (Rep.of_upTo ok hM k7) (Rep.of_upTo ok hM k8)
  · intro x0 k0 x1 k1 x2 k2 x3 k3 x4 k4 x5 k5 x6 k6 x7 k7 x8 k8
    exact Typed.dipole.et_magnetic_n ok hC h2 hM h18 h36 h15 (Rep.of_upTo ok hCL k0) (Rep.of_upTo ok hCL k1) (Rep.of_upTo ok hCL k2) (Rep.of_upTo ok hCL k3) (Rep.of_upTo ok hCL k4) (Rep.of_upTo ok hCL k5) (Rep.of_upTo ok hM k6) (Rep.of_upTo ok hM k7) (Rep.of_upTo ok hM k8)
  · intro x0 k0 x1 k1 x2 k2 x3 k3 x4 k4 x5 k5 x6 k6 x7 k7 x8 k8
    exact Typed.dipole.et_magnetic_u ok hC h2 hM h18 h36 h15 (Rep.of_upTo ok hCL k0) (Rep.of_upTo ok hCL k1) (Rep.of_upTo ok hCL k2) (Rep.of_upTo ok hCL k3) (Rep.of_upTo ok hCL k4) (Rep.of_upTo ok hCL k5) (Rep.of_upTo ok hM k6) (Rep.of_upTo ok hM k7) (Rep.of_upTo ok hM k8)

/-- The same for the kernels of point sources (the distance argument is a float). -/
theorem C89_point_kernels (hA : A.ExactInts L) (hL : L < 2 ^ 63) (hC : 12 * C ^ 2 ≤ L) (h15 : 15 ≤ L) (r : Fl A) :
    OnInts SameCall [C, C, C, C, C, C] (fun a b c d e f => Typed.point.kernel_pot (A := A) a b c d e f (.flt r)) (fun a b c d e f => point.kernel_pot a b c d e f r)
    ∧ OnInts SameCall [C, C, C, C, C, C] (fun a b c d e f => Typed.point.kernel_e (A := A) a b c d e f (.flt r)) (fun a b c d e f => point.kernel_e a b c d e f r)
    ∧ OnInts SameCall [C, C, C, C, C, C] (fun a b c d e f => Typed.point.kernel_n (A := A) a b c d e f (.flt r)) (fun a b c d e f => point.kernel_n a b c d e f r)
    ∧ OnInts SameCall [C, C, C, C, C, C] (fun a b c d e f => Typed.point.kernel_u (A := A) a b c d e f (.flt r)) (fun a b c d e f => point.kernel_u a b c d e f r)
    ∧ OnInts SameCall [C, C, C, C, C, C] (fun a b c d e f => Typed.point.kernel_ee (A := A) a b c d e f (.flt r)) (fun a b c d e f => point.kernel_ee a b c d e f r)
    ∧ OnInts SameCall [C, C, C, C, C, C] (fun a b c d e f => Typed.point.kernel_nn (A := A) a b c d e f (.flt r)) (fun a b c d e f => point.kernel_nn a b c d e f r)
    ∧ OnInts SameCall [C, C, C, C, C, C] (fun a b c d e f => Typed.point.kernel_uu (A := A) a b c d e f (.flt r)) (fun a b c d e f => point.kernel_uu a b c d e f r)
    ∧ OnInts SameCall [C, C, C, C, C, C] (fun a b c d e f => Typed.point.kernel_en (A := A) a b c d e f (.flt r)) (fun a b c d e f => point.kernel_en a b c d e f r)
    ∧ OnInts SameCall [C, C, C, C, C, C] (fun a b c d e f => Typed.point.kernel_eu (A := A) a b c d e f (.flt r)) (fun a b c d e f => point.kernel_eu a b c d e f r)
    ∧ OnInts SameCall [C, C, C, C, C, C] (fun a b c d e f => Typed.point.kernel_nu (A := A) a b c d e f (.flt r)) (fun a b c d e f => point.kernel_nu a b c d e f r) := by
  have ok : IntOK A L := ⟨hA, hL⟩
  have h2 := two_mul_le_of_sq hC
  have hCL : C ≤ L := by omega
  refine ⟨?_, ?_, ?_, ?_, ?_, ?_, ?_, ?_, ?_, ?_⟩
  · intro x0 k0 x1 k1 x2 k2 x3 k3 x4 k4 x5 k5
    exact Typed.point.et_kernel_pot ok hC h2 h15 (Rep.of_upTo ok hCL k0) (Rep.of_upTo ok hCL k1) (Rep.of_upTo ok hCL k2) (Rep.of_upTo ok hCL k3) (Rep.of_upTo ok hCL k4) (Rep.of_upTo ok hCL k5) rfl
  · intro x0 k0 x1 k1 x2 k2 x3 k3 x4 k4 x5 k5
    exact Typed.point.et_kernel_e ok hC h2 h15 (Rep.of_upTo ok hCL k0) (Rep.of_upTo ok hCL k1) (Rep.of_upTo ok hCL k2) (Rep.of_upTo ok hCL k3) (Rep.of_upTo ok hCL k4) (Rep.of_upTo ok hCL k5) rfl
  · intro x0 k0 x1 k1 x2 k2 x3 k3 x4 k4 x5 k5
    exact Typed.point.et_kernel_n ok hC h2 h15 (Rep.of_upTo ok hCL k0) (Rep.of_upTo ok hCL k1) (Rep.of_upTo ok hCL k2) (Rep.of_upTo ok hCL k3) (Rep.of_upTo ok hCL k4) (Rep.of_upTo ok hCL k5) rfl
  · intro x0 k0 x1 k1 x2 k2 x3 k3 x4 k4 x5 k5
    exact Typed.point.et_kernel_u ok hC h2 h15 (Rep.of_upTo ok hCL k0) (Rep.of_upTo ok hCL k1) (Rep.of_upTo ok hCL k2) (Rep.of_upTo ok hCL k3) (Rep.of_upTo ok hCL k4) (Rep.of_upTo ok hCL k5) rfl
  · intro x0 k0 x1 k1 x2 k2 x3 k3 x4 k4 x5 k5
    exact Typed.point.et_kernel_ee ok hC h2 h15 (Rep.of_upTo ok hCL k0) (Rep.of_upTo ok hCL k1) (Rep.of_upTo ok hCL k2) (Rep.of_upTo ok hCL k3) (Rep.of_upTo ok hCL k4) (Rep.of_upTo ok hCL k5) rfl
  · intro x0 k0 x1 k1 x2 k2 x3 k3 x4 k4 x5 k5
    exact Typed.point.et_kernel_nn ok hC h2 h15 (Rep.of_upTo ok hCL k0) (Rep.of_upTo ok hCL k1) (Rep.of_upTo ok hCL k2) (Rep.of_upTo ok hCL k3) (Rep.of_upTo ok hCL k4) (Rep.of_upTo ok hCL k5) rfl
  · intro x0 k0 x1 k1 x2 k2 x3 k3 x4 k4 x5 k5
    exact Typed.point.et_kernel_uu ok hC h2 h15 (Rep.of_upTo ok hCL k0) (Rep.of_upTo ok hCL k1) (Rep.of_upTo ok hCL k2) (Rep.of_upTo ok hCL k3) (Rep.of_upTo ok hCL k4) (Rep.of_upTo ok hCL k5) rfl
  · intro x0 k0 x1 k1 x2 k2 x3 k3 x4 k4 x5 k5
    exact Typed.point.et_kernel_en ok hC h2 h15 (Rep.of_upTo ok hCL k0) (Rep.of_upTo ok hCL k1) (Rep.of_upTo ok hCL k2) (Rep.of_upTo ok hCL k3) (Rep.of_upTo ok hCL k4) (Rep.of_upTo ok hCL k5) rfl
  · intro x0 k0 x1 k1 x2 k2 x3 k3 x4 k4 x5 k5
    exact Typed.point.et_kernel_eu ok hC h2 h15 (Rep.of_upTo ok hCL k0) (Rep.of_upTo ok hCL k1) (Rep.of_upTo ok hCL k2) (Rep.of_upTo ok hCL k3) (Rep.of_upTo ok hCL k4) (Rep.of_upTo ok hCL k5) rfl
  · intro x0 k0 x1 k1 x2 k2 x3 k3 x4 k4 x5 k5
    exact Typed.point.et_kernel_nu ok hC h2 h15 (Rep.of_upTo ok hCL k0) (Rep.of_upTo ok hCL k1) (Rep.of_upTo ok hCL k2) (Rep.of_upTo ok hCL k3) (Rep.of_upTo ok hCL k4) (Rep.of_upTo ok hCL k5) rfl

/-- The same for the third-order kernels of point sources, where cubes of the coordinates have to be exact. -/
theorem C89_point_kernels_third (hA : A.ExactInts L) (hL : L < 2 ^ 63) (hC : 120 * C ^ 3 ≤ L) (h15 : 15 ≤ L) (r : Fl A) :
    OnInts SameCall [C, C, C, C, C, C] (fun a b c d e f => Typed.point.kernel_eee (A := A) a b c d e f (.flt r)) (fun a b c d e f => point.kernel_eee a b c d e f r)
    ∧ OnInts SameCall [C, C, C, C, C, C] (fun a b c d e f => Typed.point.kernel_nnn (A := A) a b c d e f (.flt r)) (fun a b c d e f => point.kernel_nnn a b c d e f r)
    ∧ OnInts SameCall [C, C, C, C, C, C] (fun a b c d e f => Typed.point.kernel_uuu (A := A) a b c d e f (.flt r)) (fun a b c d e f => point.kernel_uuu a b c d e f r)
    ∧ OnInts SameCall [C, C, C, C, C, C] (fun a b c d e f => Typed.point.kernel_een (A := A) a b c d e f (.flt r)) (fun a b c d e f => point.kernel_een a b c d e f r)
    ∧ OnInts SameCall [C, C, C, C, C, C] (fun a b c d e f => Typed.point.kernel_eeu (A := A) a b c d e f (.flt r)) (fun a b c d e f => point.kernel_eeu a b c d e f r)
    ∧ OnInts SameCall [C, C, C, C, C, C] (fun a b c d e f => Typed.point.kernel_nne (A := A) a b c d e f (.flt r)) (fun a b c d e f => point.kernel_nne a b c d e f r)
    ∧ OnInts SameCall [C, C, C, C, C, C] (fun a b c d e f => Typed.point.kernel_nnu (A := A) a b c d e f (.flt r)) (fun a b c d e f => point.kernel_nnu a b c d e f r)
    ∧ OnInts SameCall [C, C, C, C, C, C] (fun a b c d e f => Typed.point.kernel_uue (A := A) a b c d e f (.flt r)) (fun a b c d e f => point.kernel_uue a b c d e f r)
    ∧ OnInts SameCall [C, C, C, C, C, C] (fun a b c d e f => Typed.point.kernel_uun (A := A) a b c d e f (.flt r)) (fun a b c d e f => point.kernel_uun a b c d e f r)
    ∧ OnInts SameCall [C, C, C, C, C, C] (fun a b c d e f => Typed.point.kernel_enu (A := A) a b c d e f (.flt r)) (fun a b c d e f => point.kernel_enu a b c d e f r) := by
  have ok : IntOK A L := ⟨hA, hL⟩
  obtain ⟨h2, h18, h30, h60⟩ := cube_bounds hC
  have hCL : C ≤ L := by omega
  refine ⟨?_, ?_, ?_, ?_, ?_, ?_, ?_, ?_, ?_, ?_⟩
  · intro x0 k0 x1 k1 x2 k2 x3 k3 x4 k4 x5 k5
    exact Typed.point.et_kernel_eee ok hC h2 h18 h30 h60 h15 (Rep.of_upTo ok hCL k0) (Rep.of_upTo ok hCL k1) (Rep.of_upTo ok hCL k2) (Rep.of_upTo ok hCL k3) (Rep.of_upTo ok hCL k4) (Rep.of_upTo ok hCL k5) rfl
  · intro x0 k0 x1 k1 x2 k2 x3 k3 x4 k4 x5 k5
    exact Typed.point.et_kernel_nnn ok hC h2 h18 h30 h60 h15 (Rep.of_upTo ok hCL k0) (Rep.of_upTo ok hCL k1) (Rep.of_upTo ok hCL k2) (Rep.of_upTo ok hCL k3) (Rep.of_upTo ok hCL k4) (Rep.of_upTo ok hCL k5) rfl
  · intro x0 k0 x1 k1 x2 k2 x3 k3 x4 k4 x5 k5
    exact Typed.point.et_kernel_uuu ok hC h2 h18 h30 h60 h15 (Rep.of_upTo ok hCL k0) (Rep.of_upTo ok hCL k1) (Rep.of_upTo ok hCL k2) (Rep.of_upTo ok hCL k3) (Rep.of_upTo ok hCL k4) (Rep.of_upTo ok hCL k5) rfl
  · intro x0 k0 x1 k1 x2 k2 x3 k3 x4 k4 x5 k5
    exact Typed.point.et_kernel_een ok hC h2 h18 h30 h60 h15 (Rep.of_upTo ok hCL k0) (Rep.of_upTo ok hCL k1) (Rep.of_upTo ok hCL k2) (Rep.of_upTo ok hCL k3) (Rep.of_upTo ok hCL k4) (Rep.of_upTo ok hCL k5) rfl
  · intro x0 k0 x1 k1 x2 k2 x3 k3 x4 k4 x5 k5
    exact Typed.point.et_kernel_eeu ok hC h2 h18 h30 h60 h15 (Rep.of_upTo ok hCL k0) (Rep.of_upTo ok hCL k1) (Rep.of_upTo ok hCL k2) (Rep.of_upTo ok hCL k3) (Rep.of_upTo ok hCL k4) (Rep.of_upTo ok hCL k5) rfl
  · intro x0 k0 x1 k1 x2 k2 x3 k3 x4 k4 x5 k5
    exact Typed.point.et_kernel_nne ok hC h2 h18 h30 h60 h15 (Rep.of_upTo ok hCL k0) (Rep.of_upTo ok hCL k1) (Rep.of_upTo ok hCL k2) (Rep.of_upTo ok hCL k3) (Rep.of_upTo ok hCL k4) (Rep.of_upTo ok hCL k5) rfl
  · intro x0 k0 x1 k1 x2 k2 x3 k3 x4 k4 x5 k5
    exact Typed.point.et_kernel_nnu ok hC h2 h18 h30 h60 h15 (Rep.of_upTo ok hCL k0) (Rep.of_upTo ok hCL k1) (Rep.of_upTo ok hCL k2) (Rep.of_upTo ok hCL k3) (Rep.of_upTo ok hCL k4) (Rep.of_upTo ok hCL k5) rfl
  · intro x0 k0 x1 k1 x2 k2 x3 k3 x4 k4 x5 k5
    exact Typed.point.et_kernel_uue ok hC h2 h18 h30 h60 h15 (Rep.of_upTo ok hCL k0) (Rep.of_upTo ok hCL k1) (Rep.of_upTo ok hCL k2) (Rep.of_upTo ok hCL k3) (Rep.of_upTo ok hCL k4) (Rep.of_upTo ok hCL k5) rfl
  · intro x0 k0 x1 k1 x2 k2 x3 k3 x4 k4 x5 k5
    exact Typed.point.et_kernel_uun ok hC h2 h18 h30 h60 h15 (Rep.of_upTo ok hCL k0) (Rep.of_upTo ok hCL k1) (Rep.of_upTo ok hCL k2) (Rep.of_upTo ok hCL k3) (Rep.of_upTo ok hCL k4) (Rep.of_upTo ok hCL k5) rfl
  · intro x0 k0 x1 k1 x2 k2 x3 k3 x4 k4 x5 k5
    exact Typed.point.et_kernel_enu ok hC h2 h18 h30 h60 h15 (Rep.of_upTo ok hCL k0) (Rep.of_upTo ok hCL k1) (Rep.of_upTo ok hCL k2) (Rep.of_upTo ok hCL k3) (Rep.of_upTo ok hCL k4) (Rep.of_upTo ok hCL k5) rfl

/-- The same for the kernels of prisms (the radius argument is a float). -/
theorem C89_prism_kernels (hA : A.ExactInts L) (hL : L < 2 ^ 63) (hC : 4 * C ^ 2 ≤ L) (h15 : 15 ≤ L) (r : Fl A) :
    OnInts SameCall [C, C, C] (fun a b c => Typed.prism.kernel_pot (A := A) a b c (.flt r)) (fun a b c => prism.kernel_pot a b c r)
    ∧ OnInts SameCall [C, C, C] (fun a b c => Typed.prism.kernel_e (A := A) a b c (.flt r)) (fun a b c => prism.kernel_e a b c r)
    ∧ OnInts SameCall [C, C, C] (fun a b c => Typed.prism.kernel_n (A := A) a b c (.flt r)) (fun a b c => prism.kernel_n a b c r)
    ∧ OnInts SameCall [C, C, C] (fun a b c => Typed.prism.kernel_u (A := A) a b c (.flt r)) (fun a b c => prism.kernel_u a b c r)
    ∧ OnInts SameCall [C, C, C] (fun a b c => Typed.prism.kernel_ee (A := A) a b c (.flt r)) (fun a b c => prism.kernel_ee a b c r)
    ∧ OnInts SameCall [C, C, C] (fun a b c => Typed.prism.kernel_nn (A := A) a b c (.flt r)) (fun a b c => prism.kernel_nn a b c r)
    ∧ OnInts SameCall [C, C, C] (fun a b c => Typed.prism.kernel_uu (A := A) a b c (.flt r)) (fun a b c => prism.kernel_uu a b c r)
    ∧ OnInts SameCall [C, C, C] (fun a b c => Typed.prism.kernel_en (A := A) a b c (.flt r)) (fun a b c => prism.kernel_en a b c r)
    ∧ OnInts SameCall [C, C, C] (fun a b c => Typed.prism.kernel_eu (A := A) a b c (.flt r)) (fun a b c => prism.kernel_eu a b c r)
    ∧ OnInts SameCall [C, C, C] (fun a b c => Typed.prism.kernel_nu (A := A) a b c (.flt r)) (fun a b c => prism.kernel_nu a b c r) := by
  have ok : IntOK A L := ⟨hA, hL⟩
  have h2 := two_mul_le_of_sq' hC
  have hCL : C ≤ L := by omega
  have h3 : 3 * C ^ 2 ≤ L := by omega
  refine ⟨?_, ?_, ?_, ?_, ?_, ?_, ?_, ?_, ?_, ?_⟩
  · intro x0 k0 x1 k1 x2 k2
    exact Typed.prism.et_kernel_pot ok h3 h2 h15 (Rep.of_upTo ok hCL k0) (Rep.of_upTo ok hCL k1) (Rep.of_upTo ok hCL k2) rfl
  · intro x0 k0 x1 k1 x2 k2
    exact Typed.prism.et_kernel_e ok h3 h2 h15 (Rep.of_upTo ok hCL k0) (Rep.of_upTo ok hCL k1) (Rep.of_upTo ok hCL k2) rfl
  · intro x0 k0 x1 k1 x2 k2
    exact Typed.prism.et_kernel_n ok h3 h2 h15 (Rep.of_upTo ok hCL k0) (Rep.of_upTo ok hCL k1) (Rep.of_upTo ok hCL k2) rfl
  · intro x0 k0 x1 k1 x2 k2
    exact Typed.prism.et_kernel_u ok h3 h2 h15 (Rep.of_upTo ok hCL k0) (Rep.of_upTo ok hCL k1) (Rep.of_upTo ok hCL k2) rfl
  · intro x0 k0 x1 k1 x2 k2
    exact Typed.prism.et_kernel_ee ok h3 h2 h15 (Rep.of_upTo ok hCL k0) (Rep.of_upTo ok hCL k1) (Rep.of_upTo ok hCL k2) rfl
  · intro x0 k0 x1 k1 x2 k2
    exact Typed.prism.et_kernel_nn ok h3 h2 h15 (Rep.of_upTo ok hCL k0) (Rep.of_upTo ok hCL k1) (Rep.of_upTo ok hCL k2) rfl
  · intro x0 k0 x1 k1 x2 k2
    exact Typed.prism.et_kernel_uu ok h3 h2 h15 (Rep.of_upTo ok hCL k0) (Rep.of_upTo ok hCL k1) (Rep.of_upTo ok hCL k2) rfl
  · intro x0 k0 x1 k1 x2 k2
    exact Typed.prism.et_kernel_en ok h3 h2 h15 (Rep.of_upTo ok hCL k0) (Rep.of_upTo ok hCL k1) (Rep.of_upTo ok hCL k2) rfl
  · intro x0 k0 x1 k1 x2 k2
    exact Typed.prism.et_kernel_eu ok h3 h2 h15 (Rep.of_upTo ok hCL k0) (Rep.of_upTo ok hCL k1) (Rep.of_upTo ok hCL k2) rfl
  · intro x0 k0 x1 k1 x2 k2
    exact Typed.prism.et_kernel_nu ok h3 h2 h15 (Rep.of_upTo ok hCL k0) (Rep.of_upTo ok hCL k1) (Rep.of_upTo ok hCL k2) rfl

/-- The same for the third-order kernels of prisms. -/
theorem C89_prism_kernels_third (hA : A.ExactInts L) (hL : L < 2 ^ 63) (hC : 4 * C ^ 4 ≤ L) (h15 : 15 ≤ L) (r : Fl A) :
    OnInts SameCall [C, C, C] (fun a b c => Typed.prism.kernel_eee (A := A) a b c (.flt r)) (fun a b c => prism.kernel_eee a b c r)
    ∧ OnInts SameCall [C, C, C] (fun a b c => Typed.prism.kernel_nnn (A := A) a b c (.flt r)) (fun a b c => prism.kernel_nnn a b c r)
    ∧ OnInts SameCall [C, C, C] (fun a b c => Typed.prism.kernel_uuu (A := A) a b c (.flt r)) (fun a b c => prism.kernel_uuu a b c r)
    ∧ OnInts SameCall [C, C, C] (fun a b c => Typed.prism.kernel_een (A := A) a b c (.flt r)) (fun a b c => prism.kernel_een a b c r)
    ∧ OnInts SameCall [C, C, C] (fun a b c => Typed.prism.kernel_eeu (A := A) a b c (.flt r)) (fun a b c => prism.kernel_eeu a b c r)
    ∧ OnInts SameCall [C, C, C] (fun a b c => Typed.prism.kernel_enn (A := A) a b c (.flt r)) (fun a b c => prism.kernel_enn a b c r)
    ∧ OnInts SameCall [C, C, C] (fun a b c => Typed.prism.kernel_nnu (A := A) a b c (.flt r)) (fun a b c => prism.kernel_nnu a b c r)
    ∧ OnInts SameCall [C, C, C] (fun a b c => Typed.prism.kernel_euu (A := A) a b c (.flt r)) (fun a b c => prism.kernel_euu a b c r)
    ∧ OnInts SameCall [C, C, C] (fun a b c => Typed.prism.kernel_nuu (A := A) a b c (.flt r)) (fun a b c => prism.kernel_nuu a b c r)
    ∧ OnInts SameCall [C, C, C] (fun a b c => Typed.prism.kernel_enu (A := A) a b c (.flt r)) (fun a b c => prism.kernel_enu a b c r) := by
  have ok : IntOK A L := ⟨hA, hL⟩
  obtain ⟨h3, h2, h4⟩ := fourth_bounds hC
  have hCL : C ≤ L := by omega
  refine ⟨?_, ?_, ?_, ?_, ?_, ?_, ?_, ?_, ?_, ?_⟩
  · intro x0 k0 x1 k1 x2 k2
    exact Typed.prism.et_kernel_eee ok hC h3 h2 h15 h4 (Rep.of_upTo ok hCL k0) (Rep.of_upTo ok hCL k1) (Rep.of_upTo ok hCL k2) rfl
  · intro x0 k0 x1 k1 x2 k2
    exact Typed.prism.et_kernel_nnn ok hC h3 h2 h15 h4 (Rep.of_upTo ok hCL k0) (Rep.of_upTo ok hCL k1) (Rep.of_upTo ok hCL k2) rfl
  · intro x0 k0 x1 k1 x2 k2
    exact Typed.prism.et_kernel_uuu ok hC h3 h2 h15 h4 (Rep.of_upTo ok hCL k0) (Rep.of_upTo ok hCL k1) (Rep.of_upTo ok hCL k2) rfl
  · intro x0 k0 x1 k1 x2 k2
    exact Typed.prism.et_kernel_een ok hC h3 h2 h15 h4 (Rep.of_upTo ok hCL k0) (Rep.of_upTo ok hCL k1) (Rep.of_upTo ok hCL k2) rfl
  · intro x0 k0 x1 k1 x2 k2
    exact Typed.prism.et_kernel_eeu ok hC h3 h2 h15 h4 (Rep.of_upTo ok hCL k0) (Rep.of_upTo ok hCL k1) (Rep.of_upTo ok hCL k2) rfl
  · intro x0 k0 x1 k1 x2 k2
    exact Typed.prism.et_kernel_enn ok hC h3 h2 h15 h4 (Rep.of_upTo ok hCL k0) (Rep.of_upTo ok hCL k1) (Rep.of_upTo ok hCL k2) rfl
  · intro x0 k0 x1 k1 x2 k2
    exact Typed.prism.et_kernel_nnu ok hC h3 h2 h15 h4 (Rep.of_upTo ok hCL k0) (Rep.of_upTo ok hCL k1) (Rep.of_upTo ok hCL k2) rfl
  · intro x0 k0 x1 k1 x2 k2
    exact Typed.prism.et_kernel_euu ok hC h3 h2 h15 h4 (Rep.of_upTo ok hCL k0) (Rep.of_upTo ok hCL k1) (Rep.of_upTo ok hCL k2) rfl
  · intro x0 k0 x1 k1 x2 k2
    exact Typed.prism.et_kernel_nuu ok hC h3 h2 h15 h4 (Rep.of_upTo ok hCL k0) (Rep.of_upTo ok hCL k1) (Rep.of_upTo ok hCL k2) rfl
  · intro x0 k0 x1 k1 x2 k2
    exact Typed.prism.et_kernel_enu ok hC h3 h2 h15 h4 (Rep.of_upTo ok hCL k0) (Rep.of_upTo ok hCL k1) (Rep.of_upTo ok hCL k2) rfl

/-- The same for the predicates about points and prisms. -/
theorem C89_prism_points (hA : A.ExactInts L) (hL : L < 2 ^ 63) :
    OnInts (fun x y => x = y) [L, L, L, L, L, L, L, L, L] (Typed.prism.is_interior_point (A := A)) prism.is_interior_point
    ∧ OnInts (fun x y => x = y) [L, L, L, L, L, L, L, L, L] (Typed.prism.is_point_on_easting_edge (A := A)) prism.is_point_on_easting_edge
    ∧ OnInts (fun x y => x = y) [L, L, L, L, L, L, L, L, L] (Typed.prism.is_point_on_northing_edge (A := A)) prism.is_point_on_northing_edge
    ∧ OnInts (fun x y => x = y) [L, L, L, L, L, L, L, L, L] (Typed.prism.is_point_on_upward_edge (A := A)) prism.is_point_on_upward_edge
    ∧ OnInts (fun x y => x = y) [L, L, L, L, L, L, L, L, L] (Typed.prism.is_point_on_edge (A := A)) prism.is_point_on_edge
    ∧ OnInts (fun x y => x = y) [L, L, L, L, L, L, L, L, L] (Typed.prism.is_point_on_east_face (A := A)) prism.is_point_on_east_face
    ∧ OnInts (fun x y => x = y) [L, L, L, L, L, L, L, L, L] (Typed.prism.is_point_on_north_face (A := A)) prism.is_point_on_north_face
    ∧ OnInts (fun x y => x = y) [L, L, L, L, L, L, L, L, L] (Typed.prism.is_point_on_top_face (A := A)) prism.is_point_on_top_face := by
  have ok : IntOK A L := ⟨hA, hL⟩
  refine ⟨?_, ?_, ?_, ?_, ?_, ?_, ?_, ?_⟩
  · intro x0 k0 x1 k1 x2 k2 x3 k3 x4 k4 x5 k5 x6 k6 x7 k7 x8 k8
    exact Typed.prism.is_interior_point_typed ok (Rep.of_upTo ok le_rfl k0) (Rep.of_upTo ok le_rfl k1) (Rep.of_upTo ok le_rfl k2) (Rep.of_upTo ok le_rfl k3) (Rep.of_upTo ok le_rfl k4) (Rep.of_upTo ok le_rfl k5) (Rep.of_upTo ok le_rfl k6) (Rep.of_upTo ok le_rfl k7) (Rep.of_upTo ok le_rfl k8)
  · intro x0 k0 x1 k1 x2 k2 x3 k3 x4 k4 x5 k5 x6 k6 x7 k7 x8 k8
    exact Typed.prism.is_point_on_easting_edge_typed ok (Rep.of_upTo ok le_rfl k0) (Rep.of_upTo ok le_rfl k1) (Rep.of_upTo ok le_rfl k2) (Rep.of_upTo ok le_rfl k3) (Rep.of_upTo ok le_rfl k4) (Rep.of_upTo ok le_rfl k5) (Rep.of_upTo ok le_rfl k6) (Rep.of_upTo ok le_rfl k7) (Rep.of_upTo ok le_rfl k8)
  · intro x0 k0 x1 k1 x2 k2 x3 k3 x4 k4 x5 k5 x6 k6 x7 k7 x8 k8
    exact Typed.prism.is_point_on_northing_edge_typed ok (Rep.of_upTo ok le_rfl k0) (Rep.of_upTo ok le_rfl k1) (Rep.of_upTo ok le_rfl k2) (Rep.of_upTo ok le_rfl k3) (Rep.of_upTo ok le_rfl k4) (Rep.of_upTo ok le_rfl k5) (Rep.of_upTo ok le_rfl k6) (Rep.of_upTo ok le_rfl k7) (Rep.of_upTo ok le_rfl k8)
  · intro x0 k0 x1 k1 x2 k2 x3 k3 x4 k4 x5 k5 x6 k6 x7 k7 x8 k8
    exact Typed.prism.is_point_on_upward_edge_typed ok (Rep.of_upTo ok le_rfl k0) (Rep.of_upTo ok le_rfl k1) (Rep.of_upTo ok le_rfl k2) (Rep.of_upTo ok le_rfl k3) (Rep.of_upTo ok le_rfl k4) (Rep.of_upTo ok le_rfl k5) (Rep.of_upTo ok le_rfl k6) (Rep.of_upTo ok le_rfl k7) (Rep.of_upTo ok le_rfl k8)
  · intro x0 k0 x1 k1 x2 k2 x3 k3 x4 k4 x5 k5 x6 k6 x7 k7 x8 k8
    exact Typed.prism.is_point_on_edge_typed ok (Rep.of_upTo ok le_rfl k0) (Rep.of_upTo ok le_rfl k1) (Rep.of_upTo ok le_rfl k2) (Rep.of_upTo ok le_rfl k3) (Rep.of_upTo ok le_rfl k4) (Rep.of_upTo ok le_rfl k5) (Rep.of_upTo ok le_rfl k6) (Rep.of_upTo ok le_rfl k7) (Rep.of_upTo ok le_rfl k8)
  · intro x0 k0 x1 k1 x2 k2 x3 k3 x4 k4 x5 k5 x6 k6 x7 k7 x8 k8
    exact Typed.prism.is_point_on_east_face_typed ok (Rep.of_upTo ok le_rfl k0) (Rep.of_upTo ok le_rfl k1) (Rep.of_upTo ok le_rfl k2) (Rep.of_upTo ok le_rfl k3) (Rep.of_upTo ok le_rfl k4) (Rep.of_upTo ok le_rfl k5) (Rep.of_upTo ok le_rfl k6) (Rep.of_upTo ok le_rfl k7) (Rep.of_upTo ok le_rfl k8)
  · intro x0 k0 x1 k1 x2 k2 x3 k3 x4 k4 x5 k5 x6 k6 x7 k7 x8 k8
    exact Typed.prism.is_point_on_north_face_typed ok (Rep.of_upTo ok le_rfl k0) (Rep.of_upTo ok le_rfl k1) (Rep.of_upTo ok le_rfl k2) (Rep.of_upTo ok le_rfl k3) (Rep.of_upTo ok le_rfl k4) (Rep.of_upTo ok le_rfl k5) (Rep.of_upTo ok le_rfl k6) (Rep.of_upTo ok le_rfl k7) (Rep.of_upTo ok le_rfl k8)
  · intro x0 k0 x1 k1 x2 k2 x3 k3 x4 k4 x5 k5 x6 k6 x7 k7 x8 k8
    exact Typed.prism.is_point_on_top_face_typed ok (Rep.of_upTo ok le_rfl k0) (Rep.of_upTo ok le_rfl k1) (Rep.of_upTo ok le_rfl k2) (Rep.of_upTo ok le_rfl k3) (Rep.of_upTo ok le_rfl k4) (Rep.of_upTo ok le_rfl k5) (Rep.of_upTo ok le_rfl k6) (Rep.of_upTo ok le_rfl k7) (Rep.of_upTo ok le_rfl k8)

/-! ## Exact arithmetic and double precision -/

theorem Exact_exactInts (L : ℕ) : Exact.ExactInts L := ⟨fun _ _ => rfl, fun _ _ _ => rfl⟩

theorem B64.isF_ofInt {n : ℤ} (h : |n| ≤ 2 ^ 53) : B64.IsF (n : ℝ) :=
  ⟨n, 0, h, by norm_num, by simp⟩

theorem B64.rnd_ofInt {n : ℤ} (h : |n| ≤ 2 ^ 53) : B64.rnd (n : ℝ) = .fin n := by
  refine (B64.isF_ofInt h).rnd ?_
  have h1 : |(n : ℝ)| ≤ 2 ^ (53 : ℤ) := by
    have : ((|n| : ℤ) : ℝ) ≤ ((2 ^ 53 : ℤ) : ℝ) := Int.cast_le.2 h
    rw [Int.cast_abs] at this
    rw [show ((2 : ℝ) ^ (53 : ℤ)) = ((2 ^ 53 : ℤ) : ℝ) by norm_num]
    exact this
  exact lt_of_le_of_lt h1 (zpow_lt_zpow_right₀ (by norm_num) (by norm_num))

theorem Binary64_exactInts : Binary64.ExactInts (2 ^ 53) := by
  refine ⟨fun n h => B64.rnd_ofInt (by simpa using h), fun n k h => ?_⟩
  show B64.rnd ((n : ℝ) ^ k) = _
  have := B64.rnd_ofInt (n := n ^ k) (by simpa using h)
  push_cast at this
  exact this

/-- In double precision, integer coordinates up to `2^24` m (16777 km) give the gravity fields of point masses
and prisms and the magnetic field of prisms bit for bit. -/
theorem C89_double :
    OnInts SameCall (List.replicate 6 (2 ^ 24) ++ [2 ^ 53]) (Typed.point.gravity_u (A := Binary64)) point.gravity_u
    ∧ OnInts SameCall (List.replicate 9 (2 ^ 24) ++ [2 ^ 53]) (Typed.prism.gravity_u (A := Binary64)) prism.gravity_u
    ∧ OnInts SameCall (List.replicate 9 (2 ^ 24) ++ [2 ^ 53]) (Typed.prism.gravity_uu (A := Binary64)) prism.gravity_uu
    ∧ OnInts SameCall (List.replicate 9 (2 ^ 24) ++ List.replicate 3 (2 ^ 53)) (Typed.prism.magnetic_u (A := Binary64))
        prism.magnetic_u
    ∧ OnInts SameCall (List.replicate 9 (2 ^ 11) ++ List.replicate 3 (2 ^ 53)) (Typed.prism.magnetic_uu (A := Binary64))
        prism.magnetic_uu := by
  have h1 := C89_point_gravity (C := 2 ^ 24) Binary64_exactInts (by norm_num) (by norm_num) (by norm_num)
  have h2 := C89_prism_gravity (C := 2 ^ 24) Binary64_exactInts (by norm_num) (by norm_num) (by norm_num)
  have h3 := C89_prism_magnetic (C := 2 ^ 24) Binary64_exactInts (by norm_num) (by norm_num) (by norm_num)
  have h4 := C89_prism_gradients (C := 2 ^ 11) Binary64_exactInts (by norm_num) (by norm_num) (by norm_num)
  exact ⟨h1.2.2.2.1, h2.2.2.2.1, h2.2.2.2.2.2.2.1, h3.2.2.2, h4.2.2.1⟩

/-! ## Overflow -/

theorem Typed.kernel_iii_overflow {r : ℝ} (h0 : A.rnd 0 = .fin 0) (hr : r ≠ 0) :
    Typed.prism._kernel_iii (.int 65536) (.int 65536) (.int 65536) (.flt (Fl.fin r) : TFl A)
      = .error .zeroDivision := by
  have w1 : wrap64 (65536 ^ 2) = 4294967296 := by decide
  have w2 : wrap64 (4294967296 + 4294967296) = 8589934592 := by decide
  have w3 : wrap64 (8589934592 * 8589934592) = 0 := by decide
  have e0 : TFl.eq (.flt (Fl.fin r) : TFl A) 0 = false := by
    show Fl.eq (Fl.fin r) (Fl.ofRaw (A.rnd ((0 : ℕ) : ℤ))) = false
    norm_num [h0]
    show decide (r = 0) = false
    simpa using hr
  have e1 : TFl.eq (.int 65536 : TFl A) 0 = false := by
    show decide ((65536 : ℤ) = ((0 : ℕ) : ℤ)) = false
    decide
  unfold Typed.prism._kernel_iii
  simp only [e0, e1]
  have hd : ((.int 65536 : TFl A) ^ 2 + (.int 65536 : TFl A) ^ 2) * ((.int 65536 : TFl A) ^ 2 + (.int 65536 : TFl A) ^ 2)
      * (.flt (Fl.fin r)) = .flt (Fl.fin 0) := by
    show (TFl.mul (.int (wrap64 (wrap64 (wrap64 (65536 ^ 2) + wrap64 (65536 ^ 2)) *
      wrap64 (wrap64 (65536 ^ 2) + wrap64 (65536 ^ 2)))) : TFl A) (.flt (Fl.fin r))) = _
    rw [w1, w2, w3]
    show TFl.flt (Fl.mul (Fl.ofRaw (A.rnd ((0 : ℤ) : ℝ))) (Fl.fin r)) = _
    rw [Int.cast_zero, h0]
    show TFl.flt (Fl.ofRaw (A.rnd (0 * r))) = _
    rw [zero_mul, h0]
    rfl
  simp only [hd, Bool.false_and, Bool.or_self, Bool.false_eq_true, if_false]
  generalize (-(.int 65536 : TFl A)) * .int 65536 * (2 * (.int 65536) ^ 2 + .int 65536 ^ 2 + .int 65536 ^ 2) = N
  have : (N /ᵢ (.flt (Fl.fin 0))) = .error .zeroDivision := by
    unfold TFl.div
    generalize N.toFl = x
    show (Fl.div x (Fl.fin 0)).map _ = _
    rcases x with _ | _ | x <;> simp [Fl.div, Fl.fin] <;> rfl
  exact this

theorem Typed.magnetic_ee_overflow {r : ℝ} (h0 : A.rnd 0 = .fin 0)
    (h1 : A.rnd 12884901888 = .fin 12884901888)
    (hs : A.rnd (Real.sqrt 12884901888) = .fin r) (hr : r ≠ 0) (Me Mn Mu : TFl A) :
    Typed.prism.magnetic_ee (.int 0) (.int 0) (.int 0) (.int 1) (.int 65536) (.int 1) (.int 65536) (.int 1)
      (.int 65536) Me Mn Mu = .error .zeroDivision := by
  have w1 : wrap64 (65536 ^ 2) = 4294967296 := by decide
  have hrad : TFl.sqrt ((.int 65536 : TFl A) ^ 2 + (.int 65536 : TFl A) ^ 2 + (.int 65536 : TFl A) ^ 2)
      = .flt (Fl.fin r) := by
    have : ((.int 65536 : TFl A) ^ 2 + (.int 65536 : TFl A) ^ 2 + (.int 65536 : TFl A) ^ 2) = .int 12884901888 := by
      show TFl.int (wrap64 (wrap64 (wrap64 (65536 ^ 2) + wrap64 (65536 ^ 2)) + wrap64 (65536 ^ 2))) = _
      rw [w1, show wrap64 (wrap64 (4294967296 + 4294967296) + 4294967296) = 12884901888 by decide]
    rw [this]
    show TFl.flt (Fl.sqrt (Fl.ofRaw (A.rnd ((12884901888 : ℤ) : ℝ)))) = _
    rw [show ((12884901888 : ℤ) : ℝ) = 12884901888 by norm_num, h1]
    show TFl.flt (if (12884901888 : ℝ) < 0 then Fl.nan else Fl.ofRaw (A.rnd _)) = _
    rw [if_neg (by norm_num), hs]
    rfl
  have hsub : (.int 65536 : TFl A) - .int 0 = .int 65536 := by
    show TFl.int (wrap64 (65536 - 0)) = _
    rw [show wrap64 (65536 - 0) = 65536 by decide]
  have hc : (Typed.prism.is_point_on_edge (.int 0 : TFl A) (.int 0) (.int 0) (.int 1) (.int 65536) (.int 1) (.int 65536)
      (.int 1) (.int 65536) || Typed.prism.is_interior_point (.int 0 : TFl A) (.int 0) (.int 0) (.int 1) (.int 65536)
      (.int 1) (.int 65536) (.int 1) (.int 65536)) = false := by
    simp [Typed.prism.is_point_on_edge, Typed.prism.is_interior_point, Typed.prism.is_point_on_easting_edge,
      Typed.prism.is_point_on_northing_edge, Typed.prism.is_point_on_upward_edge, TFl.le, TFl.lt, TFl.eq]
  unfold Typed.prism.magnetic_ee
  rw [hc]
  simp only [Bool.false_eq_true, if_false]
  unfold Typed.prism._calculate_component
  simp only [List.forIn_cons, hsub, if_true, hrad, Typed.prism.kernel_eee, Typed.kernel_iii_overflow h0 hr]
  rfl

theorem B64.sqrt_fin : ∃ r : ℝ, B64.rnd (Real.sqrt 12884901888) = .fin r ∧ r ≠ 0 := by
  have h1 : (1 : ℝ) ≤ Real.sqrt 12884901888 := by
    rw [show (1 : ℝ) = Real.sqrt 1 by simp]
    exact Real.sqrt_le_sqrt (by norm_num)
  have h2 : Real.sqrt 12884901888 ≤ 2 ^ 53 := by
    rw [Real.sqrt_le_left (by norm_num)]
    norm_num
  have e1 : B64.round 1 = 1 := (show B64.IsF 1 by exact_mod_cast B64.isF_ofInt (n := 1) (by norm_num)).round
  have e2 : B64.round (2 ^ 53) = 2 ^ 53 :=
    (show B64.IsF (2 ^ 53) by
      have := B64.isF_ofInt (n := 9007199254740992) (by norm_num)
      norm_num at this ⊢
      exact this).round
  have a1 := B64.round_mono h1
  have a2 := B64.round_mono h2
  rw [e1] at a1
  rw [e2] at a2
  refine ⟨B64.round (Real.sqrt 12884901888), ?_, by linarith⟩
  unfold B64.rnd
  rw [if_pos]
  rw [abs_of_nonneg (by linarith)]
  refine lt_of_le_of_lt a2 ?_
  exact_mod_cast (zpow_lt_zpow_right₀ (by norm_num : (1 : ℝ) < 2) (by norm_num : (53 : ℤ) < 1024))

/-- The prism of the overflow example. -/
def bigPrism : Box := ⟨1, 65536, 1, 65536, 1, 65536⟩

/-- Beyond the bounds the results differ.  For a prism between 1 m and 65536 m in each direction and an
observation point at the origin, `magnetic_ee` returns a number if the coordinates are floats, but raises
ZeroDivisionError if the same coordinates are integers (in exact and in double precision arithmetic). -/
theorem C89_overflow (Me Mn Mu : ℝ) :
    (∃ v : ℝ, Returns (onPrism (A := Exact) prism.magnetic_ee (0, 0, 0) bigPrism Me Mn Mu) v)
    ∧ Typed.prism.magnetic_ee (A := Exact) (.int 0) (.int 0) (.int 0) (.int 1) (.int 65536) (.int 1) (.int 65536)
        (.int 1) (.int 65536) (.flt Me) (.flt Mn) (.flt Mu) = .error .zeroDivision
    ∧ Typed.prism.magnetic_ee (A := Binary64) (.int 0) (.int 0) (.int 0) (.int 1) (.int 65536) (.int 1)
        (.int 65536) (.int 1) (.int 65536) (.flt Me) (.flt Mn) (.flt Mu) = .error .zeroDivision := by
  refine ⟨⟨_, Ex.magnetic_returns (c := .ee) ?_ ?_ ?_ Me Mn Mu⟩, ?_, ?_⟩
  · refine ⟨?_, ?_, ?_⟩ <;> norm_num [bigPrism]
  · norm_num [Box.edges, Box.edgesE, Box.edgesN, Box.edgesU, bigPrism]
  · norm_num [Box.inside, bigPrism]
  · refine Typed.magnetic_ee_overflow rfl rfl rfl ?_ _ _ _
    positivity
  · obtain ⟨r, h1, h2⟩ := B64.sqrt_fin
    refine Typed.magnetic_ee_overflow B64.rnd_zero ?_ h1 h2 _ _ _
    exact_mod_cast B64.rnd_ofInt (n := 12884901888) (by norm_num)

/-- `point.kernel_eee` for a displacement of 2^21 m (2097 km) along easting: `-6 / 2^84` if the coordinates
are floats, `10 / 2^84`, of the wrong sign, if they are integers. -/
theorem C89_overflow_point :
    point.kernel_eee (A := Exact) 2097152 0 0 0 0 0 2097152 = .ok (Fl.fin (-6 / 2 ^ 84))
    ∧ Typed.point.kernel_eee (A := Exact) (.int 2097152) (.int 0) (.int 0) (.int 0) (.int 0) (.int 0) (.flt 2097152)
      = .ok (.flt (Fl.fin (10 / 2 ^ 84))) := by
  have d5 : ((2097152 : ℕ) : ℝ) ^ 5 ≠ 0 := by norm_num
  have d7 : ((2097152 : ℕ) : ℝ) ^ 7 ≠ 0 := by norm_num
  constructor
  · have e1 : (9 * ((2097152 : Fl Exact) - 0) /. (2097152 : Fl Exact) ^ 5)
        = .ok (Fl.fin (9 / 2 ^ 84)) := by
      show (if ((2097152 : ℕ) : ℝ) ^ 5 = 0 then _ else Except.ok _) = _
      rw [if_neg d5]
      refine congrArg (fun x : ℝ => (Except.ok (Fl.fin x) : Py (Fl Exact))) ?_
      norm_num
    have e2 : (15 * ((2097152 : Fl Exact) - 0) ^ 3 /. (2097152 : Fl Exact) ^ 7)
        = .ok (Fl.fin (15 / 2 ^ 84)) := by
      show (if ((2097152 : ℕ) : ℝ) ^ 7 = 0 then _ else Except.ok _) = _
      rw [if_neg d7]
      refine congrArg (fun x : ℝ => (Except.ok (Fl.fin x) : Py (Fl Exact))) ?_
      norm_num
    simp only [point.kernel_eee, e1, e2]
    refine congrArg (fun x : ℝ => (Except.ok (Fl.fin x) : Py (Fl Exact))) ?_
    norm_num
  · have hs : ((.int 2097152 : TFl Exact) - .int 0) = .int 2097152 := by
      show TFl.int (wrap64 (2097152 - 0)) = _
      rw [show wrap64 (2097152 - 0) = 2097152 by decide]
    have h9 : (9 * (.int 2097152 : TFl Exact)) = .int 18874368 := by
      show TFl.int (wrap64 (9 * 2097152)) = _
      rw [show wrap64 (9 * 2097152) = 18874368 by decide]
    have h15 : (15 * (.int 2097152 : TFl Exact) ^ 3) = .int (-9223372036854775808) := by
      show TFl.int (wrap64 (15 * wrap64 (2097152 ^ 3))) = _
      rw [show wrap64 (15 * wrap64 (2097152 ^ 3)) = -9223372036854775808 by decide]
    have e1 : ((.int 18874368 : TFl Exact) /ᵢ (.flt 2097152 : TFl Exact) ^ 5)
        = .ok (.flt (Fl.fin (9 / 2 ^ 84))) := by
      show (Except.map TFl.flt (if ((2097152 : ℕ) : ℝ) ^ 5 = 0 then _ else Except.ok _) : Py (TFl Exact)) = _
      rw [if_neg d5]
      refine congrArg (fun x : ℝ => (Except.ok (.flt (Fl.fin x)) : Py (TFl Exact))) ?_
      norm_num
    have e2 : ((.int (-9223372036854775808) : TFl Exact) /ᵢ (.flt 2097152 : TFl Exact) ^ 7)
        = .ok (.flt (Fl.fin (-1 / 2 ^ 84))) := by
      show (Except.map TFl.flt (if ((2097152 : ℕ) : ℝ) ^ 7 = 0 then _ else Except.ok _) : Py (TFl Exact)) = _
      rw [if_neg d7]
      refine congrArg (fun x : ℝ => (Except.ok (.flt (Fl.fin x)) : Py (TFl Exact))) ?_
      norm_num
    simp only [Typed.point.kernel_eee, hs, h9, h15, e1, e2]
    refine congrArg (fun x : ℝ => (Except.ok (.flt (Fl.fin x)) : Py (TFl Exact))) ?_
    norm_num

/-- Non-vacuity of `C89_prism_gradients`: a call with integers for the observation point and the prism and a
float for one component of the magnetization. -/
example : SameCall (A := Binary64)
    (Typed.prism.magnetic_uu (.int 0) (.int 10) (.int 5) (.int (-100)) (.int 200) (.int 0) (.int 1500) (.int (-1000))
      (.int (-1)) (.flt 2) (.int 1) (.int 0))
    (prism.magnetic_uu (TFl.int 0).toFl (TFl.int 10).toFl (TFl.int 5).toFl (TFl.int (-100)).toFl (TFl.int 200).toFl
      (TFl.int 0).toFl (TFl.int 1500).toFl (TFl.int (-1000)).toFl (TFl.int (-1)).toFl 2 (TFl.int 1).toFl
      (TFl.int 0).toFl) :=
  C89_double.2.2.2.2 _ (by norm_num [UpTo]) _ (by norm_num [UpTo]) _ (by norm_num [UpTo]) _ (by norm_num [UpTo]) _
    (by norm_num [UpTo]) _ (by norm_num [UpTo]) _ (by norm_num [UpTo]) _ (by norm_num [UpTo]) _ (by norm_num [UpTo])
    _ (by norm_num [UpTo]) _ (by norm_num [UpTo]) _ (by norm_num [UpTo])

end Choclo
