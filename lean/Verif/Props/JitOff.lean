import Verif.Props.PyIntDouble

/-! # Disabling the JIT does not change the results of calls with integers (C145) -/

namespace Choclo

variable {A : Arith} {L C M : ℕ}

open PNum

theorem toFl_compiledArg {B : ℕ} (hX : A.ExactInts L) (hB : B ≤ L) {as : List (PNum A)} {a : PNum A} (h : AllUpTo B as) (ha : a ∈ as) :
    a.compiledArg.toFl = a.number := by
  have := h a ha
  cases a with
  | int n =>
    rw [Sam.val_int]
    exact hX.1 n (le_trans this (by exact_mod_cast hB))
  | float x => rfl
  | np64 x => rfl

theorem upTo_compiledArg {B : ℕ} {as : List (PNum A)} {a : PNum A} (h : AllUpTo B as) (ha : a ∈ as) : UpTo B a.compiledArg := by
  have := h a ha
  cases a with
  | int n => exact this
  | float x => trivial
  | np64 x => trivial

theorem jitAgrees_of {P : Prop} {t : Py (TFl A)} {x : Py (Fl A)} {y : PyX (PNum A)} (h : PyAgrees P False x y) (hs : SameCall t x) :
    JitAgrees P t y := by
  rw [SameCall] at hs
  subst hs
  rcases y with e | w
  · cases e with
    | zeroDivision => exact h.2
    | overflow => exact h
  · rcases x with e | v
    · exact h
    · exact congrArg TFl.flt (Eq.symm h)

theorem jitAgrees3_of {P : Prop} {t : Py (TFl A × TFl A × TFl A)} {x : Py (Fl A × Fl A × Fl A)}
    {y : PyX (PNum A × PNum A × PNum A)} (h : PyAgrees3 P False x y) (hs : SameCall3 t x) : JitAgrees3 P t y := by
  rw [SameCall3] at hs
  subst hs
  rcases y with e | w
  · cases e with
    | zeroDivision => exact h.2
    | overflow => exact h
  · rcases x with e | v
    · exact h
    · have h : (w.1.number, w.2.1.number, w.2.2.number) = v := h
      rw [← h]
      rfl

/-- Cartesian distance of two points. -/
theorem C145_distance (hA : PyArith A) (hX : A.ExactInts L) (hL63 : L < 2 ^ 63) (hC : 12 * C ^ 2 ≤ L) (hL : 15 ≤ L)
    (a b c d e f : PNum A) 
    (hf : AllUpTo C [a, b, c, d, e, f]) :
    JitAgrees (SquareRaises [a - d, b - e, c - f])
      (Typed.utils.distance_cartesian a.compiledArg b.compiledArg c.compiledArg d.compiledArg e.compiledArg f.compiledArg)
      (Python.utils.distance_cartesian a b c d e f) := by
  have hCL : C ≤ L := by simpa using two_le_of (k := 1) hC (by norm_num)
  have g := C144_distance hA hX hC hL a b c d e f hf
  have k := C89_distance (A := A) (C := C) hX hL63 hC
  have g0 := g
  have k0 := k
  have s0 := k0 _ (upTo_compiledArg hf (a := a) (by simp)) _ (upTo_compiledArg hf (a := b) (by simp)) _ (upTo_compiledArg hf (a := c) (by simp)) _ (upTo_compiledArg hf (a := d) (by simp)) _ (upTo_compiledArg hf (a := e) (by simp)) _ (upTo_compiledArg hf (a := f) (by simp))
  rw [toFl_compiledArg hX hCL hf (a := a) (by simp),
    toFl_compiledArg hX hCL hf (a := b) (by simp),
    toFl_compiledArg hX hCL hf (a := c) (by simp),
    toFl_compiledArg hX hCL hf (a := d) (by simp),
    toFl_compiledArg hX hCL hf (a := e) (by simp),
    toFl_compiledArg hX hCL hf (a := f) (by simp)] at s0
  exact jitAgrees_of g0 s0

/-- Spherical distance of two points (longitudes, latitudes, radii). -/
theorem C145_spherical (hA : PyArith A) (hX : A.ExactInts L) (hL63 : L < 2 ^ 63) (hC : 12 * C ^ 2 ≤ L) (hL : 15 ≤ L)
    (a b c d e f : PNum A) 
    (hf : AllUpTo C [a, b, c, d, e, f]) :
    JitAgrees (PowRaises (c - f) 2)
      (Typed.utils.distance_spherical a.compiledArg b.compiledArg c.compiledArg d.compiledArg e.compiledArg f.compiledArg)
      (Python.utils.distance_spherical a b c d e f) := by
  have hCL : C ≤ L := by simpa using two_le_of (k := 1) hC (by norm_num)
  have g := C144_spherical hA hX hC hL a b c d e f hf
  have k := C89_spherical (A := A) (C := C) hX hL63 (by linarith) hL
  have g0 := g
  obtain ⟨k0, k1⟩ := k
  have s0 := k0 _ (upTo_compiledArg hf (a := a) (by simp)) _ (upTo_compiledArg hf (a := b) (by simp)) _ (upTo_compiledArg hf (a := c) (by simp)) _ (upTo_compiledArg hf (a := d) (by simp)) _ (upTo_compiledArg hf (a := e) (by simp)) _ (upTo_compiledArg hf (a := f) (by simp))
  rw [toFl_compiledArg hX hCL hf (a := a) (by simp),
    toFl_compiledArg hX hCL hf (a := b) (by simp),
    toFl_compiledArg hX hCL hf (a := c) (by simp),
    toFl_compiledArg hX hCL hf (a := d) (by simp),
    toFl_compiledArg hX hCL hf (a := e) (by simp),
    toFl_compiledArg hX hCL hf (a := f) (by simp)] at s0
  exact jitAgrees_of g0 s0

/-- Gravity of a point mass. -/
theorem C145_point_gravity (hA : PyArith A) (hX : A.ExactInts L) (hL63 : L < 2 ^ 63) (hC : 12 * C ^ 2 ≤ L) (hL : 15 ≤ L)
    (a b c d e f m : PNum A) 
    (hf : AllUpTo C [a, b, c, d, e, f]) (hm : AllUpTo L [m]) :
    JitAgrees (SquareRaises [a - d, b - e, c - f])
      (Typed.point.gravity_pot a.compiledArg b.compiledArg c.compiledArg d.compiledArg e.compiledArg f.compiledArg m.compiledArg)
      (Python.point.gravity_pot a b c d e f m)
    ∧ JitAgrees (SquareRaises [a - d, b - e, c - f])
      (Typed.point.gravity_e a.compiledArg b.compiledArg c.compiledArg d.compiledArg e.compiledArg f.compiledArg m.compiledArg)
      (Python.point.gravity_e a b c d e f m)
    ∧ JitAgrees (SquareRaises [a - d, b - e, c - f])
      (Typed.point.gravity_n a.compiledArg b.compiledArg c.compiledArg d.compiledArg e.compiledArg f.compiledArg m.compiledArg)
      (Python.point.gravity_n a b c d e f m)
    ∧ JitAgrees (SquareRaises [a - d, b - e, c - f])
      (Typed.point.gravity_u a.compiledArg b.compiledArg c.compiledArg d.compiledArg e.compiledArg f.compiledArg m.compiledArg)
      (Python.point.gravity_u a b c d e f m)
    ∧ JitAgrees (SquareRaises [a - d, b - e, c - f])
      (Typed.point.gravity_ee a.compiledArg b.compiledArg c.compiledArg d.compiledArg e.compiledArg f.compiledArg m.compiledArg)
      (Python.point.gravity_ee a b c d e f m)
    ∧ JitAgrees (SquareRaises [a - d, b - e, c - f])
      (Typed.point.gravity_nn a.compiledArg b.compiledArg c.compiledArg d.compiledArg e.compiledArg f.compiledArg m.compiledArg)
      (Python.point.gravity_nn a b c d e f m)
    ∧ JitAgrees (SquareRaises [a - d, b - e, c - f])
      (Typed.point.gravity_uu a.compiledArg b.compiledArg c.compiledArg d.compiledArg e.compiledArg f.compiledArg m.compiledArg)
      (Python.point.gravity_uu a b c d e f m)
    ∧ JitAgrees (SquareRaises [a - d, b - e, c - f])
      (Typed.point.gravity_en a.compiledArg b.compiledArg c.compiledArg d.compiledArg e.compiledArg f.compiledArg m.compiledArg)
      (Python.point.gravity_en a b c d e f m)
    ∧ JitAgrees (SquareRaises [a - d, b - e, c - f])
      (Typed.point.gravity_eu a.compiledArg b.compiledArg c.compiledArg d.compiledArg e.compiledArg f.compiledArg m.compiledArg)
      (Python.point.gravity_eu a b c d e f m)
    ∧ JitAgrees (SquareRaises [a - d, b - e, c - f])
      (Typed.point.gravity_nu a.compiledArg b.compiledArg c.compiledArg d.compiledArg e.compiledArg f.compiledArg m.compiledArg)
      (Python.point.gravity_nu a b c d e f m) := by
  have hCL : C ≤ L := by simpa using two_le_of (k := 1) hC (by norm_num)
  have g := C144_point_gravity hA hX hC hL a b c d e f m hf hm
  have k := C89_point_gravity (A := A) (C := C) hX hL63 hC hL
  obtain ⟨g0, g1, g2, g3, g4, g5, g6, g7, g8, g9⟩ := g
  obtain ⟨k0, k1, k2, k3, k4, k5, k6, k7, k8, k9⟩ := k
  have s0 := k0 _ (upTo_compiledArg hf (a := a) (by simp)) _ (upTo_compiledArg hf (a := b) (by simp)) _ (upTo_compiledArg hf (a := c) (by simp)) _ (upTo_compiledArg hf (a := d) (by simp)) _ (upTo_compiledArg hf (a := e) (by simp)) _ (upTo_compiledArg hf (a := f) (by simp)) _ (upTo_compiledArg hm (a := m) (by simp))
  rw [toFl_compiledArg hX hCL hf (a := a) (by simp),
    toFl_compiledArg hX hCL hf (a := b) (by simp),
    toFl_compiledArg hX hCL hf (a := c) (by simp),
    toFl_compiledArg hX hCL hf (a := d) (by simp),
    toFl_compiledArg hX hCL hf (a := e) (by simp),
    toFl_compiledArg hX hCL hf (a := f) (by simp),
    toFl_compiledArg hX le_rfl hm (a := m) (by simp)] at s0
  have s1 := k1 _ (upTo_compiledArg hf (a := a) (by simp)) _ (upTo_compiledArg hf (a := b) (by simp)) _ (upTo_compiledArg hf (a := c) (by simp)) _ (upTo_compiledArg hf (a := d) (by simp)) _ (upTo_compiledArg hf (a := e) (by simp)) _ (upTo_compiledArg hf (a := f) (by simp)) _ (upTo_compiledArg hm (a := m) (by simp))
  rw [toFl_compiledArg hX hCL hf (a := a) (by simp),
    toFl_compiledArg hX hCL hf (a := b) (by simp),
    toFl_compiledArg hX hCL hf (a := c) (by simp),
    toFl_compiledArg hX hCL hf (a := d) (by simp),
    toFl_compiledArg hX hCL hf (a := e) (by simp),
    toFl_compiledArg hX hCL hf (a := f) (by simp),
    toFl_compiledArg hX le_rfl hm (a := m) (by simp)] at s1
  have s2 := k2 _ (upTo_compiledArg hf (a := a) (by simp)) _ (upTo_compiledArg hf (a := b) (by simp)) _ (upTo_compiledArg hf (a := c) (by simp)) _ (upTo_compiledArg hf (a := d) (by simp)) _ (upTo_compiledArg hf (a := e) (by simp)) _ (upTo_compiledArg hf (a := f) (by simp)) _ (upTo_compiledArg hm (a := m) (by simp))
  rw [toFl_compiledArg hX hCL hf (a := a) (by simp),
    toFl_compiledArg hX hCL hf (a := b) (by simp),
    toFl_compiledArg hX hCL hf (a := c) (by simp),
    toFl_compiledArg hX hCL hf (a := d) (by simp),
    toFl_compiledArg hX hCL hf (a := e) (by simp),
    toFl_compiledArg hX hCL hf (a := f) (by simp),
    toFl_compiledArg hX le_rfl hm (a := m) (by simp)] at s2
  have s3 := k3 _ (upTo_compiledArg hf (a := a) (by simp)) _ (upTo_compiledArg hf (a := b) (by simp)) _ (upTo_compiledArg hf (a := c) (by simp)) _ (upTo_compiledArg hf (a := d) (by simp)) _ (upTo_compiledArg hf (a := e) (by simp)) _ (upTo_compiledArg hf (a := f) (by simp)) _ (upTo_compiledArg hm (a := m) (by simp))
  rw [toFl_compiledArg hX hCL hf (a := a) (by simp),
    toFl_compiledArg hX hCL hf (a := b) (by simp),
    toFl_compiledArg hX hCL hf (a := c) (by simp),
    toFl_compiledArg hX hCL hf (a := d) (by simp),
    toFl_compiledArg hX hCL hf (a := e) (by simp),
    toFl_compiledArg hX hCL hf (a := f) (by simp),
    toFl_compiledArg hX le_rfl hm (a := m) (by simp)] at s3
  have s4 := k4 _ (upTo_compiledArg hf (a := a) (by simp)) _ (upTo_compiledArg hf (a := b) (by simp)) _ (upTo_compiledArg hf (a := c) (by simp)) _ (upTo_compiledArg hf (a := d) (by simp)) _ (upTo_compiledArg hf (a := e) (by simp)) _ (upTo_compiledArg hf (a := f) (by simp)) _ (upTo_compiledArg hm (a := m) (by simp))
  rw [toFl_compiledArg hX hCL hf (a := a) (by simp),
    toFl_compiledArg hX hCL hf (a := b) (by simp),
    toFl_compiledArg hX hCL hf (a := c) (by simp),
    toFl_compiledArg hX hCL hf (a := d) (by simp),
    toFl_compiledArg hX hCL hf (a := e) (by simp),
    toFl_compiledArg hX hCL hf (a := f) (by simp),
    toFl_compiledArg hX le_rfl hm (a := m) (by simp)] at s4
  have s5 := k5 _ (upTo_compiledArg hf (a := a) (by simp)) _ (upTo_compiledArg hf (a := b) (by simp)) _ (upTo_compiledArg hf (a := c) (by simp)) _ (upTo_compiledArg hf (a := d) (by simp)) _ (upTo_compiledArg hf (a := e) (by simp)) _ (upTo_compiledArg hf (a := f) (by simp)) _ (upTo_compiledArg hm (a := m) (by simp))
  rw [toFl_compiledArg hX hCL hf (a := a) (by simp),
    toFl_compiledArg hX hCL hf (a := b) (by simp),
    toFl_compiledArg hX hCL hf (a := c) (by simp),
    toFl_compiledArg hX hCL hf (a := d) (by simp),
    toFl_compiledArg hX hCL hf (a := e) (by simp),
    toFl_compiledArg hX hCL hf (a := f) (by simp),
    toFl_compiledArg hX le_rfl hm (a := m) (by simp)] at s5
  have s6 := k6 _ (upTo_compiledArg hf (a := a) (by simp)) _ (upTo_compiledArg hf (a := b) (by simp)) _ (upTo_compiledArg hf (a := c) (by simp)) _ (upTo_compiledArg hf (a := d) (by simp)) _ (upTo_compiledArg hf (a := e) (by simp)) _ (upTo_compiledArg hf (a := f) (by simp)) _ (upTo_compiledArg hm (a := m) (by simp))
  rw [toFl_compiledArg hX hCL hf (a := a) (by simp),
    toFl_compiledArg hX hCL hf (a := b) (by simp),
    toFl_compiledArg hX hCL hf (a := c) (by simp),
    toFl_compiledArg hX hCL hf (a := d) (by simp),
    toFl_compiledArg hX hCL hf (a := e) (by simp),
    toFl_compiledArg hX hCL hf (a := f) (by simp),
    toFl_compiledArg hX le_rfl hm (a := m) (by simp)] at s6
  have s7 := k7 _ (upTo_compiledArg hf (a := a) (by simp)) _ (upTo_compiledArg hf (a := b) (by simp)) _ (upTo_compiledArg hf (a := c) (by simp)) _ (upTo_compiledArg hf (a := d) (by simp)) _ (upTo_compiledArg hf (a := e) (by simp)) _ (upTo_compiledArg hf (a := f) (by simp)) _ (upTo_compiledArg hm (a := m) (by simp))
  rw [toFl_compiledArg hX hCL hf (a := a) (by simp),
    toFl_compiledArg hX hCL hf (a := b) (by simp),
    toFl_compiledArg hX hCL hf (a := c) (by simp),
    toFl_compiledArg hX hCL hf (a := d) (by simp),
    toFl_compiledArg hX hCL hf (a := e) (by simp),
    toFl_compiledArg hX hCL hf (a := f) (by simp),
    toFl_compiledArg hX le_rfl hm (a := m) (by simp)] at s7
  have s8 := k8 _ (upTo_compiledArg hf (a := a) (by simp)) _ (upTo_compiledArg hf (a := b) (by simp)) _ (upTo_compiledArg hf (a := c) (by simp)) _ (upTo_compiledArg hf (a := d) (by simp)) _ (upTo_compiledArg hf (a := e) (by simp)) _ (upTo_compiledArg hf (a := f) (by simp)) _ (upTo_compiledArg hm (a := m) (by simp))
  rw [toFl_compiledArg hX hCL hf (a := a) (by simp),
    toFl_compiledArg hX hCL hf (a := b) (by simp),
    toFl_compiledArg hX hCL hf (a := c) (by simp),
    toFl_compiledArg hX hCL hf (a := d) (by simp),
    toFl_compiledArg hX hCL hf (a := e) (by simp),
    toFl_compiledArg hX hCL hf (a := f) (by simp),
    toFl_compiledArg hX le_rfl hm (a := m) (by simp)] at s8
  have s9 := k9 _ (upTo_compiledArg hf (a := a) (by simp)) _ (upTo_compiledArg hf (a := b) (by simp)) _ (upTo_compiledArg hf (a := c) (by simp)) _ (upTo_compiledArg hf (a := d) (by simp)) _ (upTo_compiledArg hf (a := e) (by simp)) _ (upTo_compiledArg hf (a := f) (by simp)) _ (upTo_compiledArg hm (a := m) (by simp))
  rw [toFl_compiledArg hX hCL hf (a := a) (by simp),
    toFl_compiledArg hX hCL hf (a := b) (by simp),
    toFl_compiledArg hX hCL hf (a := c) (by simp),
    toFl_compiledArg hX hCL hf (a := d) (by simp),
    toFl_compiledArg hX hCL hf (a := e) (by simp),
    toFl_compiledArg hX hCL hf (a := f) (by simp),
    toFl_compiledArg hX le_rfl hm (a := m) (by simp)] at s9
  exact ⟨jitAgrees_of g0 s0,
    jitAgrees_of g1 s1,
    jitAgrees_of g2 s2,
    jitAgrees_of g3 s3,
    jitAgrees_of g4 s4,
    jitAgrees_of g5 s5,
    jitAgrees_of g6 s6,
    jitAgrees_of g7 s7,
    jitAgrees_of g8 s8,
    jitAgrees_of g9 s9⟩

/-- Magnetic field of a dipole. -/
theorem C145_dipole (hA : PyArith A) (hX : A.ExactInts L) (hL63 : L < 2 ^ 63) (hC : 12 * C ^ 2 ≤ L) (hL : 15 ≤ L) (hM : 36 * (M * C ^ 2) ≤ L) (hM1 : 18 * (M * C) ≤ L) (hM0 : M ≤ L)
    (a b c d e f m n o : PNum A) 
    (hf : AllUpTo C [a, b, c, d, e, f]) (hm : AllUpTo M [m, n, o]) :
    JitAgrees3 (SquareRaises [a - d, b - e, c - f])
      (Typed.dipole.magnetic_field a.compiledArg b.compiledArg c.compiledArg d.compiledArg e.compiledArg f.compiledArg m.compiledArg n.compiledArg o.compiledArg)
      (Python.dipole.magnetic_field a b c d e f m n o)
    ∧ JitAgrees (SquareRaises [a - d, b - e, c - f])
      (Typed.dipole.magnetic_e a.compiledArg b.compiledArg c.compiledArg d.compiledArg e.compiledArg f.compiledArg m.compiledArg n.compiledArg o.compiledArg)
      (Python.dipole.magnetic_e a b c d e f m n o)
    ∧ JitAgrees (SquareRaises [a - d, b - e, c - f])
      (Typed.dipole.magnetic_n a.compiledArg b.compiledArg c.compiledArg d.compiledArg e.compiledArg f.compiledArg m.compiledArg n.compiledArg o.compiledArg)
      (Python.dipole.magnetic_n a b c d e f m n o)
    ∧ JitAgrees (SquareRaises [a - d, b - e, c - f])
      (Typed.dipole.magnetic_u a.compiledArg b.compiledArg c.compiledArg d.compiledArg e.compiledArg f.compiledArg m.compiledArg n.compiledArg o.compiledArg)
      (Python.dipole.magnetic_u a b c d e f m n o) := by
  have hCL : C ≤ L := by simpa using two_le_of (k := 1) hC (by norm_num)
  have g := C144_dipole hA hX hC hL hM hM1 hM0 a b c d e f m n o hf hm
  have k := C89_dipole (A := A) (C := C) (M := M) hX hL63 hC hL hM hM0
  obtain ⟨g0, g1, g2, g3⟩ := g
  obtain ⟨k0, k1, k2, k3⟩ := k
  have s0 := k0 _ (upTo_compiledArg hf (a := a) (by simp)) _ (upTo_compiledArg hf (a := b) (by simp)) _ (upTo_compiledArg hf (a := c) (by simp)) _ (upTo_compiledArg hf (a := d) (by simp)) _ (upTo_compiledArg hf (a := e) (by simp)) _ (upTo_compiledArg hf (a := f) (by simp)) _ (upTo_compiledArg hm (a := m) (by simp)) _ (upTo_compiledArg hm (a := n) (by simp)) _ (upTo_compiledArg hm (a := o) (by simp))
  rw [toFl_compiledArg hX hCL hf (a := a) (by simp),
    toFl_compiledArg hX hCL hf (a := b) (by simp),
    toFl_compiledArg hX hCL hf (a := c) (by simp),
    toFl_compiledArg hX hCL hf (a := d) (by simp),
    toFl_compiledArg hX hCL hf (a := e) (by simp),
    toFl_compiledArg hX hCL hf (a := f) (by simp),
    toFl_compiledArg hX hM0 hm (a := m) (by simp),
    toFl_compiledArg hX hM0 hm (a := n) (by simp),
    toFl_compiledArg hX hM0 hm (a := o) (by simp)] at s0
  have s1 := k1 _ (upTo_compiledArg hf (a := a) (by simp)) _ (upTo_compiledArg hf (a := b) (by simp)) _ (upTo_compiledArg hf (a := c) (by simp)) _ (upTo_compiledArg hf (a := d) (by simp)) _ (upTo_compiledArg hf (a := e) (by simp)) _ (upTo_compiledArg hf (a := f) (by simp)) _ (upTo_compiledArg hm (a := m) (by simp)) _ (upTo_compiledArg hm (a := n) (by simp)) _ (upTo_compiledArg hm (a := o) (by simp))
  rw [toFl_compiledArg hX hCL hf (a := a) (by simp),
    toFl_compiledArg hX hCL hf (a := b) (by simp),
    toFl_compiledArg hX hCL hf (a := c) (by simp),
    toFl_compiledArg hX hCL hf (a := d) (by simp),
    toFl_compiledArg hX hCL hf (a := e) (by simp),
    toFl_compiledArg hX hCL hf (a := f) (by simp),
    toFl_compiledArg hX hM0 hm (a := m) (by simp),
    toFl_compiledArg hX hM0 hm (a := n) (by simp),
    toFl_compiledArg hX hM0 hm (a := o) (by simp)] at s1
  have s2 := k2 _ (upTo_compiledArg hf (a := a) (by simp)) _ (upTo_compiledArg hf (a := b) (by simp)) _ (upTo_compiledArg hf (a := c) (by simp)) _ (upTo_compiledArg hf (a := d) (by simp)) _ (upTo_compiledArg hf (a := e) (by simp)) _ (upTo_compiledArg hf (a := f) (by simp)) _ (upTo_compiledArg hm (a := m) (by simp)) _ (upTo_compiledArg hm (a := n) (by simp)) _ (upTo_compiledArg hm (a := o) (by simp))
  rw [toFl_compiledArg hX hCL hf (a := a) (by simp),
    toFl_compiledArg hX hCL hf (a := b) (by simp),
    toFl_compiledArg hX hCL hf (a := c) (by simp),
    toFl_compiledArg hX hCL hf (a := d) (by simp),
    toFl_compiledArg hX hCL hf (a := e) (by simp),
    toFl_compiledArg hX hCL hf (a := f) (by simp),
    toFl_compiledArg hX hM0 hm (a := m) (by simp),
    toFl_compiledArg hX hM0 hm (a := n) (by simp),
    toFl_compiledArg hX hM0 hm (a := o) (by simp)] at s2
  have s3 := k3 _ (upTo_compiledArg hf (a := a) (by simp)) _ (upTo_compiledArg hf (a := b) (by simp)) _ (upTo_compiledArg hf (a := c) (by simp)) _ (upTo_compiledArg hf (a := d) (by simp)) _ (upTo_compiledArg hf (a := e) (by simp)) _ (upTo_compiledArg hf (a := f) (by simp)) _ (upTo_compiledArg hm (a := m) (by simp)) _ (upTo_compiledArg hm (a := n) (by simp)) _ (upTo_compiledArg hm (a := o) (by simp))
  rw [toFl_compiledArg hX hCL hf (a := a) (by simp),
    toFl_compiledArg hX hCL hf (a := b) (by simp),
    toFl_compiledArg hX hCL hf (a := c) (by simp),
    toFl_compiledArg hX hCL hf (a := d) (by simp),
    toFl_compiledArg hX hCL hf (a := e) (by simp),
    toFl_compiledArg hX hCL hf (a := f) (by simp),
    toFl_compiledArg hX hM0 hm (a := m) (by simp),
    toFl_compiledArg hX hM0 hm (a := n) (by simp),
    toFl_compiledArg hX hM0 hm (a := o) (by simp)] at s3
  exact ⟨jitAgrees3_of g0 s0,
    jitAgrees_of g1 s1,
    jitAgrees_of g2 s2,
    jitAgrees_of g3 s3⟩

/-- Gravity of a prism `(w, E, s, N, b, t)` at `(e, n, u)`. -/
theorem C145_prism_gravity (hA : PyArith A) (hX : A.ExactInts L) (hL63 : L < 2 ^ 63) (hC : 12 * C ^ 2 ≤ L) (hL : 15 ≤ L)
    (e n u w E s N b t ρ : PNum A) 
    (hf : AllUpTo C [e, n, u, w, E, s, N, b, t]) (hm : AllUpTo L [ρ]) :
    JitAgrees (SquareRaises [E - e, w - e, N - n, s - n, t - u, b - u])
      (Typed.prism.gravity_pot e.compiledArg n.compiledArg u.compiledArg w.compiledArg E.compiledArg s.compiledArg N.compiledArg b.compiledArg t.compiledArg ρ.compiledArg)
      (Python.prism.gravity_pot e n u w E s N b t ρ)
    ∧ JitAgrees (SquareRaises [E - e, w - e, N - n, s - n, t - u, b - u])
      (Typed.prism.gravity_e e.compiledArg n.compiledArg u.compiledArg w.compiledArg E.compiledArg s.compiledArg N.compiledArg b.compiledArg t.compiledArg ρ.compiledArg)
      (Python.prism.gravity_e e n u w E s N b t ρ)
    ∧ JitAgrees (SquareRaises [E - e, w - e, N - n, s - n, t - u, b - u])
      (Typed.prism.gravity_n e.compiledArg n.compiledArg u.compiledArg w.compiledArg E.compiledArg s.compiledArg N.compiledArg b.compiledArg t.compiledArg ρ.compiledArg)
      (Python.prism.gravity_n e n u w E s N b t ρ)
    ∧ JitAgrees (SquareRaises [E - e, w - e, N - n, s - n, t - u, b - u])
      (Typed.prism.gravity_u e.compiledArg n.compiledArg u.compiledArg w.compiledArg E.compiledArg s.compiledArg N.compiledArg b.compiledArg t.compiledArg ρ.compiledArg)
      (Python.prism.gravity_u e n u w E s N b t ρ)
    ∧ JitAgrees (SquareRaises [E - e, w - e, N - n, s - n, t - u, b - u])
      (Typed.prism.gravity_ee e.compiledArg n.compiledArg u.compiledArg w.compiledArg E.compiledArg s.compiledArg N.compiledArg b.compiledArg t.compiledArg ρ.compiledArg)
      (Python.prism.gravity_ee e n u w E s N b t ρ)
    ∧ JitAgrees (SquareRaises [E - e, w - e, N - n, s - n, t - u, b - u])
      (Typed.prism.gravity_nn e.compiledArg n.compiledArg u.compiledArg w.compiledArg E.compiledArg s.compiledArg N.compiledArg b.compiledArg t.compiledArg ρ.compiledArg)
      (Python.prism.gravity_nn e n u w E s N b t ρ)
    ∧ JitAgrees (SquareRaises [E - e, w - e, N - n, s - n, t - u, b - u])
      (Typed.prism.gravity_uu e.compiledArg n.compiledArg u.compiledArg w.compiledArg E.compiledArg s.compiledArg N.compiledArg b.compiledArg t.compiledArg ρ.compiledArg)
      (Python.prism.gravity_uu e n u w E s N b t ρ)
    ∧ JitAgrees (SquareRaises [E - e, w - e, N - n, s - n, t - u, b - u])
      (Typed.prism.gravity_en e.compiledArg n.compiledArg u.compiledArg w.compiledArg E.compiledArg s.compiledArg N.compiledArg b.compiledArg t.compiledArg ρ.compiledArg)
      (Python.prism.gravity_en e n u w E s N b t ρ)
    ∧ JitAgrees (SquareRaises [E - e, w - e, N - n, s - n, t - u, b - u])
      (Typed.prism.gravity_eu e.compiledArg n.compiledArg u.compiledArg w.compiledArg E.compiledArg s.compiledArg N.compiledArg b.compiledArg t.compiledArg ρ.compiledArg)
      (Python.prism.gravity_eu e n u w E s N b t ρ)
    ∧ JitAgrees (SquareRaises [E - e, w - e, N - n, s - n, t - u, b - u])
      (Typed.prism.gravity_nu e.compiledArg n.compiledArg u.compiledArg w.compiledArg E.compiledArg s.compiledArg N.compiledArg b.compiledArg t.compiledArg ρ.compiledArg)
      (Python.prism.gravity_nu e n u w E s N b t ρ) := by
  have hCL : C ≤ L := by simpa using two_le_of (k := 1) hC (by norm_num)
  have g := C144_prism_gravity hA hX hC e n u w E s N b t ρ hf hm
  have k := C89_prism_gravity (A := A) (C := C) hX hL63 hC hL
  obtain ⟨g0, g1, g2, g3, g4, g5, g6, g7, g8, g9⟩ := g
  obtain ⟨k0, k1, k2, k3, k4, k5, k6, k7, k8, k9⟩ := k
  have s0 := k0 _ (upTo_compiledArg hf (a := e) (by simp)) _ (upTo_compiledArg hf (a := n) (by simp)) _ (upTo_compiledArg hf (a := u) (by simp)) _ (upTo_compiledArg hf (a := w) (by simp)) _ (upTo_compiledArg hf (a := E) (by simp)) _ (upTo_compiledArg hf (a := s) (by simp)) _ (upTo_compiledArg hf (a := N) (by simp)) _ (upTo_compiledArg hf (a := b) (by simp)) _ (upTo_compiledArg hf (a := t) (by simp)) _ (upTo_compiledArg hm (a := ρ) (by simp))
  rw [toFl_compiledArg hX hCL hf (a := e) (by simp),
    toFl_compiledArg hX hCL hf (a := n) (by simp),
    toFl_compiledArg hX hCL hf (a := u) (by simp),
    toFl_compiledArg hX hCL hf (a := w) (by simp),
    toFl_compiledArg hX hCL hf (a := E) (by simp),
    toFl_compiledArg hX hCL hf (a := s) (by simp),
    toFl_compiledArg hX hCL hf (a := N) (by simp),
    toFl_compiledArg hX hCL hf (a := b) (by simp),
    toFl_compiledArg hX hCL hf (a := t) (by simp),
    toFl_compiledArg hX le_rfl hm (a := ρ) (by simp)] at s0
  have s1 := k1 _ (upTo_compiledArg hf (a := e) (by simp)) _ (upTo_compiledArg hf (a := n) (by simp)) _ (upTo_compiledArg hf (a := u) (by simp)) _ (upTo_compiledArg hf (a := w) (by simp)) _ (upTo_compiledArg hf (a := E) (by simp)) _ (upTo_compiledArg hf (a := s) (by simp)) _ (upTo_compiledArg hf (a := N) (by simp)) _ (upTo_compiledArg hf (a := b) (by simp)) _ (upTo_compiledArg hf (a := t) (by simp)) _ (upTo_compiledArg hm (a := ρ) (by simp))
  rw [toFl_compiledArg hX hCL hf (a := e) (by simp),
    toFl_compiledArg hX hCL hf (a := n) (by simp),
    toFl_compiledArg hX hCL hf (a := u) (by simp),
    toFl_compiledArg hX hCL hf (a := w) (by simp),
    toFl_compiledArg hX hCL hf (a := E) (by simp),
    toFl_compiledArg hX hCL hf (a := s) (by simp),
    toFl_compiledArg hX hCL hf (a := N) (by simp),
    toFl_compiledArg hX hCL hf (a := b) (by simp),
    toFl_compiledArg hX hCL hf (a := t) (by simp),
    toFl_compiledArg hX le_rfl hm (a := ρ) (by simp)] at s1
  have s2 := k2 _ (upTo_compiledArg hf (a := e) (by simp)) _ (upTo_compiledArg hf (a := n) (by simp)) _ (upTo_compiledArg hf (a := u) (by simp)) _ (upTo_compiledArg hf (a := w) (by simp)) _ (upTo_compiledArg hf (a := E) (by simp)) _ (upTo_compiledArg hf (a := s) (by simp)) _ (upTo_compiledArg hf (a := N) (by simp)) _ (upTo_compiledArg hf (a := b) (by simp)) _ (upTo_compiledArg hf (a := t) (by simp)) _ (upTo_compiledArg hm (a := ρ) (by simp))
  rw [toFl_compiledArg hX hCL hf (a := e) (by simp),
    toFl_compiledArg hX hCL hf (a := n) (by simp),
    toFl_compiledArg hX hCL hf (a := u) (by simp),
    toFl_compiledArg hX hCL hf (a := w) (by simp),
    toFl_compiledArg hX hCL hf (a := E) (by simp),
    toFl_compiledArg hX hCL hf (a := s) (by simp),
    toFl_compiledArg hX hCL hf (a := N) (by simp),
    toFl_compiledArg hX hCL hf (a := b) (by simp),
    toFl_compiledArg hX hCL hf (a := t) (by simp),
    toFl_compiledArg hX le_rfl hm (a := ρ) (by simp)] at s2
  have s3 := k3 _ (upTo_compiledArg hf (a := e) (by simp)) _ (upTo_compiledArg hf (a := n) (by simp)) _ (upTo_compiledArg hf (a := u) (by simp)) _ (upTo_compiledArg hf (a := w) (by simp)) _ (upTo_compiledArg hf (a := E) (by simp)) _ (upTo_compiledArg hf (a := s) (by simp)) _ (upTo_compiledArg hf (a := N) (by simp)) _ (upTo_compiledArg hf (a := b) (by simp)) _ (upTo_compiledArg hf (a := t) (by simp)) _ (upTo_compiledArg hm (a := ρ) (by simp))
  rw [toFl_compiledArg hX hCL hf (a := e) (by simp),
    toFl_compiledArg hX hCL hf (a := n) (by simp),
    toFl_compiledArg hX hCL hf (a := u) (by simp),
    toFl_compiledArg hX hCL hf (a := w) (by simp),
    toFl_compiledArg hX hCL hf (a := E) (by simp),
    toFl_compiledArg hX hCL hf (a := s) (by simp),
    toFl_compiledArg hX hCL hf (a := N) (by simp),
    toFl_compiledArg hX hCL hf (a := b) (by simp),
    toFl_compiledArg hX hCL hf (a := t) (by simp),
    toFl_compiledArg hX le_rfl hm (a := ρ) (by simp)] at s3
  have s4 := k4 _ (upTo_compiledArg hf (a := e) (by simp)) _ (upTo_compiledArg hf (a := n) (by simp)) _ (upTo_compiledArg hf (a := u) (by simp)) _ (upTo_compiledArg hf (a := w) (by simp)) _ (upTo_compiledArg hf (a := E) (by simp)) _ (upTo_compiledArg hf (a := s) (by simp)) _ (upTo_compiledArg hf (a := N) (by simp)) _ (upTo_compiledArg hf (a := b) (by simp)) _ (upTo_compiledArg hf (a := t) (by simp)) _ (upTo_compiledArg hm (a := ρ) (by simp))
  rw [toFl_compiledArg hX hCL hf (a := e) (by simp),
    toFl_compiledArg hX hCL hf (a := n) (by simp),
    toFl_compiledArg hX hCL hf (a := u) (by simp),
    toFl_compiledArg hX hCL hf (a := w) (by simp),
    toFl_compiledArg hX hCL hf (a := E) (by simp),
    toFl_compiledArg hX hCL hf (a := s) (by simp),
    toFl_compiledArg hX hCL hf (a := N) (by simp),
    toFl_compiledArg hX hCL hf (a := b) (by simp),
    toFl_compiledArg hX hCL hf (a := t) (by simp),
    toFl_compiledArg hX le_rfl hm (a := ρ) (by simp)] at s4
  have s5 := k5 _ (upTo_compiledArg hf (a := e) (by simp)) _ (upTo_compiledArg hf (a := n) (by simp)) _ (upTo_compiledArg hf (a := u) (by simp)) _ (upTo_compiledArg hf (a := w) (by simp)) _ (upTo_compiledArg hf (a := E) (by simp)) _ (upTo_compiledArg hf (a := s) (by simp)) _ (upTo_compiledArg hf (a := N) (by simp)) _ (upTo_compiledArg hf (a := b) (by simp)) _ (upTo_compiledArg hf (a := t) (by simp)) _ (upTo_compiledArg hm (a := ρ) (by simp))
  rw [toFl_compiledArg hX hCL hf (a := e) (by simp),
    toFl_compiledArg hX hCL hf (a := n) (by simp),
    toFl_compiledArg hX hCL hf (a := u) (by simp),
    toFl_compiledArg hX hCL hf (a := w) (by simp),
    toFl_compiledArg hX hCL hf (a := E) (by simp),
    toFl_compiledArg hX hCL hf (a := s) (by simp),
    toFl_compiledArg hX hCL hf (a := N) (by simp),
    toFl_compiledArg hX hCL hf (a := b) (by simp),
    toFl_compiledArg hX hCL hf (a := t) (by simp),
    toFl_compiledArg hX le_rfl hm (a := ρ) (by simp)] at s5
  have s6 := k6 _ (upTo_compiledArg hf (a := e) (by simp)) _ (upTo_compiledArg hf (a := n) (by simp)) _ (upTo_compiledArg hf (a := u) (by simp)) _ (upTo_compiledArg hf (a := w) (by simp)) _ (upTo_compiledArg hf (a := E) (by simp)) _ (upTo_compiledArg hf (a := s) (by simp)) _ (upTo_compiledArg hf (a := N) (by simp)) _ (upTo_compiledArg hf (a := b) (by simp)) _ (upTo_compiledArg hf (a := t) (by simp)) _ (upTo_compiledArg hm (a := ρ) (by simp))
  rw [toFl_compiledArg hX hCL hf (a := e) (by simp),
    toFl_compiledArg hX hCL hf (a := n) (by simp),
    toFl_compiledArg hX hCL hf (a := u) (by simp),
    toFl_compiledArg hX hCL hf (a := w) (by simp),
    toFl_compiledArg hX hCL hf (a := E) (by simp),
    toFl_compiledArg hX hCL hf (a := s) (by simp),
    toFl_compiledArg hX hCL hf (a := N) (by simp),
    toFl_compiledArg hX hCL hf (a := b) (by simp),
    toFl_compiledArg hX hCL hf (a := t) (by simp),
    toFl_compiledArg hX le_rfl hm (a := ρ) (by simp)] at s6
  have s7 := k7 _ (upTo_compiledArg hf (a := e) (by simp)) _ (upTo_compiledArg hf (a := n) (by simp)) _ (upTo_compiledArg hf (a := u) (by simp)) _ (upTo_compiledArg hf (a := w) (by simp)) _ (upTo_compiledArg hf (a := E) (by simp)) _ (upTo_compiledArg hf (a := s) (by simp)) _ (upTo_compiledArg hf (a := N) (by simp)) _ (upTo_compiledArg hf (a := b) (by simp)) _ (upTo_compiledArg hf (a := t) (by simp)) _ (upTo_compiledArg hm (a := ρ) (by simp))
  rw [toFl_compiledArg hX hCL hf (a := e) (by simp),
    toFl_compiledArg hX hCL hf (a := n) (by simp),
    toFl_compiledArg hX hCL hf (a := u) (by simp),
    toFl_compiledArg hX hCL hf (a := w) (by simp),
    toFl_compiledArg hX hCL hf (a := E) (by simp),
    toFl_compiledArg hX hCL hf (a := s) (by simp),
    toFl_compiledArg hX hCL hf (a := N) (by simp),
    toFl_compiledArg hX hCL hf (a := b) (by simp),
    toFl_compiledArg hX hCL hf (a := t) (by simp),
    toFl_compiledArg hX le_rfl hm (a := ρ) (by simp)] at s7
  have s8 := k8 _ (upTo_compiledArg hf (a := e) (by simp)) _ (upTo_compiledArg hf (a := n) (by simp)) _ (upTo_compiledArg hf (a := u) (by simp)) _ (upTo_compiledArg hf (a := w) (by simp)) _ (upTo_compiledArg hf (a := E) (by simp)) _ (upTo_compiledArg hf (a := s) (by simp)) _ (upTo_compiledArg hf (a := N) (by simp)) _ (upTo_compiledArg hf (a := b) (by simp)) _ (upTo_compiledArg hf (a := t) (by simp)) _ (upTo_compiledArg hm (a := ρ) (by simp))
  rw [toFl_compiledArg hX hCL hf (a := e) (by simp),
    toFl_compiledArg hX hCL hf (a := n) (by simp),
    toFl_compiledArg hX hCL hf (a := u) (by simp),
    toFl_compiledArg hX hCL hf (a := w) (by simp),
    toFl_compiledArg hX hCL hf (a := E) (by simp),
    toFl_compiledArg hX hCL hf (a := s) (by simp),
    toFl_compiledArg hX hCL hf (a := N) (by simp),
    toFl_compiledArg hX hCL hf (a := b) (by simp),
    toFl_compiledArg hX hCL hf (a := t) (by simp),
    toFl_compiledArg hX le_rfl hm (a := ρ) (by simp)] at s8
  have s9 := k9 _ (upTo_compiledArg hf (a := e) (by simp)) _ (upTo_compiledArg hf (a := n) (by simp)) _ (upTo_compiledArg hf (a := u) (by simp)) _ (upTo_compiledArg hf (a := w) (by simp)) _ (upTo_compiledArg hf (a := E) (by simp)) _ (upTo_compiledArg hf (a := s) (by simp)) _ (upTo_compiledArg hf (a := N) (by simp)) _ (upTo_compiledArg hf (a := b) (by simp)) _ (upTo_compiledArg hf (a := t) (by simp)) _ (upTo_compiledArg hm (a := ρ) (by simp))
  rw [toFl_compiledArg hX hCL hf (a := e) (by simp),
    toFl_compiledArg hX hCL hf (a := n) (by simp),
    toFl_compiledArg hX hCL hf (a := u) (by simp),
    toFl_compiledArg hX hCL hf (a := w) (by simp),
    toFl_compiledArg hX hCL hf (a := E) (by simp),
    toFl_compiledArg hX hCL hf (a := s) (by simp),
    toFl_compiledArg hX hCL hf (a := N) (by simp),
    toFl_compiledArg hX hCL hf (a := b) (by simp),
    toFl_compiledArg hX hCL hf (a := t) (by simp),
    toFl_compiledArg hX le_rfl hm (a := ρ) (by simp)] at s9
  exact ⟨jitAgrees_of g0 s0,
    jitAgrees_of g1 s1,
    jitAgrees_of g2 s2,
    jitAgrees_of g3 s3,
    jitAgrees_of g4 s4,
    jitAgrees_of g5 s5,
    jitAgrees_of g6 s6,
    jitAgrees_of g7 s7,
    jitAgrees_of g8 s8,
    jitAgrees_of g9 s9⟩

/-- Magnetic field of a prism. -/
theorem C145_prism_magnetic (hA : PyArith A) (hX : A.ExactInts L) (hL63 : L < 2 ^ 63) (hC : 12 * C ^ 2 ≤ L) (hL : 15 ≤ L)
    (e n u w E s N b t mx my mz : PNum A)
    (hf : AllUpTo C [e, n, u, w, E, s, N, b, t]) (hm : AllUpTo L [mx, my, mz]) :
    JitAgrees3 (SquareRaises [E - e, w - e, N - n, s - n, t - u, b - u])
      (Typed.prism.magnetic_field e.compiledArg n.compiledArg u.compiledArg w.compiledArg E.compiledArg s.compiledArg N.compiledArg b.compiledArg t.compiledArg mx.compiledArg my.compiledArg mz.compiledArg)
      (Python.prism.magnetic_field e n u w E s N b t mx my mz)
    ∧ JitAgrees (SquareRaises [E - e, w - e, N - n, s - n, t - u, b - u])
      (Typed.prism.magnetic_e e.compiledArg n.compiledArg u.compiledArg w.compiledArg E.compiledArg s.compiledArg N.compiledArg b.compiledArg t.compiledArg mx.compiledArg my.compiledArg mz.compiledArg)
      (Python.prism.magnetic_e e n u w E s N b t mx my mz)
    ∧ JitAgrees (SquareRaises [E - e, w - e, N - n, s - n, t - u, b - u])
      (Typed.prism.magnetic_n e.compiledArg n.compiledArg u.compiledArg w.compiledArg E.compiledArg s.compiledArg N.compiledArg b.compiledArg t.compiledArg mx.compiledArg my.compiledArg mz.compiledArg)
      (Python.prism.magnetic_n e n u w E s N b t mx my mz)
    ∧ JitAgrees (SquareRaises [E - e, w - e, N - n, s - n, t - u, b - u])
      (Typed.prism.magnetic_u e.compiledArg n.compiledArg u.compiledArg w.compiledArg E.compiledArg s.compiledArg N.compiledArg b.compiledArg t.compiledArg mx.compiledArg my.compiledArg mz.compiledArg)
      (Python.prism.magnetic_u e n u w E s N b t mx my mz) := by
  have hCL : C ≤ L := by simpa using two_le_of (k := 1) hC (by norm_num)
  have g := C144_prism_magnetic hA hX hC e n u w E s N b t mx my mz hf hm
  have k := C89_prism_magnetic (A := A) (C := C) hX hL63 hC hL
  obtain ⟨g0, g1, g2, g3⟩ := g
  obtain ⟨k0, k1, k2, k3⟩ := k
  have s0 := k0 _ (upTo_compiledArg hf (a := e) (by simp)) _ (upTo_compiledArg hf (a := n) (by simp)) _ (upTo_compiledArg hf (a := u) (by simp)) _ (upTo_compiledArg hf (a := w) (by simp)) _ (upTo_compiledArg hf (a := E) (by simp)) _ (upTo_compiledArg hf (a := s) (by simp)) _ (upTo_compiledArg hf (a := N) (by simp)) _ (upTo_compiledArg hf (a := b) (by simp)) _ (upTo_compiledArg hf (a := t) (by simp)) _ (upTo_compiledArg hm (a := mx) (by simp)) _ (upTo_compiledArg hm (a := my) (by simp)) _ (upTo_compiledArg hm (a := mz) (by simp))
  rw [toFl_compiledArg hX hCL hf (a := e) (by simp),
    toFl_compiledArg hX hCL hf (a := n) (by simp),
    toFl_compiledArg hX hCL hf (a := u) (by simp),
    toFl_compiledArg hX hCL hf (a := w) (by simp),
    toFl_compiledArg hX hCL hf (a := E) (by simp),
    toFl_compiledArg hX hCL hf (a := s) (by simp),
    toFl_compiledArg hX hCL hf (a := N) (by simp),
    toFl_compiledArg hX hCL hf (a := b) (by simp),
    toFl_compiledArg hX hCL hf (a := t) (by simp),
    toFl_compiledArg hX le_rfl hm (a := mx) (by simp),
    toFl_compiledArg hX le_rfl hm (a := my) (by simp),
    toFl_compiledArg hX le_rfl hm (a := mz) (by simp)] at s0
  have s1 := k1 _ (upTo_compiledArg hf (a := e) (by simp)) _ (upTo_compiledArg hf (a := n) (by simp)) _ (upTo_compiledArg hf (a := u) (by simp)) _ (upTo_compiledArg hf (a := w) (by simp)) _ (upTo_compiledArg hf (a := E) (by simp)) _ (upTo_compiledArg hf (a := s) (by simp)) _ (upTo_compiledArg hf (a := N) (by simp)) _ (upTo_compiledArg hf (a := b) (by simp)) _ (upTo_compiledArg hf (a := t) (by simp)) _ (upTo_compiledArg hm (a := mx) (by simp)) _ (upTo_compiledArg hm (a := my) (by simp)) _ (upTo_compiledArg hm (a := mz) (by simp))
  rw [toFl_compiledArg hX hCL hf (a := e) (by simp),
    toFl_compiledArg hX hCL hf (a := n) (by simp),
    toFl_compiledArg hX hCL hf (a := u) (by simp),
    toFl_compiledArg hX hCL hf (a := w) (by simp),
    toFl_compiledArg hX hCL hf (a := E) (by simp),
    toFl_compiledArg hX hCL hf (a := s) (by simp),
    toFl_compiledArg hX hCL hf (a := N) (by simp),
    toFl_compiledArg hX hCL hf (a := b) (by simp),
    toFl_compiledArg hX hCL hf (a := t) (by simp),
    toFl_compiledArg hX le_rfl hm (a := mx) (by simp),
    toFl_compiledArg hX le_rfl hm (a := my) (by simp),
    toFl_compiledArg hX le_rfl hm (a := mz) (by simp)] at s1
  have s2 := k2 _ (upTo_compiledArg hf (a := e) (by simp)) _ (upTo_compiledArg hf (a := n) (by simp)) _ (upTo_compiledArg hf (a := u) (by simp)) _ (upTo_compiledArg hf (a := w) (by simp)) _ (upTo_compiledArg hf (a := E) (by simp)) _ (upTo_compiledArg hf (a := s) (by simp)) _ (upTo_compiledArg hf (a := N) (by simp)) _ (upTo_compiledArg hf (a := b) (by simp)) _ (upTo_compiledArg hf (a := t) (by simp)) _ (upTo_compiledArg hm (a := mx) (by simp)) _ (upTo_compiledArg hm (a := my) (by simp)) _ (upTo_compiledArg hm (a := mz) (by simp))
  rw [toFl_compiledArg hX hCL hf (a := e) (by simp),
    toFl_compiledArg hX hCL hf (a := n) (by simp),
    toFl_compiledArg hX hCL hf (a := u) (by simp),
    toFl_compiledArg hX hCL hf (a := w) (by simp),
    toFl_compiledArg hX hCL hf (a := E) (by simp),
    toFl_compiledArg hX hCL hf (a := s) (by simp),
    toFl_compiledArg hX hCL hf (a := N) (by simp),
    toFl_compiledArg hX hCL hf (a := b) (by simp),
    toFl_compiledArg hX hCL hf (a := t) (by simp),
    toFl_compiledArg hX le_rfl hm (a := mx) (by simp),
    toFl_compiledArg hX le_rfl hm (a := my) (by simp),
    toFl_compiledArg hX le_rfl hm (a := mz) (by simp)] at s2
  have s3 := k3 _ (upTo_compiledArg hf (a := e) (by simp)) _ (upTo_compiledArg hf (a := n) (by simp)) _ (upTo_compiledArg hf (a := u) (by simp)) _ (upTo_compiledArg hf (a := w) (by simp)) _ (upTo_compiledArg hf (a := E) (by simp)) _ (upTo_compiledArg hf (a := s) (by simp)) _ (upTo_compiledArg hf (a := N) (by simp)) _ (upTo_compiledArg hf (a := b) (by simp)) _ (upTo_compiledArg hf (a := t) (by simp)) _ (upTo_compiledArg hm (a := mx) (by simp)) _ (upTo_compiledArg hm (a := my) (by simp)) _ (upTo_compiledArg hm (a := mz) (by simp))
  rw [toFl_compiledArg hX hCL hf (a := e) (by simp),
    toFl_compiledArg hX hCL hf (a := n) (by simp),
    toFl_compiledArg hX hCL hf (a := u) (by simp),
    toFl_compiledArg hX hCL hf (a := w) (by simp),
    toFl_compiledArg hX hCL hf (a := E) (by simp),
    toFl_compiledArg hX hCL hf (a := s) (by simp),
    toFl_compiledArg hX hCL hf (a := N) (by simp),
    toFl_compiledArg hX hCL hf (a := b) (by simp),
    toFl_compiledArg hX hCL hf (a := t) (by simp),
    toFl_compiledArg hX le_rfl hm (a := mx) (by simp),
    toFl_compiledArg hX le_rfl hm (a := my) (by simp),
    toFl_compiledArg hX le_rfl hm (a := mz) (by simp)] at s3
  exact ⟨jitAgrees3_of g0 s0,
    jitAgrees_of g1 s1,
    jitAgrees_of g2 s2,
    jitAgrees_of g3 s3⟩

/-- Gradient of the magnetic field of a prism. -/
theorem C145_prism_gradient (hA : PyArith A) (hX : A.ExactInts L) (hL63 : L < 2 ^ 63) (hC4 : 64 * C ^ 4 ≤ L) (hL : 15 ≤ L)
    (e n u w E s N b t mx my mz : PNum A)
    (hf : AllUpTo C [e, n, u, w, E, s, N, b, t]) (hm : AllUpTo L [mx, my, mz]) :
    JitAgrees (SquareRaises [E - e, w - e, N - n, s - n, t - u, b - u])
      (Typed.prism.magnetic_ee e.compiledArg n.compiledArg u.compiledArg w.compiledArg E.compiledArg s.compiledArg N.compiledArg b.compiledArg t.compiledArg mx.compiledArg my.compiledArg mz.compiledArg)
      (Python.prism.magnetic_ee e n u w E s N b t mx my mz)
    ∧ JitAgrees (SquareRaises [E - e, w - e, N - n, s - n, t - u, b - u])
      (Typed.prism.magnetic_nn e.compiledArg n.compiledArg u.compiledArg w.compiledArg E.compiledArg s.compiledArg N.compiledArg b.compiledArg t.compiledArg mx.compiledArg my.compiledArg mz.compiledArg)
      (Python.prism.magnetic_nn e n u w E s N b t mx my mz)
    ∧ JitAgrees (SquareRaises [E - e, w - e, N - n, s - n, t - u, b - u])
      (Typed.prism.magnetic_uu e.compiledArg n.compiledArg u.compiledArg w.compiledArg E.compiledArg s.compiledArg N.compiledArg b.compiledArg t.compiledArg mx.compiledArg my.compiledArg mz.compiledArg)
      (Python.prism.magnetic_uu e n u w E s N b t mx my mz)
    ∧ JitAgrees (SquareRaises [E - e, w - e, N - n, s - n, t - u, b - u])
      (Typed.prism.magnetic_en e.compiledArg n.compiledArg u.compiledArg w.compiledArg E.compiledArg s.compiledArg N.compiledArg b.compiledArg t.compiledArg mx.compiledArg my.compiledArg mz.compiledArg)
      (Python.prism.magnetic_en e n u w E s N b t mx my mz)
    ∧ JitAgrees (SquareRaises [E - e, w - e, N - n, s - n, t - u, b - u])
      (Typed.prism.magnetic_eu e.compiledArg n.compiledArg u.compiledArg w.compiledArg E.compiledArg s.compiledArg N.compiledArg b.compiledArg t.compiledArg mx.compiledArg my.compiledArg mz.compiledArg)
      (Python.prism.magnetic_eu e n u w E s N b t mx my mz)
    ∧ JitAgrees (SquareRaises [E - e, w - e, N - n, s - n, t - u, b - u])
      (Typed.prism.magnetic_nu e.compiledArg n.compiledArg u.compiledArg w.compiledArg E.compiledArg s.compiledArg N.compiledArg b.compiledArg t.compiledArg mx.compiledArg my.compiledArg mz.compiledArg)
      (Python.prism.magnetic_nu e n u w E s N b t mx my mz) := by
  have hC2 : 16 * C ^ 2 ≤ L := sq_le_of hC4
  have hC : 12 * C ^ 2 ≤ L := by linarith
  have hCL : C ≤ L := by simpa using two_le_of (k := 1) hC (by norm_num)
  have g := C144_prism_gradient hA hX hC4 e n u w E s N b t mx my mz hf hm
  have k := C89_prism_gradients (A := A) (C := C) hX hL63 hC4 hL
  obtain ⟨g0, g1, g2, g3, g4, g5⟩ := g
  obtain ⟨k0, k1, k2, k3, k4, k5⟩ := k
  have s0 := k0 _ (upTo_compiledArg hf (a := e) (by simp)) _ (upTo_compiledArg hf (a := n) (by simp)) _ (upTo_compiledArg hf (a := u) (by simp)) _ (upTo_compiledArg hf (a := w) (by simp)) _ (upTo_compiledArg hf (a := E) (by simp)) _ (upTo_compiledArg hf (a := s) (by simp)) _ (upTo_compiledArg hf (a := N) (by simp)) _ (upTo_compiledArg hf (a := b) (by simp)) _ (upTo_compiledArg hf (a := t) (by simp)) _ (upTo_compiledArg hm (a := mx) (by simp)) _ (upTo_compiledArg hm (a := my) (by simp)) _ (upTo_compiledArg hm (a := mz) (by simp))
  rw [toFl_compiledArg hX hCL hf (a := e) (by simp),
    toFl_compiledArg hX hCL hf (a := n) (by simp),
    toFl_compiledArg hX hCL hf (a := u) (by simp),
    toFl_compiledArg hX hCL hf (a := w) (by simp),
    toFl_compiledArg hX hCL hf (a := E) (by simp),
    toFl_compiledArg hX hCL hf (a := s) (by simp),
    toFl_compiledArg hX hCL hf (a := N) (by simp),
    toFl_compiledArg hX hCL hf (a := b) (by simp),
    toFl_compiledArg hX hCL hf (a := t) (by simp),
    toFl_compiledArg hX le_rfl hm (a := mx) (by simp),
    toFl_compiledArg hX le_rfl hm (a := my) (by simp),
    toFl_compiledArg hX le_rfl hm (a := mz) (by simp)] at s0
  have s1 := k1 _ (upTo_compiledArg hf (a := e) (by simp)) _ (upTo_compiledArg hf (a := n) (by simp)) _ (upTo_compiledArg hf (a := u) (by simp)) _ (upTo_compiledArg hf (a := w) (by simp)) _ (upTo_compiledArg hf (a := E) (by simp)) _ (upTo_compiledArg hf (a := s) (by simp)) _ (upTo_compiledArg hf (a := N) (by simp)) _ (upTo_compiledArg hf (a := b) (by simp)) _ (upTo_compiledArg hf (a := t) (by simp)) _ (upTo_compiledArg hm (a := mx) (by simp)) _ (upTo_compiledArg hm (a := my) (by simp)) _ (upTo_compiledArg hm (a := mz) (by simp))
  rw [toFl_compiledArg hX hCL hf (a := e) (by simp),
    toFl_compiledArg hX hCL hf (a := n) (by simp),
    toFl_compiledArg hX hCL hf (a := u) (by simp),
    toFl_compiledArg hX hCL hf (a := w) (by simp),
    toFl_compiledArg hX hCL hf (a := E) (by simp),
    toFl_compiledArg hX hCL hf (a := s) (by simp),
    toFl_compiledArg hX hCL hf (a := N) (by simp),
    toFl_compiledArg hX hCL hf (a := b) (by simp),
    toFl_compiledArg hX hCL hf (a := t) (by simp),
    toFl_compiledArg hX le_rfl hm (a := mx) (by simp),
    toFl_compiledArg hX le_rfl hm (a := my) (by simp),
    toFl_compiledArg hX le_rfl hm (a := mz) (by simp)] at s1
  have s2 := k2 _ (upTo_compiledArg hf (a := e) (by simp)) _ (upTo_compiledArg hf (a := n) (by simp)) _ (upTo_compiledArg hf (a := u) (by simp)) _ (upTo_compiledArg hf (a := w) (by simp)) _ (upTo_compiledArg hf (a := E) (by simp)) _ (upTo_compiledArg hf (a := s) (by simp)) _ (upTo_compiledArg hf (a := N) (by simp)) _ (upTo_compiledArg hf (a := b) (by simp)) _ (upTo_compiledArg hf (a := t) (by simp)) _ (upTo_compiledArg hm (a := mx) (by simp)) _ (upTo_compiledArg hm (a := my) (by simp)) _ (upTo_compiledArg hm (a := mz) (by simp))
  rw [toFl_compiledArg hX hCL hf (a := e) (by simp),
    toFl_compiledArg hX hCL hf (a := n) (by simp),
    toFl_compiledArg hX hCL hf (a := u) (by simp),
    toFl_compiledArg hX hCL hf (a := w) (by simp),
    toFl_compiledArg hX hCL hf (a := E) (by simp),
    toFl_compiledArg hX hCL hf (a := s) (by simp),
    toFl_compiledArg hX hCL hf (a := N) (by simp),
    toFl_compiledArg hX hCL hf (a := b) (by simp),
    toFl_compiledArg hX hCL hf (a := t) (by simp),
    toFl_compiledArg hX le_rfl hm (a := mx) (by simp),
    toFl_compiledArg hX le_rfl hm (a := my) (by simp),
    toFl_compiledArg hX le_rfl hm (a := mz) (by simp)] at s2
  have s3 := k3 _ (upTo_compiledArg hf (a := e) (by simp)) _ (upTo_compiledArg hf (a := n) (by simp)) _ (upTo_compiledArg hf (a := u) (by simp)) _ (upTo_compiledArg hf (a := w) (by simp)) _ (upTo_compiledArg hf (a := E) (by simp)) _ (upTo_compiledArg hf (a := s) (by simp)) _ (upTo_compiledArg hf (a := N) (by simp)) _ (upTo_compiledArg hf (a := b) (by simp)) _ (upTo_compiledArg hf (a := t) (by simp)) _ (upTo_compiledArg hm (a := mx) (by simp)) _ (upTo_compiledArg hm (a := my) (by simp)) _ (upTo_compiledArg hm (a := mz) (by simp))
  rw [toFl_compiledArg hX hCL hf (a := e) (by simp),
    toFl_compiledArg hX hCL hf (a := n) (by simp),
    toFl_compiledArg hX hCL hf (a := u) (by simp),
    toFl_compiledArg hX hCL hf (a := w) (by simp),
    toFl_compiledArg hX hCL hf (a := E) (by simp),
    toFl_compiledArg hX hCL hf (a := s) (by simp),
    toFl_compiledArg hX hCL hf (a := N) (by simp),
    toFl_compiledArg hX hCL hf (a := b) (by simp),
    toFl_compiledArg hX hCL hf (a := t) (by simp),
    toFl_compiledArg hX le_rfl hm (a := mx) (by simp),
    toFl_compiledArg hX le_rfl hm (a := my) (by simp),
    toFl_compiledArg hX le_rfl hm (a := mz) (by simp)] at s3
  have s4 := k4 _ (upTo_compiledArg hf (a := e) (by simp)) _ (upTo_compiledArg hf (a := n) (by simp)) _ (upTo_compiledArg hf (a := u) (by simp)) _ (upTo_compiledArg hf (a := w) (by simp)) _ (upTo_compiledArg hf (a := E) (by simp)) _ (upTo_compiledArg hf (a := s) (by simp)) _ (upTo_compiledArg hf (a := N) (by simp)) _ (upTo_compiledArg hf (a := b) (by simp)) _ (upTo_compiledArg hf (a := t) (by simp)) _ (upTo_compiledArg hm (a := mx) (by simp)) _ (upTo_compiledArg hm (a := my) (by simp)) _ (upTo_compiledArg hm (a := mz) (by simp))
  rw [toFl_compiledArg hX hCL hf (a := e) (by simp),
    toFl_compiledArg hX hCL hf (a := n) (by simp),
    toFl_compiledArg hX hCL hf (a := u) (by simp),
    toFl_compiledArg hX hCL hf (a := w) (by simp),
    toFl_compiledArg hX hCL hf (a := E) (by simp),
    toFl_compiledArg hX hCL hf (a := s) (by simp),
    toFl_compiledArg hX hCL hf (a := N) (by simp),
    toFl_compiledArg hX hCL hf (a := b) (by simp),
    toFl_compiledArg hX hCL hf (a := t) (by simp),
    toFl_compiledArg hX le_rfl hm (a := mx) (by simp),
    toFl_compiledArg hX le_rfl hm (a := my) (by simp),
    toFl_compiledArg hX le_rfl hm (a := mz) (by simp)] at s4
  have s5 := k5 _ (upTo_compiledArg hf (a := e) (by simp)) _ (upTo_compiledArg hf (a := n) (by simp)) _ (upTo_compiledArg hf (a := u) (by simp)) _ (upTo_compiledArg hf (a := w) (by simp)) _ (upTo_compiledArg hf (a := E) (by simp)) _ (upTo_compiledArg hf (a := s) (by simp)) _ (upTo_compiledArg hf (a := N) (by simp)) _ (upTo_compiledArg hf (a := b) (by simp)) _ (upTo_compiledArg hf (a := t) (by simp)) _ (upTo_compiledArg hm (a := mx) (by simp)) _ (upTo_compiledArg hm (a := my) (by simp)) _ (upTo_compiledArg hm (a := mz) (by simp))
  rw [toFl_compiledArg hX hCL hf (a := e) (by simp),
    toFl_compiledArg hX hCL hf (a := n) (by simp),
    toFl_compiledArg hX hCL hf (a := u) (by simp),
    toFl_compiledArg hX hCL hf (a := w) (by simp),
    toFl_compiledArg hX hCL hf (a := E) (by simp),
    toFl_compiledArg hX hCL hf (a := s) (by simp),
    toFl_compiledArg hX hCL hf (a := N) (by simp),
    toFl_compiledArg hX hCL hf (a := b) (by simp),
    toFl_compiledArg hX hCL hf (a := t) (by simp),
    toFl_compiledArg hX le_rfl hm (a := mx) (by simp),
    toFl_compiledArg hX le_rfl hm (a := my) (by simp),
    toFl_compiledArg hX le_rfl hm (a := mz) (by simp)] at s5
  exact ⟨jitAgrees_of g0 s0,
    jitAgrees_of g1 s1,
    jitAgrees_of g2 s2,
    jitAgrees_of g3 s3,
    jitAgrees_of g4 s4,
    jitAgrees_of g5 s5⟩

/-- The same call of `point.gravity_u` with integers for all coordinates and the mass, in double precision: interpreted, it
returns the number that the compiled function returns. -/
example : JitAgrees (A := Binary64) (SquareRaises [(.int 0 : PNum Binary64) - .int 10, (.int 20 : PNum Binary64) - .int (-5), (.int 9 : PNum Binary64) - .int (-30)])
    (Typed.point.gravity_u (.int 0) (.int 20) (.int 9) (.int 10) (.int (-5)) (.int (-30)) (.int 1000))
    (Python.point.gravity_u (.int 0) (.int 20) (.int 9) (.int 10) (.int (-5)) (.int (-30)) (.int 1000)) :=
  (C145_point_gravity (C := 1000) pyArith_binary64 Binary64_exactInts (by norm_num) (by norm_num) (by norm_num) (.int 0) (.int 20) (.int 9)
    (.int 10) (.int (-5)) (.int (-30)) (.int 1000) (by norm_num [AllUpTo, PNum.UpTo]) (by norm_num [AllUpTo, PNum.UpTo])).2.2.2.1

end Choclo
