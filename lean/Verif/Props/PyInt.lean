import Verif.Lemmas.PyInt2
import Verif.Lemmas.PyInt3
import Verif.Props.PythonDouble
import Verif.Props.Typed
import Verif.Spec.PyInt

/-! # Running without Numba on integers, floats or a mixture of both (C144)

`L` bounds the integers that the arithmetic represents exactly (`2 ^ 53` in double precision) and `C` the integers among the
coordinates. -/

namespace Choclo

variable {A : Arith} {L C M D : ℕ}

open PNum

theorem upTo_mem {as : List (PNum A)} {B : ℕ} {a : PNum A} (h : AllUpTo B as) (ha : a ∈ as) : SamB B a.number a := by
  refine ⟨rfl, ?_⟩
  have := h a ha
  cases a with
  | int n => exact .inr ⟨n, rfl, this⟩
  | float x => exact .inl rfl
  | np64 x => exact .inl rfl

theorem two_le_of {k C L : ℕ} (h : 12 * C ^ 2 ≤ L) (hk : k ≤ 12) : k * C ≤ L := by
  rcases Nat.eq_zero_or_pos C with rfl | h0
  · simp
  · have h2 : C ≤ C ^ 2 := Nat.le_self_pow (by norm_num) C
    exact (Nat.mul_le_mul hk h2).trans h

theorem sq_le_of {C L : ℕ} (h : 64 * C ^ 4 ≤ L) : 16 * C ^ 2 ≤ L := by
  rcases Nat.eq_zero_or_pos C with rfl | h0
  · simp
  · have h2 : C ^ 2 ≤ C ^ 4 := Nat.pow_le_pow_right h0 (by norm_num)
    linarith

/-- Cartesian distance of two points. -/
theorem C144_distance (hA : PyArith A) (hX : A.ExactInts L) (hC : 12 * C ^ 2 ≤ L) (hL : 15 ≤ L)
    (a b c d e f : PNum A) 
    (hf : AllUpTo C [a, b, c, d, e, f]) :
    PyAgrees (SquareRaises [a - d, b - e, c - f]) (False)
      (Choclo.utils.distance_cartesian a.number b.number c.number d.number e.number f.number)
      (Python.utils.distance_cartesian a b c d e f) := by
  have h2C : 2 * C ≤ L := two_le_of hC (by norm_num)
  have ka := upTo_mem hf (a := a) (by simp)
  have kb := upTo_mem hf (a := b) (by simp)
  have kc := upTo_mem hf (a := c) (by simp)
  have kd := upTo_mem hf (a := d) (by simp)
  have ke := upTo_mem hf (a := e) (by simp)
  have kf := upTo_mem hf (a := f) (by simp)
  have h1 : PowRaises (a - d) 2 → SquareRaises [a - d, b - e, c - f] := squareRaises_mem (by simp)
  have h2 : PowRaises (b - e) 2 → SquareRaises [a - d, b - e, c - f] := squareRaises_mem (by simp)
  have h3 : PowRaises (c - f) 2 → SquareRaises [a - d, b - e, c - f] := squareRaises_mem (by simp)
  exact pyAgrees_of (Python.utils.pagb_distance_cartesian hA hX hC h2C hL a b c d e f ka kb kc kd ke kf h1 h2 h3)

/-- Spherical distance of two points (longitudes, latitudes, radii). -/
theorem C144_spherical (hA : PyArith A) (hX : A.ExactInts L) (hC : 12 * C ^ 2 ≤ L) (hL : 15 ≤ L)
    (a b c d e f : PNum A) 
    (hf : AllUpTo C [a, b, c, d, e, f]) :
    PyAgrees (PowRaises (c - f) 2) (False)
      (Choclo.utils.distance_spherical a.number b.number c.number d.number e.number f.number)
      (Python.utils.distance_spherical a b c d e f) := by
  have h2C : 2 * C ≤ L := two_le_of hC (by norm_num)
  have ka := upTo_mem hf (a := a) (by simp)
  have kb := upTo_mem hf (a := b) (by simp)
  have kc := upTo_mem hf (a := c) (by simp)
  have kd := upTo_mem hf (a := d) (by simp)
  have ke := upTo_mem hf (a := e) (by simp)
  have kf := upTo_mem hf (a := f) (by simp)
  exact pyAgrees_of (Python.utils.pagb_distance_spherical hA hX hC h2C hL a b c d e f ka kb kc kd ke kf id)

/-- Spherical distance from sines and cosines of the latitudes. -/
theorem C144_spherical_core (hA : PyArith A) (hX : A.ExactInts L) (hC : 12 * C ^ 2 ≤ L) (hL : 15 ≤ L)
    (a b c d e f g h : PNum A) 
    (hf : AllUpTo C [a, b, c, d, e, f, g, h]) :
    PyAgrees3 (PowRaises (d - h) 2) (False)
      (Choclo.utils.distance_spherical_core a.number b.number c.number d.number e.number f.number g.number h.number)
      (Python.utils.distance_spherical_core a b c d e f g h) := by
  have h2C : 2 * C ≤ L := two_le_of hC (by norm_num)
  have ka := upTo_mem hf (a := a) (by simp)
  have kb := upTo_mem hf (a := b) (by simp)
  have kc := upTo_mem hf (a := c) (by simp)
  have kd := upTo_mem hf (a := d) (by simp)
  have ke := upTo_mem hf (a := e) (by simp)
  have kf := upTo_mem hf (a := f) (by simp)
  have kg := upTo_mem hf (a := g) (by simp)
  have kh := upTo_mem hf (a := h) (by simp)
  exact pyAgrees3_of (Python.utils.pagb_distance_spherical_core hA hX hC h2C hL a b c d e f g h ka kb kc kd ke kf kg kh id)

/-- Gravity of a point mass. -/
theorem C144_point_gravity (hA : PyArith A) (hX : A.ExactInts L) (hC : 12 * C ^ 2 ≤ L) (hL : 15 ≤ L)
    (a b c d e f m : PNum A) 
    (hf : AllUpTo C [a, b, c, d, e, f]) (hm : AllUpTo L [m]) :
    PyAgrees (SquareRaises [a - d, b - e, c - f]) (False)
      (Choclo.point.gravity_pot a.number b.number c.number d.number e.number f.number m.number)
      (Python.point.gravity_pot a b c d e f m)
    ∧ PyAgrees (SquareRaises [a - d, b - e, c - f]) (False)
      (Choclo.point.gravity_e a.number b.number c.number d.number e.number f.number m.number)
      (Python.point.gravity_e a b c d e f m)
    ∧ PyAgrees (SquareRaises [a - d, b - e, c - f]) (False)
      (Choclo.point.gravity_n a.number b.number c.number d.number e.number f.number m.number)
      (Python.point.gravity_n a b c d e f m)
    ∧ PyAgrees (SquareRaises [a - d, b - e, c - f]) (False)
      (Choclo.point.gravity_u a.number b.number c.number d.number e.number f.number m.number)
      (Python.point.gravity_u a b c d e f m)
    ∧ PyAgrees (SquareRaises [a - d, b - e, c - f]) (False)
      (Choclo.point.gravity_ee a.number b.number c.number d.number e.number f.number m.number)
      (Python.point.gravity_ee a b c d e f m)
    ∧ PyAgrees (SquareRaises [a - d, b - e, c - f]) (False)
      (Choclo.point.gravity_nn a.number b.number c.number d.number e.number f.number m.number)
      (Python.point.gravity_nn a b c d e f m)
    ∧ PyAgrees (SquareRaises [a - d, b - e, c - f]) (False)
      (Choclo.point.gravity_uu a.number b.number c.number d.number e.number f.number m.number)
      (Python.point.gravity_uu a b c d e f m)
    ∧ PyAgrees (SquareRaises [a - d, b - e, c - f]) (False)
      (Choclo.point.gravity_en a.number b.number c.number d.number e.number f.number m.number)
      (Python.point.gravity_en a b c d e f m)
    ∧ PyAgrees (SquareRaises [a - d, b - e, c - f]) (False)
      (Choclo.point.gravity_eu a.number b.number c.number d.number e.number f.number m.number)
      (Python.point.gravity_eu a b c d e f m)
    ∧ PyAgrees (SquareRaises [a - d, b - e, c - f]) (False)
      (Choclo.point.gravity_nu a.number b.number c.number d.number e.number f.number m.number)
      (Python.point.gravity_nu a b c d e f m) := by
  have h2C : 2 * C ≤ L := two_le_of hC (by norm_num)
  have ka := upTo_mem hf (a := a) (by simp)
  have kb := upTo_mem hf (a := b) (by simp)
  have kc := upTo_mem hf (a := c) (by simp)
  have kd := upTo_mem hf (a := d) (by simp)
  have ke := upTo_mem hf (a := e) (by simp)
  have kf := upTo_mem hf (a := f) (by simp)
  have km := upTo_mem hm (a := m) (by simp)
  have h1 : PowRaises (a - d) 2 → SquareRaises [a - d, b - e, c - f] := squareRaises_mem (by simp)
  have h2 : PowRaises (b - e) 2 → SquareRaises [a - d, b - e, c - f] := squareRaises_mem (by simp)
  have h3 : PowRaises (c - f) 2 → SquareRaises [a - d, b - e, c - f] := squareRaises_mem (by simp)
  exact ⟨pyAgrees_of (Python.point.pagb_gravity_pot hA hX hC h2C hL a b c d e f m ka kb kc kd ke kf km h1 h2 h3),
    pyAgrees_of (Python.point.pagb_gravity_e hA hX hC h2C hL a b c d e f m ka kb kc kd ke kf km h1 h2 h3),
    pyAgrees_of (Python.point.pagb_gravity_n hA hX hC h2C hL a b c d e f m ka kb kc kd ke kf km h1 h2 h3),
    pyAgrees_of (Python.point.pagb_gravity_u hA hX hC h2C hL a b c d e f m ka kb kc kd ke kf km h1 h2 h3),
    pyAgrees_of (Python.point.pagb_gravity_ee hA hX hC h2C hL a b c d e f m ka kb kc kd ke kf km h1 h2 h3),
    pyAgrees_of (Python.point.pagb_gravity_nn hA hX hC h2C hL a b c d e f m ka kb kc kd ke kf km h1 h2 h3),
    pyAgrees_of (Python.point.pagb_gravity_uu hA hX hC h2C hL a b c d e f m ka kb kc kd ke kf km h1 h2 h3),
    pyAgrees_of (Python.point.pagb_gravity_en hA hX hC h2C hL a b c d e f m ka kb kc kd ke kf km h1 h2 h3),
    pyAgrees_of (Python.point.pagb_gravity_eu hA hX hC h2C hL a b c d e f m ka kb kc kd ke kf km h1 h2 h3),
    pyAgrees_of (Python.point.pagb_gravity_nu hA hX hC h2C hL a b c d e f m ka kb kc kd ke kf km h1 h2 h3)⟩

/-- Magnetic field of a dipole. -/
theorem C144_dipole (hA : PyArith A) (hX : A.ExactInts L) (hC : 12 * C ^ 2 ≤ L) (hL : 15 ≤ L) (hM : 36 * (M * C ^ 2) ≤ L) (hM1 : 18 * (M * C) ≤ L) (hM0 : M ≤ L)
    (a b c d e f m n o : PNum A) 
    (hf : AllUpTo C [a, b, c, d, e, f]) (hm : AllUpTo M [m, n, o]) :
    PyAgrees3 (SquareRaises [a - d, b - e, c - f]) (False)
      (Choclo.dipole.magnetic_field a.number b.number c.number d.number e.number f.number m.number n.number o.number)
      (Python.dipole.magnetic_field a b c d e f m n o)
    ∧ PyAgrees (SquareRaises [a - d, b - e, c - f]) (False)
      (Choclo.dipole.magnetic_e a.number b.number c.number d.number e.number f.number m.number n.number o.number)
      (Python.dipole.magnetic_e a b c d e f m n o)
    ∧ PyAgrees (SquareRaises [a - d, b - e, c - f]) (False)
      (Choclo.dipole.magnetic_n a.number b.number c.number d.number e.number f.number m.number n.number o.number)
      (Python.dipole.magnetic_n a b c d e f m n o)
    ∧ PyAgrees (SquareRaises [a - d, b - e, c - f]) (False)
      (Choclo.dipole.magnetic_u a.number b.number c.number d.number e.number f.number m.number n.number o.number)
      (Python.dipole.magnetic_u a b c d e f m n o) := by
  have h2C : 2 * C ≤ L := two_le_of hC (by norm_num)
  have ka := upTo_mem hf (a := a) (by simp)
  have kb := upTo_mem hf (a := b) (by simp)
  have kc := upTo_mem hf (a := c) (by simp)
  have kd := upTo_mem hf (a := d) (by simp)
  have ke := upTo_mem hf (a := e) (by simp)
  have kf := upTo_mem hf (a := f) (by simp)
  have km := upTo_mem hm (a := m) (by simp)
  have kn := upTo_mem hm (a := n) (by simp)
  have ko := upTo_mem hm (a := o) (by simp)
  have h1 : PowRaises (a - d) 2 → SquareRaises [a - d, b - e, c - f] := squareRaises_mem (by simp)
  have h2 : PowRaises (b - e) 2 → SquareRaises [a - d, b - e, c - f] := squareRaises_mem (by simp)
  have h3 : PowRaises (c - f) 2 → SquareRaises [a - d, b - e, c - f] := squareRaises_mem (by simp)
  exact ⟨pyAgrees3_of (Python.dipole.pagb_magnetic_field hA hX hC h2C hL hM0 hM1 hM a b c d e f m n o ka kb kc kd ke kf km kn ko h1 h2 h3),
    pyAgrees_of (Python.dipole.pagb_magnetic_e hA hX hC h2C hL hM0 hM1 hM a b c d e f m n o ka kb kc kd ke kf km kn ko h1 h2 h3),
    pyAgrees_of (Python.dipole.pagb_magnetic_n hA hX hC h2C hL hM0 hM1 hM a b c d e f m n o ka kb kc kd ke kf km kn ko h1 h2 h3),
    pyAgrees_of (Python.dipole.pagb_magnetic_u hA hX hC h2C hL hM0 hM1 hM a b c d e f m n o ka kb kc kd ke kf km kn ko h1 h2 h3)⟩

/-- Kernels of a point source, called directly. -/
theorem C144_point_kernels (hA : PyArith A) (hX : A.ExactInts L) (hC : 12 * C ^ 2 ≤ L) (hL : 15 ≤ L)
    (a b c d e f r : PNum A) 
    (hf : AllUpTo C [a, b, c, d, e, f]) (hr : r.IsFloat) :
    PyAgrees (SquareRaises [a - d, b - e, c - f] ∨ ∃ n, n ≤ 7 ∧ PowRaises r n) (¬r.IsNumpy)
      (Choclo.point.kernel_pot a.number b.number c.number d.number e.number f.number r.number)
      (Python.point.kernel_pot a b c d e f r)
    ∧ PyAgrees (SquareRaises [a - d, b - e, c - f] ∨ ∃ n, n ≤ 7 ∧ PowRaises r n) (¬r.IsNumpy)
      (Choclo.point.kernel_e a.number b.number c.number d.number e.number f.number r.number)
      (Python.point.kernel_e a b c d e f r)
    ∧ PyAgrees (SquareRaises [a - d, b - e, c - f] ∨ ∃ n, n ≤ 7 ∧ PowRaises r n) (¬r.IsNumpy)
      (Choclo.point.kernel_n a.number b.number c.number d.number e.number f.number r.number)
      (Python.point.kernel_n a b c d e f r)
    ∧ PyAgrees (SquareRaises [a - d, b - e, c - f] ∨ ∃ n, n ≤ 7 ∧ PowRaises r n) (¬r.IsNumpy)
      (Choclo.point.kernel_u a.number b.number c.number d.number e.number f.number r.number)
      (Python.point.kernel_u a b c d e f r)
    ∧ PyAgrees (SquareRaises [a - d, b - e, c - f] ∨ ∃ n, n ≤ 7 ∧ PowRaises r n) (¬r.IsNumpy)
      (Choclo.point.kernel_ee a.number b.number c.number d.number e.number f.number r.number)
      (Python.point.kernel_ee a b c d e f r)
    ∧ PyAgrees (SquareRaises [a - d, b - e, c - f] ∨ ∃ n, n ≤ 7 ∧ PowRaises r n) (¬r.IsNumpy)
      (Choclo.point.kernel_nn a.number b.number c.number d.number e.number f.number r.number)
      (Python.point.kernel_nn a b c d e f r)
    ∧ PyAgrees (SquareRaises [a - d, b - e, c - f] ∨ ∃ n, n ≤ 7 ∧ PowRaises r n) (¬r.IsNumpy)
      (Choclo.point.kernel_uu a.number b.number c.number d.number e.number f.number r.number)
      (Python.point.kernel_uu a b c d e f r)
    ∧ PyAgrees (SquareRaises [a - d, b - e, c - f] ∨ ∃ n, n ≤ 7 ∧ PowRaises r n) (¬r.IsNumpy)
      (Choclo.point.kernel_en a.number b.number c.number d.number e.number f.number r.number)
      (Python.point.kernel_en a b c d e f r)
    ∧ PyAgrees (SquareRaises [a - d, b - e, c - f] ∨ ∃ n, n ≤ 7 ∧ PowRaises r n) (¬r.IsNumpy)
      (Choclo.point.kernel_eu a.number b.number c.number d.number e.number f.number r.number)
      (Python.point.kernel_eu a b c d e f r)
    ∧ PyAgrees (SquareRaises [a - d, b - e, c - f] ∨ ∃ n, n ≤ 7 ∧ PowRaises r n) (¬r.IsNumpy)
      (Choclo.point.kernel_nu a.number b.number c.number d.number e.number f.number r.number)
      (Python.point.kernel_nu a b c d e f r) := by
  have h2C : 2 * C ≤ L := two_le_of hC (by norm_num)
  have ka := upTo_mem hf (a := a) (by simp)
  have kb := upTo_mem hf (a := b) (by simp)
  have kc := upTo_mem hf (a := c) (by simp)
  have kd := upTo_mem hf (a := d) (by simp)
  have ke := upTo_mem hf (a := e) (by simp)
  have kf := upTo_mem hf (a := f) (by simp)
  have kr := isInt_of hr
  have h1 : PowRaises (a - d) 2 → SquareRaises [a - d, b - e, c - f] ∨ ∃ n, n ≤ 7 ∧ PowRaises r n := fun h => .inl (squareRaises_mem (by simp) h)
  have h2 : PowRaises (b - e) 2 → SquareRaises [a - d, b - e, c - f] ∨ ∃ n, n ≤ 7 ∧ PowRaises r n := fun h => .inl (squareRaises_mem (by simp) h)
  have h3 : PowRaises (c - f) 2 → SquareRaises [a - d, b - e, c - f] ∨ ∃ n, n ≤ 7 ∧ PowRaises r n := fun h => .inl (squareRaises_mem (by simp) h)
  have h4 : ∀ n, n ≤ 7 → PowRaises r n → SquareRaises [a - d, b - e, c - f] ∨ ∃ n, n ≤ 7 ∧ PowRaises r n := fun n hn h => .inr ⟨n, hn, h⟩
  have h5 : r.isNumpy = true ∨ ¬r.IsNumpy := by cases r <;> simp [PNum.isNumpy, PNum.IsNumpy]
  exact ⟨pyAgrees_of (Python.point.pagb_kernel_pot hA hX hC h2C hL a b c d e f r ka kb kc kd ke kf kr (.arg kr) h1 h2 h3 h4 h5),
    pyAgrees_of (Python.point.pagb_kernel_e hA hX hC h2C hL a b c d e f r ka kb kc kd ke kf kr (.arg kr) h1 h2 h3 h4 h5),
    pyAgrees_of (Python.point.pagb_kernel_n hA hX hC h2C hL a b c d e f r ka kb kc kd ke kf kr (.arg kr) h1 h2 h3 h4 h5),
    pyAgrees_of (Python.point.pagb_kernel_u hA hX hC h2C hL a b c d e f r ka kb kc kd ke kf kr (.arg kr) h1 h2 h3 h4 h5),
    pyAgrees_of (Python.point.pagb_kernel_ee hA hX hC h2C hL a b c d e f r ka kb kc kd ke kf kr (.arg kr) h1 h2 h3 h4 h5),
    pyAgrees_of (Python.point.pagb_kernel_nn hA hX hC h2C hL a b c d e f r ka kb kc kd ke kf kr (.arg kr) h1 h2 h3 h4 h5),
    pyAgrees_of (Python.point.pagb_kernel_uu hA hX hC h2C hL a b c d e f r ka kb kc kd ke kf kr (.arg kr) h1 h2 h3 h4 h5),
    pyAgrees_of (Python.point.pagb_kernel_en hA hX hC h2C hL a b c d e f r ka kb kc kd ke kf kr (.arg kr) h1 h2 h3 h4 h5),
    pyAgrees_of (Python.point.pagb_kernel_eu hA hX hC h2C hL a b c d e f r ka kb kc kd ke kf kr (.arg kr) h1 h2 h3 h4 h5),
    pyAgrees_of (Python.point.pagb_kernel_nu hA hX hC h2C hL a b c d e f r ka kb kc kd ke kf kr (.arg kr) h1 h2 h3 h4 h5)⟩

/-- Third-order kernels of a point source, called directly. -/
theorem C144_point_kernels3 (hA : PyArith A) (hX : A.ExactInts L) (hC : 12 * C ^ 2 ≤ L) (hL : 15 ≤ L) (hC3 : 120 * C ^ 3 ≤ L)
    (a b c d e f r : PNum A) 
    (hf : AllUpTo C [a, b, c, d, e, f]) (hr : r.IsFloat) :
    PyAgrees (SquareRaises [a - d, b - e, c - f] ∨ PowRaises (a - d) 3 ∨ PowRaises (b - e) 3 ∨ PowRaises (c - f) 3 ∨ ∃ n, n ≤ 7 ∧ PowRaises r n) (¬r.IsNumpy)
      (Choclo.point.kernel_eee a.number b.number c.number d.number e.number f.number r.number)
      (Python.point.kernel_eee a b c d e f r)
    ∧ PyAgrees (SquareRaises [a - d, b - e, c - f] ∨ PowRaises (a - d) 3 ∨ PowRaises (b - e) 3 ∨ PowRaises (c - f) 3 ∨ ∃ n, n ≤ 7 ∧ PowRaises r n) (¬r.IsNumpy)
      (Choclo.point.kernel_nnn a.number b.number c.number d.number e.number f.number r.number)
      (Python.point.kernel_nnn a b c d e f r)
    ∧ PyAgrees (SquareRaises [a - d, b - e, c - f] ∨ PowRaises (a - d) 3 ∨ PowRaises (b - e) 3 ∨ PowRaises (c - f) 3 ∨ ∃ n, n ≤ 7 ∧ PowRaises r n) (¬r.IsNumpy)
      (Choclo.point.kernel_uuu a.number b.number c.number d.number e.number f.number r.number)
      (Python.point.kernel_uuu a b c d e f r)
    ∧ PyAgrees (SquareRaises [a - d, b - e, c - f] ∨ PowRaises (a - d) 3 ∨ PowRaises (b - e) 3 ∨ PowRaises (c - f) 3 ∨ ∃ n, n ≤ 7 ∧ PowRaises r n) (¬r.IsNumpy)
      (Choclo.point.kernel_een a.number b.number c.number d.number e.number f.number r.number)
      (Python.point.kernel_een a b c d e f r)
    ∧ PyAgrees (SquareRaises [a - d, b - e, c - f] ∨ PowRaises (a - d) 3 ∨ PowRaises (b - e) 3 ∨ PowRaises (c - f) 3 ∨ ∃ n, n ≤ 7 ∧ PowRaises r n) (¬r.IsNumpy)
      (Choclo.point.kernel_eeu a.number b.number c.number d.number e.number f.number r.number)
      (Python.point.kernel_eeu a b c d e f r)
    ∧ PyAgrees (SquareRaises [a - d, b - e, c - f] ∨ PowRaises (a - d) 3 ∨ PowRaises (b - e) 3 ∨ PowRaises (c - f) 3 ∨ ∃ n, n ≤ 7 ∧ PowRaises r n) (¬r.IsNumpy)
      (Choclo.point.kernel_nne a.number b.number c.number d.number e.number f.number r.number)
      (Python.point.kernel_nne a b c d e f r)
    ∧ PyAgrees (SquareRaises [a - d, b - e, c - f] ∨ PowRaises (a - d) 3 ∨ PowRaises (b - e) 3 ∨ PowRaises (c - f) 3 ∨ ∃ n, n ≤ 7 ∧ PowRaises r n) (¬r.IsNumpy)
      (Choclo.point.kernel_nnu a.number b.number c.number d.number e.number f.number r.number)
      (Python.point.kernel_nnu a b c d e f r)
    ∧ PyAgrees (SquareRaises [a - d, b - e, c - f] ∨ PowRaises (a - d) 3 ∨ PowRaises (b - e) 3 ∨ PowRaises (c - f) 3 ∨ ∃ n, n ≤ 7 ∧ PowRaises r n) (¬r.IsNumpy)
      (Choclo.point.kernel_uue a.number b.number c.number d.number e.number f.number r.number)
      (Python.point.kernel_uue a b c d e f r)
    ∧ PyAgrees (SquareRaises [a - d, b - e, c - f] ∨ PowRaises (a - d) 3 ∨ PowRaises (b - e) 3 ∨ PowRaises (c - f) 3 ∨ ∃ n, n ≤ 7 ∧ PowRaises r n) (¬r.IsNumpy)
      (Choclo.point.kernel_uun a.number b.number c.number d.number e.number f.number r.number)
      (Python.point.kernel_uun a b c d e f r)
    ∧ PyAgrees (SquareRaises [a - d, b - e, c - f] ∨ PowRaises (a - d) 3 ∨ PowRaises (b - e) 3 ∨ PowRaises (c - f) 3 ∨ ∃ n, n ≤ 7 ∧ PowRaises r n) (¬r.IsNumpy)
      (Choclo.point.kernel_enu a.number b.number c.number d.number e.number f.number r.number)
      (Python.point.kernel_enu a b c d e f r) := by
  have h2C : 2 * C ≤ L := two_le_of hC (by norm_num)
  have ka := upTo_mem hf (a := a) (by simp)
  have kb := upTo_mem hf (a := b) (by simp)
  have kc := upTo_mem hf (a := c) (by simp)
  have kd := upTo_mem hf (a := d) (by simp)
  have ke := upTo_mem hf (a := e) (by simp)
  have kf := upTo_mem hf (a := f) (by simp)
  have kr := isInt_of hr
  have h1 : PowRaises (a - d) 2 → SquareRaises [a - d, b - e, c - f] ∨ PowRaises (a - d) 3 ∨ PowRaises (b - e) 3 ∨ PowRaises (c - f) 3 ∨ ∃ n, n ≤ 7 ∧ PowRaises r n := fun h => .inl (squareRaises_mem (by simp) h)
  have h2 : PowRaises (b - e) 2 → SquareRaises [a - d, b - e, c - f] ∨ PowRaises (a - d) 3 ∨ PowRaises (b - e) 3 ∨ PowRaises (c - f) 3 ∨ ∃ n, n ≤ 7 ∧ PowRaises r n := fun h => .inl (squareRaises_mem (by simp) h)
  have h3 : PowRaises (c - f) 2 → SquareRaises [a - d, b - e, c - f] ∨ PowRaises (a - d) 3 ∨ PowRaises (b - e) 3 ∨ PowRaises (c - f) 3 ∨ ∃ n, n ≤ 7 ∧ PowRaises r n := fun h => .inl (squareRaises_mem (by simp) h)
  have h6 : PowRaises (a - d) 3 → SquareRaises [a - d, b - e, c - f] ∨ PowRaises (a - d) 3 ∨ PowRaises (b - e) 3 ∨ PowRaises (c - f) 3 ∨ ∃ n, n ≤ 7 ∧ PowRaises r n := fun h => .inr (.inl h)
  have h7 : PowRaises (b - e) 3 → SquareRaises [a - d, b - e, c - f] ∨ PowRaises (a - d) 3 ∨ PowRaises (b - e) 3 ∨ PowRaises (c - f) 3 ∨ ∃ n, n ≤ 7 ∧ PowRaises r n := fun h => .inr (.inr (.inl h))
  have h8 : PowRaises (c - f) 3 → SquareRaises [a - d, b - e, c - f] ∨ PowRaises (a - d) 3 ∨ PowRaises (b - e) 3 ∨ PowRaises (c - f) 3 ∨ ∃ n, n ≤ 7 ∧ PowRaises r n := fun h => .inr (.inr (.inr (.inl h)))
  have h4 : ∀ n, n ≤ 7 → PowRaises r n → SquareRaises [a - d, b - e, c - f] ∨ PowRaises (a - d) 3 ∨ PowRaises (b - e) 3 ∨ PowRaises (c - f) 3 ∨ ∃ n, n ≤ 7 ∧ PowRaises r n := fun n hn h => .inr (.inr (.inr (.inr ⟨n, hn, h⟩)))
  have h5 : r.isNumpy = true ∨ ¬r.IsNumpy := by cases r <;> simp [PNum.isNumpy, PNum.IsNumpy]
  exact ⟨pyAgrees_of (Python.point.pagb_kernel_eee hA hX hC h2C hL hC3 a b c d e f r ka kb kc kd ke kf kr (.arg kr) h1 h2 h3 h6 h7 h8 h4 h5),
    pyAgrees_of (Python.point.pagb_kernel_nnn hA hX hC h2C hL hC3 a b c d e f r ka kb kc kd ke kf kr (.arg kr) h1 h2 h3 h6 h7 h8 h4 h5),
    pyAgrees_of (Python.point.pagb_kernel_uuu hA hX hC h2C hL hC3 a b c d e f r ka kb kc kd ke kf kr (.arg kr) h1 h2 h3 h6 h7 h8 h4 h5),
    pyAgrees_of (Python.point.pagb_kernel_een hA hX hC h2C hL hC3 a b c d e f r ka kb kc kd ke kf kr (.arg kr) h1 h2 h3 h6 h7 h8 h4 h5),
    pyAgrees_of (Python.point.pagb_kernel_eeu hA hX hC h2C hL hC3 a b c d e f r ka kb kc kd ke kf kr (.arg kr) h1 h2 h3 h6 h7 h8 h4 h5),
    pyAgrees_of (Python.point.pagb_kernel_nne hA hX hC h2C hL hC3 a b c d e f r ka kb kc kd ke kf kr (.arg kr) h1 h2 h3 h6 h7 h8 h4 h5),
    pyAgrees_of (Python.point.pagb_kernel_nnu hA hX hC h2C hL hC3 a b c d e f r ka kb kc kd ke kf kr (.arg kr) h1 h2 h3 h6 h7 h8 h4 h5),
    pyAgrees_of (Python.point.pagb_kernel_uue hA hX hC h2C hL hC3 a b c d e f r ka kb kc kd ke kf kr (.arg kr) h1 h2 h3 h6 h7 h8 h4 h5),
    pyAgrees_of (Python.point.pagb_kernel_uun hA hX hC h2C hL hC3 a b c d e f r ka kb kc kd ke kf kr (.arg kr) h1 h2 h3 h6 h7 h8 h4 h5),
    pyAgrees_of (Python.point.pagb_kernel_enu hA hX hC h2C hL hC3 a b c d e f r ka kb kc kd ke kf kr (.arg kr) h1 h2 h3 h6 h7 h8 h4 h5)⟩

/-- Kernels of a prism up to the second order, called directly. -/
theorem C144_prism_kernels (hA : PyArith A) (hX : A.ExactInts L) (hD : 3 * D ^ 2 ≤ L)
    (x y z r : PNum A) (hf : AllUpTo D [x, y, z]) (hr : r.IsFloat) :
    PyAgrees (SquareRaises [x, y, z]) (¬r.IsNumpy)
      (Choclo.prism.kernel_pot x.number y.number z.number r.number)
      (Python.prism.kernel_pot x y z r)
    ∧ PyAgrees (SquareRaises [x, y, z]) (¬r.IsNumpy)
      (Choclo.prism.kernel_e x.number y.number z.number r.number)
      (Python.prism.kernel_e x y z r)
    ∧ PyAgrees (SquareRaises [x, y, z]) (¬r.IsNumpy)
      (Choclo.prism.kernel_n x.number y.number z.number r.number)
      (Python.prism.kernel_n x y z r)
    ∧ PyAgrees (SquareRaises [x, y, z]) (¬r.IsNumpy)
      (Choclo.prism.kernel_u x.number y.number z.number r.number)
      (Python.prism.kernel_u x y z r)
    ∧ PyAgrees (SquareRaises [x, y, z]) (¬r.IsNumpy)
      (Choclo.prism.kernel_ee x.number y.number z.number r.number)
      (Python.prism.kernel_ee x y z r)
    ∧ PyAgrees (SquareRaises [x, y, z]) (¬r.IsNumpy)
      (Choclo.prism.kernel_nn x.number y.number z.number r.number)
      (Python.prism.kernel_nn x y z r)
    ∧ PyAgrees (SquareRaises [x, y, z]) (¬r.IsNumpy)
      (Choclo.prism.kernel_uu x.number y.number z.number r.number)
      (Python.prism.kernel_uu x y z r)
    ∧ PyAgrees (SquareRaises [x, y, z]) (¬r.IsNumpy)
      (Choclo.prism.kernel_en x.number y.number z.number r.number)
      (Python.prism.kernel_en x y z r)
    ∧ PyAgrees (SquareRaises [x, y, z]) (¬r.IsNumpy)
      (Choclo.prism.kernel_eu x.number y.number z.number r.number)
      (Python.prism.kernel_eu x y z r)
    ∧ PyAgrees (SquareRaises [x, y, z]) (¬r.IsNumpy)
      (Choclo.prism.kernel_nu x.number y.number z.number r.number)
      (Python.prism.kernel_nu x y z r) := by
  have hD1 : 2 * D ≤ L := by nlinarith
  have kx := upTo_mem hf (a := x) (by simp)
  have ky := upTo_mem hf (a := y) (by simp)
  have kz := upTo_mem hf (a := z) (by simp)
  have kr := isInt_of hr
  have h1 : PowRaises x 2 → SquareRaises [x, y, z] := squareRaises_mem (by simp)
  have h2 : PowRaises y 2 → SquareRaises [x, y, z] := squareRaises_mem (by simp)
  have h3 : PowRaises z 2 → SquareRaises [x, y, z] := squareRaises_mem (by simp)
  have h5 : r.isNumpy = true ∨ ¬r.IsNumpy := by cases r <;> simp [PNum.isNumpy, PNum.IsNumpy]
  exact ⟨pyAgrees_of (Python.prism.pagb_kernel_pot hA hX hD hD1 _ _ _ _ x y z r kx ky kz (.arg kr) kr h1 h2 h3 h5),
    pyAgrees_of (Python.prism.pagb_kernel_e hA hX hD hD1 _ _ _ _ x y z r kx ky kz (.arg kr) kr h1 h2 h3 h5),
    pyAgrees_of (Python.prism.pagb_kernel_n hA hX hD hD1 _ _ _ _ x y z r kx ky kz (.arg kr) kr h1 h2 h3 h5),
    pyAgrees_of (Python.prism.pagb_kernel_u hA hX hD hD1 _ _ _ _ x y z r kx ky kz (.arg kr) kr h1 h2 h3 h5),
    pyAgrees_of (Python.prism.pagb_kernel_ee hA hX hD hD1 _ _ _ _ x y z r kx ky kz (.arg kr) kr h1 h2 h3 h5),
    pyAgrees_of (Python.prism.pagb_kernel_nn hA hX hD hD1 _ _ _ _ x y z r kx ky kz (.arg kr) kr h1 h2 h3 h5),
    pyAgrees_of (Python.prism.pagb_kernel_uu hA hX hD hD1 _ _ _ _ x y z r kx ky kz (.arg kr) kr h1 h2 h3 h5),
    pyAgrees_of (Python.prism.pagb_kernel_en hA hX hD hD1 _ _ _ _ x y z r kx ky kz (.arg kr) kr h1 h2 h3 h5),
    pyAgrees_of (Python.prism.pagb_kernel_eu hA hX hD hD1 _ _ _ _ x y z r kx ky kz (.arg kr) kr h1 h2 h3 h5),
    pyAgrees_of (Python.prism.pagb_kernel_nu hA hX hD hD1 _ _ _ _ x y z r kx ky kz (.arg kr) kr h1 h2 h3 h5)⟩

/-- Third-order kernels of a prism, called directly. -/
theorem C144_prism_kernels3 (hA : PyArith A) (hX : A.ExactInts L) (hD4 : 4 * D ^ 4 ≤ L)
    (x y z r : PNum A) (hf : AllUpTo D [x, y, z]) (hr : r.IsFloat) :
    PyAgrees (SquareRaises [x, y, z]) (¬r.IsNumpy)
      (Choclo.prism.kernel_eee x.number y.number z.number r.number)
      (Python.prism.kernel_eee x y z r)
    ∧ PyAgrees (SquareRaises [x, y, z]) (¬r.IsNumpy)
      (Choclo.prism.kernel_nnn x.number y.number z.number r.number)
      (Python.prism.kernel_nnn x y z r)
    ∧ PyAgrees (SquareRaises [x, y, z]) (¬r.IsNumpy)
      (Choclo.prism.kernel_uuu x.number y.number z.number r.number)
      (Python.prism.kernel_uuu x y z r)
    ∧ PyAgrees (SquareRaises [x, y, z]) (¬r.IsNumpy)
      (Choclo.prism.kernel_een x.number y.number z.number r.number)
      (Python.prism.kernel_een x y z r)
    ∧ PyAgrees (SquareRaises [x, y, z]) (¬r.IsNumpy)
      (Choclo.prism.kernel_eeu x.number y.number z.number r.number)
      (Python.prism.kernel_eeu x y z r)
    ∧ PyAgrees (SquareRaises [x, y, z]) (¬r.IsNumpy)
      (Choclo.prism.kernel_enn x.number y.number z.number r.number)
      (Python.prism.kernel_enn x y z r)
    ∧ PyAgrees (SquareRaises [x, y, z]) (¬r.IsNumpy)
      (Choclo.prism.kernel_nnu x.number y.number z.number r.number)
      (Python.prism.kernel_nnu x y z r)
    ∧ PyAgrees (SquareRaises [x, y, z]) (¬r.IsNumpy)
      (Choclo.prism.kernel_euu x.number y.number z.number r.number)
      (Python.prism.kernel_euu x y z r)
    ∧ PyAgrees (SquareRaises [x, y, z]) (¬r.IsNumpy)
      (Choclo.prism.kernel_nuu x.number y.number z.number r.number)
      (Python.prism.kernel_nuu x y z r)
    ∧ PyAgrees (SquareRaises [x, y, z]) (¬r.IsNumpy)
      (Choclo.prism.kernel_enu x.number y.number z.number r.number)
      (Python.prism.kernel_enu x y z r) := by
  have hD2 : 4 * D ^ 2 ≤ L := by
    rcases Nat.eq_zero_or_pos D with rfl | h0
    · simp
    · have h2 : D ^ 2 ≤ D ^ 4 := Nat.pow_le_pow_right h0 (by norm_num)
      linarith
  have hD : 3 * D ^ 2 ≤ L := by linarith
  have hD1 : 2 * D ≤ L := by nlinarith
  have kx := upTo_mem hf (a := x) (by simp)
  have ky := upTo_mem hf (a := y) (by simp)
  have kz := upTo_mem hf (a := z) (by simp)
  have kr := isInt_of hr
  have h1 : PowRaises x 2 → SquareRaises [x, y, z] := squareRaises_mem (by simp)
  have h2 : PowRaises y 2 → SquareRaises [x, y, z] := squareRaises_mem (by simp)
  have h3 : PowRaises z 2 → SquareRaises [x, y, z] := squareRaises_mem (by simp)
  have h5 : r.isNumpy = true ∨ ¬r.IsNumpy := by cases r <;> simp [PNum.isNumpy, PNum.IsNumpy]
  exact ⟨pyAgrees_of (Python.prism.pagb_kernel_eee hA hX hD hD1 hD4 hD2 _ _ _ _ x y z r kx ky kz (.arg kr) kr h1 h2 h3 h5),
    pyAgrees_of (Python.prism.pagb_kernel_nnn hA hX hD hD1 hD4 hD2 _ _ _ _ x y z r kx ky kz (.arg kr) kr h1 h2 h3 h5),
    pyAgrees_of (Python.prism.pagb_kernel_uuu hA hX hD hD1 hD4 hD2 _ _ _ _ x y z r kx ky kz (.arg kr) kr h1 h2 h3 h5),
    pyAgrees_of (Python.prism.pagb_kernel_een hA hX hD hD1 hD4 hD2 _ _ _ _ x y z r kx ky kz (.arg kr) kr h1 h2 h3 h5),
    pyAgrees_of (Python.prism.pagb_kernel_eeu hA hX hD hD1 hD4 hD2 _ _ _ _ x y z r kx ky kz (.arg kr) kr h1 h2 h3 h5),
    pyAgrees_of (Python.prism.pagb_kernel_enn hA hX hD hD1 hD4 hD2 _ _ _ _ x y z r kx ky kz (.arg kr) kr h1 h2 h3 h5),
    pyAgrees_of (Python.prism.pagb_kernel_nnu hA hX hD hD1 hD4 hD2 _ _ _ _ x y z r kx ky kz (.arg kr) kr h1 h2 h3 h5),
    pyAgrees_of (Python.prism.pagb_kernel_euu hA hX hD hD1 hD4 hD2 _ _ _ _ x y z r kx ky kz (.arg kr) kr h1 h2 h3 h5),
    pyAgrees_of (Python.prism.pagb_kernel_nuu hA hX hD hD1 hD4 hD2 _ _ _ _ x y z r kx ky kz (.arg kr) kr h1 h2 h3 h5),
    pyAgrees_of (Python.prism.pagb_kernel_enu hA hX hD hD1 hD4 hD2 _ _ _ _ x y z r kx ky kz (.arg kr) kr h1 h2 h3 h5)⟩

/-- Gravity of a prism `(w, E, s, N, b, t)` at `(e, n, u)`. -/
theorem C144_prism_gravity (hA : PyArith A) (hX : A.ExactInts L) (hC : 12 * C ^ 2 ≤ L)
    (e n u w E s N b t ρ : PNum A) 
    (hf : AllUpTo C [e, n, u, w, E, s, N, b, t]) (hm : AllUpTo L [ρ]) :
    PyAgrees (SquareRaises [E - e, w - e, N - n, s - n, t - u, b - u]) (False)
      (Choclo.prism.gravity_pot e.number n.number u.number w.number E.number s.number N.number b.number t.number ρ.number)
      (Python.prism.gravity_pot e n u w E s N b t ρ)
    ∧ PyAgrees (SquareRaises [E - e, w - e, N - n, s - n, t - u, b - u]) (False)
      (Choclo.prism.gravity_e e.number n.number u.number w.number E.number s.number N.number b.number t.number ρ.number)
      (Python.prism.gravity_e e n u w E s N b t ρ)
    ∧ PyAgrees (SquareRaises [E - e, w - e, N - n, s - n, t - u, b - u]) (False)
      (Choclo.prism.gravity_n e.number n.number u.number w.number E.number s.number N.number b.number t.number ρ.number)
      (Python.prism.gravity_n e n u w E s N b t ρ)
    ∧ PyAgrees (SquareRaises [E - e, w - e, N - n, s - n, t - u, b - u]) (False)
      (Choclo.prism.gravity_u e.number n.number u.number w.number E.number s.number N.number b.number t.number ρ.number)
      (Python.prism.gravity_u e n u w E s N b t ρ)
    ∧ PyAgrees (SquareRaises [E - e, w - e, N - n, s - n, t - u, b - u]) (False)
      (Choclo.prism.gravity_ee e.number n.number u.number w.number E.number s.number N.number b.number t.number ρ.number)
      (Python.prism.gravity_ee e n u w E s N b t ρ)
    ∧ PyAgrees (SquareRaises [E - e, w - e, N - n, s - n, t - u, b - u]) (False)
      (Choclo.prism.gravity_nn e.number n.number u.number w.number E.number s.number N.number b.number t.number ρ.number)
      (Python.prism.gravity_nn e n u w E s N b t ρ)
    ∧ PyAgrees (SquareRaises [E - e, w - e, N - n, s - n, t - u, b - u]) (False)
      (Choclo.prism.gravity_uu e.number n.number u.number w.number E.number s.number N.number b.number t.number ρ.number)
      (Python.prism.gravity_uu e n u w E s N b t ρ)
    ∧ PyAgrees (SquareRaises [E - e, w - e, N - n, s - n, t - u, b - u]) (False)
      (Choclo.prism.gravity_en e.number n.number u.number w.number E.number s.number N.number b.number t.number ρ.number)
      (Python.prism.gravity_en e n u w E s N b t ρ)
    ∧ PyAgrees (SquareRaises [E - e, w - e, N - n, s - n, t - u, b - u]) (False)
      (Choclo.prism.gravity_eu e.number n.number u.number w.number E.number s.number N.number b.number t.number ρ.number)
      (Python.prism.gravity_eu e n u w E s N b t ρ)
    ∧ PyAgrees (SquareRaises [E - e, w - e, N - n, s - n, t - u, b - u]) (False)
      (Choclo.prism.gravity_nu e.number n.number u.number w.number E.number s.number N.number b.number t.number ρ.number)
      (Python.prism.gravity_nu e n u w E s N b t ρ) := by
  have h2C : 4 * C ≤ L := two_le_of hC (by norm_num)
  have ke := upTo_mem hf (a := e) (by simp)
  have kn := upTo_mem hf (a := n) (by simp)
  have ku := upTo_mem hf (a := u) (by simp)
  have kw := upTo_mem hf (a := w) (by simp)
  have kE := upTo_mem hf (a := E) (by simp)
  have ks := upTo_mem hf (a := s) (by simp)
  have kN := upTo_mem hf (a := N) (by simp)
  have kb := upTo_mem hf (a := b) (by simp)
  have kt := upTo_mem hf (a := t) (by simp)
  have kρ := upTo_mem hm (a := ρ) (by simp)
  have h1 : PowRaises (E - e) 2 → SquareRaises [E - e, w - e, N - n, s - n, t - u, b - u] := squareRaises_mem (by simp)
  have h2 : PowRaises (w - e) 2 → SquareRaises [E - e, w - e, N - n, s - n, t - u, b - u] := squareRaises_mem (by simp)
  have h3 : PowRaises (N - n) 2 → SquareRaises [E - e, w - e, N - n, s - n, t - u, b - u] := squareRaises_mem (by simp)
  have h4 : PowRaises (s - n) 2 → SquareRaises [E - e, w - e, N - n, s - n, t - u, b - u] := squareRaises_mem (by simp)
  have h5 : PowRaises (t - u) 2 → SquareRaises [E - e, w - e, N - n, s - n, t - u, b - u] := squareRaises_mem (by simp)
  have h6 : PowRaises (b - u) 2 → SquareRaises [E - e, w - e, N - n, s - n, t - u, b - u] := squareRaises_mem (by simp)
  exact ⟨pyAgrees_of (Python.prism.pagb_gravity_pot hA hX hC h2C e n u w E s N b t ρ ke kn ku kw kE ks kN kb kt kρ h1 h2 h3 h4 h5 h6),
    pyAgrees_of (Python.prism.pagb_gravity_e hA hX hC h2C e n u w E s N b t ρ ke kn ku kw kE ks kN kb kt kρ h1 h2 h3 h4 h5 h6),
    pyAgrees_of (Python.prism.pagb_gravity_n hA hX hC h2C e n u w E s N b t ρ ke kn ku kw kE ks kN kb kt kρ h1 h2 h3 h4 h5 h6),
    pyAgrees_of (Python.prism.pagb_gravity_u hA hX hC h2C e n u w E s N b t ρ ke kn ku kw kE ks kN kb kt kρ h1 h2 h3 h4 h5 h6),
    pyAgrees_of (Python.prism.pagb_gravity_ee hA hX hC h2C e n u w E s N b t ρ ke kn ku kw kE ks kN kb kt kρ h1 h2 h3 h4 h5 h6),
    pyAgrees_of (Python.prism.pagb_gravity_nn hA hX hC h2C e n u w E s N b t ρ ke kn ku kw kE ks kN kb kt kρ h1 h2 h3 h4 h5 h6),
    pyAgrees_of (Python.prism.pagb_gravity_uu hA hX hC h2C e n u w E s N b t ρ ke kn ku kw kE ks kN kb kt kρ h1 h2 h3 h4 h5 h6),
    pyAgrees_of (Python.prism.pagb_gravity_en hA hX hC h2C e n u w E s N b t ρ ke kn ku kw kE ks kN kb kt kρ h1 h2 h3 h4 h5 h6),
    pyAgrees_of (Python.prism.pagb_gravity_eu hA hX hC h2C e n u w E s N b t ρ ke kn ku kw kE ks kN kb kt kρ h1 h2 h3 h4 h5 h6),
    pyAgrees_of (Python.prism.pagb_gravity_nu hA hX hC h2C e n u w E s N b t ρ ke kn ku kw kE ks kN kb kt kρ h1 h2 h3 h4 h5 h6)⟩

/-- Magnetic field of a prism. -/
theorem C144_prism_magnetic (hA : PyArith A) (hX : A.ExactInts L) (hC : 12 * C ^ 2 ≤ L)
    (e n u w E s N b t mx my mz : PNum A)
    (hf : AllUpTo C [e, n, u, w, E, s, N, b, t]) (hm : AllUpTo L [mx, my, mz]) :
    PyAgrees3 (SquareRaises [E - e, w - e, N - n, s - n, t - u, b - u]) (False)
      (Choclo.prism.magnetic_field e.number n.number u.number w.number E.number s.number N.number b.number t.number mx.number my.number mz.number)
      (Python.prism.magnetic_field e n u w E s N b t mx my mz)
    ∧ PyAgrees (SquareRaises [E - e, w - e, N - n, s - n, t - u, b - u]) (False)
      (Choclo.prism.magnetic_e e.number n.number u.number w.number E.number s.number N.number b.number t.number mx.number my.number mz.number)
      (Python.prism.magnetic_e e n u w E s N b t mx my mz)
    ∧ PyAgrees (SquareRaises [E - e, w - e, N - n, s - n, t - u, b - u]) (False)
      (Choclo.prism.magnetic_n e.number n.number u.number w.number E.number s.number N.number b.number t.number mx.number my.number mz.number)
      (Python.prism.magnetic_n e n u w E s N b t mx my mz)
    ∧ PyAgrees (SquareRaises [E - e, w - e, N - n, s - n, t - u, b - u]) (False)
      (Choclo.prism.magnetic_u e.number n.number u.number w.number E.number s.number N.number b.number t.number mx.number my.number mz.number)
      (Python.prism.magnetic_u e n u w E s N b t mx my mz) := by
  have h2C : 4 * C ≤ L := two_le_of hC (by norm_num)
  have ke := upTo_mem hf (a := e) (by simp)
  have kn := upTo_mem hf (a := n) (by simp)
  have ku := upTo_mem hf (a := u) (by simp)
  have kw := upTo_mem hf (a := w) (by simp)
  have kE := upTo_mem hf (a := E) (by simp)
  have ks := upTo_mem hf (a := s) (by simp)
  have kN := upTo_mem hf (a := N) (by simp)
  have kb := upTo_mem hf (a := b) (by simp)
  have kt := upTo_mem hf (a := t) (by simp)
  have kmx := upTo_mem hm (a := mx) (by simp)
  have kmy := upTo_mem hm (a := my) (by simp)
  have kmz := upTo_mem hm (a := mz) (by simp)
  have h1 : PowRaises (E - e) 2 → SquareRaises [E - e, w - e, N - n, s - n, t - u, b - u] := squareRaises_mem (by simp)
  have h2 : PowRaises (w - e) 2 → SquareRaises [E - e, w - e, N - n, s - n, t - u, b - u] := squareRaises_mem (by simp)
  have h3 : PowRaises (N - n) 2 → SquareRaises [E - e, w - e, N - n, s - n, t - u, b - u] := squareRaises_mem (by simp)
  have h4 : PowRaises (s - n) 2 → SquareRaises [E - e, w - e, N - n, s - n, t - u, b - u] := squareRaises_mem (by simp)
  have h5 : PowRaises (t - u) 2 → SquareRaises [E - e, w - e, N - n, s - n, t - u, b - u] := squareRaises_mem (by simp)
  have h6 : PowRaises (b - u) 2 → SquareRaises [E - e, w - e, N - n, s - n, t - u, b - u] := squareRaises_mem (by simp)
  exact ⟨pyAgrees3_of (Python.prism.pagb_magnetic_field hA hX hC h2C e n u w E s N b t mx my mz ke kn ku kw kE ks kN kb kt kmx kmy kmz h1 h2 h3 h4 h5 h6),
    pyAgrees_of (Python.prism.pagb_magnetic_e hA hX hC h2C e n u w E s N b t mx my mz ke kn ku kw kE ks kN kb kt kmx kmy kmz h1 h2 h3 h4 h5 h6),
    pyAgrees_of (Python.prism.pagb_magnetic_n hA hX hC h2C e n u w E s N b t mx my mz ke kn ku kw kE ks kN kb kt kmx kmy kmz h1 h2 h3 h4 h5 h6),
    pyAgrees_of (Python.prism.pagb_magnetic_u hA hX hC h2C e n u w E s N b t mx my mz ke kn ku kw kE ks kN kb kt kmx kmy kmz h1 h2 h3 h4 h5 h6)⟩

/-- Gradient of the magnetic field of a prism. -/
theorem C144_prism_gradient (hA : PyArith A) (hX : A.ExactInts L) (hC4 : 64 * C ^ 4 ≤ L)
    (e n u w E s N b t mx my mz : PNum A)
    (hf : AllUpTo C [e, n, u, w, E, s, N, b, t]) (hm : AllUpTo L [mx, my, mz]) :
    PyAgrees (SquareRaises [E - e, w - e, N - n, s - n, t - u, b - u]) (False)
      (Choclo.prism.magnetic_ee e.number n.number u.number w.number E.number s.number N.number b.number t.number mx.number my.number mz.number)
      (Python.prism.magnetic_ee e n u w E s N b t mx my mz)
    ∧ PyAgrees (SquareRaises [E - e, w - e, N - n, s - n, t - u, b - u]) (False)
      (Choclo.prism.magnetic_nn e.number n.number u.number w.number E.number s.number N.number b.number t.number mx.number my.number mz.number)
      (Python.prism.magnetic_nn e n u w E s N b t mx my mz)
    ∧ PyAgrees (SquareRaises [E - e, w - e, N - n, s - n, t - u, b - u]) (False)
      (Choclo.prism.magnetic_uu e.number n.number u.number w.number E.number s.number N.number b.number t.number mx.number my.number mz.number)
      (Python.prism.magnetic_uu e n u w E s N b t mx my mz)
    ∧ PyAgrees (SquareRaises [E - e, w - e, N - n, s - n, t - u, b - u]) (False)
      (Choclo.prism.magnetic_en e.number n.number u.number w.number E.number s.number N.number b.number t.number mx.number my.number mz.number)
      (Python.prism.magnetic_en e n u w E s N b t mx my mz)
    ∧ PyAgrees (SquareRaises [E - e, w - e, N - n, s - n, t - u, b - u]) (False)
      (Choclo.prism.magnetic_eu e.number n.number u.number w.number E.number s.number N.number b.number t.number mx.number my.number mz.number)
      (Python.prism.magnetic_eu e n u w E s N b t mx my mz)
    ∧ PyAgrees (SquareRaises [E - e, w - e, N - n, s - n, t - u, b - u]) (False)
      (Choclo.prism.magnetic_nu e.number n.number u.number w.number E.number s.number N.number b.number t.number mx.number my.number mz.number)
      (Python.prism.magnetic_nu e n u w E s N b t mx my mz) := by
  have hC2 : 16 * C ^ 2 ≤ L := sq_le_of hC4
  have hC : 12 * C ^ 2 ≤ L := by linarith
  have h2C : 4 * C ≤ L := two_le_of hC (by norm_num)
  have ke := upTo_mem hf (a := e) (by simp)
  have kn := upTo_mem hf (a := n) (by simp)
  have ku := upTo_mem hf (a := u) (by simp)
  have kw := upTo_mem hf (a := w) (by simp)
  have kE := upTo_mem hf (a := E) (by simp)
  have ks := upTo_mem hf (a := s) (by simp)
  have kN := upTo_mem hf (a := N) (by simp)
  have kb := upTo_mem hf (a := b) (by simp)
  have kt := upTo_mem hf (a := t) (by simp)
  have kmx := upTo_mem hm (a := mx) (by simp)
  have kmy := upTo_mem hm (a := my) (by simp)
  have kmz := upTo_mem hm (a := mz) (by simp)
  have h1 : PowRaises (E - e) 2 → SquareRaises [E - e, w - e, N - n, s - n, t - u, b - u] := squareRaises_mem (by simp)
  have h2 : PowRaises (w - e) 2 → SquareRaises [E - e, w - e, N - n, s - n, t - u, b - u] := squareRaises_mem (by simp)
  have h3 : PowRaises (N - n) 2 → SquareRaises [E - e, w - e, N - n, s - n, t - u, b - u] := squareRaises_mem (by simp)
  have h4 : PowRaises (s - n) 2 → SquareRaises [E - e, w - e, N - n, s - n, t - u, b - u] := squareRaises_mem (by simp)
  have h5 : PowRaises (t - u) 2 → SquareRaises [E - e, w - e, N - n, s - n, t - u, b - u] := squareRaises_mem (by simp)
  have h6 : PowRaises (b - u) 2 → SquareRaises [E - e, w - e, N - n, s - n, t - u, b - u] := squareRaises_mem (by simp)
  exact ⟨pyAgrees_of (Python.prism.pagb_magnetic_ee hA hX hC h2C hC4 hC2 e n u w E s N b t mx my mz ke kn ku kw kE ks kN kb kt kmx kmy kmz h1 h2 h3 h4 h5 h6),
    pyAgrees_of (Python.prism.pagb_magnetic_nn hA hX hC h2C hC4 hC2 e n u w E s N b t mx my mz ke kn ku kw kE ks kN kb kt kmx kmy kmz h1 h2 h3 h4 h5 h6),
    pyAgrees_of (Python.prism.pagb_magnetic_uu hA hX hC h2C hC4 hC2 e n u w E s N b t mx my mz ke kn ku kw kE ks kN kb kt kmx kmy kmz h1 h2 h3 h4 h5 h6),
    pyAgrees_of (Python.prism.pagb_magnetic_en hA hX hC h2C hC4 hC2 e n u w E s N b t mx my mz ke kn ku kw kE ks kN kb kt kmx kmy kmz h1 h2 h3 h4 h5 h6),
    pyAgrees_of (Python.prism.pagb_magnetic_eu hA hX hC h2C hC4 hC2 e n u w E s N b t mx my mz ke kn ku kw kE ks kN kb kt kmx kmy kmz h1 h2 h3 h4 h5 h6),
    pyAgrees_of (Python.prism.pagb_magnetic_nu hA hX hC h2C hC4 hC2 e n u w E s N b t mx my mz ke kn ku kw kE ks kN kb kt kmx kmy kmz h1 h2 h3 h4 h5 h6)⟩

end Choclo
