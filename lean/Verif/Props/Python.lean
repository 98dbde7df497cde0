import Verif.Lemmas.Python3
import Verif.Lemmas.Python4
import Verif.Props.Interp

/-! # Running without Numba, on built-in floats, `np.float64` or a mixture (C137) -/

namespace Choclo

variable {A : Arith}

open PNum

theorem pyAgrees_of {P Q : Prop} {x : Py (Fl A)} {y : PyX (PNum A)} (h : PAg P Q x y) : PyAgrees P Q x y := by
  rcases y with e | w
  · cases e <;> exact h
  · rcases x with e | v
    · exact bad_number h
    · exact Sam.num h

theorem pyAgrees3_of {P Q : Prop} {x : Py (Fl A × Fl A × Fl A)} {y : PyX (PNum A × PNum A × PNum A)} (h : PAg P Q x y) :
    PyAgrees3 P Q x y := by
  rcases y with e | w
  · cases e <;> exact h
  · rcases x with e | v
    · exact h.imp bad_number (Or.imp bad_number bad_number)
    · obtain ⟨h1, h2, h3⟩ := h
      exact Prod.ext h1.num (Prod.ext h2.num h3.num)

theorem squareRaises_mem {ds : List (PNum A)} {d : PNum A} (h : d ∈ ds) (hp : PowRaises d 2) : SquareRaises ds := ⟨d, h, hp⟩

theorem float_mem {as : List (PNum A)} {a : PNum A} (h : Floats as) (ha : a ∈ as) : a.isInt = false := isInt_of (h a ha)

/-- Cartesian distance of two points. -/
theorem C137_distance (hA : PyArith A) (a b c d e f : PNum A) (hf : Floats [a, b, c, d, e, f]) :
    PyAgrees (SquareRaises [a - d, b - e, c - f]) (False)
      (Choclo.utils.distance_cartesian a.number b.number c.number d.number e.number f.number)
      (Python.utils.distance_cartesian a b c d e f) := by
  have ka := float_mem hf (a := a) (by simp)
  have kb := float_mem hf (a := b) (by simp)
  have kc := float_mem hf (a := c) (by simp)
  have kd := float_mem hf (a := d) (by simp)
  have ke := float_mem hf (a := e) (by simp)
  have kf := float_mem hf (a := f) (by simp)
  have h1 : PowRaises (a - d) 2 → SquareRaises [a - d, b - e, c - f] := squareRaises_mem (by simp)
  have h2 : PowRaises (b - e) 2 → SquareRaises [a - d, b - e, c - f] := squareRaises_mem (by simp)
  have h3 : PowRaises (c - f) 2 → SquareRaises [a - d, b - e, c - f] := squareRaises_mem (by simp)
  exact pyAgrees_of (Python.utils.pag_distance_cartesian hA a b c d e f ka kb kc kd ke kf h1 h2 h3)

/-- Spherical distance of two points (longitudes, latitudes, radii). -/
theorem C137_spherical (hA : PyArith A) (a b c d e f : PNum A) (hf : Floats [a, b, c, d, e, f]) :
    PyAgrees (PowRaises (c - f) 2) (False)
      (Choclo.utils.distance_spherical a.number b.number c.number d.number e.number f.number)
      (Python.utils.distance_spherical a b c d e f) := by
  have ka := float_mem hf (a := a) (by simp)
  have kb := float_mem hf (a := b) (by simp)
  have kc := float_mem hf (a := c) (by simp)
  have kd := float_mem hf (a := d) (by simp)
  have ke := float_mem hf (a := e) (by simp)
  have kf := float_mem hf (a := f) (by simp)
  exact pyAgrees_of (Python.utils.pag_distance_spherical hA a b c d e f ka kb kc kd ke kf id)

/-- Spherical distance from sines and cosines of the latitudes. -/
theorem C137_spherical_core (hA : PyArith A) (a b c d e f g h : PNum A) (hf : Floats [a, b, c, d, e, f, g, h]) :
    PyAgrees3 (PowRaises (d - h) 2) (False)
      (Choclo.utils.distance_spherical_core a.number b.number c.number d.number e.number f.number g.number h.number)
      (Python.utils.distance_spherical_core a b c d e f g h) := by
  have ka := float_mem hf (a := a) (by simp)
  have kb := float_mem hf (a := b) (by simp)
  have kc := float_mem hf (a := c) (by simp)
  have kd := float_mem hf (a := d) (by simp)
  have ke := float_mem hf (a := e) (by simp)
  have kf := float_mem hf (a := f) (by simp)
  have kg := float_mem hf (a := g) (by simp)
  have kh := float_mem hf (a := h) (by simp)
  exact pyAgrees3_of (Python.utils.pag_distance_spherical_core hA a b c d e f g h ka kb kc kd ke kf kg kh (.arg ka) (.arg kb) (.arg kc) (.arg kd) (.arg ke) (.arg kf) (.arg kg) (.arg kh) id)

/-- Gravity of a point mass. -/
theorem C137_point_gravity (hA : PyArith A) (a b c d e f m : PNum A) (hf : Floats [a, b, c, d, e, f, m]) :
    PyAgrees (SquareRaises [a - d, b - e, c - f]) (False)
      (Choclo.point.gravity_pot a.number b.number c.number d.number e.number f.number m.number)
      (Python.point.gravity_pot a b c d e f m)
    ∧ PyAgrees (SquareRaises [a - d, b - e, c - f]) (False)
      (Choclo.point.gravity_e a.number b.number c.number d.number e.number f.number m.number)
      (Python.point.gravity_e a b c d e f m)
    ∧ PyAgrees (SquareRaises [a - d, b - e, c - f]) (False)
      (Choclo.point.gravity_n a.number b.number c.number d.number e.number f.number m.number)
      (Python.point.gravity_n a b c d e f m)
    ∧ PyAgrees (SquareRaises [a - d, b - e, c - f]) (False)
      (Choclo.point.gravity_u a.number b.number c.number d.number e.number f.number m.number)
      (Python.point.gravity_u a b c d e f m)
    ∧ PyAgrees (SquareRaises [a - d, b - e, c - f]) (False)
      (Choclo.point.gravity_ee a.number b.number c.number d.number e.number f.number m.number)
      (Python.point.gravity_ee a b c d e f m)
    ∧ PyAgrees (SquareRaises [a - d, b - e, c - f]) (False)
      (Choclo.point.gravity_nn a.number b.number c.number d.number e.number f.number m.number)
      (Python.point.gravity_nn a b c d e f m)
    ∧ PyAgrees (SquareRaises [a - d, b - e, c - f]) (False)
      (Choclo.point.gravity_uu a.number b.number c.number d.number e.number f.number m.number)
      (Python.point.gravity_uu a b c d e f m)
    ∧ PyAgrees (SquareRaises [a - d, b - e, c - f]) (False)
      (Choclo.point.gravity_en a.number b.number c.number d.number e.number f.number m.number)
      (Python.point.gravity_en a b c d e f m)
    ∧ PyAgrees (SquareRaises [a - d, b - e, c - f]) (False)
      (Choclo.point.gravity_eu a.number b.number c.number d.number e.number f.number m.number)
      (Python.point.gravity_eu a b c d e f m)
    ∧ PyAgrees (SquareRaises [a - d, b - e, c - f]) (False)
      (Choclo.point.gravity_nu a.number b.number c.number d.number e.number f.number m.number)
      (Python.point.gravity_nu a b c d e f m) := by
  have ka := float_mem hf (a := a) (by simp)
  have kb := float_mem hf (a := b) (by simp)
  have kc := float_mem hf (a := c) (by simp)
  have kd := float_mem hf (a := d) (by simp)
  have ke := float_mem hf (a := e) (by simp)
  have kf := float_mem hf (a := f) (by simp)
  have km := float_mem hf (a := m) (by simp)
  have h1 : PowRaises (a - d) 2 → SquareRaises [a - d, b - e, c - f] := squareRaises_mem (by simp)
  have h2 : PowRaises (b - e) 2 → SquareRaises [a - d, b - e, c - f] := squareRaises_mem (by simp)
  have h3 : PowRaises (c - f) 2 → SquareRaises [a - d, b - e, c - f] := squareRaises_mem (by simp)
  exact ⟨pyAgrees_of (Python.point.pag_gravity_pot hA a b c d e f m ka kb kc kd ke kf km h1 h2 h3),
    pyAgrees_of (Python.point.pag_gravity_e hA a b c d e f m ka kb kc kd ke kf km h1 h2 h3),
    pyAgrees_of (Python.point.pag_gravity_n hA a b c d e f m ka kb kc kd ke kf km h1 h2 h3),
    pyAgrees_of (Python.point.pag_gravity_u hA a b c d e f m ka kb kc kd ke kf km h1 h2 h3),
    pyAgrees_of (Python.point.pag_gravity_ee hA a b c d e f m ka kb kc kd ke kf km h1 h2 h3),
    pyAgrees_of (Python.point.pag_gravity_nn hA a b c d e f m ka kb kc kd ke kf km h1 h2 h3),
    pyAgrees_of (Python.point.pag_gravity_uu hA a b c d e f m ka kb kc kd ke kf km h1 h2 h3),
    pyAgrees_of (Python.point.pag_gravity_en hA a b c d e f m ka kb kc kd ke kf km h1 h2 h3),
    pyAgrees_of (Python.point.pag_gravity_eu hA a b c d e f m ka kb kc kd ke kf km h1 h2 h3),
    pyAgrees_of (Python.point.pag_gravity_nu hA a b c d e f m ka kb kc kd ke kf km h1 h2 h3)⟩

/-- Magnetic field of a dipole. -/
theorem C137_dipole (hA : PyArith A) (a b c d e f m n o : PNum A) (hf : Floats [a, b, c, d, e, f, m, n, o]) :
    PyAgrees3 (SquareRaises [a - d, b - e, c - f]) (False)
      (Choclo.dipole.magnetic_field a.number b.number c.number d.number e.number f.number m.number n.number o.number)
      (Python.dipole.magnetic_field a b c d e f m n o)
    ∧ PyAgrees (SquareRaises [a - d, b - e, c - f]) (False)
      (Choclo.dipole.magnetic_e a.number b.number c.number d.number e.number f.number m.number n.number o.number)
      (Python.dipole.magnetic_e a b c d e f m n o)
    ∧ PyAgrees (SquareRaises [a - d, b - e, c - f]) (False)
      (Choclo.dipole.magnetic_n a.number b.number c.number d.number e.number f.number m.number n.number o.number)
      (Python.dipole.magnetic_n a b c d e f m n o)
    ∧ PyAgrees (SquareRaises [a - d, b - e, c - f]) (False)
      (Choclo.dipole.magnetic_u a.number b.number c.number d.number e.number f.number m.number n.number o.number)
      (Python.dipole.magnetic_u a b c d e f m n o) := by
  have ka := float_mem hf (a := a) (by simp)
  have kb := float_mem hf (a := b) (by simp)
  have kc := float_mem hf (a := c) (by simp)
  have kd := float_mem hf (a := d) (by simp)
  have ke := float_mem hf (a := e) (by simp)
  have kf := float_mem hf (a := f) (by simp)
  have km := float_mem hf (a := m) (by simp)
  have kn := float_mem hf (a := n) (by simp)
  have ko := float_mem hf (a := o) (by simp)
  have h1 : PowRaises (a - d) 2 → SquareRaises [a - d, b - e, c - f] := squareRaises_mem (by simp)
  have h2 : PowRaises (b - e) 2 → SquareRaises [a - d, b - e, c - f] := squareRaises_mem (by simp)
  have h3 : PowRaises (c - f) 2 → SquareRaises [a - d, b - e, c - f] := squareRaises_mem (by simp)
  exact ⟨pyAgrees3_of (Python.dipole.pag_magnetic_field hA a b c d e f m n o ka kb kc kd ke kf km kn ko h1 h2 h3),
    pyAgrees_of (Python.dipole.pag_magnetic_e hA a b c d e f m n o ka kb kc kd ke kf km kn ko h1 h2 h3),
    pyAgrees_of (Python.dipole.pag_magnetic_n hA a b c d e f m n o ka kb kc kd ke kf km kn ko h1 h2 h3),
    pyAgrees_of (Python.dipole.pag_magnetic_u hA a b c d e f m n o ka kb kc kd ke kf km kn ko h1 h2 h3)⟩

/-- Kernels of a point source, called directly. -/
theorem C137_point_kernels (hA : PyArith A) (a b c d e f r : PNum A) (hf : Floats [a, b, c, d, e, f, r]) :
    PyAgrees (SquareRaises [a - d, b - e, c - f] ∨ ∃ n, n ≤ 7 ∧ PowRaises r n) (¬r.IsNumpy)
      (Choclo.point.kernel_pot a.number b.number c.number d.number e.number f.number r.number)
      (Python.point.kernel_pot a b c d e f r)
    ∧ PyAgrees (SquareRaises [a - d, b - e, c - f] ∨ ∃ n, n ≤ 7 ∧ PowRaises r n) (¬r.IsNumpy)
      (Choclo.point.kernel_e a.number b.number c.number d.number e.number f.number r.number)
      (Python.point.kernel_e a b c d e f r)
    ∧ PyAgrees (SquareRaises [a - d, b - e, c - f] ∨ ∃ n, n ≤ 7 ∧ PowRaises r n) (¬r.IsNumpy)
      (Choclo.point.kernel_n a.number b.number c.number d.number e.number f.number r.number)
      (Python.point.kernel_n a b c d e f r)
    ∧ PyAgrees (SquareRaises [a - d, b - e, c - f] ∨ ∃ n, n ≤ 7 ∧ PowRaises r n) (¬r.IsNumpy)
      (Choclo.point.kernel_u a.number b.number c.number d.number e.number f.number r.number)
      (Python.point.kernel_u a b c d e f r)
    ∧ PyAgrees (SquareRaises [a - d, b - e, c - f] ∨ ∃ n, n ≤ 7 ∧ PowRaises r n) (¬r.IsNumpy)
      (Choclo.point.kernel_ee a.number b.number c.number d.number e.number f.number r.number)
      (Python.point.kernel_ee a b c d e f r)
    ∧ PyAgrees (SquareRaises [a - d, b - e, c - f] ∨ ∃ n, n ≤ 7 ∧ PowRaises r n) (¬r.IsNumpy)
      (Choclo.point.kernel_nn a.number b.number c.number d.number e.number f.number r.number)
      (Python.point.kernel_nn a b c d e f r)
    ∧ PyAgrees (SquareRaises [a - d, b - e, c - f] ∨ ∃ n, n ≤ 7 ∧ PowRaises r n) (¬r.IsNumpy)
      (Choclo.point.kernel_uu a.number b.number c.number d.number e.number f.number r.number)
      (Python.point.kernel_uu a b c d e f r)
    ∧ PyAgrees (SquareRaises [a - d, b - e, c - f] ∨ ∃ n, n ≤ 7 ∧ PowRaises r n) (¬r.IsNumpy)
      (Choclo.point.kernel_en a.number b.number c.number d.number e.number f.number r.number)
      (Python.point.kernel_en a b c d e f r)
    ∧ PyAgrees (SquareRaises [a - d, b - e, c - f] ∨ ∃ n, n ≤ 7 ∧ PowRaises r n) (¬r.IsNumpy)
      (Choclo.point.kernel_eu a.number b.number c.number d.number e.number f.number r.number)
      (Python.point.kernel_eu a b c d e f r)
    ∧ PyAgrees (SquareRaises [a - d, b - e, c - f] ∨ ∃ n, n ≤ 7 ∧ PowRaises r n) (¬r.IsNumpy)
      (Choclo.point.kernel_nu a.number b.number c.number d.number e.number f.number r.number)
      (Python.point.kernel_nu a b c d e f r) := by
  have ka := float_mem hf (a := a) (by simp)
  have kb := float_mem hf (a := b) (by simp)
  have kc := float_mem hf (a := c) (by simp)
  have kd := float_mem hf (a := d) (by simp)
  have ke := float_mem hf (a := e) (by simp)
  have kf := float_mem hf (a := f) (by simp)
  have kr := float_mem hf (a := r) (by simp)
  have h1 : PowRaises (a - d) 2 → SquareRaises [a - d, b - e, c - f] ∨ ∃ n, n ≤ 7 ∧ PowRaises r n := fun h => .inl (squareRaises_mem (by simp) h)
  have h2 : PowRaises (b - e) 2 → SquareRaises [a - d, b - e, c - f] ∨ ∃ n, n ≤ 7 ∧ PowRaises r n := fun h => .inl (squareRaises_mem (by simp) h)
  have h3 : PowRaises (c - f) 2 → SquareRaises [a - d, b - e, c - f] ∨ ∃ n, n ≤ 7 ∧ PowRaises r n := fun h => .inl (squareRaises_mem (by simp) h)
  have h4 : ∀ n, n ≤ 7 → PowRaises r n → SquareRaises [a - d, b - e, c - f] ∨ ∃ n, n ≤ 7 ∧ PowRaises r n := fun n hn h => .inr ⟨n, hn, h⟩
  have h5 : r.isNumpy = true ∨ ¬r.IsNumpy := by cases r <;> simp [PNum.isNumpy, PNum.IsNumpy]
  exact ⟨pyAgrees_of (Python.point.pag_kernel_pot hA a b c d e f r ka kb kc kd ke kf kr (.arg kr) h1 h2 h3 h4 h5),
    pyAgrees_of (Python.point.pag_kernel_e hA a b c d e f r ka kb kc kd ke kf kr (.arg kr) h1 h2 h3 h4 h5),
    pyAgrees_of (Python.point.pag_kernel_n hA a b c d e f r ka kb kc kd ke kf kr (.arg kr) h1 h2 h3 h4 h5),
    pyAgrees_of (Python.point.pag_kernel_u hA a b c d e f r ka kb kc kd ke kf kr (.arg kr) h1 h2 h3 h4 h5),
    pyAgrees_of (Python.point.pag_kernel_ee hA a b c d e f r ka kb kc kd ke kf kr (.arg kr) h1 h2 h3 h4 h5),
    pyAgrees_of (Python.point.pag_kernel_nn hA a b c d e f r ka kb kc kd ke kf kr (.arg kr) h1 h2 h3 h4 h5),
    pyAgrees_of (Python.point.pag_kernel_uu hA a b c d e f r ka kb kc kd ke kf kr (.arg kr) h1 h2 h3 h4 h5),
    pyAgrees_of (Python.point.pag_kernel_en hA a b c d e f r ka kb kc kd ke kf kr (.arg kr) h1 h2 h3 h4 h5),
    pyAgrees_of (Python.point.pag_kernel_eu hA a b c d e f r ka kb kc kd ke kf kr (.arg kr) h1 h2 h3 h4 h5),
    pyAgrees_of (Python.point.pag_kernel_nu hA a b c d e f r ka kb kc kd ke kf kr (.arg kr) h1 h2 h3 h4 h5)⟩

/-- Third-order kernels of a point source, called directly. -/
theorem C137_point_kernels3 (hA : PyArith A) (a b c d e f r : PNum A) (hf : Floats [a, b, c, d, e, f, r]) :
    PyAgrees (SquareRaises [a - d, b - e, c - f] ∨ PowRaises (a - d) 3 ∨ PowRaises (b - e) 3 ∨ PowRaises (c - f) 3 ∨ ∃ n, n ≤ 7 ∧ PowRaises r n) (¬r.IsNumpy)
      (Choclo.point.kernel_eee a.number b.number c.number d.number e.number f.number r.number)
      (Python.point.kernel_eee a b c d e f r)
    ∧ PyAgrees (SquareRaises [a - d, b - e, c - f] ∨ PowRaises (a - d) 3 ∨ PowRaises (b - e) 3 ∨ PowRaises (c - f) 3 ∨ ∃ n, n ≤ 7 ∧ PowRaises r n) (¬r.IsNumpy)
      (Choclo.point.kernel_nnn a.number b.number c.number d.number e.number f.number r.number)
      (Python.point.kernel_nnn a b c d e f r)
    ∧ PyAgrees (SquareRaises [a - d, b - e, c - f] ∨ PowRaises (a - d) 3 ∨ PowRaises (b - e) 3 ∨ PowRaises (c - f) 3 ∨ ∃ n, n ≤ 7 ∧ PowRaises r n) (¬r.IsNumpy)
      (Choclo.point.kernel_uuu a.number b.number c.number d.number e.number f.number r.number)
      (Python.point.kernel_uuu a b c d e f r)
    ∧ PyAgrees (SquareRaises [a - d, b - e, c - f] ∨ PowRaises (a - d) 3 ∨ PowRaises (b - e) 3 ∨ PowRaises (c - f) 3 ∨ ∃ n, n ≤ 7 ∧ PowRaises r n) (¬r.IsNumpy)
      (Choclo.point.kernel_een a.number b.number c.number d.number e.number f.number r.number)
      (Python.point.kernel_een a b c d e f r)
    ∧ PyAgrees (SquareRaises [a - d, b - e, c - f] ∨ PowRaises (a - d) 3 ∨ PowRaises (b - e) 3 ∨ PowRaises (c - f) 3 ∨ ∃ n, n ≤ 7 ∧ PowRaises r n) (¬r.IsNumpy)
      (Choclo.point.kernel_eeu a.number b.number c.number d.number e.number f.number r.number)
      (Python.point.kernel_eeu a b c d e f r)
    ∧ PyAgrees (SquareRaises [a - d, b - e, c - f] ∨ PowRaises (a - d) 3 ∨ PowRaises (b - e) 3 ∨ PowRaises (c - f) 3 ∨ ∃ n, n ≤ 7 ∧ PowRaises r n) (¬r.IsNumpy)
      (Choclo.point.kernel_nne a.number b.number c.number d.number e.number f.number r.number)
      (Python.point.kernel_nne a b c d e f r)
    ∧ PyAgrees (SquareRaises [a - d, b - e, c - f] ∨ PowRaises (a - d) 3 ∨ PowRaises (b - e) 3 ∨ PowRaises (c - f) 3 ∨ ∃ n, n ≤ 7 ∧ PowRaises r n) (¬r.IsNumpy)
      (Choclo.point.kernel_nnu a.number b.number c.number d.number e.number f.number r.number)
      (Python.point.kernel_nnu a b c d e f r)
    ∧ PyAgrees (SquareRaises [a - d, b - e, c - f] ∨ PowRaises (a - d) 3 ∨ PowRaises (b - e) 3 ∨ PowRaises (c - f) 3 ∨ ∃ n, n ≤ 7 ∧ PowRaises r n) (¬r.IsNumpy)
      (Choclo.point.kernel_uue a.number b.number c.number d.number e.number f.number r.number)
      (Python.point.kernel_uue a b c d e f r)
    ∧ PyAgrees (SquareRaises [a - d, b - e, c - f] ∨ PowRaises (a - d) 3 ∨ PowRaises (b - e) 3 ∨ PowRaises (c - f) 3 ∨ ∃ n, n ≤ 7 ∧ PowRaises r n) (¬r.IsNumpy)
      (Choclo.point.kernel_uun a.number b.number c.number d.number e.number f.number r.number)
      (Python.point.kernel_uun a b c d e f r)
    ∧ PyAgrees (SquareRaises [a - d, b - e, c - f] ∨ PowRaises (a - d) 3 ∨ PowRaises (b - e) 3 ∨ PowRaises (c - f) 3 ∨ ∃ n, n ≤ 7 ∧ PowRaises r n) (¬r.IsNumpy)
      (Choclo.point.kernel_enu a.number b.number c.number d.number e.number f.number r.number)
      (Python.point.kernel_enu a b c d e f r) := by
  have ka := float_mem hf (a := a) (by simp)
  have kb := float_mem hf (a := b) (by simp)
  have kc := float_mem hf (a := c) (by simp)
  have kd := float_mem hf (a := d) (by simp)
  have ke := float_mem hf (a := e) (by simp)
  have kf := float_mem hf (a := f) (by simp)
  have kr := float_mem hf (a := r) (by simp)
  have h1 : PowRaises (a - d) 2 → SquareRaises [a - d, b - e, c - f] ∨ PowRaises (a - d) 3 ∨ PowRaises (b - e) 3 ∨ PowRaises (c - f) 3 ∨ ∃ n, n ≤ 7 ∧ PowRaises r n := fun h => .inl (squareRaises_mem (by simp) h)
  have h2 : PowRaises (b - e) 2 → SquareRaises [a - d, b - e, c - f] ∨ PowRaises (a - d) 3 ∨ PowRaises (b - e) 3 ∨ PowRaises (c - f) 3 ∨ ∃ n, n ≤ 7 ∧ PowRaises r n := fun h => .inl (squareRaises_mem (by simp) h)
  have h3 : PowRaises (c - f) 2 → SquareRaises [a - d, b - e, c - f] ∨ PowRaises (a - d) 3 ∨ PowRaises (b - e) 3 ∨ PowRaises (c - f) 3 ∨ ∃ n, n ≤ 7 ∧ PowRaises r n := fun h => .inl (squareRaises_mem (by simp) h)
  have h6 : PowRaises (a - d) 3 → SquareRaises [a - d, b - e, c - f] ∨ PowRaises (a - d) 3 ∨ PowRaises (b - e) 3 ∨ PowRaises (c - f) 3 ∨ ∃ n, n ≤ 7 ∧ PowRaises r n := fun h => .inr (.inl h)
  have h7 : PowRaises (b - e) 3 → SquareRaises [a - d, b - e, c - f] ∨ PowRaises (a - d) 3 ∨ PowRaises (b - e) 3 ∨ PowRaises (c - f) 3 ∨ ∃ n, n ≤ 7 ∧ PowRaises r n := fun h => .inr (.inr (.inl h))
  have h8 : PowRaises (c - f) 3 → SquareRaises [a - d, b - e, c - f] ∨ PowRaises (a - d) 3 ∨ PowRaises (b - e) 3 ∨ PowRaises (c - f) 3 ∨ ∃ n, n ≤ 7 ∧ PowRaises r n := fun h => .inr (.inr (.inr (.inl h)))
  have h4 : ∀ n, n ≤ 7 → PowRaises r n → SquareRaises [a - d, b - e, c - f] ∨ PowRaises (a - d) 3 ∨ PowRaises (b - e) 3 ∨ PowRaises (c - f) 3 ∨ ∃ n, n ≤ 7 ∧ PowRaises r n := fun n hn h => .inr (.inr (.inr (.inr ⟨n, hn, h⟩)))
  have h5 : r.isNumpy = true ∨ ¬r.IsNumpy := by cases r <;> simp [PNum.isNumpy, PNum.IsNumpy]
  exact ⟨pyAgrees_of (Python.point.pag_kernel_eee hA a b c d e f r ka kb kc kd ke kf kr (.arg kr) h1 h2 h3 h6 h7 h8 h4 h5),
    pyAgrees_of (Python.point.pag_kernel_nnn hA a b c d e f r ka kb kc kd ke kf kr (.arg kr) h1 h2 h3 h6 h7 h8 h4 h5),
    pyAgrees_of (Python.point.pag_kernel_uuu hA a b c d e f r ka kb kc kd ke kf kr (.arg kr) h1 h2 h3 h6 h7 h8 h4 h5),
    pyAgrees_of (Python.point.pag_kernel_een hA a b c d e f r ka kb kc kd ke kf kr (.arg kr) h1 h2 h3 h6 h7 h8 h4 h5),
    pyAgrees_of (Python.point.pag_kernel_eeu hA a b c d e f r ka kb kc kd ke kf kr (.arg kr) h1 h2 h3 h6 h7 h8 h4 h5),
    pyAgrees_of (Python.point.pag_kernel_nne hA a b c d e f r ka kb kc kd ke kf kr (.arg kr) h1 h2 h3 h6 h7 h8 h4 h5),
    pyAgrees_of (Python.point.pag_kernel_nnu hA a b c d e f r ka kb kc kd ke kf kr (.arg kr) h1 h2 h3 h6 h7 h8 h4 h5),
    pyAgrees_of (Python.point.pag_kernel_uue hA a b c d e f r ka kb kc kd ke kf kr (.arg kr) h1 h2 h3 h6 h7 h8 h4 h5),
    pyAgrees_of (Python.point.pag_kernel_uun hA a b c d e f r ka kb kc kd ke kf kr (.arg kr) h1 h2 h3 h6 h7 h8 h4 h5),
    pyAgrees_of (Python.point.pag_kernel_enu hA a b c d e f r ka kb kc kd ke kf kr (.arg kr) h1 h2 h3 h6 h7 h8 h4 h5)⟩

/-- Kernels of a prism, called directly. -/
theorem C137_prism_kernels (hA : PyArith A) (x y z r : PNum A) (hf : Floats [x, y, z, r]) :
    PyAgrees (SquareRaises [x, y, z]) (¬r.IsNumpy)
      (Choclo.prism.kernel_pot x.number y.number z.number r.number)
      (Python.prism.kernel_pot x y z r)
    ∧ PyAgrees (SquareRaises [x, y, z]) (¬r.IsNumpy)
      (Choclo.prism.kernel_e x.number y.number z.number r.number)
      (Python.prism.kernel_e x y z r)
    ∧ PyAgrees (SquareRaises [x, y, z]) (¬r.IsNumpy)
      (Choclo.prism.kernel_n x.number y.number z.number r.number)
      (Python.prism.kernel_n x y z r)
    ∧ PyAgrees (SquareRaises [x, y, z]) (¬r.IsNumpy)
      (Choclo.prism.kernel_u x.number y.number z.number r.number)
      (Python.prism.kernel_u x y z r)
    ∧ PyAgrees (SquareRaises [x, y, z]) (¬r.IsNumpy)
      (Choclo.prism.kernel_ee x.number y.number z.number r.number)
      (Python.prism.kernel_ee x y z r)
    ∧ PyAgrees (SquareRaises [x, y, z]) (¬r.IsNumpy)
      (Choclo.prism.kernel_nn x.number y.number z.number r.number)
      (Python.prism.kernel_nn x y z r)
    ∧ PyAgrees (SquareRaises [x, y, z]) (¬r.IsNumpy)
      (Choclo.prism.kernel_uu x.number y.number z.number r.number)
      (Python.prism.kernel_uu x y z r)
    ∧ PyAgrees (SquareRaises [x, y, z]) (¬r.IsNumpy)
      (Choclo.prism.kernel_en x.number y.number z.number r.number)
      (Python.prism.kernel_en x y z r)
    ∧ PyAgrees (SquareRaises [x, y, z]) (¬r.IsNumpy)
      (Choclo.prism.kernel_eu x.number y.number z.number r.number)
      (Python.prism.kernel_eu x y z r)
    ∧ PyAgrees (SquareRaises [x, y, z]) (¬r.IsNumpy)
      (Choclo.prism.kernel_nu x.number y.number z.number r.number)
      (Python.prism.kernel_nu x y z r)
    ∧ PyAgrees (SquareRaises [x, y, z]) (¬r.IsNumpy)
      (Choclo.prism.kernel_eee x.number y.number z.number r.number)
      (Python.prism.kernel_eee x y z r)
    ∧ PyAgrees (SquareRaises [x, y, z]) (¬r.IsNumpy)
      (Choclo.prism.kernel_nnn x.number y.number z.number r.number)
      (Python.prism.kernel_nnn x y z r)
    ∧ PyAgrees (SquareRaises [x, y, z]) (¬r.IsNumpy)
      (Choclo.prism.kernel_uuu x.number y.number z.number r.number)
      (Python.prism.kernel_uuu x y z r)
    ∧ PyAgrees (SquareRaises [x, y, z]) (¬r.IsNumpy)
      (Choclo.prism.kernel_een x.number y.number z.number r.number)
      (Python.prism.kernel_een x y z r)
    ∧ PyAgrees (SquareRaises [x, y, z]) (¬r.IsNumpy)
      (Choclo.prism.kernel_eeu x.number y.number z.number r.number)
      (Python.prism.kernel_eeu x y z r)
    ∧ PyAgrees (SquareRaises [x, y, z]) (¬r.IsNumpy)
      (Choclo.prism.kernel_enn x.number y.number z.number r.number)
      (Python.prism.kernel_enn x y z r)
    ∧ PyAgrees (SquareRaises [x, y, z]) (¬r.IsNumpy)
      (Choclo.prism.kernel_nnu x.number y.number z.number r.number)
      (Python.prism.kernel_nnu x y z r)
    ∧ PyAgrees (SquareRaises [x, y, z]) (¬r.IsNumpy)
      (Choclo.prism.kernel_euu x.number y.number z.number r.number)
      (Python.prism.kernel_euu x y z r)
    ∧ PyAgrees (SquareRaises [x, y, z]) (¬r.IsNumpy)
      (Choclo.prism.kernel_nuu x.number y.number z.number r.number)
      (Python.prism.kernel_nuu x y z r)
    ∧ PyAgrees (SquareRaises [x, y, z]) (¬r.IsNumpy)
      (Choclo.prism.kernel_enu x.number y.number z.number r.number)
      (Python.prism.kernel_enu x y z r) := by
  have kx := float_mem hf (a := x) (by simp)
  have ky := float_mem hf (a := y) (by simp)
  have kz := float_mem hf (a := z) (by simp)
  have kr := float_mem hf (a := r) (by simp)
  have h1 : PowRaises x 2 → SquareRaises [x, y, z] := squareRaises_mem (by simp)
  have h2 : PowRaises y 2 → SquareRaises [x, y, z] := squareRaises_mem (by simp)
  have h3 : PowRaises z 2 → SquareRaises [x, y, z] := squareRaises_mem (by simp)
  have h5 : r.isNumpy = true ∨ ¬r.IsNumpy := by cases r <;> simp [PNum.isNumpy, PNum.IsNumpy]
  exact ⟨pyAgrees_of (Python.prism.pag_kernel_pot hA _ _ _ _ x y z r (.arg kx) (.arg ky) (.arg kz) (.arg kr) kx ky kz kr h1 h2 h3 h5),
    pyAgrees_of (Python.prism.pag_kernel_e hA _ _ _ _ x y z r (.arg kx) (.arg ky) (.arg kz) (.arg kr) kx ky kz kr h1 h2 h3 h5),
    pyAgrees_of (Python.prism.pag_kernel_n hA _ _ _ _ x y z r (.arg kx) (.arg ky) (.arg kz) (.arg kr) kx ky kz kr h1 h2 h3 h5),
    pyAgrees_of (Python.prism.pag_kernel_u hA _ _ _ _ x y z r (.arg kx) (.arg ky) (.arg kz) (.arg kr) kx ky kz kr h1 h2 h3 h5),
    pyAgrees_of (Python.prism.pag_kernel_ee hA _ _ _ _ x y z r (.arg kx) (.arg ky) (.arg kz) (.arg kr) kx ky kz kr h1 h2 h3 h5),
    pyAgrees_of (Python.prism.pag_kernel_nn hA _ _ _ _ x y z r (.arg kx) (.arg ky) (.arg kz) (.arg kr) kx ky kz kr h1 h2 h3 h5),
    pyAgrees_of (Python.prism.pag_kernel_uu hA _ _ _ _ x y z r (.arg kx) (.arg ky) (.arg kz) (.arg kr) kx ky kz kr h1 h2 h3 h5),
    pyAgrees_of (Python.prism.pag_kernel_en hA _ _ _ _ x y z r (.arg kx) (.arg ky) (.arg kz) (.arg kr) kx ky kz kr h1 h2 h3 h5),
    pyAgrees_of (Python.prism.pag_kernel_eu hA _ _ _ _ x y z r (.arg kx) (.arg ky) (.arg kz) (.arg kr) kx ky kz kr h1 h2 h3 h5),
    pyAgrees_of (Python.prism.pag_kernel_nu hA _ _ _ _ x y z r (.arg kx) (.arg ky) (.arg kz) (.arg kr) kx ky kz kr h1 h2 h3 h5),
    pyAgrees_of (Python.prism.pag_kernel_eee hA _ _ _ _ x y z r (.arg kx) (.arg ky) (.arg kz) (.arg kr) kx ky kz kr h1 h2 h3 h5),
    pyAgrees_of (Python.prism.pag_kernel_nnn hA _ _ _ _ x y z r (.arg kx) (.arg ky) (.arg kz) (.arg kr) kx ky kz kr h1 h2 h3 h5),
    pyAgrees_of (Python.prism.pag_kernel_uuu hA _ _ _ _ x y z r (.arg kx) (.arg ky) (.arg kz) (.arg kr) kx ky kz kr h1 h2 h3 h5),
    pyAgrees_of (Python.prism.pag_kernel_een hA _ _ _ _ x y z r (.arg kx) (.arg ky) (.arg kz) (.arg kr) kx ky kz kr h1 h2 h3 h5),
    pyAgrees_of (Python.prism.pag_kernel_eeu hA _ _ _ _ x y z r (.arg kx) (.arg ky) (.arg kz) (.arg kr) kx ky kz kr h1 h2 h3 h5),
    pyAgrees_of (Python.prism.pag_kernel_enn hA _ _ _ _ x y z r (.arg kx) (.arg ky) (.arg kz) (.arg kr) kx ky kz kr h1 h2 h3 h5),
    pyAgrees_of (Python.prism.pag_kernel_nnu hA _ _ _ _ x y z r (.arg kx) (.arg ky) (.arg kz) (.arg kr) kx ky kz kr h1 h2 h3 h5),
    pyAgrees_of (Python.prism.pag_kernel_euu hA _ _ _ _ x y z r (.arg kx) (.arg ky) (.arg kz) (.arg kr) kx ky kz kr h1 h2 h3 h5),
    pyAgrees_of (Python.prism.pag_kernel_nuu hA _ _ _ _ x y z r (.arg kx) (.arg ky) (.arg kz) (.arg kr) kx ky kz kr h1 h2 h3 h5),
    pyAgrees_of (Python.prism.pag_kernel_enu hA _ _ _ _ x y z r (.arg kx) (.arg ky) (.arg kz) (.arg kr) kx ky kz kr h1 h2 h3 h5)⟩

/-- Gravity of a prism `(w, E, s, N, b, t)` at `(e, n, u)`. -/
theorem C137_prism_gravity (hA : PyArith A) (e n u w E s N b t ρ : PNum A) (hf : Floats [e, n, u, w, E, s, N, b, t, ρ]) :
    PyAgrees (SquareRaises [E - e, w - e, N - n, s - n, t - u, b - u]) (False)
      (Choclo.prism.gravity_pot e.number n.number u.number w.number E.number s.number N.number b.number t.number ρ.number)
      (Python.prism.gravity_pot e n u w E s N b t ρ)
    ∧ PyAgrees (SquareRaises [E - e, w - e, N - n, s - n, t - u, b - u]) (False)
      (Choclo.prism.gravity_e e.number n.number u.number w.number E.number s.number N.number b.number t.number ρ.number)
      (Python.prism.gravity_e e n u w E s N b t ρ)
    ∧ PyAgrees (SquareRaises [E - e, w - e, N - n, s - n, t - u, b - u]) (False)
      (Choclo.prism.gravity_n e.number n.number u.number w.number E.number s.number N.number b.number t.number ρ.number)
      (Python.prism.gravity_n e n u w E s N b t ρ)
    ∧ PyAgrees (SquareRaises [E - e, w - e, N - n, s - n, t - u, b - u]) (False)
      (Choclo.prism.gravity_u e.number n.number u.number w.number E.number s.number N.number b.number t.number ρ.number)
      (Python.prism.gravity_u e n u w E s N b t ρ)
    ∧ PyAgrees (SquareRaises [E - e, w - e, N - n, s - n, t - u, b - u]) (False)
      (Choclo.prism.gravity_ee e.number n.number u.number w.number E.number s.number N.number b.number t.number ρ.number)
      (Python.prism.gravity_ee e n u w E s N b t ρ)
    ∧ PyAgrees (SquareRaises [E - e, w - e, N - n, s - n, t - u, b - u]) (False)
      (Choclo.prism.gravity_nn e.number n.number u.number w.number E.number s.number N.number b.number t.number ρ.number)
      (Python.prism.gravity_nn e n u w E s N b t ρ)
    ∧ PyAgrees (SquareRaises [E - e, w - e, N - n, s - n, t - u, b - u]) (False)
      (Choclo.prism.gravity_uu e.number n.number u.number w.number E.number s.number N.number b.number t.number ρ.number)
      (Python.prism.gravity_uu e n u w E s N b t ρ)
    ∧ PyAgrees (SquareRaises [E - e, w - e, N - n, s - n, t - u, b - u]) (False)
      (Choclo.prism.gravity_en e.number n.number u.number w.number E.number s.number N.number b.number t.number ρ.number)
      (Python.prism.gravity_en e n u w E s N b t ρ)
    ∧ PyAgrees (SquareRaises [E - e, w - e, N - n, s - n, t - u, b - u]) (False)
      (Choclo.prism.gravity_eu e.number n.number u.number w.number E.number s.number N.number b.number t.number ρ.number)
      (Python.prism.gravity_eu e n u w E s N b t ρ)
    ∧ PyAgrees (SquareRaises [E - e, w - e, N - n, s - n, t - u, b - u]) (False)
      (Choclo.prism.gravity_nu e.number n.number u.number w.number E.number s.number N.number b.number t.number ρ.number)
      (Python.prism.gravity_nu e n u w E s N b t ρ) := by
  have ke := float_mem hf (a := e) (by simp)
  have kn := float_mem hf (a := n) (by simp)
  have ku := float_mem hf (a := u) (by simp)
  have kw := float_mem hf (a := w) (by simp)
  have kE := float_mem hf (a := E) (by simp)
  have ks := float_mem hf (a := s) (by simp)
  have kN := float_mem hf (a := N) (by simp)
  have kb := float_mem hf (a := b) (by simp)
  have kt := float_mem hf (a := t) (by simp)
  have kρ := float_mem hf (a := ρ) (by simp)
  have h1 : PowRaises (E - e) 2 → SquareRaises [E - e, w - e, N - n, s - n, t - u, b - u] := squareRaises_mem (by simp)
  have h2 : PowRaises (w - e) 2 → SquareRaises [E - e, w - e, N - n, s - n, t - u, b - u] := squareRaises_mem (by simp)
  have h3 : PowRaises (N - n) 2 → SquareRaises [E - e, w - e, N - n, s - n, t - u, b - u] := squareRaises_mem (by simp)
  have h4 : PowRaises (s - n) 2 → SquareRaises [E - e, w - e, N - n, s - n, t - u, b - u] := squareRaises_mem (by simp)
  have h5 : PowRaises (t - u) 2 → SquareRaises [E - e, w - e, N - n, s - n, t - u, b - u] := squareRaises_mem (by simp)
  have h6 : PowRaises (b - u) 2 → SquareRaises [E - e, w - e, N - n, s - n, t - u, b - u] := squareRaises_mem (by simp)
  exact ⟨pyAgrees_of (Python.prism.pag_gravity_pot hA e n u w E s N b t ρ ke kn ku kw kE ks kN kb kt kρ h1 h2 h3 h4 h5 h6),
    pyAgrees_of (Python.prism.pag_gravity_e hA e n u w E s N b t ρ ke kn ku kw kE ks kN kb kt kρ h1 h2 h3 h4 h5 h6),
    pyAgrees_of (Python.prism.pag_gravity_n hA e n u w E s N b t ρ ke kn ku kw kE ks kN kb kt kρ h1 h2 h3 h4 h5 h6),
    pyAgrees_of (Python.prism.pag_gravity_u hA e n u w E s N b t ρ ke kn ku kw kE ks kN kb kt kρ h1 h2 h3 h4 h5 h6),
    pyAgrees_of (Python.prism.pag_gravity_ee hA e n u w E s N b t ρ ke kn ku kw kE ks kN kb kt kρ h1 h2 h3 h4 h5 h6),
    pyAgrees_of (Python.prism.pag_gravity_nn hA e n u w E s N b t ρ ke kn ku kw kE ks kN kb kt kρ h1 h2 h3 h4 h5 h6),
    pyAgrees_of (Python.prism.pag_gravity_uu hA e n u w E s N b t ρ ke kn ku kw kE ks kN kb kt kρ h1 h2 h3 h4 h5 h6),
    pyAgrees_of (Python.prism.pag_gravity_en hA e n u w E s N b t ρ ke kn ku kw kE ks kN kb kt kρ h1 h2 h3 h4 h5 h6),
    pyAgrees_of (Python.prism.pag_gravity_eu hA e n u w E s N b t ρ ke kn ku kw kE ks kN kb kt kρ h1 h2 h3 h4 h5 h6),
    pyAgrees_of (Python.prism.pag_gravity_nu hA e n u w E s N b t ρ ke kn ku kw kE ks kN kb kt kρ h1 h2 h3 h4 h5 h6)⟩

/-- Magnetic field and gradient of a prism. -/
theorem C137_prism_magnetic (hA : PyArith A) (e n u w E s N b t mx my mz : PNum A) (hf : Floats [e, n, u, w, E, s, N, b, t, mx, my, mz]) :
    PyAgrees3 (SquareRaises [E - e, w - e, N - n, s - n, t - u, b - u]) (False)
      (Choclo.prism.magnetic_field e.number n.number u.number w.number E.number s.number N.number b.number t.number mx.number my.number mz.number)
      (Python.prism.magnetic_field e n u w E s N b t mx my mz)
    ∧ PyAgrees (SquareRaises [E - e, w - e, N - n, s - n, t - u, b - u]) (False)
      (Choclo.prism.magnetic_e e.number n.number u.number w.number E.number s.number N.number b.number t.number mx.number my.number mz.number)
      (Python.prism.magnetic_e e n u w E s N b t mx my mz)
    ∧ PyAgrees (SquareRaises [E - e, w - e, N - n, s - n, t - u, b - u]) (False)
      (Choclo.prism.magnetic_n e.number n.number u.number w.number E.number s.number N.number b.number t.number mx.number my.number mz.number)
      (Python.prism.magnetic_n e n u w E s N b t mx my mz)
    ∧ PyAgrees (SquareRaises [E - e, w - e, N - n, s - n, t - u, b - u]) (False)
      (Choclo.prism.magnetic_u e.number n.number u.number w.number E.number s.number N.number b.number t.number mx.number my.number mz.number)
      (Python.prism.magnetic_u e n u w E s N b t mx my mz)
    ∧ PyAgrees (SquareRaises [E - e, w - e, N - n, s - n, t - u, b - u]) (False)
      (Choclo.prism.magnetic_ee e.number n.number u.number w.number E.number s.number N.number b.number t.number mx.number my.number mz.number)
      (Python.prism.magnetic_ee e n u w E s N b t mx my mz)
    ∧ PyAgrees (SquareRaises [E - e, w - e, N - n, s - n, t - u, b - u]) (False)
      (Choclo.prism.magnetic_nn e.number n.number u.number w.number E.number s.number N.number b.number t.number mx.number my.number mz.number)
      (Python.prism.magnetic_nn e n u w E s N b t mx my mz)
    ∧ PyAgrees (SquareRaises [E - e, w - e, N - n, s - n, t - u, b - u]) (False)
      (Choclo.prism.magnetic_uu e.number n.number u.number w.number E.number s.number N.number b.number t.number mx.number my.number mz.number)
      (Python.prism.magnetic_uu e n u w E s N b t mx my mz)
    ∧ PyAgrees (SquareRaises [E - e, w - e, N - n, s - n, t - u, b - u]) (False)
      (Choclo.prism.magnetic_en e.number n.number u.number w.number E.number s.number N.number b.number t.number mx.number my.number mz.number)
      (Python.prism.magnetic_en e n u w E s N b t mx my mz)
    ∧ PyAgrees (SquareRaises [E - e, w - e, N - n, s - n, t - u, b - u]) (False)
      (Choclo.prism.magnetic_eu e.number n.number u.number w.number E.number s.number N.number b.number t.number mx.number my.number mz.number)
      (Python.prism.magnetic_eu e n u w E s N b t mx my mz)
    ∧ PyAgrees (SquareRaises [E - e, w - e, N - n, s - n, t - u, b - u]) (False)
      (Choclo.prism.magnetic_nu e.number n.number u.number w.number E.number s.number N.number b.number t.number mx.number my.number mz.number)
      (Python.prism.magnetic_nu e n u w E s N b t mx my mz) := by
  have ke := float_mem hf (a := e) (by simp)
  have kn := float_mem hf (a := n) (by simp)
  have ku := float_mem hf (a := u) (by simp)
  have kw := float_mem hf (a := w) (by simp)
  have kE := float_mem hf (a := E) (by simp)
  have ks := float_mem hf (a := s) (by simp)
  have kN := float_mem hf (a := N) (by simp)
  have kb := float_mem hf (a := b) (by simp)
  have kt := float_mem hf (a := t) (by simp)
  have kmx := float_mem hf (a := mx) (by simp)
  have kmy := float_mem hf (a := my) (by simp)
  have kmz := float_mem hf (a := mz) (by simp)
  have h1 : PowRaises (E - e) 2 → SquareRaises [E - e, w - e, N - n, s - n, t - u, b - u] := squareRaises_mem (by simp)
  have h2 : PowRaises (w - e) 2 → SquareRaises [E - e, w - e, N - n, s - n, t - u, b - u] := squareRaises_mem (by simp)
  have h3 : PowRaises (N - n) 2 → SquareRaises [E - e, w - e, N - n, s - n, t - u, b - u] := squareRaises_mem (by simp)
  have h4 : PowRaises (s - n) 2 → SquareRaises [E - e, w - e, N - n, s - n, t - u, b - u] := squareRaises_mem (by simp)
  have h5 : PowRaises (t - u) 2 → SquareRaises [E - e, w - e, N - n, s - n, t - u, b - u] := squareRaises_mem (by simp)
  have h6 : PowRaises (b - u) 2 → SquareRaises [E - e, w - e, N - n, s - n, t - u, b - u] := squareRaises_mem (by simp)
  exact ⟨pyAgrees3_of (Python.prism.pag_magnetic_field hA e n u w E s N b t mx my mz ke kn ku kw kE ks kN kb kt kmx kmy kmz h1 h2 h3 h4 h5 h6),
    pyAgrees_of (Python.prism.pag_magnetic_e hA e n u w E s N b t mx my mz ke kn ku kw kE ks kN kb kt kmx kmy kmz h1 h2 h3 h4 h5 h6),
    pyAgrees_of (Python.prism.pag_magnetic_n hA e n u w E s N b t mx my mz ke kn ku kw kE ks kN kb kt kmx kmy kmz h1 h2 h3 h4 h5 h6),
    pyAgrees_of (Python.prism.pag_magnetic_u hA e n u w E s N b t mx my mz ke kn ku kw kE ks kN kb kt kmx kmy kmz h1 h2 h3 h4 h5 h6),
    pyAgrees_of (Python.prism.pag_magnetic_ee hA e n u w E s N b t mx my mz ke kn ku kw kE ks kN kb kt kmx kmy kmz h1 h2 h3 h4 h5 h6),
    pyAgrees_of (Python.prism.pag_magnetic_nn hA e n u w E s N b t mx my mz ke kn ku kw kE ks kN kb kt kmx kmy kmz h1 h2 h3 h4 h5 h6),
    pyAgrees_of (Python.prism.pag_magnetic_uu hA e n u w E s N b t mx my mz ke kn ku kw kE ks kN kb kt kmx kmy kmz h1 h2 h3 h4 h5 h6),
    pyAgrees_of (Python.prism.pag_magnetic_en hA e n u w E s N b t mx my mz ke kn ku kw kE ks kN kb kt kmx kmy kmz h1 h2 h3 h4 h5 h6),
    pyAgrees_of (Python.prism.pag_magnetic_eu hA e n u w E s N b t mx my mz ke kn ku kw kE ks kN kb kt kmx kmy kmz h1 h2 h3 h4 h5 h6),
    pyAgrees_of (Python.prism.pag_magnetic_nu hA e n u w E s N b t mx my mz ke kn ku kw kE ks kN kb kt kmx kmy kmz h1 h2 h3 h4 h5 h6)⟩

end Choclo
