import Verif.Props.PythonRaise

/-! # Interpreted calls in double precision (C138) -/

namespace Choclo

open PNum

/-- A float of size at most `2 ^ 510` (about 3e153). -/
def Moderate (a : PNum Binary64) : Prop := a.IsFloat ∧ ∃ x : ℝ, a.number = Fl.fin x ∧ |x| ≤ 2 ^ (510 : ℤ)

theorem pyArith_exact : PyArith Exact := ⟨rfl, Real.pi_ne_zero⟩

theorem pyArith_binary64 : PyArith Binary64 := ⟨B64.rnd_zero, Binary64_pi_ne_zero⟩

theorem moderate_square {a b : PNum Binary64} (ha : Moderate a) (hb : Moderate b) : ¬PowRaises (a - b) 2 := by
  rintro ⟨z, hz, s, e, hp⟩
  obtain ⟨ka, x, hx, bx⟩ := ha
  obtain ⟨kb, y, hy, by'⟩ := hb
  have h := (Sam.sub pyArith_binary64 (Sam.arg (isInt_of ka)) (Sam.arg (isInt_of kb))).num
  rw [e, hx, hy] at h
  have h1 : Raw.fin z = B64.rnd (x - y) := by
    rw [sub_eq_add_neg]
    exact h
  have hxy : |x - y| ≤ 2 ^ (511 : ℤ) := by
    have := abs_sub x y
    have e2 : (2 : ℝ) ^ (511 : ℤ) = 2 ^ (510 : ℤ) + 2 ^ (510 : ℤ) := by
      rw [show (511 : ℤ) = 510 + 1 by norm_num, zpow_add₀ two_ne_zero]; ring
    rw [e2]; linarith
  obtain ⟨h2, -⟩ := B64.rnd_eq_fin h1.symm
  have hf : B64.IsF ((2 : ℝ) ^ (511 : ℤ)) := B64.isF_zpow (by norm_num)
  have u : B64.round (x - y) ≤ 2 ^ (511 : ℤ) := by
    rw [← hf.round]; exact B64.round_mono (abs_le.1 hxy).2
  have l : -(2 : ℝ) ^ (511 : ℤ) ≤ B64.round (x - y) := by
    rw [← (B64.isF_neg hf).round]; exact B64.round_mono (abs_le.1 hxy).1
  rw [h2] at u l
  have hz2 : |z ^ 2| ≤ 2 ^ (1023 : ℤ) := by
    have hz1 : |z| ≤ 2 ^ (511 : ℤ) := abs_le.2 ⟨l, u⟩
    have e3 : (2 : ℝ) ^ (1022 : ℤ) = 2 ^ (511 : ℤ) * 2 ^ (511 : ℤ) := by
      rw [← zpow_add₀ two_ne_zero]; norm_num
    have e4 : (2 : ℝ) ^ (1022 : ℤ) ≤ 2 ^ (1023 : ℤ) := B64.two_zpow_le (by norm_num)
    rw [abs_pow, sq]
    refine le_trans ?_ e4
    rw [e3]
    exact mul_le_mul hz1 hz1 (abs_nonneg _) (by positivity)
  have h3 : B64.rnd (z ^ 2) = .inf s := hp
  rw [B64.rnd_of_le hz2] at h3
  cases h3

theorem ok_of {P : Prop} {x : Py (Fl Binary64)} {y : PyX (PNum Binary64)} (h : PyAgrees P False x y) (hP : ¬P) :
    ∃ v, y = .ok v ∧ (x = .ok v.number ∨ x = .error .zeroDivision ∧ ¬v.number.IsFinite) := by
  rcases y with e | w
  · cases e with
    | zeroDivision => exact h.2.elim
    | overflow => exact absurd h hP
  · refine ⟨w, rfl, ?_⟩
    rcases x with ⟨⟨⟩⟩ | v
    · exact .inr ⟨rfl, h⟩
    · exact .inl (congrArg Except.ok h.symm)

theorem ok_of3 {P : Prop} {x : Py (Fl Binary64 × Fl Binary64 × Fl Binary64)}
    {y : PyX (PNum Binary64 × PNum Binary64 × PNum Binary64)} (h : PyAgrees3 P False x y) (hP : ¬P) :
    ∃ v, y = .ok v ∧ (x = .ok (v.1.number, v.2.1.number, v.2.2.number)
      ∨ x = .error .zeroDivision ∧ (¬v.1.number.IsFinite ∨ ¬v.2.1.number.IsFinite ∨ ¬v.2.2.number.IsFinite)) := by
  rcases y with e | w
  · cases e with
    | zeroDivision => exact h.2.elim
    | overflow => exact absurd h hP
  · refine ⟨w, rfl, ?_⟩
    rcases x with ⟨⟨⟩⟩ | v
    · exact .inr ⟨rfl, h⟩
    · exact .inl (congrArg Except.ok h.symm)

/-- Double precision, coordinates of size at most `2 ^ 510`: the distance of two points is returned, and is that of the compiled function. -/
theorem C138_distance_double (a b c d e f : PNum Binary64) (hm : ∀ x ∈ [a, b, c, d, e, f], Moderate x)
    :
    (∃ v, Python.utils.distance_cartesian a b c d e f = .ok v
      ∧ (Choclo.utils.distance_cartesian a.number b.number c.number d.number e.number f.number = .ok v.number ∨ Choclo.utils.distance_cartesian a.number b.number c.number d.number e.number f.number = .error .zeroDivision ∧ ¬v.number.IsFinite)) := by
  have hF : Floats [a, b, c, d, e, f] := by
    intro a ha
    simp only [List.mem_cons, List.not_mem_nil, or_false] at ha
    rcases ha with rfl | rfl | rfl | rfl | rfl | rfl
    exacts [(hm _ (by simp)).1, (hm _ (by simp)).1, (hm _ (by simp)).1, (hm _ (by simp)).1, (hm _ (by simp)).1, (hm _ (by simp)).1]
  have hP : ¬SquareRaises [a - d, b - e, c - f] := by
    rintro ⟨d, hd, hp⟩
    simp only [List.mem_cons, List.not_mem_nil, or_false] at hd
    rcases hd with rfl | rfl | rfl
    all_goals exact moderate_square (hm _ (by simp)) (hm _ (by simp)) hp
  have g0 := C137_distance pyArith_binary64 a b c d e f hF
  exact ok_of g0 hP

/-- The same for the gravity of a point mass: no exception, and the compiled result if that exists. -/
theorem C138_point_double (a b c d e f m : PNum Binary64) (hm : ∀ x ∈ [a, b, c, d, e, f], Moderate x)
    (hf : Floats [m]) :
    (∃ v, Python.point.gravity_pot a b c d e f m = .ok v
      ∧ (Choclo.point.gravity_pot a.number b.number c.number d.number e.number f.number m.number = .ok v.number ∨ Choclo.point.gravity_pot a.number b.number c.number d.number e.number f.number m.number = .error .zeroDivision ∧ ¬v.number.IsFinite))
    ∧ (∃ v, Python.point.gravity_e a b c d e f m = .ok v
      ∧ (Choclo.point.gravity_e a.number b.number c.number d.number e.number f.number m.number = .ok v.number ∨ Choclo.point.gravity_e a.number b.number c.number d.number e.number f.number m.number = .error .zeroDivision ∧ ¬v.number.IsFinite))
    ∧ (∃ v, Python.point.gravity_n a b c d e f m = .ok v
      ∧ (Choclo.point.gravity_n a.number b.number c.number d.number e.number f.number m.number = .ok v.number ∨ Choclo.point.gravity_n a.number b.number c.number d.number e.number f.number m.number = .error .zeroDivision ∧ ¬v.number.IsFinite))
    ∧ (∃ v, Python.point.gravity_u a b c d e f m = .ok v
      ∧ (Choclo.point.gravity_u a.number b.number c.number d.number e.number f.number m.number = .ok v.number ∨ Choclo.point.gravity_u a.number b.number c.number d.number e.number f.number m.number = .error .zeroDivision ∧ ¬v.number.IsFinite))
    ∧ (∃ v, Python.point.gravity_ee a b c d e f m = .ok v
      ∧ (Choclo.point.gravity_ee a.number b.number c.number d.number e.number f.number m.number = .ok v.number ∨ Choclo.point.gravity_ee a.number b.number c.number d.number e.number f.number m.number = .error .zeroDivision ∧ ¬v.number.IsFinite))
    ∧ (∃ v, Python.point.gravity_nn a b c d e f m = .ok v
      ∧ (Choclo.point.gravity_nn a.number b.number c.number d.number e.number f.number m.number = .ok v.number ∨ Choclo.point.gravity_nn a.number b.number c.number d.number e.number f.number m.number = .error .zeroDivision ∧ ¬v.number.IsFinite))
    ∧ (∃ v, Python.point.gravity_uu a b c d e f m = .ok v
      ∧ (Choclo.point.gravity_uu a.number b.number c.number d.number e.number f.number m.number = .ok v.number ∨ Choclo.point.gravity_uu a.number b.number c.number d.number e.number f.number m.number = .error .zeroDivision ∧ ¬v.number.IsFinite))
    ∧ (∃ v, Python.point.gravity_en a b c d e f m = .ok v
      ∧ (Choclo.point.gravity_en a.number b.number c.number d.number e.number f.number m.number = .ok v.number ∨ Choclo.point.gravity_en a.number b.number c.number d.number e.number f.number m.number = .error .zeroDivision ∧ ¬v.number.IsFinite))
    ∧ (∃ v, Python.point.gravity_eu a b c d e f m = .ok v
      ∧ (Choclo.point.gravity_eu a.number b.number c.number d.number e.number f.number m.number = .ok v.number ∨ Choclo.point.gravity_eu a.number b.number c.number d.number e.number f.number m.number = .error .zeroDivision ∧ ¬v.number.IsFinite))
    ∧ (∃ v, Python.point.gravity_nu a b c d e f m = .ok v
      ∧ (Choclo.point.gravity_nu a.number b.number c.number d.number e.number f.number m.number = .ok v.number ∨ Choclo.point.gravity_nu a.number b.number c.number d.number e.number f.number m.number = .error .zeroDivision ∧ ¬v.number.IsFinite)) := by
  have hF : Floats [a, b, c, d, e, f, m] := by
    intro a ha
    simp only [List.mem_cons, List.not_mem_nil, or_false] at ha
    rcases ha with rfl | rfl | rfl | rfl | rfl | rfl | rfl
    exacts [(hm _ (by simp)).1, (hm _ (by simp)).1, (hm _ (by simp)).1, (hm _ (by simp)).1, (hm _ (by simp)).1, (hm _ (by simp)).1, hf _ (by simp)]
  have hP : ¬SquareRaises [a - d, b - e, c - f] := by
    rintro ⟨d, hd, hp⟩
    simp only [List.mem_cons, List.not_mem_nil, or_false] at hd
    rcases hd with rfl | rfl | rfl
    all_goals exact moderate_square (hm _ (by simp)) (hm _ (by simp)) hp
  obtain ⟨g0, g1, g2, g3, g4, g5, g6, g7, g8, g9⟩ := C137_point_gravity pyArith_binary64 a b c d e f m hF
  exact ⟨ok_of g0 hP, ok_of g1 hP, ok_of g2 hP, ok_of g3 hP, ok_of g4 hP, ok_of g5 hP, ok_of g6 hP, ok_of g7 hP, ok_of g8 hP, ok_of g9 hP⟩

/-- The same for the field of a dipole. -/
theorem C138_dipole_double (a b c d e f m n o : PNum Binary64) (hm : ∀ x ∈ [a, b, c, d, e, f], Moderate x)
    (hf : Floats [m, n, o]) :
    (∃ v, Python.dipole.magnetic_field a b c d e f m n o = .ok v
      ∧ (Choclo.dipole.magnetic_field a.number b.number c.number d.number e.number f.number m.number n.number o.number = .ok (v.1.number, v.2.1.number, v.2.2.number)
        ∨ Choclo.dipole.magnetic_field a.number b.number c.number d.number e.number f.number m.number n.number o.number = .error .zeroDivision
          ∧ (¬v.1.number.IsFinite ∨ ¬v.2.1.number.IsFinite ∨ ¬v.2.2.number.IsFinite)))
    ∧ (∃ v, Python.dipole.magnetic_e a b c d e f m n o = .ok v
      ∧ (Choclo.dipole.magnetic_e a.number b.number c.number d.number e.number f.number m.number n.number o.number = .ok v.number ∨ Choclo.dipole.magnetic_e a.number b.number c.number d.number e.number f.number m.number n.number o.number = .error .zeroDivision ∧ ¬v.number.IsFinite))
    ∧ (∃ v, Python.dipole.magnetic_n a b c d e f m n o = .ok v
      ∧ (Choclo.dipole.magnetic_n a.number b.number c.number d.number e.number f.number m.number n.number o.number = .ok v.number ∨ Choclo.dipole.magnetic_n a.number b.number c.number d.number e.number f.number m.number n.number o.number = .error .zeroDivision ∧ ¬v.number.IsFinite))
    ∧ (∃ v, Python.dipole.magnetic_u a b c d e f m n o = .ok v
      ∧ (Choclo.dipole.magnetic_u a.number b.number c.number d.number e.number f.number m.number n.number o.number = .ok v.number ∨ Choclo.dipole.magnetic_u a.number b.number c.number d.number e.number f.number m.number n.number o.number = .error .zeroDivision ∧ ¬v.number.IsFinite)) := by
  have hF : Floats [a, b, c, d, e, f, m, n, o] := by
    intro a ha
    simp only [List.mem_cons, List.not_mem_nil, or_false] at ha
    rcases ha with rfl | rfl | rfl | rfl | rfl | rfl | rfl | rfl | rfl
    exacts [(hm _ (by simp)).1, (hm _ (by simp)).1, (hm _ (by simp)).1, (hm _ (by simp)).1, (hm _ (by simp)).1, (hm _ (by simp)).1, hf _ (by simp), hf _ (by simp), hf _ (by simp)]
  have hP : ¬SquareRaises [a - d, b - e, c - f] := by
    rintro ⟨d, hd, hp⟩
    simp only [List.mem_cons, List.not_mem_nil, or_false] at hd
    rcases hd with rfl | rfl | rfl
    all_goals exact moderate_square (hm _ (by simp)) (hm _ (by simp)) hp
  obtain ⟨g0, g1, g2, g3⟩ := C137_dipole pyArith_binary64 a b c d e f m n o hF
  exact ⟨ok_of3 g0 hP, ok_of g1 hP, ok_of g2 hP, ok_of g3 hP⟩

/-- The same for the gravity of a prism. -/
theorem C138_prism_gravity_double (e n u w E s N b t ρ : PNum Binary64) (hm : ∀ x ∈ [e, n, u, w, E, s, N, b, t], Moderate x)
    (hf : Floats [ρ]) :
    (∃ v, Python.prism.gravity_pot e n u w E s N b t ρ = .ok v
      ∧ (Choclo.prism.gravity_pot e.number n.number u.number w.number E.number s.number N.number b.number t.number ρ.number = .ok v.number ∨ Choclo.prism.gravity_pot e.number n.number u.number w.number E.number s.number N.number b.number t.number ρ.number = .error .zeroDivision ∧ ¬v.number.IsFinite))
    ∧ (∃ v, Python.prism.gravity_e e n u w E s N b t ρ = .ok v
      ∧ (Choclo.prism.gravity_e e.number n.number u.number w.number E.number s.number N.number b.number t.number ρ.number = .ok v.number ∨ Choclo.prism.gravity_e e.number n.number u.number w.number E.number s.number N.number b.number t.number ρ.number = .error .zeroDivision ∧ ¬v.number.IsFinite))
    ∧ (∃ v, Python.prism.gravity_n e n u w E s N b t ρ = .ok v
      ∧ (Choclo.prism.gravity_n e.number n.number u.number w.number E.number s.number N.number b.number t.number ρ.number = .ok v.number ∨ Choclo.prism.gravity_n e.number n.number u.number w.number E.number s.number N.number b.number t.number ρ.number = .error .zeroDivision ∧ ¬v.number.IsFinite))
    ∧ (∃ v, Python.prism.gravity_u e n u w E s N b t ρ = .ok v
      ∧ (Choclo.prism.gravity_u e.number n.number u.number w.number E.number s.number N.number b.number t.number ρ.number = .ok v.number ∨ Choclo.prism.gravity_u e.number n.number u.number w.number E.number s.number N.number b.number t.number ρ.number = .error .zeroDivision ∧ ¬v.number.IsFinite))
    ∧ (∃ v, Python.prism.gravity_ee e n u w E s N b t ρ = .ok v
      ∧ (Choclo.prism.gravity_ee e.number n.number u.number w.number E.number s.number N.number b.number t.number ρ.number = .ok v.number ∨ Choclo.prism.gravity_ee e.number n.number u.number w.number E.number s.number N.number b.number t.number ρ.number = .error .zeroDivision ∧ ¬v.number.IsFinite))
    ∧ (∃ v, Python.prism.gravity_nn e n u w E s N b t ρ = .ok v
      ∧ (Choclo.prism.gravity_nn e.number n.number u.number w.number E.number s.number N.number b.number t.number ρ.number = .ok v.number ∨ Choclo.prism.gravity_nn e.number n.number u.number w.number E.number s.number N.number b.number t.number ρ.number = .error .zeroDivision ∧ ¬v.number.IsFinite))
    ∧ (∃ v, Python.prism.gravity_uu e n u w E s N b t ρ = .ok v
      ∧ (Choclo.prism.gravity_uu e.number n.number u.number w.number E.number s.number N.number b.number t.number ρ.number = .ok v.number ∨ Choclo.prism.gravity_uu e.number n.number u.number w.number E.number s.number N.number b.number t.number ρ.number = .error .zeroDivision ∧ ¬v.number.IsFinite))
    ∧ (∃ v, Python.prism.gravity_en e n u w E s N b t ρ = .ok v
      ∧ (Choclo.prism.gravity_en e.number n.number u.number w.number E.number s.number N.number b.number t.number ρ.number = .ok v.number ∨ Choclo.prism.gravity_en e.number n.number u.number w.number E.number s.number N.number b.number t.number ρ.number = .error .zeroDivision ∧ ¬v.number.IsFinite))
    ∧ (∃ v, Python.prism.gravity_eu e n u w E s N b t ρ = .ok v
      ∧ (Choclo.prism.gravity_eu e.number n.number u.number w.number E.number s.number N.number b.number t.number ρ.number = .ok v.number ∨ Choclo.prism.gravity_eu e.number n.number u.number w.number E.number s.number N.number b.number t.number ρ.number = .error .zeroDivision ∧ ¬v.number.IsFinite))
    ∧ (∃ v, Python.prism.gravity_nu e n u w E s N b t ρ = .ok v
      ∧ (Choclo.prism.gravity_nu e.number n.number u.number w.number E.number s.number N.number b.number t.number ρ.number = .ok v.number ∨ Choclo.prism.gravity_nu e.number n.number u.number w.number E.number s.number N.number b.number t.number ρ.number = .error .zeroDivision ∧ ¬v.number.IsFinite)) := by
  have hF : Floats [e, n, u, w, E, s, N, b, t, ρ] := by
    intro a ha
    simp only [List.mem_cons, List.not_mem_nil, or_false] at ha
    rcases ha with rfl | rfl | rfl | rfl | rfl | rfl | rfl | rfl | rfl | rfl
    exacts [(hm _ (by simp)).1, (hm _ (by simp)).1, (hm _ (by simp)).1, (hm _ (by simp)).1, (hm _ (by simp)).1, (hm _ (by simp)).1, (hm _ (by simp)).1, (hm _ (by simp)).1, (hm _ (by simp)).1, hf _ (by simp)]
  have hP : ¬SquareRaises [E - e, w - e, N - n, s - n, t - u, b - u] := by
    rintro ⟨d, hd, hp⟩
    simp only [List.mem_cons, List.not_mem_nil, or_false] at hd
    rcases hd with rfl | rfl | rfl | rfl | rfl | rfl
    all_goals exact moderate_square (hm _ (by simp)) (hm _ (by simp)) hp
  obtain ⟨g0, g1, g2, g3, g4, g5, g6, g7, g8, g9⟩ := C137_prism_gravity pyArith_binary64 e n u w E s N b t ρ hF
  exact ⟨ok_of g0 hP, ok_of g1 hP, ok_of g2 hP, ok_of g3 hP, ok_of g4 hP, ok_of g5 hP, ok_of g6 hP, ok_of g7 hP, ok_of g8 hP, ok_of g9 hP⟩

/-- The same for the magnetic field and gradient of a prism. -/
theorem C138_prism_magnetic_double (e n u w E s N b t mx my mz : PNum Binary64) (hm : ∀ x ∈ [e, n, u, w, E, s, N, b, t], Moderate x)
    (hf : Floats [mx, my, mz]) :
    (∃ v, Python.prism.magnetic_field e n u w E s N b t mx my mz = .ok v
      ∧ (Choclo.prism.magnetic_field e.number n.number u.number w.number E.number s.number N.number b.number t.number mx.number my.number mz.number = .ok (v.1.number, v.2.1.number, v.2.2.number)
        ∨ Choclo.prism.magnetic_field e.number n.number u.number w.number E.number s.number N.number b.number t.number mx.number my.number mz.number = .error .zeroDivision
          ∧ (¬v.1.number.IsFinite ∨ ¬v.2.1.number.IsFinite ∨ ¬v.2.2.number.IsFinite)))
    ∧ (∃ v, Python.prism.magnetic_e e n u w E s N b t mx my mz = .ok v
      ∧ (Choclo.prism.magnetic_e e.number n.number u.number w.number E.number s.number N.number b.number t.number mx.number my.number mz.number = .ok v.number ∨ Choclo.prism.magnetic_e e.number n.number u.number w.number E.number s.number N.number b.number t.number mx.number my.number mz.number = .error .zeroDivision ∧ ¬v.number.IsFinite))
    ∧ (∃ v, Python.prism.magnetic_n e n u w E s N b t mx my mz = .ok v
      ∧ (Choclo.prism.magnetic_n e.number n.number u.number w.number E.number s.number N.number b.number t.number mx.number my.number mz.number = .ok v.number ∨ Choclo.prism.magnetic_n e.number n.number u.number w.number E.number s.number N.number b.number t.number mx.number my.number mz.number = .error .zeroDivision ∧ ¬v.number.IsFinite))
    ∧ (∃ v, Python.prism.magnetic_u e n u w E s N b t mx my mz = .ok v
      ∧ (Choclo.prism.magnetic_u e.number n.number u.number w.number E.number s.number N.number b.number t.number mx.number my.number mz.number = .ok v.number ∨ Choclo.prism.magnetic_u e.number n.number u.number w.number E.number s.number N.number b.number t.number mx.number my.number mz.number = .error .zeroDivision ∧ ¬v.number.IsFinite))
    ∧ (∃ v, Python.prism.magnetic_ee e n u w E s N b t mx my mz = .ok v
      ∧ (Choclo.prism.magnetic_ee e.number n.number u.number w.number E.number s.number N.number b.number t.number mx.number my.number mz.number = .ok v.number ∨ Choclo.prism.magnetic_ee e.number n.number u.number w.number E.number s.number N.number b.number t.number mx.number my.number mz.number = .error .zeroDivision ∧ ¬v.number.IsFinite))
    ∧ (∃ v, Python.prism.magnetic_nn e n u w E s N b t mx my mz = .ok v
      ∧ (Choclo.prism.magnetic_nn e.number n.number u.number w.number E.number s.number N.number b.number t.number mx.number my.number mz.number = .ok v.number ∨ Choclo.prism.magnetic_nn e.number n.number u.number w.number E.number s.number N.number b.number t.number mx.number my.number mz.number = .error .zeroDivision ∧ ¬v.number.IsFinite))
    ∧ (∃ v, Python.prism.magnetic_uu e n u w E s N b t mx my mz = .ok v
      ∧ (Choclo.prism.magnetic_uu e.number n.number u.number w.number E.number s.number N.number b.number t.number mx.number my.number mz.number = .ok v.number ∨ Choclo.prism.magnetic_uu e.number n.number u.number w.number E.number s.number N.number b.number t.number mx.number my.number mz.number = .error .zeroDivision ∧ ¬v.number.IsFinite))
    ∧ (∃ v, Python.prism.magnetic_en e n u w E s N b t mx my mz = .ok v
      ∧ (Choclo.prism.magnetic_en e.number n.number u.number w.number E.number s.number N.number b.number t.number mx.number my.number mz.number = .ok v.number ∨ Choclo.prism.magnetic_en e.number n.number u.number w.number E.number s.number N.number b.number t.number mx.number my.number mz.number = .error .zeroDivision ∧ ¬v.number.IsFinite))
    ∧ (∃ v, Python.prism.magnetic_eu e n u w E s N b t mx my mz = .ok v
      ∧ (Choclo.prism.magnetic_eu e.number n.number u.number w.number E.number s.number N.number b.number t.number mx.number my.number mz.number = .ok v.number ∨ Choclo.prism.magnetic_eu e.number n.number u.number w.number E.number s.number N.number b.number t.number mx.number my.number mz.number = .error .zeroDivision ∧ ¬v.number.IsFinite))
    ∧ (∃ v, Python.prism.magnetic_nu e n u w E s N b t mx my mz = .ok v
      ∧ (Choclo.prism.magnetic_nu e.number n.number u.number w.number E.number s.number N.number b.number t.number mx.number my.number mz.number = .ok v.number ∨ Choclo.prism.magnetic_nu e.number n.number u.number w.number E.number s.number N.number b.number t.number mx.number my.number mz.number = .error .zeroDivision ∧ ¬v.number.IsFinite)) := by
  have hF : Floats [e, n, u, w, E, s, N, b, t, mx, my, mz] := by
    intro a ha
    simp only [List.mem_cons, List.not_mem_nil, or_false] at ha
    rcases ha with rfl | rfl | rfl | rfl | rfl | rfl | rfl | rfl | rfl | rfl | rfl | rfl
    exacts [(hm _ (by simp)).1, (hm _ (by simp)).1, (hm _ (by simp)).1, (hm _ (by simp)).1, (hm _ (by simp)).1, (hm _ (by simp)).1, (hm _ (by simp)).1, (hm _ (by simp)).1, (hm _ (by simp)).1, hf _ (by simp), hf _ (by simp), hf _ (by simp)]
  have hP : ¬SquareRaises [E - e, w - e, N - n, s - n, t - u, b - u] := by
    rintro ⟨d, hd, hp⟩
    simp only [List.mem_cons, List.not_mem_nil, or_false] at hd
    rcases hd with rfl | rfl | rfl | rfl | rfl | rfl
    all_goals exact moderate_square (hm _ (by simp)) (hm _ (by simp)) hp
  obtain ⟨g0, g1, g2, g3, g4, g5, g6, g7, g8, g9⟩ := C137_prism_magnetic pyArith_binary64 e n u w E s N b t mx my mz hF
  exact ⟨ok_of3 g0 hP, ok_of g1 hP, ok_of g2 hP, ok_of g3 hP, ok_of g4 hP, ok_of g5 hP, ok_of g6 hP, ok_of g7 hP, ok_of g8 hP, ok_of g9 hP⟩

/-! ### Concrete cases -/

/-- A built-in float. -/
noncomputable abbrev builtin (x : ℝ) : PNum Binary64 := .float (SFl.fin x)

theorem builtin_moderate {x : ℝ} (h : |x| ≤ 2 ^ (510 : ℤ)) : Moderate (builtin x) :=
  ⟨trivial, x, SFl.erase_fin x, h⟩

/-- The square of `2 ^ 600 - 0` overflows. -/
theorem big_powRaises : PowRaises (builtin (2 ^ (600 : ℤ)) - builtin 0) 2 := by
  have h6 : (2 : ℝ) ^ (600 : ℤ) ≠ 0 := by positivity
  refine ⟨2 ^ (600 : ℤ), h6, false, ?_, ?_⟩
  · have e1 : (SFl.fin (2 ^ (600 : ℤ)) : SFl Binary64) = SRaw.num (2 ^ (600 : ℤ)) h6 := SFl.fin_num h6
    have e0 : (SFl.fin 0 : SFl Binary64) = SRaw.zero false := dif_pos rfl
    show PNum.float ((SFl.fin (2 ^ (600 : ℤ)) : SFl Binary64) - SFl.fin 0) = _
    rw [e1, e0]
    show PNum.float (SFl.ofRaw _ (B64.rnd (2 ^ (600 : ℤ) + 0))) = _
    rw [add_zero, (B64.isF_zpow (by norm_num)).rnd (by rw [abs_of_pos (by positivity)]; exact zpow_lt_zpow_right₀ (by norm_num) (by norm_num))]
    exact congrArg PNum.float (dif_neg h6)
  · show B64.rnd ((2 ^ (600 : ℤ)) ^ 2) = _
    have e : ((2 : ℝ) ^ (600 : ℤ)) ^ 2 = 2 ^ (1200 : ℤ) := by rw [← zpow_natCast, ← zpow_mul]; norm_num
    have hr : B64.round (2 ^ (1200 : ℤ)) = 2 ^ (1200 : ℤ) := (B64.isF_zpow (by norm_num)).round
    rw [e]
    unfold B64.rnd
    have p : (0 : ℝ) < 2 ^ (1200 : ℤ) := by positivity
    rw [hr, if_neg (by rw [abs_of_pos p, not_lt]; exact B64.two_zpow_le (by norm_num))]
    simp

/-- Built-in floats: the distance from `(2 ^ 600, 0, 0)` to the origin cannot be computed without Numba. -/
theorem C138_example_overflow :
    Python.utils.distance_cartesian (builtin (2 ^ (600 : ℤ))) (builtin 0) (builtin 0) (builtin 0) (builtin 0) (builtin 0)
      = .error .overflow := by
  refine (C138_distance pyArith_binary64 _ _ _ _ _ _ ?_).2 ⟨_, List.mem_cons_self .., ?_⟩
  · intro a ha
    simp only [List.mem_cons, List.not_mem_nil, or_false] at ha
    rcases ha with rfl | rfl | rfl | rfl | rfl | rfl <;> trivial
  · exact big_powRaises

/-- The sign of a zero may differ: where numerator and denominator of the angle in `kernel_ee` are both zero (a vertex
shifted along northing only, say), the interpreted kernel returns the integer `0` and the compiled one `-0.0`. -/
theorem C138_zero_sign {A : Arith} {x y z r : PNum A} (hr : PNum.eq r 0 = false) (hd : PNum.eq (x * r) 0 = true)
    (h1 : PNum.lt 0 (y * z) = false) (h2 : PNum.lt (y * z) 0 = false)
    (f : Floats [x, y, z, r]) :
    Python.prism.kernel_ee x y z r = .ok (.int 0)
    ∧ Signed.prism.kernel_ee x.value y.value z.value r.value = .ok (SRaw.zero true) := by
  have v0 : (0 : PNum A).value = (0 : SFl A) := by
    show (SFl.fin ((0 : ℕ) : ℤ) : SFl A) = SFl.fin _
    norm_num
  have kx := float_mem f (a := x) (by simp)
  have ky := float_mem f (a := y) (by simp)
  constructor
  · unfold Python.prism.kernel_ee Python.prism._safe_atan2
    rw [hr, hd, h1, h2]
    rfl
  · unfold PNum.eq at hr hd
    unfold PNum.lt at h1 h2
    rw [v0] at hr hd h1 h2
    rw [value_mul (by rw [kx, Bool.false_and])] at hd
    rw [value_mul (by rw [ky, Bool.false_and])] at h1 h2
    unfold Signed.prism.kernel_ee Signed.prism._safe_atan2
    rw [hr, hd, h1, h2]
    show Except.ok (-(SFl.fin ((0 : ℕ) : ℝ)) : SFl A) = _
    have : (SFl.fin ((0 : ℕ) : ℝ) : SFl A) = SRaw.zero false := dif_pos (by norm_num)
    rw [this]
    rfl

/-- Non-vacuity of `C138_zero_sign`: the shift `(0, 1, 0)`. -/
theorem C138_zero_sign_example :
    Python.prism.kernel_ee (A := Exact) (.float (SFl.fin 0)) (.float (SFl.fin 1)) (.float (SFl.fin 0)) (.float (SFl.fin 1)) = .ok (.int 0)
    ∧ Signed.prism.kernel_ee (A := Exact) (SFl.fin 0) (SFl.fin 1) (SFl.fin 0) (SFl.fin 1) = .ok (SRaw.zero true) := by
  have e0 : (SFl.fin 0 : SFl Exact) = SRaw.zero false := dif_pos rfl
  have e1 : (SFl.fin 1 : SFl Exact) = SRaw.num 1 one_ne_zero := dif_neg one_ne_zero
  have v0 : (0 : PNum Exact).value = SRaw.zero false := by
    show (SFl.fin ((0 : ℕ) : ℤ) : SFl Exact) = _
    rw [← e0]; norm_num
  have hz : SFl.mul (A := Exact) (SRaw.zero false) (SRaw.num 1 one_ne_zero) = SRaw.zero false := by
    show SFl.ofRaw (xor false (decide ((1 : ℝ) < 0))) (Raw.fin (0 * 1)) = _
    rw [zero_mul, decide_eq_false (by norm_num)]
    exact dif_pos rfl
  have hz' : SFl.mul (A := Exact) (SRaw.num 1 one_ne_zero) (SRaw.zero false) = SRaw.zero false := by
    show SFl.ofRaw (xor (decide ((1 : ℝ) < 0)) false) (Raw.fin (1 * 0)) = _
    rw [mul_zero, decide_eq_false (by norm_num)]
    exact dif_pos rfl
  refine C138_zero_sign (x := .float (SFl.fin 0)) (y := .float (SFl.fin 1)) (z := .float (SFl.fin 0)) (r := .float (SFl.fin 1)) ?_ ?_ ?_ ?_ ?_
  · show SFl.eq (SFl.fin 1 : SFl Exact) (0 : PNum Exact).value = false
    rw [v0, e1]
    exact decide_eq_false one_ne_zero
  · show SFl.eq (SFl.mul (SFl.fin 0 : SFl Exact) (SFl.fin 1)) (0 : PNum Exact).value = true
    rw [v0, e0, e1, hz]
    rfl
  · show SFl.lt (0 : PNum Exact).value (SFl.mul (SFl.fin 1 : SFl Exact) (SFl.fin 0)) = false
    rw [v0, e0, e1, hz']
    rfl
  · show SFl.lt (SFl.mul (SFl.fin 1 : SFl Exact) (SFl.fin 0)) (0 : PNum Exact).value = false
    rw [v0, e0, e1, hz']
    rfl
  · intro a ha
    simp only [List.mem_cons, List.not_mem_nil, or_false] at ha
    rcases ha with rfl | rfl | rfl | rfl <;> trivial

/-- A kernel called directly with a distance that is zero: `ZeroDivisionError` if it is a built-in float, as when
compiled, but infinity or NaN if it is an `np.float64`. -/
theorem C138_zero_distance {A : Arith} (a b c d e f : PNum A) (s : Bool) :
    Python.point.kernel_pot a b c d e f (.float (SRaw.zero s)) = .error .zeroDivision
    ∧ Python.point.kernel_pot a b c d e f (.np64 (SRaw.zero s)) = .ok (.np64 (SFl.inf s)) := by
  have v0 : (0 : SFl A) = SRaw.zero false := dif_pos (by norm_num)
  have h0 : SFl.eq (A := A) (SRaw.zero s) 0 = true := by rw [v0]; rfl
  constructor
  · show PNum.div (1 : PNum A) (.float (SRaw.zero s)) = _
    show (if SFl.eq (A := A) (SRaw.zero s) 0 && !(false || false) then _ else _) = _
    rw [h0]
    rfl
  · show PNum.div (1 : PNum A) (.np64 (SRaw.zero s)) = _
    show (if SFl.eq (A := A) (SRaw.zero s) 0 && !(false || true) then _ else _) = _
    rw [h0]
    show Except.ok (PNum.np64 (SFl.ndiv (SFl.fin (((1 : ℕ) : ℤ) : ℝ) : SFl A) (SRaw.zero s))) = _
    have h1 : (SFl.fin (((1 : ℕ) : ℤ) : ℝ) : SFl A) = SRaw.num (((1 : ℕ) : ℤ) : ℝ) (by norm_num) := dif_neg (by norm_num)
    rw [h1]
    show Except.ok (PNum.np64 (SFl.inf (xor (decide ((((1 : ℕ) : ℤ) : ℝ) < 0)) s) : SFl A)) = _
    rw [decide_eq_false (by norm_num), Bool.false_xor]

/-- C138 applied: an observation point `2 ^ 600` m east of the prism's western face. -/
example : (Python.prism.gravity_pot (builtin 0) (builtin 0) (builtin 9) (builtin 0) (builtin (2 ^ (600 : ℤ))) (builtin (-1)) (builtin 1)
      (builtin (-2)) (builtin (-1)) (builtin 2670) = .error .overflow)
    ∧ (Python.prism.gravity_ee (builtin 0) (builtin 0) (builtin 9) (builtin 0) (builtin (2 ^ (600 : ℤ))) (builtin (-1)) (builtin 1)
        (builtin (-2)) (builtin (-1)) (builtin 2670) = .error .overflow
      ∨ Python.prism.gravity_ee (builtin 0) (builtin 0) (builtin 9) (builtin 0) (builtin (2 ^ (600 : ℤ))) (builtin (-1)) (builtin 1)
        (builtin (-2)) (builtin (-1)) (builtin 2670) = .ok PNum.nan)
    ∧ (Python.prism.magnetic_e (builtin 0) (builtin 0) (builtin 9) (builtin 0) (builtin (2 ^ (600 : ℤ))) (builtin (-1)) (builtin 1)
        (builtin (-2)) (builtin (-1)) (builtin 1) (builtin 2) (builtin 3) = .error .overflow
      ∨ Python.prism.magnetic_e (builtin 0) (builtin 0) (builtin 9) (builtin 0) (builtin (2 ^ (600 : ℤ))) (builtin (-1)) (builtin 1)
        (builtin (-2)) (builtin (-1)) (builtin 1) (builtin 2) (builtin 3) = .ok PNum.nan) := by
  have hf : ∀ l : List ℝ, Floats (l.map builtin) := by
    intro l a ha
    obtain ⟨x, -, rfl⟩ := List.mem_map.1 ha
    trivial
  exact ⟨(C138_prism_gravity pyArith_binary64 _ _ _ _ _ _ _ _ _ _ (hf [0, 0, 9, 0, 2 ^ (600 : ℤ), -1, 1, -2, -1, 2670])).1.2
      ⟨_, List.mem_cons_self .., big_powRaises⟩,
    (C138_prism_tensor pyArith_binary64 _ _ _ _ _ _ _ _ _ _ (hf [0, 0, 9, 0, 2 ^ (600 : ℤ), -1, 1, -2, -1, 2670])
      ⟨_, List.mem_cons_self .., big_powRaises⟩).1,
    (C138_prism_magnetic pyArith_binary64 _ _ _ _ _ _ _ _ _ _ _ _ (hf [0, 0, 9, 0, 2 ^ (600 : ℤ), -1, 1, -2, -1, 1, 2, 3])
      ⟨_, List.mem_cons_self .., big_powRaises⟩).2.1⟩

/-- Coordinates up to `2 ^ 510` never raise: a point mass of 5 kg at the origin seen from `(3, -4, 10 ^ 6)`. -/
example : ∃ v, Python.point.gravity_u (builtin 3) (builtin (-4)) (builtin (10 ^ 6)) (builtin 0) (builtin 0) (builtin 0) (builtin 5) = .ok v := by
  have h : ∀ a ∈ [builtin 3, builtin (-4), builtin (10 ^ 6), builtin 0, builtin 0, builtin 0], Moderate a := by
    have k : (10 : ℝ) ^ 6 ≤ 2 ^ (510 : ℤ) := le_trans (b := (2 : ℝ) ^ (20 : ℤ)) (by norm_num) (zpow_le_zpow_right₀ (by norm_num) (by norm_num))
    intro a ha
    simp only [List.mem_cons, List.not_mem_nil, or_false] at ha
    rcases ha with rfl | rfl | rfl | rfl | rfl | rfl <;> refine builtin_moderate (le_trans ?_ k) <;> norm_num
  have hf : Floats [builtin 5] := by
    intro a ha
    rw [List.mem_singleton] at ha
    subst ha
    trivial
  obtain ⟨v, hv, -⟩ := (C138_point_double _ _ _ _ _ _ _ h hf).2.2.2.1
  exact ⟨v, hv⟩

end Choclo
