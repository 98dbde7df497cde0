import Verif.Props.PyInt

/-! # Interpreted calls on integers and floats, in double precision (C144) -/

namespace Choclo

open PNum

/-- A float of size at most `2 ^ 510` or an integer of magnitude at most `B`. -/
def ModerateI (B : ℕ) (a : PNum Binary64) : Prop :=
  a.UpTo B ∧ (a.IsFloat → ∃ x : ℝ, a.number = Fl.fin x ∧ |x| ≤ 2 ^ (510 : ℤ))

theorem ModerateI.num {B : ℕ} {a : PNum Binary64} (h : ModerateI B a) (hB : B ≤ 2 ^ 53) :
    ∃ x : ℝ, a.number = Fl.fin x ∧ |x| ≤ 2 ^ (510 : ℤ) := by
  obtain ⟨h1, h2⟩ := h
  cases a with
  | int n =>
    refine ⟨n, Sam.val_int n, ?_⟩
    have h3 : |n| ≤ (2 ^ 53 : ℕ) := le_trans h1 (by exact_mod_cast hB)
    have h4 : |(n : ℝ)| ≤ 2 ^ 53 := by exact_mod_cast h3
    refine h4.trans ?_
    have h5 : (2 : ℝ) ^ (53 : ℤ) ≤ 2 ^ (510 : ℤ) := B64.two_zpow_le (by norm_num)
    exact le_trans (by norm_num) h5
  | float x => exact h2 trivial
  | np64 x => exact h2 trivial

theorem moderateI_square {B : ℕ} {a b : PNum Binary64} (ha : ModerateI B a) (hb : ModerateI B b) (hB : B ≤ 2 ^ 24) :
    ¬PowRaises (a - b) 2 := by
  obtain ⟨x, hx, bx⟩ := ha.num (hB.trans (by norm_num))
  obtain ⟨y, hy, by'⟩ := hb.num (hB.trans (by norm_num))
  have ka : SamB B a.number a := upTo_mem (as := [a]) (by intro c hc; rw [List.mem_singleton.1 hc]; exact ha.1) (by simp)
  have kb : SamB B b.number b := upTo_mem (as := [b]) (by intro c hc; rw [List.mem_singleton.1 hc]; exact hb.1) (by simp)
  rintro ⟨z, hz, s, e, hp⟩
  have h := (SamB.sub Binary64_exactInts ka kb (by omega)).num
  rw [e, hx, hy] at h
  have h1 : Raw.fin z = B64.rnd (x - y) := by
    rw [sub_eq_add_neg]
    exact h
  have hxy : |x - y| ≤ 2 ^ (511 : ℤ) := by
    have := abs_sub x y
    have e2 : (2 : ℝ) ^ (511 : ℤ) = 2 ^ (510 : ℤ) + 2 ^ (510 : ℤ) := by
      rw [show (511 : ℤ) = 510 + 1 by norm_num, zpow_add₀ two_ne_zero]; ring
    rw [e2]; linarith
  obtain ⟨h2, -⟩ := B64.rnd_eq_fin h1.symm
  have hf : B64.IsF ((2 : ℝ) ^ (511 : ℤ)) := B64.isF_zpow (by norm_num)
  have u : B64.round (x - y) ≤ 2 ^ (511 : ℤ) := by
    rw [← hf.round]; exact B64.round_mono (abs_le.1 hxy).2
  have l : -(2 : ℝ) ^ (511 : ℤ) ≤ B64.round (x - y) := by
    rw [← (B64.isF_neg hf).round]; exact B64.round_mono (abs_le.1 hxy).1
  rw [h2] at u l
  have hz2 : |z ^ 2| ≤ 2 ^ (1023 : ℤ) := by
    have hz1 : |z| ≤ 2 ^ (511 : ℤ) := abs_le.2 ⟨l, u⟩
    have e3 : (2 : ℝ) ^ (1022 : ℤ) = 2 ^ (511 : ℤ) * 2 ^ (511 : ℤ) := by
      rw [← zpow_add₀ two_ne_zero]; norm_num
    have e4 : (2 : ℝ) ^ (1022 : ℤ) ≤ 2 ^ (1023 : ℤ) := B64.two_zpow_le (by norm_num)
    rw [abs_pow, sq]
    refine le_trans ?_ e4
    rw [e3]
    exact mul_le_mul hz1 hz1 (abs_nonneg _) (by positivity)
  have h3 : B64.rnd (z ^ 2) = .inf s := hp
  rw [B64.rnd_of_le hz2] at h3
  cases h3

theorem allUpTo_of {B : ℕ} {as : List (PNum Binary64)} (h : ∀ a ∈ as, ModerateI B a) : AllUpTo B as := fun a ha => (h a ha).1

/-- Double precision, coordinates that are floats of size at most `2 ^ 510` or integers up to 16 777 216: the
distance of two points is returned, and is that of the compiled function on the same numbers. -/
theorem C144_distance_double (a b c d e f : PNum Binary64) (hm : ∀ x ∈ [a, b, c, d, e, f], ModerateI (2 ^ 24) x)
    :
    (∃ v, Python.utils.distance_cartesian a b c d e f = .ok v
      ∧ (Choclo.utils.distance_cartesian a.number b.number c.number d.number e.number f.number = .ok v.number ∨ Choclo.utils.distance_cartesian a.number b.number c.number d.number e.number f.number = .error .zeroDivision ∧ ¬v.number.IsFinite)) := by
  have hP : ¬SquareRaises [a - d, b - e, c - f] := by
    rintro ⟨d, hd, hp⟩
    simp only [List.mem_cons, List.not_mem_nil, or_false] at hd
    rcases hd with rfl | rfl | rfl
    all_goals exact moderateI_square (hm _ (by simp)) (hm _ (by simp)) (by norm_num) hp
  have g0 := C144_distance pyArith_binary64 Binary64_exactInts (C := 2 ^ 24) (by norm_num) (by norm_num) a b c d e f (allUpTo_of hm)
  exact ok_of g0 hP

/-- The same for the gravity of a point mass, whose mass may be an integer up to `2 ^ 53`. -/
theorem C144_point_double (a b c d e f m : PNum Binary64) (hm : ∀ x ∈ [a, b, c, d, e, f], ModerateI (2 ^ 24) x)
    (hf : AllUpTo (2 ^ 53) [m]) :
    (∃ v, Python.point.gravity_pot a b c d e f m = .ok v
      ∧ (Choclo.point.gravity_pot a.number b.number c.number d.number e.number f.number m.number = .ok v.number ∨ Choclo.point.gravity_pot a.number b.number c.number d.number e.number f.number m.number = .error .zeroDivision ∧ ¬v.number.IsFinite))
    ∧ (∃ v, Python.point.gravity_e a b c d e f m = .ok v
      ∧ (Choclo.point.gravity_e a.number b.number c.number d.number e.number f.number m.number = .ok v.number ∨ Choclo.point.gravity_e a.number b.number c.number d.number e.number f.number m.number = .error .zeroDivision ∧ ¬v.number.IsFinite))
    ∧ (∃ v, Python.point.gravity_n a b c d e f m = .ok v
      ∧ (Choclo.point.gravity_n a.number b.number c.number d.number e.number f.number m.number = .ok v.number ∨ Choclo.point.gravity_n a.number b.number c.number d.number e.number f.number m.number = .error .zeroDivision ∧ ¬v.number.IsFinite))
    ∧ (∃ v, Python.point.gravity_u a b c d e f m = .ok v
      ∧ (Choclo.point.gravity_u a.number b.number c.number d.number e.number f.number m.number = .ok v.number ∨ Choclo.point.gravity_u a.number b.number c.number d.number e.number f.number m.number = .error .zeroDivision ∧ ¬v.number.IsFinite))
    ∧ (∃ v, Python.point.gravity_ee a b c d e f m = .ok v
      ∧ (Choclo.point.gravity_ee a.number b.number c.number d.number e.number f.number m.number = .ok v.number ∨ Choclo.point.gravity_ee a.number b.number c.number d.number e.number f.number m.number = .error .zeroDivision ∧ ¬v.number.IsFinite))
    ∧ (∃ v, Python.point.gravity_nn a b c d e f m = .ok v
      ∧ (Choclo.point.gravity_nn a.number b.number c.number d.number e.number f.number m.number = .ok v.number ∨ Choclo.point.gravity_nn a.number b.number c.number d.number e.number f.number m.number = .error .zeroDivision ∧ ¬v.number.IsFinite))
    ∧ (∃ v, Python.point.gravity_uu a b c d e f m = .ok v
      ∧ (Choclo.point.gravity_uu a.number b.number c.number d.number e.number f.number m.number = .ok v.number ∨ Choclo.point.gravity_uu a.number b.number c.number d.number e.number f.number m.number = .error .zeroDivision ∧ ¬v.number.IsFinite))
    ∧ (∃ v, Python.point.gravity_en a b c d e f m = .ok v
      ∧ (Choclo.point.gravity_en a.number b.number c.number d.number e.number f.number m.number = .ok v.number ∨ Choclo.point.gravity_en a.number b.number c.number d.number e.number f.number m.number = .error .zeroDivision ∧ ¬v.number.IsFinite))
    ∧ (∃ v, Python.point.gravity_eu a b c d e f m = .ok v
      ∧ (Choclo.point.gravity_eu a.number b.number c.number d.number e.number f.number m.number = .ok v.number ∨ Choclo.point.gravity_eu a.number b.number c.number d.number e.number f.number m.number = .error .zeroDivision ∧ ¬v.number.IsFinite))
    ∧ (∃ v, Python.point.gravity_nu a b c d e f m = .ok v
      ∧ (Choclo.point.gravity_nu a.number b.number c.number d.number e.number f.number m.number = .ok v.number ∨ Choclo.point.gravity_nu a.number b.number c.number d.number e.number f.number m.number = .error .zeroDivision ∧ ¬v.number.IsFinite)) := by
  have hP : ¬SquareRaises [a - d, b - e, c - f] := by
    rintro ⟨d, hd, hp⟩
    simp only [List.mem_cons, List.not_mem_nil, or_false] at hd
    rcases hd with rfl | rfl | rfl
    all_goals exact moderateI_square (hm _ (by simp)) (hm _ (by simp)) (by norm_num) hp
  obtain ⟨g0, g1, g2, g3, g4, g5, g6, g7, g8, g9⟩ := C144_point_gravity pyArith_binary64 Binary64_exactInts (C := 2 ^ 24) (by norm_num) (by norm_num) a b c d e f m (allUpTo_of hm) hf
  exact ⟨ok_of g0 hP, ok_of g1 hP, ok_of g2 hP, ok_of g3 hP, ok_of g4 hP, ok_of g5 hP, ok_of g6 hP, ok_of g7 hP, ok_of g8 hP, ok_of g9 hP⟩

/-- The same for a dipole at integer coordinates up to 2048 and an integer moment up to `2 ^ 25`. -/
theorem C144_dipole_double (a b c d e f m n o : PNum Binary64) (hm : ∀ x ∈ [a, b, c, d, e, f], ModerateI (2 ^ 11) x)
    (hf : AllUpTo (2 ^ 25) [m, n, o]) :
    (∃ v, Python.dipole.magnetic_field a b c d e f m n o = .ok v
      ∧ (Choclo.dipole.magnetic_field a.number b.number c.number d.number e.number f.number m.number n.number o.number = .ok (v.1.number, v.2.1.number, v.2.2.number)
        ∨ Choclo.dipole.magnetic_field a.number b.number c.number d.number e.number f.number m.number n.number o.number = .error .zeroDivision
          ∧ (¬v.1.number.IsFinite ∨ ¬v.2.1.number.IsFinite ∨ ¬v.2.2.number.IsFinite)))
    ∧ (∃ v, Python.dipole.magnetic_e a b c d e f m n o = .ok v
      ∧ (Choclo.dipole.magnetic_e a.number b.number c.number d.number e.number f.number m.number n.number o.number = .ok v.number ∨ Choclo.dipole.magnetic_e a.number b.number c.number d.number e.number f.number m.number n.number o.number = .error .zeroDivision ∧ ¬v.number.IsFinite))
    ∧ (∃ v, Python.dipole.magnetic_n a b c d e f m n o = .ok v
      ∧ (Choclo.dipole.magnetic_n a.number b.number c.number d.number e.number f.number m.number n.number o.number = .ok v.number ∨ Choclo.dipole.magnetic_n a.number b.number c.number d.number e.number f.number m.number n.number o.number = .error .zeroDivision ∧ ¬v.number.IsFinite))
    ∧ (∃ v, Python.dipole.magnetic_u a b c d e f m n o = .ok v
      ∧ (Choclo.dipole.magnetic_u a.number b.number c.number d.number e.number f.number m.number n.number o.number = .ok v.number ∨ Choclo.dipole.magnetic_u a.number b.number c.number d.number e.number f.number m.number n.number o.number = .error .zeroDivision ∧ ¬v.number.IsFinite)) := by
  have hP : ¬SquareRaises [a - d, b - e, c - f] := by
    rintro ⟨d, hd, hp⟩
    simp only [List.mem_cons, List.not_mem_nil, or_false] at hd
    rcases hd with rfl | rfl | rfl
    all_goals exact moderateI_square (hm _ (by simp)) (hm _ (by simp)) (by norm_num) hp
  obtain ⟨g0, g1, g2, g3⟩ := C144_dipole pyArith_binary64 Binary64_exactInts (C := 2 ^ 11) (M := 2 ^ 25) (by norm_num) (by norm_num) (by norm_num) (by norm_num) (by norm_num) a b c d e f m n o (allUpTo_of hm) hf
  exact ⟨ok_of3 g0 hP, ok_of g1 hP, ok_of g2 hP, ok_of g3 hP⟩

/-- The same for the gravity of a prism at integer coordinates up to 16 777 216. -/
theorem C144_prism_gravity_double (e n u w E s N b t ρ : PNum Binary64) (hm : ∀ x ∈ [e, n, u, w, E, s, N, b, t], ModerateI (2 ^ 24) x)
    (hf : AllUpTo (2 ^ 53) [ρ]) :
    (∃ v, Python.prism.gravity_pot e n u w E s N b t ρ = .ok v
      ∧ (Choclo.prism.gravity_pot e.number n.number u.number w.number E.number s.number N.number b.number t.number ρ.number = .ok v.number ∨ Choclo.prism.gravity_pot e.number n.number u.number w.number E.number s.number N.number b.number t.number ρ.number = .error .zeroDivision ∧ ¬v.number.IsFinite))
    ∧ (∃ v, Python.prism.gravity_e e n u w E s N b t ρ = .ok v
      ∧ (Choclo.prism.gravity_e e.number n.number u.number w.number E.number s.number N.number b.number t.number ρ.number = .ok v.number ∨ Choclo.prism.gravity_e e.number n.number u.number w.number E.number s.number N.number b.number t.number ρ.number = .error .zeroDivision ∧ ¬v.number.IsFinite))
    ∧ (∃ v, Python.prism.gravity_n e n u w E s N b t ρ = .ok v
      ∧ (Choclo.prism.gravity_n e.number n.number u.number w.number E.number s.number N.number b.number t.number ρ.number = .ok v.number ∨ Choclo.prism.gravity_n e.number n.number u.number w.number E.number s.number N.number b.number t.number ρ.number = .error .zeroDivision ∧ ¬v.number.IsFinite))
    ∧ (∃ v, Python.prism.gravity_u e n u w E s N b t ρ = .ok v
      ∧ (Choclo.prism.gravity_u e.number n.number u.number w.number E.number s.number N.number b.number t.number ρ.number = .ok v.number ∨ Choclo.prism.gravity_u e.number n.number u.number w.number E.number s.number N.number b.number t.number ρ.number = .error .zeroDivision ∧ ¬v.number.IsFinite))
    ∧ (∃ v, Python.prism.gravity_ee e n u w E s N b t ρ = .ok v
      ∧ (Choclo.prism.gravity_ee e.number n.number u.number w.number E.number s.number N.number b.number t.number ρ.number = .ok v.number ∨ Choclo.prism.gravity_ee e.number n.number u.number w.number E.number s.number N.number b.number t.number ρ.number = .error .zeroDivision ∧ ¬v.number.IsFinite))
    ∧ (∃ v, Python.prism.gravity_nn e n u w E s N b t ρ = .ok v
      ∧ (Choclo.prism.gravity_nn e.number n.number u.number w.number E.number s.number N.number b.number t.number ρ.number = .ok v.number ∨ Choclo.prism.gravity_nn e.number n.number u.number w.number E.number s.number N.number b.number t.number ρ.number = .error .zeroDivision ∧ ¬v.number.IsFinite))
    ∧ (∃ v, Python.prism.gravity_uu e n u w E s N b t ρ = .ok v
      ∧ (Choclo.prism.gravity_uu e.number n.number u.number w.number E.number s.number N.number b.number t.number ρ.number = .ok v.number ∨ Choclo.prism.gravity_uu e.number n.number u.number w.number E.number s.number N.number b.number t.number ρ.number = .error .zeroDivision ∧ ¬v.number.IsFinite))
    ∧ (∃ v, Python.prism.gravity_en e n u w E s N b t ρ = .ok v
      ∧ (Choclo.prism.gravity_en e.number n.number u.number w.number E.number s.number N.number b.number t.number ρ.number = .ok v.number ∨ Choclo.prism.gravity_en e.number n.number u.number w.number E.number s.number N.number b.number t.number ρ.number = .error .zeroDivision ∧ ¬v.number.IsFinite))
    ∧ (∃ v, Python.prism.gravity_eu e n u w E s N b t ρ = .ok v
      ∧ (Choclo.prism.gravity_eu e.number n.number u.number w.number E.number s.number N.number b.number t.number ρ.number = .ok v.number ∨ Choclo.prism.gravity_eu e.number n.number u.number w.number E.number s.number N.number b.number t.number ρ.number = .error .zeroDivision ∧ ¬v.number.IsFinite))
    ∧ (∃ v, Python.prism.gravity_nu e n u w E s N b t ρ = .ok v
      ∧ (Choclo.prism.gravity_nu e.number n.number u.number w.number E.number s.number N.number b.number t.number ρ.number = .ok v.number ∨ Choclo.prism.gravity_nu e.number n.number u.number w.number E.number s.number N.number b.number t.number ρ.number = .error .zeroDivision ∧ ¬v.number.IsFinite)) := by
  have hP : ¬SquareRaises [E - e, w - e, N - n, s - n, t - u, b - u] := by
    rintro ⟨d, hd, hp⟩
    simp only [List.mem_cons, List.not_mem_nil, or_false] at hd
    rcases hd with rfl | rfl | rfl | rfl | rfl | rfl
    all_goals exact moderateI_square (hm _ (by simp)) (hm _ (by simp)) (by norm_num) hp
  obtain ⟨g0, g1, g2, g3, g4, g5, g6, g7, g8, g9⟩ := C144_prism_gravity pyArith_binary64 Binary64_exactInts (C := 2 ^ 24) (by norm_num) e n u w E s N b t ρ (allUpTo_of hm) hf
  exact ⟨ok_of g0 hP, ok_of g1 hP, ok_of g2 hP, ok_of g3 hP, ok_of g4 hP, ok_of g5 hP, ok_of g6 hP, ok_of g7 hP, ok_of g8 hP, ok_of g9 hP⟩

/-- The same for the magnetic field (integer coordinates up to 16 777 216) of a prism. -/
theorem C144_prism_magnetic_double (e n u w E s N b t mx my mz : PNum Binary64) (hm : ∀ x ∈ [e, n, u, w, E, s, N, b, t], ModerateI (2 ^ 24) x)
    (hf : AllUpTo (2 ^ 53) [mx, my, mz]) :
    (∃ v, Python.prism.magnetic_field e n u w E s N b t mx my mz = .ok v
      ∧ (Choclo.prism.magnetic_field e.number n.number u.number w.number E.number s.number N.number b.number t.number mx.number my.number mz.number = .ok (v.1.number, v.2.1.number, v.2.2.number)
        ∨ Choclo.prism.magnetic_field e.number n.number u.number w.number E.number s.number N.number b.number t.number mx.number my.number mz.number = .error .zeroDivision
          ∧ (¬v.1.number.IsFinite ∨ ¬v.2.1.number.IsFinite ∨ ¬v.2.2.number.IsFinite)))
    ∧ (∃ v, Python.prism.magnetic_e e n u w E s N b t mx my mz = .ok v
      ∧ (Choclo.prism.magnetic_e e.number n.number u.number w.number E.number s.number N.number b.number t.number mx.number my.number mz.number = .ok v.number ∨ Choclo.prism.magnetic_e e.number n.number u.number w.number E.number s.number N.number b.number t.number mx.number my.number mz.number = .error .zeroDivision ∧ ¬v.number.IsFinite))
    ∧ (∃ v, Python.prism.magnetic_n e n u w E s N b t mx my mz = .ok v
      ∧ (Choclo.prism.magnetic_n e.number n.number u.number w.number E.number s.number N.number b.number t.number mx.number my.number mz.number = .ok v.number ∨ Choclo.prism.magnetic_n e.number n.number u.number w.number E.number s.number N.number b.number t.number mx.number my.number mz.number = .error .zeroDivision ∧ ¬v.number.IsFinite))
    ∧ (∃ v, Python.prism.magnetic_u e n u w E s N b t mx my mz = .ok v
      ∧ (Choclo.prism.magnetic_u e.number n.number u.number w.number E.number s.number N.number b.number t.number mx.number my.number mz.number = .ok v.number ∨ Choclo.prism.magnetic_u e.number n.number u.number w.number E.number s.number N.number b.number t.number mx.number my.number mz.number = .error .zeroDivision ∧ ¬v.number.IsFinite)) := by
  have hP : ¬SquareRaises [E - e, w - e, N - n, s - n, t - u, b - u] := by
    rintro ⟨d, hd, hp⟩
    simp only [List.mem_cons, List.not_mem_nil, or_false] at hd
    rcases hd with rfl | rfl | rfl | rfl | rfl | rfl
    all_goals exact moderateI_square (hm _ (by simp)) (hm _ (by simp)) (by norm_num) hp
  obtain ⟨g0, g1, g2, g3⟩ := C144_prism_magnetic pyArith_binary64 Binary64_exactInts (C := 2 ^ 24) (by norm_num) e n u w E s N b t mx my mz (allUpTo_of hm) hf
  exact ⟨ok_of3 g0 hP, ok_of g1 hP, ok_of g2 hP, ok_of g3 hP⟩

/-- The same for the gradient of the magnetic field of a prism at integer coordinates up to 2048. -/
theorem C144_prism_gradient_double (e n u w E s N b t mx my mz : PNum Binary64) (hm : ∀ x ∈ [e, n, u, w, E, s, N, b, t], ModerateI (2 ^ 11) x)
    (hf : AllUpTo (2 ^ 53) [mx, my, mz]) :
    (∃ v, Python.prism.magnetic_ee e n u w E s N b t mx my mz = .ok v
      ∧ (Choclo.prism.magnetic_ee e.number n.number u.number w.number E.number s.number N.number b.number t.number mx.number my.number mz.number = .ok v.number ∨ Choclo.prism.magnetic_ee e.number n.number u.number w.number E.number s.number N.number b.number t.number mx.number my.number mz.number = .error .zeroDivision ∧ ¬v.number.IsFinite))
    ∧ (∃ v, Python.prism.magnetic_nn e n u w E s N b t mx my mz = .ok v
      ∧ (Choclo.prism.magnetic_nn e.number n.number u.number w.number E.number s.number N.number b.number t.number mx.number my.number mz.number = .ok v.number ∨ Choclo.prism.magnetic_nn e.number n.number u.number w.number E.number s.number N.number b.number t.number mx.number my.number mz.number = .error .zeroDivision ∧ ¬v.number.IsFinite))
    ∧ (∃ v, Python.prism.magnetic_uu e n u w E s N b t mx my mz = .ok v
      ∧ (Choclo.prism.magnetic_uu e.number n.number u.number w.number E.number s.number N.number b.number t.number mx.number my.number mz.number = .ok v.number ∨ Choclo.prism.magnetic_uu e.number n.number u.number w.number E.number s.number N.number b.number t.number mx.number my.number mz.number = .error .zeroDivision ∧ ¬v.number.IsFinite))
    ∧ (∃ v, Python.prism.magnetic_en e n u w E s N b t mx my mz = .ok v
      ∧ (Choclo.prism.magnetic_en e.number n.number u.number w.number E.number s.number N.number b.number t.number mx.number my.number mz.number = .ok v.number ∨ Choclo.prism.magnetic_en e.number n.number u.number w.number E.number s.number N.number b.number t.number mx.number my.number mz.number = .error .zeroDivision ∧ ¬v.number.IsFinite))
    ∧ (∃ v, Python.prism.magnetic_eu e n u w E s N b t mx my mz = .ok v
      ∧ (Choclo.prism.magnetic_eu e.number n.number u.number w.number E.number s.number N.number b.number t.number mx.number my.number mz.number = .ok v.number ∨ Choclo.prism.magnetic_eu e.number n.number u.number w.number E.number s.number N.number b.number t.number mx.number my.number mz.number = .error .zeroDivision ∧ ¬v.number.IsFinite))
    ∧ (∃ v, Python.prism.magnetic_nu e n u w E s N b t mx my mz = .ok v
      ∧ (Choclo.prism.magnetic_nu e.number n.number u.number w.number E.number s.number N.number b.number t.number mx.number my.number mz.number = .ok v.number ∨ Choclo.prism.magnetic_nu e.number n.number u.number w.number E.number s.number N.number b.number t.number mx.number my.number mz.number = .error .zeroDivision ∧ ¬v.number.IsFinite)) := by
  have hP : ¬SquareRaises [E - e, w - e, N - n, s - n, t - u, b - u] := by
    rintro ⟨d, hd, hp⟩
    simp only [List.mem_cons, List.not_mem_nil, or_false] at hd
    rcases hd with rfl | rfl | rfl | rfl | rfl | rfl
    all_goals exact moderateI_square (hm _ (by simp)) (hm _ (by simp)) (by norm_num) hp
  obtain ⟨g0, g1, g2, g3, g4, g5⟩ := C144_prism_gradient pyArith_binary64 Binary64_exactInts (C := 2 ^ 11) (by norm_num) e n u w E s N b t mx my mz (allUpTo_of hm) hf
  exact ⟨ok_of g0 hP, ok_of g1 hP, ok_of g2 hP, ok_of g3 hP, ok_of g4 hP, ok_of g5 hP⟩

/-- Integers of the interpreter do not wrap around: `point.kernel_eee` for a displacement of 2^21 m along easting, given
as an integer, is `-6 / 2 ^ 84` when interpreted and `10 / 2 ^ 84` when compiled. -/
theorem C144_no_wrap :
    (∃ v, Python.point.kernel_eee (A := Exact) (.int 2097152) (.int 0) (.int 0) (.int 0) (.int 0) (.int 0)
        (.float (SFl.fin 2097152)) = .ok v ∧ v.number = Fl.fin (-6 / 2 ^ 84))
    ∧ Typed.point.kernel_eee (A := Exact) (.int 2097152) (.int 0) (.int 0) (.int 0) (.int 0) (.int 0) (.flt 2097152)
      = .ok (.flt (Fl.fin (10 / 2 ^ 84))) := by
  refine ⟨?_, C89_overflow_point.2⟩
  have h := (C144_point_kernels3 (L := 120 * 2097152 ^ 3) (C := 2097152) pyArith_exact (Exact_exactInts _) (by norm_num)
    (by norm_num) le_rfl (.int 2097152) (.int 0) (.int 0) (.int 0) (.int 0) (.int 0) (.float (SFl.fin 2097152))
    (by simp [AllUpTo, PNum.UpTo]) trivial).1
  have e0 : (PNum.int 0 : PNum Exact).number = 0 := Sam.val_int 0
  have e1 : (PNum.int 2097152 : PNum Exact).number = 2097152 := Sam.val_int 2097152
  have e2 : (PNum.float (SFl.fin 2097152) : PNum Exact).number = 2097152 := SFl.erase_fin _
  rw [e0, e1, e2, C89_overflow_point.1] at h
  generalize Python.point.kernel_eee (A := Exact) _ _ _ _ _ _ _ = y at h
  rcases y with e | v
  · cases e with
    | zeroDivision => cases h.1
    | overflow =>
      have no : ∀ (w : PNum Exact) (k : ℕ), ¬PowRaises w k := by
        rintro w k ⟨x, hx, s, -, hp⟩
        cases hp
      rcases h with ⟨d, -, h⟩ | h | h | h | ⟨k, -, h⟩ <;> exact absurd h (no _ _)
  · exact ⟨v, rfl, h⟩

/-- Non-vacuity of `C144_prism_gravity_double`: integers for the observation point and the prism, a built-in float for its
top and an integer density. -/
example : ∃ v, Python.prism.gravity_u (.int 0) (.int 10) (.int 5) (.int (-100)) (.int 200) (.int 0) (.int 1500) (.int (-1000))
    (builtin (-1)) (.int 2670) = .ok v := by
  refine ((C144_prism_gravity_double (.int 0) (.int 10) (.int 5) (.int (-100)) (.int 200) (.int 0) (.int 1500) (.int (-1000))
    (builtin (-1)) (.int 2670) ?_ ?_).2.2.2.1).imp fun v hv => hv.1
  · intro x hx
    simp only [List.mem_cons, List.not_mem_nil, or_false] at hx
    rcases hx with rfl | rfl | rfl | rfl | rfl | rfl | rfl | rfl | rfl
    all_goals first
      | exact ⟨by norm_num [PNum.UpTo], fun h => h.elim⟩
      | exact ⟨trivial, fun _ => ⟨-1, SFl.erase_fin _, by
          rw [abs_neg, abs_one]; exact one_le_zpow₀ (by norm_num) (by norm_num)⟩⟩
  · simp [AllUpTo, PNum.UpTo]

/-- Non-vacuity of `C144_dipole_double` and `C144_prism_gradient_double`. -/
example : (∃ v, Python.dipole.magnetic_e (A := Binary64) (.int 0) (.int 10) (.int 5) (.int (-100)) (.int 200) (.int (-30)) (.int 1) (.int 2)
      (.int 3) = .ok v)
    ∧ ∃ v, Python.prism.magnetic_uu (A := Binary64) (.int 0) (.int 10) (.int 5) (.int (-100)) (.int 200) (.int 0) (.int 1500) (.int (-1000))
      (.int (-1)) (.int 1) (.int 2) (.int 3) = .ok v := by
  have hm : ∀ {n : ℤ}, |n| ≤ 2048 → ModerateI (2 ^ 11) (.int n) := fun {n} h => ⟨h, fun h => h.elim⟩
  constructor
  · refine ((C144_dipole_double (.int 0) (.int 10) (.int 5) (.int (-100)) (.int 200) (.int (-30)) (.int 1) (.int 2)
      (.int 3) ?_ ?_).2.1).imp fun v hv => hv.1
    · intro x hx
      simp only [List.mem_cons, List.not_mem_nil, or_false] at hx
      rcases hx with rfl | rfl | rfl | rfl | rfl | rfl
      all_goals exact hm (by norm_num)
    · simp [AllUpTo, PNum.UpTo]
  · refine ((C144_prism_gradient_double (.int 0) (.int 10) (.int 5) (.int (-100)) (.int 200) (.int 0) (.int 1500) (.int (-1000))
      (.int (-1)) (.int 1) (.int 2) (.int 3) ?_ ?_).2.2.1).imp fun v hv => hv.1
    · intro x hx
      simp only [List.mem_cons, List.not_mem_nil, or_false] at hx
      rcases hx with rfl | rfl | rfl | rfl | rfl | rfl | rfl | rfl | rfl
      all_goals exact hm (by norm_num)
    · simp [AllUpTo, PNum.UpTo]

end Choclo
