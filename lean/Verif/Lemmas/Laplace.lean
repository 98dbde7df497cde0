import Verif.Lemmas.Vc2

/-! # The trace of the gravity tensor -/

namespace Choclo

open Real Classical

theorem arctan_sum_pos {x y z : ℝ} (hx : 0 < x) (hy : 0 < y) (hz : 0 < z) :
    arctan (y * z / (x * rad x y z)) + arctan (x * z / (y * rad x y z))
      + arctan (x * y / (z * rad x y z)) = π / 2 := by
  have hr : 0 < rad x y z := rad_pos (by rintro ⟨h, _⟩; exact hx.ne' h)
  have hr2 := rad_sq x y z
  have h1 : y * z / (x * rad x y z) * (x * z / (y * rad x y z)) = z ^ 2 / rad x y z ^ 2 := by
    field_simp
  have h2 : z ^ 2 / rad x y z ^ 2 < 1 := by
    rw [div_lt_one (by positivity), hr2]; nlinarith [sq_pos_of_pos hx, sq_pos_of_pos hy]
  rw [arctan_add (by rw [h1]; exact h2), h1]
  have h3 : (y * z / (x * rad x y z) + x * z / (y * rad x y z)) / (1 - z ^ 2 / rad x y z ^ 2) =
      (x * y / (z * rad x y z))⁻¹ := by
    have h4 : 1 - z ^ 2 / rad x y z ^ 2 = (x ^ 2 + y ^ 2) / rad x y z ^ 2 := by
      rw [eq_div_iff (by positivity), sub_mul, div_mul_cancel₀ _ (by positivity), hr2]; ring
    rw [h4]
    have : x ^ 2 + y ^ 2 ≠ 0 := by positivity
    field_simp
    ring
  rw [h3, arctan_inv_of_pos (by positivity)]
  ring

/-- indicator of zero -/
noncomputable def zeta (x : ℝ) : ℝ := if x = 0 then 1 else 0

theorem Tk_zero2 (x z : ℝ) : Tk x 0 z = 0 := by
  unfold Tk; simp

theorem Tk_zero3 (x y : ℝ) : Tk x y 0 = 0 := by
  unfold Tk; simp

theorem Tk_zero1 (y z : ℝ) : Tk 0 y z = π / 2 * (Real.sign y * Real.sign z) := by
  rw [Tk_eq]; unfold Sk sg; simp

theorem Tk_trace_ne {x y z : ℝ} (hx : x ≠ 0) (hy : y ≠ 0) (hz : z ≠ 0) :
    Tk x y z + Tk y x z + Tk z x y = π / 2 * (Real.sign x * (Real.sign y * Real.sign z)) := by
  have pos : ∀ {x y z : ℝ}, 0 < x → 0 < y → 0 < z →
      Tk x y z + Tk y x z + Tk z x y = π / 2 * (Real.sign x * (Real.sign y * Real.sign z)) := by
    intro x y z hx hy hz
    rw [Real.sign_of_pos hx, Real.sign_of_pos hy, Real.sign_of_pos hz]
    unfold Tk
    rw [if_neg hx.ne', if_neg hy.ne', if_neg hz.ne', rad_perm1 x y z, rad_perm4 x y z, arctan_sum_pos hx hy hz]
    ring
  have p3 : ∀ {x y z : ℝ}, 0 < x → 0 < y → z ≠ 0 →
      Tk x y z + Tk y x z + Tk z x y = π / 2 * (Real.sign x * (Real.sign y * Real.sign z)) := by
    intro x y z hx hy hz
    rcases lt_or_gt_of_ne hz with h | h
    · have := pos hx hy (neg_pos.mpr h)
      rw [Tk_neg3, Tk_neg3, Tk_neg1 hz, Real.sign_neg] at this
      linear_combination -this
    · exact pos hx hy h
  have p2 : ∀ {x y z : ℝ}, 0 < x → y ≠ 0 → z ≠ 0 →
      Tk x y z + Tk y x z + Tk z x y = π / 2 * (Real.sign x * (Real.sign y * Real.sign z)) := by
    intro x y z hx hy hz
    rcases lt_or_gt_of_ne hy with h | h
    · have := p3 hx (neg_pos.mpr h) hz
      rw [Tk_neg2, Tk_neg3, Tk_neg1 hy, Real.sign_neg] at this
      linear_combination -this
    · exact p3 hx h hz
  rcases lt_or_gt_of_ne hx with h | h
  · have := p2 (neg_pos.mpr h) hy hz
    rw [Tk_neg2, Tk_neg2, Tk_neg1 hx, Real.sign_neg] at this
    linear_combination -this
  · exact p2 h hy hz

theorem Tk_trace (x y z : ℝ) : Tk x y z + Tk y x z + Tk z x y =
    π / 2 * (Real.sign x * (Real.sign y * Real.sign z) + zeta x * (Real.sign y * Real.sign z)
      + Real.sign x * (zeta y * Real.sign z) + Real.sign x * (Real.sign y * zeta z)) := by
  by_cases hx : x = 0
  · subst hx
    rw [Tk_zero2, Tk_zero2, Tk_zero1, Real.sign_zero]
    simp [zeta]
  by_cases hy : y = 0
  · subst hy
    rw [Tk_zero2, Tk_zero3, Tk_zero1, Real.sign_zero]
    simp [zeta, hx]
  by_cases hz : z = 0
  · subst hz
    rw [Tk_zero3, Tk_zero3, Tk_zero1, Real.sign_zero]
    simp [zeta, hx, hy]
  rw [Tk_trace_ne hx hy hz]
  simp [zeta, hx, hy, hz]

variable {p : Pt} {P : Box}

/-- the trace as products of one-dimensional terms -/
theorem V_trace (p : Pt) (P : Box) : Vc .ee p P + Vc .nn p P + Vc .uu p P =
    -(π / 2) * (se p P * (sn p P * su p P)
      + (zeta (P.east - p.e) - zeta (P.west - p.e)) * (sn p P * su p P)
      + se p P * ((zeta (P.north - p.n) - zeta (P.south - p.n)) * su p P)
      + se p P * (sn p P * (zeta (P.top - p.u) - zeta (P.bottom - p.u))))
    + (corr .ee p P + corr .nn p P + corr .uu p P) := by
  have h : Dv (Kc .ee) p P + Dv (Kc .nn) p P + Dv (Kc .uu) p P =
      Dv (fun x y z => -(π / 2) * (Real.sign x * (Real.sign y * Real.sign z))
        + -(π / 2) * (zeta x * (Real.sign y * Real.sign z))
        + -(π / 2) * (Real.sign x * (zeta y * Real.sign z))
        + -(π / 2) * (Real.sign x * (Real.sign y * zeta z))) p P := by
    rw [← Dv_add, ← Dv_add]
    congr 1
    funext x y z
    have := Tk_trace x y z
    simp only [Kc]
    linear_combination -this
  rw [Dv_add, Dv_add, Dv_add, Dv_smul, Dv_smul, Dv_smul, Dv_smul, Dv_prod, Dv_prod, Dv_prod, Dv_prod] at h
  unfold Vc se sn su
  linear_combination h

theorem zeta_zero : zeta 0 = 1 := by simp [zeta]
theorem zeta_ne {x : ℝ} (h : x ≠ 0) : zeta x = 0 := by simp [zeta, h]

/-- values of the one-dimensional factors -/
theorem axis_cases {a b t : ℝ} (hab : a < b) :
    (t ∉ Set.Icc a b ∧ Real.sign (b - t) - Real.sign (a - t) = 0 ∧ zeta (b - t) - zeta (a - t) = 0) ∨
    (t ∈ Set.Ioo a b ∧ Real.sign (b - t) - Real.sign (a - t) = 2 ∧ zeta (b - t) - zeta (a - t) = 0) ∨
    (t = a ∧ Real.sign (b - t) - Real.sign (a - t) = 1 ∧ zeta (b - t) - zeta (a - t) = -1) ∨
    (t = b ∧ Real.sign (b - t) - Real.sign (a - t) = 1 ∧ zeta (b - t) - zeta (a - t) = 1) := by
  rcases lt_trichotomy t a with h | h | h
  · left
    refine ⟨fun h' => absurd h'.1 (not_le.mpr h), sign_sub_out (Or.inl ⟨by linarith, by linarith⟩), ?_⟩
    rw [zeta_ne (by linarith), zeta_ne (by linarith), sub_zero]
  · right; right; left
    subst h
    refine ⟨rfl, ?_, ?_⟩
    · rw [sub_self, Real.sign_zero, Real.sign_of_pos (by linarith)]; ring
    · rw [sub_self, zeta_zero, zeta_ne (by linarith)]; ring
  · rcases lt_trichotomy t b with h' | h' | h'
    · right; left
      refine ⟨⟨h, h'⟩, sign_sub_in (by linarith) (by linarith), ?_⟩
      rw [zeta_ne (by linarith), zeta_ne (by linarith), sub_zero]
    · right; right; right
      subst h'
      refine ⟨rfl, ?_, ?_⟩
      · rw [sub_self, Real.sign_zero, Real.sign_of_neg (by linarith)]; ring
      · rw [sub_self, zeta_zero, zeta_ne (by linarith)]; ring
    · left
      refine ⟨fun h'' => absurd h''.2 (not_le.mpr h'), sign_sub_out (Or.inr ⟨by linarith, by linarith⟩), ?_⟩
      rw [zeta_ne (by linarith), zeta_ne (by linarith), sub_zero]

theorem Box.Proper.ordered (h : P.Proper) : P.Ordered := ⟨h.1.le, h.2.1.le, h.2.2.le⟩

/-- Laplace's and Poisson's equations -/
theorem V_laplace (hP : P.Proper) (h : p ∉ P.edges) :
    Vc .ee p P + Vc .nn p P + Vc .uu p P = if p ∈ P.inside then -(4 * π) else 0 := by
  rw [V_trace]
  simp only [corr]
  have he : p ∉ P.edgesE ∧ p ∉ P.edgesN ∧ p ∉ P.edgesU := by
    simp only [Box.edges, Set.mem_union, not_or] at h; tauto
  obtain ⟨hE, hN, hU⟩ := he
  have facts : ∀ {t a b : ℝ}, a < b →
      (t ∉ Set.Icc a b → t ∉ Set.Ioo a b ∧ t ≠ a ∧ t ≠ b) ∧
      (t ∈ Set.Ioo a b → t ∈ Set.Icc a b ∧ t ≠ a ∧ t ≠ b) ∧
      (t = a → t ∈ Set.Icc a b ∧ t ∉ Set.Ioo a b ∧ t ≠ b) ∧
      (t = b → t ∈ Set.Icc a b ∧ t ∉ Set.Ioo a b ∧ t ≠ a) := by
    intro t a b h
    simp only [Set.mem_Icc, Set.mem_Ioo]
    refine ⟨?_, ?_, ?_, ?_⟩ <;> grind
  have mE : p ∈ P.edgesE ↔ p.e ∈ Set.Icc P.west P.east ∧ (p.n = P.south ∨ p.n = P.north) ∧
    (p.u = P.bottom ∨ p.u = P.top) := Iff.rfl
  have mN : p ∈ P.edgesN ↔ (p.e = P.west ∨ p.e = P.east) ∧ p.n ∈ Set.Icc P.south P.north ∧
    (p.u = P.bottom ∨ p.u = P.top) := Iff.rfl
  have mU : p ∈ P.edgesU ↔ (p.e = P.west ∨ p.e = P.east) ∧ (p.n = P.south ∨ p.n = P.north) ∧
    p.u ∈ Set.Icc P.bottom P.top := Iff.rfl
  have fE : p ∈ P.faceEast ↔ p.e = P.east ∧ p.n ∈ Set.Ioo P.south P.north ∧ p.u ∈ Set.Ioo P.bottom P.top :=
    Iff.rfl
  have fN : p ∈ P.faceNorth ↔ p.e ∈ Set.Ioo P.west P.east ∧ p.n = P.north ∧ p.u ∈ Set.Ioo P.bottom P.top :=
    Iff.rfl
  have fT : p ∈ P.faceTop ↔ p.e ∈ Set.Ioo P.west P.east ∧ p.n ∈ Set.Ioo P.south P.north ∧ p.u = P.top :=
    Iff.rfl
  have fI : p ∈ P.inside ↔ p.e ∈ Set.Ioo P.west P.east ∧ p.n ∈ Set.Ioo P.south P.north ∧
    p.u ∈ Set.Ioo P.bottom P.top := Iff.rfl
  rw [mE] at hE
  rw [mN] at hN
  rw [mU] at hU
  simp only [fE, fN, fT, fI]
  unfold se sn su
  obtain ⟨hx, hy, hz⟩ := hP
  have q1 := facts (t := p.e) hx
  have q2 := facts (t := p.n) hy
  have q3 := facts (t := p.u) hz
  have r1 := axis_cases (t := p.e) hx
  have r2 := axis_cases (t := p.n) hy
  have r3 := axis_cases (t := p.u) hz
  clear fE fN fT fI mE mN mU facts hx hy hz h
  generalize (P.east - p.e).sign - (P.west - p.e).sign = A at *
  generalize (P.north - p.n).sign - (P.south - p.n).sign = B at *
  generalize (P.top - p.u).sign - (P.bottom - p.u).sign = C at *
  generalize zeta (P.east - p.e) - zeta (P.west - p.e) = A' at *
  generalize zeta (P.north - p.n) - zeta (P.south - p.n) = B' at *
  generalize zeta (P.top - p.u) - zeta (P.bottom - p.u) = C' at *
  have r1 := r1.imp (fun h => And.intro h (q1.1 h.1)) (Or.imp (fun h => And.intro h (q1.2.1 h.1))
    (Or.imp (fun h => And.intro h (q1.2.2.1 h.1)) (fun h => And.intro h (q1.2.2.2 h.1))))
  have r2 := r2.imp (fun h => And.intro h (q2.1 h.1)) (Or.imp (fun h => And.intro h (q2.2.1 h.1))
    (Or.imp (fun h => And.intro h (q2.2.2.1 h.1)) (fun h => And.intro h (q2.2.2.2 h.1))))
  have r3 := r3.imp (fun h => And.intro h (q3.1 h.1)) (Or.imp (fun h => And.intro h (q3.2.1 h.1))
    (Or.imp (fun h => And.intro h (q3.2.2.1 h.1)) (fun h => And.intro h (q3.2.2.2 h.1))))
  clear q1 q2 q3
  rcases r1 with ⟨⟨a1, rfl, rfl⟩, a2, a3, a4⟩ | ⟨⟨a1, rfl, rfl⟩, a2, a3, a4⟩ |
    ⟨⟨a1, rfl, rfl⟩, a2, a3, a4⟩ | ⟨⟨a1, rfl, rfl⟩, a2, a3, a4⟩ <;>
  rcases r2 with ⟨⟨b1, rfl, rfl⟩, b2, b3, b4⟩ | ⟨⟨b1, rfl, rfl⟩, b2, b3, b4⟩ |
    ⟨⟨b1, rfl, rfl⟩, b2, b3, b4⟩ | ⟨⟨b1, rfl, rfl⟩, b2, b3, b4⟩ <;>
  rcases r3 with ⟨⟨c1, rfl, rfl⟩, c2, c3, c4⟩ | ⟨⟨c1, rfl, rfl⟩, c2, c3, c4⟩ |
    ⟨⟨c1, rfl, rfl⟩, c2, c3, c4⟩ | ⟨⟨c1, rfl, rfl⟩, c2, c3, c4⟩ <;>
  first
  | (exfalso
     simp only [eq_true a1, a2, a3, a4, eq_true b1, b2, b3, b4, eq_true c1, c2, c3, c4, true_and, and_true, or_false, false_or,
      not_true_eq_false, or_true, true_or, false_and, and_false, not_false_eq_true, or_self, and_self] at hE hN hU
     done)
  | (simp only [eq_true a1, a2, a3, a4, eq_true b1, b2, b3, b4, eq_true c1, c2, c3, c4, true_and, false_and, and_false, and_true,
      if_false, if_true, and_self]
     ring)

end Choclo
