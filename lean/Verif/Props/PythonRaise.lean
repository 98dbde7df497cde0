import Verif.Props.Python

/-! # When an interpreted call raises (C138) -/

namespace Choclo
variable {A : Arith}
open PNum

theorem pyx_bind {α β : Type} {x : PyX α} {f : α → PyX β} {v : β} (h : (x >>= f) = .ok v) : ∃ a, x = .ok a ∧ f a = .ok v := by
  cases x with
  | error e => cases h
  | ok a => exact ⟨a, rfl, h⟩

theorem pyx_loop {β : Type} {f : ℕ → β → PyX (ForInStep β)} (hy : ∀ i a r, f i a = .ok r → ∃ b, r = .yield b) {a v : β}
    (h : (forIn [0, 1] a f : PyX β) = .ok v) : ∀ i, i = 0 ∨ i = 1 → ∃ b r, f i b = .ok r := by
  rw [List.forIn_cons] at h
  obtain ⟨r, h0, h⟩ := pyx_bind h
  obtain ⟨b, rfl⟩ := hy _ _ _ h0
  have h : (forIn [1] b f : PyX β) = .ok v := h
  rw [List.forIn_cons] at h
  obtain ⟨s, h1, h⟩ := pyx_bind h
  rintro i (rfl | rfl)
  exacts [⟨_, _, h0⟩, ⟨_, _, h1⟩]

namespace Python.prism
open Choclo.Python.prism
theorem eval_ok {e n u w E s N b t v : PNum A} {K : Kernel A} (h : _evaluate_kernel e n u w E s N b t K = .ok v) :
    ∀ d ∈ [E - e, w - e, N - n, s - n, t - u, b - u], ∃ q, (d ^! 2) = .ok q := by
  unfold _evaluate_kernel at h
  obtain ⟨r, h, -⟩ := pyx_bind h
  have h0 := pyx_loop (by
    intro i a r h
    obtain ⟨_, _, h⟩ := pyx_bind h
    obtain ⟨_, _, h⟩ := pyx_bind h
    cases h
    exact ⟨_, rfl⟩) h
  obtain ⟨_, _, g0⟩ := h0 0 (.inl rfl)
  obtain ⟨_, _, g1⟩ := h0 1 (.inr rfl)
  obtain ⟨q0, e0, g0⟩ := pyx_bind g0
  obtain ⟨q1, e1, g1⟩ := pyx_bind g1
  obtain ⟨r, h, -⟩ := pyx_bind g0
  have h0 := pyx_loop (by
    intro i a r h
    obtain ⟨_, _, h⟩ := pyx_bind h
    obtain ⟨_, _, h⟩ := pyx_bind h
    cases h
    exact ⟨_, rfl⟩) h
  obtain ⟨_, _, g0⟩ := h0 0 (.inl rfl)
  obtain ⟨_, _, g1⟩ := h0 1 (.inr rfl)
  obtain ⟨q2, e2, g0⟩ := pyx_bind g0
  obtain ⟨q3, e3, g1⟩ := pyx_bind g1
  obtain ⟨r, h, -⟩ := pyx_bind g0
  have h0 := pyx_loop (by
    intro i a r h
    obtain ⟨_, _, h⟩ := pyx_bind h
    obtain ⟨_, _, h⟩ := pyx_bind h
    cases h
    exact ⟨_, rfl⟩) h
  obtain ⟨_, _, g0⟩ := h0 0 (.inl rfl)
  obtain ⟨_, _, g1⟩ := h0 1 (.inr rfl)
  obtain ⟨q4, e4, g0⟩ := pyx_bind g0
  obtain ⟨q5, e5, g1⟩ := pyx_bind g1
  intro d hd
  simp only [List.mem_cons, List.not_mem_nil, or_false] at hd
  rcases hd with rfl | rfl | rfl | rfl | rfl | rfl
  exacts [⟨_, e0⟩, ⟨_, e1⟩, ⟨_, e2⟩, ⟨_, e3⟩, ⟨_, e4⟩, ⟨_, e5⟩]

theorem calc_ok {e n u w E s N b t mx my mz v : PNum A} {K1 K2 K3 : Kernel A} (h : _calculate_component e n u w E s N b t mx my mz K1 K2 K3 = .ok v) :
    ∀ d ∈ [E - e, w - e, N - n, s - n, t - u, b - u], ∃ q, (d ^! 2) = .ok q := by
  unfold _calculate_component at h
  obtain ⟨r, h, -⟩ := pyx_bind h
  have h0 := pyx_loop (by
    intro i a r h
    obtain ⟨_, _, h⟩ := pyx_bind h
    obtain ⟨_, _, h⟩ := pyx_bind h
    cases h
    exact ⟨_, rfl⟩) h
  obtain ⟨_, _, g0⟩ := h0 0 (.inl rfl)
  obtain ⟨_, _, g1⟩ := h0 1 (.inr rfl)
  obtain ⟨q0, e0, g0⟩ := pyx_bind g0
  obtain ⟨q1, e1, g1⟩ := pyx_bind g1
  obtain ⟨r, h, -⟩ := pyx_bind g0
  have h0 := pyx_loop (by
    intro i a r h
    obtain ⟨_, _, h⟩ := pyx_bind h
    obtain ⟨_, _, h⟩ := pyx_bind h
    cases h
    exact ⟨_, rfl⟩) h
  obtain ⟨_, _, g0⟩ := h0 0 (.inl rfl)
  obtain ⟨_, _, g1⟩ := h0 1 (.inr rfl)
  obtain ⟨q2, e2, g0⟩ := pyx_bind g0
  obtain ⟨q3, e3, g1⟩ := pyx_bind g1
  obtain ⟨r, h, -⟩ := pyx_bind g0
  have h0 := pyx_loop (by
    intro i a r h
    obtain ⟨_, _, h⟩ := pyx_bind h
    obtain ⟨_, _, h⟩ := pyx_bind h
    obtain ⟨_, _, h⟩ := pyx_bind h
    obtain ⟨_, _, h⟩ := pyx_bind h
    cases h
    exact ⟨_, rfl⟩) h
  obtain ⟨_, _, g0⟩ := h0 0 (.inl rfl)
  obtain ⟨_, _, g1⟩ := h0 1 (.inr rfl)
  obtain ⟨q4, e4, g0⟩ := pyx_bind g0
  obtain ⟨q5, e5, g1⟩ := pyx_bind g1
  intro d hd
  simp only [List.mem_cons, List.not_mem_nil, or_false] at hd
  rcases hd with rfl | rfl | rfl | rfl | rfl | rfl
  exacts [⟨_, e0⟩, ⟨_, e1⟩, ⟨_, e2⟩, ⟨_, e3⟩, ⟨_, e4⟩, ⟨_, e5⟩]

theorem field_ok {e n u w E s N b t mx my mz : PNum A} {v : PNum A × PNum A × PNum A} (h : magnetic_field e n u w E s N b t mx my mz = .ok v) :
    v = (PNum.nan, PNum.nan, PNum.nan) ∨ ∀ d ∈ [E - e, w - e, N - n, s - n, t - u, b - u], ∃ q, (d ^! 2) = .ok q := by
  unfold magnetic_field at h
  split at h
  · cases h
    exact .inl rfl
  right
  obtain ⟨r, h, -⟩ := pyx_bind h
  have h0 := pyx_loop (by
    intro i a r h
    obtain ⟨_, _, h⟩ := pyx_bind h
    obtain ⟨_, _, h⟩ := pyx_bind h
    cases h
    exact ⟨_, rfl⟩) h
  obtain ⟨_, _, g0⟩ := h0 0 (.inl rfl)
  obtain ⟨_, _, g1⟩ := h0 1 (.inr rfl)
  obtain ⟨q0, e0, g0⟩ := pyx_bind g0
  obtain ⟨q1, e1, g1⟩ := pyx_bind g1
  obtain ⟨r, h, -⟩ := pyx_bind g0
  have h0 := pyx_loop (by
    intro i a r h
    obtain ⟨_, _, h⟩ := pyx_bind h
    obtain ⟨_, _, h⟩ := pyx_bind h
    cases h
    exact ⟨_, rfl⟩) h
  obtain ⟨_, _, g0⟩ := h0 0 (.inl rfl)
  obtain ⟨_, _, g1⟩ := h0 1 (.inr rfl)
  obtain ⟨q2, e2, g0⟩ := pyx_bind g0
  obtain ⟨q3, e3, g1⟩ := pyx_bind g1
  obtain ⟨r, h, -⟩ := pyx_bind g0
  have h0 := pyx_loop (by
    intro i a r h
    obtain ⟨_, _, h⟩ := pyx_bind h
    obtain ⟨_, _, h⟩ := pyx_bind h
    obtain ⟨_, _, h⟩ := pyx_bind h
    obtain ⟨_, _, h⟩ := pyx_bind h
    obtain ⟨_, _, h⟩ := pyx_bind h
    obtain ⟨_, _, h⟩ := pyx_bind h
    obtain ⟨_, _, h⟩ := pyx_bind h
    cases h
    exact ⟨_, rfl⟩) h
  obtain ⟨_, _, g0⟩ := h0 0 (.inl rfl)
  obtain ⟨_, _, g1⟩ := h0 1 (.inr rfl)
  obtain ⟨q4, e4, g0⟩ := pyx_bind g0
  obtain ⟨q5, e5, g1⟩ := pyx_bind g1
  intro d hd
  simp only [List.mem_cons, List.not_mem_nil, or_false] at hd
  rcases hd with rfl | rfl | rfl | rfl | rfl | rfl
  exacts [⟨_, e0⟩, ⟨_, e1⟩, ⟨_, e2⟩, ⟨_, e3⟩, ⟨_, e4⟩, ⟨_, e5⟩]
end Python.prism

theorem pow_raises {d : PNum A} {k : ℕ} (h : PowRaises d k) : (d ^! k) = .error .overflow := by
  obtain ⟨x, hx, s, rfl, hp⟩ := h
  have : powOverflows (A := A) (SRaw.num x hx) k = true := by
    show (match A.pow x k with | .inf _ => true | _ => false) = true
    rw [hp]
  show (if powOverflows (A := A) (SRaw.num x hx) k = true then _ else _) = _
  rw [if_pos this]

theorem not_raises_of_ok {d : PNum A} {k : ℕ} (h : ∃ q, (d ^! k) = .ok q) : ¬PowRaises d k := by
  rintro hd
  obtain ⟨q, hq⟩ := h
  rw [pow_raises hd] at hq
  cases hq

theorem raises_iff {P : Prop} {x : Py (Fl A)} {y : PyX (PNum A)} (h : PyAgrees P False x y) (hr : P → ∀ v, y ≠ .ok v) :
    y = .error .overflow ↔ P := by
  rcases y with e | w
  · cases e with
    | zeroDivision => exact h.2.elim
    | overflow => exact ⟨fun _ => h, fun _ => rfl⟩
  · exact ⟨fun h => (by cases h), fun hP => absurd rfl (hr hP w)⟩

theorem raises_iff3 {P : Prop} {x : Py (Fl A × Fl A × Fl A)} {y : PyX (PNum A × PNum A × PNum A)} (h : PyAgrees3 P False x y)
    (hr : P → ∀ v, y ≠ .ok v) : y = .error .overflow ↔ P := by
  rcases y with e | w
  · cases e with
    | zeroDivision => exact h.2.elim
    | overflow => exact ⟨fun _ => h, fun _ => rfl⟩
  · exact ⟨fun h => (by cases h), fun hP => absurd rfl (hr hP w)⟩

theorem or_iff {P : Prop} {x : Py (Fl A)} {y : PyX (PNum A)} (h : PyAgrees P False x y)
    (hr : P → ∀ v, y = .ok v → v = PNum.nan) (hP : P) : y = .error .overflow ∨ y = .ok PNum.nan := by
  rcases y with e | w
  · cases e with
    | zeroDivision => exact h.2.elim
    | overflow => exact .inl rfl
  · exact .inr (by rw [hr hP w rfl])

theorem or_iff3 {P : Prop} {x : Py (Fl A × Fl A × Fl A)} {y : PyX (PNum A × PNum A × PNum A)} (h : PyAgrees3 P False x y)
    (hr : P → ∀ v, y = .ok v → v = (PNum.nan, PNum.nan, PNum.nan)) (hP : P) :
    y = .error .overflow ∨ y = .ok (PNum.nan, PNum.nan, PNum.nan) := by
  rcases y with e | w
  · cases e with
    | zeroDivision => exact h.2.elim
    | overflow => exact .inl rfl
  · exact .inr (by rw [hr hP w rfl])

theorem dist_ok {a b c d e f v : PNum A} (h : Python.utils.distance_cartesian a b c d e f = .ok v) :
    ∀ x ∈ [a - d, b - e, c - f], ∃ q, (x ^! 2) = .ok q := by
  unfold Python.utils.distance_cartesian at h
  obtain ⟨q0, e0, h⟩ := pyx_bind h
  obtain ⟨q1, e1, h⟩ := pyx_bind h
  obtain ⟨q2, e2, h⟩ := pyx_bind h
  intro d hd
  simp only [List.mem_cons, List.not_mem_nil, or_false] at hd
  rcases hd with rfl | rfl | rfl
  exacts [⟨_, e0⟩, ⟨_, e1⟩, ⟨_, e2⟩]

theorem not_square {ds : List (PNum A)} (h : ∀ d ∈ ds, ∃ q, (d ^! 2) = .ok q) : ¬SquareRaises ds := by
  rintro ⟨d, hd, hp⟩
  exact not_raises_of_ok (h d hd) hp

/-- The Cartesian distance raises exactly if the square of a coordinate difference overflows. -/
theorem C138_distance (hA : PyArith A) (a b c d e f : PNum A) (hf : Floats [a, b, c, d, e, f]) :
    Python.utils.distance_cartesian a b c d e f = .error .overflow ↔ SquareRaises [a - d, b - e, c - f] :=
  raises_iff (C137_distance hA a b c d e f hf) fun hP _ hv => not_square (dist_ok hv) hP

/-- The spherical distance raises exactly if the square of the difference of the radii overflows. -/
theorem C138_spherical (hA : PyArith A) (a b c d e f : PNum A) (hf : Floats [a, b, c, d, e, f]) :
    Python.utils.distance_spherical a b c d e f = .error .overflow ↔ PowRaises (c - f) 2 :=
  raises_iff (C137_spherical hA a b c d e f hf) fun hP _ hv => by
    unfold Python.utils.distance_spherical Python.utils.distance_spherical_core at hv
    obtain ⟨q0, e0, h⟩ := pyx_bind hv
    obtain ⟨q1, e1, h⟩ := pyx_bind e0
    exact not_raises_of_ok ⟨_, e1⟩ hP

/-- Gravity of a point mass: raises exactly if the square of a coordinate difference overflows. -/
theorem C138_point_gravity (hA : PyArith A) (a b c d e f m : PNum A) (hf : Floats [a, b, c, d, e, f, m]) :
    (Python.point.gravity_pot a b c d e f m = .error .overflow ↔ SquareRaises [a - d, b - e, c - f])
    ∧ (Python.point.gravity_e a b c d e f m = .error .overflow ↔ SquareRaises [a - d, b - e, c - f])
    ∧ (Python.point.gravity_n a b c d e f m = .error .overflow ↔ SquareRaises [a - d, b - e, c - f])
    ∧ (Python.point.gravity_u a b c d e f m = .error .overflow ↔ SquareRaises [a - d, b - e, c - f])
    ∧ (Python.point.gravity_ee a b c d e f m = .error .overflow ↔ SquareRaises [a - d, b - e, c - f])
    ∧ (Python.point.gravity_nn a b c d e f m = .error .overflow ↔ SquareRaises [a - d, b - e, c - f])
    ∧ (Python.point.gravity_uu a b c d e f m = .error .overflow ↔ SquareRaises [a - d, b - e, c - f])
    ∧ (Python.point.gravity_en a b c d e f m = .error .overflow ↔ SquareRaises [a - d, b - e, c - f])
    ∧ (Python.point.gravity_eu a b c d e f m = .error .overflow ↔ SquareRaises [a - d, b - e, c - f])
    ∧ (Python.point.gravity_nu a b c d e f m = .error .overflow ↔ SquareRaises [a - d, b - e, c - f]) := by
  obtain ⟨g0, g1, g2, g3, g4, g5, g6, g7, g8, g9⟩ := C137_point_gravity hA a b c d e f m hf
  exact ⟨raises_iff g0 fun hP _ hv => not_square (by unfold Python.point.gravity_pot at hv; obtain ⟨_, h, -⟩ := pyx_bind hv; exact dist_ok h) hP,
    raises_iff g1 fun hP _ hv => not_square (by unfold Python.point.gravity_e at hv; obtain ⟨_, h, -⟩ := pyx_bind hv; exact dist_ok h) hP,
    raises_iff g2 fun hP _ hv => not_square (by unfold Python.point.gravity_n at hv; obtain ⟨_, h, -⟩ := pyx_bind hv; exact dist_ok h) hP,
    raises_iff g3 fun hP _ hv => not_square (by unfold Python.point.gravity_u at hv; obtain ⟨_, h, -⟩ := pyx_bind hv; exact dist_ok h) hP,
    raises_iff g4 fun hP _ hv => not_square (by unfold Python.point.gravity_ee at hv; obtain ⟨_, h, -⟩ := pyx_bind hv; exact dist_ok h) hP,
    raises_iff g5 fun hP _ hv => not_square (by unfold Python.point.gravity_nn at hv; obtain ⟨_, h, -⟩ := pyx_bind hv; exact dist_ok h) hP,
    raises_iff g6 fun hP _ hv => not_square (by unfold Python.point.gravity_uu at hv; obtain ⟨_, h, -⟩ := pyx_bind hv; exact dist_ok h) hP,
    raises_iff g7 fun hP _ hv => not_square (by unfold Python.point.gravity_en at hv; obtain ⟨_, h, -⟩ := pyx_bind hv; exact dist_ok h) hP,
    raises_iff g8 fun hP _ hv => not_square (by unfold Python.point.gravity_eu at hv; obtain ⟨_, h, -⟩ := pyx_bind hv; exact dist_ok h) hP,
    raises_iff g9 fun hP _ hv => not_square (by unfold Python.point.gravity_nu at hv; obtain ⟨_, h, -⟩ := pyx_bind hv; exact dist_ok h) hP⟩

theorem dip_ok {β : Type} {x y z : PNum A} {g : PNum A → PNum A → PNum A → PyX β} {v : β}
    (h : (do let p ← x ^! 2; let q ← y ^! 2; let r ← z ^! 2; g p q r) = .ok v) : ∀ d ∈ [x, y, z], ∃ q, (d ^! 2) = .ok q := by
  obtain ⟨q0, e0, h⟩ := pyx_bind h
  obtain ⟨q1, e1, h⟩ := pyx_bind h
  obtain ⟨q2, e2, h⟩ := pyx_bind h
  intro d hd
  simp only [List.mem_cons, List.not_mem_nil, or_false] at hd
  rcases hd with rfl | rfl | rfl
  exacts [⟨_, e0⟩, ⟨_, e1⟩, ⟨_, e2⟩]

/-- Field of a dipole: raises exactly if the square of a coordinate difference overflows. -/
theorem C138_dipole (hA : PyArith A) (a b c d e f m n o : PNum A) (hf : Floats [a, b, c, d, e, f, m, n, o]) :
    (Python.dipole.magnetic_field a b c d e f m n o = .error .overflow ↔ SquareRaises [a - d, b - e, c - f])
    ∧ (Python.dipole.magnetic_e a b c d e f m n o = .error .overflow ↔ SquareRaises [a - d, b - e, c - f])
    ∧ (Python.dipole.magnetic_n a b c d e f m n o = .error .overflow ↔ SquareRaises [a - d, b - e, c - f])
    ∧ (Python.dipole.magnetic_u a b c d e f m n o = .error .overflow ↔ SquareRaises [a - d, b - e, c - f]) := by
  obtain ⟨g0, g1, g2, g3⟩ := C137_dipole hA a b c d e f m n o hf
  exact ⟨raises_iff3 g0 fun hP _ hv => not_square (by unfold Python.dipole.magnetic_field at hv; exact dip_ok hv) hP,
    raises_iff g1 fun hP _ hv => not_square (by unfold Python.dipole.magnetic_e at hv; exact dip_ok hv) hP,
    raises_iff g2 fun hP _ hv => not_square (by unfold Python.dipole.magnetic_n at hv; exact dip_ok hv) hP,
    raises_iff g3 fun hP _ hv => not_square (by unfold Python.dipole.magnetic_u at hv; exact dip_ok hv) hP⟩

/-- Potential and acceleration of a prism: raise exactly if the square of a coordinate difference overflows. -/
theorem C138_prism_gravity (hA : PyArith A) (e n u w E s N b t ρ : PNum A) (hf : Floats [e, n, u, w, E, s, N, b, t, ρ]) :
    (Python.prism.gravity_pot e n u w E s N b t ρ = .error .overflow ↔ SquareRaises [E - e, w - e, N - n, s - n, t - u, b - u])
    ∧ (Python.prism.gravity_e e n u w E s N b t ρ = .error .overflow ↔ SquareRaises [E - e, w - e, N - n, s - n, t - u, b - u])
    ∧ (Python.prism.gravity_n e n u w E s N b t ρ = .error .overflow ↔ SquareRaises [E - e, w - e, N - n, s - n, t - u, b - u])
    ∧ (Python.prism.gravity_u e n u w E s N b t ρ = .error .overflow ↔ SquareRaises [E - e, w - e, N - n, s - n, t - u, b - u]) := by
  obtain ⟨g0, g1, g2, g3, g4, g5, g6, g7, g8, g9⟩ := C137_prism_gravity hA e n u w E s N b t ρ hf
  exact ⟨raises_iff g0 fun hP _ hv => not_square (by unfold Python.prism.gravity_pot at hv; obtain ⟨_, h, -⟩ := pyx_bind hv; exact Python.prism.eval_ok h) hP,
    raises_iff g1 fun hP _ hv => not_square (by unfold Python.prism.gravity_e at hv; obtain ⟨_, h, -⟩ := pyx_bind hv; exact Python.prism.eval_ok h) hP,
    raises_iff g2 fun hP _ hv => not_square (by unfold Python.prism.gravity_n at hv; obtain ⟨_, h, -⟩ := pyx_bind hv; exact Python.prism.eval_ok h) hP,
    raises_iff g3 fun hP _ hv => not_square (by unfold Python.prism.gravity_u at hv; obtain ⟨_, h, -⟩ := pyx_bind hv; exact Python.prism.eval_ok h) hP⟩

/-- Gradient tensor of a prism: if the square of a coordinate difference overflows, raises or (on an edge line) returns NaN. -/
theorem C138_prism_tensor (hA : PyArith A) (e n u w E s N b t ρ : PNum A) (hf : Floats [e, n, u, w, E, s, N, b, t, ρ]) (h : SquareRaises [E - e, w - e, N - n, s - n, t - u, b - u]) :
    (Python.prism.gravity_ee e n u w E s N b t ρ = .error .overflow ∨ Python.prism.gravity_ee e n u w E s N b t ρ = .ok PNum.nan)
    ∧ (Python.prism.gravity_nn e n u w E s N b t ρ = .error .overflow ∨ Python.prism.gravity_nn e n u w E s N b t ρ = .ok PNum.nan)
    ∧ (Python.prism.gravity_uu e n u w E s N b t ρ = .error .overflow ∨ Python.prism.gravity_uu e n u w E s N b t ρ = .ok PNum.nan)
    ∧ (Python.prism.gravity_en e n u w E s N b t ρ = .error .overflow ∨ Python.prism.gravity_en e n u w E s N b t ρ = .ok PNum.nan)
    ∧ (Python.prism.gravity_eu e n u w E s N b t ρ = .error .overflow ∨ Python.prism.gravity_eu e n u w E s N b t ρ = .ok PNum.nan)
    ∧ (Python.prism.gravity_nu e n u w E s N b t ρ = .error .overflow ∨ Python.prism.gravity_nu e n u w E s N b t ρ = .ok PNum.nan) := by
  obtain ⟨g0, g1, g2, g3, g4, g5, g6, g7, g8, g9⟩ := C137_prism_gravity hA e n u w E s N b t ρ hf
  refine ⟨or_iff g4 (fun hP _ hv => ?_) h,
    or_iff g5 (fun hP _ hv => ?_) h,
    or_iff g6 (fun hP _ hv => ?_) h,
    or_iff g7 (fun hP _ hv => ?_) h,
    or_iff g8 (fun hP _ hv => ?_) h,
    or_iff g9 (fun hP _ hv => ?_) h⟩
  · unfold Python.prism.gravity_ee at hv
    split at hv
    · cases hv; rfl
    · obtain ⟨_, h, -⟩ := pyx_bind hv
      exact absurd hP (not_square (Python.prism.eval_ok h))
  · unfold Python.prism.gravity_nn at hv
    split at hv
    · cases hv; rfl
    · obtain ⟨_, h, -⟩ := pyx_bind hv
      exact absurd hP (not_square (Python.prism.eval_ok h))
  · unfold Python.prism.gravity_uu at hv
    split at hv
    · cases hv; rfl
    · obtain ⟨_, h, -⟩ := pyx_bind hv
      exact absurd hP (not_square (Python.prism.eval_ok h))
  · unfold Python.prism.gravity_en at hv
    split at hv
    · cases hv; rfl
    · obtain ⟨_, h, -⟩ := pyx_bind hv
      exact absurd hP (not_square (Python.prism.eval_ok h))
  · unfold Python.prism.gravity_eu at hv
    split at hv
    · cases hv; rfl
    · obtain ⟨_, h, -⟩ := pyx_bind hv
      exact absurd hP (not_square (Python.prism.eval_ok h))
  · unfold Python.prism.gravity_nu at hv
    split at hv
    · cases hv; rfl
    · obtain ⟨_, h, -⟩ := pyx_bind hv
      exact absurd hP (not_square (Python.prism.eval_ok h))

/-- Magnetic field and gradient of a prism: the same, NaN for a point on an edge or inside. -/
theorem C138_prism_magnetic (hA : PyArith A) (e n u w E s N b t mx my mz : PNum A) (hf : Floats [e, n, u, w, E, s, N, b, t, mx, my, mz]) (h : SquareRaises [E - e, w - e, N - n, s - n, t - u, b - u]) :
    (Python.prism.magnetic_field e n u w E s N b t mx my mz = .error .overflow ∨ Python.prism.magnetic_field e n u w E s N b t mx my mz = .ok (PNum.nan, PNum.nan, PNum.nan))
    ∧ (Python.prism.magnetic_e e n u w E s N b t mx my mz = .error .overflow ∨ Python.prism.magnetic_e e n u w E s N b t mx my mz = .ok PNum.nan)
    ∧ (Python.prism.magnetic_n e n u w E s N b t mx my mz = .error .overflow ∨ Python.prism.magnetic_n e n u w E s N b t mx my mz = .ok PNum.nan)
    ∧ (Python.prism.magnetic_u e n u w E s N b t mx my mz = .error .overflow ∨ Python.prism.magnetic_u e n u w E s N b t mx my mz = .ok PNum.nan)
    ∧ (Python.prism.magnetic_ee e n u w E s N b t mx my mz = .error .overflow ∨ Python.prism.magnetic_ee e n u w E s N b t mx my mz = .ok PNum.nan)
    ∧ (Python.prism.magnetic_nn e n u w E s N b t mx my mz = .error .overflow ∨ Python.prism.magnetic_nn e n u w E s N b t mx my mz = .ok PNum.nan)
    ∧ (Python.prism.magnetic_uu e n u w E s N b t mx my mz = .error .overflow ∨ Python.prism.magnetic_uu e n u w E s N b t mx my mz = .ok PNum.nan)
    ∧ (Python.prism.magnetic_en e n u w E s N b t mx my mz = .error .overflow ∨ Python.prism.magnetic_en e n u w E s N b t mx my mz = .ok PNum.nan)
    ∧ (Python.prism.magnetic_eu e n u w E s N b t mx my mz = .error .overflow ∨ Python.prism.magnetic_eu e n u w E s N b t mx my mz = .ok PNum.nan)
    ∧ (Python.prism.magnetic_nu e n u w E s N b t mx my mz = .error .overflow ∨ Python.prism.magnetic_nu e n u w E s N b t mx my mz = .ok PNum.nan) := by
  obtain ⟨g0, g1, g2, g3, g4, g5, g6, g7, g8, g9⟩ := C137_prism_magnetic hA e n u w E s N b t mx my mz hf
  refine ⟨or_iff3 g0 (fun hP _ hv => ?_) h,
    or_iff g1 (fun hP _ hv => ?_) h,
    or_iff g2 (fun hP _ hv => ?_) h,
    or_iff g3 (fun hP _ hv => ?_) h,
    or_iff g4 (fun hP _ hv => ?_) h,
    or_iff g5 (fun hP _ hv => ?_) h,
    or_iff g6 (fun hP _ hv => ?_) h,
    or_iff g7 (fun hP _ hv => ?_) h,
    or_iff g8 (fun hP _ hv => ?_) h,
    or_iff g9 (fun hP _ hv => ?_) h⟩
  · exact (Python.prism.field_ok hv).resolve_right fun hd => not_square hd hP
  · unfold Python.prism.magnetic_e at hv
    split at hv
    · cases hv; rfl
    · obtain ⟨_, h, -⟩ := pyx_bind hv
      exact absurd hP (not_square (Python.prism.calc_ok h))
  · unfold Python.prism.magnetic_n at hv
    split at hv
    · cases hv; rfl
    · obtain ⟨_, h, -⟩ := pyx_bind hv
      exact absurd hP (not_square (Python.prism.calc_ok h))
  · unfold Python.prism.magnetic_u at hv
    split at hv
    · cases hv; rfl
    · obtain ⟨_, h, -⟩ := pyx_bind hv
      exact absurd hP (not_square (Python.prism.calc_ok h))
  · unfold Python.prism.magnetic_ee at hv
    split at hv
    · cases hv; rfl
    · obtain ⟨_, h, -⟩ := pyx_bind hv
      exact absurd hP (not_square (Python.prism.calc_ok h))
  · unfold Python.prism.magnetic_nn at hv
    split at hv
    · cases hv; rfl
    · obtain ⟨_, h, -⟩ := pyx_bind hv
      exact absurd hP (not_square (Python.prism.calc_ok h))
  · unfold Python.prism.magnetic_uu at hv
    split at hv
    · cases hv; rfl
    · obtain ⟨_, h, -⟩ := pyx_bind hv
      exact absurd hP (not_square (Python.prism.calc_ok h))
  · unfold Python.prism.magnetic_en at hv
    split at hv
    · cases hv; rfl
    · obtain ⟨_, h, -⟩ := pyx_bind hv
      exact absurd hP (not_square (Python.prism.calc_ok h))
  · unfold Python.prism.magnetic_eu at hv
    split at hv
    · cases hv; rfl
    · obtain ⟨_, h, -⟩ := pyx_bind hv
      exact absurd hP (not_square (Python.prism.calc_ok h))
  · unfold Python.prism.magnetic_nu at hv
    split at hv
    · cases hv; rfl
    · obtain ⟨_, h, -⟩ := pyx_bind hv
      exact absurd hP (not_square (Python.prism.calc_ok h))

end Choclo
