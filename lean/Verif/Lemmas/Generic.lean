import Verif.Lemmas.Unroll
import Mathlib.Tactic.Linarith

/-! # Facts valid in every arithmetic: commutativity, error propagation -/

namespace Choclo

/-- there is one exception only, so two computations agree if they return the same values -/
theorem Py.ext {α : Type} {x y : Py α} (h : ∀ v, x = .ok v ↔ y = .ok v) : x = y := by
  cases x with
  | ok v => exact ((h v).1 rfl).symm
  | error e => cases y with
    | ok v => exact (h v).2 rfl
    | error e' => cases e; cases e'; rfl

theorem Py.bind_ok {α β : Type} {x : Py α} {f : α → Py β} {v : β} :
    (x >>= f) = .ok v ↔ ∃ a, x = .ok a ∧ f a = .ok v := by
  cases x with
  | ok a => exact ⟨fun h => ⟨a, rfl, h⟩, fun ⟨b, hb, h⟩ => by cases hb; exact h⟩
  | error e =>
    constructor
    · intro h; cases h
    · rintro ⟨b, hb, _⟩; cases hb

theorem Py.pure_ok {α : Type} {a v : α} : (pure a : Py α) = .ok v ↔ a = v :=
  ⟨fun h => by cases h; rfl, fun h => by rw [h]; rfl⟩

namespace Fl
variable {A : Arith}

theorem add_comm' (a b : Fl A) : a + b = b + a := by
  change add a b = add b a
  cases a <;> cases b <;> simp only [add]
  · rename_i s t
    by_cases h : s = t
    · rw [if_pos h, if_pos h.symm, h]
    · rw [if_neg h, if_neg (Ne.symm h)]
  · rw [_root_.add_comm]

theorem mul_comm' (a b : Fl A) : a * b = b * a := by
  change mul a b = mul b a
  cases a <;> cases b <;> simp only [mul]
  · rw [Bool.xor_comm]
  · rw [_root_.mul_comm]

end Fl

namespace prism
variable {A : Arith}

/-- one vertex of the loop of `_calculate_component` -/
noncomputable def compStep (m : ℕ) (x y z Me Mn Mu : Fl A) (K1 K2 K3 : Kernel A) (acc : Fl A) :
    Py (Fl A) := do
  let k1 ← vker K1 x y z
  let k2 ← vker K2 x y z
  let k3 ← vker K3 x y z
  return acc + sgn m * (Me * k1 + Mn * k2 + Mu * k3)

theorem calculate_component_steps (e n u w E s N b t Me Mn Mu : Fl A) (K1 K2 K3 : Kernel A) :
    _calculate_component e n u w E s N b t Me Mn Mu K1 K2 K3 = (do
      let acc ← compStep 0 (E - e) (N - n) (t - u) Me Mn Mu K1 K2 K3 0
      let acc ← compStep 1 (E - e) (N - n) (b - u) Me Mn Mu K1 K2 K3 acc
      let acc ← compStep 1 (E - e) (s - n) (t - u) Me Mn Mu K1 K2 K3 acc
      let acc ← compStep 2 (E - e) (s - n) (b - u) Me Mn Mu K1 K2 K3 acc
      let acc ← compStep 1 (w - e) (N - n) (t - u) Me Mn Mu K1 K2 K3 acc
      let acc ← compStep 2 (w - e) (N - n) (b - u) Me Mn Mu K1 K2 K3 acc
      let acc ← compStep 2 (w - e) (s - n) (t - u) Me Mn Mu K1 K2 K3 acc
      compStep 3 (w - e) (s - n) (b - u) Me Mn Mu K1 K2 K3 acc) := by
  rw [calculate_component_unroll]
  simp only [compStep, bind_assoc, pure_bind]

theorem fieldStep_ok {m : ℕ} {x y z Me Mn Mu : Fl A} {acc v : Fl A × Fl A × Fl A} :
    fieldStep m x y z Me Mn Mu acc = .ok v ↔
      compStep m x y z Me Mn Mu kernel_ee kernel_en kernel_eu acc.1 = .ok v.1 ∧
      compStep m x y z Me Mn Mu kernel_en kernel_nn kernel_nu acc.2.1 = .ok v.2.1 ∧
      compStep m x y z Me Mn Mu kernel_eu kernel_nu kernel_uu acc.2.2 = .ok v.2.2 := by
  obtain ⟨v1, v2, v3⟩ := v
  unfold fieldStep compStep
  generalize vker kernel_ee x y z = kee
  generalize vker kernel_nn x y z = knn
  generalize vker kernel_uu x y z = kuu
  generalize vker kernel_en x y z = ken
  generalize vker kernel_eu x y z = keu
  generalize vker kernel_nu x y z = knu
  simp only [Py.bind_ok, Py.pure_ok, Prod.mk.injEq]
  constructor
  · rintro ⟨a, rfl, b, rfl, c, rfl, d, rfl, e, rfl, f, rfl, h1, h2, h3⟩
    simp [h1, h2, h3]
  · rintro ⟨⟨a, rfl, b, rfl, c, rfl, h1⟩, ⟨a', ha, b', rfl, c', rfl, h2⟩,
      ⟨a'', ha', b'', hb', c'', rfl, h3⟩⟩
    cases ha; cases ha'; cases hb'
    simp [h1, h2, h3]

theorem fieldLoop_components (e n u w E s N b t Me Mn Mu : Fl A) :
    fieldLoop e n u w E s N b t Me Mn Mu = (do
      let b_e ← _calculate_component e n u w E s N b t Me Mn Mu kernel_ee kernel_en kernel_eu
      let b_n ← _calculate_component e n u w E s N b t Me Mn Mu kernel_en kernel_nn kernel_nu
      let b_u ← _calculate_component e n u w E s N b t Me Mn Mu kernel_eu kernel_nu kernel_uu
      return (b_e, b_n, b_u)) := by
  apply Py.ext
  rintro ⟨v1, v2, v3⟩
  simp only [fieldLoop_unroll, calculate_component_steps, Py.bind_ok, fieldStep_ok, Prod.exists,
    Py.pure_ok, Prod.mk.injEq]
  constructor
  · rintro ⟨a1, b1, c1, ⟨ha1, hb1, hc1⟩, a2, b2, c2, ⟨ha2, hb2, hc2⟩, a3, b3, c3, ⟨ha3, hb3, hc3⟩,
      a4, b4, c4, ⟨ha4, hb4, hc4⟩, a5, b5, c5, ⟨ha5, hb5, hc5⟩, a6, b6, c6, ⟨ha6, hb6, hc6⟩,
      a7, b7, c7, ⟨ha7, hb7, hc7⟩, ha8, hb8, hc8⟩
    exact ⟨_, ⟨_, ha1, _, ha2, _, ha3, _, ha4, _, ha5, _, ha6, _, ha7, ha8⟩,
      _, ⟨_, hb1, _, hb2, _, hb3, _, hb4, _, hb5, _, hb6, _, hb7, hb8⟩,
      _, ⟨_, hc1, _, hc2, _, hc3, _, hc4, _, hc5, _, hc6, _, hc7, hc8⟩, rfl, rfl, rfl⟩
  · rintro ⟨_, ⟨_, ha1, _, ha2, _, ha3, _, ha4, _, ha5, _, ha6, _, ha7, ha8⟩,
      _, ⟨_, hb1, _, hb2, _, hb3, _, hb4, _, hb5, _, hb6, _, hb7, hb8⟩,
      _, ⟨_, hc1, _, hc2, _, hc3, _, hc4, _, hc5, _, hc6, _, hc7, hc8⟩, rfl, rfl, rfl⟩
    exact ⟨_, _, _, ⟨ha1, hb1, hc1⟩, _, _, _, ⟨ha2, hb2, hc2⟩, _, _, _, ⟨ha3, hb3, hc3⟩,
      _, _, _, ⟨ha4, hb4, hc4⟩, _, _, _, ⟨ha5, hb5, hc5⟩, _, _, _, ⟨ha6, hb6, hc6⟩,
      _, _, _, ⟨ha7, hb7, hc7⟩, ha8, hb8, hc8⟩

end prism
end Choclo
