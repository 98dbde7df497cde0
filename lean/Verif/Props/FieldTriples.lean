import Verif.Lemmas.Generic

/-! # C13, C39: the vector field functions and their three components, in every arithmetic -/

namespace Choclo

variable {A : Arith}

/-- **C13.** In *every* floating-point arithmetic and for *all* arguments (NaN, infinities,
coincident points, …) `dipole.magnetic_field` behaves exactly as calling `dipole.magnetic_e`,
`magnetic_n`, `magnetic_u`: it raises iff one of them raises and otherwise returns the very same
three numbers. -/
theorem C13_field_is_components (e n u e' n' u' me mn mu : Fl A) :
    dipole.magnetic_field e n u e' n' u' me mn mu = (do
      let b_e ← dipole.magnetic_e e n u e' n' u' me mn mu
      let b_n ← dipole.magnetic_n e n u e' n' u' me mn mu
      let b_u ← dipole.magnetic_u e n u e' n' u' me mn mu
      return (b_e, b_n, b_u)) := by
  apply Py.ext
  rintro ⟨v1, v2, v3⟩
  unfold dipole.magnetic_field dipole.magnetic_e dipole.magnetic_n dipole.magnetic_u
  simp only [Py.bind_ok, Py.pure_ok, Prod.mk.injEq]
  constructor
  · rintro ⟨c1, h1, c, h2, a1, ha1, a2, ha2, a3, ha3, a4, ha4, a5, ha5, a6, ha6, rfl, rfl, rfl⟩
    exact ⟨_, ⟨_, ha1, _, ha2, _, h1, _, h2, rfl⟩, _, ⟨_, ha3, _, ha4, _, h1, _, h2, rfl⟩,
      _, ⟨_, ha5, _, ha6, _, h1, _, h2, rfl⟩, rfl, rfl, rfl⟩
  · rintro ⟨_, ⟨_, ha1, _, ha2, _, h1, _, h2, rfl⟩, _, ⟨_, ha3, _, ha4, _, h1', _, h2', rfl⟩,
      _, ⟨_, ha5, _, ha6, _, h1'', _, h2'', rfl⟩, rfl, rfl, rfl⟩
    rw [h1] at h1' h1''
    cases h1'; cases h1''
    rw [h2] at h2' h2''
    cases h2'; cases h2''
    exact ⟨_, h1, _, h2, _, ha1, _, ha2, _, ha3, _, ha4, _, ha5, _, ha6, rfl, rfl, rfl⟩

/-- **C39.** In *every* floating-point arithmetic and for *all* arguments `prism.magnetic_field`
behaves exactly as calling `prism.magnetic_e`, `magnetic_n`, `magnetic_u`: it raises iff one of
them raises and otherwise returns the very same three numbers (NaN included). -/
theorem C39_field_is_components (e n u w E s N b t me mn mu : Fl A) :
    prism.magnetic_field e n u w E s N b t me mn mu = (do
      let b_e ← prism.magnetic_e e n u w E s N b t me mn mu
      let b_n ← prism.magnetic_n e n u w E s N b t me mn mu
      let b_u ← prism.magnetic_u e n u w E s N b t me mn mu
      return (b_e, b_n, b_u)) := by
  rw [prism.magnetic_field_unroll, prism.fieldLoop_components]
  unfold prism.magnetic_e prism.magnetic_n prism.magnetic_u prism.fieldTail
  by_cases hs : (prism.is_point_on_edge e n u w E s N b t
      || prism.is_interior_point e n u w E s N b t) = true
  · simp only [hs, if_true]
    rfl
  simp only [hs, if_false, Bool.false_eq_true]
  apply Py.ext
  rintro ⟨v1, v2, v3⟩
  by_cases h1 : prism.is_point_on_east_face e n u w E s N b t = true <;>
  by_cases h2 : prism.is_point_on_north_face e n u w E s N b t = true <;>
  by_cases h3 : prism.is_point_on_top_face e n u w E s N b t = true <;>
  · simp only [h1, h2, h3, if_true, if_false, Bool.false_eq_true, Py.bind_ok, Py.pure_ok,
      Prod.mk.injEq, bind_assoc, pure_bind]
    constructor
    · rintro ⟨a, ha, a', ha', a'', ha'', c1, hc1, c2, hc2, rfl, rfl, rfl⟩
      exact ⟨a, ha, _, hc1, _, hc2, a', ha', _, hc1, _, hc2, a'', ha'', _, hc1, _, hc2,
        Fl.mul_comm' _ _, Fl.mul_comm' _ _, Fl.mul_comm' _ _⟩
    · rintro ⟨a, ha, c1, hc1, c2, hc2, a', ha', c1', hc1', c2', hc2',
        a'', ha'', c1'', hc1'', c2'', hc2'', rfl, rfl, rfl⟩
      rw [hc1] at hc1' hc1''
      cases hc1'; cases hc1''
      rw [hc2] at hc2' hc2''
      cases hc2'; cases hc2''
      exact ⟨a, ha, a', ha', a'', ha'', c1, hc1, c2, hc2, Fl.mul_comm' _ _, Fl.mul_comm' _ _,
        Fl.mul_comm' _ _⟩

end Choclo
