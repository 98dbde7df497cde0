import Verif.Props.NaN
import Verif.Props.NoRaise
import Verif.Props.FieldTriples

/-! # C48: NaN in, NaN out, without exceptions -/

namespace Choclo

variable {A : Arith}

/-- A call that returns, and never returns anything but NaN, returns NaN. -/
theorem OnlyNaN.returns {call : Py (Fl A)} (h : OnlyNaN call) (h' : DoesNotRaise call) : ReturnsNaN call := by
  obtain ⟨v, hv⟩ := h'
  rw [ReturnsNaN, hv, h v hv]

/-- **C48.** A NaN coordinate makes every `dipole.magnetic_*` return NaN, without an exception, and
`dipole.magnetic_field` return three of them. -/
theorem C48_dipole_coordinate (hpi : A.pi ≠ 0) (e n u e' n' u' me mn mu : Fl A) (h : Fl.nan ∈ [e, n, u, e', n', u']) :
    (∀ a, ReturnsNaN (dipoleMagnetic a e n u e' n' u' me mn mu)) ∧
    dipole.magnetic_field e n u e' n' u' me mn mu = .ok (Fl.nan, Fl.nan, Fl.nan) := by
  have hc : ∀ a, ReturnsNaN (dipoleMagnetic a e n u e' n' u' me mn mu) := by
    intro a
    have hd : Fl.sqrt ((e - e') ^ 2 + (n - n') ^ 2 + (u - u') ^ 2) = (Fl.nan : Fl A) :=
      Except.ok.inj (C48_distance_cartesian e n u e' n' u' h)
    refine (C48_dipole a e n u e' n' u' me mn mu (by
      simp only [List.mem_cons, List.not_mem_nil, or_false] at h ⊢
      tauto)).returns ?_
    cases a <;>
    · simp only [DoesNotRaise, dipoleMagnetic, dipole.magnetic_e, dipole.magnetic_n, dipole.magnetic_u, hd, Fl.nan_pow,
        Fl.div_nan]
      exact cm_ok hpi fun _ => ⟨_, rfl⟩
  refine ⟨hc, ?_⟩
  rw [C13_field_is_components]
  have h1 := hc .e
  have h2 := hc .n
  have h3 := hc .u
  simp only [dipoleMagnetic, ReturnsNaN] at h1 h2 h3
  rw [h1, h2, h3]
  rfl

/-- **C48.** In every arithmetic with monotone rounding a NaN among coordinates, boundaries and density makes every
`prism.gravity_*` return NaN, without an exception. -/
theorem C48_prism_gravity_returns (hA : A.Monotone) (c : GComp) (e n u w E s N b t ρ : Fl A)
    (h : Fl.nan ∈ [e, n, u, w, E, s, N, b, t, ρ]) :
    ReturnsNaN (prismGravity c e n u w E s N b t ρ) :=
  (C48_prism_gravity c e n u w E s N b t ρ h).returns (C52_gravity hA c e n u w E s N b t ρ)

/-- **C48.** The same for the magnetic field of a prism: a NaN among coordinates, boundaries and magnetization makes all
components NaN, without an exception. -/
theorem C48_prism_field_returns (hA : A.Monotone) (hpi : A.pi ≠ 0) (e n u w E s N b t Me Mn Mu : Fl A)
    (h : Fl.nan ∈ [e, n, u, w, E, s, N, b, t, Me, Mn, Mu]) :
    ReturnsNaN (prism.magnetic_e e n u w E s N b t Me Mn Mu) ∧
    ReturnsNaN (prism.magnetic_n e n u w E s N b t Me Mn Mu) ∧
    ReturnsNaN (prism.magnetic_u e n u w E s N b t Me Mn Mu) ∧
    prism.magnetic_field e n u w E s N b t Me Mn Mu = .ok (Fl.nan, Fl.nan, Fl.nan) := by
  obtain ⟨r1, r2, r3, -⟩ := C52_magnetic_field hA hpi e n u w E s N b t Me Mn Mu
  have h1 : ReturnsNaN (prism.magnetic_e e n u w E s N b t Me Mn Mu) :=
    (C48_prism_magnetic .e e n u w E s N b t Me Mn Mu h).returns r1
  have h2 : ReturnsNaN (prism.magnetic_n e n u w E s N b t Me Mn Mu) :=
    (C48_prism_magnetic .n e n u w E s N b t Me Mn Mu h).returns r2
  have h3 : ReturnsNaN (prism.magnetic_u e n u w E s N b t Me Mn Mu) :=
    (C48_prism_magnetic .u e n u w E s N b t Me Mn Mu h).returns r3
  refine ⟨h1, h2, h3, ?_⟩
  rw [ReturnsNaN] at h1 h2 h3
  rw [C39_field_is_components, h1, h2, h3]
  rfl

/-- non-vacuity: a NaN density in double precision -/
example (p : Pt) (P : Box) : ReturnsNaN (onPrism (A := Binary64) prism.gravity_uu p P Fl.nan) :=
  C48_prism_gravity_returns Binary64_monotone .uu _ _ _ _ _ _ _ _ _ _ (by simp)

end Choclo
