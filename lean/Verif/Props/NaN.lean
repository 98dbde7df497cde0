import Verif.Lemmas.NaN
import Verif.Props.PrismPoints
import Verif.Spec.Point

/-! # C48, C49: NaN in, NaN out; singular points, in every floating-point arithmetic -/

namespace Choclo

variable {A : Arith}

/-- The call never returns a number that is not NaN (it returns NaN or raises). -/
def OnlyNaN (call : Py (Fl A)) : Prop := ∀ v, call = .ok v → v = Fl.nan

/-! ## C48 -/

/-- **C48.** A NaN coordinate makes `distance_cartesian` return NaN. -/
theorem C48_distance_cartesian (e n u e' n' u' : Fl A) (h : Fl.nan ∈ [e, n, u, e', n', u']) :
    ReturnsNaN (utils.distance_cartesian e n u e' n' u') := by
  unfold ReturnsNaN utils.distance_cartesian
  simp only [List.mem_cons, List.not_mem_nil, or_false] at h
  rcases h with rfl | rfl | rfl | rfl | rfl | rfl <;> simp <;> rfl

/-- **C48.** A NaN coordinate makes `distance_spherical` return NaN. -/
theorem C48_distance_spherical (e n u e' n' u' : Fl A) (h : Fl.nan ∈ [e, n, u, e', n', u']) :
    ReturnsNaN (utils.distance_spherical e n u e' n' u') := by
  unfold ReturnsNaN utils.distance_spherical utils.distance_spherical_core
  simp only [List.mem_cons, List.not_mem_nil, or_false] at h
  rcases h with rfl | rfl | rfl | rfl | rfl | rfl <;> simp <;> rfl

/-- **C48.** A NaN coordinate makes every `point.gravity_*` return NaN, without an exception. -/
theorem C48_point_coordinate (c : GComp) (e n u e' n' u' m : Fl A)
    (h : Fl.nan ∈ [e, n, u, e', n', u']) :
    ReturnsNaN (pointGravity c e n u e' n' u' m) := by
  have hd := C48_distance_cartesian e n u e' n' u' h
  unfold ReturnsNaN at hd
  cases c <;>
  · simp only [pointGravity, point.gravity_pot, point.gravity_e, point.gravity_n, point.gravity_u,
      point.gravity_ee, point.gravity_nn, point.gravity_uu, point.gravity_en, point.gravity_eu,
      point.gravity_nu, point.kernel_pot, point.kernel_e, point.kernel_n, point.kernel_u,
      point.kernel_ee, point.kernel_nn, point.kernel_uu, point.kernel_en, point.kernel_eu,
      point.kernel_nu, ReturnsNaN, hd]
    simp <;> rfl

/-- **C48.** A NaN mass never gives a number: every `point.gravity_*` returns NaN, or raises the
exception it raises for that pair of points anyway. -/
theorem C48_point_mass (c : GComp) (e n u e' n' u' : Fl A) :
    OnlyNaN (pointGravity c e n u e' n' u' Fl.nan) := by
  intro v hv
  cases c <;>
  · simp only [pointGravity, point.gravity_pot, point.gravity_e, point.gravity_n, point.gravity_u,
      point.gravity_ee, point.gravity_nn, point.gravity_uu, point.gravity_en, point.gravity_eu,
      point.gravity_nu, Py.bind_ok, Py.pure_ok] at hv
    obtain ⟨_, _, _, _, rfl⟩ := hv
    simp

/-- **C48.** A NaN among coordinates and moment never gives a number: every `dipole.magnetic_*`
returns NaN (or raises for coincident points). -/
theorem C48_dipole (a : Axis) (e n u e' n' u' me mn mu : Fl A)
    (h : Fl.nan ∈ [e, n, u, e', n', u', me, mn, mu]) :
    OnlyNaN (dipoleMagnetic a e n u e' n' u' me mn mu) := by
  intro v hv
  simp only [List.mem_cons, List.not_mem_nil, or_false] at h
  cases a <;>
  · simp only [dipoleMagnetic, dipole.magnetic_e, dipole.magnetic_n, dipole.magnetic_u, Py.bind_ok,
      Py.pure_ok] at hv
    obtain ⟨a1, h1, a2, h2, a3, h3, a4, h4, rfl⟩ := hv
    have h5 : a1 = Fl.nan := by
      rcases h with rfl | rfl | rfl | rfl | rfl | rfl | rfl | rfl | rfl <;>
        simp at h1 <;> first | (exact h1.symm) | (exact Fl.nan_div_ok h1)
    rw [h5]
    simp

/-- **C48.** A NaN among coordinates, boundaries and density never gives a number: every
`prism.gravity_*` returns NaN (or raises). -/
theorem C48_prism_gravity (c : GComp) (e n u w E s N b t ρ : Fl A)
    (h : Fl.nan ∈ [e, n, u, w, E, s, N, b, t, ρ]) :
    OnlyNaN (prismGravity c e n u w E s N b t ρ) := by
  intro v hv
  have h' : Fl.nan ∈ [e, n, u, w, E, s, N, b, t] ∨ ρ = Fl.nan := by
    simp only [List.mem_cons, List.not_mem_nil, or_false] at h ⊢
    tauto
  have fin : ∀ {K : prism.Kernel A} {r : Fl A}, prism.Taints K →
      prism._evaluate_kernel e n u w E s N b t K = .ok r → r = Fl.nan ∨ ρ = Fl.nan := by
    intro K r hK hr
    rcases h' with h' | h'
    · exact .inl (prism.evaluate_nan hK h' hr)
    · exact .inr h'
  cases c
  case pot =>
    simp only [prismGravity, prism.gravity_pot, Py.bind_ok, Py.pure_ok] at hv
    obtain ⟨r, hr, rfl⟩ := hv
    rcases fin prism.taints_pot hr with rfl | rfl <;> simp
  case e =>
    simp only [prismGravity, prism.gravity_e, Py.bind_ok, Py.pure_ok] at hv
    obtain ⟨r, hr, rfl⟩ := hv
    rcases fin prism.taints_e hr with rfl | rfl <;> simp
  case n =>
    simp only [prismGravity, prism.gravity_n, Py.bind_ok, Py.pure_ok] at hv
    obtain ⟨r, hr, rfl⟩ := hv
    rcases fin prism.taints_n hr with rfl | rfl <;> simp
  case u =>
    simp only [prismGravity, prism.gravity_u, Py.bind_ok, Py.pure_ok] at hv
    obtain ⟨r, hr, rfl⟩ := hv
    rcases fin prism.taints_u hr with rfl | rfl <;> simp
  case en =>
    simp only [prismGravity, prism.gravity_en] at hv
    split at hv
    · exact (Py.pure_ok.1 hv).symm
    · simp only [Py.bind_ok, Py.pure_ok] at hv
      obtain ⟨r, hr, rfl⟩ := hv
      rcases fin prism.taints_en hr with rfl | rfl <;> simp
  case eu =>
    simp only [prismGravity, prism.gravity_eu] at hv
    split at hv
    · exact (Py.pure_ok.1 hv).symm
    · simp only [Py.bind_ok, Py.pure_ok] at hv
      obtain ⟨r, hr, rfl⟩ := hv
      rcases fin prism.taints_eu hr with rfl | rfl <;> simp
  case nu =>
    simp only [prismGravity, prism.gravity_nu] at hv
    split at hv
    · exact (Py.pure_ok.1 hv).symm
    · simp only [Py.bind_ok, Py.pure_ok] at hv
      obtain ⟨r, hr, rfl⟩ := hv
      rcases fin prism.taints_nu hr with rfl | rfl <;> simp
  case ee =>
    simp only [prismGravity, prism.gravity_ee] at hv
    split at hv
    · exact (Py.pure_ok.1 hv).symm
    · simp only [Py.bind_ok] at hv
      obtain ⟨r, hr, hv⟩ := hv
      have := fin prism.taints_ee hr
      split at hv <;> rw [Py.pure_ok] at hv <;> subst hv <;>
        rcases this with rfl | rfl <;> simp
  case nn =>
    simp only [prismGravity, prism.gravity_nn] at hv
    split at hv
    · exact (Py.pure_ok.1 hv).symm
    · simp only [Py.bind_ok] at hv
      obtain ⟨r, hr, hv⟩ := hv
      have := fin prism.taints_nn hr
      split at hv <;> rw [Py.pure_ok] at hv <;> subst hv <;>
        rcases this with rfl | rfl <;> simp
  case uu =>
    simp only [prismGravity, prism.gravity_uu] at hv
    split at hv
    · exact (Py.pure_ok.1 hv).symm
    · simp only [Py.bind_ok] at hv
      obtain ⟨r, hr, hv⟩ := hv
      have := fin prism.taints_uu hr
      split at hv <;> rw [Py.pure_ok] at hv <;> subst hv <;>
        rcases this with rfl | rfl <;> simp

/-- **C48.** A NaN among coordinates, boundaries and magnetization never gives a number: every
scalar `prism.magnetic_*` returns NaN (or raises). -/
theorem C48_prism_magnetic (c : MComp) (e n u w E s N b t Me Mn Mu : Fl A)
    (h : Fl.nan ∈ [e, n, u, w, E, s, N, b, t, Me, Mn, Mu]) :
    OnlyNaN (prismMagnetic c e n u w E s N b t Me Mn Mu) := by
  intro v hv
  have fin : ∀ {K1 K2 K3 : prism.Kernel A} {r : Fl A}, prism.Taints3 K1 K2 K3 →
      prism._calculate_component e n u w E s N b t Me Mn Mu K1 K2 K3 = .ok r → r = Fl.nan :=
    fun hK hr => prism.component_nan hK h hr
  cases c
  case e =>
    simp only [prismMagnetic, prism.magnetic_e] at hv
    split at hv
    · exact (Py.pure_ok.1 hv).symm
    · simp only [Py.bind_ok] at hv
      obtain ⟨r, hr, hv⟩ := hv
      have := fin (fun x y z h => .inl (prism.taints_ee x y z h)) hr
      subst this
      split at hv <;> simp only [Py.bind_ok, Py.pure_ok] at hv <;>
        obtain ⟨_, _, _, _, rfl⟩ := hv <;> simp
  case n =>
    simp only [prismMagnetic, prism.magnetic_n] at hv
    split at hv
    · exact (Py.pure_ok.1 hv).symm
    · simp only [Py.bind_ok] at hv
      obtain ⟨r, hr, hv⟩ := hv
      have := fin (fun x y z h => .inl (prism.taints_en x y z h)) hr
      subst this
      split at hv <;> simp only [Py.bind_ok, Py.pure_ok] at hv <;>
        obtain ⟨_, _, _, _, rfl⟩ := hv <;> simp
  case u =>
    simp only [prismMagnetic, prism.magnetic_u] at hv
    split at hv
    · exact (Py.pure_ok.1 hv).symm
    · simp only [Py.bind_ok] at hv
      obtain ⟨r, hr, hv⟩ := hv
      have := fin (fun x y z h => .inl (prism.taints_eu x y z h)) hr
      subst this
      split at hv <;> simp only [Py.bind_ok, Py.pure_ok] at hv <;>
        obtain ⟨_, _, _, _, rfl⟩ := hv <;> simp
  case ee =>
    simp only [prismMagnetic, prism.magnetic_ee] at hv
    split at hv
    · exact (Py.pure_ok.1 hv).symm
    · simp only [Py.bind_ok, Py.pure_ok] at hv
      obtain ⟨r, hr, _, _, _, _, rfl⟩ := hv
      rw [fin prism.taints3_ee hr]; simp
  case nn =>
    simp only [prismMagnetic, prism.magnetic_nn] at hv
    split at hv
    · exact (Py.pure_ok.1 hv).symm
    · simp only [Py.bind_ok, Py.pure_ok] at hv
      obtain ⟨r, hr, _, _, _, _, rfl⟩ := hv
      rw [fin prism.taints3_nn hr]; simp
  case uu =>
    simp only [prismMagnetic, prism.magnetic_uu] at hv
    split at hv
    · exact (Py.pure_ok.1 hv).symm
    · simp only [Py.bind_ok, Py.pure_ok] at hv
      obtain ⟨r, hr, _, _, _, _, rfl⟩ := hv
      rw [fin prism.taints3_uu hr]; simp
  case en =>
    simp only [prismMagnetic, prism.magnetic_en] at hv
    split at hv
    · exact (Py.pure_ok.1 hv).symm
    · simp only [Py.bind_ok, Py.pure_ok] at hv
      obtain ⟨r, hr, _, _, _, _, rfl⟩ := hv
      rw [fin (fun x y z h => .inr (.inr (prism.taints_enu x y z h))) hr]; simp
  case eu =>
    simp only [prismMagnetic, prism.magnetic_eu] at hv
    split at hv
    · exact (Py.pure_ok.1 hv).symm
    · simp only [Py.bind_ok, Py.pure_ok] at hv
      obtain ⟨r, hr, _, _, _, _, rfl⟩ := hv
      rw [fin (fun x y z h => .inr (.inl (prism.taints_enu x y z h))) hr]; simp
  case nu =>
    simp only [prismMagnetic, prism.magnetic_nu] at hv
    split at hv
    · exact (Py.pure_ok.1 hv).symm
    · simp only [Py.bind_ok, Py.pure_ok] at hv
      obtain ⟨r, hr, _, _, _, _, rfl⟩ := hv
      rw [fin (fun x y z h => .inl (prism.taints_enu x y z h)) hr]; simp

/-- non-vacuity: a NaN northing in exact arithmetic -/
example : OnlyNaN (prism.gravity_u (A := Exact) (Fl.fin 0) Fl.nan (Fl.fin 1) (Fl.fin (-1)) (Fl.fin 1)
    (Fl.fin (-1)) (Fl.fin 1) (Fl.fin (-2)) (Fl.fin 0) (Fl.fin 2670)) :=
  C48_prism_gravity .u _ _ _ _ _ _ _ _ _ _ (by simp)

/-! ## C49 -/

/-- **C49.** At the points where `prism.gravity_<c>` is documented to be undefined it returns NaN,
in every floating-point arithmetic. -/
theorem C49_gravity (c : GComp) (p : Pt) (P : Box) (hp : p ∈ P.singular c) (ρ : Fl A) :
    ReturnsNaN (onPrism (A := A) (prismGravity c) p P ρ) := by
  obtain ⟨-, hE, hN, hU⟩ := C18_edges_by_direction (A := A) p P
  cases c
  case pot => exact hp.elim
  case e => exact hp.elim
  case n => exact hp.elim
  case u => exact hp.elim
  case en =>
    have h := hU.2 hp
    simp only [onPrism] at h
    simp only [ReturnsNaN, onPrism, prismGravity, prism.gravity_en, h, if_true]
    rfl
  case eu =>
    have h := hN.2 hp
    simp only [onPrism] at h
    simp only [ReturnsNaN, onPrism, prismGravity, prism.gravity_eu, h, if_true]
    rfl
  case nu =>
    have h := hE.2 hp
    simp only [onPrism] at h
    simp only [ReturnsNaN, onPrism, prismGravity, prism.gravity_nu, h, if_true]
    rfl
  case ee =>
    have h := hp.imp hN.2 hU.2
    rw [← Bool.or_eq_true] at h
    simp only [onPrism] at h
    simp only [ReturnsNaN, onPrism, prismGravity, prism.gravity_ee, h, if_true]
    rfl
  case nn =>
    have h := hp.imp hE.2 hU.2
    rw [← Bool.or_eq_true] at h
    simp only [onPrism] at h
    simp only [ReturnsNaN, onPrism, prismGravity, prism.gravity_nn, h, if_true]
    rfl
  case uu =>
    have h := hp.imp hE.2 hN.2
    rw [← Bool.or_eq_true] at h
    simp only [onPrism] at h
    simp only [ReturnsNaN, onPrism, prismGravity, prism.gravity_uu, h, if_true]
    rfl

/-- **C49.** On the edges and strictly inside the prism every scalar `prism.magnetic_*` returns NaN
and `prism.magnetic_field` returns three NaNs, in every floating-point arithmetic. -/
theorem C49_magnetic (p : Pt) (P : Box) (hp : p ∈ P.edges ∪ interior P.region) (Me Mn Mu : Fl A) :
    (∀ c, ReturnsNaN (onPrism (A := A) (prismMagnetic c) p P Me Mn Mu)) ∧
    onPrism (A := A) prism.magnetic_field p P Me Mn Mu = .ok (Fl.nan, Fl.nan, Fl.nan) := by
  have h : (onPrism (A := A) prism.is_point_on_edge p P
      || onPrism (A := A) prism.is_interior_point p P) = true := by
    rw [Bool.or_eq_true]
    obtain ⟨h0, hE, hN, hU⟩ := C18_edges_by_direction (A := A) p P
    rcases hp with ((hp | hp) | hp) | hp
    · exact .inl (h0.2 (.inl (hE.2 hp)))
    · exact .inl (h0.2 (.inr (.inl (hN.2 hp))))
    · exact .inl (h0.2 (.inr (.inr (hU.2 hp))))
    · exact .inr ((C18_interior p P).2 hp)
  simp only [onPrism] at h
  constructor
  · intro c
    cases c <;>
    · simp only [ReturnsNaN, onPrism, prismMagnetic, prism.magnetic_e, prism.magnetic_n,
        prism.magnetic_u, prism.magnetic_ee, prism.magnetic_nn, prism.magnetic_uu,
        prism.magnetic_en, prism.magnetic_eu, prism.magnetic_nu, h, if_true]
      rfl
  · simp only [onPrism, prism.magnetic_field, h, if_true]
    rfl

/-- non-vacuity: a point on an edge, and a point inside -/
example : ((1, 1, -1) : Pt) ∈ (Box.mk (-1) 1 (-1) 1 (-2) 0).singular .en := by
  simp only [Box.singular, Box.edgesU, Set.mem_ofPred_eq, Set.mem_Icc]
  norm_num

end Choclo
