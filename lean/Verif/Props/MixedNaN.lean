import Verif.Lemmas.MixedNaN
import Verif.Spec.MixedPrism

/-! # C121: NaN in, NaN out for float32 and float64 arguments -/

namespace Choclo

variable {S D : Arith}

/-- The call returns NaN, as a float32 or a float64. -/
def Mixed.ReturnsNaN (call : Py (MFl S D)) : Prop := ∃ v, call = .ok v ∧ v.IsNaN

/-- **C121.** A NaN coordinate, float32 or float64, makes `distance_cartesian` return NaN, -/
theorem C121_distance (e n u e' n' u' : MFl S D) (h : ∃ a ∈ [e, n, u, e', n', u'], a.IsNaN) :
    Mixed.ReturnsNaN (Mixed.utils.distance_cartesian e n u e' n' u') := by
  refine ⟨_, rfl, ?_⟩
  simp only [List.mem_cons, List.not_mem_nil, or_false, exists_eq_or_imp, exists_eq_left] at h
  have key : (e - e').IsNaN ∨ (n - n').IsNaN ∨ (u - u').IsNaN := by
    rcases h with h | h | h | h | h | h
    · exact .inl (MFl.isNaN_sub_left h)
    · exact .inr (.inl (MFl.isNaN_sub_left h))
    · exact .inr (.inr (MFl.isNaN_sub_left h))
    · exact .inl (MFl.isNaN_sub_right h)
    · exact .inr (.inl (MFl.isNaN_sub_right h))
    · exact .inr (.inr (MFl.isNaN_sub_right h))
  exact Mixed.prism.vrad_nan key

/-- `distance_spherical` return NaN, -/
theorem C121_spherical (lon lat r lon' lat' r' : MFl S D) (h : ∃ a ∈ [lon, lat, r, lon', lat', r'], a.IsNaN) :
    Mixed.ReturnsNaN (Mixed.utils.distance_spherical lon lat r lon' lat' r') := by
  refine ⟨_, rfl, ?_⟩
  simp only [List.mem_cons, List.not_mem_nil, or_false, exists_eq_or_imp, exists_eq_left] at h
  refine MFl.isNaN_sqrt ?_
  have hc : ∀ c : MFl S D, c.IsNaN → ((r - r') ^ 2 + 2 * r * r' * (1 - c)).IsNaN := fun c hc =>
    MFl.isNaN_add_right (MFl.isNaN_mul_right (MFl.isNaN_sub_right hc))
  rcases h with h | h | h | h | h | h
  · exact hc _ (MFl.isNaN_add_right (MFl.isNaN_mul_right (MFl.isNaN_cos (MFl.isNaN_sub_right (MFl.isNaN_radians h)))))
  · exact hc _ (MFl.isNaN_add_left (MFl.isNaN_mul_right (MFl.isNaN_sin (MFl.isNaN_radians h))))
  · exact MFl.isNaN_add_left (MFl.isNaN_pow (MFl.isNaN_sub_left h) 2)
  · exact hc _ (MFl.isNaN_add_right (MFl.isNaN_mul_right (MFl.isNaN_cos (MFl.isNaN_sub_left (MFl.isNaN_radians h)))))
  · exact hc _ (MFl.isNaN_add_left (MFl.isNaN_mul_left (MFl.isNaN_sin (MFl.isNaN_radians h))))
  · exact MFl.isNaN_add_left (MFl.isNaN_pow (MFl.isNaN_sub_right h) 2)

/-- and every `point.gravity_*` return NaN, without an exception. -/
theorem C121_point_coordinate (c : GComp) (e n u e' n' u' m : MFl S D)
    (h : ∃ a ∈ [e, n, u, e', n', u'], a.IsNaN) :
    Mixed.ReturnsNaN (Mixed.pointGravity c e n u e' n' u' m) := by
  obtain ⟨d, hd, hn⟩ := C121_distance e n u e' n' u' h
  have q : ∀ (x y : MFl S D), y.IsNaN → ∃ k, x /ₘ y = .ok k ∧ k.IsNaN := fun x y hy => MFl.isNaN_div_right hy
  have key : ∀ K : Py (MFl S D), (∃ k, K = .ok k ∧ k.IsNaN) →
      Mixed.ReturnsNaN (K >>= fun k => pure (Mixed.GRAVITATIONAL_CONST * m * k)) := by
    rintro K ⟨k, rfl, hk⟩
    exact ⟨_, rfl, MFl.isNaN_mul_right hk⟩
  have ok : ∀ (f : MFl S D → Py (MFl S D)), ((.ok d : Py (MFl S D)) >>= f) = f d := fun _ => rfl
  have diag : ∀ x : MFl S D, ∃ k, (do
      let a ← 3 * x ^ 2 /ₘ d ^ 5
      let b ← 1 /ₘ d ^ 3
      return a - b : Py (MFl S D)) = .ok k ∧ k.IsNaN := by
    intro x
    obtain ⟨a, ha, hna⟩ := q (3 * x ^ 2) (d ^ 5) (MFl.isNaN_pow hn 5)
    obtain ⟨b, hb, hnb⟩ := q 1 (d ^ 3) (MFl.isNaN_pow hn 3)
    rw [ha, hb]
    exact ⟨_, rfl, MFl.isNaN_sub_left hna⟩
  cases c <;>
  · simp only [Mixed.pointGravity, Mixed.point.gravity_pot, Mixed.point.gravity_e, Mixed.point.gravity_n,
      Mixed.point.gravity_u, Mixed.point.gravity_ee, Mixed.point.gravity_nn, Mixed.point.gravity_uu,
      Mixed.point.gravity_en, Mixed.point.gravity_eu, Mixed.point.gravity_nu, hd]
    rw [ok]
    refine key _ ?_
    simp only [Mixed.point.kernel_pot, Mixed.point.kernel_e, Mixed.point.kernel_n, Mixed.point.kernel_u,
      Mixed.point.kernel_ee, Mixed.point.kernel_nn, Mixed.point.kernel_uu, Mixed.point.kernel_en,
      Mixed.point.kernel_eu, Mixed.point.kernel_nu]
    first
      | exact diag _
      | exact q _ _ hn
      | exact q _ _ (MFl.isNaN_pow hn _)

/-- **C121.** A NaN mass never gives a number. -/
theorem C121_point_mass (c : GComp) (e n u e' n' u' m : MFl S D) (hm : m.IsNaN) :
    Mixed.OnlyNaN (Mixed.pointGravity c e n u e' n' u' m) := by
  intro v hv
  cases c <;>
  · simp only [Mixed.pointGravity, Mixed.point.gravity_pot, Mixed.point.gravity_e, Mixed.point.gravity_n,
      Mixed.point.gravity_u, Mixed.point.gravity_ee, Mixed.point.gravity_nn, Mixed.point.gravity_uu,
      Mixed.point.gravity_en, Mixed.point.gravity_eu, Mixed.point.gravity_nu, Py.bind_ok, Py.pure_ok] at hv
    obtain ⟨_, _, _, _, rfl⟩ := hv
    exact MFl.isNaN_mul_left (MFl.isNaN_mul_right hm)

/-- **C121.** A NaN among coordinates and moment never gives a number: every `dipole.magnetic_*` returns NaN (or raises
for coincident points). -/
theorem C121_dipole (a : Axis) (e n u e' n' u' me mn mu : MFl S D)
    (h : ∃ a ∈ [e, n, u, e', n', u', me, mn, mu], a.IsNaN) :
    Mixed.OnlyNaN (Mixed.dipoleMagnetic a e n u e' n' u' me mn mu) := by
  intro v hv
  simp only [List.mem_cons, List.not_mem_nil, or_false, exists_eq_or_imp, exists_eq_left] at h
  have dot : (me * (e - e') + mn * (n - n') + mu * (u - u')).IsNaN := by
    rcases h with h | h | h | h | h | h | h | h | h
    · exact MFl.isNaN_add_left (MFl.isNaN_add_left (MFl.isNaN_mul_right (MFl.isNaN_sub_left h)))
    · exact MFl.isNaN_add_left (MFl.isNaN_add_right (MFl.isNaN_mul_right (MFl.isNaN_sub_left h)))
    · exact MFl.isNaN_add_right (MFl.isNaN_mul_right (MFl.isNaN_sub_left h))
    · exact MFl.isNaN_add_left (MFl.isNaN_add_left (MFl.isNaN_mul_right (MFl.isNaN_sub_right h)))
    · exact MFl.isNaN_add_left (MFl.isNaN_add_right (MFl.isNaN_mul_right (MFl.isNaN_sub_right h)))
    · exact MFl.isNaN_add_right (MFl.isNaN_mul_right (MFl.isNaN_sub_right h))
    · exact MFl.isNaN_add_left (MFl.isNaN_add_left (MFl.isNaN_mul_left h))
    · exact MFl.isNaN_add_left (MFl.isNaN_add_right (MFl.isNaN_mul_left h))
    · exact MFl.isNaN_add_right (MFl.isNaN_mul_left h)
  cases a <;>
  · simp only [Mixed.dipoleMagnetic, Mixed.dipole.magnetic_e, Mixed.dipole.magnetic_n, Mixed.dipole.magnetic_u,
      Py.bind_ok, Py.pure_ok] at hv
    obtain ⟨a1, h1, a2, h2, a3, h3, a4, h4, rfl⟩ := hv
    exact MFl.isNaN_mul_right (MFl.isNaN_sub_left
      (MFl.isNaN_of_div_left (MFl.isNaN_mul_left (MFl.isNaN_mul_right dot)) h1))

/-- **C121.** A NaN among coordinates, boundaries and density never gives a number: every `prism.gravity_*` returns NaN
(or raises). -/
theorem C121_prism_gravity (c : GComp) (e n u w E s N b t ρ : MFl S D)
    (h : ∃ a ∈ [e, n, u, w, E, s, N, b, t, ρ], a.IsNaN) :
    Mixed.OnlyNaN (Mixed.prismGravity c e n u w E s N b t ρ) := by
  intro v hv
  have h' : (∃ a ∈ [e, n, u, w, E, s, N, b, t], a.IsNaN) ∨ ρ.IsNaN := by
    simp only [List.mem_cons, List.not_mem_nil, or_false, exists_eq_or_imp, exists_eq_left] at h ⊢
    tauto
  have F : ∀ {K : Mixed.prism.Kernel S D} {r : MFl S D}, Mixed.prism.Taints K →
      Mixed.prism._evaluate_kernel e n u w E s N b t K = .ok r → r.IsNaN ∨ ρ.IsNaN := by
    intro K r hK hr
    rcases h' with h' | h'
    · exact .inl (Mixed.prism.evaluate_nan hK h' hr)
    · exact .inr h'
  have fin : ∀ {r : MFl S D}, r.IsNaN ∨ ρ.IsNaN → (Mixed.GRAVITATIONAL_CONST * ρ * r : MFl S D).IsNaN := by
    rintro r (h | h)
    · exact MFl.isNaN_mul_right h
    · exact MFl.isNaN_mul_left (MFl.isNaN_mul_right h)
  cases c
  case pot =>
    simp only [Mixed.prismGravity, Mixed.prism.gravity_pot, Py.bind_ok, Py.pure_ok] at hv
    obtain ⟨r, hr, rfl⟩ := hv
    exact fin (F Mixed.prism.taints_pot hr)
  case e =>
    simp only [Mixed.prismGravity, Mixed.prism.gravity_e, Py.bind_ok, Py.pure_ok] at hv
    obtain ⟨r, hr, rfl⟩ := hv
    exact fin (F Mixed.prism.taints_e hr)
  case n =>
    simp only [Mixed.prismGravity, Mixed.prism.gravity_n, Py.bind_ok, Py.pure_ok] at hv
    obtain ⟨r, hr, rfl⟩ := hv
    exact fin (F Mixed.prism.taints_n hr)
  case u =>
    simp only [Mixed.prismGravity, Mixed.prism.gravity_u, Py.bind_ok, Py.pure_ok] at hv
    obtain ⟨r, hr, rfl⟩ := hv
    exact fin (F Mixed.prism.taints_u hr)
  case en =>
    simp only [Mixed.prismGravity, Mixed.prism.gravity_en] at hv
    split at hv
    · cases Py.pure_ok.1 hv; rfl
    · simp only [Py.bind_ok, Py.pure_ok] at hv
      obtain ⟨r, hr, rfl⟩ := hv
      exact fin (F Mixed.prism.taints_en hr)
  case eu =>
    simp only [Mixed.prismGravity, Mixed.prism.gravity_eu] at hv
    split at hv
    · cases Py.pure_ok.1 hv; rfl
    · simp only [Py.bind_ok, Py.pure_ok] at hv
      obtain ⟨r, hr, rfl⟩ := hv
      exact fin (F Mixed.prism.taints_eu hr)
  case nu =>
    simp only [Mixed.prismGravity, Mixed.prism.gravity_nu] at hv
    split at hv
    · cases Py.pure_ok.1 hv; rfl
    · simp only [Py.bind_ok, Py.pure_ok] at hv
      obtain ⟨r, hr, rfl⟩ := hv
      exact fin (F Mixed.prism.taints_nu hr)
  case ee =>
    simp only [Mixed.prismGravity, Mixed.prism.gravity_ee] at hv
    split at hv
    · cases Py.pure_ok.1 hv; rfl
    · simp only [Py.bind_ok] at hv
      obtain ⟨r, hr, hv⟩ := hv
      have hF := F Mixed.prism.taints_ee hr
      split at hv
      · cases Py.pure_ok.1 hv; exact fin (hF.imp MFl.isNaN_add_left id)
      · cases Py.pure_ok.1 hv; exact fin hF
  case nn =>
    simp only [Mixed.prismGravity, Mixed.prism.gravity_nn] at hv
    split at hv
    · cases Py.pure_ok.1 hv; rfl
    · simp only [Py.bind_ok] at hv
      obtain ⟨r, hr, hv⟩ := hv
      have hF := F Mixed.prism.taints_nn hr
      split at hv
      · cases Py.pure_ok.1 hv; exact fin (hF.imp MFl.isNaN_add_left id)
      · cases Py.pure_ok.1 hv; exact fin hF
  case uu =>
    simp only [Mixed.prismGravity, Mixed.prism.gravity_uu] at hv
    split at hv
    · cases Py.pure_ok.1 hv; rfl
    · simp only [Py.bind_ok] at hv
      obtain ⟨r, hr, hv⟩ := hv
      have hF := F Mixed.prism.taints_uu hr
      split at hv
      · cases Py.pure_ok.1 hv; exact fin (hF.imp MFl.isNaN_add_left id)
      · cases Py.pure_ok.1 hv; exact fin hF

/-- **C121.** A NaN among coordinates, boundaries and magnetization never gives a number: every scalar
`prism.magnetic_*` returns NaN (or raises). -/
theorem C121_prism_magnetic (c : MComp) (e n u w E s N b t Me Mn Mu : MFl S D)
    (h : ∃ a ∈ [e, n, u, w, E, s, N, b, t, Me, Mn, Mu], a.IsNaN) :
    Mixed.OnlyNaN (Mixed.prismMagnetic c e n u w E s N b t Me Mn Mu) := by
  intro v hv
  have F : ∀ {K1 K2 K3 : Mixed.prism.Kernel S D} {r : MFl S D}, Mixed.prism.Taints3 K1 K2 K3 →
      Mixed.prism._calculate_component e n u w E s N b t Me Mn Mu K1 K2 K3 = .ok r → r.IsNaN :=
    fun hK hr => Mixed.prism.component_nan hK h hr
  cases c
  case e =>
    simp only [Mixed.prismMagnetic, Mixed.prism.magnetic_e] at hv
    split at hv
    · cases Py.pure_ok.1 hv; rfl
    · simp only [Py.bind_ok] at hv
      obtain ⟨r, hr, hv⟩ := hv
      have hF := F (fun x y z h => .inl (Mixed.prism.taints_ee x y z h)) hr
      split at hv
      · simp only [Py.bind_ok, Py.pure_ok] at hv
        obtain ⟨_, _, _, _, rfl⟩ := hv
        exact MFl.isNaN_mul_right (MFl.isNaN_add_left hF)
      · simp only [Py.bind_ok, Py.pure_ok] at hv
        obtain ⟨_, _, _, _, rfl⟩ := hv
        exact MFl.isNaN_mul_right hF
  case n =>
    simp only [Mixed.prismMagnetic, Mixed.prism.magnetic_n] at hv
    split at hv
    · cases Py.pure_ok.1 hv; rfl
    · simp only [Py.bind_ok] at hv
      obtain ⟨r, hr, hv⟩ := hv
      have hF := F (fun x y z h => .inl (Mixed.prism.taints_en x y z h)) hr
      split at hv
      · simp only [Py.bind_ok, Py.pure_ok] at hv
        obtain ⟨_, _, _, _, rfl⟩ := hv
        exact MFl.isNaN_mul_right (MFl.isNaN_add_left hF)
      · simp only [Py.bind_ok, Py.pure_ok] at hv
        obtain ⟨_, _, _, _, rfl⟩ := hv
        exact MFl.isNaN_mul_right hF
  case u =>
    simp only [Mixed.prismMagnetic, Mixed.prism.magnetic_u] at hv
    split at hv
    · cases Py.pure_ok.1 hv; rfl
    · simp only [Py.bind_ok] at hv
      obtain ⟨r, hr, hv⟩ := hv
      have hF := F (fun x y z h => .inl (Mixed.prism.taints_eu x y z h)) hr
      split at hv
      · simp only [Py.bind_ok, Py.pure_ok] at hv
        obtain ⟨_, _, _, _, rfl⟩ := hv
        exact MFl.isNaN_mul_right (MFl.isNaN_add_left hF)
      · simp only [Py.bind_ok, Py.pure_ok] at hv
        obtain ⟨_, _, _, _, rfl⟩ := hv
        exact MFl.isNaN_mul_right hF
  case ee =>
    simp only [Mixed.prismMagnetic, Mixed.prism.magnetic_ee] at hv
    split at hv
    · cases Py.pure_ok.1 hv; rfl
    · simp only [Py.bind_ok, Py.pure_ok] at hv
      obtain ⟨r, hr, _, _, _, _, rfl⟩ := hv
      exact MFl.isNaN_mul_right (F (Mixed.prism.taints3_ee) hr)
  case nn =>
    simp only [Mixed.prismMagnetic, Mixed.prism.magnetic_nn] at hv
    split at hv
    · cases Py.pure_ok.1 hv; rfl
    · simp only [Py.bind_ok, Py.pure_ok] at hv
      obtain ⟨r, hr, _, _, _, _, rfl⟩ := hv
      exact MFl.isNaN_mul_right (F (Mixed.prism.taints3_nn) hr)
  case uu =>
    simp only [Mixed.prismMagnetic, Mixed.prism.magnetic_uu] at hv
    split at hv
    · cases Py.pure_ok.1 hv; rfl
    · simp only [Py.bind_ok, Py.pure_ok] at hv
      obtain ⟨r, hr, _, _, _, _, rfl⟩ := hv
      exact MFl.isNaN_mul_right (F (Mixed.prism.taints3_uu) hr)
  case en =>
    simp only [Mixed.prismMagnetic, Mixed.prism.magnetic_en] at hv
    split at hv
    · cases Py.pure_ok.1 hv; rfl
    · simp only [Py.bind_ok, Py.pure_ok] at hv
      obtain ⟨r, hr, _, _, _, _, rfl⟩ := hv
      exact MFl.isNaN_mul_right (F (fun x y z h => .inr (.inr (Mixed.prism.taints_enu x y z h))) hr)
  case eu =>
    simp only [Mixed.prismMagnetic, Mixed.prism.magnetic_eu] at hv
    split at hv
    · cases Py.pure_ok.1 hv; rfl
    · simp only [Py.bind_ok, Py.pure_ok] at hv
      obtain ⟨r, hr, _, _, _, _, rfl⟩ := hv
      exact MFl.isNaN_mul_right (F (fun x y z h => .inr (.inl (Mixed.prism.taints_enu x y z h))) hr)
  case nu =>
    simp only [Mixed.prismMagnetic, Mixed.prism.magnetic_nu] at hv
    split at hv
    · cases Py.pure_ok.1 hv; rfl
    · simp only [Py.bind_ok, Py.pure_ok] at hv
      obtain ⟨r, hr, _, _, _, _, rfl⟩ := hv
      exact MFl.isNaN_mul_right (F (fun x y z h => .inl (Mixed.prism.taints_enu x y z h)) hr)

/-- non-vacuity: a float32 NaN northing and float64 boundaries -/
example : Mixed.OnlyNaN (Mixed.prism.gravity_u (S := Exact) (D := Exact) (.f32 (Fl.fin 0)) (.f32 Fl.nan)
    (.f32 (Fl.fin 1)) (.f64 (Fl.fin (-1))) (.f64 (Fl.fin 1)) (.f64 (Fl.fin (-1))) (.f64 (Fl.fin 1))
    (.f64 (Fl.fin (-2))) (.f64 (Fl.fin 0)) (.f64 (Fl.fin 2670))) :=
  C121_prism_gravity .u _ _ _ _ _ _ _ _ _ _ ⟨.f32 Fl.nan, by simp, rfl⟩

end Choclo
