import Verif.Lemmas.NoRaise
import Verif.Model.Binary64
import Verif.Props.PrismPoints

/-! # C52: which prism functions can raise in floating-point arithmetic -/

namespace Choclo

variable {A : Arith}

/-- The call returns something (a number, an infinity or NaN): it does not raise. -/
def DoesNotRaise {α : Type} (call : Py α) : Prop := ∃ v, call = .ok v

/-- **C52.** No `prism.gravity_*` function ever raises, for any arguments (finite, infinite, NaN,
boundaries in any order), in any arithmetic with monotone rounding. -/
theorem C52_gravity (h : A.Monotone) (c : GComp) (e n u w E s N b t ρ : Fl A) :
    DoesNotRaise (prismGravity c e n u w E s N b t ρ) := by
  have ev := fun {K : prism.Kernel A} (hK : prism.Safe K) =>
    prism.evaluate_ok h hK e n u w E s N b t
  cases c
  case pot => exact prism.bind_ok_ok (ev (prism.safe_pot h)) fun _ => ⟨_, rfl⟩
  case e => exact prism.bind_ok_ok (ev (prism.safe_e h)) fun _ => ⟨_, rfl⟩
  case n => exact prism.bind_ok_ok (ev (prism.safe_n h)) fun _ => ⟨_, rfl⟩
  case u => exact prism.bind_ok_ok (ev (prism.safe_u h)) fun _ => ⟨_, rfl⟩
  case en =>
    unfold DoesNotRaise prismGravity prism.gravity_en
    dsimp only
    split
    · exact ⟨_, rfl⟩
    · exact prism.bind_ok_ok (ev (prism.safe_en h)) fun _ => ⟨_, rfl⟩
  case eu =>
    unfold DoesNotRaise prismGravity prism.gravity_eu
    dsimp only
    split
    · exact ⟨_, rfl⟩
    · exact prism.bind_ok_ok (ev (prism.safe_eu h)) fun _ => ⟨_, rfl⟩
  case nu =>
    unfold DoesNotRaise prismGravity prism.gravity_nu
    dsimp only
    split
    · exact ⟨_, rfl⟩
    · exact prism.bind_ok_ok (ev (prism.safe_nu h)) fun _ => ⟨_, rfl⟩
  case ee =>
    unfold DoesNotRaise prismGravity prism.gravity_ee
    dsimp only
    split
    · exact ⟨_, rfl⟩
    · refine prism.bind_ok_ok (ev prism.safe_ee) fun _ => ?_
      split <;> exact ⟨_, rfl⟩
  case nn =>
    unfold DoesNotRaise prismGravity prism.gravity_nn
    dsimp only
    split
    · exact ⟨_, rfl⟩
    · refine prism.bind_ok_ok (ev prism.safe_nn) fun _ => ?_
      split <;> exact ⟨_, rfl⟩
  case uu =>
    unfold DoesNotRaise prismGravity prism.gravity_uu
    dsimp only
    split
    · exact ⟨_, rfl⟩
    · refine prism.bind_ok_ok (ev prism.safe_uu) fun _ => ?_
      split <;> exact ⟨_, rfl⟩

/-- the constant `μ₀ / 4 / π` of the magnetic functions -/
theorem cm_ok (hpi : A.pi ≠ 0) {β : Type} {f : Fl A → Py β} (hf : ∀ v, ∃ w, f v = .ok w) :
    ∃ w, ((VACUUM_MAGNETIC_PERMEABILITY : Fl A) /. 4 >>= fun c => c /. Fl.pi >>= f) = .ok w := by
  refine prism.bind_ok_ok (Fl.div_ok _ ?_) fun _ => prism.bind_ok_ok (Fl.div_ok _ ?_) hf
  · intro h
    have h' : (Raw.fin ((4 : ℕ) : ℝ)) = Raw.fin 0 := h
    simp at h'
  · intro h
    have h' : Raw.fin A.pi = Raw.fin 0 := h
    exact hpi (by simpa using h')

/-- **C52.** Neither do the magnetic field components `prism.magnetic_e/n/u` and
`prism.magnetic_field`. -/
theorem C52_magnetic_field (h : A.Monotone) (hpi : A.pi ≠ 0)
    (e n u w E s N b t Me Mn Mu : Fl A) :
    DoesNotRaise (prism.magnetic_e e n u w E s N b t Me Mn Mu) ∧
    DoesNotRaise (prism.magnetic_n e n u w E s N b t Me Mn Mu) ∧
    DoesNotRaise (prism.magnetic_u e n u w E s N b t Me Mn Mu) ∧
    DoesNotRaise (prism.magnetic_field e n u w E s N b t Me Mn Mu) := by
  have ev := fun {K1 K2 K3 : prism.Kernel A} (h1 : prism.Safe K1) (h2 : prism.Safe K2)
    (h3 : prism.Safe K3) => prism.component_ok h h1 h2 h3 e n u w E s N b t Me Mn Mu
  have eve := ev prism.safe_ee (prism.safe_en h) (prism.safe_eu h)
  have evn := ev (prism.safe_en h) prism.safe_nn (prism.safe_nu h)
  have evu := ev (prism.safe_eu h) (prism.safe_nu h) prism.safe_uu
  refine ⟨?_, ?_, ?_, ?_⟩
  · unfold DoesNotRaise prism.magnetic_e
    dsimp only
    split
    · exact ⟨_, rfl⟩
    · refine prism.bind_ok_ok eve fun _ => ?_
      split <;> exact cm_ok hpi fun _ => ⟨_, rfl⟩
  · unfold DoesNotRaise prism.magnetic_n
    dsimp only
    split
    · exact ⟨_, rfl⟩
    · refine prism.bind_ok_ok evn fun _ => ?_
      split <;> exact cm_ok hpi fun _ => ⟨_, rfl⟩
  · unfold DoesNotRaise prism.magnetic_u
    dsimp only
    split
    · exact ⟨_, rfl⟩
    · refine prism.bind_ok_ok evu fun _ => ?_
      split <;> exact cm_ok hpi fun _ => ⟨_, rfl⟩
  · unfold DoesNotRaise
    rw [prism.magnetic_field_unroll, prism.fieldLoop_components]
    split
    · exact ⟨_, rfl⟩
    · refine prism.bind_ok_ok (prism.bind_ok_ok eve fun _ => prism.bind_ok_ok evn fun _ =>
        prism.bind_ok_ok evu fun _ => ⟨_, rfl⟩) fun _ => cm_ok hpi fun _ => ⟨_, rfl⟩

/-- Binary64 meets the hypotheses, so choclo's gravity and magnetic field functions never raise in
IEEE double precision. -/
example (c : GComp) (e n u w E s N b t ρ : Fl Binary64) :
    DoesNotRaise (prismGravity c e n u w E s N b t ρ) := C52_gravity Binary64_monotone c _ _ _ _ _ _ _ _ _ _
example (e n u w E s N b t Me Mn Mu : Fl Binary64) :
    DoesNotRaise (prism.magnetic_field e n u w E s N b t Me Mn Mu) :=
  (C52_magnetic_field Binary64_monotone Binary64_pi_ne_zero _ _ _ _ _ _ _ _ _ _ _ _).2.2.2

/-! ### The gradients can raise -/

theorem B64.round_tiny {x : ℝ} (h : |x| < 2 ^ (-1075 : ℤ)) : B64.round x = 0 := by
  unfold B64.round
  have hq : B64.qexp x ≥ -1074 := le_max_right _ _
  have h2 := B64.two_zpow_pos (B64.qexp x)
  have h3 : |x / 2 ^ B64.qexp x| < 1 / 2 := by
    rw [abs_div, abs_of_pos h2, div_lt_iff₀ h2]
    calc |x| < 2 ^ (-1075 : ℤ) := h
      _ = 1 / 2 * 2 ^ (-1074 : ℤ) := by
        rw [show (-1075 : ℤ) = -1074 - 1 by norm_num, zpow_sub_one₀ (by norm_num)]
        ring
      _ ≤ _ := by gcongr; norm_num
  have h4 := abs_rne_sub_le (x / 2 ^ B64.qexp x)
  rw [abs_lt] at h3
  rw [abs_le] at h4
  have h5 : (rne (x / 2 ^ B64.qexp x) : ℝ) < 1 := by linarith [h4.2, h3.2]
  have h6 : (-1 : ℝ) < (rne (x / 2 ^ B64.qexp x) : ℝ) := by linarith [h4.1, h3.1]
  have h7 : rne (x / 2 ^ B64.qexp x) = 0 := by
    have a : rne (x / 2 ^ B64.qexp x) < 1 := by exact_mod_cast h5
    have b : (-1 : ℤ) < rne (x / 2 ^ B64.qexp x) := by exact_mod_cast h6
    omega
  rw [h7]
  simp

theorem B64.rnd_tiny {x : ℝ} (h : |x| < 2 ^ (-1075 : ℤ)) : B64.rnd x = .fin 0 := by
  unfold B64.rnd
  rw [B64.round_tiny h, abs_zero, if_pos (B64.two_zpow_pos _)]

theorem B64.rnd_zpow {z : ℤ} (h1 : -1074 ≤ z) (h2 : z < 1024) : B64.rnd (2 ^ z) = .fin (2 ^ z) := by
  refine (B64.isF_zpow h1).rnd ?_
  rw [abs_of_pos (B64.two_zpow_pos z)]
  exact zpow_lt_zpow_right₀ (by norm_num) h2

theorem Fl.div_zero_raises (a : Fl A) : a /. (Fl.fin 0) = .error .zeroDivision := by
  cases a <;> exact if_pos rfl

/-- A point below a prism, `2⁻⁶⁰⁰` away from the line through one of its vertical edges. -/
noncomputable def raisingPt : Pt := (-(2 ^ (-600 : ℤ)), -(2 ^ (-600 : ℤ)), 0)
/-- The prism of the example. -/
noncomputable def raisingBox : Box := ⟨-1, 0, -1, 0, 1 / 2, 1⟩

/-- **C52.** In binary64 the gradient functions can raise `ZeroDivisionError` at a point outside the
prism: the squares of tiny offsets underflow to zero. -/
theorem C52_gradient_raises (Me Mn Mu : Fl Binary64) :
    raisingPt ∉ raisingBox.region ∧ raisingBox.Proper ∧
    RaisesZeroDivision (onPrism prism.magnetic_ee raisingPt raisingBox Me Mn Mu) := by
  have hout : raisingPt ∉ raisingBox.region := by
    simp only [raisingPt, raisingBox, Box.region, Set.mem_prod, Set.mem_Icc]
    norm_num
  have hP : raisingBox.Proper := by
    simp only [raisingBox, Box.Proper]
    norm_num
  refine ⟨hout, hP, ?_⟩
  have h1 : onPrism (A := Binary64) prism.is_point_on_edge raisingPt raisingBox = false := by
    rw [← Bool.not_eq_true, C18_edge ⟨hP.1.le, hP.2.1.le, hP.2.2.le⟩]
    exact fun h => hout h.1
  have h2 : onPrism (A := Binary64) prism.is_interior_point raisingPt raisingBox = false := by
    rw [← Bool.not_eq_true, C18_interior]
    exact fun h => hout (interior_subset h)
  unfold RaisesZeroDivision
  simp only [onPrism] at h1 h2 ⊢
  rw [prism.magnetic_ee, h1, h2, Bool.or_self, if_neg (by simp), prism.calculate_component_steps]
  set ε : ℝ := 2 ^ (-600 : ℤ) with hε
  have hεpos : 0 < ε := B64.two_zpow_pos _
  have e1 : ((raisingBox.east : Fl Binary64) - (raisingPt.e : Fl Binary64)) = Fl.fin ε := by
    show (B64.rnd (0 + - -ε) : Raw) = Raw.fin ε
    rw [neg_neg, zero_add]
    exact B64.rnd_zpow (by norm_num) (by norm_num)
  have e2 : ((raisingBox.north : Fl Binary64) - (raisingPt.n : Fl Binary64)) = Fl.fin ε := e1
  have one : B64.rnd 1 = .fin 1 := by
    have := B64.rnd_zpow (z := 0) (by norm_num) (by norm_num)
    simpa using this
  have e3 : ((raisingBox.top : Fl Binary64) - (raisingPt.u : Fl Binary64)) = Fl.fin 1 := by
    show (B64.rnd (1 + -0) : Raw) = Raw.fin 1
    rw [neg_zero, add_zero, one]
  have sqε : (Fl.fin ε : Fl Binary64) ^ 2 = Fl.fin 0 := by
    show (B64.rnd (ε ^ 2) : Raw) = Raw.fin 0
    apply B64.rnd_tiny
    rw [abs_of_pos (by positivity), hε, ← zpow_natCast, ← zpow_mul]
    exact zpow_lt_zpow_right₀ (by norm_num) (by norm_num)
  have sq1 : (Fl.fin 1 : Fl Binary64) ^ 2 = Fl.fin 1 := by
    show (B64.rnd (1 ^ 2) : Raw) = Raw.fin 1
    rw [one_pow, one]
  have a00 : (Fl.fin 0 + Fl.fin 0 : Fl Binary64) = Fl.fin 0 := by
    show (B64.rnd (0 + 0) : Raw) = Raw.fin 0
    rw [add_zero, B64.rnd_zero]
  have a01 : (Fl.fin 0 + Fl.fin 1 : Fl Binary64) = Fl.fin 1 := by
    show (B64.rnd (0 + 1) : Raw) = Raw.fin 1
    rw [zero_add, one]
  have m01 : (Fl.fin 0 * Fl.fin 1 : Fl Binary64) = Fl.fin 0 := by
    show (B64.rnd (0 * 1) : Raw) = Raw.fin 0
    rw [zero_mul, B64.rnd_zero]
  have hr : prism.vrad (Fl.fin ε : Fl Binary64) (Fl.fin ε) (Fl.fin 1) = Fl.fin 1 := by
    unfold prism.vrad
    rw [sqε, sq1, a00, a01]
    have : Fl.sqrt (Fl.fin 1 : Fl Binary64) = Fl.ofRaw (B64.rnd (Real.sqrt 1)) :=
      if_neg (by norm_num)
    rw [this, Real.sqrt_one, one]
    rfl
  have hk : prism.vker (prism.kernel_eee (A := Binary64)) (Fl.fin ε) (Fl.fin ε) (Fl.fin 1) =
      .error .zeroDivision := by
    unfold prism.vker prism.kernel_eee prism._kernel_iii
    have n1 : Fl.eq (Fl.fin 1 : Fl Binary64) 0 = false := by
      have : (0 : Fl Binary64) = Fl.fin ((0 : ℕ) : ℝ) := rfl
      rw [this, Fl.eq_fin_any]; simp
    have n2 : Fl.eq (Fl.fin ε : Fl Binary64) 0 = false := by
      have : (0 : Fl Binary64) = Fl.fin ((0 : ℕ) : ℝ) := rfl
      rw [this, Fl.eq_fin_any]; simpa using hεpos.ne'
    rw [hr]
    simp only [n1, n2, Bool.false_and, Bool.or_self, Bool.false_eq_true, if_false, sqε, sq1, a00,
      a01, m01]
    rw [Fl.div_zero_raises]
  rw [e1, e2, e3]
  have hs : ∀ acc : Fl Binary64, prism.compStep 0 (Fl.fin ε) (Fl.fin ε) (Fl.fin 1) Me Mn Mu
      prism.kernel_eee prism.kernel_een prism.kernel_eeu acc = .error .zeroDivision := by
    intro acc
    unfold prism.compStep
    rw [hk]
    rfl
  rw [hs]
  rfl

end Choclo
