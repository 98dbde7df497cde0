import Verif.Lemmas.MixedNoRaise
import Verif.Props.NoRaise
import Verif.Props.SinglePrism

/-! # C112, C113: raising and NaN in calls with float32 arguments -/

namespace Choclo

open Choclo.prism (bind_ok_ok)

variable {S D : Arith}

/-! ## C112: gravity and field functions never raise -/

/-- **C112.** Whatever mixture of float32 and float64 arguments is passed (finite, infinite, NaN, boundaries in any
order), no `prism.gravity_*` function raises. -/
theorem C112_gravity (hS : S.Monotone) (hD : D.Monotone) (hSD : Arith.Embeds S D) (c : GComp)
    (e n u w E s N b t ρ : MFl S D) : DoesNotRaise (Mixed.prismGravity c e n u w E s N b t ρ) := by
  have ev := fun {K : Mixed.prism.Kernel S D} (hK : Mixed.prism.MSafe K) =>
    Mixed.prism.mevaluate_ok hS hD hK e n u w E s N b t
  cases c
  case pot => exact bind_ok_ok (ev (Mixed.prism.msafe_pot hS hD hSD)) fun _ => ⟨_, rfl⟩
  case e => exact bind_ok_ok (ev (Mixed.prism.msafe_e hS hD hSD)) fun _ => ⟨_, rfl⟩
  case n => exact bind_ok_ok (ev (Mixed.prism.msafe_n hS hD hSD)) fun _ => ⟨_, rfl⟩
  case u => exact bind_ok_ok (ev (Mixed.prism.msafe_u hS hD hSD)) fun _ => ⟨_, rfl⟩
  case en =>
    unfold DoesNotRaise Mixed.prismGravity Mixed.prism.gravity_en
    dsimp only
    split
    · exact ⟨_, rfl⟩
    · exact bind_ok_ok (ev (Mixed.prism.msafe_en hS hD hSD)) fun _ => ⟨_, rfl⟩
  case eu =>
    unfold DoesNotRaise Mixed.prismGravity Mixed.prism.gravity_eu
    dsimp only
    split
    · exact ⟨_, rfl⟩
    · exact bind_ok_ok (ev (Mixed.prism.msafe_eu hS hD hSD)) fun _ => ⟨_, rfl⟩
  case nu =>
    unfold DoesNotRaise Mixed.prismGravity Mixed.prism.gravity_nu
    dsimp only
    split
    · exact ⟨_, rfl⟩
    · exact bind_ok_ok (ev (Mixed.prism.msafe_nu hS hD hSD)) fun _ => ⟨_, rfl⟩
  case ee =>
    unfold DoesNotRaise Mixed.prismGravity Mixed.prism.gravity_ee
    dsimp only
    split
    · exact ⟨_, rfl⟩
    · refine bind_ok_ok (ev Mixed.prism.msafe_ee) fun _ => ?_
      split <;> exact ⟨_, rfl⟩
  case nn =>
    unfold DoesNotRaise Mixed.prismGravity Mixed.prism.gravity_nn
    dsimp only
    split
    · exact ⟨_, rfl⟩
    · refine bind_ok_ok (ev Mixed.prism.msafe_nn) fun _ => ?_
      split <;> exact ⟨_, rfl⟩
  case uu =>
    unfold DoesNotRaise Mixed.prismGravity Mixed.prism.gravity_uu
    dsimp only
    split
    · exact ⟨_, rfl⟩
    · refine bind_ok_ok (ev Mixed.prism.msafe_uu) fun _ => ?_
      split <;> exact ⟨_, rfl⟩

/-- the constant `μ₀ / 4 / π` of the magnetic functions -/
theorem mcm_ok (hpi : D.pi ≠ 0) {β : Type} {f : MFl S D → Py β} (hf : ∀ v, ∃ w, f v = .ok w) :
    ∃ w, (MFl.div (Mixed.VACUUM_MAGNETIC_PERMEABILITY : MFl S D) 4 >>= fun c => MFl.div c MFl.pi >>= f) = .ok w := by
  refine bind_ok_ok (MFl.div_ok _ ?_) fun _ => bind_ok_ok (MFl.div_ok _ ?_) hf
  · intro h
    have h' : (Raw.fin ((4 : ℕ) : ℝ)) = Raw.fin 0 := h
    simp at h'
  · intro h
    have h' : Raw.fin D.pi = Raw.fin 0 := h
    exact hpi (by simpa using h')

/-- **C112.** Neither do the magnetic field components `prism.magnetic_e/n/u` and `prism.magnetic_field`. -/
theorem C112_magnetic_field (hS : S.Monotone) (hD : D.Monotone) (hSD : Arith.Embeds S D) (hpi : D.pi ≠ 0)
    (e n u w E s N b t Me Mn Mu : MFl S D) :
    DoesNotRaise (Mixed.prism.magnetic_e e n u w E s N b t Me Mn Mu) ∧
    DoesNotRaise (Mixed.prism.magnetic_n e n u w E s N b t Me Mn Mu) ∧
    DoesNotRaise (Mixed.prism.magnetic_u e n u w E s N b t Me Mn Mu) ∧
    DoesNotRaise (Mixed.prism.magnetic_field e n u w E s N b t Me Mn Mu) := by
  have ev := fun {K1 K2 K3 : Mixed.prism.Kernel S D} (h1 : Mixed.prism.MSafe K1) (h2 : Mixed.prism.MSafe K2)
    (h3 : Mixed.prism.MSafe K3) => Mixed.prism.mcomponent_ok hS hD h1 h2 h3 e n u w E s N b t Me Mn Mu
  have sen := Mixed.prism.msafe_en hS hD hSD
  have seu := Mixed.prism.msafe_eu hS hD hSD
  have snu := Mixed.prism.msafe_nu hS hD hSD
  have eve := ev Mixed.prism.msafe_ee sen seu
  have evn := ev sen Mixed.prism.msafe_nn snu
  have evu := ev seu snu Mixed.prism.msafe_uu
  have k1 : DoesNotRaise (Mixed.prism.magnetic_e e n u w E s N b t Me Mn Mu) := by
    unfold DoesNotRaise Mixed.prism.magnetic_e
    dsimp only
    split
    · exact ⟨_, rfl⟩
    · refine bind_ok_ok eve fun _ => ?_
      split <;> exact mcm_ok hpi fun _ => ⟨_, rfl⟩
  have k2 : DoesNotRaise (Mixed.prism.magnetic_n e n u w E s N b t Me Mn Mu) := by
    unfold DoesNotRaise Mixed.prism.magnetic_n
    dsimp only
    split
    · exact ⟨_, rfl⟩
    · refine bind_ok_ok evn fun _ => ?_
      split <;> exact mcm_ok hpi fun _ => ⟨_, rfl⟩
  have k3 : DoesNotRaise (Mixed.prism.magnetic_u e n u w E s N b t Me Mn Mu) := by
    unfold DoesNotRaise Mixed.prism.magnetic_u
    dsimp only
    split
    · exact ⟨_, rfl⟩
    · refine bind_ok_ok evu fun _ => ?_
      split <;> exact mcm_ok hpi fun _ => ⟨_, rfl⟩
  refine ⟨k1, k2, k3, ?_⟩
  unfold DoesNotRaise
  rw [C111_prism]
  exact bind_ok_ok k1 fun _ => bind_ok_ok k2 fun _ => bind_ok_ok k3 fun _ => ⟨_, rfl⟩

/-- every float32 number is a float64 number -/
theorem numba_embeds : Arith.Embeds Numba32 Numba64 := by
  intro x h
  obtain ⟨h1, h2⟩ := B32.rnd_eq_fin h
  obtain ⟨m, q, hm, hq, hx⟩ := B32.isF_round x
  rw [h1] at hx
  refine B64.IsF.rnd ⟨m, q, hm.trans (by norm_num), by omega, hx⟩ (h2.trans ?_)
  exact zpow_lt_zpow_right₀ (by norm_num) (by norm_num)

/-- **C112, for Numba.** No gravity or magnetic field function compiled by Numba raises. -/
theorem C112_single (e n u w E s N b t : MFl Numba32 Numba64) :
    (∀ (c : GComp) (ρ : MFl Numba32 Numba64), DoesNotRaise (Mixed.prismGravity c e n u w E s N b t ρ)) ∧
    ∀ Me Mn Mu : MFl Numba32 Numba64,
      DoesNotRaise (Mixed.prism.magnetic_e e n u w E s N b t Me Mn Mu) ∧
      DoesNotRaise (Mixed.prism.magnetic_n e n u w E s N b t Me Mn Mu) ∧
      DoesNotRaise (Mixed.prism.magnetic_u e n u w E s N b t Me Mn Mu) ∧
      DoesNotRaise (Mixed.prism.magnetic_field e n u w E s N b t Me Mn Mu) :=
  ⟨fun c _ => C112_gravity (numbaPow_monotone Binary32_monotone) (numbaPow_monotone Binary64_monotone) numba_embeds c ..,
    fun _ _ _ => C112_magnetic_field (numbaPow_monotone Binary32_monotone) (numbaPow_monotone Binary64_monotone)
      numba_embeds Binary64_pi_ne_zero ..⟩

/-! ### The gradient functions can raise, much sooner than in double precision -/

theorem B32.round_tiny {x : ℝ} (h : |x| < 2 ^ (-150 : ℤ)) : B32.round x = 0 := by
  unfold B32.round
  have hq : B32.qexp x ≥ -149 := le_max_right _ _
  have h2 := B32.two_zpow_pos (B32.qexp x)
  have h3 : |x / 2 ^ B32.qexp x| < 1 / 2 := by
    rw [abs_div, abs_of_pos h2, div_lt_iff₀ h2]
    calc |x| < 2 ^ (-150 : ℤ) := h
      _ = 1 / 2 * 2 ^ (-149 : ℤ) := by
        rw [show (-150 : ℤ) = -149 - 1 by norm_num, zpow_sub_one₀ (by norm_num)]
        ring
      _ ≤ _ := by gcongr; norm_num
  have h4 := abs_rne_sub_le (x / 2 ^ B32.qexp x)
  rw [abs_lt] at h3
  rw [abs_le] at h4
  have h5 : (rne (x / 2 ^ B32.qexp x) : ℝ) < 1 := by linarith [h4.2, h3.2]
  have h6 : (-1 : ℝ) < (rne (x / 2 ^ B32.qexp x) : ℝ) := by linarith [h4.1, h3.1]
  have h7 : rne (x / 2 ^ B32.qexp x) = 0 := by
    have a : rne (x / 2 ^ B32.qexp x) < 1 := by exact_mod_cast h5
    have b : (-1 : ℤ) < rne (x / 2 ^ B32.qexp x) := by exact_mod_cast h6
    omega
  rw [h7]
  simp

theorem B32.rnd_tiny {x : ℝ} (h : |x| < 2 ^ (-150 : ℤ)) : B32.rnd x = .fin 0 := by
  unfold B32.rnd
  rw [B32.round_tiny h, abs_zero, if_pos (B32.two_zpow_pos _)]

theorem B32.rnd_zpow {z : ℤ} (h1 : -149 ≤ z) (h2 : z < 128) : B32.rnd (2 ^ z) = .fin (2 ^ z) := by
  refine (B32.isF_zpow h1).rnd ?_
  rw [abs_of_pos (B32.two_zpow_pos z)]
  exact zpow_lt_zpow_right₀ (by norm_num) h2

/-- A point below a prism, `2⁻⁸⁰` away from the line through one of its vertical edges. -/
noncomputable def raisingPt32 : Pt := (-(2 ^ (-80 : ℤ)), -(2 ^ (-80 : ℤ)), 0)

/-- The prism function `f`, called with the float32 numbers that are the coordinates of `p` and the boundaries of `P`. -/
noncomputable def Mixed.onPrism32 {β : Type} (f : MFl S D → MFl S D → MFl S D → MFl S D → MFl S D → MFl S D → MFl S D →
    MFl S D → MFl S D → β) (p : Pt) (P : Box) : β :=
  f (.f32 (Fl.fin p.e)) (.f32 (Fl.fin p.n)) (.f32 (Fl.fin p.u)) (.f32 (Fl.fin P.west)) (.f32 (Fl.fin P.east))
    (.f32 (Fl.fin P.south)) (.f32 (Fl.fin P.north)) (.f32 (Fl.fin P.bottom)) (.f32 (Fl.fin P.top))

theorem MFl.div_zero_raises (a : MFl S D) {b : MFl S D} (h : b.toD = Fl.fin 0) : MFl.div a b = .error .zeroDivision := by
  cases a with
  | f32 a =>
    cases b with
    | f32 b =>
      change Except.map _ (a /. b) = _
      rw [show b = Fl.fin 0 from h, Fl.div_zero_raises]; rfl
    | f64 b =>
      change Except.map _ (a.up /. b) = _
      rw [show b = Fl.fin 0 from h, Fl.div_zero_raises]; rfl
  | f64 a =>
    change Except.map _ (a /. b.toD) = _
    rw [h, Fl.div_zero_raises]; rfl

theorem numba32_sq (x : ℝ) : (Fl.fin x : Fl Numba32) ^ 2 = Fl.ofRaw (B32.rnd (x ^ 2)) := numbaPow_sq (A := Binary32) x

theorem raising32_facts : raisingPt32 ∉ raisingBox.region ∧ raisingBox.Proper ∧ raisingPt32 ∉ raisingBox.edges ∧
    raisingPt32 ∉ interior raisingBox.region ∧ ModerateOffsets raisingPt32 raisingBox := by
  have hout : raisingPt32 ∉ raisingBox.region := by
    simp only [raisingPt32, raisingBox, Box.region, Set.mem_prod, Set.mem_Icc]
    norm_num
  have hP : raisingBox.Proper := by
    simp only [raisingBox, Box.Proper]
    norm_num
  have hO : raisingBox.Ordered := ⟨hP.1.le, hP.2.1.le, hP.2.2.le⟩
  refine ⟨hout, hP, fun h => hout (by rw [C18_cover hO]; exact .inl (.inr h)), fun h => hout (interior_subset h), ?_⟩
  have key : ∀ x : ℝ, (2 : ℝ) ^ (-80 : ℤ) ≤ |x| → |x| ≤ 2 ^ (80 : ℤ) → ModerateSize x := fun x h1 h2 => .inr ⟨h1, h2⟩
  refine ⟨?_, ?_, ?_, ?_, ?_, ?_⟩ <;> simp only [raisingPt32, raisingBox, Pt.e, Pt.n, Pt.u] <;> apply key <;>
    norm_num [abs_of_pos, abs_of_neg]

theorem B32.rnd_one : B32.rnd 1 = .fin 1 := by
  have := B32.rnd_zpow (z := 0) (by norm_num) (by norm_num)
  simpa using this

theorem up_fin (x : ℝ) : ((Fl.fin x : Fl S).up : Fl D) = Fl.fin x := rfl

theorem pow_f32 (x : Fl S) (k : ℕ) : (.f32 x : MFl S D) ^ k = .f32 (x ^ k) := rfl
theorem add_f32_f32 (x y : Fl S) : (.f32 x + .f32 y : MFl S D) = .f32 (x + y) := rfl
theorem sub_f32_f32 (x y : Fl S) : (.f32 x - .f32 y : MFl S D) = .f32 (x - y) := rfl
theorem mul_f32_f32 (x y : Fl S) : (.f32 x * .f32 y : MFl S D) = .f32 (x * y) := rfl
theorem sqrt_f32 (x : Fl S) : MFl.sqrt (.f32 x : MFl S D) = .f32 (Fl.sqrt x) := rfl
theorem numba32_rnd (x : ℝ) : Numba32.rnd x = B32.rnd x := rfl
theorem fin_add_any {A : Arith} (x y : ℝ) : (Fl.fin x + Fl.fin y : Fl A) = Fl.ofRaw (A.rnd (x + y)) := rfl
theorem fin_sub_any {A : Arith} (x y : ℝ) : (Fl.fin x - Fl.fin y : Fl A) = Fl.ofRaw (A.rnd (x + -y)) := rfl
theorem fin_mul_any {A : Arith} (x y : ℝ) : (Fl.fin x * Fl.fin y : Fl A) = Fl.ofRaw (A.rnd (x * y)) := rfl
theorem ofRaw_fin' {A : Arith} (x : ℝ) : (Fl.ofRaw (.fin x) : Fl A) = Fl.fin x := rfl

theorem raising_sq {ε : ℝ} (hε : ε ^ 2 < 2 ^ (-150 : ℤ)) : (.f32 (Fl.fin ε) : MFl Numba32 Numba64) ^ 2 = .f32 (Fl.fin 0) := by
  rw [pow_f32, numba32_sq, B32.rnd_tiny (by rwa [abs_of_nonneg (sq_nonneg ε)]), ofRaw_fin']

theorem raising_sq1 : (.f32 (Fl.fin 1) : MFl Numba32 Numba64) ^ 2 = .f32 (Fl.fin 1) := by
  rw [pow_f32, numba32_sq, one_pow, B32.rnd_one, ofRaw_fin']

theorem raising_00 : (.f32 (Fl.fin 0) + .f32 (Fl.fin 0) : MFl Numba32 Numba64) = .f32 (Fl.fin 0) := by
  rw [add_f32_f32, fin_add_any, add_zero, numba32_rnd, B32.rnd_zero, ofRaw_fin']

theorem raising_01 : (.f32 (Fl.fin 0) + .f32 (Fl.fin 1) : MFl Numba32 Numba64) = .f32 (Fl.fin 1) := by
  rw [add_f32_f32, fin_add_any, zero_add, numba32_rnd, B32.rnd_one, ofRaw_fin']

theorem raising_m01 : (.f32 (Fl.fin 0) * .f32 (Fl.fin 1) : MFl Numba32 Numba64) = .f32 (Fl.fin 0) := by
  rw [mul_f32_f32, fin_mul_any, zero_mul, numba32_rnd, B32.rnd_zero, ofRaw_fin']

theorem raising_sqrt : Fl.sqrt (Fl.fin 1 : Fl Numba32) = Fl.fin 1 := by
  have : Fl.sqrt (Fl.fin 1 : Fl Numba32) = Fl.ofRaw (Numba32.rnd (Real.sqrt 1)) := if_neg (by norm_num)
  rw [this, Real.sqrt_one, numba32_rnd, B32.rnd_one, ofRaw_fin']

theorem raising_rad {ε : ℝ} (hε : ε ^ 2 < 2 ^ (-150 : ℤ)) :
    Mixed.prism.vrad (.f32 (Fl.fin ε) : MFl Numba32 Numba64) (.f32 (Fl.fin ε)) (.f32 (Fl.fin 1)) = .f32 (Fl.fin 1) := by
  unfold Mixed.prism.vrad
  rw [raising_sq hε, raising_sq1, raising_00, raising_01, sqrt_f32, raising_sqrt]

theorem eq_zero_f32 (x : ℝ) : MFl.eq (.f32 (Fl.fin x) : MFl S D) 0 = decide (x = 0) := by
  show Fl.eq (Fl.fin x : Fl D) (Fl.fin ((0 : ℕ) : ℝ)) = _
  rw [Bool.eq_iff_iff, Fl.eq_fin_any]; simp

theorem raising_kernel {ε : ℝ} (hεpos : 0 < ε) (hε : ε ^ 2 < 2 ^ (-150 : ℤ)) :
    Mixed.prism.vker (Mixed.prism.kernel_eee (S := Numba32) (D := Numba64)) (.f32 (Fl.fin ε)) (.f32 (Fl.fin ε))
        (.f32 (Fl.fin 1)) = .error .zeroDivision := by
  unfold Mixed.prism.vker Mixed.prism.kernel_eee Mixed.prism._kernel_iii
  have n1 : MFl.eq (.f32 (Fl.fin 1) : MFl Numba32 Numba64) 0 = false := by
    rw [eq_zero_f32]; simp
  have n2 : MFl.eq (.f32 (Fl.fin ε) : MFl Numba32 Numba64) 0 = false := by
    rw [eq_zero_f32]; simpa using hεpos.ne'
  rw [raising_rad hε]
  simp only [n1, n2, Bool.false_and, Bool.or_self, Bool.false_eq_true, if_false, raising_sq hε, raising_sq1, raising_00,
    raising_01, raising_m01]
  rw [MFl.div_zero_raises (b := .f32 (Fl.fin 0)) _ (up_fin 0)]
  rfl

theorem raising_offset (ε : ℝ) (h : B32.rnd ε = .fin ε) :
    ((.f32 (Fl.fin 0) : MFl Numba32 Numba64) - .f32 (Fl.fin (-ε))) = .f32 (Fl.fin ε) := by
  rw [sub_f32_f32, fin_sub_any, neg_neg, zero_add, numba32_rnd, h, ofRaw_fin']

theorem raising_top : ((.f32 (Fl.fin 1) : MFl Numba32 Numba64) - .f32 (Fl.fin 0)) = .f32 (Fl.fin 1) := by
  rw [sub_f32_f32, fin_sub_any, neg_zero, add_zero, numba32_rnd, B32.rnd_one, ofRaw_fin']

theorem raising32 (Me Mn Mu : MFl Numba32 Numba64) :
    RaisesZeroDivision (Mixed.onPrism32 Mixed.prism.magnetic_ee raisingPt32 raisingBox Me Mn Mu) := by
  obtain ⟨-, -, hedge, hint, -⟩ := raising32_facts
  unfold RaisesZeroDivision
  have hA : ArePrism (S := Numba32) (D := Numba64) (.f32 (Fl.fin raisingPt32.e)) (.f32 (Fl.fin raisingPt32.n))
      (.f32 (Fl.fin raisingPt32.u)) (.f32 (Fl.fin raisingBox.west)) (.f32 (Fl.fin raisingBox.east))
      (.f32 (Fl.fin raisingBox.south)) (.f32 (Fl.fin raisingBox.north)) (.f32 (Fl.fin raisingBox.bottom))
      (.f32 (Fl.fin raisingBox.top)) raisingPt32 raisingBox :=
    ⟨iff_of_false (not_wide32 _) (not_wide32 _), iff_of_false (not_wide32 _) (not_wide32 _),
      iff_of_false (not_wide32 _) (not_wide32 _), isReal_f32 _, isReal_f32 _, isReal_f32 _, isReal_f32 _, isReal_f32 _,
      isReal_f32 _, isReal_f32 _, isReal_f32 _, isReal_f32 _⟩
  have hbad := mixed_bad hA hedge (by
    unfold Box.region at hint
    rw [interior_prod_eq, interior_prod_eq, interior_Icc, interior_Icc, interior_Icc] at hint
    exact hint)
  unfold Mixed.onPrism32
  rw [Mixed.prism.magnetic_ee, if_neg hbad, Mixed.prism.calculate_component_steps]
  have r1 : raisingBox.east = 0 := rfl
  have r2 : raisingBox.north = 0 := rfl
  have r3 : raisingBox.top = 1 := rfl
  have r4 : raisingPt32.e = -(2 ^ (-80 : ℤ)) := rfl
  have r5 : raisingPt32.n = -(2 ^ (-80 : ℤ)) := rfl
  have r6 : raisingPt32.u = 0 := rfl
  have hr : B32.rnd (2 ^ (-80 : ℤ)) = .fin (2 ^ (-80 : ℤ)) := B32.rnd_zpow (by norm_num) (by norm_num)
  have hk := raising_kernel (ε := 2 ^ (-80 : ℤ)) (B32.two_zpow_pos _) (by
    rw [← zpow_natCast, ← zpow_mul]
    exact zpow_lt_zpow_right₀ (by norm_num) (by norm_num))
  rw [r1, r2, r3, r4, r5, r6, raising_offset _ hr, raising_top]
  generalize (2 : ℝ) ^ (-80 : ℤ) = ε at hk ⊢
  have hs : ∀ acc : MFl Numba32 Numba64, Mixed.prism.compStep 0 (.f32 (Fl.fin ε)) (.f32 (Fl.fin ε)) (.f32 (Fl.fin 1)) Me Mn Mu
      Mixed.prism.kernel_eee Mixed.prism.kernel_een Mixed.prism.kernel_eeu acc = .error .zeroDivision := by
    intro acc
    unfold Mixed.prism.compStep
    rw [hk]
    rfl
  rw [hs]
  rfl

/-- **C112.** The same point and prism: with float32 arguments `magnetic_ee` raises `ZeroDivisionError` although the point
lies outside the prism, because the squares of the offsets underflow; with float64 arguments it returns the right value. -/
theorem C112_gradient_raises :
    raisingPt32 ∉ raisingBox.region ∧ raisingBox.Proper ∧
    (∀ Me Mn Mu : MFl Numba32 Numba64, RaisesZeroDivision (Mixed.onPrism32 Mixed.prism.magnetic_ee raisingPt32 raisingBox Me Mn Mu)) ∧
    ∃ g, Returns (onPrism (A := Exact) prism.magnetic_ee raisingPt32 raisingBox (1 : ℝ) (1 : ℝ) (1 : ℝ)) g ∧
      ReturnsWithin (onPrism (A := Numba64) prism.magnetic_ee raisingPt32 raisingBox (1 : ℝ) (1 : ℝ) (1 : ℝ)) g
        (gammaErr (2 ^ (-52 : ℤ)) 43 * (1.25663706212e-06 / 4 / Real.pi * (totalSize .eee raisingPt32 raisingBox
          + totalSize .een raisingPt32 raisingBox + totalSize .eeu raisingPt32 raisingBox))) := by
  obtain ⟨hout, hP, hedge, hint, hm⟩ := raising32_facts
  have hO : raisingBox.Ordered := ⟨hP.1.le, hP.2.1.le, hP.2.2.le⟩
  refine ⟨hout, hP, fun Me Mn Mu => raising32 Me Mn Mu, ?_⟩
  obtain ⟨g, h1, h2⟩ := C58_magnetic Numba64_accurate (C90_laws.2.2.2.2.2.2.2.larger (by norm_num)) .ee raisingPt32 raisingBox hO
    hedge hint hm (1, 1, 1) (fun a => by
      have : ModerateSize 1 := moderate_of (by norm_num) (by norm_num)
      cases a <;> exact this)
  refine ⟨g, h1, ?_⟩
  have e : ∀ x y z : ℝ, |Pt.e (1, 1, 1)| * x + |Pt.n (1, 1, 1)| * y + |Pt.u (1, 1, 1)| * z = x + y + z := by
    intro x y z; simp [Pt.e, Pt.n, Pt.u]
  rw [e] at h2
  exact h2

/-! ## C113: the classification of the point is exact, and NaN is returned exactly at the singular points -/

/-- **C113.** The public predicates, called with float32 and float64 numbers, decide the exact geometric question about the
numbers passed. -/
theorem C113_predicates {e n u w E s N b t : MFl S D} {p : Pt} {P : Box} (hA : ArePrism e n u w E s N b t p P) :
    (Mixed.prism.is_interior_point e n u w E s N b t = true ↔ p ∈ interior P.region) ∧
    (Mixed.prism.is_point_on_edge e n u w E s N b t = true ↔ p ∈ P.edges) ∧
    (Mixed.prism.is_point_on_easting_edge e n u w E s N b t = true ↔ p ∈ P.edgesE) ∧
    (Mixed.prism.is_point_on_northing_edge e n u w E s N b t = true ↔ p ∈ P.edgesN) ∧
    (Mixed.prism.is_point_on_upward_edge e n u w E s N b t = true ↔ p ∈ P.edgesU) ∧
    (Mixed.prism.is_point_on_east_face e n u w E s N b t = true ↔ p ∈ P.faceEast) ∧
    (Mixed.prism.is_point_on_north_face e n u w E s N b t = true ↔ p ∈ P.faceNorth) ∧
    (Mixed.prism.is_point_on_top_face e n u w E s N b t = true ↔ p ∈ P.faceTop) := by
  obtain ⟨f1, f2, f3⟩ := mixed_faces hA
  obtain ⟨e1, e2, e3⟩ := mixed_edges hA
  have k1 := C18_interior (A := D) p P
  obtain ⟨k2, k3, k4, k5⟩ := C18_edges_by_direction (A := D) p P
  refine ⟨?_, ?_, e1, e2, e3, f1, f2, f3⟩
  · rw [Mixed.is_interior_point64, ← k1]
    rw [show e.toD = _ from hA.e, show n.toD = _ from hA.n, show u.toD = _ from hA.u, show w.toD = _ from hA.w,
      show E.toD = _ from hA.E, show s.toD = _ from hA.s, show N.toD = _ from hA.N, show b.toD = _ from hA.b,
      show t.toD = _ from hA.t]
    rfl
  · rw [k3, k4, k5] at k2
    rw [Mixed.is_point_on_edge64, show (p ∈ P.edges) = (p ∈ P.edgesE ∪ P.edgesN ∪ P.edgesU) from rfl, Set.mem_union, Set.mem_union,
      or_assoc, ← k2]
    rw [show e.toD = _ from hA.e, show n.toD = _ from hA.n, show u.toD = _ from hA.u, show w.toD = _ from hA.w,
      show E.toD = _ from hA.E, show s.toD = _ from hA.s, show N.toD = _ from hA.N, show b.toD = _ from hA.b,
      show t.toD = _ from hA.t]
    rfl

/-- The call returns NaN (as a float32 or a float64). -/
def MReturnsNaN (call : Py (MFl S D)) : Prop := ∃ v, call = .ok v ∧ v.toD = Fl.nan

theorem MReturnsWithin.not_nan {call : Py (MFl S D)} {x δ : ℝ} (h : MReturnsWithin call x δ) : ¬MReturnsNaN call := by
  rintro ⟨v, hv, hn⟩
  obtain ⟨v', y, hv', hy, -⟩ := h
  rw [hv] at hv'
  cases hv'
  have : (Fl.nan : Fl D) = Fl.fin y := hn.symm.trans hy
  cases this

/-- **C113.** `prism.gravity_*` returns NaN at every documented singular point, in every pair of arithmetics. -/
theorem C113_gravity_nan (c : GComp) {e n u w E s N b t : MFl S D} {p : Pt} {P : Box} (hA : ArePrism e n u w E s N b t p P)
    (hp : p ∈ P.singular c) (ρ : MFl S D) : MReturnsNaN (Mixed.prismGravity c e n u w E s N b t ρ) := by
  obtain ⟨e1, e2, e3⟩ := mixed_edges hA
  refine ⟨MFl.nan, ?_, rfl⟩
  cases c <;> simp only [Box.singular, Set.mem_union, Set.mem_empty_iff_false] at hp <;> simp only [Mixed.prismGravity]
  · unfold Mixed.prism.gravity_ee
    rw [if_pos (by rw [Bool.or_eq_true, e2, e3]; exact hp)]; rfl
  · unfold Mixed.prism.gravity_nn
    rw [if_pos (by rw [Bool.or_eq_true, e1, e3]; exact hp)]; rfl
  · unfold Mixed.prism.gravity_uu
    rw [if_pos (by rw [Bool.or_eq_true, e1, e2]; exact hp)]; rfl
  · unfold Mixed.prism.gravity_en
    rw [if_pos (by rw [e3]; exact hp)]; rfl
  · unfold Mixed.prism.gravity_eu
    rw [if_pos (by rw [e2]; exact hp)]; rfl
  · unfold Mixed.prism.gravity_nu
    rw [if_pos (by rw [e1]; exact hp)]; rfl

/-- **C113.** The magnetic functions return NaN on every edge and inside the prism, in every pair of arithmetics. -/
theorem C113_magnetic_nan {e n u w E s N b t : MFl S D} {p : Pt} {P : Box} (hA : ArePrism e n u w E s N b t p P)
    (hp : p ∈ P.edges ∨ p ∈ interior P.region) (Me Mn Mu : MFl S D) :
    (∀ c, MReturnsNaN (Mixed.prismMagnetic c e n u w E s N b t Me Mn Mu)) ∧
    Mixed.prism.magnetic_field e n u w E s N b t Me Mn Mu = .ok (MFl.nan, MFl.nan, MFl.nan) := by
  obtain ⟨k1, k2, -⟩ := C113_predicates hA
  have hb : (Mixed.prism.is_point_on_edge e n u w E s N b t || Mixed.prism.is_interior_point e n u w E s N b t) = true := by
    rw [Bool.or_eq_true, k1, k2]; exact hp
  have key : ∀ c, Mixed.prismMagnetic c e n u w E s N b t Me Mn Mu = .ok MFl.nan := by
    intro c
    cases c <;> simp only [Mixed.prismMagnetic]
    · unfold Mixed.prism.magnetic_e; rw [if_pos hb]; rfl
    · unfold Mixed.prism.magnetic_n; rw [if_pos hb]; rfl
    · unfold Mixed.prism.magnetic_u; rw [if_pos hb]; rfl
    · unfold Mixed.prism.magnetic_ee; rw [if_pos hb]; rfl
    · unfold Mixed.prism.magnetic_nn; rw [if_pos hb]; rfl
    · unfold Mixed.prism.magnetic_uu; rw [if_pos hb]; rfl
    · unfold Mixed.prism.magnetic_en; rw [if_pos hb]; rfl
    · unfold Mixed.prism.magnetic_eu; rw [if_pos hb]; rfl
    · unfold Mixed.prism.magnetic_nu; rw [if_pos hb]; rfl
  refine ⟨fun c => ⟨_, key c, rfl⟩, ?_⟩
  have q1 := key .e
  have q2 := key .n
  have q3 := key .u
  simp only [Mixed.prismMagnetic] at q1 q2 q3
  rw [C111_prism, q1, q2, q3]
  rfl

/-- **C113, for Numba.** With float32 arguments too, NaN is returned at the documented singular points and nowhere else. -/
theorem C113_gravity_single (c : GComp) {e n u w E s N b t vρ : MFl Numba32 Numba64} {p : Pt} {P : Box} {ρ : ℝ}
    (hA : ArePrism e n u w E s N b t p P) (hvρ : vρ.IsReal ρ) (hP : P.Ordered) (hm : ShortOffsets p P) (hρ : ModerateSize ρ) :
    MReturnsNaN (Mixed.prismGravity c e n u w E s N b t vρ) ↔ p ∈ P.singular c := by
  refine ⟨fun h => ?_, fun h => C113_gravity_nan c hA h _⟩
  by_contra hp
  obtain ⟨g, -, hg⟩ := C110_gravity_single c hA hvρ hP hp hm hρ
  exact hg.not_nan h

/-- **C113, for Numba.** The magnetic functions. -/
theorem C113_magnetic_single (c : MComp) {e n u w E s N b t vMe vMn vMu : MFl Numba32 Numba64} {p : Pt} {P : Box} {M : Pt}
    (hA : ArePrism e n u w E s N b t p P) (rMe : vMe.IsReal M.e) (rMn : vMn.IsReal M.n) (rMu : vMu.IsReal M.u)
    (hP : P.Ordered) (hm : ShortOffsets p P) (hM : ∀ a : Axis, ModerateSize (M.coord a)) :
    MReturnsNaN (Mixed.prismMagnetic c e n u w E s N b t vMe vMn vMu) ↔ p ∈ P.edges ∨ p ∈ interior P.region := by
  refine ⟨fun h => ?_, fun h => (C113_magnetic_nan hA h _ _ _).1 c⟩
  by_contra hp
  obtain ⟨g, -, hg⟩ := C110_magnetic_single c hA rMe rMn rMu hP (fun h => hp (.inl h)) (fun h => hp (.inr h)) hm hM
  exact hg.not_nan h

/-! ### The hypotheses can be met -/

/-- on an edge of `demoPrism`, in single precision -/
theorem demo_edge_single : ArePrism (S := S) (D := D) (.f32 (Fl.fin 100)) (.f32 (Fl.fin 200)) (.f32 (Fl.fin (-50)))
    (.f32 (Fl.fin (-100))) (.f32 (Fl.fin 100)) (.f32 (Fl.fin (-200))) (.f32 (Fl.fin 200)) (.f32 (Fl.fin (-100)))
    (.f32 (Fl.fin 0)) (100, 200, -50) demoPrism :=
  ⟨iff_of_false (not_wide32 _) (not_wide32 _), iff_of_false (not_wide32 _) (not_wide32 _),
    iff_of_false (not_wide32 _) (not_wide32 _), isReal_f32 _, isReal_f32 _, isReal_f32 _, isReal_f32 _, isReal_f32 _,
    isReal_f32 _, isReal_f32 _, isReal_f32 _, isReal_f32 _⟩

example : MReturnsNaN (Mixed.prismGravity (S := Numba32) (D := Numba64) .en (.f32 (Fl.fin 100)) (.f32 (Fl.fin 200))
    (.f32 (Fl.fin (-50))) (.f32 (Fl.fin (-100))) (.f32 (Fl.fin 100)) (.f32 (Fl.fin (-200))) (.f32 (Fl.fin 200))
    (.f32 (Fl.fin (-100))) (.f32 (Fl.fin 0)) (.f32 (Fl.fin 2670))) := by
  rw [C113_gravity_single .en demo_edge_single (isReal_f32 _) demo_ordered]
  · simp [Box.singular, Box.edgesU, demoPrism]; norm_num
  · refine ⟨?_, ?_, ?_, ?_, ?_, ?_⟩ <;> simp only [Pt.e, Pt.n, Pt.u, demoPrism] <;>
      first
        | (left; norm_num; done)
        | (apply short_of <;> norm_num [abs_of_pos, abs_of_neg])
  · exact moderate_of (by norm_num [abs_of_pos]) (by norm_num [abs_of_pos])

example (c : GComp) : ¬MReturnsNaN (Mixed.prismGravity (S := Numba32) (D := Numba64) c (.f32 (Fl.fin 130)) (.f32 (Fl.fin 75))
    (.f32 (Fl.fin 5)) (.f32 (Fl.fin (-100))) (.f32 (Fl.fin 100)) (.f32 (Fl.fin (-200))) (.f32 (Fl.fin 200))
    (.f32 (Fl.fin (-100))) (.f32 (Fl.fin 0)) (.f32 (Fl.fin 2670))) := by
  rw [C113_gravity_single c demo_single (isReal_f32 _) demo_ordered demo_short
    (moderate_of (by norm_num [abs_of_pos]) (by norm_num [abs_of_pos]))]
  have := demo_edges
  simp only [Box.edges, Set.mem_union, not_or] at this
  cases c <;> simp only [Box.singular, Set.mem_union, Set.mem_empty_iff_false] <;> tauto

end Choclo
