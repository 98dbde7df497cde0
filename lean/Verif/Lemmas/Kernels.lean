import Verif.Lemmas.Eval
import Verif.Lemmas.Unroll

/-! # Real-valued denotations of the prism kernels in exact arithmetic -/

namespace Choclo

open Real

/-- distance from the origin -/
noncomputable def rad (x y z : ℝ) : ℝ := √(x ^ 2 + y ^ 2 + z ^ 2)

/-- value of the regularised logarithm with axial coordinate `x` and transverse `y`, `z` -/
noncomputable def Lk (x y z : ℝ) : ℝ :=
  if rad x y z = 0 then 0
  else if x < 0 then
    if y = 0 ∧ z = 0 then -Real.log (-2 * x) else Real.log ((y ^ 2 + z ^ 2) / (rad x y z - x))
  else Real.log (x + rad x y z)

/-- value of the regularised `atan2 (y z) (x r)` -/
noncomputable def Tk (x y z : ℝ) : ℝ :=
  if x = 0 then (if 0 < y * z then π / 2 else if y * z < 0 then -π / 2 else 0)
  else Real.arctan (y * z / (x * rad x y z))

/-- the first-order kernel up to sign -/
noncomputable def Fk (x y z : ℝ) : ℝ := y * Lk z x y + z * Lk y x z - x * Tk x y z

/-- the potential kernel -/
noncomputable def Pk (x y z : ℝ) : ℝ :=
  x * y * Lk z x y + y * z * Lk x y z + x * z * Lk y z x
    - 1 / 2 * x ^ 2 * Tk x z y - 1 / 2 * y ^ 2 * Tk y z x - 1 / 2 * z ^ 2 * Tk z x y

/-- third order kernel with three equal indices -/
noncomputable def Kiii (x y z : ℝ) : ℝ :=
  if (x = 0 ∧ y = 0) ∨ (x = 0 ∧ z = 0) then 0
  else -y * z * (2 * x ^ 2 + y ^ 2 + z ^ 2) / ((x ^ 2 + y ^ 2) * (x ^ 2 + z ^ 2) * rad x y z)

/-- third order kernel with two equal indices -/
noncomputable def Kiij (x y z : ℝ) : ℝ :=
  if x = 0 ∧ y = 0 then 0 else x * z / ((x ^ 2 + y ^ 2) * rad x y z)

theorem rad_nonneg (x y z : ℝ) : 0 ≤ rad x y z := Real.sqrt_nonneg _

theorem rad_sq (x y z : ℝ) : rad x y z ^ 2 = x ^ 2 + y ^ 2 + z ^ 2 :=
  Real.sq_sqrt (by positivity)

theorem rad_eq_zero {x y z : ℝ} : rad x y z = 0 ↔ x = 0 ∧ y = 0 ∧ z = 0 := by
  unfold rad
  rw [Real.sqrt_eq_zero (by positivity)]
  constructor
  · intro h
    refine ⟨?_, ?_, ?_⟩ <;> nlinarith [sq_nonneg x, sq_nonneg y, sq_nonneg z]
  · rintro ⟨rfl, rfl, rfl⟩; norm_num

theorem rad_pos {x y z : ℝ} (h : ¬(x = 0 ∧ y = 0 ∧ z = 0)) : 0 < rad x y z :=
  lt_of_le_of_ne (rad_nonneg x y z) (fun h' => h (rad_eq_zero.mp h'.symm))

theorem rad_perm1 (x y z : ℝ) : rad y x z = rad x y z := by unfold rad; congr 1; ring
theorem rad_perm2 (x y z : ℝ) : rad x z y = rad x y z := by unfold rad; congr 1; ring
theorem rad_perm3 (x y z : ℝ) : rad y z x = rad x y z := by unfold rad; congr 1; ring
theorem rad_perm4 (x y z : ℝ) : rad z x y = rad x y z := by unfold rad; congr 1; ring
theorem rad_perm5 (x y z : ℝ) : rad z y x = rad x y z := by unfold rad; congr 1; ring

theorem abs_le_rad (x y z : ℝ) : |x| ≤ rad x y z := by
  unfold rad
  rw [← Real.sqrt_sq_eq_abs]
  exact Real.sqrt_le_sqrt (by nlinarith [sq_nonneg y, sq_nonneg z])

theorem add_rad_nonneg (x y z : ℝ) : 0 ≤ x + rad x y z := by
  have := abs_le_rad x y z
  have := neg_abs_le x
  linarith

theorem abs_lt_rad {x y z : ℝ} (h : ¬(y = 0 ∧ z = 0)) : |x| < rad x y z := by
  unfold rad
  rw [← Real.sqrt_sq_eq_abs]
  apply Real.sqrt_lt_sqrt (by positivity)
  have : 0 < y ^ 2 + z ^ 2 := by
    by_contra hc
    apply h
    constructor <;> nlinarith [sq_nonneg y, sq_nonneg z]
  linarith

theorem add_rad_pos {x y z : ℝ} (h : ¬(y = 0 ∧ z = 0)) : 0 < x + rad x y z := by
  have := abs_lt_rad (x := x) h
  have := neg_abs_le x
  linarith

theorem sub_rad_pos {x y z : ℝ} (h : ¬(y = 0 ∧ z = 0)) : 0 < rad x y z - x := by
  have := abs_lt_rad (x := x) h
  have := le_abs_self x
  linarith

theorem Lk_symm (x y z : ℝ) : Lk x z y = Lk x y z := by
  unfold Lk
  rw [rad_perm2 x y z, add_comm (z ^ 2)]
  simp only [and_comm]

theorem Tk_symm (x y z : ℝ) : Tk x z y = Tk x y z := by
  unfold Tk
  rw [rad_perm2 x y z, mul_comm z y]

theorem Fk_symm (x y z : ℝ) : Fk x z y = Fk x y z := by
  unfold Fk
  rw [Tk_symm x y z, add_comm]

/-- off the negative half axis the regularised logarithm is the logarithm -/
theorem Lk_eq_log {x y z : ℝ} (h : ¬(y = 0 ∧ z = 0)) : Lk x y z = Real.log (x + rad x y z) := by
  have hr : rad x y z ≠ 0 := by
    rw [Ne, rad_eq_zero]; tauto
  unfold Lk
  rw [if_neg hr]
  split
  · congr 1
    have := sub_rad_pos (x := x) h
    rw [div_eq_iff this.ne']
    have := rad_sq x y z
    nlinarith
  · rfl

theorem Lk_axis_nonneg {x : ℝ} (h : 0 ≤ x) : Lk x 0 0 = Real.log (2 * x) := by
  have hr : rad x 0 0 = x := by unfold rad; simp [Real.sqrt_sq h]
  unfold Lk
  rw [hr]
  by_cases h0 : x = 0
  · simp [h0]
  · rw [if_neg h0, if_neg (not_lt.mpr h)]; congr 1; ring

theorem Lk_axis_neg {x : ℝ} (h : x < 0) : Lk x 0 0 = - Real.log (-2 * x) := by
  have hr : rad x 0 0 ≠ 0 := by
    rw [Ne, rad_eq_zero]; rintro ⟨h', _⟩; exact h.ne h'
  unfold Lk
  simp [hr, h]

namespace Ex

open prism

theorem vrad_fin (x y z : ℝ) : vrad (xf x) (xf y) (xf z) = xf (rad x y z) := by
  unfold vrad
  simp only [pow_fin, add_fin]
  rw [sqrt_fin _ (by positivity)]
  rfl

theorem safe_log_fin (x y z : ℝ) :
    _safe_log (xf x) (xf y) (xf z) (xf (rad x y z)) = .ok (xf (Lk x y z)) := by
  unfold _safe_log Lk
  simp only [zero_fin, eq_fin, lt_fin, decide_eq_true_eq]
  split_ifs with h1 h2 h3 h4 h5
  · rfl
  · simp only [Bool.and_eq_true, decide_eq_true_eq] at h3
    simp only [ofNat_fin, neg_fin, mul_fin, pure_ok]
    rw [log_fin (by nlinarith)]; rfl
  · simp only [Bool.and_eq_true, decide_eq_true_eq] at h3
    exact absurd h3 h4
  · simp only [Bool.and_eq_true, decide_eq_true_eq] at h3
    exact absurd h5 h3
  · simp only [Bool.and_eq_true, decide_eq_true_eq] at h3
    have := sub_rad_pos (x := x) h3
    simp only [sub_fin, pow_fin, add_fin]
    rw [div_fin this.ne', ok_bind, log_fin (div_pos _ this)]
    · rfl
    · by_contra hc
      apply h3
      constructor <;> nlinarith [sq_nonneg y, sq_nonneg z]
  · simp only [add_fin, pure_ok]
    have : 0 ≤ x := not_lt.mp h2
    have h3 : 0 < rad x y z := lt_of_le_of_ne (rad_nonneg _ _ _) (Ne.symm h1)
    rw [log_fin (by linarith)]

theorem safe_atan2_fin (y x : ℝ) :
    _safe_atan2 (xf y) (xf x) = .ok (xf (
      if x = 0 then (if 0 < y then π / 2 else if y < 0 then -π / 2 else 0)
      else Real.arctan (y / x))) := by
  unfold _safe_atan2
  simp only [zero_fin, eq_fin, lt_fin, decide_eq_true_eq]
  split_ifs with h1 h2 h3
  · simp only [pi_fin, ofNat_fin]
    rw [div_fin (by norm_num)]
  · simp only [pi_fin, ofNat_fin, neg_fin]
    rw [div_fin (by norm_num)]
  · rfl
  · rw [div_fin h1]; rfl

theorem safe_atan2_Tk (x y z : ℝ) :
    _safe_atan2 (xf (y * z)) (xf (x * rad x y z)) = .ok (xf (Tk x y z)) := by
  rw [safe_atan2_fin]
  congr 2
  unfold Tk
  by_cases hx : x = 0
  · simp [hx]
  · have : rad x y z ≠ 0 := by rw [Ne, rad_eq_zero]; tauto
    rw [if_neg (mul_ne_zero hx this), if_neg hx]

theorem safe_log_of {x y z r : ℝ} (h : r = rad x y z) :
    _safe_log (xf x) (xf y) (xf z) (xf r) = .ok (xf (Lk x y z)) := by
  subst h; exact safe_log_fin x y z

theorem safe_atan2_of {x y z r a : ℝ} (h : r = rad x y z) (ha : a = y * z) :
    _safe_atan2 (xf a) (xf (x * r)) = .ok (xf (Tk x y z)) := by
  subst h; subst ha; exact safe_atan2_Tk x y z

theorem kernel_pot_fin (x y z : ℝ) :
    vker kernel_pot (xf x) (xf y) (xf z) = .ok (xf (Pk x y z)) := by
  unfold vker kernel_pot
  rw [vrad_fin]
  simp only [mul_fin]
  rw [safe_log_of (rad_perm4 x y z).symm, safe_log_of rfl, safe_log_of (rad_perm3 x y z).symm]
  simp only [ok_bind]
  rw [safe_atan2_of (rad_perm2 x y z).symm rfl,
    safe_atan2_of (x := y) (y := z) (z := x) (rad_perm3 x y z).symm rfl,
    safe_atan2_of (x := z) (y := x) (z := y) (rad_perm4 x y z).symm rfl]
  rfl

theorem kernel_e_fin (x y z : ℝ) :
    vker kernel_e (xf x) (xf y) (xf z) = .ok (xf (-Fk x y z)) := by
  unfold vker kernel_e
  rw [vrad_fin]
  simp only [mul_fin]
  rw [safe_log_of (rad_perm4 x y z).symm, safe_log_of (rad_perm3 x y z).symm]
  simp only [ok_bind]
  rw [safe_atan2_of (x := x) rfl rfl]
  simp only [ok_bind, mul_fin, add_fin, sub_fin, neg_fin, pure_ok, Fk, Lk_symm y x z]

theorem kernel_n_fin (x y z : ℝ) :
    vker kernel_n (xf x) (xf y) (xf z) = .ok (xf (-Fk y x z)) := by
  unfold vker kernel_n
  rw [vrad_fin]
  simp only [mul_fin]
  rw [safe_log_of rfl, safe_log_of (rad_perm4 x y z).symm]
  simp only [ok_bind]
  rw [safe_atan2_of (x := y) (y := x) (z := z) (rad_perm1 x y z).symm rfl]
  simp only [ok_bind, mul_fin, add_fin, sub_fin, neg_fin, pure_ok, Fk, Lk_symm z x y]
  congr 3
  ring

theorem kernel_u_fin (x y z : ℝ) :
    vker kernel_u (xf x) (xf y) (xf z) = .ok (xf (-Fk z x y)) := by
  unfold vker kernel_u
  rw [vrad_fin]
  simp only [mul_fin]
  rw [safe_log_of (rad_perm3 x y z).symm, safe_log_of rfl]
  simp only [ok_bind]
  rw [safe_atan2_of (x := z) (y := x) (z := y) (rad_perm4 x y z).symm rfl]
  simp only [ok_bind, mul_fin, add_fin, sub_fin, neg_fin, pure_ok, Fk, Lk_symm x y z]

variable {x y z : ℝ}

theorem kernel_ee_fin (h : rad x y z ≠ 0) :
    vker kernel_ee (xf x) (xf y) (xf z) = .ok (xf (-Tk x y z)) := by
  unfold vker kernel_ee
  rw [vrad_fin]
  simp only [zero_fin, eq_fin, decide_eq_true_eq, if_neg h, mul_fin]
  rw [safe_atan2_of (x := x) rfl rfl]; rfl

theorem kernel_nn_fin (h : rad x y z ≠ 0) :
    vker kernel_nn (xf x) (xf y) (xf z) = .ok (xf (-Tk y x z)) := by
  unfold vker kernel_nn
  rw [vrad_fin]
  simp only [zero_fin, eq_fin, decide_eq_true_eq, if_neg h, mul_fin]
  rw [safe_atan2_of (x := y) (y := x) (z := z) (rad_perm1 x y z).symm rfl]; rfl

theorem kernel_uu_fin (h : rad x y z ≠ 0) :
    vker kernel_uu (xf x) (xf y) (xf z) = .ok (xf (-Tk z x y)) := by
  unfold vker kernel_uu
  rw [vrad_fin]
  simp only [zero_fin, eq_fin, decide_eq_true_eq, if_neg h, mul_fin]
  rw [safe_atan2_of (x := z) (y := x) (z := y) (rad_perm4 x y z).symm rfl]; rfl

theorem kernel_en_fin (h : rad x y z ≠ 0) :
    vker kernel_en (xf x) (xf y) (xf z) = .ok (xf (Lk z x y)) := by
  unfold vker kernel_en
  rw [vrad_fin]
  simp only [zero_fin, eq_fin, decide_eq_true_eq, if_neg h]
  rw [safe_log_of (rad_perm4 x y z).symm]

theorem kernel_eu_fin (h : rad x y z ≠ 0) :
    vker kernel_eu (xf x) (xf y) (xf z) = .ok (xf (Lk y x z)) := by
  unfold vker kernel_eu
  rw [vrad_fin]
  simp only [zero_fin, eq_fin, decide_eq_true_eq, if_neg h]
  rw [safe_log_of (rad_perm1 x y z).symm]

theorem kernel_nu_fin (h : rad x y z ≠ 0) :
    vker kernel_nu (xf x) (xf y) (xf z) = .ok (xf (Lk x y z)) := by
  unfold vker kernel_nu
  rw [vrad_fin]
  simp only [zero_fin, eq_fin, decide_eq_true_eq, if_neg h]
  rw [safe_log_of rfl]

theorem sq_add_sq_ne {a b : ℝ} (h : ¬(a = 0 ∧ b = 0)) : a ^ 2 + b ^ 2 ≠ 0 := by
  intro h'
  apply h
  constructor <;> nlinarith [sq_nonneg a, sq_nonneg b]

theorem kernel_iii_fin {r : ℝ} (hr : r = rad x y z) (h : r ≠ 0) :
    _kernel_iii (xf x) (xf y) (xf z) (xf r) = .ok (xf (Kiii x y z)) := by
  unfold _kernel_iii Kiii
  simp only [zero_fin, eq_fin, decide_eq_true_eq, if_neg h]
  simp only [Bool.or_eq_true, Bool.and_eq_true, decide_eq_true_eq]
  split_ifs with h1
  · rfl
  · simp only [pow_fin, add_fin, ofNat_fin, mul_fin, neg_fin]
    rw [not_or] at h1
    rw [div_fin (mul_ne_zero (mul_ne_zero (sq_add_sq_ne h1.1) (sq_add_sq_ne h1.2)) h)]
    subst hr
    rfl

theorem kernel_iij_fin {r : ℝ} (hr : r = rad x y z) (h : r ≠ 0) :
    _kernel_iij (xf x) (xf y) (xf z) (xf r) = .ok (xf (Kiij x y z)) := by
  unfold _kernel_iij Kiij
  simp only [zero_fin, eq_fin, decide_eq_true_eq, if_neg h]
  simp only [Bool.and_eq_true, decide_eq_true_eq]
  split_ifs with h1
  · rfl
  · simp only [pow_fin, add_fin, mul_fin]
    rw [div_fin (mul_ne_zero (sq_add_sq_ne h1) h)]
    subst hr
    rfl

theorem kernel_eee_fin (h : rad x y z ≠ 0) :
    vker kernel_eee (xf x) (xf y) (xf z) = .ok (xf (Kiii x y z)) := by
  unfold vker kernel_eee; rw [vrad_fin]; exact kernel_iii_fin rfl h
theorem kernel_nnn_fin (h : rad x y z ≠ 0) :
    vker kernel_nnn (xf x) (xf y) (xf z) = .ok (xf (Kiii y z x)) := by
  unfold vker kernel_nnn; rw [vrad_fin]; exact kernel_iii_fin (rad_perm3 x y z).symm h
theorem kernel_uuu_fin (h : rad x y z ≠ 0) :
    vker kernel_uuu (xf x) (xf y) (xf z) = .ok (xf (Kiii z y x)) := by
  unfold vker kernel_uuu; rw [vrad_fin]; exact kernel_iii_fin (rad_perm5 x y z).symm h
theorem kernel_een_fin (h : rad x y z ≠ 0) :
    vker kernel_een (xf x) (xf y) (xf z) = .ok (xf (Kiij x y z)) := by
  unfold vker kernel_een; rw [vrad_fin]; exact kernel_iij_fin rfl h
theorem kernel_eeu_fin (h : rad x y z ≠ 0) :
    vker kernel_eeu (xf x) (xf y) (xf z) = .ok (xf (Kiij x z y)) := by
  unfold vker kernel_eeu; rw [vrad_fin]; exact kernel_iij_fin (rad_perm2 x y z).symm h
theorem kernel_enn_fin (h : rad x y z ≠ 0) :
    vker kernel_enn (xf x) (xf y) (xf z) = .ok (xf (Kiij y x z)) := by
  unfold vker kernel_enn; rw [vrad_fin]; exact kernel_iij_fin (rad_perm1 x y z).symm h
theorem kernel_nnu_fin (h : rad x y z ≠ 0) :
    vker kernel_nnu (xf x) (xf y) (xf z) = .ok (xf (Kiij y z x)) := by
  unfold vker kernel_nnu; rw [vrad_fin]; exact kernel_iij_fin (rad_perm3 x y z).symm h
theorem kernel_euu_fin (h : rad x y z ≠ 0) :
    vker kernel_euu (xf x) (xf y) (xf z) = .ok (xf (Kiij z x y)) := by
  unfold vker kernel_euu; rw [vrad_fin]; exact kernel_iij_fin (rad_perm4 x y z).symm h
theorem kernel_nuu_fin (h : rad x y z ≠ 0) :
    vker kernel_nuu (xf x) (xf y) (xf z) = .ok (xf (Kiij z y x)) := by
  unfold vker kernel_nuu; rw [vrad_fin]; exact kernel_iij_fin (rad_perm5 x y z).symm h
theorem kernel_enu_fin (h : rad x y z ≠ 0) :
    vker kernel_enu (xf x) (xf y) (xf z) = .ok (xf (-1 / rad x y z)) := by
  unfold vker kernel_enu; rw [vrad_fin]
  simp only [zero_fin, eq_fin, decide_eq_true_eq, if_neg h, one_fin, neg_fin]
  rw [div_fin h]

end Ex

end Choclo
