import Verif.Lemmas.ErrorBound
import Mathlib.Tactic.NormNum

/-! # Ranges of magnitudes (binary exponents) -/

namespace Choclo

/-- `x` is zero or `2^a ≤ |x| ≤ 2^b`. -/
def Mag (a b : ℤ) (x : ℝ) : Prop := x = 0 ∨ ((2 : ℝ) ^ a ≤ |x| ∧ |x| ≤ 2 ^ b)

/-- the same, never zero -/
def MagP (a b : ℤ) (x : ℝ) : Prop := (2 : ℝ) ^ a ≤ |x| ∧ |x| ≤ 2 ^ b

namespace Mag

theorem zp (q : ℤ) : (0 : ℝ) < 2 ^ q := zpow_pos (by norm_num) q

theorem zle {a b : ℤ} (h : a ≤ b) : (2 : ℝ) ^ a ≤ 2 ^ b := zpow_le_zpow_right₀ (by norm_num) h

theorem weaken {a b a' b' : ℤ} {x : ℝ} (h : Mag a b x) (ha : a' ≤ a) (hb : b ≤ b') : Mag a' b' x := by
  rcases h with h | ⟨h1, h2⟩
  · exact .inl h
  · exact .inr ⟨(zle ha).trans h1, h2.trans (zle hb)⟩

theorem ofP {a b : ℤ} {x : ℝ} (h : MagP a b x) : Mag a b x := .inr h

theorem toP {a b : ℤ} {x : ℝ} (h : Mag a b x) (h0 : x ≠ 0) : MagP a b x := h.resolve_left h0

theorem mul {a b c d : ℤ} {x y : ℝ} (hx : Mag a b x) (hy : Mag c d y) : Mag (a + c) (b + d) (x * y) := by
  rcases hx with hx | ⟨h1, h2⟩
  · left; rw [hx, zero_mul]
  rcases hy with hy | ⟨h3, h4⟩
  · left; rw [hy, mul_zero]
  right
  rw [abs_mul, zpow_add₀ (by norm_num), zpow_add₀ (by norm_num)]
  exact ⟨mul_le_mul h1 h3 (zp c).le (abs_nonneg x), mul_le_mul h2 h4 (abs_nonneg y) (zp b).le⟩

theorem neg {a b : ℤ} {x : ℝ} (hx : Mag a b x) : Mag a b (-x) := by
  rcases hx with hx | h
  · left; rw [hx, neg_zero]
  · right; rwa [abs_neg]

theorem pow {a b : ℤ} {x : ℝ} (hx : Mag a b x) {n : ℕ} (hn : n ≠ 0) : Mag (a * n) (b * n) (x ^ n) := by
  rcases hx with hx | ⟨h1, h2⟩
  · left; rw [hx, zero_pow hn]
  right
  rw [abs_pow, zpow_mul, zpow_mul, zpow_natCast, zpow_natCast]
  exact ⟨pow_le_pow_left₀ (zp a).le h1 n, pow_le_pow_left₀ (abs_nonneg x) h2 n⟩

theorem inv {a b : ℤ} {x : ℝ} (hx : Mag a b x) : Mag (-b) (-a) x⁻¹ := by
  rcases hx with hx | ⟨h1, h2⟩
  · left; rw [hx, inv_zero]
  right
  have h0 : 0 < |x| := lt_of_lt_of_le (zp a) h1
  rw [abs_inv, zpow_neg, zpow_neg, inv_le_inv₀ (zp b) h0, inv_le_inv₀ h0 (zp a)]
  exact ⟨h2, h1⟩

theorem div {a b c d : ℤ} {x y : ℝ} (hx : Mag a b x) (hy : Mag c d y) : Mag (a - d) (b - c) (x / y) := by
  rw [div_eq_mul_inv, sub_eq_add_neg, sub_eq_add_neg]
  exact hx.mul hy.inv

theorem add {a b : ℤ} {x y : ℝ} (hx : Mag a b x) (hy : Mag a b y) (hx0 : 0 ≤ x) (hy0 : 0 ≤ y) :
    Mag a (b + 1) (x + y) := by
  have e : (2 : ℝ) ^ (b + 1) = 2 * 2 ^ b := by rw [zpow_add_one₀ (by norm_num)]; ring
  have hb := zp b
  rcases hx with hx | ⟨h1, h2⟩
  · rw [hx, zero_add]
    exact weaken hy le_rfl (by omega)
  rcases hy with hy | ⟨h3, h4⟩
  · rw [hy, add_zero]
    exact weaken (.inr ⟨h1, h2⟩) le_rfl (by omega)
  right
  rw [abs_of_nonneg hx0] at h1 h2
  rw [abs_of_nonneg hy0] at h3 h4
  rw [abs_of_nonneg (add_nonneg hx0 hy0), e]
  constructor <;> linarith

theorem sqrt {a b : ℤ} {x : ℝ} (hx : Mag (a * 2) (b * 2) x) : Mag a b (Real.sqrt x) := by
  rcases le_or_gt x 0 with h0 | h0
  · left; exact Real.sqrt_eq_zero_of_nonpos h0
  rcases hx with hx | ⟨h1, h2⟩
  · exact absurd hx h0.ne'
  right
  rw [abs_of_pos h0, zpow_mul] at h1 h2
  rw [abs_of_nonneg (Real.sqrt_nonneg x)]
  constructor
  · apply Real.le_sqrt_of_sq_le; exact_mod_cast h1
  · rw [Real.sqrt_le_left (zp b).le]; exact_mod_cast h2

theorem abs {a b : ℤ} {x : ℝ} (hx : Mag a b x) : Mag a b |x| := by
  rcases hx with hx | h
  · left; rw [hx, abs_zero]
  · right; rwa [abs_abs]

theorem safe {a b : ℤ} {x : ℝ} (hx : Mag a b x) (ha : -1021 ≤ a) (hb : b ≤ 1022) :
    InSafeRange (2 ^ (-1022 : ℤ)) (2 ^ (1023 : ℤ)) x := by
  rcases hx with hx | ⟨h1, h2⟩
  · exact .inl hx
  right
  have e1 : (2 : ℝ) * 2 ^ (-1022 : ℤ) = 2 ^ (-1021 : ℤ) := by
    rw [show (-1021 : ℤ) = -1022 + 1 by norm_num, zpow_add_one₀ (by norm_num)]; ring
  have e2 : (2 : ℝ) ^ (1023 : ℤ) = 2 * 2 ^ (1022 : ℤ) := by
    rw [show (1023 : ℤ) = 1022 + 1 by norm_num, zpow_add_one₀ (by norm_num)]; ring
  rw [e1, e2]
  refine ⟨(zle ha).trans h1, ?_⟩
  exact mul_le_mul_of_nonneg_left (h2.trans (zle hb)) (by norm_num)

theorem one : Mag 0 0 1 := by right; norm_num
theorem two : Mag 1 1 2 := by right; norm_num
theorem three : Mag 1 2 3 := by right; norm_num [abs_of_pos]
theorem gc : Mag (-34) (-33) Gc := by right; unfold Gc; norm_num [abs_of_pos]

end Mag

end Choclo
