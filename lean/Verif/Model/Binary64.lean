import Verif.Spec.Rounding
import Mathlib.Data.Int.Log
import Mathlib.Algebra.Order.Floor.Ring
import Mathlib.Tactic.Linarith
import Mathlib.Tactic.Ring
import Mathlib.Tactic.FieldSimp
import Mathlib.Tactic.NormNum
import Mathlib.Tactic.Positivity
import Mathlib.Analysis.Real.Pi.Bounds

/-!
# IEEE 754 binary64 with rounding to nearest, ties to even

A concrete arithmetic in the sense of `Arith`: the one choclo runs in.  It models the float64
operations used by every function in `/repo/src/choclo`.  Simplifications: no signed zeros; the library functions
`log`, `arctan`, `sin`, `cos`, `radians` and integer powers are taken to be correctly rounded
(the theorems that use this arithmetic do not depend on that).
-/

namespace Choclo

/-- Nearest integer, ties to even.
Models `/repo/src/choclo/utils.py:50-54` (rounding of each float64 operation). -/
noncomputable def rne (x : ℝ) : ℤ :=
  if Int.fract x < 1 / 2 then ⌊x⌋
  else if 1 / 2 < Int.fract x then ⌊x⌋ + 1
  else if Even ⌊x⌋ then ⌊x⌋ else ⌊x⌋ + 1

namespace B64

/-- Exponent of the unit in the last place used for `x`: 53 significant bits, but never below the
smallest subnormal number `2⁻¹⁰⁷⁴`.
Models `/repo/src/choclo/utils.py:50-54` (rounding of each float64 operation). -/
noncomputable def qexp (x : ℝ) : ℤ := max (Int.log 2 |x| - 52) (-1074)

/-- Rounding to 53 significant bits, with gradual underflow and unbounded large exponents.
Models `/repo/src/choclo/utils.py:50-54` (rounding of each float64 operation). -/
noncomputable def round (x : ℝ) : ℝ := rne (x / 2 ^ qexp x) * 2 ^ qexp x

/-- Rounding to binary64: overflow to an infinity.
Models `/repo/src/choclo/utils.py:50-54` (rounding of each float64 operation). -/
noncomputable def rnd (x : ℝ) : Raw :=
  if |round x| < 2 ^ (1024 : ℤ) then .fin (round x) else if 0 < round x then .inf false else .inf true

end B64

/-- IEEE 754 binary64, round to nearest even.
Models `/repo/src/choclo/utils.py:50-54` and every other function: float64 arithmetic. -/
noncomputable def Binary64 : Arith where
  rnd := B64.rnd
  pow x n := B64.rnd (x ^ n)
  log x := B64.rnd (Real.log x)
  atan x := B64.rnd (Real.arctan x)
  sin x := B64.rnd (Real.sin x)
  cos x := B64.rnd (Real.cos x)
  radians x := B64.rnd (x * (B64.round (Real.pi / 180)))
  pi := B64.round Real.pi

/-! ## Facts about rounding to integers -/

theorem rne_cases (x : ℝ) : (rne x = ⌊x⌋ ∧ Int.fract x ≤ 1 / 2) ∨
    (rne x = ⌊x⌋ + 1 ∧ 1 / 2 ≤ Int.fract x) := by
  unfold rne
  split
  · left; exact ⟨rfl, by linarith⟩
  · split
    · right; exact ⟨rfl, by linarith⟩
    · split
      · left; exact ⟨rfl, by linarith⟩
      · right; exact ⟨rfl, by linarith⟩

theorem abs_rne_sub_le (x : ℝ) : |(rne x : ℝ) - x| ≤ 1 / 2 := by
  have hf := Int.floor_add_fract x
  have h0 := Int.fract_nonneg x
  have h1 := Int.fract_lt_one x
  rw [abs_le]
  rcases rne_cases x with ⟨h, h2⟩ | ⟨h, h2⟩ <;> rw [h] <;> push_cast <;> constructor <;> linarith

theorem rne_intCast (n : ℤ) : rne (n : ℝ) = n := by
  unfold rne
  rw [Int.fract_intCast, if_pos (by norm_num), Int.floor_intCast]

theorem rne_mono {x y : ℝ} (h : x ≤ y) : rne x ≤ rne y := by
  rcases (Int.floor_mono h).lt_or_eq with hf | hf
  · have h1 : rne x ≤ ⌊x⌋ + 1 := by rcases rne_cases x with ⟨h, _⟩ | ⟨h, _⟩ <;> omega
    have h2 : ⌊y⌋ ≤ rne y := by rcases rne_cases y with ⟨h, _⟩ | ⟨h, _⟩ <;> omega
    omega
  · have hx := Int.floor_add_fract x
    have hy := Int.floor_add_fract y
    have hfr : Int.fract x ≤ Int.fract y := by
      rw [hf] at hx
      linarith
    unfold rne
    rw [← hf]
    by_cases a1 : Int.fract x < 1 / 2
    · rw [if_pos a1]
      split_ifs <;> omega
    · have b1 : ¬ Int.fract y < 1 / 2 := by intro h; linarith
      rw [if_neg a1, if_neg b1]
      by_cases a2 : 1 / 2 < Int.fract x
      · rw [if_pos a2, if_pos (by linarith)]
      · rw [if_neg a2]
        split_ifs <;> omega

theorem rne_neg (x : ℝ) : rne (-x) = -rne x := by
  have h0 := Int.fract_nonneg x
  have h1 := Int.fract_lt_one x
  have hx := Int.floor_add_fract x
  by_cases hz : Int.fract x = 0
  · have e : x = (⌊x⌋ : ℤ) := by rw [hz] at hx; linarith
    rw [e, rne_intCast, ← Int.cast_neg, rne_intCast]
  · have hpos : 0 < Int.fract x := lt_of_le_of_ne h0 (Ne.symm hz)
    have hfl : ⌊-x⌋ = -⌊x⌋ - 1 := by
      rw [Int.floor_eq_iff]
      push_cast
      constructor <;> linarith
    have hfr : Int.fract (-x) = 1 - Int.fract x := Int.fract_neg hz
    unfold rne
    rw [hfl, hfr]
    by_cases h2 : Int.fract x < 1 / 2
    · rw [if_neg (by linarith), if_pos (by linarith), if_pos h2]; ring
    · by_cases h3 : 1 / 2 < Int.fract x
      · rw [if_pos (by linarith), if_neg h2, if_pos h3]; ring
      · rw [if_neg (by linarith), if_neg (by linarith), if_neg h2, if_neg h3]
        by_cases h4 : Even ⌊x⌋
        · rw [if_pos h4, if_neg]
          · ring
          · rw [Int.even_sub_one, even_neg]
            exact not_not.2 h4
        · rw [if_neg h4, if_pos]
          · ring
          · rw [Int.even_sub_one, even_neg]
            exact h4

namespace B64

theorem qexp_neg (x : ℝ) : qexp (-x) = qexp x := by unfold qexp; rw [abs_neg]

theorem round_neg (x : ℝ) : round (-x) = -round x := by
  unfold round
  rw [qexp_neg, neg_div, rne_neg]
  push_cast
  ring

theorem round_zero : round 0 = 0 := by
  unfold round
  rw [zero_div, show (0 : ℝ) = ((0 : ℤ) : ℝ) by norm_num, rne_intCast]
  norm_num

theorem two_zpow_pos (q : ℤ) : (0 : ℝ) < 2 ^ q := zpow_pos (by norm_num) q

theorem two_zpow_le {a b : ℤ} (h : a ≤ b) : (2 : ℝ) ^ a ≤ 2 ^ b :=
  zpow_le_zpow_right₀ (by norm_num) h

theorem lt_two_zpow (x : ℝ) : |x| < 2 ^ (qexp x + 53) := by
  have h := Int.lt_zpow_succ_log_self (b := 2) (by norm_num) |x|
  refine lt_of_lt_of_le h ?_
  push_cast
  apply two_zpow_le
  unfold qexp
  have := le_max_left (Int.log 2 |x| - 52) (-1074)
  omega

/-- the numbers with 53 significant bits (unbounded large exponents)
Models `/repo/src/choclo/utils.py:50-54` (values of float64 results). -/
def IsF (y : ℝ) : Prop := ∃ m q : ℤ, |m| ≤ 2 ^ 53 ∧ -1074 ≤ q ∧ y = m * 2 ^ q

theorem isF_round (x : ℝ) : IsF (round x) := by
  refine ⟨rne (x / 2 ^ qexp x), qexp x, ?_, le_max_right _ _, rfl⟩
  have h := lt_two_zpow x
  have hq := two_zpow_pos (qexp x)
  rw [zpow_add₀ (by norm_num)] at h
  have hb : |x / 2 ^ qexp x| < 2 ^ (53 : ℤ) := by
    rw [abs_div, abs_of_pos hq, div_lt_iff₀ hq, mul_comm]
    exact h
  rw [abs_lt] at hb
  rw [abs_le]
  have c : ((2 ^ 53 : ℤ) : ℝ) = 2 ^ (53 : ℤ) := by norm_num
  constructor
  · have := rne_mono (x := ((-2 ^ 53 : ℤ) : ℝ)) (y := x / 2 ^ qexp x) (by
      push_cast at c ⊢; linarith [hb.1])
    rwa [rne_intCast] at this
  · have := rne_mono (x := x / 2 ^ qexp x) (y := ((2 ^ 53 : ℤ) : ℝ)) (by
      push_cast at c ⊢; linarith [hb.2])
    rwa [rne_intCast] at this

theorem IsF.round {y : ℝ} (h : IsF y) : round y = y := by
  obtain ⟨m, q, hm, hq, rfl⟩ := h
  -- it is enough that the unit of `y` divides `y`
  suffices ∃ k : ℤ, (m : ℝ) * 2 ^ q = k * 2 ^ qexp (m * 2 ^ q) by
    obtain ⟨k, hk⟩ := this
    unfold B64.round
    generalize qexp (m * 2 ^ q) = Q at hk
    rw [hk, mul_div_assoc, div_self (two_zpow_pos _).ne', mul_one, rne_intCast]
  by_cases h0 : m = 0
  · exact ⟨0, by rw [h0]; simp⟩
  have habs : |(m : ℝ) * 2 ^ q| = ((|m| : ℤ) : ℝ) * 2 ^ q := by
    rw [abs_mul, abs_of_pos (two_zpow_pos q), Int.cast_abs]
  have hmpos : (0 : ℤ) < |m| := abs_pos.2 h0
  have hpos : 0 < |(m : ℝ) * 2 ^ q| := by
    rw [habs]; have := two_zpow_pos q; positivity
  rcases hm.lt_or_eq with hlt | heq
  · have hlog : Int.log 2 |(m : ℝ) * 2 ^ q| < q + 53 := by
      rw [← Int.lt_zpow_iff_log_lt (by norm_num) hpos, habs]
      push_cast
      rw [zpow_add₀ (by norm_num), mul_comm]
      have : ((|m| : ℤ) : ℝ) < 2 ^ (53 : ℤ) := by
        have : ((|m| : ℤ) : ℝ) < ((2 ^ 53 : ℤ) : ℝ) := by exact_mod_cast hlt
        rw [show ((2 : ℝ) ^ (53 : ℤ)) = ((2 ^ 53 : ℤ) : ℝ) by norm_num]
        exact this
      push_cast at this
      exact mul_lt_mul_of_pos_left this (two_zpow_pos q)
    have hQ : qexp (m * 2 ^ q) ≤ q := by
      unfold qexp
      exact max_le (by omega) hq
    refine ⟨m * 2 ^ (q - qexp (m * 2 ^ q)).toNat, ?_⟩
    push_cast
    rw [mul_assoc, ← zpow_natCast, Int.toNat_of_nonneg (by omega), ← zpow_add₀ (by norm_num)]
    congr 2
    omega
  · have hlog : Int.log 2 |(m : ℝ) * 2 ^ q| = q + 53 := by
      rw [habs, heq]
      rw [show (((2 ^ 53 : ℤ) : ℤ) : ℝ) = 2 ^ (53 : ℤ) by norm_num, ← zpow_add₀ (by norm_num)]
      have := Int.log_zpow (R := ℝ) (b := 2) (by norm_num) (53 + q)
      push_cast at this
      rw [this]
      ring
    have hQ : qexp (m * 2 ^ q) = q + 1 := by
      unfold qexp
      rw [hlog, max_eq_left (by omega)]
      omega
    have hm2 : ∃ k : ℤ, m = 2 * k := by
      rcases abs_choice m with h | h
      · exact ⟨2 ^ 52, by rw [← h, heq]; norm_num⟩
      · exact ⟨-2 ^ 52, by
          have : -m = 2 ^ 53 := by rw [← h, heq]
          have e : m = -2 ^ 53 := by omega
          rw [e]; norm_num⟩
    obtain ⟨k, hk⟩ := hm2
    refine ⟨k, ?_⟩
    rw [hQ, hk, zpow_add₀ (by norm_num)]
    push_cast
    ring

theorem isF_zpow {z : ℤ} (h : -1074 ≤ z) : IsF (2 ^ z) := ⟨1, z, by norm_num, h, by simp⟩

theorem isF_neg {y : ℝ} (h : IsF y) : IsF (-y) := by
  obtain ⟨m, q, hm, hq, rfl⟩ := h
  exact ⟨-m, q, by rwa [abs_neg], hq, by push_cast; ring⟩

theorem round_nonneg {x : ℝ} (h : 0 ≤ x) : 0 ≤ round x := by
  unfold round
  have hq := two_zpow_pos (qexp x)
  have := rne_mono (x := ((0 : ℤ) : ℝ)) (y := x / 2 ^ qexp x) (by push_cast; positivity)
  rw [rne_intCast] at this
  have : (0 : ℝ) ≤ (rne (x / 2 ^ qexp x) : ℝ) := by exact_mod_cast this
  positivity

/-- same unit: rounding is monotone -/
theorem round_mono_same {x y : ℝ} (h : x ≤ y) (hq : qexp x = qexp y) : round x ≤ round y := by
  unfold round
  rw [hq]
  have := two_zpow_pos (qexp y)
  gcongr
  exact rne_mono (by gcongr)

theorem qexp_mono {x y : ℝ} (h0 : 0 < x) (h : x ≤ y) : qexp x ≤ qexp y := by
  unfold qexp
  apply max_le_max _ le_rfl
  have := Int.log_mono_right (b := 2) h0 h
  rw [abs_of_pos h0, abs_of_pos (h0.trans_le h)]
  omega

theorem round_mono_pos {x y : ℝ} (h0 : 0 < x) (h : x ≤ y) : round x ≤ round y := by
  rcases (qexp_mono h0 h).lt_or_eq with hq | hq
  · have hy : 0 < y := h0.trans_le h
    -- the power of two below `y` separates the two
    have hqy : qexp y = Int.log 2 |y| - 52 := by
      unfold qexp at hq ⊢
      rcases max_choice (Int.log 2 |y| - 52) (-1074) with h | h
      · exact h
      · rw [h] at hq
        exact absurd hq (not_lt.2 (le_max_right _ _))
    have hlt : Int.log 2 |x| < Int.log 2 |y| := by
      have : Int.log 2 |x| - 52 ≤ qexp x := le_max_left _ _
      omega
    have hge : -1074 ≤ qexp x := le_max_right _ _
    set L := Int.log 2 |y| with hL
    have hLy : (2 : ℝ) ^ L ≤ y := by
      have := Int.zpow_log_le_self (b := 2) (r := |y|) (by norm_num) (abs_pos.2 hy.ne')
      push_cast at this
      rw [← hL, abs_of_pos hy] at this
      exact this
    have hxL : x ≤ 2 ^ L := by
      have := Int.lt_zpow_succ_log_self (b := 2) (by norm_num) |x|
      rw [abs_of_pos h0] at this
      push_cast at this
      have h2 : (2 : ℝ) ^ (Int.log 2 |x| + 1) ≤ 2 ^ L := two_zpow_le (by omega)
      rw [abs_of_pos h0] at h2
      linarith
    have hL' : -1074 ≤ L := by omega
    -- `round x ≤ 2^L`: the unit of `x` divides `2^L`
    have e1 : round x ≤ 2 ^ L := by
      unfold round
      have hq1 := two_zpow_pos (qexp x)
      have : (2 : ℝ) ^ L = (((2 ^ (L - qexp x).toNat : ℕ) : ℤ) : ℝ) * 2 ^ qexp x := by
        push_cast
        rw [← zpow_natCast, Int.toNat_of_nonneg (by omega), ← zpow_add₀ (by norm_num)]
        congr 1
        omega
      rw [this]
      gcongr
      rw [← rne_intCast ((2 ^ (L - qexp x).toNat : ℕ) : ℤ)]
      apply rne_mono
      rw [div_le_iff₀ hq1, ← this]
      exact hxL
    have e2 : (2 : ℝ) ^ L ≤ round y := by
      unfold round
      have hq1 := two_zpow_pos (qexp y)
      have : (2 : ℝ) ^ L = (((2 ^ 52 : ℕ) : ℤ) : ℝ) * 2 ^ qexp y := by
        rw [hqy]
        rw [show (((2 ^ 52 : ℕ) : ℤ) : ℝ) = 2 ^ (52 : ℤ) by norm_num, ← zpow_add₀ (by norm_num)]
        congr 1
        omega
      rw [this]
      gcongr
      rw [← rne_intCast ((2 ^ 52 : ℕ) : ℤ)]
      apply rne_mono
      rw [le_div_iff₀ hq1, ← this]
      exact hLy
    exact e1.trans e2
  · exact round_mono_same h hq

theorem round_mono {x y : ℝ} (h : x ≤ y) : round x ≤ round y := by
  rcases lt_trichotomy x 0 with hx | hx | hx
  · rcases lt_or_ge y 0 with hy | hy
    · have := round_mono_pos (x := -y) (y := -x) (by linarith) (by linarith)
      rw [round_neg, round_neg] at this
      linarith
    · have h1 := round_nonneg (x := -x) (by linarith)
      have h2 := round_nonneg hy
      rw [round_neg] at h1
      linarith
  · rw [hx, round_zero]; exact round_nonneg (by linarith)
  · exact round_mono_pos hx h

/-- relative error at most `2⁻⁵³` in the normal range -/
theorem abs_round_sub_le {x : ℝ} (hx : 2 ^ (-1022 : ℤ) ≤ |x|) :
    |round x - x| ≤ 2 ^ (-53 : ℤ) * |x| := by
  have hpos : 0 < |x| := lt_of_lt_of_le (two_zpow_pos _) hx
  have hlog : -1022 ≤ Int.log 2 |x| := by
    rw [← Int.zpow_le_iff_le_log (by norm_num) hpos]
    push_cast
    exact hx
  have hq : qexp x = Int.log 2 |x| - 52 := by
    unfold qexp
    exact max_eq_left (by omega)
  have hle : (2 : ℝ) ^ Int.log 2 |x| ≤ |x| := by
    have := Int.zpow_log_le_self (b := 2) (r := |x|) (by norm_num) hpos
    push_cast at this
    exact this
  have h2 := two_zpow_pos (qexp x)
  have hr := abs_rne_sub_le (x / 2 ^ qexp x)
  have e : round x - x = (rne (x / 2 ^ qexp x) - x / 2 ^ qexp x) * 2 ^ qexp x := by
    unfold round
    field_simp
  rw [e, abs_mul, abs_of_pos h2]
  calc _ ≤ (1 / 2 : ℝ) * 2 ^ qexp x := by gcongr
    _ = (2 : ℝ) ^ (-53 : ℤ) * 2 ^ Int.log 2 |x| := by
        rw [hq, show (1 / 2 : ℝ) = 2 ^ (-1 : ℤ) by norm_num, ← zpow_add₀ (by norm_num),
          ← zpow_add₀ (by norm_num)]
        congr 1
        ring
    _ ≤ _ := by gcongr

theorem rnd_eq_fin {x y : ℝ} (h : rnd x = .fin y) : round x = y ∧ |y| < 2 ^ (1024 : ℤ) := by
  unfold rnd at h
  split at h
  · rename_i h1
    cases h
    exact ⟨rfl, h1⟩
  · split at h <;> cases h

theorem IsF.rnd {y : ℝ} (h : IsF y) (hy : |y| < 2 ^ (1024 : ℤ)) : rnd y = .fin y := by
  unfold B64.rnd
  rw [h.round, if_pos hy]

theorem rnd_zero : rnd 0 = .fin 0 := by
  unfold rnd
  rw [round_zero, if_pos]
  rw [abs_zero]
  exact two_zpow_pos _

end B64

/-! ## Binary64 satisfies the laws -/

theorem Binary64_signSymmetric : Binary64.SignSymmetric where
  rnd_neg x := by
    show B64.rnd (-x) = Fl.neg (A := Binary64) (B64.rnd x)
    have hbig := B64.two_zpow_pos 1024
    unfold B64.rnd
    rw [B64.round_neg, abs_neg]
    split
    · rfl
    · rename_i h
      have hne : B64.round x ≠ 0 := by
        intro h0
        rw [h0, abs_zero] at h
        exact h hbig
      rcases lt_or_gt_of_ne hne with h0 | h0
      · rw [if_pos (by linarith), if_neg (by linarith)]; rfl
      · rw [if_neg (by linarith), if_pos h0]; rfl
  pow_even x n hn := by
    show B64.rnd ((-x) ^ n) = B64.rnd (x ^ n)
    rw [hn.neg_pow]
  cos_neg x := by
    show B64.rnd (Real.cos (-x)) = B64.rnd (Real.cos x)
    rw [Real.cos_neg]

theorem Binary64_monotone : Binary64.Monotone where
  rnd_mono x y h := by
    show Raw.le (B64.rnd x) (B64.rnd y)
    have hm := B64.round_mono h
    have hbig := B64.two_zpow_pos 1024
    unfold B64.rnd
    by_cases h1 : |B64.round x| < 2 ^ (1024 : ℤ) <;> by_cases h2 : |B64.round y| < 2 ^ (1024 : ℤ)
    · rw [if_pos h1, if_pos h2]; exact hm
    · rw [if_pos h1, if_neg h2]
      rw [if_pos]
      · trivial
      · by_contra h3
        rw [abs_of_nonpos (not_lt.1 h3)] at h2
        rw [abs_lt] at h1
        linarith [h1.1]
    · rw [if_neg h1, if_pos h2]
      rw [if_neg]
      · trivial
      · intro h3
        rw [abs_of_pos h3] at h1
        rw [abs_lt] at h2
        linarith [h2.2]
    · rw [if_neg h1, if_neg h2]
      by_cases h3 : 0 < B64.round x
      · rw [if_pos h3, if_pos (by linarith)]; trivial
      · rw [if_neg h3]
        split <;> trivial
  rnd_idem x y h := by
    obtain ⟨h1, h2⟩ := B64.rnd_eq_fin h
    have hF : B64.IsF y := h1 ▸ B64.isF_round x
    exact ⟨hF.rnd h2, (B64.isF_neg hF).rnd (by rwa [abs_neg])⟩
  rnd_zero := B64.rnd_zero

/-- absolute error at most `2⁻¹⁰⁷⁵` below the normal range -/
theorem B64.abs_round_sub_le_sub {x : ℝ} (hx : |x| < 2 ^ (-1022 : ℤ)) :
    |B64.round x - x| ≤ 2 ^ (-53 : ℤ) * 2 ^ (-1022 : ℤ) := by
  by_cases h0 : x = 0
  · rw [h0, B64.round_zero, sub_zero, abs_zero]
    exact mul_nonneg (B64.two_zpow_pos _).le (B64.two_zpow_pos _).le
  have hq : B64.qexp x = -1074 := by
    unfold B64.qexp
    apply max_eq_right
    have : Int.log 2 |x| < -1022 := by
      rw [← Int.lt_zpow_iff_log_lt (by norm_num) (abs_pos.2 h0)]
      push_cast
      exact hx
    omega
  have h2 := B64.two_zpow_pos (B64.qexp x)
  have hr := abs_rne_sub_le (x / 2 ^ B64.qexp x)
  have e : B64.round x - x = (rne (x / 2 ^ B64.qexp x) - x / 2 ^ B64.qexp x) * 2 ^ B64.qexp x := by
    unfold B64.round
    field_simp
  rw [e, abs_mul, abs_of_pos h2]
  calc _ ≤ (1 / 2 : ℝ) * 2 ^ B64.qexp x := by gcongr
    _ = (2 : ℝ) ^ (-53 : ℤ) * 2 ^ (-1022 : ℤ) := by
        rw [hq, show (1 / 2 : ℝ) = 2 ^ (-1 : ℤ) by norm_num, ← zpow_add₀ (by norm_num),
          ← zpow_add₀ (by norm_num)]
        norm_num

/-- no overflow up to `2¹⁰²³` -/
theorem B64.rnd_of_le {x : ℝ} (hx : |x| ≤ 2 ^ (1023 : ℤ)) : B64.rnd x = .fin (B64.round x) := by
  unfold B64.rnd
  rw [if_pos]
  rw [abs_le] at hx
  have h1 := B64.round_mono hx.2
  have h2 := B64.round_mono hx.1
  rw [(B64.isF_zpow (by norm_num)).round] at h1
  rw [B64.round_neg, (B64.isF_zpow (by norm_num)).round] at h2
  have : (2 : ℝ) ^ (1023 : ℤ) < 2 ^ (1024 : ℤ) := zpow_lt_zpow_right₀ (by norm_num) (by norm_num)
  rw [abs_lt]
  exact ⟨lt_of_lt_of_le (neg_lt_neg this) h2, lt_of_le_of_lt h1 this⟩

theorem B64.rnd_rel {x : ℝ} (h1 : 2 ^ (-1022 : ℤ) ≤ |x|) (h2 : |x| ≤ 2 ^ (1023 : ℤ)) :
    ∃ δ : ℝ, |δ| ≤ 2 ^ (-53 : ℤ) ∧ B64.rnd x = .fin (x * (1 + δ)) := by
  have hpos : 0 < |x| := lt_of_lt_of_le (B64.two_zpow_pos _) h1
  have hx0 : x ≠ 0 := abs_pos.1 hpos
  refine ⟨(B64.round x - x) / x, ?_, ?_⟩
  · rw [abs_div, div_le_iff₀ hpos]
    exact B64.abs_round_sub_le h1
  · rw [B64.rnd_of_le h2]
    congr 1
    field_simp
    ring

/-- IEEE double precision has unit roundoff `2⁻⁵³` between `2⁻¹⁰²²` and `2¹⁰²³`. -/
theorem Binary64_accurate : Binary64.Accurate (2 ^ (-53 : ℤ)) (2 ^ (-1022 : ℤ)) (2 ^ (1023 : ℤ)) where
  u_nonneg := (B64.two_zpow_pos _).le
  u_small := by norm_num
  lo_pos := B64.two_zpow_pos _
  rnd_zero := B64.rnd_zero
  pow_zero n hn := by
    show B64.rnd (0 ^ n) = _
    rw [zero_pow hn]; exact B64.rnd_zero
  rnd_rel x h1 h2 := B64.rnd_rel h1 h2
  rnd_abs x h := by
    refine ⟨_, B64.rnd_of_le h, ?_⟩
    have hu := B64.two_zpow_pos (-53)
    rcases lt_or_ge |x| (2 ^ (-1022 : ℤ)) with hx | hx
    · exact (B64.abs_round_sub_le_sub hx).trans (mul_le_mul_of_nonneg_left (le_max_right _ _) hu.le)
    · exact (B64.abs_round_sub_le hx).trans (mul_le_mul_of_nonneg_left (le_max_left _ _) hu.le)
  pow_rel x n hn h1 h2 := by
    obtain ⟨δ, hδ, e⟩ := B64.rnd_rel h1 h2
    rw [abs_le] at hδ
    have hu : (2 : ℝ) ^ (-53 : ℤ) ≤ 1 / 2 := by norm_num
    have hu0 := B64.two_zpow_pos (-53)
    generalize (2 : ℝ) ^ (-53 : ℤ) = u at *
    have hle : (1 - u) ^ (n - 1) ≤ 1 - u := by
      calc _ ≤ (1 - u) ^ 1 :=
            pow_le_pow_of_le_one (by linarith) (by linarith) (by omega)
        _ = _ := pow_one _
    have hp : 0 < (1 - u) ^ (n - 1) := pow_pos (by linarith) _
    refine ⟨1 + δ, by linarith [hδ.1], ?_, e⟩
    have h3 : (1 - u)⁻¹ ≤ ((1 - u) ^ (n - 1))⁻¹ := by
      rw [inv_le_inv₀ (by linarith) hp]; exact hle
    have h4 : 1 + u ≤ (1 - u)⁻¹ := by
      rw [le_inv_comm₀ (by linarith) (by linarith), inv_eq_one_div, le_div_iff₀ (by linarith)]
      nlinarith [sq_nonneg (u)]
    linarith [hδ.2]

theorem Binary64_pi_ne_zero : Binary64.pi ≠ 0 := by
  have h := B64.round_mono (x := 2 ^ (1 : ℤ)) (y := Real.pi) (by
    have := Real.pi_gt_three; norm_num; linarith)
  rw [(B64.isF_zpow (by norm_num)).round] at h
  have : (0 : ℝ) < B64.round Real.pi := lt_of_lt_of_le (by norm_num) h
  exact this.ne'

end Choclo
