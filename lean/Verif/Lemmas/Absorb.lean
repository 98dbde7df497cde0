import Verif.Props.Infinite
import Verif.Model.Binary64
import Verif.Spec.PrismSym

/-! # Absorption: both boundaries of an axis have the same shifted coordinate -/

namespace Choclo

namespace B64

/-- two doubles that differ by at most a quarter of a unit in the last place are equal -/
theorem isF_sep {y z : ℝ} (hy : IsF y) (hz : IsF z) (h : |y - z| ≤ 2 ^ (-54 : ℤ) * |z|) : y = z := by
  obtain ⟨m, q, hm, -, rfl⟩ := hy
  obtain ⟨k, r, hk, -, rfl⟩ := hz
  have hm' : |(m : ℝ)| ≤ 2 ^ (53 : ℤ) := by
    have : ((|m| : ℤ) : ℝ) ≤ ((2 ^ 53 : ℤ) : ℝ) := Int.cast_le.2 hm
    rw [Int.cast_abs] at this
    exact this.trans (by norm_num)
  have hk' : |(k : ℝ)| ≤ 2 ^ (53 : ℤ) := by
    have : ((|k| : ℤ) : ℝ) ≤ ((2 ^ 53 : ℤ) : ℝ) := Int.cast_le.2 hk
    rw [Int.cast_abs] at this
    exact this.trans (by norm_num)
  have hq := two_zpow_pos q
  have hr := two_zpow_pos r
  have c : (2 : ℝ) ^ (-54 : ℤ) * 2 ^ (53 : ℤ) = 1 / 2 := by
    rw [← zpow_add₀ (by norm_num)]; norm_num
  by_contra hne
  rcases le_total r q with hrq | hrq
  · obtain ⟨d, rfl⟩ : ∃ d : ℕ, q = r + d := ⟨(q - r).toNat, by omega⟩
    have e : (m : ℝ) * 2 ^ (r + (d : ℤ)) - k * 2 ^ r = ((m * 2 ^ d - k : ℤ) : ℝ) * 2 ^ r := by
      rw [zpow_add₀ (by norm_num), zpow_natCast]; push_cast; ring
    have hz : (m * 2 ^ d - k : ℤ) ≠ 0 := by
      intro h0
      rw [h0] at e
      apply hne
      push_cast at e
      linarith
    have h1 : (1 : ℝ) ≤ |((m * 2 ^ d - k : ℤ) : ℝ)| := by exact_mod_cast Int.one_le_abs hz
    rw [e, abs_mul, abs_mul, abs_of_pos hr] at h
    have : (2 : ℝ) ^ (-54 : ℤ) * (|(k : ℝ)| * 2 ^ r) ≤ 1 / 2 * 2 ^ r := by
      rw [← c, mul_assoc]
      exact mul_le_mul_of_nonneg_left (mul_le_mul_of_nonneg_right hk' hr.le) (two_zpow_pos _).le
    have h8 := (mul_le_mul_of_nonneg_right h1 hr.le).trans (h.trans this)
    clear h this e hz h1 c hm' hk' hne
    generalize (2 : ℝ) ^ r = R at *
    linarith
  · obtain ⟨d, rfl⟩ : ∃ d : ℕ, r = q + d := ⟨(r - q).toNat, by omega⟩
    have e : (m : ℝ) * 2 ^ q - k * 2 ^ (q + (d : ℤ)) = ((m - k * 2 ^ d : ℤ) : ℝ) * 2 ^ q := by
      rw [zpow_add₀ (by norm_num), zpow_natCast]; push_cast; ring
    have hz : (m - k * 2 ^ d : ℤ) ≠ 0 := by
      intro h0
      rw [h0] at e
      apply hne
      push_cast at e
      linarith
    have h1 : (1 : ℝ) ≤ |((m - k * 2 ^ d : ℤ) : ℝ)| := by exact_mod_cast Int.one_le_abs hz
    set D := |(m : ℝ) * 2 ^ q - k * 2 ^ (q + (d : ℤ))| with hD
    set z := |(k : ℝ) * 2 ^ (q + (d : ℤ))| with hz'
    have h2 : 2 ^ q ≤ D := by
      rw [hD, e, abs_mul, abs_of_pos hq]
      have h8 := mul_le_mul_of_nonneg_right h1 hq.le
      linarith
    have h3 : z ≤ D + |(m : ℝ) * 2 ^ q| := by
      have := abs_sub_abs_le_abs_sub ((k : ℝ) * 2 ^ (q + (d : ℤ))) ((m : ℝ) * 2 ^ q)
      rw [abs_sub_comm] at this
      linarith
    have h4 : (2 : ℝ) ^ (-54 : ℤ) * |(m : ℝ) * 2 ^ q| ≤ 1 / 2 * 2 ^ q := by
      rw [← c, mul_assoc, abs_mul, abs_of_pos hq]
      exact mul_le_mul_of_nonneg_left (mul_le_mul_of_nonneg_right hm' hq.le) (two_zpow_pos _).le
    have h5 : (2 : ℝ) ^ (-54 : ℤ) ≤ 1 / 4 := by norm_num
    have h6 : 0 ≤ D := abs_nonneg _
    have h7 : (2 : ℝ) ^ (-54 : ℤ) * z ≤ 2 ^ (-54 : ℤ) * (D + |(m : ℝ) * 2 ^ q|) :=
      mul_le_mul_of_nonneg_left h3 (two_zpow_pos _).le
    have h8 : (2 : ℝ) ^ (-54 : ℤ) * D ≤ 1 / 4 * D := mul_le_mul_of_nonneg_right h5 h6
    rw [mul_add] at h7
    clear_value D z
    clear hm' hk' c e h1 hz
    generalize (2 : ℝ) ^ (-54 : ℤ) = C at *
    generalize (2 : ℝ) ^ q = R at *
    generalize |(m : ℝ) * R| = W at *
    linarith

theorem absorb_pos {x z : ℝ} (h0 : 0 < z) (hz : IsF z) (h : |x - z| ≤ 2 ^ (-55 : ℤ) * z) : round x = z := by
  have c55 : (2 : ℝ) ^ (-55 : ℤ) ≤ 1 / 8 := by norm_num
  have hx : z * (7 / 8) ≤ x := by
    rw [abs_le] at h
    have h1 := h.1
    have h2 := mul_le_mul_of_nonneg_right c55 h0.le
    generalize (2 : ℝ) ^ (-55 : ℤ) = C at *
    linarith
  have hx0 : 0 < x := by nlinarith
  set Q := qexp x with hQ
  have hQp := two_zpow_pos Q
  have hlt := lt_two_zpow x
  rw [abs_of_pos hx0, ← hQ, zpow_add₀ (by norm_num)] at hlt
  -- the disturbance is less than half a unit
  have hd : |x - z| < 2 ^ Q / 2 := by
    refine lt_of_le_of_lt h ?_
    have e : (2 : ℝ) ^ (-55 : ℤ) * 2 ^ (53 : ℤ) = 1 / 4 := by
      rw [← zpow_add₀ (by norm_num)]; norm_num
    have h1 : (2 : ℝ) ^ (-55 : ℤ) * (z * (7 / 8)) < 2 ^ (-55 : ℤ) * (2 ^ Q * 2 ^ (53 : ℤ)) :=
      mul_lt_mul_of_pos_left (lt_of_le_of_lt hx hlt) (two_zpow_pos _)
    rw [mul_comm ((2 : ℝ) ^ Q), ← mul_assoc ((2 : ℝ) ^ (-55 : ℤ)) (2 ^ (53 : ℤ)), e] at h1
    generalize (2 : ℝ) ^ (-55 : ℤ) = c at *
    nlinarith
  have key : ∀ k : ℤ, z = k * 2 ^ Q → round x = z := by
    intro k hk
    have hr := abs_rne_sub_le (x / 2 ^ Q)
    have h1 : |x / 2 ^ Q - k| < 1 / 2 := by
      have : x / 2 ^ Q - k = (x - z) / 2 ^ Q := by rw [hk]; field_simp
      rw [this, abs_div, abs_of_pos hQp, div_lt_iff₀ hQp]
      linarith
    have h2 : rne (x / 2 ^ Q) = k := by
      have : |((rne (x / 2 ^ Q) - k : ℤ) : ℝ)| < 1 := by
        push_cast
        calc _ ≤ |(rne (x / 2 ^ Q) : ℝ) - x / 2 ^ Q| + |x / 2 ^ Q - k| := abs_sub_le _ _ _
          _ < _ := by linarith
      have := Int.abs_lt_one_iff.1 (by exact_mod_cast this : |rne (x / 2 ^ Q) - k| < 1)
      omega
    unfold B64.round
    rw [← hQ, h2, hk]
  obtain ⟨m, q, hm, hq, hmz⟩ := hz
  rcases le_or_gt Q q with hle | hgt
  · obtain ⟨d, rfl⟩ : ∃ d : ℕ, q = Q + d := ⟨(q - Q).toNat, by omega⟩
    refine key (m * 2 ^ d) ?_
    rw [hmz, zpow_add₀ (by norm_num), zpow_natCast]
    push_cast
    ring
  · have hlog : Q = Int.log 2 |x| - 52 := by
      have := le_max_left (Int.log 2 |x| - 52) (-1074)
      rcases max_choice (Int.log 2 |x| - 52) (-1074) with h' | h'
      · rw [hQ]; exact h'
      · exfalso
        rw [← show qexp x = max _ _ from rfl, ← hQ] at h'
        omega
    have hH : (2 : ℝ) ^ (Q + 52) ≤ x := by
      have := Int.zpow_log_le_self (b := 2) (r := |x|) (by norm_num) (abs_pos.2 hx0.ne')
      rw [abs_of_pos hx0] at this hlog
      rw [show Q + 52 = Int.log 2 x by omega]
      exact_mod_cast this
    have hzH : z ≤ 2 ^ (Q + 52) := by
      have hm' : (m : ℝ) ≤ 2 ^ (53 : ℤ) := by
        have : ((m : ℤ) : ℝ) ≤ ((2 ^ 53 : ℤ) : ℝ) := Int.cast_le.2 ((le_abs_self m).trans hm)
        exact this.trans (by norm_num)
      calc z = m * 2 ^ q := hmz
        _ ≤ 2 ^ (53 : ℤ) * 2 ^ q := mul_le_mul_of_nonneg_right hm' (two_zpow_pos q).le
        _ = 2 ^ (53 + q) := by rw [← zpow_add₀ (by norm_num)]
        _ ≤ _ := two_zpow_le (by omega)
    have hs : (2 : ℝ) ^ (Q + 52) = z := by
      refine isF_sep (isF_zpow (by omega)) ⟨m, q, hm, hq, hmz⟩ ?_
      rw [abs_of_nonneg (by linarith), abs_of_pos h0]
      rw [abs_le] at h
      have : (2 : ℝ) ^ (-54 : ℤ) = 2 * 2 ^ (-55 : ℤ) := by norm_num
      have h3 := two_zpow_pos (-55)
      rw [this]
      generalize (2 : ℝ) ^ (-55 : ℤ) = c at *
      nlinarith [h.2, mul_pos h3 h0]
    refine key (2 ^ 52) ?_
    rw [← hs, zpow_add₀ (by norm_num)]
    push_cast
    rw [mul_comm]
    norm_num

/-- a disturbance below a quarter of a unit in the last place disappears -/
theorem absorb {x z : ℝ} (hz : IsF z) (h : |x - z| ≤ 2 ^ (-55 : ℤ) * |z|) : round x = z := by
  rcases lt_trichotomy z 0 with h0 | h0 | h0
  · have := absorb_pos (x := -x) (z := -z) (by linarith) (isF_neg hz) (by
      rw [show -x - -z = -(x - z) by ring, abs_neg]
      rwa [abs_of_neg h0] at h)
    rw [round_neg] at this
    linarith
  · subst h0
    simp only [abs_zero, mul_zero, sub_zero] at h
    rw [abs_nonpos_iff.1 h, round_zero]
  · exact absorb_pos h0 hz (by rwa [abs_of_pos h0] at h)

end B64

variable {A : Arith}

namespace Fl

/-- a signed term and the term of the opposite sign cancel exactly -/
theorem cancel (hA : A.Monotone) (hS : A.SignSymmetric) {X : Fl A} (hX : X.ZeroOrNaN) (v : Fl A) :
    (X + prism.sgn 0 * v + prism.sgn 1 * v).ZeroOrNaN ∧ (X + prism.sgn 1 * v + prism.sgn 2 * v).ZeroOrNaN ∧
      (X + prism.sgn 2 * v + prism.sgn 3 * v).ZeroOrNaN := by
  have e0 : (prism.sgn 0 : Fl A) = fin 1 := by
    show fin (((-1 : ℤ) ^ 0 : ℤ) : ℝ) = _; norm_num
  have e1 : (prism.sgn 1 : Fl A) = fin (-1) := by
    show fin (((-1 : ℤ) ^ 1 : ℤ) : ℝ) = _; norm_num
  have e2 : (prism.sgn 2 : Fl A) = fin 1 := by
    show fin (((-1 : ℤ) ^ 2 : ℤ) : ℝ) = _; norm_num
  have e3 : (prism.sgn 3 : Fl A) = fin (-1) := by
    show fin (((-1 : ℤ) ^ 3 : ℤ) : ℝ) = _; norm_num
  rw [e0, e1, e2, e3]
  rcases hX with rfl | rfl
  · refine ⟨?_, ?_, ?_⟩ <;> exact .inl (by simp)
  suffices h : (fin 0 + fin 1 * v + fin (-1) * v : Fl A).ZeroOrNaN ∧
      (fin 0 + fin (-1) * v + fin 1 * v : Fl A).ZeroOrNaN from ⟨h.1, h.2, h.1⟩
  -- a number and its negative
  have main : ∀ a b : Fl A, b = -a → (∀ y, a = fin y → A.rnd y = .fin y ∧ A.rnd (-y) = .fin (-y)) →
      (fin 0 + a + b : Fl A).ZeroOrNaN := by
    intro a b hb ha
    subst hb
    cases a with
    | nan => exact .inl rfl
    | inf s => cases s <;> exact .inl rfl
    | fin y =>
      have h1 : (fin 0 + fin y : Fl A) = fin y := by
        show ofRaw (A.rnd (0 + y)) = _
        rw [zero_add, (ha y rfl).1]; rfl
      show (fin 0 + fin y + -fin y : Fl A).ZeroOrNaN
      rw [h1]
      refine .inr ?_
      show ofRaw (A.rnd (y + -y)) = _
      rw [add_neg_cancel, hA.rnd_zero]; rfl
  have p : ∀ v : Fl A, (fin (-1) * v : Fl A) = -(fin 1 * v) := by
    intro v
    cases v with
    | nan => rfl
    | inf s =>
      show (if (-1 : ℝ) = 0 then _ else if (0 : ℝ) < -1 then _ else _) = -(if (1 : ℝ) = 0 then _ else if (0 : ℝ) < 1 then _ else _)
      rw [if_neg (by norm_num), if_neg (by norm_num), if_neg one_ne_zero, if_pos one_pos]
      rfl
    | fin x =>
      show ofRaw (A.rnd (-1 * x)) = -(ofRaw (A.rnd (1 * x)))
      rw [neg_one_mul, one_mul]
      exact hS.rnd_neg x
  have q : ∀ v : Fl A, ∀ y, (fin 1 * v : Fl A) = fin y → A.rnd y = .fin y ∧ A.rnd (-y) = .fin (-y) := by
    intro v y hy
    cases v with
    | nan => exact absurd hy (by intro h; cases h)
    | inf s =>
      have h' : (if (1 : ℝ) = 0 then (nan : Fl A) else if (0 : ℝ) < 1 then inf s else inf (!s)) = fin y := hy
      rw [if_neg one_ne_zero, if_pos one_pos] at h'
      cases h'
    | fin x =>
      have h' : (ofRaw (A.rnd (1 * x)) : Fl A) = fin y := hy
      refine hA.rnd_idem (1 * x) y ?_
      cases hr : A.rnd (1 * x) with
      | nan => rw [hr] at h'; cases h'
      | inf s => rw [hr] at h'; cases h'
      | fin w => rw [hr] at h'; cases h'; rfl
  constructor
  · exact main _ _ (p v) (q v)
  · refine main _ _ ?_ ?_
    · rw [p v]
      cases (fin 1 * v : Fl A) with
      | nan => rfl
      | inf s => cases s <;> rfl
      | fin x => show fin x = fin (- -x); rw [neg_neg]
    · intro y hy
      rw [p v] at hy
      cases hv : (fin 1 * v : Fl A) with
      | nan => rw [hv] at hy; cases hy
      | inf s => rw [hv] at hy; cases s <;> cases hy
      | fin x =>
        rw [hv] at hy
        have : (fin (-x) : Fl A) = fin y := hy
        cases this
        have := q v x hv
        rw [neg_neg]
        exact ⟨this.2, this.1⟩

end Fl

namespace prism
open Fl

theorem zero_eq : (0 : Fl A) = fin 0 := congrArg fin Nat.cast_zero

theorem cancel8 (hA : A.Monotone) (hS : A.SignSymmetric) (k1 k3 k5 k7 : Fl A) :
    (0 + sgn 0 * k1 + sgn 1 * k1 + sgn 1 * k3 + sgn 2 * k3 + sgn 1 * k5 + sgn 2 * k5 + sgn 2 * k7 + sgn 3 * k7
      : Fl A).ZeroOrNaN := by
  rw [zero_eq]
  exact (cancel hA hS (cancel hA hS (cancel hA hS (cancel hA hS (.inr rfl) k1).1 k3).2.1 k5).2.1 k7).2.2

theorem evaluate_absorbed (hA : A.Monotone) (hS : A.SignSymmetric) {K : Kernel A} {e n u w E s N b t v : Fl A}
    (h : t - u = b - u) (hv : _evaluate_kernel e n u w E s N b t K = .ok v) : v.ZeroOrNaN := by
  rw [evaluate_kernel_unroll, h] at hv
  simp only [Py.bind_ok, Py.pure_ok] at hv
  obtain ⟨k1, h1, k2, h2, k3, h3, k4, h4, k5, h5, k6, h6, k7, h7, k8, h8, rfl⟩ := hv
  cases h1.symm.trans h2
  cases h3.symm.trans h4
  cases h5.symm.trans h6
  cases h7.symm.trans h8
  exact cancel8 hA hS k1 k3 k5 k7

theorem component_absorbed (hA : A.Monotone) (hS : A.SignSymmetric) {K1 K2 K3 : Kernel A}
    {e n u w E s N b t Me Mn Mu v : Fl A} (h : t - u = b - u)
    (hv : _calculate_component e n u w E s N b t Me Mn Mu K1 K2 K3 = .ok v) : v.ZeroOrNaN := by
  rw [calculate_component_unroll, h] at hv
  simp only [Py.bind_ok, Py.pure_ok] at hv
  obtain ⟨k11, a11, k12, a12, k13, a13, k21, a21, k22, a22, k23, a23, k31, a31, k32, a32, k33, a33, k41, a41, k42, a42,
    k43, a43, k51, a51, k52, a52, k53, a53, k61, a61, k62, a62, k63, a63, k71, a71, k72, a72, k73, a73, k81, a81, k82,
    a82, k83, a83, rfl⟩ := hv
  cases a11.symm.trans a21
  cases a12.symm.trans a22
  cases a13.symm.trans a23
  cases a31.symm.trans a41
  cases a32.symm.trans a42
  cases a33.symm.trans a43
  cases a51.symm.trans a61
  cases a52.symm.trans a62
  cases a53.symm.trans a63
  cases a71.symm.trans a81
  cases a72.symm.trans a82
  cases a73.symm.trans a83
  exact cancel8 hA hS _ _ _ _

end prism

end Choclo
