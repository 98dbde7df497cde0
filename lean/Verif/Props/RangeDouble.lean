import Verif.Lemmas.Range
import Verif.Props.Bits2

/-! # Point masses and dipoles over the range of doubles (C102)

The functions return finite numbers for all points and sources between 2^-214 and 2^500 metres apart (2^300 for
dipoles), and raise `ZeroDivisionError` for points closer than 2^-538, coincident or not. -/

namespace Choclo

open B64

variable {A : Arith}

/-- the scale `2 ^ k` of the separation: no difference is larger than `2 ^ (k + 1)`, the distance is at least `2 ^ k` -/
theorem scale (hA : A.Ranged) (p q : Pt) {K : ℤ} (hK : K ≤ 1000) (hb : ∀ a : Axis, |p.coord a - q.coord a| ≤ 2 ^ K) {L : ℤ} (hL : -500 ≤ L)
    (hs : ∃ a : Axis, 2 ^ L ≤ |p.coord a - q.coord a|) :
    ∃ k : ℤ, L ≤ k ∧ k ≤ K ∧ FinLe (k + 1) ((p.e : Fl A) - (q.e : Fl A) : Fl A)
      ∧ FinLe (k + 1) ((p.n : Fl A) - (q.n : Fl A) : Fl A) ∧ FinLe (k + 1) ((p.u : Fl A) - (q.u : Fl A) : Fl A)
      ∧ AtLeast (2 ^ k) (Fl.sqrt (((p.e : Fl A) - (q.e : Fl A) : Fl A) ^ 2 + ((p.n : Fl A) - (q.n : Fl A) : Fl A) ^ 2
        + ((p.u : Fl A) - (q.u : Fl A) : Fl A) ^ 2) : Fl A) := by
  obtain ⟨a₀, ha₀⟩ : ∃ a₀ : Axis, ∀ a : Axis, |p.coord a - q.coord a| ≤ |p.coord a₀ - q.coord a₀| := by
    rcases le_total |p.coord .e - q.coord .e| |p.coord .n - q.coord .n| with h1 | h1 <;>
    rcases le_total |p.coord .e - q.coord .e| |p.coord .u - q.coord .u| with h2 | h2 <;>
    rcases le_total |p.coord .n - q.coord .n| |p.coord .u - q.coord .u| with h3 | h3
    · exact ⟨.u, fun a => by cases a <;> linarith⟩
    · exact ⟨.n, fun a => by cases a <;> linarith⟩
    · exact ⟨.u, fun a => by cases a <;> linarith⟩
    · exact ⟨.n, fun a => by cases a <;> linarith⟩
    · exact ⟨.u, fun a => by cases a <;> linarith⟩
    · exact ⟨.u, fun a => by cases a <;> linarith⟩
    · exact ⟨.e, fun a => by cases a <;> linarith⟩
    · exact ⟨.e, fun a => by cases a <;> linarith⟩
  obtain ⟨a₁, ha₁⟩ := hs
  have hM : 2 ^ L ≤ |p.coord a₀ - q.coord a₀| := ha₁.trans (ha₀ a₁)
  have hM0 : 0 < |p.coord a₀ - q.coord a₀| := (two_zpow_pos _).trans_le hM
  obtain ⟨k, hk⟩ : ∃ k, k = Int.log 2 |p.coord a₀ - q.coord a₀| := ⟨_, rfl⟩
  have k1 : (2 : ℝ) ^ k ≤ |p.coord a₀ - q.coord a₀| := by
    have := Int.zpow_log_le_self (b := 2) (r := |p.coord a₀ - q.coord a₀|) (by norm_num) hM0
    rw [← hk] at this
    exact_mod_cast this
  have k2 : |p.coord a₀ - q.coord a₀| < (2 : ℝ) ^ (k + 1) := by
    have := Int.lt_zpow_succ_log_self (b := 2) (by norm_num) |p.coord a₀ - q.coord a₀|
    rw [← hk] at this
    exact_mod_cast this
  have kL : L ≤ k := by
    rw [hk, ← Int.zpow_le_iff_le_log (by norm_num) hM0]
    exact_mod_cast hM
  have kK : k ≤ K := by
    have h := k1.trans (hb a₀)
    exact (zpow_le_zpow_iff_right₀ (by norm_num : (1 : ℝ) < 2)).1 h
  have dif : ∀ a b : ℝ, ((a : Fl A) - (b : Fl A) : Fl A) = Fl.ofRaw (B64.rnd (a - b)) := fun a b => by
    show (Fl.ofRaw (A.rnd (a + -b)) : Fl A) = _
    rw [hA.rnd, sub_eq_add_neg]
  have hd : ∀ a : Axis, FinLe (k + 1) (Fl.ofRaw (B64.rnd (p.coord a - q.coord a)) : Fl A) := fun a => by
    obtain ⟨y, hy, hyb⟩ := rnd_le ((ha₀ a).trans k2.le) (by omega) (by omega)
    exact ⟨y, hy, hyb⟩
  have h0 : ∀ a : Axis, AtLeast 0 ((Fl.ofRaw (B64.rnd (p.coord a - q.coord a)) : Fl A) ^ 2 : Fl A) := fun a => by
    obtain ⟨y, hy, -⟩ := hd a
    rw [hy]
    rcases hA.sq_nonneg y with h | ⟨z, hz, hz0⟩
    · exact .inl h
    · exact .inr ⟨z, hz, hz0⟩
  have hbig : AtLeast (2 ^ (k * 2)) ((Fl.ofRaw (B64.rnd (p.coord a₀ - q.coord a₀)) : Fl A) ^ 2 : Fl A) := by
    have hr : B64.rnd (p.coord a₀ - q.coord a₀) = .fin (B64.round (p.coord a₀ - q.coord a₀)) :=
      B64.rnd_of_le (k2.le.trans (two_zpow_le (by omega)))
    rw [hr]
    have : (2 : ℝ) ^ k ≤ |B64.round (p.coord a₀ - q.coord a₀)| := by
      rcases abs_cases (p.coord a₀ - q.coord a₀) with ⟨h', -⟩ | ⟨h', -⟩
      · rw [h'] at k1
        have := round_mono k1
        rw [(isF_zpow (by omega)).round] at this
        exact this.trans (le_abs_self _)
      · rw [h'] at k1
        have := round_mono k1
        rw [(isF_zpow (by omega)).round, round_neg] at this
        exact this.trans (neg_le_abs _)
    rcases hA.sq_ge _ k this (by omega) with h | ⟨z, hz, hz0⟩
    · exact .inl h
    · exact .inr ⟨z, hz, hz0⟩
  refine ⟨k, kL, kK, ?_, ?_, ?_, ?_⟩
  · rw [dif]; exact hd .e
  · rw [dif]; exact hd .n
  · rw [dif]; exact hd .u
  · rw [dif, dif, dif]
    refine AtLeast.sqrt hA (by omega) ?_
    have hF : IsF ((2 : ℝ) ^ (k * 2)) := isF_zpow (by omega)
    have hp := (two_zpow_pos (k * 2)).le
    have z0 : IsF (0 : ℝ) := ⟨0, 0, by norm_num, by norm_num, by norm_num⟩
    cases a₀
    · exact AtLeast.add_left hA hF hp (AtLeast.add_left hA hF hp hbig (h0 .n)) (h0 .u)
    · exact AtLeast.add_left hA hF hp (AtLeast.add_right hA hF hp (h0 .e) hbig) (h0 .u)
    · exact AtLeast.add_right hA hF hp (AtLeast.add_left hA z0 le_rfl (h0 .e) (h0 .n)) hbig

theorem const_le {x : ℝ} (hA : A.Ranged) (h0 : 0 ≤ x) (h1 : x ≤ 1) : FinLe 0 (Fl.lit x : Fl A) := by
  obtain ⟨y, hy, hb⟩ := rnd_le (x := x) (n := 0) (by rw [abs_of_nonneg h0, zpow_zero]; exact h1) (by norm_num) (by norm_num)
  refine ⟨y, ?_, hb⟩
  show (Fl.ofRaw (A.rnd x) : Fl A) = _
  rw [hA.rnd, hy]; rfl

theorem one_le0 : FinLe 0 (1 : Fl A) := FinLe.lit (n := 1) (by norm_num)
theorem three_le2 : FinLe 2 (3 : Fl A) := FinLe.lit (n := 3) (by norm_num)

section
variable (hA : A.Ranged) {k : ℤ} {r d d' : Fl A} (k1 : -214 ≤ k) (k2 : k ≤ 500) (hr : AtLeast (2 ^ k) r)
  (hd : FinLe (k + 1) d) (hd' : FinLe (k + 1) d')
include hA k1 k2 hr

theorem range_pot : ∃ c, (1 /. r) = .ok c ∧ FinLe 650 c :=
  FinLe.div hA one_le0 hr (by omega) (by norm_num) (by norm_num)

include hd

theorem range_acc : ∃ c, ((-d) /. r ^ 3) = .ok c ∧ FinLe 650 c :=
  FinLe.div hA hd.neg (AtLeast.pow hA hr (n := 3) (by simp) (by omega)) (by push_cast; omega) (by norm_num) (by norm_num)

theorem range_diag : ∃ c, (do return (← 3 * d ^ 2 /. r ^ 5) - (← 1 /. r ^ 3) : Py (Fl A)) = .ok c ∧ FinLe 650 c := by
  obtain ⟨a, ha, ba⟩ := FinLe.div hA (n := 649) (FinLe.mul hA three_le2 (FinLe.pow hA hd (n := 2) (by simp) (by push_cast; omega) (by push_cast; omega))
    (n := 2 * k + 4) (by push_cast; omega) (by omega) (by omega))
    (AtLeast.pow hA hr (n := 5) (by simp) (by push_cast; omega)) (by push_cast; omega) (by norm_num) (by norm_num)
  obtain ⟨b, hb, bb⟩ := FinLe.div hA (n := 649) one_le0 (AtLeast.pow hA hr (n := 3) (by simp) (by push_cast; omega)) (by push_cast; omega)
    (by norm_num) (by norm_num)
  refine ⟨a - b, ?_, FinLe.sub hA ba bb (by norm_num) (by norm_num) (by norm_num) (by norm_num)⟩
  rw [ha, hb]
  rfl

include hd'

theorem range_off : ∃ c, (3 * d * d' /. r ^ 5) = .ok c ∧ FinLe 650 c :=
  FinLe.div hA (FinLe.mul hA (FinLe.mul hA three_le2 hd (n := k + 3) (by omega) (by omega) (by omega)) hd' (n := 2 * k + 4)
    (by omega) (by omega) (by omega))
    (AtLeast.pow hA hr (n := 5) (by simp) (by push_cast; omega)) (by push_cast; omega) (by norm_num) (by norm_num)

end

theorem range_gravity (hA : A.Ranged) {r g : Fl A} {K : Fl A → Py (Fl A)} (hg : FinLe 0 g) {m : ℝ} (hm : |m| ≤ 2 ^ (300 : ℤ))
    (hK : ∃ c, K r = .ok c ∧ FinLe 650 c) :
    ∃ x, Returns (do
      let distance ← (Except.ok r : Py (Fl A))
      let kernel ← K distance
      return g * (m : Fl A) * kernel : Py (Fl A)) x ∧ |x| ≤ 2 ^ (950 : ℤ) := by
  obtain ⟨c, hc, hb⟩ := hK
  have h1 : FinLe 300 (Fl.fin m : Fl A) := ⟨m, rfl, hm⟩
  obtain ⟨x, hx, hx'⟩ := FinLe.mul hA (FinLe.mul hA hg h1 (n := 300) (by norm_num) (by norm_num) (by norm_num)) hb (n := 950)
    (by norm_num) (by norm_num) (by norm_num)
  refine ⟨x, ?_, hx'⟩
  show (K r >>= fun kernel => pure (g * (m : Fl A) * kernel)) = _
  rw [hc]
  exact congrArg Except.ok hx

theorem range_point (hA : A.Ranged) (c : GComp) (p q : Pt) (hb : ∀ a : Axis, |p.coord a - q.coord a| ≤ 2 ^ (500 : ℤ))
    (hs : ∃ a : Axis, 2 ^ (-214 : ℤ) ≤ |p.coord a - q.coord a|) {m : ℝ} (hm : |m| ≤ 2 ^ (300 : ℤ)) :
    ∃ x, Returns (onPair (A := A) (pointGravity c) p q m) x ∧ |x| ≤ 2 ^ (950 : ℤ) := by
  obtain ⟨k, k1, k2, he, hn, hu, hr⟩ := scale hA p q (by norm_num) hb (by norm_num) hs
  have hG : FinLe 0 (GRAVITATIONAL_CONST : Fl A) := const_le hA (by norm_num) (by norm_num)
  cases c
  · exact range_gravity hA hG hm (range_pot hA k1 k2 hr)
  · exact range_gravity hA hG hm (range_acc hA k1 k2 hr he)
  · exact range_gravity hA hG hm (range_acc hA k1 k2 hr hn)
  · exact range_gravity hA hG hm (range_acc hA k1 k2 hr hu)
  · exact range_gravity hA hG hm (range_diag hA k1 k2 hr he)
  · exact range_gravity hA hG hm (range_diag hA k1 k2 hr hn)
  · exact range_gravity hA hG hm (range_diag hA k1 k2 hr hu)
  · exact range_gravity hA hG hm (range_off hA k1 k2 hr he hn)
  · exact range_gravity hA hG hm (range_off hA k1 k2 hr he hu)
  · exact range_gravity hA hG hm (range_off hA k1 k2 hr hn hu)

theorem range_dipole (hA : A.Ranged) (a : Axis) (p q : Pt) (hb : ∀ a : Axis, |p.coord a - q.coord a| ≤ 2 ^ (300 : ℤ))
    (hs : ∃ a : Axis, 2 ^ (-214 : ℤ) ≤ |p.coord a - q.coord a|) {me mn mu : ℝ} (hme : |me| ≤ 2 ^ (300 : ℤ))
    (hmn : |mn| ≤ 2 ^ (300 : ℤ)) (hmu : |mu| ≤ 2 ^ (300 : ℤ)) :
    ∃ x, Returns (onPair (A := A) (dipoleMagnetic a) p q me mn mu) x ∧ |x| ≤ 2 ^ (950 : ℤ) := by
  obtain ⟨k, k1, k2, he, hn, hu, hr⟩ := scale hA p q (by norm_num) hb (by norm_num) hs
  have ue : FinLe 300 (Fl.fin me : Fl A) := ⟨me, rfl, hme⟩
  have un : FinLe 300 (Fl.fin mn : Fl A) := ⟨mn, rfl, hmn⟩
  have uu : FinLe 300 (Fl.fin mu : Fl A) := ⟨mu, rfl, hmu⟩
  have hV : FinLe 0 (VACUUM_MAGNETIC_PERMEABILITY : Fl A) := const_le hA (by norm_num) (by norm_num)
  obtain ⟨a4, c, h4, hc, bc⟩ : ∃ a4 c : Fl A, (VACUUM_MAGNETIC_PERMEABILITY /. 4 : Py (Fl A)) = .ok a4
      ∧ (a4 /. Fl.pi : Py (Fl A)) = .ok c ∧ FinLe 0 c := by
    have h4 : AtLeast (2 ^ (2 : ℤ)) (4 : Fl A) := .inr ⟨((4 : ℕ) : ℝ), rfl, by norm_num⟩
    have hpi : AtLeast (2 ^ (1 : ℤ)) (Fl.pi : Fl A) := by
      refine .inr ⟨A.pi, rfl, ?_⟩
      rw [hA.pi, ← (isF_zpow (z := 1) (by norm_num)).round]
      refine round_mono ?_
      rw [zpow_one]
      linarith [Real.pi_gt_three]
    obtain ⟨a, ha, ba⟩ := FinLe.div hA (n := 0) hV h4 (by norm_num) (by norm_num) (by norm_num)
    obtain ⟨b, hb, bb⟩ := FinLe.div hA (n := 0) ba hpi (by norm_num) (by norm_num) (by norm_num)
    exact ⟨a, b, ha, hb, bb⟩
  have r5 := AtLeast.pow hA hr (n := 5) (by simp) (by push_cast; omega)
  have r3 := AtLeast.pow hA hr (n := 3) (by simp) (by push_cast; omega)
  have dot := FinLe.add hA (FinLe.add hA
      (FinLe.mul hA ue he (n := 301 + k) (by omega) (by omega) (by omega))
      (FinLe.mul hA un hn (n := 301 + k) (by omega) (by omega) (by omega)) (n := 302 + k) (by omega) (by omega) (by omega) (by omega))
      (FinLe.mul hA uu hu (n := 301 + k) (by omega) (by omega) (by omega)) (n := 303 + k) (by omega) (by omega) (by omega) (by omega)
  have dot3 := FinLe.mul hA three_le2 dot (n := 305 + k) (by omega) (by omega) (by omega)
  have comp : ∀ {d m : Fl A}, FinLe (k + 1) d → FinLe 300 m → ∃ x, (do
      let result := (← 3 * ((me : Fl A) * ((p.e : Fl A) - (q.e : Fl A) : Fl A) + (mn : Fl A) * ((p.n : Fl A) - (q.n : Fl A) : Fl A)
          + (mu : Fl A) * ((p.u : Fl A) - (q.u : Fl A) : Fl A) : Fl A) * d
          /. (Fl.sqrt (((p.e : Fl A) - (q.e : Fl A) : Fl A) ^ 2 + ((p.n : Fl A) - (q.n : Fl A) : Fl A) ^ 2
            + ((p.u : Fl A) - (q.u : Fl A) : Fl A) ^ 2) : Fl A) ^ 5)
        - (← m /. (Fl.sqrt (((p.e : Fl A) - (q.e : Fl A) : Fl A) ^ 2 + ((p.n : Fl A) - (q.n : Fl A) : Fl A) ^ 2
            + ((p.u : Fl A) - (q.u : Fl A) : Fl A) ^ 2) : Fl A) ^ 3)
      return (← (← VACUUM_MAGNETIC_PERMEABILITY /. 4) /. Fl.pi) * result : Py (Fl A)) = .ok (Fl.fin x)
        ∧ |x| ≤ 2 ^ (950 : ℤ) := by
    intro d m hd hm
    obtain ⟨a, ha, ba⟩ := FinLe.div hA (n := 948) (FinLe.mul hA dot3 hd (n := 306 + 2 * k) (by omega) (by omega) (by omega)) r5
      (by push_cast; omega) (by norm_num) (by norm_num)
    obtain ⟨b, hb, bb⟩ := FinLe.div hA (n := 948) hm r3 (by push_cast; omega) (by norm_num) (by norm_num)
    obtain ⟨x, hx, bx⟩ := FinLe.mul hA bc (FinLe.sub hA ba bb (n := 949) (by norm_num) (by norm_num) (by norm_num) (by norm_num))
      (n := 950) (by norm_num) (by norm_num) (by norm_num)
    refine ⟨x, ?_, bx⟩
    rw [ha, hb]
    show ((VACUUM_MAGNETIC_PERMEABILITY /. 4 : Py (Fl A)) >>= fun x => (x /. Fl.pi : Py (Fl A)) >>= fun y => pure (y * (a - b))) = _
    rw [h4]
    show ((a4 /. Fl.pi : Py (Fl A)) >>= fun y => pure (y * (a - b))) = _
    rw [hc]
    exact congrArg Except.ok hx
  cases a
  · exact comp he ue
  · exact comp hn un
  · exact comp hu uu

/-- **C102.** All ten gravity functions of a point mass return finite numbers in double precision, with correctly rounded or
with Numba's powers, whenever the points are at least 2^-214 m apart in some coordinate and at most 2^500 m in every
coordinate, for masses up to 2^300 kg. -/
theorem C102_point (c : GComp) (p q : Pt) (hb : ∀ a : Axis, |p.coord a - q.coord a| ≤ 2 ^ (500 : ℤ))
    (hs : ∃ a : Axis, 2 ^ (-214 : ℤ) ≤ |p.coord a - q.coord a|) {m : ℝ} (hm : |m| ≤ 2 ^ (300 : ℤ)) :
    (∃ x, Returns (onPair (A := Binary64) (pointGravity c) p q m) x ∧ |x| ≤ 2 ^ (950 : ℤ))
    ∧ ∃ x, Returns (onPair (A := Numba64) (pointGravity c) p q m) x ∧ |x| ≤ 2 ^ (950 : ℤ) :=
  ⟨range_point binary64_ranged c p q hb hs hm, range_point numba64_ranged c p q hb hs hm⟩

/-- The same for the components of the magnetic field of a dipole, up to 2^300 m and moments up to 2^300. -/
theorem C102_dipole (a : Axis) (p q : Pt) (hb : ∀ a : Axis, |p.coord a - q.coord a| ≤ 2 ^ (300 : ℤ))
    (hs : ∃ a : Axis, 2 ^ (-214 : ℤ) ≤ |p.coord a - q.coord a|) {me mn mu : ℝ} (hme : |me| ≤ 2 ^ (300 : ℤ))
    (hmn : |mn| ≤ 2 ^ (300 : ℤ)) (hmu : |mu| ≤ 2 ^ (300 : ℤ)) :
    (∃ x, Returns (onPair (A := Binary64) (dipoleMagnetic a) p q me mn mu) x ∧ |x| ≤ 2 ^ (950 : ℤ))
    ∧ ∃ x, Returns (onPair (A := Numba64) (dipoleMagnetic a) p q me mn mu) x ∧ |x| ≤ 2 ^ (950 : ℤ) :=
  ⟨range_dipole binary64_ranged a p q hb hs hme hmn hmu, range_dipole numba64_ranged a p q hb hs hme hmn hmu⟩

/-! ### Too close -/

theorem round_tiny {x : ℝ} (h : |x| ≤ 2 ^ (-538 : ℤ)) : B64.round (x ^ 2) = 0 := by
  have hx : x ^ 2 ≤ 2 ^ (-1076 : ℤ) := by
    rw [← sq_abs]
    calc |x| ^ 2 ≤ ((2 : ℝ) ^ (-538 : ℤ)) ^ 2 := by gcongr
      _ = 2 ^ (-1076 : ℤ) := by rw [← zpow_natCast, ← zpow_mul]; norm_num
  have h0 := sq_nonneg x
  rcases eq_or_lt_of_le h0 with h0 | h0
  · rw [← h0, round_zero]
  have hq : qexp (x ^ 2) = -1074 := by
    unfold qexp
    refine max_eq_right ?_
    rw [abs_of_pos h0]
    have : Int.log 2 (x ^ 2) < -1075 := by
      refine (Int.lt_zpow_iff_log_lt (b := 2) (by norm_num) h0).1 ?_
      push_cast
      exact hx.trans_lt (zpow_lt_zpow_right₀ (by norm_num) (by norm_num))
    omega
  unfold B64.round
  rw [hq]
  have h1 : x ^ 2 / 2 ^ (-1074 : ℤ) ≤ 1 / 4 := by
    rw [div_le_iff₀ (two_zpow_pos _)]
    refine hx.trans (le_of_eq ?_)
    rw [show (1 / 4 : ℝ) = 2 ^ (-2 : ℤ) by norm_num, ← zpow_add₀ two_ne_zero]
    norm_num
  have h2 : 0 ≤ x ^ 2 / 2 ^ (-1074 : ℤ) := by positivity
  have h3 := abs_le.1 (abs_rne_sub_le (x ^ 2 / 2 ^ (-1074 : ℤ)))
  generalize x ^ 2 / 2 ^ (-1074 : ℤ) = t at *
  have h4 : ((rne t : ℤ) : ℝ) < ((1 : ℤ) : ℝ) := by push_cast; linarith
  have h5 : ((-1 : ℤ) : ℝ) < ((rne t : ℤ) : ℝ) := by push_cast; linarith
  have : rne t = 0 := by
    have := Int.cast_lt.1 h4
    have := Int.cast_lt.1 h5
    omega
  rw [this]
  simp

theorem close_distance (hD : A.DistanceOps) (p q : Pt) (h : ∀ a : Axis, |p.coord a - q.coord a| ≤ 2 ^ (-538 : ℤ)) :
    Returns (onPair (A := A) utils.distance_cartesian p q) 0 := by
  have hd := distance64 hD p q (fun a => (h a).trans (two_zpow_le (by norm_num)))
  have hr : ∀ a : Axis, B64.round (B64.round (p.coord a - q.coord a) ^ 2) = 0 := fun a =>
    round_tiny (abs_round_le_pow (by norm_num) (h a))
  have he := hr .e
  have hn := hr .n
  have hu := hr .u
  simp only [Pt.coord] at he hn hu
  rw [dist64, he, hn, hu] at hd
  simpa only [add_zero, round_zero, Real.sqrt_zero] using hd

theorem close_point (hD : A.DistanceOps) (hA : A.ExactAtZero) (c : GComp) (p q : Pt)
    (h : ∀ a : Axis, |p.coord a - q.coord a| ≤ 2 ^ (-538 : ℤ)) (m : Fl A) :
    RaisesZeroDivision (onPair (A := A) (pointGravity c) p q m) := by
  have hd := close_distance hD p q h
  simp only [onPair, Returns] at hd
  cases c <;>
  · simp only [RaisesZeroDivision, onPair, pointGravity, point.gravity_pot, point.gravity_e,
      point.gravity_n, point.gravity_u, point.gravity_ee, point.gravity_nn, point.gravity_uu,
      point.gravity_en, point.gravity_eu, point.gravity_nu, hd, point.kernel_pot, point.kernel_e, point.kernel_n,
      point.kernel_u, point.kernel_ee, point.kernel_nn, point.kernel_uu, point.kernel_en, point.kernel_eu,
      point.kernel_nu]
    simp only [bind, Except.bind, Fl.div_fin_zero, Fl.zero_pow' hA (n := 3) (by norm_num),
      Fl.zero_pow' hA (n := 5) (by norm_num)]

theorem close_dipole (hD : A.DistanceOps) (hA : A.ExactAtZero) (a : Axis) (p q : Pt)
    (h : ∀ a : Axis, |p.coord a - q.coord a| ≤ 2 ^ (-538 : ℤ)) (me mn mu : Fl A) :
    RaisesZeroDivision (onPair (A := A) (dipoleMagnetic a) p q me mn mu) := by
  have hd := close_distance hD p q h
  have hd' := Except.ok.inj hd
  cases a <;>
  · simp only [RaisesZeroDivision, onPair, dipoleMagnetic, dipole.magnetic_e, dipole.magnetic_n,
      dipole.magnetic_u, hd', Fl.zero_pow' hA (n := 5) (by norm_num), Fl.div_fin_zero]
    rfl

/-- **C102.** Points that are closer than 2^-538 m in every coordinate are treated as coincident: all functions raise
`ZeroDivisionError`, whatever the mass or the moment. -/
theorem C102_close (p q : Pt) (h : ∀ a : Axis, |p.coord a - q.coord a| ≤ 2 ^ (-538 : ℤ)) :
    (∀ (c : GComp) (m : Fl Binary64), RaisesZeroDivision (onPair (A := Binary64) (pointGravity c) p q m))
    ∧ ∀ (a : Axis) (me mn mu : Fl Binary64), RaisesZeroDivision (onPair (A := Binary64) (dipoleMagnetic a) p q me mn mu) :=
  ⟨fun c m => close_point binary64_distanceOps Binary64_exactAtZero c p q h m,
    fun a me mn mu => close_dipole binary64_distanceOps Binary64_exactAtZero a p q h me mn mu⟩

/-- Sources at 1 and 2^-600 m: the first returns, the second raises. -/
example (m : ℝ) (hm : |m| ≤ 2 ^ (300 : ℤ)) :
    ∃ x, Returns (onPair (A := Binary64) point.gravity_uu (0, 0, 1) (0, 0, 0) m) x ∧ |x| ≤ 2 ^ (950 : ℤ) := by
  refine (C102_point .uu (0, 0, 1) (0, 0, 0) (fun a => ?_) ⟨.u, ?_⟩ hm).1
  · have : |Pt.coord (0, 0, 1) a - Pt.coord (0, 0, 0) a| ≤ 2 ^ (0 : ℤ) := by
      cases a <;> simp only [Pt.coord, Pt.e, Pt.n, Pt.u] <;> norm_num
    exact this.trans (two_zpow_le (by norm_num))
  · have : (2 : ℝ) ^ (0 : ℤ) ≤ |Pt.coord (0, 0, 1) .u - Pt.coord (0, 0, 0) .u| := by
      simp only [Pt.coord, Pt.u]; norm_num
    exact (two_zpow_le (by norm_num)).trans this

example : RaisesZeroDivision (onPair (A := Binary64) point.gravity_pot (0, 0, 2 ^ (-600 : ℤ)) (0, 0, 0) (1 : ℝ)) := by
  refine (C102_close (0, 0, 2 ^ (-600 : ℤ)) (0, 0, 0) fun a => ?_).1 .pot _
  cases a <;> simp only [Pt.coord, Pt.e, Pt.n, Pt.u, sub_zero, abs_zero]
  · exact (two_zpow_pos _).le
  · exact (two_zpow_pos _).le
  · rw [abs_of_pos (two_zpow_pos _)]
    exact two_zpow_le (by norm_num)

end Choclo
