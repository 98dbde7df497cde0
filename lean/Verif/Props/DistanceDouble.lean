import Verif.Lemmas.SqrtSq
import Verif.Spec.Basic
import Verif.Props.NumbaPow

/-! # The Cartesian distance in double precision (C101)

Squaring, adding and taking the root in double precision loses nothing along a coordinate axis and never
returns less than the difference of a coordinate. -/

namespace Choclo

open B64

/-- Arithmetics with the operations of binary64 as far as distances are concerned. -/
structure Arith.DistanceOps (A : Arith) : Prop where
  rnd : A.rnd = B64.rnd
  sq : ∀ x : ℝ, A.pow x 2 = B64.rnd (x ^ 2)

theorem binary64_distanceOps : Binary64.DistanceOps := ⟨rfl, fun _ => rfl⟩

theorem numba64_distanceOps : Numba64.DistanceOps := ⟨rfl, fun x => by
  show numbaPow Binary64 x 2 = _
  show (Fl.fin x * Fl.fin x : Fl Binary64) = _
  rw [sq]
  show Fl.ofRaw (B64.rnd (x * x)) = _
  rfl⟩

theorem abs_round_le_pow {x : ℝ} {n : ℤ} (hn : -1074 ≤ n) (h : |x| ≤ 2 ^ n) : |B64.round x| ≤ 2 ^ n := by
  have h1 := round_mono (abs_le.1 h).1
  have h2 := round_mono (abs_le.1 h).2
  rw [round_neg, (isF_zpow hn).round] at h1
  rw [(isF_zpow hn).round] at h2
  exact abs_le.2 ⟨h1, h2⟩

theorem rnd_fin {x : ℝ} (hx : |x| ≤ 2 ^ (1023 : ℤ)) : B64.rnd x = .fin (B64.round x) := B64.rnd_of_le hx

/-- The value computed from the three rounded differences. -/
noncomputable def dist64 (x y z : ℝ) : ℝ :=
  B64.round (Real.sqrt (B64.round (B64.round (B64.round (x ^ 2) + B64.round (y ^ 2)) + B64.round (z ^ 2))))

section
variable {A : Arith} (hA : A.DistanceOps)
include hA

theorem sub64 {a b : ℝ} (h : |a - b| ≤ 2 ^ (1023 : ℤ)) : ((a : Fl A) - (b : Fl A) : Fl A) = Fl.fin (B64.round (a - b)) := by
  show (Fl.ofRaw (A.rnd (a + -b)) : Fl A) = _
  rw [hA.rnd, ← sub_eq_add_neg, rnd_fin h]; rfl

theorem add64 {a b : ℝ} (h : |a + b| ≤ 2 ^ (1023 : ℤ)) : ((Fl.fin a : Fl A) + (Fl.fin b : Fl A) : Fl A) = Fl.fin (B64.round (a + b)) := by
  show (Fl.ofRaw (A.rnd (a + b)) : Fl A) = _
  rw [hA.rnd, rnd_fin h]; rfl

theorem sq64 {a : ℝ} (h : |a ^ 2| ≤ 2 ^ (1023 : ℤ)) : ((Fl.fin a : Fl A) ^ 2 : Fl A) = Fl.fin (B64.round (a ^ 2)) := by
  show (Fl.ofRaw (A.pow a 2) : Fl A) = _
  rw [hA.sq, rnd_fin h]; rfl

theorem sqrt64 {a : ℝ} (h0 : 0 ≤ a) (h : |Real.sqrt a| ≤ 2 ^ (1023 : ℤ)) :
    Fl.sqrt (Fl.fin a : Fl A) = Fl.fin (B64.round (Real.sqrt a)) := by
  show (if a < 0 then _ else (Fl.ofRaw (A.rnd (Real.sqrt a)) : Fl A)) = _
  rw [if_neg h0.not_gt, hA.rnd, rnd_fin h]; rfl

theorem distance64 (p q : Pt) (hb : ∀ a : Axis, |p.coord a - q.coord a| ≤ 2 ^ (510 : ℤ)) :
    Returns (onPair (A := A) utils.distance_cartesian p q)
      (dist64 (B64.round (p.e - q.e)) (B64.round (p.n - q.n)) (B64.round (p.u - q.u))) := by
  have big : ∀ n : ℤ, n ≤ 1023 → (2 : ℝ) ^ n ≤ 2 ^ (1023 : ℤ) := fun n hn => two_zpow_le hn
  have b := fun a => abs_round_le_pow (by norm_num) (hb a)
  have he := hb .e
  have hn := hb .n
  have hu := hb .u
  have be := b .e
  have bn := b .n
  have bu := b .u
  simp only [Pt.coord] at he hn hu be bn bu
  show Except.ok (Fl.sqrt (((p.e : Fl A) - (q.e : Fl A)) ^ 2 + ((p.n : Fl A) - (q.n : Fl A)) ^ 2
    + ((p.u : Fl A) - (q.u : Fl A)) ^ 2)) = _
  rw [sub64 hA (he.trans (big 510 (by norm_num))), sub64 hA (hn.trans (big 510 (by norm_num))),
    sub64 hA (hu.trans (big 510 (by norm_num)))]
  generalize B64.round (p.e - q.e) = x at *
  generalize B64.round (p.n - q.n) = y at *
  generalize B64.round (p.u - q.u) = z at *
  have sqb : ∀ {x : ℝ}, |x| ≤ 2 ^ (510 : ℤ) → |x ^ 2| ≤ 2 ^ (1020 : ℤ) := by
    intro x hx
    rw [abs_pow]
    calc |x| ^ 2 ≤ ((2 : ℝ) ^ (510 : ℤ)) ^ 2 := by gcongr
      _ = 2 ^ (1020 : ℤ) := by rw [← zpow_natCast, ← zpow_mul]; norm_num
  have rb : ∀ {x : ℝ}, |x| ≤ 2 ^ (510 : ℤ) → |B64.round (x ^ 2)| ≤ 2 ^ (1020 : ℤ) := fun hx =>
    abs_round_le_pow (by norm_num) (sqb hx)
  have n1 : ∀ x : ℝ, 0 ≤ B64.round (x ^ 2) := fun x => round_nonneg (sq_nonneg x)
  have dbl : ∀ {s t : ℝ} {n : ℤ}, |s| ≤ 2 ^ n → |t| ≤ 2 ^ n → |s + t| ≤ 2 ^ (n + 1) := by
    intro s t n hs ht
    rw [zpow_add_one₀ two_ne_zero]
    exact (abs_add_le _ _).trans (by linarith)
  have s1 : |B64.round (x ^ 2) + B64.round (y ^ 2)| ≤ 2 ^ (1021 : ℤ) := dbl (rb be) (rb bn)
  have s1' := abs_round_le_pow (by norm_num) s1
  have s2 : |B64.round (B64.round (x ^ 2) + B64.round (y ^ 2)) + B64.round (z ^ 2)| ≤ 2 ^ (1022 : ℤ) :=
    dbl s1' ((rb bu).trans (two_zpow_le (by norm_num)))
  have s2' := abs_round_le_pow (by norm_num) s2
  have p1 : 0 ≤ B64.round (B64.round (x ^ 2) + B64.round (y ^ 2)) := round_nonneg (add_nonneg (n1 x) (n1 y))
  have p2 : 0 ≤ B64.round (B64.round (B64.round (x ^ 2) + B64.round (y ^ 2)) + B64.round (z ^ 2)) := round_nonneg (add_nonneg p1 (n1 z))
  rw [sq64 hA ((sqb be).trans (big _ (by norm_num))), sq64 hA ((sqb bn).trans (big _ (by norm_num))),
    sq64 hA ((sqb bu).trans (big _ (by norm_num))), add64 hA (s1.trans (big _ (by norm_num))),
    add64 hA (s2.trans (big _ (by norm_num))), sqrt64 hA p2]
  · rfl
  · rw [abs_of_nonneg (Real.sqrt_nonneg _)]
    rw [abs_of_nonneg p2] at s2'
    refine (Real.sqrt_le_sqrt s2').trans ?_
    refine Real.sqrt_le_iff.2 ⟨(two_zpow_pos _).le, ?_⟩
    rw [← zpow_natCast, ← zpow_mul]
    exact two_zpow_le (by norm_num)

end

theorem dist64_axis {x : ℝ} (hF : IsF x) (hx : x = 0 ∨ 2 ^ (-511 : ℤ) ≤ |x|) :
    dist64 x 0 0 = |x| ∧ dist64 0 x 0 = |x| ∧ dist64 0 0 x = |x| := by
  have z : B64.round ((0 : ℝ) ^ 2) = 0 := by rw [zero_pow two_ne_zero, round_zero]
  have r : ∀ y, B64.round (B64.round y) = B64.round y := fun y => (isF_round y).round
  unfold dist64
  simp only [z, zero_add, add_zero, r, round_zero]
  have : B64.round (Real.sqrt (B64.round (x ^ 2))) = |x| := by
    rcases hx with rfl | hx
    · rw [z, Real.sqrt_zero, round_zero, abs_zero]
    · exact sqrt_round_sq hF hx
  exact ⟨this, this, this⟩

theorem dist64_ge {x y z w : ℝ} (hw : w = x ∨ w = y ∨ w = z) (hF : IsF w) (h : w = 0 ∨ 2 ^ (-511 : ℤ) ≤ |w|) :
    |w| ≤ dist64 x y z := by
  have r : ∀ y, B64.round (B64.round y) = B64.round y := fun y => (isF_round y).round
  have n1 : ∀ x : ℝ, 0 ≤ B64.round (x ^ 2) := fun x => round_nonneg (sq_nonneg x)
  have p1 : 0 ≤ B64.round (B64.round (x ^ 2) + B64.round (y ^ 2)) := round_nonneg (add_nonneg (n1 x) (n1 y))
  have base : B64.round (Real.sqrt (B64.round (w ^ 2))) = |w| := by
    rcases h with rfl | h
    · rw [zero_pow two_ne_zero, round_zero, Real.sqrt_zero, round_zero, abs_zero]
    · exact sqrt_round_sq hF h
  rw [← base]
  refine round_mono (Real.sqrt_le_sqrt ?_)
  rw [← r (w ^ 2)]
  refine round_mono ?_
  rcases hw with rfl | rfl | rfl
  · have : B64.round (B64.round (w ^ 2)) ≤ B64.round (B64.round (w ^ 2) + B64.round (y ^ 2)) := round_mono (by linarith [n1 y])
    rw [r] at this
    linarith [n1 z]
  · have : B64.round (B64.round (w ^ 2)) ≤ B64.round (B64.round (x ^ 2) + B64.round (w ^ 2)) := round_mono (by linarith [n1 x])
    rw [r] at this
    linarith [n1 z]
  · linarith

/-- Points that differ in one coordinate only: the returned distance is exactly the absolute value of the rounded
difference; for Numba's powers too. -/
theorem C101_axis (p : Pt) (a : Axis) (t : ℝ) (hb : |p.coord a - t| ≤ 2 ^ (510 : ℤ))
    (hx : p.coord a = t ∨ 2 ^ (-511 : ℤ) ≤ |p.coord a - t|) :
    Returns (onPair (A := Binary64) utils.distance_cartesian p (p.set a t)) |B64.round (p.coord a - t)|
    ∧ Returns (onPair (A := Numba64) utils.distance_cartesian p (p.set a t)) |B64.round (p.coord a - t)| := by
  have hx' : B64.round (p.coord a - t) = 0 ∨ 2 ^ (-511 : ℤ) ≤ |B64.round (p.coord a - t)| := by
    rcases hx with h | h
    · left; rw [h, sub_self, round_zero]
    · right
      rcases abs_cases (p.coord a - t) with ⟨h', -⟩ | ⟨h', -⟩
      · rw [h'] at h
        have := round_mono h
        rw [(isF_zpow (by norm_num)).round] at this
        exact this.trans (le_abs_self _)
      · rw [h'] at h
        have := round_mono h
        rw [(isF_zpow (by norm_num)).round, round_neg] at this
        exact this.trans (neg_le_abs _)
  have key := dist64_axis (isF_round (p.coord a - t)) hx'
  have hz : |(0 : ℝ)| ≤ 2 ^ (510 : ℤ) := by rw [abs_zero]; exact (two_zpow_pos _).le
  have main : ∀ {A : Arith}, A.DistanceOps →
      Returns (onPair (A := A) utils.distance_cartesian p (p.set a t)) |B64.round (p.coord a - t)| := by
    intro A hA
    have hd := distance64 hA p (p.set a t) (by
      intro b
      cases a <;> cases b <;> simp only [Pt.set, Pt.coord, Pt.e, Pt.n, Pt.u, sub_self] at hb ⊢ <;>
        first | exact hb | exact hz)
    cases a <;> simp only [Pt.set, Pt.coord, Pt.e, Pt.n, Pt.u, sub_self, round_zero] at hd key ⊢
    · rw [key.1] at hd; exact hd
    · rw [key.2.1] at hd; exact hd
    · rw [key.2.2] at hd; exact hd
  exact ⟨main binary64_distanceOps, main numba64_distanceOps⟩

/-- If the difference is a double, the distance is the difference itself: no rounding error at all. -/
theorem C101_axis_exact (p : Pt) (a : Axis) (t : ℝ) (hF : IsF (p.coord a - t)) (hb : |p.coord a - t| ≤ 2 ^ (510 : ℤ))
    (hx : p.coord a = t ∨ 2 ^ (-511 : ℤ) ≤ |p.coord a - t|) :
    Returns (onPair (A := Binary64) utils.distance_cartesian p (p.set a t)) |p.coord a - t|
    ∧ Returns (onPair (A := Numba64) utils.distance_cartesian p (p.set a t)) |p.coord a - t| := by
  have h := C101_axis p a t hb hx
  rwa [hF.round] at h

/-- The returned distance is never smaller than the (rounded) difference of any coordinate. -/
theorem C101_ge (p q : Pt) (hb : ∀ a : Axis, |p.coord a - q.coord a| ≤ 2 ^ (510 : ℤ))
    (hx : ∀ a : Axis, p.coord a = q.coord a ∨ 2 ^ (-511 : ℤ) ≤ |p.coord a - q.coord a|) :
    ∃ r, Returns (onPair (A := Binary64) utils.distance_cartesian p q) r
      ∧ Returns (onPair (A := Numba64) utils.distance_cartesian p q) r
      ∧ ∀ a : Axis, |B64.round (p.coord a - q.coord a)| ≤ r := by
  refine ⟨_, distance64 binary64_distanceOps p q hb, distance64 numba64_distanceOps p q hb, fun a => ?_⟩
  refine dist64_ge ?_ (isF_round _) ?_
  · cases a
    · exact .inl rfl
    · exact .inr (.inl rfl)
    · exact .inr (.inr rfl)
  · rcases hx a with h | h
    · left; rw [h, sub_self, round_zero]
    · right
      rcases abs_cases (p.coord a - q.coord a) with ⟨h', -⟩ | ⟨h', -⟩
      · rw [h'] at h
        have := round_mono h
        rw [(isF_zpow (by norm_num)).round] at this
        exact this.trans (le_abs_self _)
      · rw [h'] at h
        have := round_mono h
        rw [(isF_zpow (by norm_num)).round, round_neg] at this
        exact this.trans (neg_le_abs _)

/-- The distance of `(0, 0, 3)` and `(0, 0, -0.5)` is exactly 3.5. -/
example : Returns (onPair (A := Binary64) utils.distance_cartesian (0, 0, 3) (0, 0, -(1 / 2))) (7 / 2) := by
  have h := (C101_axis_exact (0, 0, 3) .u (-(1 / 2)) (by
      refine ⟨7, -1, by norm_num, by norm_num, ?_⟩
      simp only [Pt.coord, Pt.u]; norm_num) ?_ ?_).1
  · simp only [Pt.coord, Pt.u, Pt.set, Pt.e, Pt.n] at h
    norm_num at h ⊢
    exact h
  · simp only [Pt.coord, Pt.u]
    rw [abs_of_nonneg (by norm_num)]
    calc (3 - -(1 / 2) : ℝ) ≤ 2 ^ (2 : ℤ) := by norm_num
      _ ≤ _ := two_zpow_le (by norm_num)
  · right
    simp only [Pt.coord, Pt.u]
    rw [abs_of_nonneg (by norm_num)]
    calc (2 : ℝ) ^ (-511 : ℤ) ≤ 2 ^ (0 : ℤ) := two_zpow_le (by norm_num)
      _ ≤ _ := by norm_num

end Choclo
