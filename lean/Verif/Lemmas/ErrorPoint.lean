import Verif.Lemmas.ErrorBound
import Verif.Spec.PrismKernels
import Mathlib.Tactic.NormNum

/-! # Error analysis of the distance, the point functions and the third-order prism kernels -/

namespace Choclo

variable {A : Arith} {u lo hi : ℝ}

namespace Arith.Accurate

variable (h : A.Accurate u lo hi)
include h

theorem nat (n : ℕ) : Approx (A := A) u 0 (OfNat.ofNat n : Fl A) (n : ℝ) := h.exact (n : ℝ)

theorem distance {p q : Pt} (hs : ∀ t ∈ distanceSteps p q, InSafeRange lo hi t) :
    ∃ d : Fl A, onPair (A := A) utils.distance_cartesian p q = .ok d ∧ Approx u 4 d (dist3 p q) := by
  simp only [distanceSteps, List.mem_cons, List.not_mem_nil, or_false, forall_eq_or_imp, forall_eq] at hs
  obtain ⟨s1, s2, s3, s4, s5, s6, s7, s8, s9⟩ := hs
  refine ⟨_, rfl, ?_⟩
  have d1 := h.pow (h.sub_exact s1) le_rfl s4 (by norm_num)
  have d2 := h.pow (h.sub_exact s2) le_rfl s5 (by norm_num)
  have d3 := h.pow (h.sub_exact s3) le_rfl s6 (by norm_num)
  have a1 := h.add d1 d2 (sq_nonneg _) (sq_nonneg _) s7 (by norm_num)
  have a2 := h.add a1 d3 (by positivity) (sq_nonneg _) s8 (by norm_num)
  exact h.sqrt (k := 3) (h.mono (by norm_num) a2) (by positivity) s9 (by norm_num)

theorem gm {m : ℝ} (h1 : InSafeRange lo hi Gc) (h2 : InSafeRange lo hi (Gc * m)) :
    Approx (A := A) u 2 (GRAVITATIONAL_CONST * (m : Fl A)) (Gc * m) :=
  h.mul (h.lit h1) (h.exact m) h2 (by norm_num)

/-- the last two steps shared by all point functions -/
theorem finish {k : ℕ} {m x : ℝ} {call : Py (Fl A)} (hk : k + 2 ≤ 64)
    (h1 : InSafeRange lo hi Gc) (h2 : InSafeRange lo hi (Gc * m)) (h3 : InSafeRange lo hi (Gc * m * x))
    (hc : ∃ v, call = .ok v ∧ Approx u k v x) :
    ∃ v, (do let kernel ← call; return GRAVITATIONAL_CONST * (m : Fl A) * kernel) = .ok v ∧
      Approx u (k + 3) v (Gc * m * x) := by
  obtain ⟨v, rfl, hv⟩ := hc
  refine ⟨_, rfl, ?_⟩
  exact h.mono (by omega) (h.mul (h.gm h1 h2) hv h3 (by omega))

theorem inv_distance {p q : Pt} (hd : dist3 p q ≠ 0) {d : Fl A} (ha : Approx u 4 d (dist3 p q))
    (hs : InSafeRange lo hi (1 / dist3 p q)) :
    ∃ v, ((1 : Fl A) /. d) = .ok v ∧ Approx u 5 v (1 / dist3 p q) := by
  have := h.div (h.nat 1) ha hd (by rw [Nat.cast_one]; exact hs) (by norm_num)
  rw [Nat.cast_one] at this
  exact this

theorem acc_kernel {p q : Pt} {a b : ℝ} (hd : dist3 p q ≠ 0) {d : Fl A} (ha : Approx u 4 d (dist3 p q))
    (h0 : InSafeRange lo hi (a - b)) (h3 : InSafeRange lo hi (dist3 p q ^ 3))
    (hq : InSafeRange lo hi (-(a - b) / dist3 p q ^ 3)) :
    ∃ v, ((-((a : Fl A) - (b : Fl A))) /. d ^ 3) = .ok v ∧ Approx u 16 v (-(a - b) / dist3 p q ^ 3) :=
  h.div (h.neg (h.sub_exact h0)) (h.pow ha (by norm_num) h3 (by norm_num)) (pow_ne_zero 3 hd) hq (by norm_num)

theorem off_kernel {p q : Pt} {a b a' b' : ℝ} (hd : dist3 p q ≠ 0) {d : Fl A}
    (ha : Approx u 4 d (dist3 p q))
    (h0 : InSafeRange lo hi (a - b)) (h0' : InSafeRange lo hi (a' - b'))
    (h1 : InSafeRange lo hi (3 * (a - b))) (h2 : InSafeRange lo hi (3 * (a - b) * (a' - b')))
    (h3 : InSafeRange lo hi (dist3 p q ^ 5))
    (hq : InSafeRange lo hi (3 * (a - b) * (a' - b') / dist3 p q ^ 5)) :
    ∃ v, (3 * ((a : Fl A) - (b : Fl A)) * ((a' : Fl A) - (b' : Fl A)) /. d ^ 5) = .ok v ∧
      Approx u 29 v (3 * (a - b) * (a' - b') / dist3 p q ^ 5) := by
  have n3 : ((3 : ℕ) : ℝ) = 3 := by norm_num
  have e1 := h.mul (h.nat 3) (h.sub_exact h0) (by rw [n3]; exact h1) (by norm_num)
  rw [n3] at e1
  have e2 := h.mul e1 (h.sub_exact h0') h2 (by norm_num)
  exact h.div e2 (h.pow ha (by norm_num) h3 (by norm_num)) (pow_ne_zero 5 hd) hq (by norm_num)

theorem diag_kernel {p q : Pt} {a b : ℝ} (hd : 0 < dist3 p q) {d : Fl A}
    (ha : Approx u 4 d (dist3 p q))
    (h0 : InSafeRange lo hi (a - b)) (h1 : InSafeRange lo hi ((a - b) ^ 2))
    (h2 : InSafeRange lo hi (3 * (a - b) ^ 2)) (h3 : InSafeRange lo hi (dist3 p q ^ 5))
    (h4 : InSafeRange lo hi (3 * (a - b) ^ 2 / dist3 p q ^ 5))
    (h5 : InSafeRange lo hi (dist3 p q ^ 3)) (h6 : InSafeRange lo hi (1 / dist3 p q ^ 3))
    (h7 : InSafeRange lo hi (3 * (a - b) ^ 2 / dist3 p q ^ 5 + 1 / dist3 p q ^ 3)) :
    ∃ v, (do return (← 3 * ((a : Fl A) - (b : Fl A)) ^ 2 /. d ^ 5) - (← 1 /. d ^ 3)) = .ok v ∧
      AbsApprox u 30 v (3 * (a - b) ^ 2 / dist3 p q ^ 5 - 1 / dist3 p q ^ 3)
        (3 * (a - b) ^ 2 / dist3 p q ^ 5 + 1 / dist3 p q ^ 3) := by
  have n3 : ((3 : ℕ) : ℝ) = 3 := by norm_num
  have n1 : ((1 : ℕ) : ℝ) = 1 := by norm_num
  have e0 := h.pow (h.sub_exact h0) le_rfl h1 (by norm_num)
  have e1 := h.mul (h.nat 3) e0 (by rw [n3]; exact h2) (by norm_num)
  rw [n3] at e1
  obtain ⟨v, e, hv⟩ := h.div e1 (h.pow ha (by norm_num) h3 (by norm_num)) (pow_ne_zero 5 hd.ne') h4
    (by norm_num)
  obtain ⟨w, e', hw⟩ := h.div (h.nat 1) (h.pow ha (by norm_num) h5 (by norm_num)) (pow_ne_zero 3 hd.ne')
    (by rw [n1]; exact h6) (by norm_num)
  rw [n1] at hw
  refine ⟨v - w, ?_, ?_⟩
  · change (3 * ((a : Fl A) - (b : Fl A)) ^ 2 /. d ^ 5) = _ at e
    change ((1 : Fl A) /. d ^ 3) = _ at e'
    rw [e, e']
    rfl
  · have hp1 : |3 * (a - b) ^ 2 / dist3 p q ^ 5| = 3 * (a - b) ^ 2 / dist3 p q ^ 5 :=
      abs_of_nonneg (by positivity)
    have hp2 : |1 / dist3 p q ^ 3| = 1 / dist3 p q ^ 3 := abs_of_nonneg (by positivity)
    have := h.absSub (h.toAbs hv) (h.toAbs hw) (by rw [hp1, hp2]; exact h7) (by norm_num)
    rw [hp1, hp2] at this
    exact h.absMono (by norm_num) le_rfl this

/-- the last two steps shared by all point functions, for absolute errors -/
theorem absFinish {k : ℕ} {m x B : ℝ} {call : Py (Fl A)} (hk : k + 2 ≤ 64)
    (h1 : InSafeRange lo hi Gc) (h2 : InSafeRange lo hi (Gc * m)) (h3 : InSafeRange lo hi (|Gc * m| * B))
    (hc : ∃ v, call = .ok v ∧ AbsApprox u k v x B) :
    ∃ v, (do let kernel ← call; return GRAVITATIONAL_CONST * (m : Fl A) * kernel) = .ok v ∧
      AbsApprox u (k + 3) v (Gc * m * x) (|Gc * m| * B) := by
  obtain ⟨v, rfl, hv⟩ := hc
  refine ⟨_, rfl, ?_⟩
  exact h.absMono (by omega) le_rfl (h.absMul (h.toAbs (h.gm h1 h2)) hv h3 (by omega))

/-! ### third-order prism kernels -/

theorem eq_zero_fin {k : ℕ} {v : Fl A} {x : ℝ} (hv : Approx u k v x) : Fl.eq v 0 = decide (x = 0) := by
  obtain ⟨θ, ht, rfl⟩ := hv
  show @decide (x * θ = ((0 : ℕ) : ℝ)) (Classical.propDecidable _) = _
  have := (h.theta_pos ht).ne'
  by_cases hx : x = 0
  · simp [hx]
  · simp [hx, this]

theorem iij {k : ℕ} (hk : k ≤ 4) {x y z r : ℝ} {rv : Fl A} (hr : r ≠ 0) (hrv : Approx u k rv r)
    (hs : ∀ t ∈ iijSteps x y z r, InSafeRange lo hi t) :
    ∃ v, prism._kernel_iij (x : Fl A) y z rv = .ok v ∧ Approx u (5 + k) v (docIIJ x y z r) := by
  simp only [iijSteps, List.mem_cons, List.not_mem_nil, or_false, forall_eq_or_imp, forall_eq] at hs
  obtain ⟨s1, s2, s3, s4, s5, s6⟩ := hs
  unfold prism._kernel_iij
  rw [h.eq_zero_fin hrv, h.eq_zero_fin (h.exact x), h.eq_zero_fin (h.exact y)]
  simp only [hr, decide_false, Bool.false_eq_true, if_false]
  by_cases hxy : x = 0 ∧ y = 0
  · obtain ⟨rfl, rfl⟩ := hxy
    simp only [decide_true, Bool.and_self, if_true]
    refine ⟨_, rfl, 1, h.theta_mono (Nat.zero_le _) h.theta_one, ?_⟩
    simp [docIIJ]
    show Fl.fin ((0 : ℕ) : ℝ) = Fl.fin 0
    rw [Nat.cast_zero]
  · have hne : x ^ 2 + y ^ 2 ≠ 0 := by
      intro h0
      apply hxy
      have hx := sq_nonneg x
      have hy := sq_nonneg y
      exact ⟨pow_eq_zero_iff (two_ne_zero) |>.1 (by linarith), pow_eq_zero_iff (two_ne_zero) |>.1 (by linarith)⟩
    have hb : (decide (x = 0) && decide (y = 0)) = false := by
      rw [← Bool.decide_and]; exact decide_eq_false hxy
    rw [hb]
    simp only [Bool.false_eq_true, if_false]
    have hx2 := h.pow (h.exact x) le_rfl s2 (by norm_num)
    have hy2 := h.pow (h.exact y) le_rfl s3 (by norm_num)
    have hxz := h.mul (h.exact x) (h.exact z) s1 (by norm_num)
    have hsum := h.add hx2 hy2 (sq_nonneg _) (sq_nonneg _) s4 (by norm_num)
    have hden := h.mul hsum hrv s5 (by norm_num; omega)
    obtain ⟨v, e, hv⟩ := h.div hxz hden (mul_ne_zero hne hr) s6 (by norm_num; omega)
    refine ⟨v, by rw [← e], ?_⟩
    unfold docIIJ
    rw [if_neg (mul_ne_zero hne hr)]
    exact h.mono (by norm_num; omega) hv

theorem iii {k : ℕ} (hk : k ≤ 4) {x y z r : ℝ} {rv : Fl A} (hr : r ≠ 0) (hrv : Approx u k rv r)
    (hs : ∀ t ∈ iiiSteps x y z r, InSafeRange lo hi t) :
    ∃ v, prism._kernel_iii (x : Fl A) y z rv = .ok v ∧ Approx u (13 + k) v (docIII x y z r) := by
  simp only [iiiSteps, List.mem_cons, List.not_mem_nil, or_false, forall_eq_or_imp, forall_eq] at hs
  obtain ⟨s1, s2, s3, s4, s5, s6, s7, s8, s9, s10, s11, s12, s13⟩ := hs
  unfold prism._kernel_iii
  rw [h.eq_zero_fin hrv, h.eq_zero_fin (h.exact x), h.eq_zero_fin (h.exact y), h.eq_zero_fin (h.exact z)]
  simp only [hr, decide_false, Bool.false_eq_true, if_false]
  by_cases hxy : (x = 0 ∧ y = 0) ∨ (x = 0 ∧ z = 0)
  · have hb : ((decide (x = 0) && decide (y = 0)) || (decide (x = 0) && decide (z = 0))) = true := by
      rw [← Bool.decide_and, ← Bool.decide_and, ← Bool.decide_or]; exact decide_eq_true hxy
    rw [hb]
    refine ⟨_, rfl, 1, h.theta_mono (Nat.zero_le _) h.theta_one, ?_⟩
    have : docIII x y z r = 0 := by
      unfold docIII
      rw [if_pos]
      rcases hxy with ⟨rfl, rfl⟩ | ⟨rfl, rfl⟩ <;> simp
    rw [this]
    simp
    show Fl.fin ((0 : ℕ) : ℝ) = Fl.fin 0
    rw [Nat.cast_zero]
  · have hb : ((decide (x = 0) && decide (y = 0)) || (decide (x = 0) && decide (z = 0))) = false := by
      rw [← Bool.decide_and, ← Bool.decide_and, ← Bool.decide_or]; exact decide_eq_false hxy
    rw [hb]
    simp only [Bool.false_eq_true, if_false]
    have hne : ∀ w : ℝ, ¬ (x = 0 ∧ w = 0) → x ^ 2 + w ^ 2 ≠ 0 := by
      intro w hw h0
      apply hw
      have hx := sq_nonneg x
      have hy := sq_nonneg w
      exact ⟨pow_eq_zero_iff (two_ne_zero) |>.1 (by linarith), pow_eq_zero_iff (two_ne_zero) |>.1 (by linarith)⟩
    have hden0 : (x ^ 2 + y ^ 2) * (x ^ 2 + z ^ 2) * r ≠ 0 :=
      mul_ne_zero (mul_ne_zero (hne y fun h => hxy (.inl h)) (hne z fun h => hxy (.inr h))) hr
    have n2 : ((2 : ℕ) : ℝ) = 2 := by norm_num
    have hx2 := h.pow (h.exact x) le_rfl s1 (by norm_num)
    have hy2 := h.pow (h.exact y) le_rfl s2 (by norm_num)
    have hz2 := h.pow (h.exact z) le_rfl s3 (by norm_num)
    have hyz := h.mul (h.neg (h.exact y)) (h.exact z) s4 (by norm_num)
    have h2x := h.mul (h.nat 2) hx2 (by rw [n2]; exact s5) (by norm_num)
    rw [n2] at h2x
    have hn1 := h.add h2x hy2 (by positivity) (sq_nonneg _) s6 (by norm_num)
    have hn2 := h.add hn1 hz2 (by positivity) (sq_nonneg _) s7 (by norm_num)
    have hnum := h.mul hyz hn2 s8 (by norm_num)
    have ha := h.add hx2 hy2 (sq_nonneg _) (sq_nonneg _) s9 (by norm_num)
    have hb := h.add hx2 hz2 (sq_nonneg _) (sq_nonneg _) s10 (by norm_num)
    have hab := h.mul ha hb s11 (by norm_num)
    have hden := h.mul hab hrv s12 (by norm_num; omega)
    obtain ⟨v, e, hv⟩ := h.div hnum hden hden0 s13 (by norm_num; omega)
    refine ⟨v, by rw [← e], ?_⟩
    unfold docIII
    rw [if_neg hden0, ← neg_mul, ← neg_mul]
    exact h.mono (by norm_num; omega) hv

theorem enu {k : ℕ} (hk : k ≤ 4) {r : ℝ} {rv : Fl A} (hr : r ≠ 0) (hrv : Approx u k rv r)
    (hs : InSafeRange lo hi (-1 / r)) (x y z : Fl A) :
    ∃ v, prism.kernel_enu x y z rv = .ok v ∧ Approx u (1 + k) v (-1 / r) := by
  unfold prism.kernel_enu
  rw [h.eq_zero_fin hrv]
  simp only [hr, decide_false, Bool.false_eq_true, if_false]
  have n1 : ((1 : ℕ) : ℝ) = 1 := by norm_num
  obtain ⟨v, e, hv⟩ := h.div (h.neg (h.nat 1)) hrv hr (by rw [n1]; exact hs) (by norm_num; omega)
  refine ⟨v, by rw [← e], ?_⟩
  rw [n1] at hv
  exact h.mono (by omega) hv

/-- the radius as computed by the callers of the kernels -/
theorem radius {x y z : ℝ}
    (hs : ∀ t ∈ [x ^ 2, y ^ 2, z ^ 2, x ^ 2 + y ^ 2, x ^ 2 + y ^ 2 + z ^ 2,
      Real.sqrt (x ^ 2 + y ^ 2 + z ^ 2)], InSafeRange lo hi t) :
    Approx u 3 (Fl.sqrt ((x : Fl A) ^ 2 + (y : Fl A) ^ 2 + (z : Fl A) ^ 2))
      (Real.sqrt (x ^ 2 + y ^ 2 + z ^ 2)) := by
  simp only [List.mem_cons, List.not_mem_nil, or_false, forall_eq_or_imp, forall_eq] at hs
  obtain ⟨s1, s2, s3, s4, s5, s6⟩ := hs
  have hx2 := h.pow (h.exact x) le_rfl s1 (by norm_num)
  have hy2 := h.pow (h.exact y) le_rfl s2 (by norm_num)
  have hz2 := h.pow (h.exact z) le_rfl s3 (by norm_num)
  have a1 := h.add hx2 hy2 (sq_nonneg _) (sq_nonneg _) s4 (by norm_num)
  have a2 := h.add a1 hz2 (by positivity) (sq_nonneg _) s5 (by norm_num)
  exact h.sqrt (k := 2) (h.mono (by norm_num) a2) (by positivity) s6 (by norm_num)

end Arith.Accurate

end Choclo
