import Verif.Spec.Rounding
import Verif.Lemmas.Generic

/-! # Forward error analysis -/

namespace Choclo

variable {A : Arith} {u lo hi : ℝ}

/-- `θ` is the product of at most `k` rounding factors (or their inverses). -/
def Theta (u : ℝ) (k : ℕ) (θ : ℝ) : Prop := (1 - u) ^ k ≤ θ ∧ θ ≤ ((1 - u) ^ k)⁻¹

/-- The computed `v` is the exact value `x` up to `k` rounding factors. -/
def Approx (u : ℝ) (k : ℕ) (v : Fl A) (x : ℝ) : Prop := ∃ θ, Theta u k θ ∧ v = Fl.fin (x * θ)

/-- The computed `v` is the exact value `x` up to `k` rounding factors relative to the bound `B` on
the magnitude. -/
def AbsApprox (u : ℝ) (k : ℕ) (v : Fl A) (x B : ℝ) : Prop :=
  ∃ z, v = Fl.fin z ∧ |z - x| ≤ (((1 - u) ^ k)⁻¹ - 1) * B ∧ |x| ≤ B

namespace Arith.Accurate

variable (h : A.Accurate u lo hi)
include h

theorem one_sub_pos : 0 < 1 - u := by have := h.u_small; linarith
theorem one_sub_le : 1 - u ≤ 1 := by have := h.u_nonneg; linarith
theorem pow_pos' (k : ℕ) : 0 < (1 - u) ^ k := pow_pos h.one_sub_pos k
theorem pow_le_one' (k : ℕ) : (1 - u) ^ k ≤ 1 := pow_le_one₀ h.one_sub_pos.le h.one_sub_le

theorem bernoulli (k : ℕ) : 1 - k * u ≤ (1 - u) ^ k := by
  have := one_add_mul_le_pow (a := -u) (by have := h.u_small; linarith) k
  rw [← sub_eq_add_neg] at this
  linarith

theorem half_le {k : ℕ} (hk : k ≤ 64) : 1 / 2 ≤ (1 - u) ^ k := by
  refine le_trans ?_ (h.bernoulli k)
  have h1 : (k : ℝ) ≤ 64 := by exact_mod_cast hk
  have := h.u_small
  have := h.u_nonneg
  nlinarith

theorem theta_one : Theta u 0 1 := by simp [Theta]

theorem theta_delta {δ : ℝ} (hδ : |δ| ≤ u) : Theta u 1 (1 + δ) := by
  rw [abs_le] at hδ
  refine ⟨by rw [pow_one]; linarith [hδ.1], ?_⟩
  rw [pow_one]
  calc 1 + δ ≤ 1 + u := by linarith [hδ.2]
    _ ≤ (1 - u)⁻¹ := by
      rw [le_inv_comm₀ (by have := h.u_nonneg; linarith) h.one_sub_pos, inv_eq_one_div,
        le_div_iff₀ (by have := h.u_nonneg; linarith)]
      nlinarith [sq_nonneg u]

theorem theta_pos {k : ℕ} {θ : ℝ} (ht : Theta u k θ) : 0 < θ := lt_of_lt_of_le (h.pow_pos' k) ht.1

theorem theta_mul {k l : ℕ} {θ η : ℝ} (ht : Theta u k θ) (he : Theta u l η) : Theta u (k + l) (θ * η) := by
  constructor
  · rw [pow_add]; exact mul_le_mul ht.1 he.1 (h.pow_pos' l).le (h.theta_pos ht).le
  · rw [pow_add, mul_inv]
    exact mul_le_mul ht.2 he.2 (h.theta_pos he).le (inv_nonneg.2 (h.pow_pos' k).le)

theorem theta_inv {k : ℕ} {θ : ℝ} (ht : Theta u k θ) : Theta u k θ⁻¹ := by
  constructor
  · rw [le_inv_comm₀ (h.pow_pos' k) (h.theta_pos ht)]; exact ht.2
  · rw [inv_le_inv₀ (h.theta_pos ht) (h.pow_pos' k)]; exact ht.1

theorem theta_mono {k l : ℕ} (hkl : k ≤ l) {θ : ℝ} (ht : Theta u k θ) : Theta u l θ := by
  have := pow_le_pow_of_le_one h.one_sub_pos.le h.one_sub_le hkl
  refine ⟨this.trans ht.1, ht.2.trans ?_⟩
  rw [inv_le_inv₀ (h.pow_pos' k) (h.pow_pos' l)]
  exact this

theorem theta_pow {k : ℕ} {θ : ℝ} (ht : Theta u k θ) (n : ℕ) : Theta u (n * k) (θ ^ n) := by
  induction n with
  | zero => simp [Theta]
  | succ n ih =>
    rw [pow_succ, Nat.succ_mul]
    exact h.theta_mul ih ht

theorem theta_sqrt {k : ℕ} {θ : ℝ} (ht : Theta u (2 * k) θ) : Theta u k (Real.sqrt θ) := by
  constructor
  · apply Real.le_sqrt_of_sq_le
    rw [← pow_mul, mul_comm k 2]; exact ht.1
  · rw [Real.sqrt_le_left (inv_nonneg.2 (h.pow_pos' k).le), inv_pow, ← pow_mul, mul_comm k 2]
    exact ht.2

theorem half_le_theta {k : ℕ} (hk : k ≤ 64) {θ : ℝ} (ht : Theta u k θ) : 1 / 2 ≤ θ ∧ θ ≤ 2 := by
  have := h.half_le hk
  refine ⟨this.trans ht.1, ht.2.trans ?_⟩
  rw [inv_le_comm₀ (h.pow_pos' k) (by norm_num)]
  linarith

/-- rounding a perturbed exact result -/
theorem rnd_approx {x θ : ℝ} {k : ℕ} (hx : InSafeRange lo hi x) (ht : Theta u k θ) (hk : k ≤ 64) :
    ∃ η, Theta u (k + 1) η ∧ A.rnd (x * θ) = .fin (x * η) := by
  rcases hx with rfl | ⟨h1, h2⟩
  · exact ⟨θ, h.theta_mono (Nat.le_succ k) ht, by rw [zero_mul, h.rnd_zero]⟩
  · have ⟨t1, t2⟩ := h.half_le_theta hk ht
    have hpos := h.theta_pos ht
    have habs : |x * θ| = |x| * θ := by rw [abs_mul, abs_of_pos hpos]
    have h0 := abs_nonneg x
    obtain ⟨δ, hδ, he⟩ := h.rnd_rel (x * θ) (by rw [habs]; nlinarith) (by rw [habs]; nlinarith)
    exact ⟨θ * (1 + δ), h.theta_mul ht (h.theta_delta hδ), by rw [he, mul_assoc]⟩

theorem exact (x : ℝ) : Approx (A := A) u 0 (Fl.fin x) x := ⟨1, h.theta_one, by rw [mul_one]⟩

theorem mono {k l : ℕ} (hkl : k ≤ l) {v : Fl A} {x : ℝ} (hv : Approx u k v x) : Approx u l v x := by
  obtain ⟨θ, ht, e⟩ := hv
  exact ⟨θ, h.theta_mono hkl ht, e⟩

theorem neg {k : ℕ} {v : Fl A} {x : ℝ} (hv : Approx u k v x) : Approx u k (-v) (-x) := by
  obtain ⟨θ, ht, rfl⟩ := hv
  refine ⟨θ, ht, ?_⟩
  show Fl.neg (Fl.fin (x * θ)) = _
  simp only [Fl.neg, Fl.fin, neg_mul]
  rfl

theorem lit {x : ℝ} (hx : InSafeRange lo hi x) : Approx (A := A) u 1 (Fl.lit x) x := by
  obtain ⟨η, ht, e⟩ := h.rnd_approx hx h.theta_one (by norm_num)
  rw [mul_one] at e
  exact ⟨η, ht, e⟩

theorem sub_exact {a b : ℝ} (hx : InSafeRange lo hi (a - b)) :
    Approx (A := A) u 1 ((a : Fl A) - (b : Fl A)) (a - b) := by
  obtain ⟨η, ht, e⟩ := h.rnd_approx hx h.theta_one (by norm_num)
  rw [mul_one, sub_eq_add_neg] at e
  exact ⟨η, ht, by rw [sub_eq_add_neg]; exact e⟩

theorem mul {k l : ℕ} {v w : Fl A} {x y : ℝ} (hv : Approx u k v x) (hw : Approx u l w y)
    (hs : InSafeRange lo hi (x * y)) (hk : k + l ≤ 64) : Approx u (k + l + 1) (v * w) (x * y) := by
  obtain ⟨θ, ht, rfl⟩ := hv
  obtain ⟨η, he, rfl⟩ := hw
  obtain ⟨ζ, hz, e⟩ := h.rnd_approx hs (h.theta_mul ht he) hk
  refine ⟨ζ, hz, ?_⟩
  show Fl.mul (Fl.fin (x * θ)) (Fl.fin (y * η)) = _
  simp only [Fl.mul, Fl.fin, Fl.ofRaw]
  rw [show x * θ * (y * η) = x * y * (θ * η) by ring]
  exact e

/-- sum of two non-negative numbers -/
theorem add {k l : ℕ} {v w : Fl A} {x y : ℝ} (hv : Approx u k v x) (hw : Approx u l w y)
    (hx : 0 ≤ x) (hy : 0 ≤ y)
    (hs : InSafeRange lo hi (x + y)) (hk : max k l ≤ 64) : Approx u (max k l + 1) (v + w) (x + y) := by
  obtain ⟨θ, ht, rfl⟩ := h.mono (le_max_left k l) hv
  obtain ⟨η, he, rfl⟩ := h.mono (le_max_right k l) hw
  have hsum : ∃ ζ, Theta u (max k l) ζ ∧ x * θ + y * η = (x + y) * ζ := by
    rcases (add_nonneg hx hy).eq_or_lt with h0 | h0
    · have hx0 : x = 0 := by linarith
      have hy0 : y = 0 := by linarith
      exact ⟨θ, ht, by rw [hx0, hy0]; ring⟩
    · refine ⟨(x * θ + y * η) / (x + y), ⟨?_, ?_⟩, by field_simp⟩
      · rw [le_div_iff₀ h0]
        nlinarith [mul_le_mul_of_nonneg_left ht.1 hx, mul_le_mul_of_nonneg_left he.1 hy]
      · rw [div_le_iff₀ h0]
        nlinarith [mul_le_mul_of_nonneg_left ht.2 hx, mul_le_mul_of_nonneg_left he.2 hy]
  obtain ⟨ζ, hz, e1⟩ := hsum
  obtain ⟨ξ, hξ, e⟩ := h.rnd_approx hs hz hk
  refine ⟨ξ, hξ, ?_⟩
  show Fl.add (Fl.fin (x * θ)) (Fl.fin (y * η)) = _
  simp only [Fl.add, Fl.fin, Fl.ofRaw]
  rw [e1]
  exact e

theorem div {k l : ℕ} {v w : Fl A} {x y : ℝ} (hv : Approx u k v x) (hw : Approx u l w y) (hy : y ≠ 0)
    (hs : InSafeRange lo hi (x / y)) (hk : k + l ≤ 64) :
    ∃ z, (v /. w) = .ok z ∧ Approx u (k + l + 1) z (x / y) := by
  obtain ⟨θ, ht, rfl⟩ := hv
  obtain ⟨η, he, rfl⟩ := hw
  have hη := (h.theta_pos he).ne'
  obtain ⟨ζ, hz, e⟩ := h.rnd_approx hs (h.theta_mul ht (h.theta_inv he)) hk
  refine ⟨Fl.fin (x / y * ζ), ?_, ζ, hz, rfl⟩
  show Fl.div (Fl.fin (x * θ)) (Fl.fin (y * η)) = _
  simp only [Fl.div, Fl.fin, Fl.ofRaw]
  rw [if_neg (mul_ne_zero hy hη), show x * θ / (y * η) = x / y * (θ * η⁻¹) by field_simp, e]

theorem sqrt {k : ℕ} {v : Fl A} {x : ℝ} (hv : Approx u (2 * k) v x) (hx : 0 ≤ x)
    (hs : InSafeRange lo hi (Real.sqrt x)) (hk : k ≤ 64) : Approx u (k + 1) (Fl.sqrt v) (Real.sqrt x) := by
  obtain ⟨θ, ht, rfl⟩ := hv
  obtain ⟨ζ, hz, e⟩ := h.rnd_approx hs (h.theta_sqrt ht) hk
  refine ⟨ζ, hz, ?_⟩
  show (if x * θ < 0 then _ else _) = _
  rw [if_neg (not_lt.2 (mul_nonneg hx (h.theta_pos ht).le)), Real.sqrt_mul hx]
  exact e

theorem pow {k n : ℕ} {v : Fl A} {x : ℝ} (hv : Approx u k v x) (hn2 : 2 ≤ n)
    (hs : InSafeRange lo hi (x ^ n)) (hk : n * k ≤ 64) : Approx u (n * k + (n - 1)) (v ^ n) (x ^ n) := by
  obtain ⟨θ, ht, rfl⟩ := hv
  have hn : n ≠ 0 := by omega
  have htn := h.theta_pow ht n
  rcases hs with h0 | ⟨h1, h2⟩
  · refine ⟨θ ^ n, h.theta_mono (Nat.le_add_right _ _) htn, ?_⟩
    have hx : x = 0 := by rwa [pow_eq_zero_iff hn] at h0
    show Fl.ofRaw (A.pow (x * θ) n) = _
    rw [hx, zero_mul, h.pow_zero n hn, zero_pow hn, zero_mul]
    rfl
  · have ⟨t1, t2⟩ := h.half_le_theta hk htn
    have hpos := h.theta_pos htn
    have habs : |(x * θ) ^ n| = |x ^ n| * θ ^ n := by rw [mul_pow, abs_mul, abs_of_pos hpos]
    have h0 := abs_nonneg (x ^ n)
    obtain ⟨η, e1, e2, e⟩ := h.pow_rel (x * θ) n hn2 (by rw [habs]; nlinarith) (by rw [habs]; nlinarith)
    refine ⟨θ ^ n * η, h.theta_mul htn ⟨e1, e2⟩, ?_⟩
    show Fl.ofRaw (A.pow (x * θ) n) = _
    rw [e, mul_pow, mul_assoc]
    rfl

/-! ### Absolute errors -/

theorem one_le_inv (k : ℕ) : 1 ≤ ((1 - u) ^ k)⁻¹ := by
  rw [le_inv_comm₀ one_pos (h.pow_pos' k), inv_one]; exact h.pow_le_one' k

theorem inv_mono {k l : ℕ} (hkl : k ≤ l) : ((1 - u) ^ k)⁻¹ ≤ ((1 - u) ^ l)⁻¹ := by
  rw [inv_le_inv₀ (h.pow_pos' k) (h.pow_pos' l)]
  exact pow_le_pow_of_le_one h.one_sub_pos.le h.one_sub_le hkl

theorem inv_succ (k : ℕ) : ((1 - u) ^ k)⁻¹ * (1 + u) ≤ ((1 - u) ^ (k + 1))⁻¹ := by
  rw [pow_succ, mul_inv]
  apply mul_le_mul_of_nonneg_left _ (inv_nonneg.2 (h.pow_pos' k).le)
  rw [le_inv_comm₀ (by have := h.u_nonneg; linarith) h.one_sub_pos, inv_eq_one_div,
    le_div_iff₀ (by have := h.u_nonneg; linarith)]
  nlinarith [sq_nonneg u]

theorem inv_le_two {k : ℕ} (hk : k ≤ 64) : ((1 - u) ^ k)⁻¹ ≤ 2 := by
  have := h.half_le hk
  rw [inv_le_comm₀ (h.pow_pos' k) (by norm_num)]
  linarith

theorem abs_theta {k : ℕ} {θ : ℝ} (ht : Theta u k θ) : |θ - 1| ≤ ((1 - u) ^ k)⁻¹ - 1 := by
  rw [abs_le]
  refine ⟨?_, by linarith [ht.2]⟩
  have h1 := ht.1
  have h2 := h.pow_pos' k
  have h3 : 2 ≤ (1 - u) ^ k + ((1 - u) ^ k)⁻¹ := by
    have : ((1 - u) ^ k) * ((1 - u) ^ k)⁻¹ = 1 := mul_inv_cancel₀ h2.ne'
    nlinarith [sq_nonneg ((1 - u) ^ k - 1), h.one_le_inv k, h.pow_le_one' k]
  linarith

theorem toAbs {k : ℕ} {v : Fl A} {x : ℝ} (hv : Approx u k v x) : AbsApprox u k v x |x| := by
  obtain ⟨θ, ht, rfl⟩ := hv
  refine ⟨_, rfl, ?_, le_rfl⟩
  rw [show x * θ - x = (θ - 1) * x by ring, abs_mul]
  exact mul_le_mul_of_nonneg_right (h.abs_theta ht) (abs_nonneg x)

theorem absNonneg {k : ℕ} {v : Fl A} {x B : ℝ} (hv : AbsApprox u k v x B) : 0 ≤ B := by
  obtain ⟨_, _, _, hb⟩ := hv
  exact (abs_nonneg x).trans hb

theorem absMono {k l : ℕ} (hkl : k ≤ l) {v : Fl A} {x B B' : ℝ} (hB : B ≤ B')
    (hv : AbsApprox u k v x B) : AbsApprox u l v x B' := by
  have h0 := h.absNonneg hv
  obtain ⟨z, e, h1, h2⟩ := hv
  refine ⟨z, e, h1.trans ?_, h2.trans hB⟩
  apply mul_le_mul _ hB h0 (by linarith [h.one_le_inv l])
  linarith [h.inv_mono hkl]

theorem absNeg {k : ℕ} {v : Fl A} {x B : ℝ} (hv : AbsApprox u k v x B) : AbsApprox u k (-v) (-x) B := by
  obtain ⟨z, rfl, h1, h2⟩ := hv
  refine ⟨-z, rfl, ?_, by rwa [abs_neg]⟩
  rw [show -z - -x = -(z - x) by ring, abs_neg]
  exact h1

/-- rounding a perturbed exact result -/
theorem absRnd {k : ℕ} (hk : k ≤ 64) {D s B : ℝ} (hB : InSafeRange lo hi B) (hB0 : 0 ≤ B)
    (h1 : |D - s| ≤ (((1 - u) ^ k)⁻¹ - 1) * B) (h2 : |s| ≤ B) :
    ∃ z, A.rnd D = .fin z ∧ |z - s| ≤ (((1 - u) ^ (k + 1))⁻¹ - 1) * B := by
  rcases hB with rfl | ⟨b1, b2⟩
  · rw [mul_zero] at h1
    have hs : s = 0 := abs_nonpos_iff.1 h2
    have hD : D = 0 := by
      have := abs_nonpos_iff.1 h1
      linarith
    exact ⟨0, by rw [hD, h.rnd_zero], by rw [hs]; simp⟩
  · rw [abs_of_nonneg hB0] at b1 b2
    have hDB : |D| ≤ ((1 - u) ^ k)⁻¹ * B := by
      have := abs_add_le (D - s) s
      rw [sub_add_cancel] at this
      linarith
    have h3 := h.inv_le_two hk
    obtain ⟨z, e, hz⟩ := h.rnd_abs D (by nlinarith)
    refine ⟨z, e, ?_⟩
    have hmax : max |D| lo ≤ ((1 - u) ^ k)⁻¹ * B := by
      apply max_le hDB
      have := h.one_le_inv k
      have := h.lo_pos
      nlinarith
    have h4 := abs_add_le (z - D) (D - s)
    rw [show z - D + (D - s) = z - s by ring] at h4
    have h5 := mul_le_mul_of_nonneg_left hmax h.u_nonneg
    have h6 := mul_le_mul_of_nonneg_right (h.inv_succ k) hB0
    nlinarith

theorem absAdd {k l : ℕ} {v w : Fl A} {x y B C : ℝ} (hv : AbsApprox u k v x B) (hw : AbsApprox u l w y C)
    (hs : InSafeRange lo hi (B + C)) (hk : max k l ≤ 64) :
    AbsApprox u (max k l + 1) (v + w) (x + y) (B + C) := by
  have hB := h.absNonneg hv
  have hC := h.absNonneg hw
  obtain ⟨a, rfl, a1, a2⟩ := h.absMono (le_max_left k l) le_rfl hv
  obtain ⟨b, rfl, b1, b2⟩ := h.absMono (le_max_right k l) le_rfl hw
  have hsum : |x + y| ≤ B + C := (abs_add_le x y).trans (add_le_add a2 b2)
  obtain ⟨z, e, hz⟩ := h.absRnd hk hs (add_nonneg hB hC) (D := a + b) (s := x + y) (by
    have := abs_add_le (a - x) (b - y)
    rw [show a - x + (b - y) = a + b - (x + y) by ring] at this
    rw [mul_add]; linarith) hsum
  exact ⟨z, e, hz, hsum⟩

theorem absSub {k l : ℕ} {v w : Fl A} {x y B C : ℝ} (hv : AbsApprox u k v x B) (hw : AbsApprox u l w y C)
    (hs : InSafeRange lo hi (B + C)) (hk : max k l ≤ 64) :
    AbsApprox u (max k l + 1) (v - w) (x - y) (B + C) := by
  rw [sub_eq_add_neg]
  exact h.absAdd hv (h.absNeg hw) hs hk

theorem absMul {k l : ℕ} {v w : Fl A} {x y B C : ℝ} (hv : AbsApprox u k v x B) (hw : AbsApprox u l w y C)
    (hs : InSafeRange lo hi (B * C)) (hk : k + l ≤ 64) :
    AbsApprox u (k + l + 1) (v * w) (x * y) (B * C) := by
  have hB := h.absNonneg hv
  have hC := h.absNonneg hw
  obtain ⟨a, rfl, a1, a2⟩ := hv
  obtain ⟨b, rfl, b1, b2⟩ := hw
  have hprod : |x * y| ≤ B * C := by rw [abs_mul]; exact mul_le_mul a2 b2 (abs_nonneg _) hB
  obtain ⟨z, e, hz⟩ := h.absRnd hk hs (mul_nonneg hB hC) (D := a * b) (s := x * y) (by
    have t1 := abs_add_le ((a - x) * (b - y)) (x * (b - y) + (a - x) * y)
    have t2 := abs_add_le (x * (b - y)) ((a - x) * y)
    rw [show (a - x) * (b - y) + (x * (b - y) + (a - x) * y) = a * b - x * y by ring] at t1
    rw [abs_mul] at t1
    rw [abs_mul, abs_mul] at t2
    have p1 := h.one_le_inv k
    have p2 := h.one_le_inv l
    rw [pow_add, mul_inv]
    have q1 : |a - x| * |b - y| ≤ ((((1 - u) ^ k)⁻¹ - 1) * B) * ((((1 - u) ^ l)⁻¹ - 1) * C) :=
      mul_le_mul a1 b1 (abs_nonneg _) (mul_nonneg (by linarith) hB)
    have q2 : |x| * |b - y| ≤ B * ((((1 - u) ^ l)⁻¹ - 1) * C) :=
      mul_le_mul a2 b1 (abs_nonneg _) hB
    have q3 : |a - x| * |y| ≤ ((((1 - u) ^ k)⁻¹ - 1) * B) * C :=
      mul_le_mul a1 b2 (abs_nonneg _) (mul_nonneg (by linarith) hB)
    calc |a * b - x * y| ≤ _ := t1
      _ ≤ ((((1 - u) ^ k)⁻¹ - 1) * B) * ((((1 - u) ^ l)⁻¹ - 1) * C)
          + (B * ((((1 - u) ^ l)⁻¹ - 1) * C) + ((((1 - u) ^ k)⁻¹ - 1) * B) * C) := by linarith
      _ = _ := by ring) hprod
  exact ⟨z, e, hz, hprod⟩

theorem absDiv {k l : ℕ} {v w : Fl A} {x y B : ℝ} (hv : AbsApprox u k v x B) (hw : Approx u l w y)
    (hy : y ≠ 0) (hs : InSafeRange lo hi (B / |y|)) (hk : k + l ≤ 64) :
    ∃ z, (v /. w) = .ok z ∧ AbsApprox u (k + l + 1) z (x / y) (B / |y|) := by
  have hB := h.absNonneg hv
  obtain ⟨a, rfl, a1, a2⟩ := hv
  obtain ⟨η, he, rfl⟩ := hw
  have hη := (h.theta_pos he).ne'
  have hy' : 0 < |y| := abs_pos.2 hy
  have hquot : |x / y| ≤ B / |y| := by rw [abs_div]; gcongr
  have ht := h.theta_inv he
  obtain ⟨z, e, hz⟩ := h.absRnd hk hs (div_nonneg hB hy'.le) (D := a / (y * η)) (s := x / y) (by
    have e1 : a / (y * η) - x / y = ((a - x) * η⁻¹ + x * (η⁻¹ - 1)) / y := by field_simp; ring
    rw [e1, abs_div]
    rw [← mul_div_assoc]
    apply div_le_div_of_nonneg_right _ hy'.le
    have t1 := abs_add_le ((a - x) * η⁻¹) (x * (η⁻¹ - 1))
    rw [abs_mul, abs_mul] at t1
    have p1 := h.one_le_inv k
    have p2 := h.one_le_inv l
    have q1 : |η⁻¹| ≤ ((1 - u) ^ l)⁻¹ := by
      rw [abs_of_pos (h.theta_pos ht)]; exact ht.2
    have q2 := h.abs_theta ht
    have q3 : |a - x| * |η⁻¹| ≤ ((((1 - u) ^ k)⁻¹ - 1) * B) * ((1 - u) ^ l)⁻¹ :=
      mul_le_mul a1 q1 (abs_nonneg _) (mul_nonneg (by linarith) hB)
    have q4 : |x| * |η⁻¹ - 1| ≤ B * (((1 - u) ^ l)⁻¹ - 1) := mul_le_mul a2 q2 (abs_nonneg _) hB
    rw [pow_add, mul_inv]
    calc _ ≤ _ := t1
      _ ≤ ((((1 - u) ^ k)⁻¹ - 1) * B) * ((1 - u) ^ l)⁻¹ + B * (((1 - u) ^ l)⁻¹ - 1) := by linarith
      _ = _ := by ring) hquot
  refine ⟨Fl.fin z, ?_, z, rfl, hz, hquot⟩
  show Fl.div (Fl.fin a) (Fl.fin (y * η)) = _
  simp only [Fl.div, Fl.fin, Fl.ofRaw]
  rw [if_neg (mul_ne_zero hy hη), e]

theorem gamma_bound {k : ℕ} (hk : k * u < 1) : ((1 - u) ^ k)⁻¹ - 1 ≤ gammaErr u k := by
  have hku : 0 ≤ k * u := mul_nonneg (Nat.cast_nonneg k) h.u_nonneg
  have h1 : 0 < 1 - k * u := by linarith
  unfold gammaErr
  have e : k * u / (1 - k * u) = (1 - k * u)⁻¹ - 1 := by field_simp; ring
  rw [e]
  have : ((1 - u) ^ k)⁻¹ ≤ (1 - k * u)⁻¹ := by
    rw [inv_le_inv₀ (h.pow_pos' k) h1]; exact h.bernoulli k
  linarith

theorem absBound {k : ℕ} {v : Fl A} {x B : ℝ} (hv : AbsApprox u k v x B) (hk : k * u < 1) :
    ∃ y, v = Fl.fin y ∧ |y - x| ≤ gammaErr u k * B := by
  have hB := h.absNonneg hv
  obtain ⟨z, e, h1, _⟩ := hv
  exact ⟨z, e, h1.trans (mul_le_mul_of_nonneg_right (h.gamma_bound hk) hB)⟩

/-- the error bound -/
theorem bound {k : ℕ} {v : Fl A} {x : ℝ} (hv : Approx u k v x) (hk : k * u < 1) :
    ∃ y, v = Fl.fin y ∧ |y - x| ≤ gammaErr u k * |x| := by
  obtain ⟨θ, ht, rfl⟩ := hv
  refine ⟨_, rfl, ?_⟩
  have hb := h.bernoulli k
  have hku : 0 ≤ k * u := mul_nonneg (Nat.cast_nonneg k) h.u_nonneg
  have h1 : 0 < 1 - k * u := by linarith
  have hg : |θ - 1| ≤ gammaErr u k := by
    unfold gammaErr
    rw [abs_le]
    constructor
    · have : k * u ≤ k * u / (1 - k * u) := by
        rw [le_div_iff₀ h1]; nlinarith
      linarith [ht.1]
    · have e : k * u / (1 - k * u) = (1 - k * u)⁻¹ - 1 := by field_simp; ring
      rw [e]
      have : ((1 - u) ^ k)⁻¹ ≤ (1 - k * u)⁻¹ := by
        rw [inv_le_inv₀ (h.pow_pos' k) h1]; exact hb
      linarith [ht.2]
  rw [show x * θ - x = (θ - 1) * x by ring, abs_mul]
  exact mul_le_mul_of_nonneg_right hg (abs_nonneg x)

end Arith.Accurate

end Choclo
