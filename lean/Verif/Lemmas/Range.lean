import Verif.Props.DistanceDouble

/-! # Ranges of results in double precision

A bound for the size of every intermediate result, valid over almost the whole range of doubles. -/

namespace Choclo

open B64

/-- Rounding as in binary64; powers correctly rounded or computed by multiplications. -/
structure Arith.Ranged (A : Arith) : Prop where
  rnd : A.rnd = B64.rnd
  pi : A.pi = B64.round Real.pi
  pow_le : ∀ (x : ℝ) (n : ℕ) (i : ℤ), n ∈ [2, 3, 5, 7] → |x| ≤ 2 ^ i → -1074 ≤ i * n → i * n ≤ 1023 →
    ∃ y, A.pow x n = .fin y ∧ |y| ≤ 2 ^ (i * n)
  pow_ge : ∀ (x : ℝ) (n : ℕ) (i : ℤ), n ∈ [2, 3, 5, 7] → 2 ^ i ≤ x → -1074 ≤ i * n →
    A.pow x n = .inf false ∨ ∃ y, A.pow x n = .fin y ∧ 2 ^ (i * n) ≤ y
  sq_ge : ∀ (x : ℝ) (i : ℤ), 2 ^ i ≤ |x| → -1074 ≤ i * 2 → A.pow x 2 = .inf false ∨ ∃ y, A.pow x 2 = .fin y ∧ 2 ^ (i * 2) ≤ y
  sq_nonneg : ∀ x : ℝ, A.pow x 2 = .inf false ∨ ∃ y, A.pow x 2 = .fin y ∧ 0 ≤ y

theorem rnd_le {x : ℝ} {n : ℤ} (h : |x| ≤ 2 ^ n) (h1 : -1074 ≤ n) (h2 : n ≤ 1023) :
    ∃ y, B64.rnd x = .fin y ∧ |y| ≤ 2 ^ n :=
  ⟨_, B64.rnd_of_le (h.trans (two_zpow_le h2)), abs_round_le_pow h1 h⟩

theorem rnd_ge {x c : ℝ} (hc : IsF c) (hc0 : 0 ≤ c) (h : c ≤ x) : B64.rnd x = .inf false ∨ ∃ y, B64.rnd x = .fin y ∧ c ≤ y := by
  have h1 := round_mono h
  rw [hc.round] at h1
  unfold B64.rnd
  split
  · exact .inr ⟨_, rfl, h1⟩
  · rename_i h2
    refine .inl (if_pos ?_)
    have : 0 ≤ B64.round x := hc0.trans h1
    refine lt_of_le_of_ne this fun h0 => h2 ?_
    rw [← h0, abs_zero]
    exact two_zpow_pos _

variable {A : Arith}

/-- a finite number of size at most `2 ^ n` -/
def FinLe (n : ℤ) (a : Fl A) : Prop := ∃ x : ℝ, a = Fl.fin x ∧ |x| ≤ 2 ^ n

/-- at least `c`, possibly infinite -/
def AtLeast (c : ℝ) (a : Fl A) : Prop := a = Fl.inf false ∨ ∃ x : ℝ, a = Fl.fin x ∧ c ≤ x

theorem FinLe.mono {m n : ℤ} {a : Fl A} (h : FinLe m a) (hmn : m ≤ n) : FinLe n a := by
  obtain ⟨x, hx, hb⟩ := h
  exact ⟨x, hx, hb.trans (two_zpow_le hmn)⟩

theorem FinLe.neg {n : ℤ} {a : Fl A} (h : FinLe n a) : FinLe n (-a) := by
  obtain ⟨x, rfl, hb⟩ := h
  exact ⟨-x, rfl, by rwa [abs_neg]⟩

theorem FinLe.lit {n : ℕ} {m : ℤ} (h : (n : ℝ) ≤ 2 ^ m) : FinLe m (Fl.fin (n : ℝ) : Fl A) :=
  ⟨n, rfl, by rwa [abs_of_nonneg (Nat.cast_nonneg n)]⟩

section
variable (hA : A.Ranged)
include hA

theorem FinLe.add {i j n : ℤ} {a b : Fl A} (ha : FinLe i a) (hb : FinLe j b) (hi : i + 1 ≤ n) (hj : j + 1 ≤ n)
    (h1 : -1074 ≤ n) (h2 : n ≤ 1023) : FinLe n (a + b) := by
  obtain ⟨x, rfl, hx⟩ := ha
  obtain ⟨y, rfl, hy⟩ := hb
  have e : (2 : ℝ) ^ n = 2 ^ (n - 1) + 2 ^ (n - 1) := by
    rw [← two_mul, ← zpow_one_add₀ two_ne_zero]; congr 1; ring
  obtain ⟨z, hz, hb⟩ := rnd_le (x := x + y) (n := n) (by
    rw [e]
    exact (abs_add_le _ _).trans (add_le_add (hx.trans (two_zpow_le (by omega))) (hy.trans (two_zpow_le (by omega))))) h1 h2
  refine ⟨z, ?_, hb⟩
  show (Fl.ofRaw (A.rnd (x + y)) : Fl A) = _
  rw [hA.rnd, hz]; rfl

theorem FinLe.sub {i j n : ℤ} {a b : Fl A} (ha : FinLe i a) (hb : FinLe j b) (hi : i + 1 ≤ n) (hj : j + 1 ≤ n)
    (h1 : -1074 ≤ n) (h2 : n ≤ 1023) : FinLe n (a - b) := FinLe.add hA ha hb.neg hi hj h1 h2

theorem FinLe.mul {i j n : ℤ} {a b : Fl A} (ha : FinLe i a) (hb : FinLe j b) (hij : i + j ≤ n)
    (h1 : -1074 ≤ n) (h2 : n ≤ 1023) : FinLe n (a * b) := by
  obtain ⟨x, rfl, hx⟩ := ha
  obtain ⟨y, rfl, hy⟩ := hb
  obtain ⟨z, hz, hb⟩ := rnd_le (x := x * y) (n := n) (by
    rw [abs_mul]
    refine (mul_le_mul hx hy (abs_nonneg _) (two_zpow_pos _).le).trans ?_
    rw [← zpow_add₀ two_ne_zero]
    exact two_zpow_le hij) h1 h2
  refine ⟨z, ?_, hb⟩
  show (Fl.ofRaw (A.rnd (x * y)) : Fl A) = _
  rw [hA.rnd, hz]; rfl

theorem FinLe.div {i j n : ℤ} {a b : Fl A} (ha : FinLe i a) (hb : AtLeast (2 ^ j) b) (hij : i - j ≤ n)
    (h1 : -1074 ≤ n) (h2 : n ≤ 1023) : ∃ c, (a /. b) = .ok c ∧ FinLe n c := by
  obtain ⟨x, rfl, hx⟩ := ha
  rcases hb with rfl | ⟨y, rfl, hy⟩
  · exact ⟨Fl.fin 0, rfl, 0, rfl, by rw [abs_zero]; exact (two_zpow_pos _).le⟩
  · have hy0 : 0 < y := (two_zpow_pos j).trans_le hy
    obtain ⟨z, hz, hb⟩ := rnd_le (x := x / y) (n := n) (by
      rw [abs_div, abs_of_pos hy0, div_le_iff₀ hy0]
      refine hx.trans ?_
      calc (2 : ℝ) ^ i = 2 ^ (i - j) * 2 ^ j := by rw [← zpow_add₀ two_ne_zero]; congr 1; ring
        _ ≤ 2 ^ n * y := mul_le_mul (two_zpow_le hij) hy (two_zpow_pos _).le (two_zpow_pos _).le) h1 h2
    refine ⟨Fl.fin z, ?_, z, rfl, hb⟩
    show (if y = 0 then Except.error PyErr.zeroDivision else Except.ok (Fl.ofRaw (A.rnd (x / y)) : Fl A)) = _
    rw [if_neg hy0.ne', hA.rnd, hz]; rfl

theorem FinLe.pow {i : ℤ} {n : ℕ} {a : Fl A} (ha : FinLe i a) (hn : n ∈ [2, 3, 5, 7]) (h1 : -1074 ≤ i * n)
    (h2 : i * n ≤ 1023) : FinLe (i * n) (a ^ n) := by
  obtain ⟨x, rfl, hx⟩ := ha
  obtain ⟨y, hy, hb⟩ := hA.pow_le x n i hn hx h1 h2
  exact ⟨y, hy, hb⟩

theorem AtLeast.pow {i : ℤ} {n : ℕ} {a : Fl A} (ha : AtLeast (2 ^ i) a) (hn : n ∈ [2, 3, 5, 7]) (h1 : -1074 ≤ i * n) :
    AtLeast (2 ^ (i * n)) (a ^ n) := by
  rcases ha with rfl | ⟨x, rfl, hx⟩
  · left
    have : n ≠ 0 := by
      rintro rfl
      simp at hn
    show (if n = 0 then _ else (Fl.inf (false && decide (n % 2 = 1)) : Fl A)) = _
    rw [if_neg this, Bool.false_and]
  · rcases hA.pow_ge x n i hn hx h1 with h | ⟨y, hy, hb⟩
    · exact .inl h
    · exact .inr ⟨y, hy, hb⟩

theorem AtLeast.rnd {x c : ℝ} (hc : IsF c) (hc0 : 0 ≤ c) (h : c ≤ x) : AtLeast c (Fl.ofRaw (A.rnd x) : Fl A) := by
  rw [hA.rnd]
  rcases rnd_ge hc hc0 h with h | ⟨y, hy, hb⟩
  · exact .inl h
  · exact .inr ⟨y, hy, hb⟩

theorem AtLeast.add_left {c : ℝ} (hc : IsF c) (hc0 : 0 ≤ c) {a b : Fl A} (ha : AtLeast c a) (hb : AtLeast 0 b) :
    AtLeast c (a + b) := by
  rcases ha with rfl | ⟨x, rfl, hx⟩ <;> rcases hb with rfl | ⟨y, rfl, hy⟩
  · exact .inl rfl
  · exact .inl rfl
  · exact .inl rfl
  · exact AtLeast.rnd hA hc hc0 (by linarith)

theorem AtLeast.add_right {c : ℝ} (hc : IsF c) (hc0 : 0 ≤ c) {a b : Fl A} (ha : AtLeast 0 a) (hb : AtLeast c b) :
    AtLeast c (a + b) := by
  rcases ha with rfl | ⟨x, rfl, hx⟩ <;> rcases hb with rfl | ⟨y, rfl, hy⟩
  · exact .inl rfl
  · exact .inl rfl
  · exact .inl rfl
  · exact AtLeast.rnd hA hc hc0 (by linarith)

theorem AtLeast.sqrt {i : ℤ} (hi : -1074 ≤ i) {a : Fl A} (ha : AtLeast (2 ^ (i * 2)) a) : AtLeast (2 ^ i) (Fl.sqrt a) := by
  rcases ha with rfl | ⟨x, rfl, hx⟩
  · exact .inl rfl
  · have hx0 : 0 ≤ x := (two_zpow_pos _).le.trans hx
    show AtLeast _ (if x < 0 then _ else (Fl.ofRaw (A.rnd (Real.sqrt x)) : Fl A))
    rw [if_neg hx0.not_gt]
    refine AtLeast.rnd hA (isF_zpow hi) (two_zpow_pos _).le ?_
    refine Real.le_sqrt_of_sq_le ?_
    rwa [← zpow_natCast, ← zpow_mul]

theorem AtLeast.mul {i j : ℤ} (hij : -1074 ≤ i + j) {a b : Fl A} (ha : AtLeast (2 ^ i) a) (hb : AtLeast (2 ^ j) b) :
    AtLeast (2 ^ (i + j)) (a * b) := by
  have pi := two_zpow_pos i
  have pj := two_zpow_pos j
  rcases ha with rfl | ⟨x, rfl, hx⟩ <;> rcases hb with rfl | ⟨y, rfl, hy⟩
  · exact .inl rfl
  · left
    show (if y = 0 then _ else if 0 < y then Fl.inf false else _ : Fl A) = _
    rw [if_neg (by linarith), if_pos (by linarith)]
  · left
    show (if x = 0 then _ else if 0 < x then Fl.inf false else _ : Fl A) = _
    rw [if_neg (by linarith), if_pos (by linarith)]
  · refine AtLeast.rnd hA (isF_zpow hij) (two_zpow_pos _).le ?_
    rw [zpow_add₀ two_ne_zero]
    exact mul_le_mul hx hy pj.le (pi.le.trans hx)

end

theorem binary64_ranged : Binary64.Ranged where
  rnd := rfl
  pi := rfl
  pow_le x n i _ hx h1 h2 := by
    refine rnd_le ?_ h1 h2
    rw [abs_pow, zpow_mul, zpow_natCast]
    gcongr
  pow_ge x n i _ hx h1 := by
    refine rnd_ge (isF_zpow h1) (two_zpow_pos _).le ?_
    rw [zpow_mul, zpow_natCast]
    have := two_zpow_pos i
    gcongr
  sq_ge x i hx h1 := by
    refine rnd_ge (isF_zpow h1) (two_zpow_pos _).le ?_
    rw [← sq_abs, zpow_mul]
    have := two_zpow_pos i
    exact_mod_cast pow_le_pow_left₀ this.le hx 2
  sq_nonneg x := rnd_ge ⟨0, 0, by norm_num, by norm_num, by norm_num⟩ le_rfl (sq_nonneg x)

theorem numba64_ranged : Numba64.Ranged where
  rnd := rfl
  pi := rfl
  pow_le x n i hn hx h1 h2 := by
    have H := binary64_ranged
    have h : FinLe (A := Binary64) i (Fl.fin x) := ⟨x, rfl, hx⟩
    simp only [List.mem_cons, List.not_mem_nil, or_false] at hn
    rcases hn with rfl | rfl | rfl | rfl <;> push_cast at h1 h2 ⊢
    · exact FinLe.mul H h h (by omega) (by omega) (by omega)
    · exact FinLe.mul H h (FinLe.mul H h h (n := i * 2) (by omega) (by omega) (by omega)) (by omega) (by omega) (by omega)
    · have x2 := FinLe.mul H h h (n := i * 2) (by omega) (by omega) (by omega)
      have x4 := FinLe.mul H x2 x2 (n := i * 4) (by omega) (by omega) (by omega)
      exact FinLe.mul H h x4 (by omega) (by omega) (by omega)
    · have x2 := FinLe.mul H h h (n := i * 2) (by omega) (by omega) (by omega)
      have x4 := FinLe.mul H x2 x2 (n := i * 4) (by omega) (by omega) (by omega)
      have x3 := FinLe.mul H h x2 (n := i * 3) (by omega) (by omega) (by omega)
      exact FinLe.mul H x3 x4 (by omega) (by omega) (by omega)
  pow_ge x n i hn hx h1 := by
    have H := binary64_ranged
    have h : AtLeast (A := Binary64) (2 ^ i) (Fl.fin x) := .inr ⟨x, rfl, hx⟩
    simp only [List.mem_cons, List.not_mem_nil, or_false] at hn
    rcases hn with rfl | rfl | rfl | rfl <;> push_cast at h1 ⊢
    · rw [show i * 2 = i + i by ring] at h1 ⊢
      exact AtLeast.mul H h1 h h
    · have x2 := AtLeast.mul H (by omega) h h
      rw [show i * 3 = i + (i + i) by ring] at h1 ⊢
      exact AtLeast.mul H h1 h x2
    · have x2 := AtLeast.mul H (by omega) h h
      have x4 := AtLeast.mul H (by omega) x2 x2
      rw [show i * 5 = i + (i + i + (i + i)) by ring] at h1 ⊢
      exact AtLeast.mul H h1 h x4
    · have x2 := AtLeast.mul H (by omega) h h
      have x4 := AtLeast.mul H (by omega) x2 x2
      have x3 := AtLeast.mul H (by omega) h x2
      rw [show i * 7 = i + (i + i) + (i + i + (i + i)) by ring] at h1 ⊢
      exact AtLeast.mul H h1 x3 x4
  sq_ge x i hx h1 := by
    have h := binary64_ranged.sq_ge x i hx h1
    rwa [binary64_distanceOps.sq, ← numba64_distanceOps.sq] at h
  sq_nonneg x := by
    have h := binary64_ranged.sq_nonneg x
    rwa [binary64_distanceOps.sq, ← numba64_distanceOps.sq] at h

end Choclo
