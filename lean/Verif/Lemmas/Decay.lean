import Verif.Lemmas.FarField

/-! # Sizes of the second- and third-order kernels -/

namespace Choclo

open Real Set MeasureTheory

/-- squared length of `3 (M.x) x - r² M` -/
theorem sq_form2_le {x y z a b c : ℝ} :
    (3 * (a * x + b * y + c * z) * x - (x ^ 2 + y ^ 2 + z ^ 2) * a) ^ 2
      + (3 * (a * x + b * y + c * z) * y - (x ^ 2 + y ^ 2 + z ^ 2) * b) ^ 2
      + (3 * (a * x + b * y + c * z) * z - (x ^ 2 + y ^ 2 + z ^ 2) * c) ^ 2 ≤
      4 * (x ^ 2 + y ^ 2 + z ^ 2) ^ 2 * (a ^ 2 + b ^ 2 + c ^ 2) := by
  have h : 0 ≤ (x ^ 2 + y ^ 2 + z ^ 2) * ((a ^ 2 + b ^ 2 + c ^ 2) * (x ^ 2 + y ^ 2 + z ^ 2) - (a * x + b * y + c * z) ^ 2) := by
    refine mul_nonneg (by positivity) ?_
    nlinarith [sq_nonneg (a * y - b * x), sq_nonneg (a * z - c * x), sq_nonneg (b * z - c * y)]
  linarith

theorem sq_form2_ge {x y z a b c : ℝ} :
    (x ^ 2 + y ^ 2 + z ^ 2) ^ 2 * (a ^ 2 + b ^ 2 + c ^ 2) ≤
    (3 * (a * x + b * y + c * z) * x - (x ^ 2 + y ^ 2 + z ^ 2) * a) ^ 2
      + (3 * (a * x + b * y + c * z) * y - (x ^ 2 + y ^ 2 + z ^ 2) * b) ^ 2
      + (3 * (a * x + b * y + c * z) * z - (x ^ 2 + y ^ 2 + z ^ 2) * c) ^ 2 := by
  have h : 0 ≤ (x ^ 2 + y ^ 2 + z ^ 2) * (a * x + b * y + c * z) ^ 2 := by positivity
  linarith

/-- the second-order kernels applied to a vector -/
noncomputable def row2 (a : Axis) (p q M : Pt) : ℝ :=
  kpp (kern2 a .e) p q * M.e + kpp (kern2 a .n) p q * M.n + kpp (kern2 a .u) p q * M.u

theorem kpp_kern2 (a b : Axis) (p q : Pt) : kpp (kern2 a b) p q =
    3 * (((p.coord a - q.coord a) * (p.coord b - q.coord b)) * (1 / dist3 p q ^ 5)) + (-kd a b) * (1 / dist3 p q ^ 3) := by
  have := kp_kern2 a b (p.e - q.e, p.n - q.n, p.u - q.u)
  rw [dist3_eq_rad]
  refine this.trans ?_
  cases a <;> cases b <;> rfl

theorem row2_eq (a : Axis) {p q : Pt} (h : p ≠ q) (M : Pt) : row2 a p q M =
    (3 * (M.e * (p.e - q.e) + M.n * (p.n - q.n) + M.u * (p.u - q.u)) * (p.coord a - q.coord a) -
      ((p.e - q.e) ^ 2 + (p.n - q.n) ^ 2 + (p.u - q.u) ^ 2) * M.coord a) / dist3 p q ^ 5 := by
  have hr := dist3_pos h
  have hs : dist3 p q ^ 2 = (p.e - q.e) ^ 2 + (p.n - q.n) ^ 2 + (p.u - q.u) ^ 2 := Real.sq_sqrt (by positivity)
  rw [← hs]
  unfold row2
  rw [kpp_kern2, kpp_kern2, kpp_kern2]
  field_simp
  cases a <;> simp only [kd, Pt.coord, reduceCtorEq, if_true, if_false] <;> ring

theorem row2_norm_le {p q : Pt} (h : p ≠ q) (M : Pt) :
    √(row2 .e p q M ^ 2 + row2 .n p q M ^ 2 + row2 .u p q M ^ 2) ≤ 2 * len M / dist3 p q ^ 3 := by
  have hr := dist3_pos h
  have hs : dist3 p q ^ 2 = (p.e - q.e) ^ 2 + (p.n - q.n) ^ 2 + (p.u - q.u) ^ 2 := Real.sq_sqrt (by positivity)
  refine Real.sqrt_le_iff.2 ⟨by have := len_nonneg M; positivity, ?_⟩
  rw [row2_eq _ h, row2_eq _ h, row2_eq _ h]
  simp only [div_pow, Pt.coord, ← add_div]
  have k := sq_form2_le (x := p.e - q.e) (y := p.n - q.n) (z := p.u - q.u) (a := M.e) (b := M.n) (c := M.u)
  rw [← hs, ← len_sq] at k
  rw [← hs, div_le_div_iff₀ (by positivity) (by positivity)]
  calc _ ≤ 4 * (dist3 p q ^ 2) ^ 2 * len M ^ 2 * (dist3 p q ^ 3) ^ 2 := by gcongr
    _ = _ := by ring

theorem row2_norm_ge {p q : Pt} (h : p ≠ q) (M : Pt) :
    len M / dist3 p q ^ 3 ≤ √(row2 .e p q M ^ 2 + row2 .n p q M ^ 2 + row2 .u p q M ^ 2) := by
  have hr := dist3_pos h
  have hs : dist3 p q ^ 2 = (p.e - q.e) ^ 2 + (p.n - q.n) ^ 2 + (p.u - q.u) ^ 2 := Real.sq_sqrt (by positivity)
  refine Real.le_sqrt_of_sq_le ?_
  rw [row2_eq _ h, row2_eq _ h, row2_eq _ h]
  simp only [div_pow, Pt.coord, ← add_div]
  have k := sq_form2_ge (x := p.e - q.e) (y := p.n - q.n) (z := p.u - q.u) (a := M.e) (b := M.n) (c := M.u)
  rw [← hs, ← len_sq] at k
  rw [← hs, div_le_div_iff₀ (by positivity) (by positivity)]
  calc _ = (dist3 p q ^ 2) ^ 2 * len M ^ 2 * (dist3 p q ^ 3) ^ 2 := by ring
    _ ≤ _ := by gcongr

/-- the second-order kernels between two vectors -/
theorem form2_le {p q : Pt} (h : p ≠ q) (w M : Pt) :
    |row2 .e p q M * w.e + row2 .n p q M * w.n + row2 .u p q M * w.u| ≤ 2 * len M / dist3 p q ^ 3 * len w := by
  refine (cauchy3 _ _ _ _ _ _).trans ?_
  exact mul_le_mul_of_nonneg_right (row2_norm_le h M) (Real.sqrt_nonneg _)

/-- the third-order kernels applied to a vector -/
noncomputable def row3 (a b : Axis) (p q M : Pt) : ℝ :=
  kpp (kern3 a b .e) p q * M.e + kpp (kern3 a b .n) p q * M.n + kpp (kern3 a b .u) p q * M.u

theorem kpp_kern3 (a b c : Axis) (p q : Pt) : kpp (kern3 a b c) p q =
    (-15) * ((((p.coord a - q.coord a) * (p.coord b - q.coord b)) * (p.coord c - q.coord c)) * (1 / dist3 p q ^ 7))
      + 3 * ((kd a b * ((p.coord c - q.coord c) * (1 / dist3 p q ^ 5))
        + kd a c * ((p.coord b - q.coord b) * (1 / dist3 p q ^ 5)))
        + kd b c * ((p.coord a - q.coord a) * (1 / dist3 p q ^ 5))) := by
  have := kp_kern3 a b c (p.e - q.e, p.n - q.n, p.u - q.u)
  rw [dist3_eq_rad]
  refine this.trans ?_
  cases a <;> cases b <;> cases c <;> rfl

theorem sq_row3_diag {x y z r : ℝ} (hr : r ^ 2 = x ^ 2 + y ^ 2 + z ^ 2) :
    (-15 * x * x * x + 9 * x * r ^ 2) ^ 2 + (-15 * x * x * y + 3 * y * r ^ 2) ^ 2
      + (-15 * x * x * z + 3 * z * r ^ 2) ^ 2 ≤ 36 * (r ^ 2) ^ 3 := by
  rw [hr]
  have hx : 0 ≤ x ^ 2 := sq_nonneg x
  have ht : 0 ≤ y ^ 2 + z ^ 2 := by positivity
  have : 36 * (x ^ 2 + y ^ 2 + z ^ 2) ^ 3 - ((-15 * x * x * x + 9 * x * (x ^ 2 + y ^ 2 + z ^ 2)) ^ 2
      + (-15 * x * x * y + 3 * y * (x ^ 2 + y ^ 2 + z ^ 2)) ^ 2
      + (-15 * x * x * z + 3 * z * (x ^ 2 + y ^ 2 + z ^ 2)) ^ 2) =
      72 * ((y ^ 2 + z ^ 2) * (x ^ 2 * x ^ 2)) + 99 * ((y ^ 2 + z ^ 2) * (x ^ 2 * (y ^ 2 + z ^ 2)))
        + 27 * ((y ^ 2 + z ^ 2) * ((y ^ 2 + z ^ 2) * (y ^ 2 + z ^ 2))) := by ring
  linarith [mul_nonneg ht (mul_nonneg hx hx), mul_nonneg ht (mul_nonneg hx ht), mul_nonneg ht (mul_nonneg ht ht)]

theorem sq_row3_off {x y z r : ℝ} (hr : r ^ 2 = x ^ 2 + y ^ 2 + z ^ 2) :
    (-15 * x * y * x + 3 * y * r ^ 2) ^ 2 + (-15 * x * y * y + 3 * x * r ^ 2) ^ 2
      + (-15 * x * y * z) ^ 2 ≤ 36 * (r ^ 2) ^ 3 := by
  rw [hr]
  have hx : 0 ≤ x ^ 2 := sq_nonneg x
  have hy : 0 ≤ y ^ 2 := sq_nonneg y
  have hz : 0 ≤ z ^ 2 := sq_nonneg z
  have hs : 0 ≤ x ^ 2 + y ^ 2 + z ^ 2 := by positivity
  have h1 : 45 * (x ^ 2 * y ^ 2) + 9 * (x ^ 2 + y ^ 2) * (x ^ 2 + y ^ 2 + z ^ 2) ≤ 36 * (x ^ 2 + y ^ 2 + z ^ 2) ^ 2 := by
    nlinarith [mul_nonneg hx hy, mul_nonneg hx hz, mul_nonneg hy hz, mul_nonneg hz hz, sq_nonneg (x ^ 2 - y ^ 2)]
  have h2 := mul_le_mul_of_nonneg_left h1 hs
  have e : (-15 * x * y * x + 3 * y * (x ^ 2 + y ^ 2 + z ^ 2)) ^ 2 + (-15 * x * y * y + 3 * x * (x ^ 2 + y ^ 2 + z ^ 2)) ^ 2
      + (-15 * x * y * z) ^ 2 = (x ^ 2 + y ^ 2 + z ^ 2) * (45 * (x ^ 2 * y ^ 2) + 9 * (x ^ 2 + y ^ 2) * (x ^ 2 + y ^ 2 + z ^ 2)) := by
    ring
  rw [e]
  exact h2.trans (le_of_eq (by ring))

theorem sq_row3_le (a b : Axis) {p q : Pt} (h : p ≠ q) :
    kpp (kern3 a b .e) p q ^ 2 + kpp (kern3 a b .n) p q ^ 2 + kpp (kern3 a b .u) p q ^ 2 ≤ (6 / dist3 p q ^ 4) ^ 2 := by
  have hr := dist3_pos h
  have hs : dist3 p q ^ 2 = (p.e - q.e) ^ 2 + (p.n - q.n) ^ 2 + (p.u - q.u) ^ 2 := Real.sq_sqrt (by positivity)
  have k : ∀ c, kpp (kern3 a b c) p q = (-15 * (p.coord a - q.coord a) * (p.coord b - q.coord b) * (p.coord c - q.coord c)
      + 3 * (kd a b * (p.coord c - q.coord c) + kd a c * (p.coord b - q.coord b) + kd b c * (p.coord a - q.coord a))
        * dist3 p q ^ 2) / dist3 p q ^ 7 := fun c => by
    rw [kpp_kern3]; field_simp
  rw [k, k, k]
  have goal : ∀ A B C : ℝ, A ^ 2 + B ^ 2 + C ^ 2 ≤ 36 * (dist3 p q ^ 2) ^ 3 →
      (A / dist3 p q ^ 7) ^ 2 + (B / dist3 p q ^ 7) ^ 2 + (C / dist3 p q ^ 7) ^ 2 ≤ (6 / dist3 p q ^ 4) ^ 2 := by
    intro A B C hABC
    rw [div_pow, div_pow, div_pow, div_pow, ← add_div, ← add_div, div_le_div_iff₀ (by positivity) (by positivity)]
    calc _ ≤ 36 * (dist3 p q ^ 2) ^ 3 * (dist3 p q ^ 4) ^ 2 := by gcongr
      _ = _ := by ring
  apply goal
  set r := dist3 p q
  have s1 : r ^ 2 = (p.e - q.e) ^ 2 + (p.u - q.u) ^ 2 + (p.n - q.n) ^ 2 := by linarith
  have s2 : r ^ 2 = (p.n - q.n) ^ 2 + (p.e - q.e) ^ 2 + (p.u - q.u) ^ 2 := by linarith
  have s3 : r ^ 2 = (p.n - q.n) ^ 2 + (p.u - q.u) ^ 2 + (p.e - q.e) ^ 2 := by linarith
  have s4 : r ^ 2 = (p.u - q.u) ^ 2 + (p.e - q.e) ^ 2 + (p.n - q.n) ^ 2 := by linarith
  have s5 : r ^ 2 = (p.u - q.u) ^ 2 + (p.n - q.n) ^ 2 + (p.e - q.e) ^ 2 := by linarith
  cases a <;> cases b <;> simp only [kd, Pt.coord, reduceCtorEq, if_true, if_false]
  · refine le_trans (le_of_eq ?_) (sq_row3_diag hs); ring
  · refine le_trans (le_of_eq ?_) (sq_row3_off hs); ring
  · refine le_trans (le_of_eq ?_) (sq_row3_off s1); ring
  · refine le_trans (le_of_eq ?_) (sq_row3_off s2); ring
  · refine le_trans (le_of_eq ?_) (sq_row3_diag s2); ring
  · refine le_trans (le_of_eq ?_) (sq_row3_off s3); ring
  · refine le_trans (le_of_eq ?_) (sq_row3_off s4); ring
  · refine le_trans (le_of_eq ?_) (sq_row3_off s5); ring
  · refine le_trans (le_of_eq ?_) (sq_row3_diag s4); ring

theorem row3_le (a b : Axis) {p q : Pt} (h : p ≠ q) (M : Pt) : |row3 a b p q M| ≤ 6 / dist3 p q ^ 4 * len M := by
  have hr := dist3_pos h
  refine (cauchy3 _ _ _ _ _ _).trans (mul_le_mul_of_nonneg_right ?_ (Real.sqrt_nonneg _))
  exact Real.sqrt_le_iff.2 ⟨by positivity, sq_row3_le a b h⟩

variable {P : Box}

/-- a bounded kernel integrates to at most bound times volume -/
theorem abs_integral_region_le (hP : P.Ordered) {f : Pt → ℝ} {C : ℝ} (h : ∀ q ∈ P.region, |f q| ≤ C) :
    |∫ q in P.region, f q| ≤ C * P.volume := by
  rw [← volume_region hP, ← Real.norm_eq_abs]
  exact norm_setIntegral_le_of_norm_le_const (isCompact_region P).measure_lt_top h

end Choclo
