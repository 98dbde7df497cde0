import Verif.Lemmas.Decay

/-! # C71: how the fields decay with distance -/

namespace Choclo

open Real Set MeasureTheory

variable {P : Box}

/-! ## C71 -/

/-- The magnitude of the field of a dipole lies between `mu0 / 4 pi |m| / r³` (on its equator) and
twice that (on its axis). -/
theorem C71_dipole (p q m : Pt) (h : p ≠ q) :
    ∃ Be Bn Bu, Returns (onPair (A := Exact) dipole.magnetic_e p q m.e m.n m.u) Be ∧
      Returns (onPair (A := Exact) dipole.magnetic_n p q m.e m.n m.u) Bn ∧
      Returns (onPair (A := Exact) dipole.magnetic_u p q m.e m.n m.u) Bu ∧
      1.25663706212e-06 / (4 * π) * √(m.e ^ 2 + m.n ^ 2 + m.u ^ 2) / dist3 p q ^ 3 ≤ √(Be ^ 2 + Bn ^ 2 + Bu ^ 2) ∧
      √(Be ^ 2 + Bn ^ 2 + Bu ^ 2) ≤
        2 * (1.25663706212e-06 / (4 * π) * √(m.e ^ 2 + m.n ^ 2 + m.u ^ 2) / dist3 p q ^ 3) := by
  refine ⟨_, _, _, dipole_fin .e h m, dipole_fin .n h m, dipole_fin .u h m, ?_⟩
  change _ ≤ √((mu0 / 4 / π * row2 .e p q m) ^ 2 + (mu0 / 4 / π * row2 .n p q m) ^ 2 + (mu0 / 4 / π * row2 .u p q m) ^ 2) ∧
    √((mu0 / 4 / π * row2 .e p q m) ^ 2 + (mu0 / 4 / π * row2 .n p q m) ^ 2 + (mu0 / 4 / π * row2 .u p q m) ^ 2) ≤ _
  have hmu : 0 < mu0 / 4 / π := div_pos (div_pos mu0_pos (by norm_num)) Real.pi_pos
  have e : (1.25663706212e-06 / (4 * π) : ℝ) = mu0 / 4 / π := by rw [mu0, div_div]
  have hS : ∀ x y z : ℝ, √((mu0 / 4 / π * x) ^ 2 + (mu0 / 4 / π * y) ^ 2 + (mu0 / 4 / π * z) ^ 2) =
      mu0 / 4 / π * √(x ^ 2 + y ^ 2 + z ^ 2) := fun x y z => by
    rw [show (mu0 / 4 / π * x) ^ 2 + (mu0 / 4 / π * y) ^ 2 + (mu0 / 4 / π * z) ^ 2 =
      (mu0 / 4 / π) ^ 2 * (x ^ 2 + y ^ 2 + z ^ 2) by ring, Real.sqrt_mul (sq_nonneg _), Real.sqrt_sq hmu.le]
  rw [hS, e]
  have h1 := mul_le_mul_of_nonneg_left (row2_norm_ge h m) hmu.le
  have h2 := mul_le_mul_of_nonneg_left (row2_norm_le h m) hmu.le
  have hl : len m = √(m.e ^ 2 + m.n ^ 2 + m.u ^ 2) := rfl
  rw [← hl]
  exact ⟨(le_of_eq (by ring)).trans h1, h2.trans (le_of_eq (by ring))⟩

theorem len_unit (a : Axis) : len (unitVec a) = 1 := by
  cases a <;> simp [len, rad, unitVec, Pt.e, Pt.n, Pt.u]

theorem abs_kern2_le (a b : Axis) {p q : Pt} (h : p ≠ q) : |kpp (kern2 a b) p q| ≤ 2 / dist3 p q ^ 3 := by
  have := form2_le h (unitVec a) (unitVec b)
  rw [len_unit, len_unit] at this
  have e : row2 .e p q (unitVec b) * (unitVec a).e + row2 .n p q (unitVec b) * (unitVec a).n
      + row2 .u p q (unitVec b) * (unitVec a).u = kpp (kern2 a b) p q := by
    cases a <;> cases b <;> simp [row2, unitVec, Pt.e, Pt.n, Pt.u]
  rw [e] at this
  simpa using this

/-- No component of the gravity tensor of a point mass exceeds `2 G |m| / r³`. -/
theorem C71_point_tensor (a b : Axis) (p q : Pt) (h : p ≠ q) (m : ℝ) :
    ∃ T, Returns (onPair (A := Exact) (pointGravity (tensor a b)) p q m) T ∧
      |T| ≤ 2 * 6.6743e-11 * |m| / dist3 p q ^ 3 := by
  refine ⟨_, Ex.pointGravity_fin (tensor a b) h m, ?_⟩
  change |Gc * m * kpp _ p q| ≤ _
  rw [show (tensor a b).toK = kern2 a b by cases a <;> cases b <;> rfl, abs_mul, abs_mul, abs_of_pos Gc_pos]
  have := mul_le_mul_of_nonneg_left (abs_kern2_le a b h) (mul_nonneg Gc_pos.le (abs_nonneg m))
  refine this.trans (le_of_eq ?_)
  unfold Gc; ring

/-- If every point of the prism is at least `d` away, no component of its gravity tensor exceeds
`2 G |mass| / d³`. -/
theorem C71_prism_tensor (hP : P.Ordered) (a b : Axis) (p : Pt) (ρ : ℝ) {d : ℝ} (hd : 0 < d)
    (h : ∀ q ∈ P.region, d ≤ dist3 p q) :
    ∃ T, Returns (onPrism (A := Exact) (prismGravity (tensor a b)) p P ρ) T ∧
      |T| ≤ 2 * 6.6743e-11 * |ρ| * P.volume / d ^ 3 := by
  have hx := not_mem_of_dist hd h
  refine ⟨_, Ex.gravity_returns hP (exterior_singular hP hx _) ρ, ?_⟩
  rw [Vc_tensor_integral hP a b hx, show (tensor a b).toK = kern2 a b by cases a <;> cases b <;> rfl,
    abs_mul, abs_mul, abs_of_pos Gc_pos]
  have k : ∀ q ∈ P.region, |kpp (kern2 a b) p q| ≤ 2 / d ^ 3 := fun q hq => by
    have hne : p ≠ q := fun h' => hx (h' ▸ hq)
    refine (abs_kern2_le a b hne).trans ?_
    have := h q hq
    gcongr
  have := mul_le_mul_of_nonneg_left (abs_integral_region_le hP k) (mul_nonneg Gc_pos.le (abs_nonneg ρ))
  refine this.trans (le_of_eq ?_)
  unfold Gc; ring

/-- If every point of the prism is at least `d` away, the magnitude of its magnetic field is at most
`2 mu0 / 4 pi |M| volume / d³`. -/
theorem C71_prism_magnetic (hP : P.Ordered) (p : Pt) (M : Vec) {d : ℝ} (hd : 0 < d)
    (h : ∀ q ∈ P.region, d ≤ dist3 p q) :
    ∃ Be Bn Bu, Returns (onPrism (A := Exact) prism.magnetic_e p P M.e M.n M.u) Be ∧
      Returns (onPrism (A := Exact) prism.magnetic_n p P M.e M.n M.u) Bn ∧
      Returns (onPrism (A := Exact) prism.magnetic_u p P M.e M.n M.u) Bu ∧
      √(Be ^ 2 + Bn ^ 2 + Bu ^ 2) ≤
        2 * (1.25663706212e-06 / (4 * π)) * √(M.e ^ 2 + M.n ^ 2 + M.u ^ 2) * P.volume / d ^ 3 := by
  have hx := not_mem_of_dist hd h
  have ret := fun a : Axis => Ex.magnetic_returns hP (c := a.field) (exterior_edges hP hx)
    (fun h' => hx (inside_subset_region h')) M.e M.n M.u
  refine ⟨_, _, _, ret .e, ret .n, ret .u, ?_⟩
  set c := mu0 / 4 / π with hc
  have hmu : 0 < c := div_pos (div_pos mu0_pos (by norm_num)) Real.pi_pos
  have e : (1.25663706212e-06 / (4 * π) : ℝ) = c := by rw [hc, mu0, div_div]
  have hS : ∀ x y z : ℝ, √((c * x) ^ 2 + (c * y) ^ 2 + (c * z) ^ 2) = c * √(x ^ 2 + y ^ 2 + z ^ 2) := fun x y z => by
    rw [show (c * x) ^ 2 + (c * y) ^ 2 + (c * z) ^ 2 =
      c ^ 2 * (x ^ 2 + y ^ 2 + z ^ 2) by ring, Real.sqrt_mul (sq_nonneg _), Real.sqrt_sq hmu.le]
  have hi : ∀ a : Axis, Bc a.field p P M.e M.n M.u = ∫ q in P.region, row2 a p q M := fun a => by
    have := Bc_field_integral hP a hx M
    rw [integral_const_mul] at this
    exact mul_left_cancel₀ hmu.ne' this
  have hI : ∀ a : Axis, IntegrableOn (fun q => row2 a p q M) P.region := fun a =>
    (((integrableOn_kpp _ hx).mul_const _).add ((integrableOn_kpp _ hx).mul_const _)).add
      ((integrableOn_kpp _ hx).mul_const _)
  rw [hS, e]
  set w : Pt := (Bc (Axis.field .e) p P M.e M.n M.u, Bc (Axis.field .n) p P M.e M.n M.u,
    Bc (Axis.field .u) p P M.e M.n M.u) with hw
  change c * len w ≤ 2 * c * len M * P.volume / d ^ 3
  have hvol : 0 ≤ P.volume := by rw [← volume_region hP]; exact measureReal_nonneg
  have key : len w ^ 2 ≤ 2 * len M / d ^ 3 * len w * P.volume := by
    have l := integral_lin3 (hI .e) (hI .n) (hI .u) w.e w.n w.u
    rw [← hi, ← hi, ← hi] at l
    have l' : len w ^ 2 = ∫ q in P.region, (row2 .e p q M * w.e + row2 .n p q M * w.n + row2 .u p q M * w.u) := by
      rw [l, len_sq, hw]; simp only [Pt.e, Pt.n, Pt.u]; ring
    rw [l']
    refine (le_abs_self _).trans (abs_integral_region_le hP fun q hq => ?_)
    have hne : p ≠ q := fun h' => hx (h' ▸ hq)
    refine (form2_le hne w M).trans ?_
    have := h q hq
    have := len_nonneg w
    have := len_nonneg M
    gcongr
  rcases (len_nonneg w).eq_or_lt with h0 | h0
  · rw [← h0]
    have := len_nonneg M
    have := hmu.le
    rw [mul_zero]; positivity
  · have : len w ≤ 2 * len M / d ^ 3 * P.volume := by
      refine le_of_mul_le_mul_left ?_ h0
      calc _ = len w ^ 2 := by ring
        _ ≤ _ := key
        _ = _ := by ring
    calc _ ≤ c * (2 * len M / d ^ 3 * P.volume) := mul_le_mul_of_nonneg_left this hmu.le
      _ = _ := by ring

/-- ... and no magnetic gradient component exceeds `6 mu0 / 4 pi |M| volume / d⁴`. -/
theorem C71_prism_gradient (hP : P.Ordered) (a b : Axis) (p : Pt) (M : Vec) {d : ℝ} (hd : 0 < d)
    (h : ∀ q ∈ P.region, d ≤ dist3 p q) :
    ∃ J, Returns (onPrism (A := Exact) (prismMagnetic (gradComp a b)) p P M.e M.n M.u) J ∧
      |J| ≤ 6 * (1.25663706212e-06 / (4 * π)) * √(M.e ^ 2 + M.n ^ 2 + M.u ^ 2) * P.volume / d ^ 4 := by
  have hx := not_mem_of_dist hd h
  refine ⟨_, Ex.magnetic_returns hP (exterior_edges hP hx) (fun h' => hx (inside_subset_region h')) _ _ _, ?_⟩
  have hmu : 0 < mu0 / 4 / π := div_pos (div_pos mu0_pos (by norm_num)) Real.pi_pos
  have e : (1.25663706212e-06 / (4 * π) : ℝ) = mu0 / 4 / π := by rw [mu0, div_div]
  rw [Bc_grad_integral hP a b hx, abs_mul, abs_of_pos hmu, e]
  have k : ∀ q ∈ P.region, |row3 a b p q M| ≤ 6 / d ^ 4 * len M := fun q hq => by
    have hne : p ≠ q := fun h' => hx (h' ▸ hq)
    refine (row3_le a b hne M).trans ?_
    have := h q hq
    have := len_nonneg M
    gcongr
  refine (mul_le_mul_of_nonneg_left (abs_integral_region_le hP k) hmu.le).trans (le_of_eq ?_)
  have hl : len M = √(M.e ^ 2 + M.n ^ 2 + M.u ^ 2) := rfl
  rw [← hl]
  ring

/-- every point of the example prism is at least 1 away from (0, 0, 1) -/
example : exBox.Ordered ∧ ∀ q ∈ exBox.region, 1 ≤ dist3 (0, 0, 1) q := by
  refine ⟨exBox_ordered, ?_⟩
  rintro q ⟨_, _, _, h⟩
  simp only [exBox] at h
  refine Real.le_sqrt_of_sq_le ?_
  simp only [Pt.e, Pt.n, Pt.u]
  nlinarith [sq_nonneg (0 - q.1), sq_nonneg (0 - q.2.1)]

end Choclo
