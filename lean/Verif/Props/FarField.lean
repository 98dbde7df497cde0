import Verif.Lemmas.FarField

/-! # C67, C68: distant prisms look like point masses and dipoles at their centres -/

namespace Choclo

open Real Set MeasureTheory

variable {P : Box}

/-! ## C67 -/

/-- Seen from outside its circumscribed sphere, the acceleration of a prism is that of a point mass at
its centre, up to `9 G |mass| h² / (R - h)⁴`, where `h` is half its diagonal and `R` the distance to
its centre: a relative error of order `(h / R)²`. -/
theorem C67_acceleration (hP : P.Ordered) (a : Axis) (p : Pt) (ρ : ℝ)
    (h : P.halfDiagonal < dist3 p P.centrePt) :
    ∃ v m, Returns (onPrism (A := Exact) (prismGravity a.acc) p P ρ) v ∧
      Returns (onPair (A := Exact) (pointGravity a.acc) p P.centrePt (ρ * P.volume : ℝ)) m ∧
      |v - m| ≤ 9 * 6.6743e-11 * |ρ * P.volume| *
        P.halfDiagonal ^ 2 / (dist3 p P.centrePt - P.halfDiagonal) ^ 4 := by
  have hpc : p ≠ P.centrePt := fun h' => by
    rw [← h', dist3_eq_zero.mpr rfl] at h
    have : 0 ≤ P.halfDiagonal := by unfold Box.halfDiagonal; positivity
    linarith
  refine ⟨_, _, acc_returns a p P ρ, Ex.pointGravity_fin a.acc hpc _, ?_⟩
  have b := far_kernel hP (n := 2) (by norm_num) (fun v w => Jet.kern1 v w a) h
  have hvol : 0 ≤ P.volume := by rw [← volume_region hP]; exact measureReal_nonneg
  rw [← acc_toK, (integral_low hP a.acc (by cases a <;> decide) p).2] at b
  change |Gc * ρ * Vc a.acc p P - Gc * (ρ * P.volume) * kpp a.acc.toK p P.centrePt| ≤ _
  rw [show Gc * ρ * Vc a.acc p P - Gc * (ρ * P.volume) * kpp a.acc.toK p P.centrePt =
    Gc * (ρ * (Vc a.acc p P - P.volume * kpp a.acc.toK p P.centrePt)) by ring, abs_mul, abs_mul, abs_mul,
    abs_of_nonneg hvol, show |Gc| = 6.6743e-11 by unfold Gc; norm_num]
  calc _ ≤ 6.6743e-11 * (|ρ| * (P.volume * (18 / 2 * (P.halfDiagonal ^ 2 /
        (dist3 p P.centrePt - P.halfDiagonal) ^ (2 + 2))))) := by gcongr
    _ = _ := by ring

/-- ... and the gravity tensor that of the point mass, up to `84 G |mass| h² / (R - h)⁵`. -/
theorem C67_tensor (hP : P.Ordered) (a b : Axis) (p : Pt) (ρ : ℝ)
    (h : P.halfDiagonal < dist3 p P.centrePt) :
    ∃ v m, Returns (onPrism (A := Exact) (prismGravity (tensor a b)) p P ρ) v ∧
      Returns (onPair (A := Exact) (pointGravity (tensor a b)) p P.centrePt (ρ * P.volume : ℝ)) m ∧
      |v - m| ≤ 84 * 6.6743e-11 * |ρ * P.volume| *
        P.halfDiagonal ^ 2 / (dist3 p P.centrePt - P.halfDiagonal) ^ 5 := by
  have hpc : p ≠ P.centrePt := fun h' => by
    rw [← h', dist3_eq_zero.mpr rfl] at h
    have : 0 ≤ P.halfDiagonal := by unfold Box.halfDiagonal; positivity
    linarith
  have hx := exterior_of_far h
  refine ⟨_, _, Ex.gravity_returns hP (exterior_singular hP hx _) ρ, Ex.pointGravity_fin (tensor a b) hpc _, ?_⟩
  have b := far_kernel hP (n := 3) (by norm_num) (fun v w => Jet.kern2 v w b a) h
  have hvol : 0 ≤ P.volume := by rw [← volume_region hP]; exact measureReal_nonneg
  rw [← tensor_toK, ← Vc_tensor_integral hP _ _ hx] at b
  change |Gc * ρ * Vc _ p P - Gc * (ρ * P.volume) * kpp _ p P.centrePt| ≤ _
  rw [show ∀ V k : ℝ, Gc * ρ * V - Gc * (ρ * P.volume) * k = Gc * (ρ * (V - P.volume * k)) by intros; ring,
    abs_mul, abs_mul, abs_mul, abs_of_nonneg hvol, show |Gc| = 6.6743e-11 by unfold Gc; norm_num]
  calc _ ≤ 6.6743e-11 * (|ρ| * (P.volume * (168 / 2 * (P.halfDiagonal ^ 2 /
        (dist3 p P.centrePt - P.halfDiagonal) ^ (3 + 2))))) := by gcongr
    _ = _ := by ring

/-! ## C68 -/

theorem lin3_diff_le {x y z x' y' z' K : ℝ} (V : ℝ) (M : Vec) (hx : |x - V * x'| ≤ K) (hy : |y - V * y'| ≤ K)
    (hz : |z - V * z'| ≤ K) :
    |(M.e * x + M.n * y + M.u * z) - (x' * (V * M.e) + y' * (V * M.n) + z' * (V * M.u))| ≤
      K * (|M.e| + |M.n| + |M.u|) := by
  have e : (M.e * x + M.n * y + M.u * z) - (x' * (V * M.e) + y' * (V * M.n) + z' * (V * M.u)) =
      M.e * (x - V * x') + M.n * (y - V * y') + M.u * (z - V * z') := by ring
  rw [e]
  have t := abs_add_three (M.e * (x - V * x')) (M.n * (y - V * y')) (M.u * (z - V * z'))
  rw [abs_mul, abs_mul, abs_mul] at t
  have := mul_le_mul_of_nonneg_left hx (abs_nonneg M.e)
  have := mul_le_mul_of_nonneg_left hy (abs_nonneg M.n)
  have := mul_le_mul_of_nonneg_left hz (abs_nonneg M.u)
  linarith

/-- Seen from outside its circumscribed sphere, the magnetic field of a prism is that of a dipole at
its centre whose moment is magnetization times volume, up to a relative error of order `(h / R)²`. -/
theorem C68_dipole (hP : P.Ordered) (a : Axis) (p : Pt) (M : Vec)
    (h : P.halfDiagonal < dist3 p P.centrePt) :
    ∃ v m, Returns (onPrism (A := Exact) (prismMagnetic a.field) p P M.e M.n M.u) v ∧
      Returns (onPair (A := Exact) (dipoleMagnetic a) p P.centrePt
        (P.volume * M.e : ℝ) (P.volume * M.n : ℝ) (P.volume * M.u : ℝ)) m ∧
      |v - m| ≤ 1.25663706212e-06 / (4 * π) * (84 * (P.volume * (|M.e| + |M.n| + |M.u|)) *
        P.halfDiagonal ^ 2 / (dist3 p P.centrePt - P.halfDiagonal) ^ 5) := by
  have hpc : p ≠ P.centrePt := fun h' => by
    rw [← h', dist3_eq_zero.mpr rfl] at h
    have : 0 ≤ P.halfDiagonal := by unfold Box.halfDiagonal; positivity
    linarith
  have hx := exterior_of_far h
  refine ⟨_, _, Ex.magnetic_returns hP (exterior_edges hP hx) (fun h' => hx (inside_subset_region h')) _ _ _,
    dipole_fin a hpc (P.volume * M.e, P.volume * M.n, P.volume * M.u), ?_⟩
  have t := fun b => far_kernel hP (n := 3) (by norm_num) (fun v w => Jet.kern2 v w b a) h
  simp only [← tensor_toK, ← Vc_tensor_integral hP _ _ hx] at t
  have key := lin3_diff_le (P.volume) M (t .e) (t .n) (t .u)
  have hd : Bd a p P.centrePt (P.volume * M.e, P.volume * M.n, P.volume * M.u) = mu0 / 4 / π *
      (kpp (tensor a .e).toK p P.centrePt * (P.volume * M.e) + kpp (tensor a .n).toK p P.centrePt * (P.volume * M.n)
        + kpp (tensor a .u).toK p P.centrePt * (P.volume * M.u)) := by
    cases a <;> rfl
  have hmu : mu0 / 4 / π = 1.25663706212e-06 / (4 * π) := by rw [mu0, div_div]
  have hmu0 : 0 ≤ mu0 / 4 / π := by have := mu0_pos; positivity
  rw [hd, Bc_field, ← mul_sub, abs_mul, abs_of_nonneg hmu0, ← hmu]
  refine mul_le_mul_of_nonneg_left (key.trans (le_of_eq ?_)) hmu0
  ring

/-- ... and its gradient is that of the dipole field (third-order kernels of `choclo.point` contracted
with the moment), up to the same relative order. -/
theorem C68_gradient (hP : P.Ordered) (a b : Axis) (p : Pt) (M : Vec)
    (h : P.halfDiagonal < dist3 p P.centrePt) :
    ∃ (v : ℝ) (k : Axis → ℝ), Returns (onPrism (A := Exact) (prismMagnetic (gradComp a b)) p P M.e M.n M.u) v ∧
      (∀ i, Returns (callKernel (A := Exact) (kern3 a b i) p P.centrePt) (k i)) ∧
      |v - 1.25663706212e-06 / (4 * π) *
          (k .e * (P.volume * M.e) + k .n * (P.volume * M.n) + k .u * (P.volume * M.u))| ≤
        1.25663706212e-06 / (4 * π) * (960 * (P.volume * (|M.e| + |M.n| + |M.u|)) *
        P.halfDiagonal ^ 2 / (dist3 p P.centrePt - P.halfDiagonal) ^ 6) := by
  have hpc : p ≠ P.centrePt := fun h' => by
    rw [← h', dist3_eq_zero.mpr rfl] at h
    have : 0 ≤ P.halfDiagonal := by unfold Box.halfDiagonal; positivity
    linarith
  have hx := exterior_of_far h
  refine ⟨_, fun i => kpp (kern3 a b i) p P.centrePt,
    Ex.magnetic_returns hP (exterior_edges hP hx) (fun h' => hx (inside_subset_region h')) _ _ _,
    fun i => Ex.callKernel_fin _ hpc, ?_⟩
  have t := fun c => far_kernel hP (n := 4) (by norm_num) (fun v w => Jet.kern3 v w a b c) h
  have key := lin3_diff_le (P.volume) M (t .e) (t .n) (t .u)
  have i := fun c => integrableOn_kpp (P := P) c hx
  have hB := Bc_grad_integral hP a b hx M
  rw [integral_lin3 (i _) (i _) (i _)] at hB
  have hmu : mu0 / 4 / π = 1.25663706212e-06 / (4 * π) := by rw [mu0, div_div]
  have hmu0 : 0 ≤ mu0 / 4 / π := by have := mu0_pos; positivity
  rw [hB, ← hmu, ← mul_sub, abs_mul, abs_of_nonneg hmu0]
  refine mul_le_mul_of_nonneg_left (le_of_eq_of_le ?_ (key.trans (le_of_eq ?_))) hmu0
  · congr 1; ring
  · ring

/-- a point far from the example prism, as in C53 -/
example : exBox.Ordered ∧ exBox.halfDiagonal < dist3 (0, 0, 100) exBox.centrePt := by
  refine ⟨exBox_ordered, ?_⟩
  have h1 : exBox.halfDiagonal ≤ 2 := by
    unfold Box.halfDiagonal exBox
    rw [div_le_iff₀ (by norm_num)]
    apply Real.sqrt_le_iff.mpr
    norm_num
  have h2 : (100 : ℝ) ≤ dist3 (0, 0, 100) exBox.centrePt := by
    unfold dist3
    apply Real.le_sqrt_of_sq_le
    norm_num [Box.centrePt, Box.centre, Box.lo, Box.hi, exBox]
  linarith

end Choclo
