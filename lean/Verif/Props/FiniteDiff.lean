import Verif.Lemmas.Taylor
import Verif.Props.Slab
import Verif.Props.Shape
import Verif.Props.LawsDouble
import Verif.Props.ErrorKernels

/-! # C99: finite differences, and the effect of an error in the position of the observation point -/

namespace Choclo

open Real Set MeasureTheory

variable {P : Box}

theorem set_set (p : Pt) (a : Axis) (s t : ℝ) : (p.set a s).set a t = p.set a t := by cases a <;> rfl

theorem coord_set_same (p : Pt) (a : Axis) (t : ℝ) : (p.set a t).coord a = t := by cases a <;> rfl

/-- The potential along a line is differentiable everywhere. -/
theorem hasDerivAt_Vpot_line (a : Axis) (p : Pt) (P : Box) (t : ℝ) :
    HasDerivAt (fun t => Vc .pot (p.set a t) P) (Vc a.acc (p.set a t) P) t := by
  have := hasDerivAt_Vpot a (p.set a t) P
  simpa only [set_set, coord_set_same] using this

/-! ## The mean value theorem -/

/-- **C99.** Between two points on a line along an axis -- outside, inside or across the prism -- the
difference of the potential is exactly the acceleration component at some point between them times
the displacement. -/
theorem C99_mean_value (a : Axis) (p : Pt) (P : Box) (ρ : ℝ) {s t : ℝ} (hst : s < t) :
    ∃ v w, Returns (onPrism (A := Exact) prism.gravity_pot (p.set a s) P ρ) v ∧
      Returns (onPrism (A := Exact) prism.gravity_pot (p.set a t) P ρ) w ∧
      ∃ x ∈ Ioo s t, ∃ g, Returns (onPrism (A := Exact) (prismGravity a.acc) (p.set a x) P ρ) g ∧
        w - v = g * (t - s) := by
  refine ⟨_, _, Ex.gravity_pot_eval _ _ _, Ex.gravity_pot_eval _ _ _, ?_⟩
  have hd := hasDerivAt_Vpot_line a p P
  obtain ⟨x, hx, e⟩ := exists_hasDerivAt_eq_slope (fun t => Vc .pot (p.set a t) P) (fun t => Vc a.acc (p.set a t) P) hst
    (fun x _ => (hd x).continuousAt.continuousWithinAt) (fun x _ => hd x)
  refine ⟨x, hx, _, acc_returns a _ P ρ, ?_⟩
  have : t - s ≠ 0 := by linarith [hst]
  rw [e]
  field_simp

/-- **C99.** Outside the prism the same holds between every acceleration component and every component of
the tensor. -/
theorem C99_tensor_mean_value (a b : Axis) (p : Pt) (hP : P.Ordered) (ρ : ℝ) {s t : ℝ} (hst : s < t)
    (hx : ∀ x ∈ Icc s t, p.set b x ∉ P.region) :
    ∃ v w, Returns (onPrism (A := Exact) (prismGravity a.acc) (p.set b s) P ρ) v ∧
      Returns (onPrism (A := Exact) (prismGravity a.acc) (p.set b t) P ρ) w ∧
      ∃ x ∈ Ioo s t, ∃ g, Returns (onPrism (A := Exact) (prismGravity (tensor a b)) (p.set b x) P ρ) g ∧
        w - v = g * (t - s) := by
  refine ⟨_, _, acc_returns a _ P ρ, acc_returns a _ P ρ, ?_⟩
  have hd : ∀ x ∈ Icc s t, HasDerivAt (fun t => Vc a.acc (p.set b t) P) (Vc (tensor a b) (p.set b x) P) x := fun x h => by
    have : HasDerivAt (fun t => Vc a.acc ((p.set b x).set b t) P) (Vc (tensor a b) (p.set b x) P) ((p.set b x).coord b) := by
      by_cases hab : a = b
      · subst hab
        exact hasDerivAt_Vacc_diag a hP (fun h' => hx x h h'.1)
      · exact hasDerivAt_Vacc_off hab hP (exterior_singular hP (hx x h) _)
    simpa only [set_set, coord_set_same] using this
  obtain ⟨x, hx', e⟩ := exists_hasDerivAt_eq_slope _ (fun t => Vc (tensor a b) (p.set b t) P) hst
    (fun x h => (hd x h).continuousAt.continuousWithinAt) (fun x h => hd x (Ioo_subset_Icc_self h))
  refine ⟨x, hx', _, Ex.gravity_returns hP (exterior_singular hP (hx x (Ioo_subset_Icc_self hx')) _) ρ, ?_⟩
  have : t - s ≠ 0 := by linarith [hst]
  rw [e]
  field_simp

/-- **C99.** And between every component of the magnetic field of a prism and its gradient. -/
theorem C99_magnetic_mean_value (a b : Axis) (p : Pt) (hP : P.Ordered) (M : Vec) {s t : ℝ} (hst : s < t)
    (hx : ∀ x ∈ Icc s t, p.set b x ∉ P.region) :
    ∃ v w, Returns (onPrism (A := Exact) (prismMagnetic a.field) (p.set b s) P M.e M.n M.u) v ∧
      Returns (onPrism (A := Exact) (prismMagnetic a.field) (p.set b t) P M.e M.n M.u) w ∧
      ∃ x ∈ Ioo s t, ∃ g, Returns (onPrism (A := Exact) (prismMagnetic (gradComp a b)) (p.set b x) P M.e M.n M.u) g ∧
        w - v = g * (t - s) := by
  have ret := fun (c : MComp) (x : ℝ) (h : x ∈ Icc s t) => Ex.magnetic_returns hP (c := c) (exterior_edges hP (hx x h))
    (fun h' => hx x h (inside_subset_region h')) M.e M.n M.u
  refine ⟨_, _, ret _ s ⟨le_rfl, hst.le⟩, ret _ t ⟨hst.le, le_rfl⟩, ?_⟩
  have hd : ∀ x ∈ Icc s t, HasDerivAt (fun t => Bc a.field (p.set b t) P M.e M.n M.u)
      (Bc (gradComp a b) (p.set b x) P M.e M.n M.u) x := fun x h => by
    have := hasDerivAt_Bfield a b hP (hx x h) M
    simpa only [set_set, coord_set_same] using this
  obtain ⟨x, hx', e⟩ := exists_hasDerivAt_eq_slope _ (fun t => Bc (gradComp a b) (p.set b t) P M.e M.n M.u) hst
    (fun x h => (hd x h).continuousAt.continuousWithinAt) (fun x h => hd x (Ioo_subset_Icc_self h))
  refine ⟨x, hx', _, ret _ x (Ioo_subset_Icc_self hx'), ?_⟩
  have : t - s ≠ 0 := by linarith [hst]
  rw [e]
  field_simp

/-! ## Position errors -/

theorem abs_Vpot_line_le (hP : P.Ordered) (a : Axis) (p : Pt) (s t : ℝ) :
    |Vc .pot (p.set a s) P - Vc .pot (p.set a t) P| ≤ 2 * π * (P.hi a - P.lo a) * |s - t| := by
  have := Convex.norm_image_sub_le_of_norm_hasDerivWithin_le (f := fun t => Vc .pot (p.set a t) P)
    (f' := fun t => Vc a.acc (p.set a t) P) (s := univ) (C := 2 * π * (P.hi a - P.lo a)) (x := t) (y := s)
    (fun x _ => (hasDerivAt_Vpot_line a p P x).hasDerivWithinAt)
    (fun x _ => abs_Vacc_le hP a _) convex_univ (mem_univ _) (mem_univ _)
  simpa using this

/-- **C99.** Moving the observation point changes the potential by at most
`2 π G |ρ| (ℓ_e |Δe| + ℓ_n |Δn| + ℓ_u |Δu|)`, where the `ℓ` are the lengths of the prism's sides: any two points,
outside, inside or on the boundary. -/
theorem C99_lipschitz (hP : P.Ordered) (p p' : Pt) (ρ : ℝ) :
    ∃ v v', Returns (onPrism (A := Exact) prism.gravity_pot p P ρ) v ∧
      Returns (onPrism (A := Exact) prism.gravity_pot p' P ρ) v' ∧
      |v - v'| ≤ 2 * π * 6.6743e-11 * |ρ| * ((P.east - P.west) * |p.e - p'.e| + (P.north - P.south) * |p.n - p'.n|
        + (P.top - P.bottom) * |p.u - p'.u|) := by
  refine ⟨_, _, Ex.gravity_pot_eval _ _ _, Ex.gravity_pot_eval _ _ _, ?_⟩
  rw [← mul_sub, abs_mul, abs_mul, abs_of_pos Gc_pos]
  have h1 := abs_Vpot_line_le hP .e (p'.e, p.n, p.u) p.e p'.e
  have h2 := abs_Vpot_line_le hP .n (p'.e, p'.n, p.u) p.n p'.n
  have h3 := abs_Vpot_line_le hP .u (p'.e, p'.n, p'.u) p.u p'.u
  have e0 : Pt.set (p'.e, p.n, p.u) .e p.e = p := rfl
  have e1 : Pt.set (p'.e, p'.n, p.u) .n p.n = Pt.set (p'.e, p.n, p.u) .e p'.e := rfl
  have e2 : Pt.set (p'.e, p'.n, p'.u) .u p.u = Pt.set (p'.e, p'.n, p.u) .n p'.n := rfl
  have e3 : Pt.set (p'.e, p'.n, p'.u) .u p'.u = p' := rfl
  rw [e0] at h1
  rw [e1] at h2
  rw [e2, e3] at h3
  have tri := abs_add_three (Vc .pot p P - Vc .pot (Pt.set (p'.e, p.n, p.u) .e p'.e) P)
    (Vc .pot (Pt.set (p'.e, p.n, p.u) .e p'.e) P - Vc .pot (Pt.set (p'.e, p'.n, p.u) .n p'.n) P)
    (Vc .pot (Pt.set (p'.e, p'.n, p.u) .n p'.n) P - Vc .pot p' P)
  rw [sub_add_sub_cancel, sub_add_sub_cancel] at tri
  simp only [Box.lo, Box.hi] at h1 h2 h3
  have := mul_le_mul_of_nonneg_left (tri.trans (add_le_add (add_le_add h1 h2) h3)) (mul_nonneg Gc_pos.le (abs_nonneg ρ))
  refine this.trans (le_of_eq ?_)
  unfold Gc
  ring

/-! ## Finite differences of a prism -/

variable {p : Pt} {b : Axis} {D : ℝ}

theorem far_not_mem (hD : 0 < D) {S : Set ℝ} (far : ∀ x ∈ S, ∀ q ∈ P.region, D ≤ dist3 (p.set b x) q) {x : ℝ} (hx : x ∈ S) :
    p.set b x ∉ P.region := not_mem_of_dist hD (far x hx)

/-- combine three component values given as integrals -/
theorem comb_le (hP : P.Ordered) {f1 f2 f3 : Pt → ℝ} (k : ℝ) {C : ℝ} (h1 : IntegrableOn f1 P.region)
    (h2 : IntegrableOn f2 P.region) (h3 : IntegrableOn f3 P.region)
    (h : ∀ q ∈ P.region, |f1 q - f2 q - k * f3 q| ≤ C) :
    |(∫ q in P.region, f1 q) - (∫ q in P.region, f2 q) - k * ∫ q in P.region, f3 q| ≤ C * P.volume := by
  rw [← integral_const_mul, ← integral_sub h1 h2,
    ← integral_sub (f := fun q => f1 q - f2 q) (h1.sub h2) (h3.const_mul k)]
  exact abs_integral_region_le hP h

theorem quot_le {x g h B : ℝ} (hh : h ≠ 0) (H : |x - h * g| ≤ B * |h| ^ 2) : |x / h - g| ≤ B * |h| := by
  have : x / h - g = (x - h * g) / h := by field_simp
  rw [this, abs_div, div_le_iff₀ (abs_pos.2 hh)]
  refine H.trans (le_of_eq ?_)
  ring

/-- **C99.** The forward (or, for negative step, backward) difference of the potential differs from the
acceleration component by at most `G |M| |h| / D³`, if all the points of the step are at least `D` away from the prism; `M` is
the prism's mass. -/
theorem C99_forward (hP : P.Ordered) (b : Axis) (p : Pt) {h D : ℝ} (hh : h ≠ 0) (hD : 0 < D)
    (far : ∀ x ∈ uIcc (p.coord b) (p.coord b + h), ∀ q ∈ P.region, D ≤ dist3 (p.set b x) q) (ρ : ℝ) :
    ∃ v w g, Returns (onPrism (A := Exact) prism.gravity_pot p P ρ) v ∧
      Returns (onPrism (A := Exact) prism.gravity_pot (p.set b (p.coord b + h)) P ρ) w ∧
      Returns (onPrism (A := Exact) (prismGravity b.acc) p P ρ) g ∧
      |(w - v) / h - g| ≤ 6.6743e-11 * |ρ| * P.volume / D ^ 3 * |h| := by
  refine ⟨_, _, _, Ex.gravity_pot_eval _ _ _, Ex.gravity_pot_eval _ _ _, acc_returns b p P ρ, quot_le hh ?_⟩
  have hp := far_not_mem hD far left_mem_uIcc
  have hp' := far_not_mem hD far right_mem_uIcc
  rw [Pt.set_coord] at hp
  have e1 := (integral_low hP .pot (by decide) p).2
  have e2 := (integral_low hP .pot (by decide) (p.set b (p.coord b + h))).2
  have e3 := (integral_low hP b.acc (by cases b <;> decide) p).2
  rw [acc_toK] at e3
  have c := comb_le hP h (integrableOn_kpp .pot hp') (integrableOn_kpp .pot hp) (integrableOn_kpp (kern1 b) hp)
    (C := 1 / D ^ 3 * h ^ 2) (fun q hq => by
      have := kern_forward_pot (p := p) (q := q) (b := b) (s := p.coord b) (t := p.coord b + h) hD
        (fun x hx => far x hx q hq)
      rw [Pt.set_coord, add_sub_cancel_left] at this
      rwa [mul_comm h])
  have e1' : (∫ q in P.region, kpp KComp.pot p q) = Vc .pot p P := e1
  have e2' : (∫ q in P.region, kpp KComp.pot (p.set b (p.coord b + h)) q) = Vc .pot (p.set b (p.coord b + h)) P := e2
  rw [e1', e2', e3] at c
  rw [show ∀ x y z : ℝ, Gc * ρ * x - Gc * ρ * y - h * (Gc * ρ * z) = Gc * ρ * (x - y - h * z) by intros; ring,
    abs_mul, abs_mul, abs_of_pos Gc_pos, sq_abs]
  refine (mul_le_mul_of_nonneg_left c (mul_nonneg Gc_pos.le (abs_nonneg ρ))).trans (le_of_eq ?_)
  unfold Gc; ring

/-- **C99.** The central difference of the potential is accurate to second order: `G |M| h² / D⁴`. -/
theorem C99_central (hP : P.Ordered) (b : Axis) (p : Pt) {h D : ℝ} (hh : 0 < h) (hD : 0 < D)
    (far : ∀ x ∈ Icc (p.coord b - h) (p.coord b + h), ∀ q ∈ P.region, D ≤ dist3 (p.set b x) q) (ρ : ℝ) :
    ∃ v w g, Returns (onPrism (A := Exact) prism.gravity_pot (p.set b (p.coord b - h)) P ρ) v ∧
      Returns (onPrism (A := Exact) prism.gravity_pot (p.set b (p.coord b + h)) P ρ) w ∧
      Returns (onPrism (A := Exact) (prismGravity b.acc) p P ρ) g ∧
      |(w - v) / (2 * h) - g| ≤ 6.6743e-11 * |ρ| * P.volume / D ^ 4 * h ^ 2 := by
  refine ⟨_, _, _, Ex.gravity_pot_eval _ _ _, Ex.gravity_pot_eval _ _ _, acc_returns b p P ρ, ?_⟩
  have hp := far_not_mem (x := p.coord b) hD far ⟨by linarith, by linarith⟩
  have hp1 := far_not_mem (x := p.coord b - h) hD far ⟨by linarith, by linarith⟩
  have hp2 := far_not_mem (x := p.coord b + h) hD far ⟨by linarith, by linarith⟩
  rw [Pt.set_coord] at hp
  have e1 : (∫ q in P.region, kpp KComp.pot (p.set b (p.coord b - h)) q) = Vc .pot (p.set b (p.coord b - h)) P :=
    (integral_low hP .pot (by decide) _).2
  have e2 : (∫ q in P.region, kpp KComp.pot (p.set b (p.coord b + h)) q) = Vc .pot (p.set b (p.coord b + h)) P :=
    (integral_low hP .pot (by decide) _).2
  have e3 := (integral_low hP b.acc (by cases b <;> decide) p).2
  rw [acc_toK] at e3
  have c := comb_le hP (2 * h) (integrableOn_kpp .pot hp2) (integrableOn_kpp .pot hp1) (integrableOn_kpp (kern1 b) hp)
    (C := 2 / D ^ 4 * h ^ 3) (fun q hq => by
      have := kern_central_pot (p := p) (q := q) (b := b) (s := p.coord b) (ε := h) hD hh.le
        (fun x hx => far x hx q hq)
      rwa [Pt.set_coord] at this)
  rw [e1, e2, e3] at c
  rw [show ∀ x y z : ℝ, (Gc * ρ * x - Gc * ρ * y) / (2 * h) - Gc * ρ * z = Gc * ρ / (2 * h) * (x - y - 2 * h * z) by
    intros; field_simp, abs_mul, abs_div, abs_mul, abs_of_pos Gc_pos, abs_of_pos (show 0 < 2 * h by linarith)]
  refine (mul_le_mul_of_nonneg_left c (by have := Gc_pos; positivity)).trans (le_of_eq ?_)
  unfold Gc
  field_simp

/-- **C99.** The forward difference of an acceleration component along any axis differs from the tensor
component by at most `3 G |M| |h| / D⁴`. -/
theorem C99_forward_tensor (hP : P.Ordered) (a b : Axis) (p : Pt) {h D : ℝ} (hh : h ≠ 0) (hD : 0 < D)
    (far : ∀ x ∈ uIcc (p.coord b) (p.coord b + h), ∀ q ∈ P.region, D ≤ dist3 (p.set b x) q) (ρ : ℝ) :
    ∃ v w g, Returns (onPrism (A := Exact) (prismGravity a.acc) p P ρ) v ∧
      Returns (onPrism (A := Exact) (prismGravity a.acc) (p.set b (p.coord b + h)) P ρ) w ∧
      Returns (onPrism (A := Exact) (prismGravity (tensor a b)) p P ρ) g ∧
      |(w - v) / h - g| ≤ 3 * (6.6743e-11 * |ρ| * P.volume) / D ^ 4 * |h| := by
  have hp := far_not_mem hD far left_mem_uIcc
  have hp' := far_not_mem hD far right_mem_uIcc
  rw [Pt.set_coord] at hp
  refine ⟨_, _, _, acc_returns a _ _ _, acc_returns a _ _ _, Ex.gravity_returns hP (exterior_singular hP hp _) ρ,
    quot_le hh ?_⟩
  have e1 := (integral_low hP a.acc (by cases a <;> decide) p).2
  have e2 := (integral_low hP a.acc (by cases a <;> decide) (p.set b (p.coord b + h))).2
  have e3 := Vc_tensor_integral hP a b hp
  rw [acc_toK] at e1 e2
  rw [tensor_toK] at e3
  have c := comb_le hP h (integrableOn_kpp (kern1 a) hp') (integrableOn_kpp (kern1 a) hp) (integrableOn_kpp (kern2 b a) hp)
    (C := 3 / D ^ 4 * h ^ 2) (fun q hq => by
      have := kern_forward_acc (p := p) (q := q) (b := b) (s := p.coord b) (t := p.coord b + h) a hD
        (fun x hx => far x hx q hq)
      rw [Pt.set_coord, add_sub_cancel_left] at this
      rwa [mul_comm h])
  rw [e1, e2, ← e3] at c
  rw [show ∀ x y z : ℝ, Gc * ρ * x - Gc * ρ * y - h * (Gc * ρ * z) = Gc * ρ * (x - y - h * z) by intros; ring,
    abs_mul, abs_mul, abs_of_pos Gc_pos, sq_abs]
  refine (mul_le_mul_of_nonneg_left c (mul_nonneg Gc_pos.le (abs_nonneg ρ))).trans (le_of_eq ?_)
  unfold Gc; ring

/-! ## Point masses -/

/-- **C99.** The same for point masses: potential and acceleration. -/
theorem C99_point_forward (b : Axis) (p q : Pt) {h D : ℝ} (hh : h ≠ 0) (hD : 0 < D)
    (far : ∀ x ∈ uIcc (p.coord b) (p.coord b + h), D ≤ dist3 (p.set b x) q) (m : ℝ) :
    ∃ v w g, Returns (onPair (A := Exact) point.gravity_pot p q m) v ∧
      Returns (onPair (A := Exact) point.gravity_pot (p.set b (p.coord b + h)) q m) w ∧
      Returns (onPair (A := Exact) (pointGravity b.acc) p q m) g ∧
      |(w - v) / h - g| ≤ 6.6743e-11 * |m| / D ^ 3 * |h| := by
  have hp := ne_of_far hD (far _ left_mem_uIcc)
  have hp' := ne_of_far hD (far _ right_mem_uIcc)
  have c := kern_forward_pot (p := p) (q := q) (b := b) (s := p.coord b) (t := p.coord b + h) hD far
  rw [Pt.set_coord] at hp c
  rw [add_sub_cancel_left] at c
  refine ⟨_, _, _, Ex.pointGravity_fin .pot hp m, Ex.pointGravity_fin .pot hp' m, Ex.pointGravity_fin b.acc hp m,
    quot_le hh ?_⟩
  rw [acc_toK]
  change |Gc * m * kpp .pot _ q - Gc * m * kpp .pot p q - h * (Gc * m * kpp (kern1 b) p q)| ≤ _
  rw [show ∀ x y z : ℝ, Gc * m * x - Gc * m * y - h * (Gc * m * z) = Gc * m * (x - y - z * h) by intros; ring,
    abs_mul, abs_mul, abs_of_pos Gc_pos, sq_abs]
  refine (mul_le_mul_of_nonneg_left c (mul_nonneg Gc_pos.le (abs_nonneg m))).trans (le_of_eq ?_)
  unfold Gc; ring

/-- **C99.** The forward difference of an acceleration component of a point mass. -/
theorem C99_point_forward_tensor (a b : Axis) (p q : Pt) {h D : ℝ} (hh : h ≠ 0) (hD : 0 < D)
    (far : ∀ x ∈ uIcc (p.coord b) (p.coord b + h), D ≤ dist3 (p.set b x) q) (m : ℝ) :
    ∃ v w g, Returns (onPair (A := Exact) (pointGravity a.acc) p q m) v ∧
      Returns (onPair (A := Exact) (pointGravity a.acc) (p.set b (p.coord b + h)) q m) w ∧
      Returns (onPair (A := Exact) (pointGravity (tensor a b)) p q m) g ∧
      |(w - v) / h - g| ≤ 3 * (6.6743e-11 * |m|) / D ^ 4 * |h| := by
  have hp := ne_of_far hD (far _ left_mem_uIcc)
  have hp' := ne_of_far hD (far _ right_mem_uIcc)
  have c := kern_forward_acc (p := p) (q := q) (b := b) (s := p.coord b) (t := p.coord b + h) a hD far
  rw [Pt.set_coord] at hp c
  rw [add_sub_cancel_left] at c
  refine ⟨_, _, _, Ex.pointGravity_fin a.acc hp m, Ex.pointGravity_fin a.acc hp' m, Ex.pointGravity_fin (tensor a b) hp m,
    quot_le hh ?_⟩
  rw [acc_toK, tensor_toK]
  change |Gc * m * kpp (kern1 a) _ q - Gc * m * kpp (kern1 a) p q - h * (Gc * m * kpp (kern2 b a) p q)| ≤ _
  rw [show ∀ x y z : ℝ, Gc * m * x - Gc * m * y - h * (Gc * m * z) = Gc * m * (x - y - z * h) by intros; ring,
    abs_mul, abs_mul, abs_of_pos Gc_pos, sq_abs]
  refine (mul_le_mul_of_nonneg_left c (mul_nonneg Gc_pos.le (abs_nonneg m))).trans (le_of_eq ?_)
  unfold Gc; ring

/-! ## Double precision -/

/-- **C99.** In double precision the forward difference of the computed potential differs from the
computed acceleration by at most the truncation error above plus a rounding error that grows like
`1 / h`. -/
theorem C99_forward_double (hP : P.Ordered) (b : Axis) (p : Pt) {h D L : ℝ} (hh : h ≠ 0) (hD : 0 < D)
    (far : ∀ x ∈ uIcc (p.coord b) (p.coord b + h), ∀ q ∈ P.region, D ≤ dist3 (p.set b x) q)
    (hm : ModerateOffsets p P) (hm' : ModerateOffsets (p.set b (p.coord b + h)) P)
    (hL : OffsetsUpTo L p P) (hL' : OffsetsUpTo L (p.set b (p.coord b + h)) P) (ρ : ℝ) (hρ : ModerateSize ρ) :
    ∃ v w g, Returns (onPrism (A := Binary64) prism.gravity_pot p P ρ) v ∧
      Returns (onPrism (A := Binary64) prism.gravity_pot (p.set b (p.coord b + h)) P ρ) w ∧
      Returns (onPrism (A := Binary64) (prismGravity b.acc) p P ρ) g ∧
      |(w - v) / h - g| ≤ 6.6743e-11 * |ρ| * (P.volume / D ^ 3 * |h| + 2 ^ (-33 : ℤ) * L ^ 2 / |h| + 2 ^ (-34 : ℤ) * L) := by
  have hp := far_not_mem hD far left_mem_uIcc
  have hp' := far_not_mem hD far right_mem_uIcc
  rw [Pt.set_coord] at hp
  obtain ⟨v, w, g, rv, rw', rg, B⟩ := C99_forward hP b p hh hD far ρ
  obtain ⟨v1, r1, v2, s1, b1⟩ := C98_gravity .pot p P hP (exterior_singular hP hp _) hm hL ρ hρ
  obtain ⟨w1, r2, w2, s2, b2⟩ := C98_gravity .pot _ P hP (exterior_singular hP hp' _) hm' hL' ρ hρ
  obtain ⟨g1, r3, g2, s3, b3⟩ := C98_gravity b.acc p P hP (exterior_singular hP hp _) hm hL ρ hρ
  refine ⟨v2, w2, g2, s1, s2, s3, ?_⟩
  rw [← returns_unique rv r1] at b1
  rw [← returns_unique rw' r2] at b2
  rw [← returns_unique rg r3] at b3
  have l0 : GComp.letters .pot = 0 := rfl
  have l1 : b.acc.letters = 1 := by cases b <;> rfl
  rw [l0] at b1 b2
  rw [l1] at b3
  have e33 : (2 : ℝ) ^ (-33 : ℤ) = 2 * 2 ^ (-34 : ℤ) := by
    rw [show (-33 : ℤ) = 1 + -34 by norm_num, zpow_add₀ (by norm_num)]; norm_num
  rw [e33]
  generalize (2 : ℝ) ^ (-34 : ℤ) = k at *
  generalize 6.6743e-11 * |ρ| = m at *
  simp only [Nat.sub_zero, Nat.reduceSub, pow_one] at b1 b2 b3
  have hk : 0 < |h| := abs_pos.2 hh
  have split : (w2 - v2) / h - g2 = ((w - v) / h - g) + ((w2 - w) / h - (v2 - v) / h) - (g2 - g) := by ring
  rw [split]
  have d1 : |(w2 - w) / h| ≤ k * (m * L ^ 2) / |h| := by
    rw [abs_div]; gcongr
  have d2 : |(v2 - v) / h| ≤ k * (m * L ^ 2) / |h| := by
    rw [abs_div]; gcongr
  calc |((w - v) / h - g) + ((w2 - w) / h - (v2 - v) / h) - (g2 - g)|
      ≤ |(w - v) / h - g| + (|(w2 - w) / h| + |(v2 - v) / h|) + |g2 - g| :=
        (abs_sub _ _).trans (by gcongr; exact (abs_add_le _ _).trans (by gcongr; exact abs_sub _ _))
    _ ≤ m * P.volume / D ^ 3 * |h| + (k * (m * L ^ 2) / |h| + k * (m * L ^ 2) / |h|) + k * (m * L) := by gcongr
    _ = _ := by ring

/-! ### The hypotheses can be met: a step of 1 m eastwards, 30 m away from a prism -/

theorem demo_far : ∀ x ∈ uIcc (Pt.coord (130, 75, 5) .e) (Pt.coord (130, 75, 5) .e + 1), ∀ q ∈ demoPrism.region,
    (30 : ℝ) ≤ dist3 (Pt.set (130, 75, 5) .e x) q := by
  intro x hx q hq
  have h1 : x ∈ Icc (130 : ℝ) (130 + 1) := by
    rw [← uIcc_of_le (by norm_num)]; exact hx
  have h2 : q.e ≤ 100 := hq.1.2
  have := abs_coord_le_dist (Pt.set (130, 75, 5) .e x) q .e
  refine le_trans ?_ this
  show 30 ≤ |x - q.e|
  rw [abs_of_nonneg] <;> linarith [h1.1]

example : ∃ v w g, Returns (onPrism (A := Binary64) prism.gravity_pot (130, 75, 5) demoPrism (2670 : ℝ)) v ∧
      Returns (onPrism (A := Binary64) prism.gravity_pot (131, 75, 5) demoPrism (2670 : ℝ)) w ∧
      Returns (onPrism (A := Binary64) prism.gravity_e (130, 75, 5) demoPrism (2670 : ℝ)) g ∧
      |(w - v) / 1 - g| ≤ 6.6743e-11 * |2670| *
        (demoPrism.volume / 30 ^ 3 * |1| + 2 ^ (-33 : ℤ) * 275 ^ 2 / |1| + 2 ^ (-34 : ℤ) * 275) := by
  have e : Pt.set (130, 75, 5) .e (Pt.coord (130, 75, 5) .e + 1) = ((131, 75, 5) : Pt) := by
    simp only [Pt.set, Pt.coord, Pt.e, Pt.n, Pt.u]; norm_num
  have := C99_forward_double demo_ordered .e (130, 75, 5) (h := 1) (D := 30) (L := 275) (by norm_num) (by norm_num)
    demo_far demo_offsets (by
      rw [e]
      refine ⟨?_, ?_, ?_, ?_, ?_, ?_⟩ <;> simp only [Pt.e, Pt.n, Pt.u, demoPrism] <;> apply moderate_of <;>
        norm_num [abs_of_pos, abs_of_neg])
    (by
      intro a
      cases a <;> simp only [Box.lo, Box.hi, Pt.coord, Pt.e, Pt.n, Pt.u, demoPrism] <;>
        constructor <;> norm_num [abs_of_neg, abs_of_pos])
    (by
      rw [e]
      intro a
      cases a <;> simp only [Box.lo, Box.hi, Pt.coord, Pt.e, Pt.n, Pt.u, demoPrism] <;>
        constructor <;> norm_num [abs_of_neg, abs_of_pos])
    2670 (moderate_of (by norm_num [abs_of_pos]) (by norm_num [abs_of_pos]))
  rw [e] at this
  exact this

end Choclo
