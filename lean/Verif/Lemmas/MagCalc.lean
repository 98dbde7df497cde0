import Verif.Lemmas.FaceLimit

/-! # Derivatives of the tensor components: third-order kernels -/

namespace Choclo

open Real Filter Topology Classical

/-! ### one-dimensional derivatives -/

/-- the regular part of the arctangent kernel along its own axis: everywhere differentiable -/
theorem hasDerivAt_Sk1 (x y z : ℝ) : HasDerivAt (fun t => Sk t y z) (Kiii x y z) x := by
  by_cases h : y * z = 0
  · have h1 : (fun t => Sk t y z) = fun _ => 0 := by funext t; unfold Sk; rw [h]; simp
    have h2 : Kiii x y z = 0 := by
      unfold Kiii; split_ifs
      · rfl
      · rw [show -y * z * (2 * x ^ 2 + y ^ 2 + z ^ 2) = -(y * z) * (2 * x ^ 2 + y ^ 2 + z ^ 2) by ring, h]; simp
    rw [h1, h2]; exact hasDerivAt_const _ _
  · have hy : y ≠ 0 := left_ne_zero_of_mul h
    have hz : z ≠ 0 := right_ne_zero_of_mul h
    have hr : rad x y z ≠ 0 := by rw [Ne, rad_eq_zero]; tauto
    have h1 := ((((hasDerivAt_id x).mul (hasDerivAt_rad1 hr)).div_const (y * z)).arctan).neg
    refine h1.congr_deriv ?_
    simp only [Pi.mul_apply, id, Kiii]
    rw [if_neg (by tauto)]
    have e1 : x ^ 2 + y ^ 2 ≠ 0 := by positivity
    have e2 : x ^ 2 + z ^ 2 ≠ 0 := by positivity
    have e3 : 1 + (x * rad x y z / (y * z)) ^ 2 = (x ^ 2 + y ^ 2) * (x ^ 2 + z ^ 2) / (y * z) ^ 2 := by
      field_simp
      have := rad_sq x y z
      rw [this]; ring
    rw [e3]
    have := rad_sq x y z
    field_simp
    simp only [this]
    ring

theorem same_sign_sign {z1 z2 : ℝ} (h : (0 < z1 ∧ 0 < z2) ∨ (z1 < 0 ∧ z2 < 0)) :
    Real.sign z2 = Real.sign z1 := by
  rcases h with h | h
  · rw [Real.sign_of_pos h.1, Real.sign_of_pos h.2]
  · rw [Real.sign_of_neg h.1, Real.sign_of_neg h.2]

/-- the arctangent kernel across its axis -/
theorem hasDerivAt_Tk2_diff {x y z1 z2 : ℝ}
    (h : (x = 0 ∧ y = 0) → (0 < z1 ∧ 0 < z2) ∨ (z1 < 0 ∧ z2 < 0)) :
    HasDerivAt (fun t => Tk x t z2 - Tk x t z1) (Kiij x y z2 - Kiij x y z1) y := by
  by_cases hx : x = 0
  · subst hx
    have hk : ∀ z, Kiij 0 y z = 0 := by intro z; unfold Kiij; split_ifs <;> simp
    have hT : ∀ t z, Tk 0 t z = π / 2 * (Real.sign t * Real.sign z) := by
      intro t z; rw [Tk_eq]; unfold Sk sg; simp
    rw [hk, hk, sub_zero]
    simp only [hT]
    by_cases hy : y = 0
    · have := same_sign_sign (h ⟨rfl, hy⟩)
      simp only [this, sub_self]; exact hasDerivAt_const _ _
    · refine (hasDerivAt_const y (π / 2 * (Real.sign y * Real.sign z2) -
        π / 2 * (Real.sign y * Real.sign z1))).congr_of_eventuallyEq ?_
      rcases lt_or_gt_of_ne hy with hy | hy
      · filter_upwards [eventually_lt_nhds hy] with t ht
        rw [Real.sign_of_neg hy, Real.sign_of_neg ht]
      · filter_upwards [eventually_gt_nhds hy] with t ht
        rw [Real.sign_of_pos hy, Real.sign_of_pos ht]
  · refine ((hasDerivAt_Tk2 y z2 hx).sub (hasDerivAt_Tk2 y z1 hx)).congr_deriv ?_
    simp only [Kiij]
    rw [if_neg (by tauto), if_neg (by tauto), mul_comm (rad x y z1), mul_comm (rad x y z2)]

/-- the logarithm kernel across its axis -/
theorem hasDerivAt_Lk2_diff {x1 x2 y z : ℝ}
    (h : (y = 0 ∧ z = 0) → (0 < x1 ∧ 0 < x2) ∨ (x1 < 0 ∧ x2 < 0)) :
    HasDerivAt (fun t => Lk x2 t z - Lk x1 t z) (-(Kiij y z x2 - Kiij y z x1)) y := by
  by_cases h0 : y = 0 ∧ z = 0
  · obtain ⟨rfl, rfl⟩ := h0
    have hs := h ⟨rfl, rfl⟩
    have key : ∀ x : ℝ, x ≠ 0 → HasDerivAt (fun t => Qk x t 0) 0 0 := by
      intro x hx
      have hr : rad x 0 0 = |x| := by
        unfold rad; rw [← Real.sqrt_sq_eq_abs]; congr 1; ring
      have h3 := hasDerivAt_rad2 (x := x) (y := 0) (z := 0) (by rw [hr]; simpa using hx)
      rw [zero_div] at h3
      unfold Qk
      rcases lt_or_gt_of_ne hx with h | h
      · simp only [if_pos h]
        have := (h3.sub_const x).log (by rw [hr, abs_of_neg h]; linarith)
        rw [zero_div] at this
        have := this.neg
        rw [neg_zero] at this
        exact this
      · simp only [if_neg h.le.not_gt]
        have := (h3.add_const x).log (by rw [hr, abs_of_pos h]; linarith)
        rw [zero_div] at this
        exact this
    have h1 : x1 ≠ 0 := by rcases hs with h | h <;> grind
    have h2 : x2 ≠ 0 := by rcases hs with h | h <;> grind
    refine (((key x2 h2).sub (key x1 h1)).congr_deriv ?_).congr_of_eventuallyEq
      (Eventually.of_forall fun t => ?_)
    · simp [Kiij]
    · simp only [Lk_eq x2 t 0, Lk_eq x1 t 0, Pi.sub_apply]
      rcases hs with h | h
      · rw [if_neg h.1.le.not_gt, if_neg h.2.le.not_gt]; ring
      · rw [if_pos h.1, if_pos h.2]; ring
  · refine ((hasDerivAt_Lk2 (x := x2) h0).sub (hasDerivAt_Lk2 (x := x1) h0)).congr_deriv ?_
    rw [inv_add_rad h0, inv_add_rad h0]
    have e1 := (sq_add_sq_pos h0).ne'
    have r1 : rad x1 y z ≠ 0 := by rw [Ne, rad_eq_zero]; tauto
    have r2 : rad x2 y z ≠ 0 := by rw [Ne, rad_eq_zero]; tauto
    simp only [Kiij]
    rw [if_neg h0, if_neg h0, rad_perm3 x1 y z, rad_perm3 x2 y z]
    field_simp
    ring

/-! ### derivatives of the tensor components at exterior points -/

variable {p : Pt} {P : Box}

theorem isClosed_region (P : Box) : IsClosed P.region :=
  isClosed_Icc.prod (isClosed_Icc.prod isClosed_Icc)

theorem Pt.continuous_set (p : Pt) (a : Axis) : Continuous fun t => p.set a t := by
  cases a <;> simp only [Pt.set] <;> fun_prop

theorem Pt.set_coord (p : Pt) (a : Axis) : p.set a (p.coord a) = p := by cases a <;> rfl

theorem eventually_exterior (a : Axis) (h : p ∉ P.region) : ∀ᶠ t in 𝓝 (p.coord a), p.set a t ∉ P.region := by
  have hc := (Pt.continuous_set p a).continuousAt (x := p.coord a)
  have hm : p.set a (p.coord a) ∈ P.regionᶜ := by rw [Pt.set_coord]; exact h
  exact hc.eventually ((isClosed_region P).isOpen_compl.mem_nhds hm)

theorem exterior_edges (hP : P.Ordered) (h : p ∉ P.region) : p ∉ P.edges :=
  fun h' => h (edges_subset_region hP h')

theorem exterior_singular (hP : P.Ordered) (h : p ∉ P.region) (c : GComp) : p ∉ P.singular c :=
  edges_singular c (exterior_edges hP h)

theorem exterior_corr (hP : P.Ordered) (h : p ∉ P.region) (c : GComp) : corr c p P = 0 := by
  obtain ⟨h1, h2, h3⟩ := hP
  simp only [Box.region, Set.mem_prod, Set.mem_Icc] at h
  cases c <;> simp only [corr] <;> rw [if_neg] <;>
    simp only [Box.faceEast, Box.faceNorth, Box.faceTop, Set.mem_prod, Set.mem_Ioo, Set.mem_singleton_iff] <;> grind

/-- outside, `gravity_ee` is given by the regular parts -/
theorem Vee_exterior (hP : P.Ordered) (h : p ∉ P.region) : Vc .ee p P = -Dv Sk p P := by
  rcases hP.1.eq_or_lt with hx | hx
  · unfold Vc; rw [Dv_flat_e hx, Dv_flat_e hx, exterior_corr hP h]; ring
  · rw [Vee_eq hP hx (exterior_singular hP h _)]
    split_ifs with h1
    · by_cases hn : p.n ∈ Set.Icc P.south P.north
      · rw [su_out hP (fun hu => h ⟨Set.Ioo_subset_Icc_self h1, hn, hu⟩)]; ring
      · rw [sn_out hP hn]; ring
    · ring

theorem hasDerivAt_Vee_e (hP : P.Ordered) (h : p ∉ P.region) :
    HasDerivAt (fun t => Vc .ee (p.set .e t) P) (Dv (K3 .eee) p P) p.e := by
  have s := fun c : ℝ => (hasDerivAt_id p.e).const_sub c
  have h' := fun x y z => hasDerivAt_Sk1 x y z
  have h2 := fun y z => (h' (P.east - p.e) y z).comp p.e (s P.east)
  have h1 := fun y z => (h' (P.west - p.e) y z).comp p.e (s P.west)
  have H := ((((h2 (P.north - p.n) (P.top - p.u)).sub (h2 (P.north - p.n) (P.bottom - p.u))).sub
    ((h2 (P.south - p.n) (P.top - p.u)).sub (h2 (P.south - p.n) (P.bottom - p.u)))).sub
    (((h1 (P.north - p.n) (P.top - p.u)).sub (h1 (P.north - p.n) (P.bottom - p.u))).sub
    ((h1 (P.south - p.n) (P.top - p.u)).sub (h1 (P.south - p.n) (P.bottom - p.u))))).neg
  refine (H.congr_deriv ?_).congr_of_eventuallyEq ?_
  · simp only [Dv, D3, K3]; ring
  · filter_upwards [eventually_exterior .e h] with t ht
    rw [Vee_exterior hP ht]
    simp only [Dv, D3, Pt.set, Pt.e, Pt.n, Pt.u, Pi.sub_apply, Pi.neg_apply, Function.comp, id]

theorem hasDerivAt_Vee_n (hP : P.Ordered) (h : p ∉ P.region) :
    HasDerivAt (fun t => Vc .ee (p.set .n t) P) (Dv (K3 .een) p P) p.n := by
  have s := fun c : ℝ => (hasDerivAt_id p.n).const_sub c
  have hU : p ∉ P.edgesU := fun h' => exterior_edges hP h (Or.inr h')
  have H : ∀ x y, (x = P.west - p.e ∨ x = P.east - p.e) → (y = P.south ∨ y = P.north) →
      HasDerivAt (fun t => Tk x (y - t) (P.top - p.u) - Tk x (y - t) (P.bottom - p.u))
        (-(Kiij x (y - p.n) (P.top - p.u) - Kiij x (y - p.n) (P.bottom - p.u))) p.n := by
    intro x y hx hy
    have := (hasDerivAt_Tk2_diff (x := x) (y := y - p.n) (z1 := P.bottom - p.u) (z2 := P.top - p.u)
      (fun h0 => axis_same_side_u hP hU hx (by rcases hy with h | h <;> rw [h] <;> simp) h0)).comp
      p.n (s y)
    refine this.congr_deriv (by ring)
  have h22 := H _ _ (Or.inr rfl) (Or.inr rfl)
  have h21 := H _ _ (Or.inr rfl) (Or.inl rfl)
  have h12 := H _ _ (Or.inl rfl) (Or.inr rfl)
  have h11 := H _ _ (Or.inl rfl) (Or.inl rfl)
  refine (((h22.sub h21).sub (h12.sub h11)).neg.congr_deriv ?_).congr_of_eventuallyEq ?_
  · simp only [Dv, D3, K3]; ring
  · filter_upwards [eventually_exterior .n h] with t ht
    simp only [Vc]
    rw [exterior_corr hP ht]
    simp only [Kc, Dv, D3, Pt.set, Pt.e, Pt.n, Pt.u, Pi.sub_apply, Pi.neg_apply, add_zero]
    ring

theorem hasDerivAt_Vnu_e (hP : P.Ordered) (h : p ∉ P.region) :
    HasDerivAt (fun t => Vc .nu (p.set .e t) P) (Dv (K3 .enu) p P) p.e := by
  have s := fun c : ℝ => (hasDerivAt_id p.e).const_sub c
  have he := exterior_edges hP h
  have hr : ∀ {x y z : ℝ}, (x = P.west - p.e ∨ x = P.east - p.e) → (y = P.south - p.n ∨ y = P.north - p.n) →
      (z = P.bottom - p.u ∨ z = P.top - p.u) → rad x y z ≠ 0 := fun hx hy hz =>
    Ex.rad_ne_zero hP (Or.inl fun h' => he (Or.inl (Or.inl h'))) hx hy hz
  have h2 := fun y z hy hz => (hasDerivAt_Lk1 (y := y) (z := z) (hr (Or.inr rfl) hy hz)).comp p.e (s P.east)
  have h1 := fun y z hy hz => (hasDerivAt_Lk1 (y := y) (z := z) (hr (Or.inl rfl) hy hz)).comp p.e (s P.west)
  have H := ((((h2 _ _ (Or.inr rfl) (Or.inr rfl)).sub (h2 _ _ (Or.inr rfl) (Or.inl rfl))).sub
    ((h2 _ _ (Or.inl rfl) (Or.inr rfl)).sub (h2 _ _ (Or.inl rfl) (Or.inl rfl)))).sub
    (((h1 _ _ (Or.inr rfl) (Or.inr rfl)).sub (h1 _ _ (Or.inr rfl) (Or.inl rfl))).sub
    ((h1 _ _ (Or.inl rfl) (Or.inr rfl)).sub (h1 _ _ (Or.inl rfl) (Or.inl rfl)))))
  refine (H.congr_deriv ?_).congr_of_eventuallyEq (Eventually.of_forall fun t => ?_)
  · simp only [Dv, D3, K3]; ring
  · simp only [Vc, corr, Kc, Dv, D3, Pt.set, Pt.e, Pt.n, Pt.u, Pi.sub_apply, Function.comp, add_zero, id]

theorem axis_same_side_e (hP : P.Ordered) (h : p ∉ P.edgesE) {y z : ℝ}
    (hy : y = P.south - p.n ∨ y = P.north - p.n) (hz : z = P.bottom - p.u ∨ z = P.top - p.u)
    (h0 : y = 0 ∧ z = 0) :
    (0 < P.west - p.e ∧ 0 < P.east - p.e) ∨ (P.west - p.e < 0 ∧ P.east - p.e < 0) := by
  have := hP.1
  by_contra hc
  apply h
  simp only [Box.edgesE, Set.mem_ofPred_eq, Set.mem_Icc]
  grind

theorem hasDerivAt_Vnu_n (hP : P.Ordered) (h : p ∉ P.region) :
    HasDerivAt (fun t => Vc .nu (p.set .n t) P) (Dv (K3 .nnu) p P) p.n := by
  have s := fun c : ℝ => (hasDerivAt_id p.n).const_sub c
  have hE : p ∉ P.edgesE := fun h' => exterior_edges hP h (Or.inl (Or.inl h'))
  have H : ∀ y z, (y = P.south ∨ y = P.north) → (z = P.bottom - p.u ∨ z = P.top - p.u) →
      HasDerivAt (fun t => Lk (P.east - p.e) (y - t) z - Lk (P.west - p.e) (y - t) z)
        (Kiij (y - p.n) z (P.east - p.e) - Kiij (y - p.n) z (P.west - p.e)) p.n := by
    intro y z hy hz
    have := (hasDerivAt_Lk2_diff (x1 := P.west - p.e) (x2 := P.east - p.e) (y := y - p.n) (z := z)
      (fun h0 => axis_same_side_e hP hE (by rcases hy with h | h <;> rw [h] <;> simp) hz h0)).comp
      p.n (s y)
    refine this.congr_deriv (by ring)
  have h22 := H _ _ (Or.inr rfl) (Or.inr rfl)
  have h21 := H _ _ (Or.inr rfl) (Or.inl rfl)
  have h12 := H _ _ (Or.inl rfl) (Or.inr rfl)
  have h11 := H _ _ (Or.inl rfl) (Or.inl rfl)
  refine (((h22.sub h21).sub (h12.sub h11)).congr_deriv ?_).congr_of_eventuallyEq
    (Eventually.of_forall fun t => ?_)
  · simp only [Dv, D3, K3]; ring
  · simp only [Vc, corr, Kc, Dv, D3, Pt.set, Pt.e, Pt.n, Pt.u, Pi.sub_apply, add_zero]
    ring

end Choclo
