import Verif.Lemmas.Calc

/-! # Derivatives of the real-valued denotations with respect to the observation point -/

namespace Choclo

open Real Filter Topology Classical

theorem Pt.set_swap (p : Pt) (a : Axis) (t : ℝ) (s : Swap) :
    (p.set a t).swap s = (p.swap s).set (a.swap s) t := by
  cases a <;> cases s <;> rfl

theorem Pt.coord_swap (p : Pt) (a : Axis) (s : Swap) : (p.swap s).coord (a.swap s) = p.coord a := by
  cases a <;> cases s <;> rfl

theorem Axis.acc_swap (a : Axis) (s : Swap) : (a.swap s).acc = a.acc.swap s := by
  cases a <;> cases s <;> rfl

theorem tensor_swap (a b : Axis) (s : Swap) : tensor (a.swap s) (b.swap s) = (tensor a b).swap s := by
  cases a <;> cases b <;> cases s <;> rfl

theorem Box.lo_swap (P : Box) (a : Axis) (s : Swap) : (P.swap s).lo (a.swap s) = P.lo a := by
  cases a <;> cases s <;> rfl
theorem Box.hi_swap (P : Box) (a : Axis) (s : Swap) : (P.swap s).hi (a.swap s) = P.hi a := by
  cases a <;> cases s <;> rfl
theorem closedFaces_swap (p : Pt) (P : Box) (a : Axis) (s : Swap) :
    p.swap s ∈ (P.swap s).closedFaces (a.swap s) ↔ p ∈ P.closedFaces a := by
  simp only [Box.closedFaces, Set.mem_ofPred_eq, region_swap, Pt.coord_swap, Box.lo_swap, Box.hi_swap]
theorem faceHi_swap (p : Pt) (P : Box) (a : Axis) (s : Swap) :
    p.swap s ∈ (P.swap s).faceHi (a.swap s) ↔ p ∈ P.faceHi a := by
  cases a <;> cases s <;> simp only [Box.faceHi, Axis.swap, faceEast_swap_en, faceNorth_swap_en,
      faceTop_swap_en, faceEast_swap_eu, faceNorth_swap_eu, faceTop_swap_eu, faceEast_swap_nu,
      faceNorth_swap_nu, faceTop_swap_nu]
theorem faceLo_swap (p : Pt) (P : Box) (a : Axis) (s : Swap) :
    p.swap s ∈ (P.swap s).faceLo (a.swap s) ↔ p ∈ P.faceLo a := by
  cases a <;> cases s <;> simp only [Box.faceLo, Axis.swap]
  all_goals first
    | exact ⟨fun h => ⟨h.2.1, h.1, h.2.2⟩, fun h => ⟨h.2.1, h.1, h.2.2⟩⟩
    | exact ⟨fun h => ⟨h.2.2, h.2.1, h.1⟩, fun h => ⟨h.2.2, h.2.1, h.1⟩⟩
    | exact ⟨fun h => ⟨h.1, h.2.2, h.2.1⟩, fun h => ⟨h.1, h.2.2, h.2.1⟩⟩

/-! ### the potential -/

theorem hasDerivAt_Vpot_e (p : Pt) (P : Box) :
    HasDerivAt (fun t => Vc .pot (p.set .e t) P) (Vc .e p P) p.e := by
  have h := fun x => hasDerivAt_Pk1_diff x (P.south - p.n) (P.north - p.n) (P.bottom - p.u) (P.top - p.u)
  have s := fun c : ℝ => (hasDerivAt_id p.e).const_sub c
  have h2 := (h (P.east - p.e)).comp p.e (s P.east)
  have h1 := (h (P.west - p.e)).comp p.e (s P.west)
  refine ((h2.sub h1).congr_deriv ?_).congr_of_eventuallyEq (Eventually.of_forall fun t => ?_)
  · simp only [Vc, corr, Kc, Dv, D3]; ring
  · simp only [Vc, corr, Kc, Dv, D3, Pt.set, Pt.e, Pt.n, Pt.u, Pi.sub_apply, Function.comp, add_zero, id]

/-- transport of a derivative along a relabelling of the axes -/
theorem hasDerivAt_swap {c d : GComp} {a : Axis} {p : Pt} {P : Box} (s : Swap)
    (h : HasDerivAt (fun t => Vc (c.swap s) ((p.swap s).set (a.swap s) t) (P.swap s))
      (Vc (d.swap s) (p.swap s) (P.swap s)) ((p.swap s).coord (a.swap s))) :
    HasDerivAt (fun t => Vc c (p.set a t) P) (Vc d p P) (p.coord a) := by
  rw [Vc_swap, Pt.coord_swap] at h
  refine h.congr_of_eventuallyEq (Eventually.of_forall fun t => ?_)
  simp only
  rw [← Pt.set_swap, Vc_swap]

theorem hasDerivAt_Vpot (a : Axis) (p : Pt) (P : Box) :
    HasDerivAt (fun t => Vc .pot (p.set a t) P) (Vc a.acc p P) (p.coord a) := by
  cases a
  · exact hasDerivAt_Vpot_e p P
  · exact hasDerivAt_swap (c := .pot) .en (hasDerivAt_Vpot_e (p.swap .en) (P.swap .en))
  · exact hasDerivAt_swap (c := .pot) .eu (hasDerivAt_Vpot_e (p.swap .eu) (P.swap .eu))

/-! ### diagonal components -/

theorem Ve_eq (p : Pt) (P : Box) (t : ℝ) : Vc .e (p.set .e t) P =
    -Dv Gk (p.set .e t) P + π / 2 * ((|P.east - t| - |P.west - t|) * (sn p P * su p P)) := by
  have hK : Kc .e = fun x y z => -(Gk x y z + -(π / 2) * (|x| * (Real.sign y * Real.sign z))) := by
    funext x y z; simp only [Kc, Fk_eq]; ring
  simp only [Vc, corr, add_zero]
  rw [hK, Dv_neg, Dv_add, Dv_smul, Dv_prod]
  simp only [Pt.set, Pt.e, Pt.n, Pt.u, sn, su]
  ring

theorem hasDerivAt_DvGk (p : Pt) (P : Box) :
    HasDerivAt (fun t => -Dv Gk (p.set .e t) P) (-Dv Sk p P) p.e := by
  have s := fun c : ℝ => (hasDerivAt_id p.e).const_sub c
  have h := fun x y z => hasDerivAt_Gk1 x y z
  have h2 := fun y z => (h (P.east - p.e) y z).comp p.e (s P.east)
  have h1 := fun y z => (h (P.west - p.e) y z).comp p.e (s P.west)
  have H := ((((h2 (P.north - p.n) (P.top - p.u)).sub (h2 (P.north - p.n) (P.bottom - p.u))).sub
    ((h2 (P.south - p.n) (P.top - p.u)).sub (h2 (P.south - p.n) (P.bottom - p.u)))).sub
    (((h1 (P.north - p.n) (P.top - p.u)).sub (h1 (P.north - p.n) (P.bottom - p.u))).sub
    ((h1 (P.south - p.n) (P.top - p.u)).sub (h1 (P.south - p.n) (P.bottom - p.u))))).neg
  refine (H.congr_deriv ?_).congr_of_eventuallyEq (Eventually.of_forall fun t => ?_)
  · simp only [Dv, D3]; ring
  · simp only [Dv, D3, Pt.set, Pt.e, Pt.n, Pt.u, Pi.sub_apply, Pi.neg_apply, Function.comp, id]

theorem hasDerivAt_abs_sub {c t : ℝ} (h : t ≠ c) : HasDerivAt (fun t => |c - t|) (-sg (c - t)) t := by
  have h0 : c - t ≠ 0 := sub_ne_zero.mpr (Ne.symm h)
  have := (hasDerivAt_abs h0).comp t ((hasDerivAt_id t).const_sub c)
  refine this.congr_deriv ?_
  unfold sg
  rcases lt_or_gt_of_ne h0 with h | h
  · simp [h]
  · simp [h, h.le.not_gt]

theorem singular_closedFaces {p : Pt} {P : Box} (hP : P.Ordered) (h : p ∈ P.singular .ee) :
    p ∈ P.closedFaces .e := by
  obtain ⟨h1, h2, h3⟩ := hP
  simp only [Box.singular, Set.mem_union, Box.edgesN, Box.edgesU, Set.mem_ofPred_eq, Set.mem_Icc] at h
  simp only [Box.closedFaces, Box.region, Set.mem_ofPred_eq, Set.mem_prod, Set.mem_Icc, Pt.coord, Box.lo, Box.hi]
  grind

theorem hasDerivAt_Ve_e {p : Pt} {P : Box} (hP : P.Ordered) (h : p ∉ P.closedFaces .e) :
    HasDerivAt (fun t => Vc .e (p.set .e t) P) (Vc .ee p P) p.e := by
  rcases hP.1.eq_or_lt with hx | hx
  · have h1 : Vc .ee p P = 0 := by
      unfold Vc
      rw [Dv_flat_e hx]
      simp only [corr, zero_add]
      rw [if_neg]
      intro h'
      apply h
      refine ⟨⟨⟨?_, ?_⟩, Set.Ioo_subset_Icc_self h'.2.1, Set.Ioo_subset_Icc_self h'.2.2⟩, Or.inr h'.1⟩
      · rw [hx]; exact (le_of_eq (Set.mem_singleton_iff.mp h'.1).symm)
      · exact (le_of_eq (Set.mem_singleton_iff.mp h'.1))
    have h2 : (fun t => Vc .e (p.set .e t) P) = fun _ => 0 := by
      funext t; unfold Vc; rw [Dv_flat_e hx]; simp [corr]
    rw [h1, h2]; exact hasDerivAt_const _ _
  · have hs : p ∉ P.singular .ee := fun h' => h (singular_closedFaces hP h')
    rw [Vee_eq hP hx hs]
    have h1 := hasDerivAt_DvGk p P
    simp only [Ve_eq]
    by_cases h0 : sn p P * su p P = 0
    · simp only [h0, mul_zero, add_zero, ite_self, sub_zero]; exact h1
    · have hn : p.n ∈ Set.Icc P.south P.north := by
        by_contra hc; exact h0 (by rw [sn_out hP hc, zero_mul])
      have hu : p.u ∈ Set.Icc P.bottom P.top := by
        by_contra hc; exact h0 (by rw [su_out hP hc, mul_zero])
      have hE : p.e ≠ P.east := fun h' => h ⟨⟨⟨hx.le.trans_eq h'.symm, h'.le⟩, hn, hu⟩, Or.inr h'⟩
      have hW : p.e ≠ P.west := fun h' => h ⟨⟨⟨h'.ge, h'.trans_le hx.le⟩, hn, hu⟩, Or.inl h'⟩
      have h2 := (((hasDerivAt_abs_sub hE).sub (hasDerivAt_abs_sub hW)).mul_const
        (sn p P * su p P)).const_mul (π / 2)
      refine (h1.add h2).congr_deriv ?_
      have := sg_sub (P.west - p.e) (P.east - p.e) (by linarith)
      have e : (P.west - p.e < 0 ∧ 0 ≤ P.east - p.e) ↔ p.e ∈ Set.Ioo P.west P.east := by
        rw [Set.mem_Ioo]; grind
      rw [show -sg (P.east - p.e) - -sg (P.west - p.e) = -(sg (P.east - p.e) - sg (P.west - p.e)) by ring,
        this]
      simp only [e]
      split_ifs <;> ring

/-- right derivative on the east face -/
theorem hasDerivWithinAt_Ve_east {p : Pt} {P : Box} (hP : P.Ordered) (hx : P.west < P.east)
    (h : p ∈ P.faceEast) :
    HasDerivWithinAt (fun t => Vc .e (p.set .e t) P) (Vc .ee p P) (Set.Ici p.e) p.e := by
  obtain ⟨hE, hn, hu⟩ := h
  rw [Set.mem_singleton_iff] at hE
  change p.e = P.east at hE
  have hs : p ∉ P.singular .ee := by
    change p.n ∈ _ at hn
    change p.u ∈ _ at hu
    simp only [Box.singular, Set.mem_union, Box.edgesN, Box.edgesU, Set.mem_ofPred_eq]
    rw [Set.mem_Ioo] at hn hu
    grind
  rw [Vee_eq hP hx hs, if_neg (by rw [hE]; simp), sub_zero]
  simp only [Ve_eq]
  have h1 := (hasDerivAt_DvGk p P).hasDerivWithinAt (s := Set.Ici p.e)
  have h2 : HasDerivWithinAt (fun t => π / 2 * ((|P.east - t| - |P.west - t|) * (sn p P * su p P))) 0
      (Set.Ici p.e) p.e := by
    refine (hasDerivWithinAt_const p.e (Set.Ici p.e)
      (π / 2 * ((P.west - P.east) * (sn p P * su p P)))).congr ?_ ?_
    · intro t ht
      rw [Set.mem_Ici] at ht
      rw [abs_of_nonpos (by linarith), abs_of_neg (by linarith)]; ring
    · rw [hE, abs_of_nonpos (by linarith), abs_of_neg (by linarith)]; ring
  refine (h1.add h2).congr_deriv (by ring)

/-- left derivative on the west face -/
theorem hasDerivWithinAt_Ve_west {p : Pt} {P : Box} (hP : P.Ordered) (hx : P.west < P.east)
    (h : p ∈ P.faceWest) :
    HasDerivWithinAt (fun t => Vc .e (p.set .e t) P) (Vc .ee p P) (Set.Iic p.e) p.e := by
  obtain ⟨hE, hn, hu⟩ := h
  rw [Set.mem_singleton_iff] at hE
  change p.e = P.west at hE
  have hs : p ∉ P.singular .ee := by
    change p.n ∈ _ at hn
    change p.u ∈ _ at hu
    simp only [Box.singular, Set.mem_union, Box.edgesN, Box.edgesU, Set.mem_ofPred_eq]
    rw [Set.mem_Ioo] at hn hu
    grind
  rw [Vee_eq hP hx hs, if_neg (by rw [hE]; simp), sub_zero]
  simp only [Ve_eq]
  have h1 := (hasDerivAt_DvGk p P).hasDerivWithinAt (s := Set.Iic p.e)
  have h2 : HasDerivWithinAt (fun t => π / 2 * ((|P.east - t| - |P.west - t|) * (sn p P * su p P))) 0
      (Set.Iic p.e) p.e := by
    refine (hasDerivWithinAt_const p.e (Set.Iic p.e)
      (π / 2 * ((P.east - P.west) * (sn p P * su p P)))).congr ?_ ?_
    · intro t ht
      rw [Set.mem_Iic] at ht
      rw [abs_of_pos (by linarith), abs_of_nonneg (by linarith)]; ring
    · rw [hE, abs_of_pos (by linarith), abs_of_nonneg (by linarith)]; ring
  refine (h1.add h2).congr_deriv (by ring)

/-! ### off-diagonal components -/

theorem axis_same_side_u {p : Pt} {P : Box} (hP : P.Ordered) (h : p ∉ P.edgesU) {x y : ℝ}
    (hx : x = P.west - p.e ∨ x = P.east - p.e) (hy : y = P.south - p.n ∨ y = P.north - p.n) 
    (h0 : x = 0 ∧ y = 0) :
    (0 < P.bottom - p.u ∧ 0 < P.top - p.u) ∨ (P.bottom - p.u < 0 ∧ P.top - p.u < 0) := by
  have := hP.2.2
  by_contra hc
  apply h
  simp only [Box.edgesU, Set.mem_ofPred_eq, Set.mem_Icc]
  grind

theorem hasDerivAt_Ve_n {p : Pt} {P : Box} (hP : P.Ordered) (h : p ∉ P.edgesU) :
    HasDerivAt (fun t => Vc .e (p.set .n t) P) (Vc .en p P) p.n := by
  have s := fun c : ℝ => (hasDerivAt_id p.n).const_sub c
  have H : ∀ x y, (x = P.west - p.e ∨ x = P.east - p.e) → (y = P.south ∨ y = P.north) →
      HasDerivAt (fun t => Fk x (y - t) (P.top - p.u) - Fk x (y - t) (P.bottom - p.u))
        (-(Lk (P.top - p.u) x (y - p.n) - Lk (P.bottom - p.u) x (y - p.n))) p.n := by
    intro x y hx hy
    have := (hasDerivAt_Fk2_diff (x := x) (y := y - p.n) (z1 := P.bottom - p.u) (z2 := P.top - p.u)
      (fun h0 => axis_same_side_u hP h hx (by rcases hy with h | h <;> rw [h] <;> simp) h0)).comp
      p.n (s y)
    refine this.congr_deriv (by ring)
  have h22 := H _ _ (Or.inr rfl) (Or.inr rfl)
  have h21 := H _ _ (Or.inr rfl) (Or.inl rfl)
  have h12 := H _ _ (Or.inl rfl) (Or.inr rfl)
  have h11 := H _ _ (Or.inl rfl) (Or.inl rfl)
  refine (((h22.sub h21).sub (h12.sub h11)).neg.congr_deriv ?_).congr_of_eventuallyEq
    (Eventually.of_forall fun t => ?_)
  · simp only [Vc, corr, Kc, Dv, D3]; ring
  · simp only [Vc, corr, Kc, Dv, D3, Pt.set, Pt.e, Pt.n, Pt.u, Pi.sub_apply, Pi.neg_apply, add_zero]
    ring

theorem hasDerivAt_Vacc_off {a b : Axis} (hab : a ≠ b) {p : Pt} {P : Box} (hP : P.Ordered)
    (h : p ∉ P.singular (tensor a b)) :
    HasDerivAt (fun t => Vc a.acc (p.set b t) P) (Vc (tensor a b) p P) (p.coord b) := by
  have step : ∀ (s : Swap) (a b : Axis), (∀ p P, P.Ordered → p ∉ P.singular (tensor (a.swap s) (b.swap s)) →
      HasDerivAt (fun t => Vc (a.swap s).acc (p.set (b.swap s) t) P) (Vc (tensor (a.swap s) (b.swap s)) p P)
        (p.coord (b.swap s))) → ∀ p P, P.Ordered → p ∉ P.singular (tensor a b) →
      HasDerivAt (fun t => Vc a.acc (p.set b t) P) (Vc (tensor a b) p P) (p.coord b) := by
    intro s a b H p P hP h
    have := H (p.swap s) (P.swap s) (hP.swap s) (by rw [tensor_swap, singular_swap]; exact h)
    rw [Axis.acc_swap, tensor_swap] at this
    exact hasDerivAt_swap s this
  have en : ∀ p P, P.Ordered → p ∉ P.singular (tensor .e .n) →
      HasDerivAt (fun t => Vc (Axis.acc .e) (p.set .n t) P) (Vc (tensor .e .n) p P) (p.coord .n) :=
    fun p P hP h => hasDerivAt_Ve_n hP h
  have ne := step .en .n .e en
  have eu := step .nu .e .u en
  have un := step .eu .u .n en
  have nu := step .en .n .u eu
  have ue := step .en .u .e un
  cases a <;> cases b
  · exact absurd rfl hab
  · exact en p P hP h
  · exact eu p P hP h
  · exact ne p P hP h
  · exact absurd rfl hab
  · exact nu p P hP h
  · exact ue p P hP h
  · exact un p P hP h
  · exact absurd rfl hab

theorem hasDerivAt_Vacc_diag (a : Axis) {p : Pt} {P : Box} (hP : P.Ordered) (h : p ∉ P.closedFaces a) :
    HasDerivAt (fun t => Vc a.acc (p.set a t) P) (Vc (tensor a a) p P) (p.coord a) := by
  cases a
  · exact hasDerivAt_Ve_e hP h
  · refine hasDerivAt_swap .en (hasDerivAt_Ve_e (hP.swap .en) ?_)
    exact fun h' => h ((closedFaces_swap p P .n .en).mp h')
  · refine hasDerivAt_swap .eu (hasDerivAt_Ve_e (hP.swap .eu) ?_)
    exact fun h' => h ((closedFaces_swap p P .u .eu).mp h')

theorem hasDerivWithinAt_swap {c d : GComp} {a : Axis} {p : Pt} {P : Box} {S : Set ℝ} (s : Swap)
    (h : HasDerivWithinAt (fun t => Vc (c.swap s) ((p.swap s).set (a.swap s) t) (P.swap s))
      (Vc (d.swap s) (p.swap s) (P.swap s)) S ((p.swap s).coord (a.swap s))) :
    HasDerivWithinAt (fun t => Vc c (p.set a t) P) (Vc d p P) S (p.coord a) := by
  rw [Vc_swap, Pt.coord_swap] at h
  simpa only [← Pt.set_swap, Vc_swap] using h

theorem hasDerivWithinAt_Vacc_hi (a : Axis) {p : Pt} {P : Box} (hP : P.Ordered) (hx : P.lo a < P.hi a)
    (h : p ∈ P.faceHi a) : HasDerivWithinAt (fun t => Vc a.acc (p.set a t) P) (Vc (tensor a a) p P)
      (Set.Ici (p.coord a)) (p.coord a) := by
  cases a
  · exact hasDerivWithinAt_Ve_east hP hx h
  · exact hasDerivWithinAt_swap .en (hasDerivWithinAt_Ve_east (hP.swap .en) hx
      ((faceHi_swap p P .n .en).mpr h))
  · exact hasDerivWithinAt_swap .eu (hasDerivWithinAt_Ve_east (hP.swap .eu) hx
      ((faceHi_swap p P .u .eu).mpr h))

theorem hasDerivWithinAt_Vacc_lo (a : Axis) {p : Pt} {P : Box} (hP : P.Ordered) (hx : P.lo a < P.hi a)
    (h : p ∈ P.faceLo a) : HasDerivWithinAt (fun t => Vc a.acc (p.set a t) P) (Vc (tensor a a) p P)
      (Set.Iic (p.coord a)) (p.coord a) := by
  cases a
  · exact hasDerivWithinAt_Ve_west hP hx h
  · exact hasDerivWithinAt_swap .en (hasDerivWithinAt_Ve_west (hP.swap .en) hx
      ((faceLo_swap p P .n .en).mpr h))
  · exact hasDerivWithinAt_swap .eu (hasDerivWithinAt_Ve_west (hP.swap .eu) hx
      ((faceLo_swap p P .u .eu).mpr h))

end Choclo
