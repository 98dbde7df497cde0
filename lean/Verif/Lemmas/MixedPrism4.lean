import Verif.Lemmas.MixedPrism3

/-! # Error analysis of the prism functions for calls with float32 arguments -/

namespace Choclo

variable {S D : Arith} {u : ℝ}

set_option linter.unusedSimpArgs false

open Classical

theorem mixed_faces {e n up w E s N b t : MFl S D} {p : Pt} {P : Box} (hA : ArePrism e n up w E s N b t p P) :
    (Mixed.prism.is_point_on_east_face e n up w E s N b t = true ↔ p ∈ P.faceEast) ∧
    (Mixed.prism.is_point_on_north_face e n up w E s N b t = true ↔ p ∈ P.faceNorth) ∧
    (Mixed.prism.is_point_on_top_face e n up w E s N b t = true ↔ p ∈ P.faceTop) := by
  have k := faces_any (A := D) p P
  rw [Mixed.is_point_on_east_face64, Mixed.is_point_on_north_face64, Mixed.is_point_on_top_face64]
  rw [show e.toD = _ from hA.e, show n.toD = _ from hA.n, show up.toD = _ from hA.u, show w.toD = _ from hA.w,
    show E.toD = _ from hA.E, show s.toD = _ from hA.s, show N.toD = _ from hA.N, show b.toD = _ from hA.b,
    show t.toD = _ from hA.t]
  exact k

theorem mixed_edges {e n up w E s N b t : MFl S D} {p : Pt} {P : Box} (hA : ArePrism e n up w E s N b t p P) :
    (Mixed.prism.is_point_on_easting_edge e n up w E s N b t = true ↔ p ∈ P.edgesE) ∧
    (Mixed.prism.is_point_on_northing_edge e n up w E s N b t = true ↔ p ∈ P.edgesN) ∧
    (Mixed.prism.is_point_on_upward_edge e n up w E s N b t = true ↔ p ∈ P.edgesU) := by
  have k := (C18_edges_by_direction (A := D) p P).2
  rw [Mixed.is_point_on_easting_edge64, Mixed.is_point_on_northing_edge64, Mixed.is_point_on_upward_edge64]
  rw [show e.toD = _ from hA.e, show n.toD = _ from hA.n, show up.toD = _ from hA.u, show w.toD = _ from hA.w,
    show E.toD = _ from hA.E, show s.toD = _ from hA.s, show N.toD = _ from hA.N, show b.toD = _ from hA.b,
    show t.toD = _ from hA.t]
  exact k

theorem mixed_bad {e n up w E s N b t : MFl S D} {p : Pt} {P : Box} (hA : ArePrism e n up w E s N b t p P)
    (hp : p ∉ P.edges) (hp' : p ∉ P.inside) :
    ¬(Mixed.prism.is_point_on_edge e n up w E s N b t || Mixed.prism.is_interior_point e n up w E s N b t) = true := by
  have k := edge_inside_any (A := D) p P hp hp'
  rw [Mixed.is_point_on_edge64, Mixed.is_interior_point64]
  rw [show e.toD = _ from hA.e, show n.toD = _ from hA.n, show up.toD = _ from hA.u, show w.toD = _ from hA.w,
    show E.toD = _ from hA.E, show s.toD = _ from hA.s, show N.toD = _ from hA.N, show b.toD = _ from hA.b,
    show t.toD = _ from hA.t]
  exact k

namespace BothAccurate

open Arith.Accurate (dk ks Sv Dv_alt dk_eq dk_third Sv_ks)

variable (h : BothAccurate S D u (2 ^ (-126 : ℤ)) (2 ^ (127 : ℤ)) (2 ^ (-1022 : ℤ)) (2 ^ (1023 : ℤ)))
variable (hS : S.LibmAccurate u (2 ^ (-126 : ℤ)) (2 ^ (127 : ℤ)))
  (hD : D.LibmAccurate u (2 ^ (-1022 : ℤ)) (2 ^ (1023 : ℤ)))
variable {e n up w E s N b t : MFl S D} {p : Pt} {P : Box} (hA : ArePrism e n up w E s N b t p P)
  (hm : ShortOffsets p P)
include h hS hD hA hm

theorem gravity_err {c : GComp} (hP : P.Ordered) (hp : p ∉ P.singular c) {vρ : MFl S D} {ρ : ℝ} (rρ : vρ.IsReal ρ)
    (hρ : Mag (-80) 80 ρ) :
    ∃ v : Fl D, Mixed.prismGravity c e n up w E s N b t vρ = .ok (.f64 v) ∧
      AbsApprox u 38 v (Gc * ρ * Vc c p P) (|Gc * ρ| * (Sv (ks c.kernel) p P + |corr c p P|)) := by
  have hgm := Mag.gc.mul hρ
  have hev : ∃ v : Fl D, Mixed.prism._evaluate_kernel e n up w E s N b t (Mixed.prismKernel c.kernel) = .ok (.f64 v) ∧
      AbsApprox u 34 v (Dv (Kc c) p P) (Sv (ks c.kernel) p P) ∧ Mag (-800) 807 (Sv (ks c.kernel) p P) := by
    rw [← dk_eq]
    apply h.evaluate_err hS hD hA hm
    cases c
    all_goals first
      | exact .inl trivial
      | (right; intro x y z hx hy hz; apply Ex.rad_ne_zero hP _ hx hy hz
         simp only [Box.singular, Set.mem_union, not_or] at hp; tauto)
  obtain ⟨v, ev, av, mv⟩ := hev
  have hn := h.double.absNonneg av
  have a4 := h.double.four_pi hD
  have m4 : Mag 3 4 (4 * Real.pi) := Mag.fourpi
  have ms := mv.add (m4.abs.weaken (by norm_num) (by norm_num)) hn (abs_nonneg _)
  have a1 := h.double.absAdd av (h.double.toAbs a4) (ms.safe (by norm_num) (by norm_num)) (by norm_num)
  have g := h.double.gm (m := ρ) (Mag.gc.safe (by norm_num) (by norm_num)) (hgm.safe (by norm_num) (by norm_num))
  have f0 := h.double.absMul (h.double.toAbs g) av ((hgm.abs.mul mv).safe (by norm_num) (by norm_num)) (by norm_num)
  have f1 := h.double.absMul (h.double.toAbs g) a1 ((hgm.abs.mul ms).safe (by norm_num) (by norm_num)) (by norm_num)
  have f0' := h.double.absMono (l := 38) (by norm_num) le_rfl f0
  have f1' := h.double.absMono (l := 38) (by norm_num) le_rfl f1
  obtain ⟨e1, e2, e3⟩ := mixed_edges hA
  obtain ⟨k1, k2, k3⟩ := mixed_faces hA
  unfold MFl.IsReal at rρ
  have fin0 : ∀ call : Py (MFl S D), call = .ok (Mixed.GRAVITATIONAL_CONST * vρ * .f64 v) →
      call = .ok (.f64 (GRAVITATIONAL_CONST * (ρ : Fl D) * v)) := by
    rintro call rfl
    simp only [Mixed.G_eq, MFl.f64_mul, MFl.toD_f64, rρ]
  have fin1 : ∀ call : Py (MFl S D), call = .ok (Mixed.GRAVITATIONAL_CONST * vρ * (.f64 v + 4 * MFl.pi)) →
      call = .ok (.f64 (GRAVITATIONAL_CONST * (ρ : Fl D) * (v + 4 * Fl.pi))) := by
    rintro call rfl
    simp only [Mixed.G_eq, MFl.f64_mul, MFl.f64_add, MFl.pi_eq, MFl.ofNat_eq, MFl.toD_f64, rρ]
  cases c <;> simp only [GComp.kernel, Mixed.prismKernel] at ev <;>
    simp only [Box.singular, Set.mem_union, not_or] at hp <;>
    simp only [Mixed.prismGravity, Vc, corr, abs_zero, add_zero]
  case pot => exact ⟨_, fin0 _ (by unfold Mixed.prism.gravity_pot; rw [ev, Ex.ok_bind]; rfl), f0'⟩
  case e => exact ⟨_, fin0 _ (by unfold Mixed.prism.gravity_e; rw [ev, Ex.ok_bind]; rfl), f0'⟩
  case n => exact ⟨_, fin0 _ (by unfold Mixed.prism.gravity_n; rw [ev, Ex.ok_bind]; rfl), f0'⟩
  case u => exact ⟨_, fin0 _ (by unfold Mixed.prism.gravity_u; rw [ev, Ex.ok_bind]; rfl), f0'⟩
  case en =>
    refine ⟨_, fin0 _ ?_, f0'⟩
    unfold Mixed.prism.gravity_en; rw [if_neg (by rw [e3]; exact hp), ev, Ex.ok_bind]; rfl
  case eu =>
    refine ⟨_, fin0 _ ?_, f0'⟩
    unfold Mixed.prism.gravity_eu; rw [if_neg (by rw [e2]; exact hp), ev, Ex.ok_bind]; rfl
  case nu =>
    refine ⟨_, fin0 _ ?_, f0'⟩
    unfold Mixed.prism.gravity_nu; rw [if_neg (by rw [e1]; exact hp), ev, Ex.ok_bind]; rfl
  case ee =>
    unfold Mixed.prism.gravity_ee; rw [if_neg (by rw [Bool.or_eq_true, e2, e3]; rintro (hh | hh) <;> first | exact hp.1 hh | exact hp.2 hh), ev, Ex.ok_bind]
    by_cases hf : p ∈ P.faceEast
    · rw [if_pos (k1.2 hf), if_pos hf]
      exact ⟨_, fin1 _ rfl, f1'⟩
    · rw [if_neg (by rw [k1]; exact hf), if_neg hf, abs_zero, add_zero, add_zero]
      exact ⟨_, fin0 _ rfl, f0'⟩
  case nn =>
    unfold Mixed.prism.gravity_nn; rw [if_neg (by rw [Bool.or_eq_true, e1, e3]; rintro (hh | hh) <;> first | exact hp.1 hh | exact hp.2 hh), ev, Ex.ok_bind]
    by_cases hf : p ∈ P.faceNorth
    · rw [if_pos (k2.2 hf), if_pos hf]
      exact ⟨_, fin1 _ rfl, f1'⟩
    · rw [if_neg (by rw [k2]; exact hf), if_neg hf, abs_zero, add_zero, add_zero]
      exact ⟨_, fin0 _ rfl, f0'⟩
  case uu =>
    unfold Mixed.prism.gravity_uu; rw [if_neg (by rw [Bool.or_eq_true, e1, e2]; rintro (hh | hh) <;> first | exact hp.1 hh | exact hp.2 hh), ev, Ex.ok_bind]
    by_cases hf : p ∈ P.faceTop
    · rw [if_pos (k3.2 hf), if_pos hf]
      exact ⟨_, fin1 _ rfl, f1'⟩
    · rw [if_neg (by rw [k3]; exact hf), if_neg hf, abs_zero, add_zero, add_zero]
      exact ⟨_, fin0 _ rfl, f0'⟩

theorem magnetic_err {c : MComp} (hP : P.Ordered) (hp : p ∉ P.edges) (hp' : p ∉ P.inside)
    {vMe vMn vMu : MFl S D} {Me Mn Mu : ℝ} (rMe : vMe.IsReal Me) (rMn : vMn.IsReal Mn) (rMu : vMu.IsReal Mu)
    (hMe : Mag (-80) 80 Me) (hMn : Mag (-80) 80 Mn) (hMu : Mag (-80) 80 Mu) :
    ∃ v : Fl D, Mixed.prismMagnetic c e n up w E s N b t vMe vMn vMu = .ok (.f64 v) ∧
      AbsApprox u 43 v (mu0 / 4 / Real.pi * Bc c p P Me Mn Mu)
        (mu0 / 4 / Real.pi * (|Me| * totalSize (c.kernel .e) p P + |Mn| * totalSize (c.kernel .n) p P
          + |Mu| * totalSize (c.kernel .u) p P)) := by
  have h0 : ∀ x y z, (x = P.west - p.e ∨ x = P.east - p.e) → (y = P.south - p.n ∨ y = P.north - p.n) →
      (z = P.bottom - p.u ∨ z = P.top - p.u) → rad x y z ≠ 0 := fun x y z hx hy hz =>
    Ex.rad_ne_zero' hP (by tauto) hx hy hz
  have c1 : Mag (-20) (-19) mu0 := by right; unfold mu0; norm_num [abs_of_pos]
  have c2 := c1.div (show Mag 2 2 4 by right; norm_num)
  have c3 := c2.div Mag.pi
  have cmpos : 0 < mu0 / 4 / Real.pi := div_pos (div_pos mu0_pos (by norm_num)) Real.pi_pos
  obtain ⟨v0, _, ec, ew, ⟨w0, rfl⟩, hw⟩ := h.cm hD.pi (c1.safe (by norm_num) (by norm_num))
    (c2.safe (by norm_num) (by norm_num)) (c3.safe (by norm_num) (by norm_num))
  replace hw : Approx u 4 w0 (mu0 / 4 / Real.pi) := hw
  obtain ⟨k1, k2, k3⟩ := mixed_faces hA
  have hb := mixed_bad hA hp hp'
  have rMe' : vMe.toD = Fl.fin Me := rMe
  have rMn' : vMn.toD = Fl.fin Mn := rMn
  have rMu' : vMu.toD = Fl.fin Mu := rMu
  cases c <;> simp only [Mixed.prismMagnetic]
  case e =>
    obtain ⟨v, ev, av, mv⟩ := h.component_err hS hD hA hm (c1 := MComp.kernel .e .e) (c2 := MComp.kernel .e .n)
      (c3 := MComp.kernel .e .u) h0 rMe rMn rMu hMe hMn hMu
    simp only [MComp.kernel, Mixed.prismKernel] at ev
    simp only [MComp.kernel] at av mv
    have hn := h.double.absNonneg av
    have f0 := h.double.absMono (l := 43) (by norm_num) le_rfl (h.double.absMul (h.double.toAbs hw) av
      ((c3.abs.mul mv).safe (by norm_num) (by norm_num)) (by norm_num))
    have m4 : Mag (-77) 84 (4 * Real.pi * Me) := (Mag.fourpi.mul hMe).weaken (by norm_num) (by norm_num)
    have a4 := h.double.toAbs (h.double.mul (h.double.four_pi hD) (h.double.exact Me) (m4.safe (by norm_num) (by norm_num)) (by norm_num))
    have ms := mv.add (m4.abs.weaken (by norm_num) (by norm_num)) hn (abs_nonneg _)
    have a5 := h.double.absAdd av a4 (ms.safe (by norm_num) (by norm_num)) (by norm_num)
    have f1 := h.double.absMono (l := 43) (by norm_num) le_rfl (h.double.absMul (h.double.toAbs hw) a5
      ((c3.abs.mul ms).safe (by norm_num) (by norm_num)) (by norm_num))
    unfold Mixed.prism.magnetic_e
    rw [if_neg hb, ev, Ex.ok_bind]
    by_cases hf : p ∈ P.faceEast
    · rw [if_pos (k1.2 hf)]; simp only [ec, ew, Ex.ok_bind]
      refine ⟨w0 * (v + 4 * Fl.pi * (Me : Fl D)), by simp only [MFl.f64_mul, MFl.f64_add, MFl.toD_f64, MFl.pi_eq, MFl.ofNat_eq, rMe', rMn', rMu']; rfl, ?_⟩
      convert f1 using 1
      · simp only [Bc, Wc, Vc, corr, MComp.kernel, if_pos hf, ← dk_eq, GComp.kernel]; ring
      · rw [abs_of_pos cmpos]
        simp [totalSize, MComp.kernel, hf, ← Sv_ks, abs_mul, abs_of_pos Real.pi_pos]; left; ring
    · rw [if_neg (by rw [k1]; exact hf)]; simp only [ec, ew, Ex.ok_bind]
      refine ⟨w0 * v, by simp only [MFl.f64_mul, MFl.f64_add, MFl.toD_f64, MFl.pi_eq, MFl.ofNat_eq, rMe', rMn', rMu']; rfl, ?_⟩
      convert f0 using 1
      · simp only [Bc, Wc, Vc, corr, MComp.kernel, if_neg hf, ← dk_eq, GComp.kernel]; ring
      · rw [abs_of_pos cmpos]
        simp [totalSize, MComp.kernel, hf, ← Sv_ks]
  case n =>
    obtain ⟨v, ev, av, mv⟩ := h.component_err hS hD hA hm (c1 := MComp.kernel .n .e) (c2 := MComp.kernel .n .n)
      (c3 := MComp.kernel .n .u) h0 rMe rMn rMu hMe hMn hMu
    simp only [MComp.kernel, Mixed.prismKernel] at ev
    simp only [MComp.kernel] at av mv
    have hn := h.double.absNonneg av
    have f0 := h.double.absMono (l := 43) (by norm_num) le_rfl (h.double.absMul (h.double.toAbs hw) av
      ((c3.abs.mul mv).safe (by norm_num) (by norm_num)) (by norm_num))
    have m4 : Mag (-77) 84 (4 * Real.pi * Mn) := (Mag.fourpi.mul hMn).weaken (by norm_num) (by norm_num)
    have a4 := h.double.toAbs (h.double.mul (h.double.four_pi hD) (h.double.exact Mn) (m4.safe (by norm_num) (by norm_num)) (by norm_num))
    have ms := mv.add (m4.abs.weaken (by norm_num) (by norm_num)) hn (abs_nonneg _)
    have a5 := h.double.absAdd av a4 (ms.safe (by norm_num) (by norm_num)) (by norm_num)
    have f1 := h.double.absMono (l := 43) (by norm_num) le_rfl (h.double.absMul (h.double.toAbs hw) a5
      ((c3.abs.mul ms).safe (by norm_num) (by norm_num)) (by norm_num))
    unfold Mixed.prism.magnetic_n
    rw [if_neg hb, ev, Ex.ok_bind]
    by_cases hf : p ∈ P.faceNorth
    · rw [if_pos (k2.2 hf)]; simp only [ec, ew, Ex.ok_bind]
      refine ⟨w0 * (v + 4 * Fl.pi * (Mn : Fl D)), by simp only [MFl.f64_mul, MFl.f64_add, MFl.toD_f64, MFl.pi_eq, MFl.ofNat_eq, rMe', rMn', rMu']; rfl, ?_⟩
      convert f1 using 1
      · simp only [Bc, Wc, Vc, corr, MComp.kernel, if_pos hf, ← dk_eq, GComp.kernel]; ring
      · rw [abs_of_pos cmpos]
        simp [totalSize, MComp.kernel, hf, ← Sv_ks, abs_mul, abs_of_pos Real.pi_pos]; left; ring
    · rw [if_neg (by rw [k2]; exact hf)]; simp only [ec, ew, Ex.ok_bind]
      refine ⟨w0 * v, by simp only [MFl.f64_mul, MFl.f64_add, MFl.toD_f64, MFl.pi_eq, MFl.ofNat_eq, rMe', rMn', rMu']; rfl, ?_⟩
      convert f0 using 1
      · simp only [Bc, Wc, Vc, corr, MComp.kernel, if_neg hf, ← dk_eq, GComp.kernel]; ring
      · rw [abs_of_pos cmpos]
        simp [totalSize, MComp.kernel, hf, ← Sv_ks]
  case u =>
    obtain ⟨v, ev, av, mv⟩ := h.component_err hS hD hA hm (c1 := MComp.kernel .u .e) (c2 := MComp.kernel .u .n)
      (c3 := MComp.kernel .u .u) h0 rMe rMn rMu hMe hMn hMu
    simp only [MComp.kernel, Mixed.prismKernel] at ev
    simp only [MComp.kernel] at av mv
    have hn := h.double.absNonneg av
    have f0 := h.double.absMono (l := 43) (by norm_num) le_rfl (h.double.absMul (h.double.toAbs hw) av
      ((c3.abs.mul mv).safe (by norm_num) (by norm_num)) (by norm_num))
    have m4 : Mag (-77) 84 (4 * Real.pi * Mu) := (Mag.fourpi.mul hMu).weaken (by norm_num) (by norm_num)
    have a4 := h.double.toAbs (h.double.mul (h.double.four_pi hD) (h.double.exact Mu) (m4.safe (by norm_num) (by norm_num)) (by norm_num))
    have ms := mv.add (m4.abs.weaken (by norm_num) (by norm_num)) hn (abs_nonneg _)
    have a5 := h.double.absAdd av a4 (ms.safe (by norm_num) (by norm_num)) (by norm_num)
    have f1 := h.double.absMono (l := 43) (by norm_num) le_rfl (h.double.absMul (h.double.toAbs hw) a5
      ((c3.abs.mul ms).safe (by norm_num) (by norm_num)) (by norm_num))
    unfold Mixed.prism.magnetic_u
    rw [if_neg hb, ev, Ex.ok_bind]
    by_cases hf : p ∈ P.faceTop
    · rw [if_pos (k3.2 hf)]; simp only [ec, ew, Ex.ok_bind]
      refine ⟨w0 * (v + 4 * Fl.pi * (Mu : Fl D)), by simp only [MFl.f64_mul, MFl.f64_add, MFl.toD_f64, MFl.pi_eq, MFl.ofNat_eq, rMe', rMn', rMu']; rfl, ?_⟩
      convert f1 using 1
      · simp only [Bc, Wc, Vc, corr, MComp.kernel, if_pos hf, ← dk_eq, GComp.kernel]; ring
      · rw [abs_of_pos cmpos]
        simp [totalSize, MComp.kernel, hf, ← Sv_ks, abs_mul, abs_of_pos Real.pi_pos]; left; ring
    · rw [if_neg (by rw [k3]; exact hf)]; simp only [ec, ew, Ex.ok_bind]
      refine ⟨w0 * v, by simp only [MFl.f64_mul, MFl.f64_add, MFl.toD_f64, MFl.pi_eq, MFl.ofNat_eq, rMe', rMn', rMu']; rfl, ?_⟩
      convert f0 using 1
      · simp only [Bc, Wc, Vc, corr, MComp.kernel, if_neg hf, ← dk_eq, GComp.kernel]; ring
      · rw [abs_of_pos cmpos]
        simp [totalSize, MComp.kernel, hf, ← Sv_ks]
  case ee =>
    obtain ⟨v, ev, av, mv⟩ := h.component_err hS hD hA hm (c1 := MComp.kernel .ee .e) (c2 := MComp.kernel .ee .n)
      (c3 := MComp.kernel .ee .u) h0 rMe rMn rMu hMe hMn hMu
    simp only [MComp.kernel, Mixed.prismKernel] at ev
    simp only [MComp.kernel] at av mv
    have f0 := h.double.absMono (l := 43) (by norm_num) le_rfl (h.double.absMul (h.double.toAbs hw) av
      ((c3.abs.mul mv).safe (by norm_num) (by norm_num)) (by norm_num))
    unfold Mixed.prism.magnetic_ee
    rw [if_neg hb, ev, Ex.ok_bind, ec, Ex.ok_bind, ew, Ex.ok_bind]
    refine ⟨w0 * v, by simp only [MFl.f64_mul, MFl.f64_add, MFl.toD_f64, MFl.pi_eq, MFl.ofNat_eq, rMe', rMn', rMu']; rfl, ?_⟩
    convert f0 using 1
    · simp only [Bc, Wc, MComp.kernel, ← dk_third, TComp.kernel]
    · rw [abs_of_pos cmpos]
      simp [totalSize, MComp.kernel, ← Sv_ks]
  case nn =>
    obtain ⟨v, ev, av, mv⟩ := h.component_err hS hD hA hm (c1 := MComp.kernel .nn .e) (c2 := MComp.kernel .nn .n)
      (c3 := MComp.kernel .nn .u) h0 rMe rMn rMu hMe hMn hMu
    simp only [MComp.kernel, Mixed.prismKernel] at ev
    simp only [MComp.kernel] at av mv
    have f0 := h.double.absMono (l := 43) (by norm_num) le_rfl (h.double.absMul (h.double.toAbs hw) av
      ((c3.abs.mul mv).safe (by norm_num) (by norm_num)) (by norm_num))
    unfold Mixed.prism.magnetic_nn
    rw [if_neg hb, ev, Ex.ok_bind, ec, Ex.ok_bind, ew, Ex.ok_bind]
    refine ⟨w0 * v, by simp only [MFl.f64_mul, MFl.f64_add, MFl.toD_f64, MFl.pi_eq, MFl.ofNat_eq, rMe', rMn', rMu']; rfl, ?_⟩
    convert f0 using 1
    · simp only [Bc, Wc, MComp.kernel, ← dk_third, TComp.kernel]
    · rw [abs_of_pos cmpos]
      simp [totalSize, MComp.kernel, ← Sv_ks]
  case uu =>
    obtain ⟨v, ev, av, mv⟩ := h.component_err hS hD hA hm (c1 := MComp.kernel .uu .e) (c2 := MComp.kernel .uu .n)
      (c3 := MComp.kernel .uu .u) h0 rMe rMn rMu hMe hMn hMu
    simp only [MComp.kernel, Mixed.prismKernel] at ev
    simp only [MComp.kernel] at av mv
    have f0 := h.double.absMono (l := 43) (by norm_num) le_rfl (h.double.absMul (h.double.toAbs hw) av
      ((c3.abs.mul mv).safe (by norm_num) (by norm_num)) (by norm_num))
    unfold Mixed.prism.magnetic_uu
    rw [if_neg hb, ev, Ex.ok_bind, ec, Ex.ok_bind, ew, Ex.ok_bind]
    refine ⟨w0 * v, by simp only [MFl.f64_mul, MFl.f64_add, MFl.toD_f64, MFl.pi_eq, MFl.ofNat_eq, rMe', rMn', rMu']; rfl, ?_⟩
    convert f0 using 1
    · simp only [Bc, Wc, MComp.kernel, ← dk_third, TComp.kernel]
    · rw [abs_of_pos cmpos]
      simp [totalSize, MComp.kernel, ← Sv_ks]
  case en =>
    obtain ⟨v, ev, av, mv⟩ := h.component_err hS hD hA hm (c1 := MComp.kernel .en .e) (c2 := MComp.kernel .en .n)
      (c3 := MComp.kernel .en .u) h0 rMe rMn rMu hMe hMn hMu
    simp only [MComp.kernel, Mixed.prismKernel] at ev
    simp only [MComp.kernel] at av mv
    have f0 := h.double.absMono (l := 43) (by norm_num) le_rfl (h.double.absMul (h.double.toAbs hw) av
      ((c3.abs.mul mv).safe (by norm_num) (by norm_num)) (by norm_num))
    unfold Mixed.prism.magnetic_en
    rw [if_neg hb, ev, Ex.ok_bind, ec, Ex.ok_bind, ew, Ex.ok_bind]
    refine ⟨w0 * v, by simp only [MFl.f64_mul, MFl.f64_add, MFl.toD_f64, MFl.pi_eq, MFl.ofNat_eq, rMe', rMn', rMu']; rfl, ?_⟩
    convert f0 using 1
    · simp only [Bc, Wc, MComp.kernel, ← dk_third, TComp.kernel]
    · rw [abs_of_pos cmpos]
      simp [totalSize, MComp.kernel, ← Sv_ks]
  case eu =>
    obtain ⟨v, ev, av, mv⟩ := h.component_err hS hD hA hm (c1 := MComp.kernel .eu .e) (c2 := MComp.kernel .eu .n)
      (c3 := MComp.kernel .eu .u) h0 rMe rMn rMu hMe hMn hMu
    simp only [MComp.kernel, Mixed.prismKernel] at ev
    simp only [MComp.kernel] at av mv
    have f0 := h.double.absMono (l := 43) (by norm_num) le_rfl (h.double.absMul (h.double.toAbs hw) av
      ((c3.abs.mul mv).safe (by norm_num) (by norm_num)) (by norm_num))
    unfold Mixed.prism.magnetic_eu
    rw [if_neg hb, ev, Ex.ok_bind, ec, Ex.ok_bind, ew, Ex.ok_bind]
    refine ⟨w0 * v, by simp only [MFl.f64_mul, MFl.f64_add, MFl.toD_f64, MFl.pi_eq, MFl.ofNat_eq, rMe', rMn', rMu']; rfl, ?_⟩
    convert f0 using 1
    · simp only [Bc, Wc, MComp.kernel, ← dk_third, TComp.kernel]
    · rw [abs_of_pos cmpos]
      simp [totalSize, MComp.kernel, ← Sv_ks]
  case nu =>
    obtain ⟨v, ev, av, mv⟩ := h.component_err hS hD hA hm (c1 := MComp.kernel .nu .e) (c2 := MComp.kernel .nu .n)
      (c3 := MComp.kernel .nu .u) h0 rMe rMn rMu hMe hMn hMu
    simp only [MComp.kernel, Mixed.prismKernel] at ev
    simp only [MComp.kernel] at av mv
    have f0 := h.double.absMono (l := 43) (by norm_num) le_rfl (h.double.absMul (h.double.toAbs hw) av
      ((c3.abs.mul mv).safe (by norm_num) (by norm_num)) (by norm_num))
    unfold Mixed.prism.magnetic_nu
    rw [if_neg hb, ev, Ex.ok_bind, ec, Ex.ok_bind, ew, Ex.ok_bind]
    refine ⟨w0 * v, by simp only [MFl.f64_mul, MFl.f64_add, MFl.toD_f64, MFl.pi_eq, MFl.ofNat_eq, rMe', rMn', rMu']; rfl, ?_⟩
    convert f0 using 1
    · simp only [Bc, Wc, MComp.kernel, ← dk_third, TComp.kernel]
    · rw [abs_of_pos cmpos]
      simp [totalSize, MComp.kernel, ← Sv_ks]

end BothAccurate
end Choclo
