import Verif.Props.Infinite
import Verif.Lemmas.PrismEval
import Verif.Spec.PrismSym
import Mathlib.Analysis.SpecificLimits.Basic

/-! # C103: semi-infinite prisms and the diagonal tensor components -/

set_option linter.unusedSimpArgs false
set_option linter.unusedTactic false
set_option linter.unreachableTactic false

namespace Choclo

open Filter Topology

/-- the arctangent kernel vanishes at infinity -/
theorem Tk_tendsto (y z : ℝ) {l : Filter ℝ} (hl : Tendsto (fun x : ℝ => |x|) l atTop) :
    Tendsto (fun x => Tk x y z) l (𝓝 0) := by
  have h2 : Tendsto (fun x => |x * rad x y z|) l atTop := by
    refine tendsto_atTop_mono' l ?_ hl
    filter_upwards [hl.eventually (eventually_ge_atTop 1)] with x hx
    rw [abs_mul, abs_of_nonneg (rad_nonneg x y z)]
    have := abs_le_rad x y z
    nlinarith
  have h3 : Tendsto (fun x => y * z / (x * rad x y z)) l (𝓝 0) := by
    rw [tendsto_zero_iff_abs_tendsto_zero]
    have := (tendsto_const_nhds (x := |y * z|)).div_atTop h2
    refine this.congr fun x => ?_
    simp [abs_div]
  have h4 : Tendsto (fun x => Real.arctan (y * z / (x * rad x y z))) l (𝓝 0) := by
    have := (Real.continuous_arctan.tendsto 0).comp h3
    rwa [Real.arctan_zero] at this
  refine h4.congr' ?_
  filter_upwards [hl.eventually (eventually_ge_atTop 1)] with x hx
  have : x ≠ 0 := by rintro rfl; norm_num at hx
  rw [Tk, if_neg this]

theorem Tk_tendsto' (y z : ℝ) {f : ℝ → ℝ} {l : Filter ℝ} (hf : Tendsto (fun x => |f x|) l atTop) :
    Tendsto (fun x => Tk (f x) y z) l (𝓝 0) :=
  (Tk_tendsto y z (l := l.map f) (by rwa [tendsto_map'_iff])).comp tendsto_map

theorem shift_atBot (a : ℝ) : Tendsto (fun w : ℝ => |w - a|) atBot atTop :=
  tendsto_abs_atBot_atTop.comp (tendsto_atBot_add_const_right _ (-a) tendsto_id)
theorem shift_atTop (a : ℝ) : Tendsto (fun w : ℝ => |w - a|) atTop atTop :=
  tendsto_abs_atTop_atTop.comp (tendsto_atTop_add_const_right _ (-a) tendsto_id)

namespace Ex
open prism

theorem kernel_ee_at_inf (s : Bool) (y z : ℝ) : vker kernel_ee (Fl.inf s) (xf y) (xf z) = .ok (xf 0) := by
  have h : vrad (Fl.inf s) (xf y) (xf z) = (Fl.inf false : Fl Exact) := by cases s <;> rfl
  unfold vker kernel_ee
  rw [h, if_neg (by rw [show Fl.eq (Fl.inf false : Fl Exact) 0 = false from rfl]; simp)]
  cases s <;>
  · show Except.ok (xf (-Real.arctan 0)) = _
    simp

theorem kernel_nn_at_inf (s : Bool) (x z : ℝ) : vker kernel_nn (xf x) (Fl.inf s) (xf z) = .ok (xf 0) := by
  have h : vrad (xf x) (Fl.inf s) (xf z) = (Fl.inf false : Fl Exact) := by cases s <;> rfl
  unfold vker kernel_nn
  rw [h, if_neg (by rw [show Fl.eq (Fl.inf false : Fl Exact) 0 = false from rfl]; simp)]
  cases s <;>
  · show Except.ok (xf (-Real.arctan 0)) = _
    simp

theorem kernel_uu_at_inf (s : Bool) (x y : ℝ) : vker kernel_uu (xf x) (xf y) (Fl.inf s) = .ok (xf 0) := by
  have h : vrad (xf x) (xf y) (Fl.inf s) = (Fl.inf false : Fl Exact) := by cases s <;> rfl
  unfold vker kernel_uu
  rw [h, if_neg (by rw [show Fl.eq (Fl.inf false : Fl Exact) 0 = false from rfl]; simp)]
  cases s <;>
  · show Except.ok (xf (-Real.arctan 0)) = _
    simp

theorem eq_inf (x : ℝ) (s : Bool) : Fl.eq (xf x) (Fl.inf s) = false := rfl
theorem inf_sub_fin (s : Bool) (x : ℝ) : (Fl.inf s : Fl Exact) - xf x = Fl.inf s := rfl

end Ex

open Ex prism in
/-- **C103.** A prism that extends to infinity in the west: `prism.gravity_ee` with `prism_west = -np.inf` returns
the limit of its values for prisms that extend further and further. -/
theorem C103_west (P : Box) (hP : P.Ordered) (p : Pt) (ρ : ℝ)
    (h : ∀ w, w < p.e → p ∉ ({ P with west := w } : Box).singular .ee) :
    ∃ L, Returns (A := Exact) (prism.gravity_ee (p.e : Fl Exact) (p.n : Fl Exact) (p.u : Fl Exact) (Fl.inf true) (P.east : Fl Exact) (P.south : Fl Exact) (P.north : Fl Exact) (P.bottom : Fl Exact) (P.top : Fl Exact) ρ) L ∧
      ∀ ε > 0, ∃ W, ∀ w ≤ W,
        ReturnsWithin (onPrism (A := Exact) prism.gravity_ee p { P with west := w } ρ) L ε := by
  classical
  obtain ⟨w0, hw0, hw1⟩ : ∃ w0, w0 < p.e ∧ w0 ≤ P.west := ⟨min (p.e - 1) P.west, lt_of_le_of_lt (min_le_left _ _) (by linarith), min_le_right _ _⟩
  have hO : ∀ w, w ≤ P.west → ({ P with west := w } : Box).Ordered := by
    intro w hw
    obtain ⟨a, b, c⟩ := hP
    refine ⟨?_, ?_, ?_⟩ <;> first | assumption | exact hw.trans ‹_› | exact le_trans ‹_› hw
  have hr := @rad_ne_zero p { P with west := w0 } (hO w0 hw1) (by
    have := h w0 hw0
    simp only [Box.singular, Set.mem_union, not_or] at this
    tauto)
  set Q : Box := { P with west := w0 } with hQ
  have hk := fun x y z hx hy hz => kernel_ee_fin (x := x) (y := y) (z := z) (hr (x := x) (y := y) (z := z) hx hy hz)
  have e1 := northing_edge_iff p Q
  have e2 := upward_edge_iff p Q
  have e3 := east_face_iff p Q
  have hns := h w0 hw0
  rw [← hQ, Box.singular, Set.mem_union, not_or, ← e1, ← e2] at hns
  obtain ⟨n1, n2⟩ := hns
  unfold onPrism at n1 n2 e3
  have i1 : is_point_on_northing_edge (p.e : Fl Exact) (p.n : Fl Exact) (p.u : Fl Exact) (Fl.inf true) (P.east : Fl Exact) (P.south : Fl Exact) (P.north : Fl Exact) (P.bottom : Fl Exact) (P.top : Fl Exact) = false := by
    refine Bool.eq_false_iff.2 fun hh => n1 ?_
    rw [← hh]
    simp only [is_point_on_northing_edge, hQ, eq_inf]
    simp [hw0.ne, hw0.ne']
  have i2 : is_point_on_upward_edge (p.e : Fl Exact) (p.n : Fl Exact) (p.u : Fl Exact) (Fl.inf true) (P.east : Fl Exact) (P.south : Fl Exact) (P.north : Fl Exact) (P.bottom : Fl Exact) (P.top : Fl Exact) = false := by
    refine Bool.eq_false_iff.2 fun hh => n2 ?_
    rw [← hh]
    simp only [is_point_on_upward_edge, hQ, eq_inf]
    simp [hw0.ne, hw0.ne']
  have i3 : is_point_on_east_face (p.e : Fl Exact) (p.n : Fl Exact) (p.u : Fl Exact) (Fl.inf true) (P.east : Fl Exact) (P.south : Fl Exact) (P.north : Fl Exact) (P.bottom : Fl Exact) (P.top : Fl Exact) = true ↔ p ∈ Q.faceEast := by
    rw [← e3]
    simp only [is_point_on_east_face, hQ, eq_inf]
    try simp [hw0.ne, hw0.ne']
  set S : ℝ := (0 + (-Tk (P.east - p.e) (P.north - p.n) (P.top - p.u)) - (-Tk (P.east - p.e) (P.north - p.n) (P.bottom - p.u)) - (-Tk (P.east - p.e) (P.south - p.n) (P.top - p.u)) + (-Tk (P.east - p.e) (P.south - p.n) (P.bottom - p.u))) with hS
  have hV : ∀ w, w < p.e → Vc .ee p { P with west := w } = S + (0 - (-Tk (w - p.e) (P.north - p.n) (P.top - p.u)) + (-Tk (w - p.e) (P.north - p.n) (P.bottom - p.u)) + (-Tk (w - p.e) (P.south - p.n) (P.top - p.u)) - (-Tk (w - p.e) (P.south - p.n) (P.bottom - p.u))) + corr .ee p Q := by
    intro w hw
    have hc : corr .ee p { P with west := w } = corr .ee p Q := by
      have a1 : p ∈ Box.faceEast { P with west := w } ↔ p ∈ Q.faceEast := Iff.rfl
      simp only [corr, a1]
    rw [Vc, hc, Dv, D3, hS]
    simp only [Kc]
    ring
  refine ⟨Gc * ρ * (S + corr .ee p Q), ?_, ?_⟩
  · unfold prism.gravity_ee Returns
    rw [i1, i2, evaluate_kernel_unroll]
    simp only [sub_fin, inf_sub_fin, kernel_ee_at_inf]
    rw [hk _ _ _ (.inr rfl) (.inr rfl) (.inr rfl), hk _ _ _ (.inr rfl) (.inr rfl) (.inl rfl), hk _ _ _ (.inr rfl) (.inl rfl) (.inr rfl), hk _ _ _ (.inr rfl) (.inl rfl) (.inl rfl)]
    by_cases hf : p ∈ Q.faceEast
    · rw [i3.2 hf]
      simp [sgn, G_fin, corr, hf, hS]
      refine congrArg Fl.fin ?_
      ring
    · rw [Bool.eq_false_iff.2 fun hh => hf (i3.1 hh)]
      simp [sgn, G_fin, corr, hf, hS]
      refine congrArg Fl.fin ?_
      ring
  · intro ε hε
    have hlim : Tendsto (fun w => Gc * ρ * Vc .ee p { P with west := w }) atBot (𝓝 (Gc * ρ * (S + corr .ee p Q))) := by
      have h0 : Tendsto (fun w => Gc * ρ * (S + (0 - (-Tk (w - p.e) (P.north - p.n) (P.top - p.u)) + (-Tk (w - p.e) (P.north - p.n) (P.bottom - p.u)) + (-Tk (w - p.e) (P.south - p.n) (P.top - p.u)) - (-Tk (w - p.e) (P.south - p.n) (P.bottom - p.u))) + corr .ee p Q)) atBot (𝓝 (Gc * ρ * (S + 0 + corr .ee p Q))) := by
        refine Tendsto.const_mul _ (Tendsto.add_const _ (Tendsto.const_add _ ?_))
        have t := fun y z => (Tk_tendsto' y z (shift_atBot p.e)).neg
        have t4 := (((((tendsto_const_nhds (x := (0 : ℝ))).sub (t (P.north - p.n) (P.top - p.u))).add (t (P.north - p.n) (P.bottom - p.u))).add (t (P.south - p.n) (P.top - p.u))).sub (t (P.south - p.n) (P.bottom - p.u)))
        simpa using t4
      rw [add_zero] at h0
      refine h0.congr' ?_
      filter_upwards [eventually_lt_atBot p.e] with w hw
      rw [hV w hw]
    have hev := hlim.eventually (Metric.ball_mem_nhds _ hε)
    obtain ⟨W, hW⟩ := eventually_atBot.1 (hev.and (eventually_lt_atBot p.e))
    refine ⟨min W P.west, fun w hw => ?_⟩
    obtain ⟨hb, hc⟩ := hW w (hw.trans (min_le_left _ _))
    refine ⟨_, gravity_returns (c := .ee) (hO w (hw.trans (min_le_right _ _))) (h w hc) ρ, ?_⟩
    rw [Real.dist_eq] at hb
    exact hb.le

open Ex prism in
/-- **C103.** A prism that extends to infinity in the east: `prism.gravity_ee` with `prism_east = np.inf` returns
the limit of its values for prisms that extend further and further. -/
theorem C103_east (P : Box) (hP : P.Ordered) (p : Pt) (ρ : ℝ)
    (h : ∀ w, p.e < w → p ∉ ({ P with east := w } : Box).singular .ee) :
    ∃ L, Returns (A := Exact) (prism.gravity_ee (p.e : Fl Exact) (p.n : Fl Exact) (p.u : Fl Exact) (P.west : Fl Exact) (Fl.inf false) (P.south : Fl Exact) (P.north : Fl Exact) (P.bottom : Fl Exact) (P.top : Fl Exact) ρ) L ∧
      ∀ ε > 0, ∃ W, ∀ w ≥ W,
        ReturnsWithin (onPrism (A := Exact) prism.gravity_ee p { P with east := w } ρ) L ε := by
  classical
  obtain ⟨w0, hw0, hw1⟩ : ∃ w0, p.e < w0 ∧ P.east ≤ w0 := ⟨max (p.e + 1) P.east, lt_of_lt_of_le (by linarith) (le_max_left _ _), le_max_right _ _⟩
  have hO : ∀ w, P.east ≤ w → ({ P with east := w } : Box).Ordered := by
    intro w hw
    obtain ⟨a, b, c⟩ := hP
    refine ⟨?_, ?_, ?_⟩ <;> first | assumption | exact hw.trans ‹_› | exact le_trans ‹_› hw
  have hr := @rad_ne_zero p { P with east := w0 } (hO w0 hw1) (by
    have := h w0 hw0
    simp only [Box.singular, Set.mem_union, not_or] at this
    tauto)
  set Q : Box := { P with east := w0 } with hQ
  have hk := fun x y z hx hy hz => kernel_ee_fin (x := x) (y := y) (z := z) (hr (x := x) (y := y) (z := z) hx hy hz)
  have e1 := northing_edge_iff p Q
  have e2 := upward_edge_iff p Q
  have e3 := east_face_iff p Q
  have hns := h w0 hw0
  rw [← hQ, Box.singular, Set.mem_union, not_or, ← e1, ← e2] at hns
  obtain ⟨n1, n2⟩ := hns
  unfold onPrism at n1 n2 e3
  have i1 : is_point_on_northing_edge (p.e : Fl Exact) (p.n : Fl Exact) (p.u : Fl Exact) (P.west : Fl Exact) (Fl.inf false) (P.south : Fl Exact) (P.north : Fl Exact) (P.bottom : Fl Exact) (P.top : Fl Exact) = false := by
    refine Bool.eq_false_iff.2 fun hh => n1 ?_
    rw [← hh]
    simp only [is_point_on_northing_edge, hQ, eq_inf]
    simp [hw0.ne, hw0.ne']
  have i2 : is_point_on_upward_edge (p.e : Fl Exact) (p.n : Fl Exact) (p.u : Fl Exact) (P.west : Fl Exact) (Fl.inf false) (P.south : Fl Exact) (P.north : Fl Exact) (P.bottom : Fl Exact) (P.top : Fl Exact) = false := by
    refine Bool.eq_false_iff.2 fun hh => n2 ?_
    rw [← hh]
    simp only [is_point_on_upward_edge, hQ, eq_inf]
    simp [hw0.ne, hw0.ne']
  have i3 : is_point_on_east_face (p.e : Fl Exact) (p.n : Fl Exact) (p.u : Fl Exact) (P.west : Fl Exact) (Fl.inf false) (P.south : Fl Exact) (P.north : Fl Exact) (P.bottom : Fl Exact) (P.top : Fl Exact) = true ↔ p ∈ Q.faceEast := by
    rw [← e3]
    simp only [is_point_on_east_face, hQ, eq_inf]
    try simp [hw0.ne, hw0.ne']
  set S : ℝ := (0 - (-Tk (P.west - p.e) (P.north - p.n) (P.top - p.u)) + (-Tk (P.west - p.e) (P.north - p.n) (P.bottom - p.u)) + (-Tk (P.west - p.e) (P.south - p.n) (P.top - p.u)) - (-Tk (P.west - p.e) (P.south - p.n) (P.bottom - p.u))) with hS
  have hV : ∀ w, p.e < w → Vc .ee p { P with east := w } = S + (0 + (-Tk (w - p.e) (P.north - p.n) (P.top - p.u)) - (-Tk (w - p.e) (P.north - p.n) (P.bottom - p.u)) - (-Tk (w - p.e) (P.south - p.n) (P.top - p.u)) + (-Tk (w - p.e) (P.south - p.n) (P.bottom - p.u))) + corr .ee p Q := by
    intro w hw
    have hc : corr .ee p { P with east := w } = corr .ee p Q := by
      have a1 : ¬(p ∈ Box.faceEast { P with east := w }) := by
        simp [Box.faceEast, hw.ne]
      have a2 : ¬(p ∈ Box.faceEast { P with east := w0 }) := by
        simp [Box.faceEast, hw0.ne]
      exact (if_neg a1).trans (if_neg a2).symm
    rw [Vc, hc, Dv, D3, hS]
    simp only [Kc]
    ring
  refine ⟨Gc * ρ * (S + corr .ee p Q), ?_, ?_⟩
  · unfold prism.gravity_ee Returns
    rw [i1, i2, evaluate_kernel_unroll]
    simp only [sub_fin, inf_sub_fin, kernel_ee_at_inf]
    rw [hk _ _ _ (.inl rfl) (.inr rfl) (.inr rfl), hk _ _ _ (.inl rfl) (.inr rfl) (.inl rfl), hk _ _ _ (.inl rfl) (.inl rfl) (.inr rfl), hk _ _ _ (.inl rfl) (.inl rfl) (.inl rfl)]
    by_cases hf : p ∈ Q.faceEast
    · rw [i3.2 hf]
      simp [sgn, G_fin, corr, hf, hS]
      refine congrArg Fl.fin ?_
      ring
    · rw [Bool.eq_false_iff.2 fun hh => hf (i3.1 hh)]
      simp [sgn, G_fin, corr, hf, hS]
      refine congrArg Fl.fin ?_
      ring
  · intro ε hε
    have hlim : Tendsto (fun w => Gc * ρ * Vc .ee p { P with east := w }) atTop (𝓝 (Gc * ρ * (S + corr .ee p Q))) := by
      have h0 : Tendsto (fun w => Gc * ρ * (S + (0 + (-Tk (w - p.e) (P.north - p.n) (P.top - p.u)) - (-Tk (w - p.e) (P.north - p.n) (P.bottom - p.u)) - (-Tk (w - p.e) (P.south - p.n) (P.top - p.u)) + (-Tk (w - p.e) (P.south - p.n) (P.bottom - p.u))) + corr .ee p Q)) atTop (𝓝 (Gc * ρ * (S + 0 + corr .ee p Q))) := by
        refine Tendsto.const_mul _ (Tendsto.add_const _ (Tendsto.const_add _ ?_))
        have t := fun y z => (Tk_tendsto' y z (shift_atTop p.e)).neg
        have t4 := (((((tendsto_const_nhds (x := (0 : ℝ))).add (t (P.north - p.n) (P.top - p.u))).sub (t (P.north - p.n) (P.bottom - p.u))).sub (t (P.south - p.n) (P.top - p.u))).add (t (P.south - p.n) (P.bottom - p.u)))
        simpa using t4
      rw [add_zero] at h0
      refine h0.congr' ?_
      filter_upwards [eventually_gt_atTop p.e] with w hw
      rw [hV w hw]
    have hev := hlim.eventually (Metric.ball_mem_nhds _ hε)
    obtain ⟨W, hW⟩ := eventually_atTop.1 (hev.and (eventually_gt_atTop p.e))
    refine ⟨max W P.east, fun w hw => ?_⟩
    obtain ⟨hb, hc⟩ := hW w ((le_max_left _ _).trans hw)
    refine ⟨_, gravity_returns (c := .ee) (hO w ((le_max_right _ _).trans hw)) (h w hc) ρ, ?_⟩
    rw [Real.dist_eq] at hb
    exact hb.le

open Ex prism in
/-- **C103.** A prism that extends to infinity in the south: `prism.gravity_nn` with `prism_south = -np.inf` returns
the limit of its values for prisms that extend further and further. -/
theorem C103_south (P : Box) (hP : P.Ordered) (p : Pt) (ρ : ℝ)
    (h : ∀ w, w < p.n → p ∉ ({ P with south := w } : Box).singular .nn) :
    ∃ L, Returns (A := Exact) (prism.gravity_nn (p.e : Fl Exact) (p.n : Fl Exact) (p.u : Fl Exact) (P.west : Fl Exact) (P.east : Fl Exact) (Fl.inf true) (P.north : Fl Exact) (P.bottom : Fl Exact) (P.top : Fl Exact) ρ) L ∧
      ∀ ε > 0, ∃ W, ∀ w ≤ W,
        ReturnsWithin (onPrism (A := Exact) prism.gravity_nn p { P with south := w } ρ) L ε := by
  classical
  obtain ⟨w0, hw0, hw1⟩ : ∃ w0, w0 < p.n ∧ w0 ≤ P.south := ⟨min (p.n - 1) P.south, lt_of_le_of_lt (min_le_left _ _) (by linarith), min_le_right _ _⟩
  have hO : ∀ w, w ≤ P.south → ({ P with south := w } : Box).Ordered := by
    intro w hw
    obtain ⟨a, b, c⟩ := hP
    refine ⟨?_, ?_, ?_⟩ <;> first | assumption | exact hw.trans ‹_› | exact le_trans ‹_› hw
  have hr := @rad_ne_zero p { P with south := w0 } (hO w0 hw1) (by
    have := h w0 hw0
    simp only [Box.singular, Set.mem_union, not_or] at this
    tauto)
  set Q : Box := { P with south := w0 } with hQ
  have hk := fun x y z hx hy hz => kernel_nn_fin (x := x) (y := y) (z := z) (hr (x := x) (y := y) (z := z) hx hy hz)
  have e1 := easting_edge_iff p Q
  have e2 := upward_edge_iff p Q
  have e3 := north_face_iff p Q
  have hns := h w0 hw0
  rw [← hQ, Box.singular, Set.mem_union, not_or, ← e1, ← e2] at hns
  obtain ⟨n1, n2⟩ := hns
  unfold onPrism at n1 n2 e3
  have i1 : is_point_on_easting_edge (p.e : Fl Exact) (p.n : Fl Exact) (p.u : Fl Exact) (P.west : Fl Exact) (P.east : Fl Exact) (Fl.inf true) (P.north : Fl Exact) (P.bottom : Fl Exact) (P.top : Fl Exact) = false := by
    refine Bool.eq_false_iff.2 fun hh => n1 ?_
    rw [← hh]
    simp only [is_point_on_easting_edge, hQ, eq_inf]
    simp [hw0.ne, hw0.ne']
  have i2 : is_point_on_upward_edge (p.e : Fl Exact) (p.n : Fl Exact) (p.u : Fl Exact) (P.west : Fl Exact) (P.east : Fl Exact) (Fl.inf true) (P.north : Fl Exact) (P.bottom : Fl Exact) (P.top : Fl Exact) = false := by
    refine Bool.eq_false_iff.2 fun hh => n2 ?_
    rw [← hh]
    simp only [is_point_on_upward_edge, hQ, eq_inf]
    simp [hw0.ne, hw0.ne']
  have i3 : is_point_on_north_face (p.e : Fl Exact) (p.n : Fl Exact) (p.u : Fl Exact) (P.west : Fl Exact) (P.east : Fl Exact) (Fl.inf true) (P.north : Fl Exact) (P.bottom : Fl Exact) (P.top : Fl Exact) = true ↔ p ∈ Q.faceNorth := by
    rw [← e3]
    simp only [is_point_on_north_face, hQ, eq_inf]
    try simp [hw0.ne, hw0.ne']
  set S : ℝ := (0 + (-Tk (P.north - p.n) (P.east - p.e) (P.top - p.u)) - (-Tk (P.north - p.n) (P.east - p.e) (P.bottom - p.u)) - (-Tk (P.north - p.n) (P.west - p.e) (P.top - p.u)) + (-Tk (P.north - p.n) (P.west - p.e) (P.bottom - p.u))) with hS
  have hV : ∀ w, w < p.n → Vc .nn p { P with south := w } = S + (0 - (-Tk (w - p.n) (P.east - p.e) (P.top - p.u)) + (-Tk (w - p.n) (P.east - p.e) (P.bottom - p.u)) + (-Tk (w - p.n) (P.west - p.e) (P.top - p.u)) - (-Tk (w - p.n) (P.west - p.e) (P.bottom - p.u))) + corr .nn p Q := by
    intro w hw
    have hc : corr .nn p { P with south := w } = corr .nn p Q := by
      have a1 : p ∈ Box.faceNorth { P with south := w } ↔ p ∈ Q.faceNorth := Iff.rfl
      simp only [corr, a1]
    rw [Vc, hc, Dv, D3, hS]
    simp only [Kc]
    ring
  refine ⟨Gc * ρ * (S + corr .nn p Q), ?_, ?_⟩
  · unfold prism.gravity_nn Returns
    rw [i1, i2, evaluate_kernel_unroll]
    simp only [sub_fin, inf_sub_fin, kernel_nn_at_inf]
    rw [hk _ _ _ (.inr rfl) (.inr rfl) (.inr rfl), hk _ _ _ (.inr rfl) (.inr rfl) (.inl rfl), hk _ _ _ (.inl rfl) (.inr rfl) (.inr rfl), hk _ _ _ (.inl rfl) (.inr rfl) (.inl rfl)]
    by_cases hf : p ∈ Q.faceNorth
    · rw [i3.2 hf]
      simp [sgn, G_fin, corr, hf, hS]
      refine congrArg Fl.fin ?_
      ring
    · rw [Bool.eq_false_iff.2 fun hh => hf (i3.1 hh)]
      simp [sgn, G_fin, corr, hf, hS]
      refine congrArg Fl.fin ?_
      ring
  · intro ε hε
    have hlim : Tendsto (fun w => Gc * ρ * Vc .nn p { P with south := w }) atBot (𝓝 (Gc * ρ * (S + corr .nn p Q))) := by
      have h0 : Tendsto (fun w => Gc * ρ * (S + (0 - (-Tk (w - p.n) (P.east - p.e) (P.top - p.u)) + (-Tk (w - p.n) (P.east - p.e) (P.bottom - p.u)) + (-Tk (w - p.n) (P.west - p.e) (P.top - p.u)) - (-Tk (w - p.n) (P.west - p.e) (P.bottom - p.u))) + corr .nn p Q)) atBot (𝓝 (Gc * ρ * (S + 0 + corr .nn p Q))) := by
        refine Tendsto.const_mul _ (Tendsto.add_const _ (Tendsto.const_add _ ?_))
        have t := fun y z => (Tk_tendsto' y z (shift_atBot p.n)).neg
        have t4 := (((((tendsto_const_nhds (x := (0 : ℝ))).sub (t (P.east - p.e) (P.top - p.u))).add (t (P.east - p.e) (P.bottom - p.u))).add (t (P.west - p.e) (P.top - p.u))).sub (t (P.west - p.e) (P.bottom - p.u)))
        simpa using t4
      rw [add_zero] at h0
      refine h0.congr' ?_
      filter_upwards [eventually_lt_atBot p.n] with w hw
      rw [hV w hw]
    have hev := hlim.eventually (Metric.ball_mem_nhds _ hε)
    obtain ⟨W, hW⟩ := eventually_atBot.1 (hev.and (eventually_lt_atBot p.n))
    refine ⟨min W P.south, fun w hw => ?_⟩
    obtain ⟨hb, hc⟩ := hW w (hw.trans (min_le_left _ _))
    refine ⟨_, gravity_returns (c := .nn) (hO w (hw.trans (min_le_right _ _))) (h w hc) ρ, ?_⟩
    rw [Real.dist_eq] at hb
    exact hb.le

open Ex prism in
/-- **C103.** A prism that extends to infinity in the north: `prism.gravity_nn` with `prism_north = np.inf` returns
the limit of its values for prisms that extend further and further. -/
theorem C103_north (P : Box) (hP : P.Ordered) (p : Pt) (ρ : ℝ)
    (h : ∀ w, p.n < w → p ∉ ({ P with north := w } : Box).singular .nn) :
    ∃ L, Returns (A := Exact) (prism.gravity_nn (p.e : Fl Exact) (p.n : Fl Exact) (p.u : Fl Exact) (P.west : Fl Exact) (P.east : Fl Exact) (P.south : Fl Exact) (Fl.inf false) (P.bottom : Fl Exact) (P.top : Fl Exact) ρ) L ∧
      ∀ ε > 0, ∃ W, ∀ w ≥ W,
        ReturnsWithin (onPrism (A := Exact) prism.gravity_nn p { P with north := w } ρ) L ε := by
  classical
  obtain ⟨w0, hw0, hw1⟩ : ∃ w0, p.n < w0 ∧ P.north ≤ w0 := ⟨max (p.n + 1) P.north, lt_of_lt_of_le (by linarith) (le_max_left _ _), le_max_right _ _⟩
  have hO : ∀ w, P.north ≤ w → ({ P with north := w } : Box).Ordered := by
    intro w hw
    obtain ⟨a, b, c⟩ := hP
    refine ⟨?_, ?_, ?_⟩ <;> first | assumption | exact hw.trans ‹_› | exact le_trans ‹_› hw
  have hr := @rad_ne_zero p { P with north := w0 } (hO w0 hw1) (by
    have := h w0 hw0
    simp only [Box.singular, Set.mem_union, not_or] at this
    tauto)
  set Q : Box := { P with north := w0 } with hQ
  have hk := fun x y z hx hy hz => kernel_nn_fin (x := x) (y := y) (z := z) (hr (x := x) (y := y) (z := z) hx hy hz)
  have e1 := easting_edge_iff p Q
  have e2 := upward_edge_iff p Q
  have e3 := north_face_iff p Q
  have hns := h w0 hw0
  rw [← hQ, Box.singular, Set.mem_union, not_or, ← e1, ← e2] at hns
  obtain ⟨n1, n2⟩ := hns
  unfold onPrism at n1 n2 e3
  have i1 : is_point_on_easting_edge (p.e : Fl Exact) (p.n : Fl Exact) (p.u : Fl Exact) (P.west : Fl Exact) (P.east : Fl Exact) (P.south : Fl Exact) (Fl.inf false) (P.bottom : Fl Exact) (P.top : Fl Exact) = false := by
    refine Bool.eq_false_iff.2 fun hh => n1 ?_
    rw [← hh]
    simp only [is_point_on_easting_edge, hQ, eq_inf]
    simp [hw0.ne, hw0.ne']
  have i2 : is_point_on_upward_edge (p.e : Fl Exact) (p.n : Fl Exact) (p.u : Fl Exact) (P.west : Fl Exact) (P.east : Fl Exact) (P.south : Fl Exact) (Fl.inf false) (P.bottom : Fl Exact) (P.top : Fl Exact) = false := by
    refine Bool.eq_false_iff.2 fun hh => n2 ?_
    rw [← hh]
    simp only [is_point_on_upward_edge, hQ, eq_inf]
    simp [hw0.ne, hw0.ne']
  have i3 : is_point_on_north_face (p.e : Fl Exact) (p.n : Fl Exact) (p.u : Fl Exact) (P.west : Fl Exact) (P.east : Fl Exact) (P.south : Fl Exact) (Fl.inf false) (P.bottom : Fl Exact) (P.top : Fl Exact) = true ↔ p ∈ Q.faceNorth := by
    rw [← e3]
    simp only [is_point_on_north_face, hQ, eq_inf]
    try simp [hw0.ne, hw0.ne']
  set S : ℝ := (0 - (-Tk (P.south - p.n) (P.east - p.e) (P.top - p.u)) + (-Tk (P.south - p.n) (P.east - p.e) (P.bottom - p.u)) + (-Tk (P.south - p.n) (P.west - p.e) (P.top - p.u)) - (-Tk (P.south - p.n) (P.west - p.e) (P.bottom - p.u))) with hS
  have hV : ∀ w, p.n < w → Vc .nn p { P with north := w } = S + (0 + (-Tk (w - p.n) (P.east - p.e) (P.top - p.u)) - (-Tk (w - p.n) (P.east - p.e) (P.bottom - p.u)) - (-Tk (w - p.n) (P.west - p.e) (P.top - p.u)) + (-Tk (w - p.n) (P.west - p.e) (P.bottom - p.u))) + corr .nn p Q := by
    intro w hw
    have hc : corr .nn p { P with north := w } = corr .nn p Q := by
      have a1 : ¬(p ∈ Box.faceNorth { P with north := w }) := by
        simp [Box.faceNorth, hw.ne]
      have a2 : ¬(p ∈ Box.faceNorth { P with north := w0 }) := by
        simp [Box.faceNorth, hw0.ne]
      exact (if_neg a1).trans (if_neg a2).symm
    rw [Vc, hc, Dv, D3, hS]
    simp only [Kc]
    ring
  refine ⟨Gc * ρ * (S + corr .nn p Q), ?_, ?_⟩
  · unfold prism.gravity_nn Returns
    rw [i1, i2, evaluate_kernel_unroll]
    simp only [sub_fin, inf_sub_fin, kernel_nn_at_inf]
    rw [hk _ _ _ (.inr rfl) (.inl rfl) (.inr rfl), hk _ _ _ (.inr rfl) (.inl rfl) (.inl rfl), hk _ _ _ (.inl rfl) (.inl rfl) (.inr rfl), hk _ _ _ (.inl rfl) (.inl rfl) (.inl rfl)]
    by_cases hf : p ∈ Q.faceNorth
    · rw [i3.2 hf]
      simp [sgn, G_fin, corr, hf, hS]
      refine congrArg Fl.fin ?_
      ring
    · rw [Bool.eq_false_iff.2 fun hh => hf (i3.1 hh)]
      simp [sgn, G_fin, corr, hf, hS]
      refine congrArg Fl.fin ?_
      ring
  · intro ε hε
    have hlim : Tendsto (fun w => Gc * ρ * Vc .nn p { P with north := w }) atTop (𝓝 (Gc * ρ * (S + corr .nn p Q))) := by
      have h0 : Tendsto (fun w => Gc * ρ * (S + (0 + (-Tk (w - p.n) (P.east - p.e) (P.top - p.u)) - (-Tk (w - p.n) (P.east - p.e) (P.bottom - p.u)) - (-Tk (w - p.n) (P.west - p.e) (P.top - p.u)) + (-Tk (w - p.n) (P.west - p.e) (P.bottom - p.u))) + corr .nn p Q)) atTop (𝓝 (Gc * ρ * (S + 0 + corr .nn p Q))) := by
        refine Tendsto.const_mul _ (Tendsto.add_const _ (Tendsto.const_add _ ?_))
        have t := fun y z => (Tk_tendsto' y z (shift_atTop p.n)).neg
        have t4 := (((((tendsto_const_nhds (x := (0 : ℝ))).add (t (P.east - p.e) (P.top - p.u))).sub (t (P.east - p.e) (P.bottom - p.u))).sub (t (P.west - p.e) (P.top - p.u))).add (t (P.west - p.e) (P.bottom - p.u)))
        simpa using t4
      rw [add_zero] at h0
      refine h0.congr' ?_
      filter_upwards [eventually_gt_atTop p.n] with w hw
      rw [hV w hw]
    have hev := hlim.eventually (Metric.ball_mem_nhds _ hε)
    obtain ⟨W, hW⟩ := eventually_atTop.1 (hev.and (eventually_gt_atTop p.n))
    refine ⟨max W P.north, fun w hw => ?_⟩
    obtain ⟨hb, hc⟩ := hW w ((le_max_left _ _).trans hw)
    refine ⟨_, gravity_returns (c := .nn) (hO w ((le_max_right _ _).trans hw)) (h w hc) ρ, ?_⟩
    rw [Real.dist_eq] at hb
    exact hb.le

open Ex prism in
/-- **C103.** A prism that extends to infinity in the downward direction: `prism.gravity_uu` with `prism_bottom = -np.inf` returns
the limit of its values for prisms that extend further and further. -/
theorem C103_bottom (P : Box) (hP : P.Ordered) (p : Pt) (ρ : ℝ)
    (h : ∀ w, w < p.u → p ∉ ({ P with bottom := w } : Box).singular .uu) :
    ∃ L, Returns (A := Exact) (prism.gravity_uu (p.e : Fl Exact) (p.n : Fl Exact) (p.u : Fl Exact) (P.west : Fl Exact) (P.east : Fl Exact) (P.south : Fl Exact) (P.north : Fl Exact) (Fl.inf true) (P.top : Fl Exact) ρ) L ∧
      ∀ ε > 0, ∃ W, ∀ w ≤ W,
        ReturnsWithin (onPrism (A := Exact) prism.gravity_uu p { P with bottom := w } ρ) L ε := by
  classical
  obtain ⟨w0, hw0, hw1⟩ : ∃ w0, w0 < p.u ∧ w0 ≤ P.bottom := ⟨min (p.u - 1) P.bottom, lt_of_le_of_lt (min_le_left _ _) (by linarith), min_le_right _ _⟩
  have hO : ∀ w, w ≤ P.bottom → ({ P with bottom := w } : Box).Ordered := by
    intro w hw
    obtain ⟨a, b, c⟩ := hP
    refine ⟨?_, ?_, ?_⟩ <;> first | assumption | exact hw.trans ‹_› | exact le_trans ‹_› hw
  have hr := @rad_ne_zero p { P with bottom := w0 } (hO w0 hw1) (by
    have := h w0 hw0
    simp only [Box.singular, Set.mem_union, not_or] at this
    tauto)
  set Q : Box := { P with bottom := w0 } with hQ
  have hk := fun x y z hx hy hz => kernel_uu_fin (x := x) (y := y) (z := z) (hr (x := x) (y := y) (z := z) hx hy hz)
  have e1 := easting_edge_iff p Q
  have e2 := northing_edge_iff p Q
  have e3 := top_face_iff p Q
  have hns := h w0 hw0
  rw [← hQ, Box.singular, Set.mem_union, not_or, ← e1, ← e2] at hns
  obtain ⟨n1, n2⟩ := hns
  unfold onPrism at n1 n2 e3
  have i1 : is_point_on_easting_edge (p.e : Fl Exact) (p.n : Fl Exact) (p.u : Fl Exact) (P.west : Fl Exact) (P.east : Fl Exact) (P.south : Fl Exact) (P.north : Fl Exact) (Fl.inf true) (P.top : Fl Exact) = false := by
    refine Bool.eq_false_iff.2 fun hh => n1 ?_
    rw [← hh]
    simp only [is_point_on_easting_edge, hQ, eq_inf]
    simp [hw0.ne, hw0.ne']
  have i2 : is_point_on_northing_edge (p.e : Fl Exact) (p.n : Fl Exact) (p.u : Fl Exact) (P.west : Fl Exact) (P.east : Fl Exact) (P.south : Fl Exact) (P.north : Fl Exact) (Fl.inf true) (P.top : Fl Exact) = false := by
    refine Bool.eq_false_iff.2 fun hh => n2 ?_
    rw [← hh]
    simp only [is_point_on_northing_edge, hQ, eq_inf]
    simp [hw0.ne, hw0.ne']
  have i3 : is_point_on_top_face (p.e : Fl Exact) (p.n : Fl Exact) (p.u : Fl Exact) (P.west : Fl Exact) (P.east : Fl Exact) (P.south : Fl Exact) (P.north : Fl Exact) (Fl.inf true) (P.top : Fl Exact) = true ↔ p ∈ Q.faceTop := by
    rw [← e3]
    simp only [is_point_on_top_face, hQ, eq_inf]
    try simp [hw0.ne, hw0.ne']
  set S : ℝ := (0 + (-Tk (P.top - p.u) (P.east - p.e) (P.north - p.n)) - (-Tk (P.top - p.u) (P.east - p.e) (P.south - p.n)) - (-Tk (P.top - p.u) (P.west - p.e) (P.north - p.n)) + (-Tk (P.top - p.u) (P.west - p.e) (P.south - p.n))) with hS
  have hV : ∀ w, w < p.u → Vc .uu p { P with bottom := w } = S + (0 - (-Tk (w - p.u) (P.east - p.e) (P.north - p.n)) + (-Tk (w - p.u) (P.east - p.e) (P.south - p.n)) + (-Tk (w - p.u) (P.west - p.e) (P.north - p.n)) - (-Tk (w - p.u) (P.west - p.e) (P.south - p.n))) + corr .uu p Q := by
    intro w hw
    have hc : corr .uu p { P with bottom := w } = corr .uu p Q := by
      have a1 : p ∈ Box.faceTop { P with bottom := w } ↔ p ∈ Q.faceTop := Iff.rfl
      simp only [corr, a1]
    rw [Vc, hc, Dv, D3, hS]
    simp only [Kc]
    ring
  refine ⟨Gc * ρ * (S + corr .uu p Q), ?_, ?_⟩
  · unfold prism.gravity_uu Returns
    rw [i1, i2, evaluate_kernel_unroll]
    simp only [sub_fin, inf_sub_fin, kernel_uu_at_inf]
    rw [hk _ _ _ (.inr rfl) (.inr rfl) (.inr rfl), hk _ _ _ (.inr rfl) (.inl rfl) (.inr rfl), hk _ _ _ (.inl rfl) (.inr rfl) (.inr rfl), hk _ _ _ (.inl rfl) (.inl rfl) (.inr rfl)]
    by_cases hf : p ∈ Q.faceTop
    · rw [i3.2 hf]
      simp [sgn, G_fin, corr, hf, hS]
      refine congrArg Fl.fin ?_
      ring
    · rw [Bool.eq_false_iff.2 fun hh => hf (i3.1 hh)]
      simp [sgn, G_fin, corr, hf, hS]
      refine congrArg Fl.fin ?_
      ring
  · intro ε hε
    have hlim : Tendsto (fun w => Gc * ρ * Vc .uu p { P with bottom := w }) atBot (𝓝 (Gc * ρ * (S + corr .uu p Q))) := by
      have h0 : Tendsto (fun w => Gc * ρ * (S + (0 - (-Tk (w - p.u) (P.east - p.e) (P.north - p.n)) + (-Tk (w - p.u) (P.east - p.e) (P.south - p.n)) + (-Tk (w - p.u) (P.west - p.e) (P.north - p.n)) - (-Tk (w - p.u) (P.west - p.e) (P.south - p.n))) + corr .uu p Q)) atBot (𝓝 (Gc * ρ * (S + 0 + corr .uu p Q))) := by
        refine Tendsto.const_mul _ (Tendsto.add_const _ (Tendsto.const_add _ ?_))
        have t := fun y z => (Tk_tendsto' y z (shift_atBot p.u)).neg
        have t4 := (((((tendsto_const_nhds (x := (0 : ℝ))).sub (t (P.east - p.e) (P.north - p.n))).add (t (P.east - p.e) (P.south - p.n))).add (t (P.west - p.e) (P.north - p.n))).sub (t (P.west - p.e) (P.south - p.n)))
        simpa using t4
      rw [add_zero] at h0
      refine h0.congr' ?_
      filter_upwards [eventually_lt_atBot p.u] with w hw
      rw [hV w hw]
    have hev := hlim.eventually (Metric.ball_mem_nhds _ hε)
    obtain ⟨W, hW⟩ := eventually_atBot.1 (hev.and (eventually_lt_atBot p.u))
    refine ⟨min W P.bottom, fun w hw => ?_⟩
    obtain ⟨hb, hc⟩ := hW w (hw.trans (min_le_left _ _))
    refine ⟨_, gravity_returns (c := .uu) (hO w (hw.trans (min_le_right _ _))) (h w hc) ρ, ?_⟩
    rw [Real.dist_eq] at hb
    exact hb.le

open Ex prism in
/-- **C103.** A prism that extends to infinity in the upward direction: `prism.gravity_uu` with `prism_top = np.inf` returns
the limit of its values for prisms that extend further and further. -/
theorem C103_top (P : Box) (hP : P.Ordered) (p : Pt) (ρ : ℝ)
    (h : ∀ w, p.u < w → p ∉ ({ P with top := w } : Box).singular .uu) :
    ∃ L, Returns (A := Exact) (prism.gravity_uu (p.e : Fl Exact) (p.n : Fl Exact) (p.u : Fl Exact) (P.west : Fl Exact) (P.east : Fl Exact) (P.south : Fl Exact) (P.north : Fl Exact) (P.bottom : Fl Exact) (Fl.inf false) ρ) L ∧
      ∀ ε > 0, ∃ W, ∀ w ≥ W,
        ReturnsWithin (onPrism (A := Exact) prism.gravity_uu p { P with top := w } ρ) L ε := by
  classical
  obtain ⟨w0, hw0, hw1⟩ : ∃ w0, p.u < w0 ∧ P.top ≤ w0 := ⟨max (p.u + 1) P.top, lt_of_lt_of_le (by linarith) (le_max_left _ _), le_max_right _ _⟩
  have hO : ∀ w, P.top ≤ w → ({ P with top := w } : Box).Ordered := by
    intro w hw
    obtain ⟨a, b, c⟩ := hP
    refine ⟨?_, ?_, ?_⟩ <;> first | assumption | exact hw.trans ‹_› | exact le_trans ‹_› hw
  have hr := @rad_ne_zero p { P with top := w0 } (hO w0 hw1) (by
    have := h w0 hw0
    simp only [Box.singular, Set.mem_union, not_or] at this
    tauto)
  set Q : Box := { P with top := w0 } with hQ
  have hk := fun x y z hx hy hz => kernel_uu_fin (x := x) (y := y) (z := z) (hr (x := x) (y := y) (z := z) hx hy hz)
  have e1 := easting_edge_iff p Q
  have e2 := northing_edge_iff p Q
  have e3 := top_face_iff p Q
  have hns := h w0 hw0
  rw [← hQ, Box.singular, Set.mem_union, not_or, ← e1, ← e2] at hns
  obtain ⟨n1, n2⟩ := hns
  unfold onPrism at n1 n2 e3
  have i1 : is_point_on_easting_edge (p.e : Fl Exact) (p.n : Fl Exact) (p.u : Fl Exact) (P.west : Fl Exact) (P.east : Fl Exact) (P.south : Fl Exact) (P.north : Fl Exact) (P.bottom : Fl Exact) (Fl.inf false) = false := by
    refine Bool.eq_false_iff.2 fun hh => n1 ?_
    rw [← hh]
    simp only [is_point_on_easting_edge, hQ, eq_inf]
    simp [hw0.ne, hw0.ne']
  have i2 : is_point_on_northing_edge (p.e : Fl Exact) (p.n : Fl Exact) (p.u : Fl Exact) (P.west : Fl Exact) (P.east : Fl Exact) (P.south : Fl Exact) (P.north : Fl Exact) (P.bottom : Fl Exact) (Fl.inf false) = false := by
    refine Bool.eq_false_iff.2 fun hh => n2 ?_
    rw [← hh]
    simp only [is_point_on_northing_edge, hQ, eq_inf]
    simp [hw0.ne, hw0.ne']
  have i3 : is_point_on_top_face (p.e : Fl Exact) (p.n : Fl Exact) (p.u : Fl Exact) (P.west : Fl Exact) (P.east : Fl Exact) (P.south : Fl Exact) (P.north : Fl Exact) (P.bottom : Fl Exact) (Fl.inf false) = true ↔ p ∈ Q.faceTop := by
    rw [← e3]
    simp only [is_point_on_top_face, hQ, eq_inf]
    try simp [hw0.ne, hw0.ne']
  set S : ℝ := (0 - (-Tk (P.bottom - p.u) (P.east - p.e) (P.north - p.n)) + (-Tk (P.bottom - p.u) (P.east - p.e) (P.south - p.n)) + (-Tk (P.bottom - p.u) (P.west - p.e) (P.north - p.n)) - (-Tk (P.bottom - p.u) (P.west - p.e) (P.south - p.n))) with hS
  have hV : ∀ w, p.u < w → Vc .uu p { P with top := w } = S + (0 + (-Tk (w - p.u) (P.east - p.e) (P.north - p.n)) - (-Tk (w - p.u) (P.east - p.e) (P.south - p.n)) - (-Tk (w - p.u) (P.west - p.e) (P.north - p.n)) + (-Tk (w - p.u) (P.west - p.e) (P.south - p.n))) + corr .uu p Q := by
    intro w hw
    have hc : corr .uu p { P with top := w } = corr .uu p Q := by
      have a1 : ¬(p ∈ Box.faceTop { P with top := w }) := by
        simp [Box.faceTop, hw.ne]
      have a2 : ¬(p ∈ Box.faceTop { P with top := w0 }) := by
        simp [Box.faceTop, hw0.ne]
      exact (if_neg a1).trans (if_neg a2).symm
    rw [Vc, hc, Dv, D3, hS]
    simp only [Kc]
    ring
  refine ⟨Gc * ρ * (S + corr .uu p Q), ?_, ?_⟩
  · unfold prism.gravity_uu Returns
    rw [i1, i2, evaluate_kernel_unroll]
    simp only [sub_fin, inf_sub_fin, kernel_uu_at_inf]
    rw [hk _ _ _ (.inr rfl) (.inr rfl) (.inl rfl), hk _ _ _ (.inr rfl) (.inl rfl) (.inl rfl), hk _ _ _ (.inl rfl) (.inr rfl) (.inl rfl), hk _ _ _ (.inl rfl) (.inl rfl) (.inl rfl)]
    by_cases hf : p ∈ Q.faceTop
    · rw [i3.2 hf]
      simp [sgn, G_fin, corr, hf, hS]
      refine congrArg Fl.fin ?_
      ring
    · rw [Bool.eq_false_iff.2 fun hh => hf (i3.1 hh)]
      simp [sgn, G_fin, corr, hf, hS]
      refine congrArg Fl.fin ?_
      ring
  · intro ε hε
    have hlim : Tendsto (fun w => Gc * ρ * Vc .uu p { P with top := w }) atTop (𝓝 (Gc * ρ * (S + corr .uu p Q))) := by
      have h0 : Tendsto (fun w => Gc * ρ * (S + (0 + (-Tk (w - p.u) (P.east - p.e) (P.north - p.n)) - (-Tk (w - p.u) (P.east - p.e) (P.south - p.n)) - (-Tk (w - p.u) (P.west - p.e) (P.north - p.n)) + (-Tk (w - p.u) (P.west - p.e) (P.south - p.n))) + corr .uu p Q)) atTop (𝓝 (Gc * ρ * (S + 0 + corr .uu p Q))) := by
        refine Tendsto.const_mul _ (Tendsto.add_const _ (Tendsto.const_add _ ?_))
        have t := fun y z => (Tk_tendsto' y z (shift_atTop p.u)).neg
        have t4 := (((((tendsto_const_nhds (x := (0 : ℝ))).add (t (P.east - p.e) (P.north - p.n))).sub (t (P.east - p.e) (P.south - p.n))).sub (t (P.west - p.e) (P.north - p.n))).add (t (P.west - p.e) (P.south - p.n)))
        simpa using t4
      rw [add_zero] at h0
      refine h0.congr' ?_
      filter_upwards [eventually_gt_atTop p.u] with w hw
      rw [hV w hw]
    have hev := hlim.eventually (Metric.ball_mem_nhds _ hε)
    obtain ⟨W, hW⟩ := eventually_atTop.1 (hev.and (eventually_gt_atTop p.u))
    refine ⟨max W P.top, fun w hw => ?_⟩
    obtain ⟨hb, hc⟩ := hW w ((le_max_left _ _).trans hw)
    refine ⟨_, gravity_returns (c := .uu) (hO w ((le_max_right _ _).trans hw)) (h w hc) ρ, ?_⟩
    rw [Real.dist_eq] at hb
    exact hb.le

/-- A coordinate of the observation point, moved to infinity along the axis `a`. -/
noncomputable def atInfinity (a : Axis) (s : Bool) (p : Pt) : Axis → Fl Exact
  | .e => if a = .e then Fl.inf s else p.e
  | .n => if a = .n then Fl.inf s else p.n
  | .u => if a = .u then Fl.inf s else p.u

/-- **C103.** A point mass seen from infinity along an axis: the components that do not involve that axis are zero, their
limit; the others are NaN. -/
theorem C103_point_axis (c : GComp) (a : Axis) (s : Bool) (p q : Pt) (m : ℝ) :
    let x := atInfinity a s p
    let call := pointGravity c (x .e) (x .n) (x .u) (q.e : Fl Exact) (q.n : Fl Exact) (q.u : Fl Exact) (m : Fl Exact)
    if c.count a = 0 then Returns call 0 else ReturnsNaN call := by
  have fd : ∀ x : ℝ, (xf x /. (Fl.inf false : Fl Exact)) = .ok (xf 0) := fun _ => rfl
  have wd : ∀ x : Fl Exact, x.Wild → (x /. (Fl.inf false : Fl Exact)) = .ok Fl.nan := fun x hx =>
    Fl.wild_div hx (.inr ⟨_, rfl⟩)
  have p3 : (Fl.inf false : Fl Exact) ^ 3 = Fl.inf false := rfl
  have p5 : (Fl.inf false : Fl Exact) ^ 5 = Fl.inf false := rfl
  have wi : ∀ s, (Fl.inf s : Fl Exact).Wild := fun s => .inr ⟨s, rfl⟩
  have hsub : ∀ y : ℝ, (Fl.inf s : Fl Exact) - xf y = Fl.inf s := fun _ => rfl
  have hneg : -(Fl.inf s : Fl Exact) = Fl.inf (!s) := rfl
  have h3 : ((3 : Fl Exact) * Fl.inf s).Wild := Fl.mul_wild (wi s) _
  have h3s : ((3 : Fl Exact) * Fl.inf s ^ 2).Wild := Fl.mul_wild (Fl.wild_sq (wi s)) _
  have hsq : ((Fl.inf s : Fl Exact) ^ 2) = Fl.inf false := prism.inf_sq s
  have a1 : ∀ y : ℝ, (Fl.inf false : Fl Exact) + xf y = Fl.inf false := fun _ => rfl
  have a2 : ∀ y : ℝ, xf y + (Fl.inf false : Fl Exact) = Fl.inf false := fun _ => rfl
  have a3 : Fl.sqrt (Fl.inf false : Fl Exact) = Fl.inf false := rfl
  intro x call
  have hd : utils.distance_cartesian (x .e) (x .n) (x .u) (q.e : Fl Exact) (q.n : Fl Exact) (q.u : Fl Exact) =
      .ok (Fl.inf false) := by
    cases a <;> simp only [x, atInfinity, utils.distance_cartesian, hsub, hsq, Ex.sub_fin, Ex.pow_fin, Ex.add_fin, a1, a2,
      a3, if_true, if_false, reduceCtorEq] <;> rfl
  have hx : x a = Fl.inf s := by cases a <;> simp [x, atInfinity]
  cases c <;> cases a <;>
    simp only [call, pointGravity, point.gravity_pot, point.gravity_e, point.gravity_n, point.gravity_u,
        point.gravity_ee, point.gravity_nn, point.gravity_uu, point.gravity_en, point.gravity_eu,
        point.gravity_nu, point.kernel_pot, point.kernel_e, point.kernel_n, point.kernel_u,
        point.kernel_ee, point.kernel_nn, point.kernel_uu, point.kernel_en, point.kernel_eu,
        point.kernel_nu, hd, prism.ok_bind, p3, p5, GComp.count, GComp.index, if_true, one_ne_zero, two_ne_zero, if_false,
        OfNat.ofNat_ne_zero] <;>
    try simp only [hx, x, atInfinity, reduceCtorEq, if_true, if_false, hsub, hneg]
  all_goals first
    | (rw [wd _ (wi _)]; simp [ReturnsNaN]; done)
    | (rw [wd _ h3s]; simp [ReturnsNaN, Ex.one_fin, fd]; done)
    | (rw [wd _ (Fl.wild_mul h3 _)]; simp [ReturnsNaN]; done)
    | (rw [wd _ (Fl.mul_wild (wi _) _)]; simp [ReturnsNaN]; done)
    | (simp [Returns, fd, Ex.G_fin]; done)

/-- non-vacuity: a point above a prism that extends to the west without end -/
example : ∃ L, Returns (A := Exact) (prism.gravity_ee ((0 : ℝ) : Fl Exact) ((0 : ℝ) : Fl Exact) ((5 : ℝ) : Fl Exact)
    (Fl.inf true) ((3 : ℝ) : Fl Exact) ((-1 : ℝ) : Fl Exact) ((1 : ℝ) : Fl Exact) ((-2 : ℝ) : Fl Exact)
    ((0 : ℝ) : Fl Exact) ((1 : ℝ) : Fl Exact)) L := by
  obtain ⟨L, hL, -⟩ := C103_west ⟨-1, 3, -1, 1, -2, 0⟩ ⟨by norm_num, by norm_num, by norm_num⟩ (0, 0, 5) 1
    (by intro w hw; simp [Box.singular, Box.edgesN, Box.edgesU]; norm_num)
  exact ⟨L, hL⟩

end Choclo
