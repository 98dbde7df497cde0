import Verif.Lemmas.Absorb
import Verif.Props.LawsDouble
import Verif.Props.PrismBounds

/-! # C104: prisms whose thickness is lost in the subtraction of the coordinates -/

namespace Choclo

variable {A : Arith}

namespace prism
open Fl

theorem gravity_absorbed (hA : A.Monotone) (hS : A.SignSymmetric) (c : GComp) {e n u w E s N b t ρ v : Fl A}
    (h : t - u = b - u)
    (hf : c.letters ≤ 1 ∨ (is_point_on_east_face e n u w E s N b t = false ∧
      is_point_on_north_face e n u w E s N b t = false ∧ is_point_on_top_face e n u w E s N b t = false))
    (hv : prismGravity c e n u w E s N b t ρ = .ok v) : v.ZeroOrNaN := by
  have h0 := hA.rnd_zero
  cases c
  case pot | e | n | u =>
    simp only [prismGravity, gravity_pot, gravity_e, gravity_n, gravity_u, Py.bind_ok, Py.pure_ok] at hv
    obtain ⟨r, hr, rfl⟩ := hv
    exact (evaluate_absorbed hA hS h hr).mul h0 _
  case en | eu | nu =>
    simp only [prismGravity, gravity_en, gravity_eu, gravity_nu] at hv
    split at hv
    · exact .inl (Py.pure_ok.1 hv).symm
    · simp only [Py.bind_ok, Py.pure_ok] at hv
      obtain ⟨r, hr, rfl⟩ := hv
      exact (evaluate_absorbed hA hS h hr).mul h0 _
  case ee | nn | uu =>
    obtain ⟨f1, f2, f3⟩ := hf.resolve_left (by simp [GComp.letters, GComp.index])
    simp only [prismGravity, gravity_ee, gravity_nn, gravity_uu, f1, f2, f3] at hv
    split at hv
    · exact .inl (Py.pure_ok.1 hv).symm
    · simp only [Py.bind_ok] at hv
      obtain ⟨r, hr, hv⟩ := hv
      cases Py.pure_ok.1 hv
      exact (evaluate_absorbed hA hS h hr).mul h0 _

theorem magnetic_absorbed (hA : A.Monotone) (hS : A.SignSymmetric) (c : MComp) {e n u w E s N b t Me Mn Mu v : Fl A}
    (h : t - u = b - u)
    (hf : c.letters = 2 ∨ (is_point_on_east_face e n u w E s N b t = false ∧
      is_point_on_north_face e n u w E s N b t = false ∧ is_point_on_top_face e n u w E s N b t = false))
    (hv : prismMagnetic c e n u w E s N b t Me Mn Mu = .ok v) : v.ZeroOrNaN := by
  have h0 := hA.rnd_zero
  cases c
  case e | n | u =>
    obtain ⟨f1, f2, f3⟩ := hf.resolve_left (by simp [MComp.letters, MComp.index])
    simp only [prismMagnetic, magnetic_e, magnetic_n, magnetic_u, f1, f2, f3] at hv
    split at hv
    · exact .inl (Py.pure_ok.1 hv).symm
    · simp only [Py.bind_ok] at hv
      obtain ⟨r, hr, hv⟩ := hv
      simp [Py.bind_ok] at hv
      obtain ⟨c1, -, c2, -, rfl⟩ := hv
      exact (component_absorbed hA hS h hr).mul h0 _
  case ee | nn | uu | en | eu | nu =>
    simp only [prismMagnetic, magnetic_ee, magnetic_nn, magnetic_uu, magnetic_en, magnetic_eu, magnetic_nu] at hv
    split at hv
    · exact .inl (Py.pure_ok.1 hv).symm
    · simp only [Py.bind_ok, Py.pure_ok] at hv
      obtain ⟨r, hr, c1, -, c2, -, rfl⟩ := hv
      exact (component_absorbed hA hS h hr).mul h0 _

theorem eq_fin' (x y : ℝ) : Fl.eq (fin x : Fl A) (fin y) = true ↔ x = y := by
  show decide (x = y) = true ↔ _; exact decide_eq_true_iff
theorem lt_fin' (x y : ℝ) : Fl.lt (fin x : Fl A) (fin y) = true ↔ x < y := by
  show decide (x < y) = true ↔ _; exact decide_eq_true_iff

theorem faces_false {p : Pt} {P : Box} (h : ∀ a, p ∉ P.faceHi a) :
    onPrism (A := A) is_point_on_east_face p P = false ∧ onPrism (A := A) is_point_on_north_face p P = false ∧
      onPrism (A := A) is_point_on_top_face p P = false := by
  have h1 := h .e
  have h2 := h .n
  have h3 := h .u
  simp only [Box.faceHi] at h1 h2 h3
  refine ⟨Bool.eq_false_iff.2 fun hh => h1 ?_, Bool.eq_false_iff.2 fun hh => h2 ?_, Bool.eq_false_iff.2 fun hh => h3 ?_⟩
  · simpa [onPrism, is_point_on_east_face, Box.faceEast, and_assoc, eq_fin', lt_fin'] using hh
  · simpa [onPrism, is_point_on_north_face, Box.faceNorth, and_assoc, eq_fin', lt_fin'] using hh
  · simpa [onPrism, is_point_on_top_face, Box.faceTop, and_assoc, eq_fin', lt_fin'] using hh

end prism

/-- **C104.** In every rounded arithmetic: when the subtraction of the observation point's altitude gives the same float for
the top and the bottom of the prism - it is flat, or too thin or too far away - every `prism.gravity_*` returns exactly zero
(or NaN), never a spurious number. -/
theorem C104_gravity (hA : A.Monotone) (hS : A.SignSymmetric) (c : GComp) (p : Pt) (P : Box) (ρ : Fl A)
    (h : (P.top : Fl A) - (p.u : Fl A) = (P.bottom : Fl A) - (p.u : Fl A))
    (hf : c.letters ≤ 1 ∨ ∀ a, p ∉ P.faceHi a) :
    ReturnsZeroOrNaN (onPrism (prismGravity c) p P ρ) := by
  obtain ⟨v, hv⟩ := C52_gravity hA c (p.e : Fl A) (p.n : Fl A) (p.u : Fl A) (P.west : Fl A) (P.east : Fl A)
    (P.south : Fl A) (P.north : Fl A) (P.bottom : Fl A) (P.top : Fl A) ρ
  rcases prism.gravity_absorbed hA hS c h (hf.imp id fun h => prism.faces_false h) hv with rfl | rfl
  · exact .inl hv
  · exact .inr hv

/-- **C104.** The same for the magnetic functions and their gradients. -/
theorem C104_magnetic (hA : A.Monotone) (hS : A.SignSymmetric) (c : MComp) (p : Pt) (P : Box) (Me Mn Mu v : Fl A)
    (h : (P.top : Fl A) - (p.u : Fl A) = (P.bottom : Fl A) - (p.u : Fl A))
    (hf : c.letters = 2 ∨ ∀ a, p ∉ P.faceHi a)
    (hv : onPrism (prismMagnetic c) p P Me Mn Mu = .ok v) : v = Fl.nan ∨ v = Fl.fin 0 :=
  prism.magnetic_absorbed hA hS c h (hf.imp id fun h => prism.faces_false h) hv

theorem absorbed64 {x u : ℝ} (hu : B64.IsF u) (hu' : |u| ≤ 2 ^ (1000 : ℤ)) (hx : 2 ^ 55 * |x| ≤ |u|) :
    (x : Fl Binary64) - (u : Fl Binary64) = Fl.fin (-u) := by
  have hr : B64.round (x + -u) = -u := by
    refine B64.absorb (B64.isF_neg hu) ?_
    rw [show x + -u - -u = x by ring, abs_neg, zpow_neg, ← div_eq_inv_mul, le_div_iff₀ (by norm_num), mul_comm]
    exact_mod_cast hx
  show Fl.ofRaw (B64.rnd (x + -u)) = _
  unfold B64.rnd
  rw [hr, abs_neg, if_pos]
  · rfl
  · exact lt_of_le_of_lt hu' (zpow_lt_zpow_right₀ (by norm_num) (by norm_num))

/-- outside the range of altitudes of the prism -/
theorem far_off {p : Pt} {P : Box} (hP : P.Ordered) (h : p.u < P.bottom ∨ P.top < p.u) :
    p ∉ P.edges ∧ p ∉ interior P.region ∧ (∀ a, p ∉ P.faceHi a) ∧ ∀ c, p ∉ P.singular c := by
  have hp : ¬ (P.bottom ≤ p.u ∧ p.u ≤ P.top) := by
    rintro ⟨h1, h2⟩
    rcases h with h | h <;> linarith
  have hbt : P.bottom ≤ P.top := hP.2.2
  have h1 : p ∉ P.edgesE := by
    rintro ⟨h1, h2, h3⟩
    rcases h3 with h3 | h3 <;> rw [h3] at hp <;> simp [hbt] at hp
  have h2 : p ∉ P.edgesN := by
    rintro ⟨h1, h2, h3⟩
    rcases h3 with h3 | h3 <;> rw [h3] at hp <;> simp [hbt] at hp
  have h3 : p ∉ P.edgesU := by
    rintro ⟨h1, h2, h3⟩
    exact hp h3
  refine ⟨?_, ?_, ?_, ?_⟩
  · rintro ((h | h) | h)
    · exact h1 h
    · exact h2 h
    · exact h3 h
  · intro hi
    exact hp (interior_subset hi).2.2
  · intro a ha
    cases a
    · exact hp ⟨ha.2.2.1.le, ha.2.2.2.le⟩
    · exact hp ⟨ha.2.2.1.le, ha.2.2.2.le⟩
    · exact hp ⟨hbt.trans_eq ha.2.2.symm, le_of_eq ha.2.2⟩
  · intro c hc
    cases c <;> simp only [Box.singular, Set.mem_union, Set.mem_empty_iff_false] at hc <;> tauto

theorem lost_geometry {P : Box} (hP : P.Proper) {p : Pt} (hm : ModerateOffsets p P)
    (hb : 2 ^ 55 * |P.bottom| ≤ |p.u|) (ht : 2 ^ 55 * |P.top| ≤ |p.u|) :
    (p.u < P.bottom ∨ P.top < p.u) ∧ |p.u| ≤ 2 ^ (1000 : ℤ) ∧ (∀ a, p ∉ P.faceHi a) ∧ (∀ c, p ∉ P.singular c) ∧
      p ∉ P.edges ∧ p ∉ interior P.region := by
  have hO := hP.ordered
  have hbt : P.bottom < P.top := hP.2.2
  have hpos : 0 < |p.u| := by
    rcases eq_or_ne P.top 0 with h | h
    · have : 0 < |P.bottom| := abs_pos.2 (by linarith)
      exact lt_of_lt_of_le (by positivity) hb
    · have : 0 < |P.top| := abs_pos.2 h
      exact lt_of_lt_of_le (by positivity) ht
  have hsm : ∀ x, 2 ^ 55 * |x| ≤ |p.u| → |x| < |p.u| := fun x hx => by nlinarith [abs_nonneg x]
  have hb' := hsm _ hb
  have ht' := hsm _ ht
  have hout : p.u < P.bottom ∨ P.top < p.u := by
    rcases le_total 0 p.u with h | h
    · right; rw [abs_of_nonneg h] at ht'; exact lt_of_le_of_lt (le_abs_self _) ht'
    · left; rw [abs_of_nonpos h] at hb'; linarith [neg_abs_le P.bottom]
  obtain ⟨h1, h2, h3, h4⟩ := far_off hO hout
  have hbig : |p.u| ≤ 2 ^ (1000 : ℤ) := by
    have h5 := hm.2.2.2.2.2
    have h6 : |P.top - p.u| ≤ 2 ^ (80 : ℤ) := by
      rcases h5 with h5 | h5
      · rw [h5, abs_zero]; positivity
      · exact h5.2
    have h7 : |p.u| ≤ |P.top - p.u| + |P.top| := by
      have := abs_sub_abs_le_abs_sub p.u P.top
      rw [abs_sub_comm] at this
      linarith
    have h8 : |P.top| ≤ |p.u| / 2 := by nlinarith [abs_nonneg P.top]
    calc |p.u| ≤ 2 * 2 ^ (80 : ℤ) := by linarith
      _ = 2 ^ (81 : ℤ) := by norm_num
      _ ≤ _ := B64.two_zpow_le (by norm_num)
  exact ⟨hout, hbig, h3, h4, h1, h2⟩

/-- **C104.** Loss of all significant digits in double precision: from an altitude (a double) at least 2^55 times the altitudes
of the prism's top and bottom, for moderate geometries, every `prism.gravity_*` returns exactly 0.0, although the exact
potential is positive (and the attraction nonzero): the relative error is 100 %. -/
theorem C104_lost (P : Box) (hP : P.Proper) (p : Pt) (hu : B64.IsF p.u) (hm : ModerateOffsets p P)
    (hb : 2 ^ 55 * |P.bottom| ≤ |p.u|) (ht : 2 ^ 55 * |P.top| ≤ |p.u|) (ρ : ℝ) (hρ : ModerateSize ρ) (hρ' : 0 < ρ) :
    (∀ c, Returns (onPrism (A := Binary64) (prismGravity c) p P ρ) 0) ∧
    (∃ v, Returns (onPrism (A := Exact) prism.gravity_pot p P ρ) v ∧ 0 < v) ∧
    (∃ g, Returns (onPrism (A := Exact) prism.gravity_u p P ρ) g ∧ g ≠ 0) := by
  have hO := hP.ordered
  obtain ⟨hout, hbig, h3, h4, -⟩ := lost_geometry hP hm hb ht
  refine ⟨fun c => ?_, C35_potential_positive hP p hρ', ?_⟩
  · have hz := C104_gravity Binary64_monotone Binary64_signSymmetric c p P (ρ : Fl Binary64)
      (by rw [absorbed64 hu hbig ht, absorbed64 hu hbig hb]) (.inr h3)
    obtain ⟨g, -, y, hy, -⟩ := C57_double c p P hO (h4 c) hm ρ hρ
    rcases hz with hz | hz
    · unfold ReturnsNaN at hz
      unfold Returns at hy
      rw [hy] at hz
      cases hz
    · exact hz
  · obtain ⟨g, hg, h1, h2, -⟩ := C35_attractive hP .u p hρ'
    refine ⟨g, hg, ?_⟩
    have e : P.centre .u = (P.bottom + P.top) / 2 := rfl
    have hbt : P.bottom < P.top := hP.2.2
    clear hb ht hbig
    rcases hout with h | h
    · exact (h2 (by rw [e]; show p.u < _; linarith)).ne'
    · exact (h1 (by rw [e]; show _ < p.u; linarith)).ne

/-- **C104.** The same loss for the magnetic functions and their gradients, whatever the magnetization. -/
theorem C104_lost_magnetic (P : Box) (hP : P.Proper) (p : Pt) (hu : B64.IsF p.u) (hm : ModerateOffsets p P)
    (hb : 2 ^ 55 * |P.bottom| ≤ |p.u|) (ht : 2 ^ 55 * |P.top| ≤ |p.u|) (M : Pt)
    (hM : ∀ a : Axis, ModerateSize (M.coord a)) (c : MComp) :
    Returns (onPrism (A := Binary64) (prismMagnetic c) p P M.e M.n M.u) 0 := by
  obtain ⟨hout, hbig, h3, h4, h1, h2⟩ := lost_geometry hP hm hb ht
  obtain ⟨g, -, y, hy, -⟩ := C58_double c p P hP.ordered h1 h2 hm M hM
  rcases C104_magnetic Binary64_monotone Binary64_signSymmetric c p P _ _ _ _
    (by rw [absorbed64 hu hbig ht, absorbed64 hu hbig hb]) (.inr h3) hy with h | h
  · cases h
  · cases h
    exact hy

/-- A cube of 2 m on the ground, seen from 2^60 m. -/
example : (∀ c, Returns (onPrism (A := Binary64) (prismGravity c) (10, 20, 2 ^ 60) ⟨-1, 1, -1, 1, -1, 1⟩ (2670 : ℝ)) 0) ∧
    (∃ v, Returns (onPrism (A := Exact) prism.gravity_pot (10, 20, 2 ^ 60) ⟨-1, 1, -1, 1, -1, 1⟩ (2670 : ℝ)) v ∧ 0 < v) := by
  obtain ⟨h1, h2, -⟩ := C104_lost ⟨-1, 1, -1, 1, -1, 1⟩ (by unfold Box.Proper; norm_num) (10, 20, 2 ^ 60)
    (by
      have := B64.isF_zpow (z := 60) (by norm_num)
      exact_mod_cast this)
    (by
      refine ⟨?_, ?_, ?_, ?_, ?_, ?_⟩ <;> simp only [Pt.e, Pt.n, Pt.u] <;> right <;>
        norm_num [abs_of_pos, abs_of_neg])
    (by simp only [Pt.u]; norm_num) (by simp only [Pt.u]; norm_num) 2670 (by apply moderate_of <;> norm_num [abs_of_pos])
    (by norm_num)
  exact ⟨h1, h2⟩

/-- A vanishing thickness, in double precision. -/
example (p : Pt) (w e s n b : ℝ) (ρ : Fl Binary64) :
    ReturnsZeroOrNaN (onPrism (prismGravity .u) p ⟨w, e, s, n, b, b⟩ ρ) :=
  C104_gravity Binary64_monotone Binary64_signSymmetric .u p ⟨w, e, s, n, b, b⟩ ρ rfl (.inl le_rfl)

end Choclo
