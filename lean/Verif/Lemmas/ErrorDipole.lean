import Verif.Lemmas.ErrorPoint
import Verif.Lemmas.Mag
import Verif.Model.Binary64

/-! # Error analysis of the dipole field -/

namespace Choclo

variable {A : Arith} {u lo hi : ℝ}

namespace Arith.Accurate

variable (h : A.Accurate u lo hi)
include h

theorem pi_approx (hp : A.PiAccurate u) : Approx (A := A) u 1 Fl.pi Real.pi := by
  have hpi := Real.pi_pos
  refine ⟨A.pi / Real.pi, ?_, ?_⟩
  · rw [show A.pi / Real.pi = 1 + (A.pi / Real.pi - 1) by ring]
    apply h.theta_delta
    rw [show A.pi / Real.pi - 1 = (A.pi - Real.pi) / Real.pi by field_simp, abs_div, abs_of_pos hpi,
      div_le_iff₀ hpi]
    exact hp
  · show Fl.fin A.pi = _
    congr 1
    field_simp

theorem cm (hp : A.PiAccurate u) (h1 : InSafeRange lo hi mu0) (h2 : InSafeRange lo hi (mu0 / 4))
    (h3 : InSafeRange lo hi (mu0 / 4 / Real.pi)) :
    ∃ v w : Fl A, ((VACUUM_MAGNETIC_PERMEABILITY : Fl A) /. 4) = .ok v ∧ (v /. Fl.pi) = .ok w ∧
      Approx u 4 w (mu0 / 4 / Real.pi) := by
  have n4 : ((4 : ℕ) : ℝ) = 4 := by norm_num
  obtain ⟨v, e, hv⟩ := h.div (h.lit h1) (h.nat 4) (by norm_num) (by rw [n4]; exact h2) (by norm_num)
  rw [n4] at hv
  obtain ⟨w, e', hw⟩ := h.div hv (h.pi_approx hp) Real.pi_ne_zero h3 (by norm_num)
  exact ⟨v, w, e, e', hw⟩

/-- all three components share this shape -/
theorem dipole_comp (hp : A.PiAccurate u) {p q m : Pt} (hd : 0 < dist3 p q) {a b md : ℝ}
    (h0 : InSafeRange lo hi (a - b))
    (hs : ∀ t ∈ distanceSteps p q, InSafeRange lo hi t)
    (hs' : ∀ t ∈ dipoleSteps p q m (a - b) md, InSafeRange lo hi t) :
    ∃ v, (do
      let r_e := (p.e : Fl A) - (q.e : Fl A)
      let r_n := (p.n : Fl A) - (q.n : Fl A)
      let r_u := (p.u : Fl A) - (q.u : Fl A)
      let distance := Fl.sqrt (r_e ^ 2 + r_n ^ 2 + r_u ^ 2)
      let dotproduct := (m.e : Fl A) * r_e + (m.n : Fl A) * r_n + (m.u : Fl A) * r_u
      let result := (← 3 * dotproduct * ((a : Fl A) - (b : Fl A)) /. distance ^ 5)
        - (← (md : Fl A) /. distance ^ 3)
      return (← (← VACUUM_MAGNETIC_PERMEABILITY /. 4) /. Fl.pi) * result) = .ok v ∧
      AbsApprox u 38 v
        (mu0 / 4 / Real.pi * (3 * (m.e * (p.e - q.e) + m.n * (p.n - q.n) + m.u * (p.u - q.u)) * (a - b)
          / dist3 p q ^ 5 - md / dist3 p q ^ 3))
        (mu0 / 4 / Real.pi * (3 * (|m.e * (p.e - q.e)| + |m.n * (p.n - q.n)| + |m.u * (p.u - q.u)|)
          * |a - b| / dist3 p q ^ 5 + |md / dist3 p q ^ 3|)) := by
  obtain ⟨dv, ed, hdv⟩ := h.distance hs
  have ed' : dv = Fl.sqrt (((p.e : Fl A) - (q.e : Fl A)) ^ 2 + ((p.n : Fl A) - (q.n : Fl A)) ^ 2
      + ((p.u : Fl A) - (q.u : Fl A)) ^ 2) := by
    have : (Except.ok dv : Py (Fl A)) = .ok _ := ed.symm
    injection this
  simp only [distanceSteps, List.mem_cons, List.not_mem_nil, or_false, forall_eq_or_imp, forall_eq] at hs
  obtain ⟨d1, d2, d3, -⟩ := hs
  simp only [dipoleSteps, List.mem_cons, List.not_mem_nil, or_false, forall_eq_or_imp, forall_eq] at hs'
  obtain ⟨s1, s2, s3, s4, s5, s6, s7, s8, s9, s10, s11, s12, s13, s14, s15, s16⟩ := hs'
  have n3 : ((3 : ℕ) : ℝ) = 3 := by norm_num
  have m1 := h.toAbs (h.mul (h.exact m.e) (h.sub_exact d1) s1 (by norm_num))
  have m2 := h.toAbs (h.mul (h.exact m.n) (h.sub_exact d2) s2 (by norm_num))
  have m3 := h.toAbs (h.mul (h.exact m.u) (h.sub_exact d3) s3 (by norm_num))
  have a1 := h.absAdd m1 m2 s4 (by norm_num)
  have a2 := h.absAdd a1 m3 s5 (by norm_num)
  have h3 := h.toAbs (h.nat 3)
  rw [n3, abs_of_pos (by norm_num : (0 : ℝ) < 3)] at h3
  have t1 := h.absMul h3 a2 s6 (by norm_num)
  have t2 := h.absMul t1 (h.toAbs (h.sub_exact h0)) s7 (by norm_num)
  have h5 : |dist3 p q ^ 5| = dist3 p q ^ 5 := abs_of_pos (by positivity)
  obtain ⟨v, e, hv⟩ := h.absDiv t2 (h.pow hdv (by norm_num) s8 (by norm_num)) (pow_ne_zero 5 hd.ne')
    (by rw [h5]; exact s9) (by norm_num)
  rw [h5] at hv
  obtain ⟨w, e', hw⟩ := h.div (h.exact md) (h.pow hdv (by norm_num) s10 (by norm_num))
    (pow_ne_zero 3 hd.ne') s11 (by norm_num)
  have hsub := h.absSub hv (h.toAbs hw) s12 (by norm_num)
  obtain ⟨c, c', ec, ec', hc⟩ := h.cm hp s13 s14 s15
  have hcpos : |mu0 / 4 / Real.pi| = mu0 / 4 / Real.pi := by
    apply abs_of_pos
    have := Real.pi_pos
    unfold mu0
    positivity
  have hc' := h.toAbs hc
  rw [hcpos] at hc'
  have hfin := h.absMul hc' hsub s16 (by norm_num)
  refine ⟨_, ?_, h.absMono (by norm_num) le_rfl hfin⟩
  dsimp only
  rw [← ed']
  change (3 * ((m.e : Fl A) * ((p.e : Fl A) - (q.e : Fl A)) + (m.n : Fl A) * ((p.n : Fl A) - (q.n : Fl A))
    + (m.u : Fl A) * ((p.u : Fl A) - (q.u : Fl A))) * ((a : Fl A) - (b : Fl A)) /. dv ^ 5) = _ at e
  rw [e, e', ec]
  change (c /. Fl.pi >>= _) = _
  rw [ec']
  rfl

end Arith.Accurate

theorem Binary64_piAccurate : Binary64.PiAccurate (2 ^ (-53 : ℤ)) := by
  have := B64.abs_round_sub_le (x := Real.pi) (by
    rw [abs_of_pos Real.pi_pos]
    exact le_trans (by simpa using B64.two_zpow_le (by norm_num : (-1022 : ℤ) ≤ 0))
      (by have := Real.pi_gt_three; linarith : (1 : ℝ) ≤ Real.pi))
  rwa [abs_of_pos Real.pi_pos] at this

end Choclo
