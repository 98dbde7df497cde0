import Verif.Lemmas.MixedPrism

/-! # The twenty prism kernels for calls with float32 arguments -/

namespace Choclo

variable {S D : Arith} {u : ℝ}

set_option linter.unusedSimpArgs false

open Classical

namespace BothAccurate

variable (h : BothAccurate S D u (2 ^ (-126 : ℤ)) (2 ^ (127 : ℤ)) (2 ^ (-1022 : ℤ)) (2 ^ (1023 : ℤ)))
variable (hS : S.LibmAccurate u (2 ^ (-126 : ℤ)) (2 ^ (127 : ℤ)))
  (hD : D.LibmAccurate u (2 ^ (-1022 : ℤ)) (2 ^ (1023 : ℤ)))
variable {x y z : ℝ} (hx : Mag (-20) 24 x) (hy : Mag (-20) 24 y) (hz : Mag (-20) 24 z)
variable {X Y Z R : MFl S D}
variable (aX : MApprox u 1 X x) (aY : MApprox u 1 Y y) (aZ : MApprox u 1 Z z)
include h hx hy hz aX aY aZ

/-- the shared shape of `kernel_e/n/u` -/
theorem fk_err {LZ LY T : MFl S D} (w1 : LZ.Wide) (w2 : LY.Wide) (w3 : T.Wide)
    (a1 : MAbs u 11 LZ (Lk z x y) (1 + |Lk z x y|))
    (m1 : Mag 0 8 (1 + |Lk z x y|)) (a2 : MAbs u 11 LY (Lk y x z) (1 + |Lk y x z|))
    (m2 : Mag 0 8 (1 + |Lk y x z|)) (a3 : MApprox u 11 T (Tk x y z)) {V : MFl S D}
    (hV : V = -(Y * LZ + Z * LY - X * T) ∨ V = -(Z * LY + Y * LZ - X * T)) :
    MAbs u 25 V (-Fk x y z)
      (|y| * (1 + |Lk z x y|) + |z| * (1 + |Lk y x z|) + |x| * |Tk x y z|) ∧
    Mag (-800) 800 (|y| * (1 + |Lk z x y|) + |z| * (1 + |Lk y x z|) + |x| * |Tk x y z|) := by
  obtain ⟨lz, rfl⟩ := w1
  obtain ⟨ly, rfl⟩ := w2
  obtain ⟨t, rfl⟩ := w3
  refine h.double.fk_err hx.to80 hy.to80 hz.to80 aX aY aZ a1 m1 a2 m2 a3 (V := V.toD) ?_
  rcases hV with rfl | rfl <;> simp

omit aY aZ in
theorem half_sq_err {T : MFl S D} (w : T.Wide) (a : MApprox u 11 T (Tk x y z)) :
    MAbs u 16 (MFl.half * X ^ 2 * T) (1 / 2 * x ^ 2 * Tk x y z) (x ^ 2 / 2 * |Tk x y z|) ∧
    Mag (-600) 600 (x ^ 2 / 2 * |Tk x y z|) := by
  have hx2 := hx.pow (n := 2) (by norm_num)
  have mh : Mag (-1) (-1) (1 / 2) := by right; norm_num [abs_of_pos]
  have m1 := mh.mul hx2
  have m2 := m1.mul (Mag.Tk hx.to80 hy.to80 hz.to80)
  have a1 := h.pow aX le_rfl (hx2.safe32 (by norm_num) (by norm_num)) (by norm_num)
  have a0 : MApprox (S := S) (D := D) u 0 MFl.half (1 / 2) := h.double.exact (1 / 2)
  have a2 := h.mulD (.inl ⟨_, rfl⟩) a0 a1 (m1.safe (by norm_num) (by norm_num)) (by norm_num)
  have a3 := h.toAbs (h.mulD (.inr w) a2 a (m2.safe (by norm_num) (by norm_num)) (by norm_num))
  have e : |1 / 2 * x ^ 2 * Tk x y z| = x ^ 2 / 2 * |Tk x y z| := by
    rw [abs_mul, abs_of_nonneg (by positivity)]; ring
  rw [e] at a3
  have m3 := m2.abs
  rw [e] at m3
  exact ⟨h.absMono (by norm_num) le_rfl a3, m3.weaken (by norm_num) (by norm_num)⟩

omit hz aZ in
theorem xyl_err {L : MFl S D} (w : L.Wide) {l : ℝ} (a : MAbs u 11 L l (1 + |l|)) (m : Mag 0 8 (1 + |l|)) :
    MAbs u 15 (X * Y * L) (x * y * l) (|x * y| * (1 + |l|)) ∧ Mag (-600) 600 (|x * y| * (1 + |l|)) := by
  have m1 := hx.mul hy
  have m2 := m1.abs.mul m
  have a1 := h.mul aX aY (m1.safe32 (by norm_num) (by norm_num)) (by norm_num)
  exact ⟨h.absMulD (.inr w) (h.toAbs a1) a (m2.safe (by norm_num) (by norm_num)) (by norm_num),
    m2.weaken (by norm_num) (by norm_num)⟩

include hS hD

/-- Every prism kernel, called with rounded shifts and the radius computed from them. -/
theorem kernel_err (c : PKComp) (h0 : c.lowOrder ∨ rad x y z ≠ 0) :
    ∃ v, Mixed.prism.vker (Mixed.prismKernel c) X Y Z = .ok v ∧ v.Wide ∧
      MAbs u 25 v (docKernel c x y z (rad x y z)) (kernelSize c x y z (rad x y z)) ∧
      Mag (-800) 800 (kernelSize c x y z (rad x y z)) := by
  have aR := h.vrad_err hx hy hz aX aY aZ
  have ll1 := docLn_eq x y z
  have ll2 := docLn_eq y x z
  have ll3 := docLn_eq z x y
  have tt1 := docAtan_eq x y z
  have tt2 := docAtan_eq y x z
  have tt3 := docAtan_eq z x y
  have i1 := docIII_eq x y z
  have i2 := docIII_eq y z x
  have i3 := docIII_eq z x y
  have j1 := docIIJ_eq x y z
  have j2 := docIIJ_eq x z y
  have j3 := docIIJ_eq y x z
  have j4 := docIIJ_eq y z x
  have j5 := docIIJ_eq z x y
  have j6 := docIIJ_eq z y x
  rw [rad_perm1 x y z] at ll2 tt2 j3
  rw [rad_perm2 x y z] at j2
  rw [rad_perm3 x y z] at i2 j4
  rw [rad_perm4 x y z] at ll3 tt3 i3 j5
  rw [rad_perm5 x y z] at j6
  obtain ⟨l1, el1, wl1, al1, ml1⟩ := h.safe_log_err hS hD hx hy hz aX aY aZ rfl aR
  obtain ⟨l2, el2, wl2, al2, ml2⟩ := h.safe_log_err hS hD hy hx hz aY aX aZ (rad_perm1 x y z).symm aR
  obtain ⟨l2', el2', wl2', al2', ml2'⟩ := h.safe_log_err hS hD hy hz hx aY aZ aX (rad_perm3 x y z).symm aR
  obtain ⟨l3, el3, wl3, al3, ml3⟩ := h.safe_log_err hS hD hz hx hy aZ aX aY (rad_perm4 x y z).symm aR
  rw [Lk_symm y x z] at al2' ml2'
  obtain ⟨t1, et1, wt1, at1⟩ := h.safe_atan_err hS hD hx hy hz aX aY aZ rfl aR (.inl rfl)
  obtain ⟨t1', et1', wt1', at1'⟩ := h.safe_atan_err hS hD hx hy hz aX aY aZ rfl aR (.inr rfl)
  obtain ⟨t2, et2, wt2, at2⟩ := h.safe_atan_err hS hD hy hx hz aY aX aZ (rad_perm1 x y z).symm aR (.inl rfl)
  obtain ⟨t2', et2', wt2', at2'⟩ := h.safe_atan_err hS hD hy hx hz aY aX aZ (rad_perm1 x y z).symm aR (.inr rfl)
  obtain ⟨t3, et3, wt3, at3⟩ := h.safe_atan_err hS hD hz hx hy aZ aX aY (rad_perm4 x y z).symm aR (.inl rfl)
  have hR : c.lowOrder ∨ MFl.eq (Mixed.prism.vrad X Y Z) 0 = false := by
    rcases h0 with h0 | h0
    · exact .inl h0
    · right; rw [h.eq_zero_fin aR]; exact decide_eq_false h0
  unfold Mixed.prism.vker
  generalize hR' : Mixed.prism.vrad X Y Z = R at *
  have up : ∀ {V : MFl S D} {q : ℝ} {call : Py (MFl S D)},
      (call = .ok V ∧ V.Wide ∧ MApprox u 25 V q ∧ Mag (-800) 800 q) →
      (call = .ok V ∧ V.Wide ∧ MAbs u 25 V q |q| ∧ Mag (-800) 800 |q|) := by
    rintro V q call ⟨e, w, a, m⟩
    exact ⟨e, w, h.toAbs a, m.abs⟩
  have low : c.lowOrder → (∃ v, (Mixed.prismKernel c) X Y Z R = .ok v ∧ v.Wide ∧
      MAbs u 25 v (docKernel c x y z (rad x y z)) (kernelSize c x y z (rad x y z)) ∧
      Mag (-800) 800 (kernelSize c x y z (rad x y z))) := by
    intro hc
    cases c <;> try exact hc.elim
    case pot =>
      have p1 := h.xyl_err hx hy aX aY wl3 al3 ml3
      have p2 := h.xyl_err hy hz aY aZ wl1 al1 ml1
      have p3 := h.xyl_err hx hz aX aZ wl2' al2' ml2'
      have q1 := h.half_sq_err hx hy hz aX wt1' at1'
      have q2 := h.half_sq_err hy hx hz aY wt2' at2'
      have q3 := h.half_sq_err hz hx hy aZ wt3 at3
      have s1 := p1.2.add p2.2 (by positivity) (by positivity)
      have s2 := s1.add (p3.2.weaken le_rfl (by norm_num)) (by positivity) (by positivity)
      have s3 := s2.add (q1.2.weaken le_rfl (by norm_num)) (by positivity) (by positivity)
      have s4 := s3.add (q2.2.weaken le_rfl (by norm_num)) (by positivity) (by positivity)
      have s5 := s4.add (q3.2.weaken le_rfl (by norm_num)) (by positivity) (by positivity)
      have v1 : (X * Y * l3).Wide := wide_mul (.inr wl3)
      have b1 := h.absAddD (.inl v1) p1.1 p2.1 (s1.safe (by norm_num) (by norm_num)) (by norm_num)
      have v2 := wide_add (w := Y * Z * l1) (.inl v1)
      have b2 := h.absAddD (.inl v2) b1 p3.1 (s2.safe (by norm_num) (by norm_num)) (by norm_num)
      have v3 := wide_add (w := X * Z * l2') (.inl v2)
      have b3 := h.absSubD (.inl v3) b2 q1.1 (s3.safe (by norm_num) (by norm_num)) (by norm_num)
      have v4 := wide_sub (w := MFl.half * X ^ 2 * t1') (.inl v3)
      have b4 := h.absSubD (.inl v4) b3 q2.1 (s4.safe (by norm_num) (by norm_num)) (by norm_num)
      have v5 := wide_sub (w := MFl.half * Y ^ 2 * t2') (.inl v4)
      have b5 := h.absSubD (.inl v5) b4 q3.1 (s5.safe (by norm_num) (by norm_num)) (by norm_num)
      simp only [kernelSize, docKernel, ll1, ll2, ll3, tt1, tt2, tt3]
      rw [show x * y * Lk z x y + y * z * Lk x y z + x * z * Lk y x z - x ^ 2 / 2 * Tk x y z
        - y ^ 2 / 2 * Tk y x z - z ^ 2 / 2 * Tk z x y
        = x * y * Lk z x y + y * z * Lk x y z + x * z * Lk y x z - 1 / 2 * x ^ 2 * Tk x y z
        - 1 / 2 * y ^ 2 * Tk y x z - 1 / 2 * z ^ 2 * Tk z x y by ring]
      refine ⟨_, ?_, widen_wide _, widen_abs (h.absMono (by norm_num) le_rfl b5), s5.weaken (by norm_num) (by norm_num)⟩
      simp only [Mixed.prismKernel, Mixed.prism.kernel_pot, el3, el1, el2', et1', et2', et3, Ex.ok_bind]
      rfl
    case e =>
      have := h.fk_err hx hy hz aX aY aZ wl3 wl2' wt1 al3 ml3 al2' ml2' at1 (.inl rfl)
      simp only [kernelSize, docKernel, ll1, ll2, ll3, tt1, tt2, tt3]
      refine ⟨_, ?_, widen_wide _, widen_abs this.1, this.2⟩
      simp only [Mixed.prismKernel, Mixed.prism.kernel_e, el3, el2', et1, Ex.ok_bind]
      rfl
    case n =>
      have l3s := Lk_symm z x y
      have := h.fk_err hy hx hz aY aX aZ wl3 wl1 wt2 (by rw [l3s]; exact al3) (by rw [l3s]; exact ml3) al1 ml1 at2 (.inr rfl)
      rw [l3s] at this
      simp only [kernelSize, docKernel, ll1, ll2, ll3, tt1, tt2, tt3]
      rw [show -(z * Lk x y z + x * Lk z x y - y * Tk y x z) = -Fk y x z by unfold Fk; rw [l3s]; ring,
        add_comm (|z| * _)]
      refine ⟨_, ?_, widen_wide _, widen_abs this.1, this.2⟩
      simp only [Mixed.prismKernel, Mixed.prism.kernel_n, el3, el1, et2, Ex.ok_bind]
      rfl
    case u =>
      have l1s := Lk_symm x y z
      have := h.fk_err hz hx hy aZ aX aY wl2' wl1 wt3 (by rw [Lk_symm y x z]; exact al2') (by rw [Lk_symm y x z]; exact ml2')
        (by rw [l1s]; exact al1) (by rw [l1s]; exact ml1) at3 (.inl rfl)
      rw [l1s, Lk_symm y x z] at this
      simp only [kernelSize, docKernel, ll1, ll2, ll3, tt1, tt2, tt3]
      rw [show -(x * Lk y x z + y * Lk x y z - z * Tk z x y) = -Fk z x y by
        unfold Fk; rw [l1s, Lk_symm y x z]]
      refine ⟨_, ?_, widen_wide _, widen_abs this.1, this.2⟩
      simp only [Mixed.prismKernel, Mixed.prism.kernel_u, el2', el1, et3, Ex.ok_bind]
      rfl
  by_cases hc : c.lowOrder
  · exact low hc
  replace hR := hR.resolve_left hc
  have hr0 := h0.resolve_left hc
  cases c <;> try exact (hc trivial).elim
  case ee =>
    simp only [kernelSize, docKernel, tt1]
    refine ⟨MFl.widen (-t1), up ⟨?_, widen_wide _, widen_approx (h.neg (h.mono (by norm_num) at1)), ((Mag.Tk hx.to80 hy.to80 hz.to80).weaken (by norm_num) (by norm_num)).neg⟩⟩
    simp only [Mixed.prismKernel, Mixed.prism.kernel_ee, hR, Bool.false_eq_true, if_false, et1, Ex.ok_bind]; rfl
  case nn =>
    simp only [kernelSize, docKernel, tt2]
    refine ⟨MFl.widen (-t2), up ⟨?_, widen_wide _, widen_approx (h.neg (h.mono (by norm_num) at2)), ((Mag.Tk hy.to80 hx.to80 hz.to80).weaken (by norm_num) (by norm_num)).neg⟩⟩
    simp only [Mixed.prismKernel, Mixed.prism.kernel_nn, hR, Bool.false_eq_true, if_false, et2, Ex.ok_bind]; rfl
  case uu =>
    simp only [kernelSize, docKernel, tt3]
    refine ⟨MFl.widen (-t3), up ⟨?_, widen_wide _, widen_approx (h.neg (h.mono (by norm_num) at3)), ((Mag.Tk hz.to80 hx.to80 hy.to80).weaken (by norm_num) (by norm_num)).neg⟩⟩
    simp only [Mixed.prismKernel, Mixed.prism.kernel_uu, hR, Bool.false_eq_true, if_false, et3, Ex.ok_bind]; rfl
  case en =>
    simp only [kernelSize, docKernel, ll3]
    refine ⟨MFl.widen l3, ?_, widen_wide _, widen_abs (h.absMono (by norm_num) le_rfl al3), ml3.weaken (by norm_num) (by norm_num)⟩
    simp only [Mixed.prismKernel, Mixed.prism.kernel_en, hR, Bool.false_eq_true, if_false, el3, Ex.ok_bind]; rfl
  case eu =>
    simp only [kernelSize, docKernel, ll2]
    refine ⟨MFl.widen l2, ?_, widen_wide _, widen_abs (h.absMono (by norm_num) le_rfl al2), ml2.weaken (by norm_num) (by norm_num)⟩
    simp only [Mixed.prismKernel, Mixed.prism.kernel_eu, hR, Bool.false_eq_true, if_false, el2, Ex.ok_bind]; rfl
  case nu =>
    simp only [kernelSize, docKernel, ll1]
    refine ⟨MFl.widen l1, ?_, widen_wide _, widen_abs (h.absMono (by norm_num) le_rfl al1), ml1.weaken (by norm_num) (by norm_num)⟩
    simp only [Mixed.prismKernel, Mixed.prism.kernel_nu, hR, Bool.false_eq_true, if_false, el1, Ex.ok_bind]; rfl
  all_goals simp only [kernelSize, docKernel, i1, i2, i3, j1, j2, j3, j4, j5, j6]
  case eee => obtain ⟨v, hv⟩ := h.iii_err hx hy hz aX aY aZ rfl hr0 aR; exact ⟨v, up hv⟩
  case nnn => obtain ⟨v, hv⟩ := h.iii_err hy hz hx aY aZ aX (rad_perm3 x y z).symm hr0 aR; exact ⟨v, up hv⟩
  case uuu =>
    obtain ⟨v, hv⟩ := h.iii_err hz hy hx aZ aY aX (rad_perm5 x y z).symm hr0 aR
    rw [← Kiii_symm z y x] at hv
    exact ⟨v, up hv⟩
  case een => obtain ⟨v, hv⟩ := h.iij_err hx hy hz aX aY aZ rfl hr0 aR; exact ⟨v, up hv⟩
  case eeu => obtain ⟨v, hv⟩ := h.iij_err hx hz hy aX aZ aY (rad_perm2 x y z).symm hr0 aR; exact ⟨v, up hv⟩
  case enn => obtain ⟨v, hv⟩ := h.iij_err hy hx hz aY aX aZ (rad_perm1 x y z).symm hr0 aR; exact ⟨v, up hv⟩
  case nnu => obtain ⟨v, hv⟩ := h.iij_err hy hz hx aY aZ aX (rad_perm3 x y z).symm hr0 aR; exact ⟨v, up hv⟩
  case euu => obtain ⟨v, hv⟩ := h.iij_err hz hx hy aZ aX aY (rad_perm4 x y z).symm hr0 aR; exact ⟨v, up hv⟩
  case nuu => obtain ⟨v, hv⟩ := h.iij_err hz hy hx aZ aY aX (rad_perm5 x y z).symm hr0 aR; exact ⟨v, up hv⟩
  case enu => obtain ⟨v, hv⟩ := h.enu_err hx hy hz rfl hr0 aR X Y Z; exact ⟨v, up hv⟩

end BothAccurate
end Choclo
