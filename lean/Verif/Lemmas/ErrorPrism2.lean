import Verif.Lemmas.ErrorPrism
import Verif.Props.PrismPoints

/-! # Error analysis of the twenty prism kernels with rounded arguments -/

namespace Choclo

variable {A : Arith} {u : ℝ}

set_option linter.unusedSimpArgs false

namespace Arith.Accurate

variable (h : A.Accurate u (2 ^ (-1022 : ℤ)) (2 ^ (1023 : ℤ)))
  (hl : A.LibmAccurate u (2 ^ (-1022 : ℤ)) (2 ^ (1023 : ℤ)))
variable {x y z : ℝ} (hx : Mag (-80) 80 x) (hy : Mag (-80) 80 y) (hz : Mag (-80) 80 z)
variable {X Y Z R : Fl A}
variable (aX : Approx u 1 X x) (aY : Approx u 1 Y y) (aZ : Approx u 1 Z z)
include h hx hy hz aX aY aZ

theorem vrad_err : Approx u 4 (prism.vrad X Y Z) (rad x y z) := by
  have hx2 := hx.pow (n := 2) (by norm_num)
  have hy2 := hy.pow (n := 2) (by norm_num)
  have hz2 := hz.pow (n := 2) (by norm_num)
  have h12 := hx2.add hy2 (sq_nonneg _) (sq_nonneg _)
  have h123 := h12.add (hz2.weaken le_rfl (by norm_num)) (by positivity) (sq_nonneg _)
  have a1 := h.pow aX le_rfl (hx2.safe (by norm_num) (by norm_num)) (by norm_num)
  have a2 := h.pow aY le_rfl (hy2.safe (by norm_num) (by norm_num)) (by norm_num)
  have a3 := h.pow aZ le_rfl (hz2.safe (by norm_num) (by norm_num)) (by norm_num)
  have s1 := h.add a1 a2 (sq_nonneg _) (sq_nonneg _) (h12.safe (by norm_num) (by norm_num)) (by norm_num)
  have s2 := h.add s1 a3 (by positivity) (sq_nonneg _) (h123.safe (by norm_num) (by norm_num)) (by norm_num)
  exact h.sqrt (k := 3) (h.mono (by norm_num) s2) (by positivity)
    ((Mag.rad hx hy hz).safe (by norm_num) (by norm_num)) (by norm_num)

/-! ### third order -/

theorem iij_err {r : ℝ} (hr : r = rad x y z) (hr0 : r ≠ 0) (aR : Approx u 4 R r) :
    ∃ v, prism._kernel_iij X Y Z R = .ok v ∧ Approx u 25 v (Kiij x y z) ∧ Mag (-800) 800 (Kiij x y z) := by
  subst hr
  have mr := Mag.rad hx hy hz
  have hx2 := hx.pow (n := 2) (by norm_num)
  have hy2 := hy.pow (n := 2) (by norm_num)
  have hs := hx2.add hy2 (sq_nonneg _) (sq_nonneg _)
  have hn := hx.mul hz
  have hd := hs.mul mr
  have hq := hn.div hd
  unfold prism._kernel_iij Kiij
  rw [h.eq_zero_fin aR, h.eq_zero_fin aX, h.eq_zero_fin aY]
  simp only [hr0, decide_false, Bool.false_eq_true, if_false]
  by_cases hxy : x = 0 ∧ y = 0
  · have hb : (decide (x = 0) && decide (y = 0)) = true := by
      rw [← Bool.decide_and]; exact decide_eq_true hxy
    rw [hb, if_pos hxy]
    exact ⟨_, rfl, h.approx_zero, .inl rfl⟩
  · have hb : (decide (x = 0) && decide (y = 0)) = false := by
      rw [← Bool.decide_and]; exact decide_eq_false hxy
    rw [hb, if_neg hxy]
    have a1 := h.pow aX le_rfl (hx2.safe (by norm_num) (by norm_num)) (by norm_num)
    have a2 := h.pow aY le_rfl (hy2.safe (by norm_num) (by norm_num)) (by norm_num)
    have a3 := h.add a1 a2 (sq_nonneg _) (sq_nonneg _) (hs.safe (by norm_num) (by norm_num)) (by norm_num)
    have a4 := h.mul a3 aR (hd.safe (by norm_num) (by norm_num)) (by norm_num)
    have a5 := h.mul aX aZ (hn.safe (by norm_num) (by norm_num)) (by norm_num)
    obtain ⟨v, e, hv⟩ := h.div a5 a4 (mul_ne_zero (Ex.sq_add_sq_ne hxy) hr0)
      (hq.safe (by norm_num) (by norm_num)) (by norm_num)
    exact ⟨v, by rw [← e]; rfl, h.mono (by norm_num) hv, hq.weaken (by norm_num) (by norm_num)⟩

theorem iii_err {r : ℝ} (hr : r = rad x y z) (hr0 : r ≠ 0) (aR : Approx u 4 R r) :
    ∃ v, prism._kernel_iii X Y Z R = .ok v ∧ Approx u 25 v (Kiii x y z) ∧ Mag (-800) 800 (Kiii x y z) := by
  subst hr
  have mr := Mag.rad hx hy hz
  have hx2 := hx.pow (n := 2) (by norm_num)
  have hy2 := hy.pow (n := 2) (by norm_num)
  have hz2 := hz.pow (n := 2) (by norm_num)
  have hyz := hy.neg.mul hz
  have h2x := Mag.two.mul hx2
  have h3 := (h2x.weaken (a' := -160) (b' := 162) (by norm_num) (by norm_num)).add
    (hy2.weaken (a' := -160) (b' := 162) (by norm_num) (by norm_num)) (by positivity) (by positivity)
  have h4 := h3.add (hz2.weaken (by norm_num) (by norm_num)) (by positivity) (by positivity)
  have hn := hyz.mul h4
  have hxy2 := hx2.add hy2 (sq_nonneg _) (sq_nonneg _)
  have hxz2 := hx2.add hz2 (sq_nonneg _) (sq_nonneg _)
  have hm := hxy2.mul hxz2
  have hd := hm.mul mr
  have hq := hn.div hd
  unfold prism._kernel_iii Kiii
  rw [h.eq_zero_fin aR, h.eq_zero_fin aX, h.eq_zero_fin aY, h.eq_zero_fin aZ]
  simp only [hr0, decide_false, Bool.false_eq_true, if_false]
  by_cases hxy : (x = 0 ∧ y = 0) ∨ (x = 0 ∧ z = 0)
  · have hb : ((decide (x = 0) && decide (y = 0)) || (decide (x = 0) && decide (z = 0))) = true := by
      rw [← Bool.decide_and, ← Bool.decide_and, ← Bool.decide_or]; exact decide_eq_true hxy
    rw [hb, if_pos hxy]
    exact ⟨_, rfl, h.approx_zero, .inl rfl⟩
  · have hb : ((decide (x = 0) && decide (y = 0)) || (decide (x = 0) && decide (z = 0))) = false := by
      rw [← Bool.decide_and, ← Bool.decide_and, ← Bool.decide_or]; exact decide_eq_false hxy
    rw [hb, if_neg hxy]
    simp only [Bool.false_eq_true, if_false]
    rw [not_or] at hxy
    have n2 : ((2 : ℕ) : ℝ) = 2 := by norm_num
    have a1 := h.pow aX le_rfl (hx2.safe (by norm_num) (by norm_num)) (by norm_num)
    have a2 := h.pow aY le_rfl (hy2.safe (by norm_num) (by norm_num)) (by norm_num)
    have a3 := h.pow aZ le_rfl (hz2.safe (by norm_num) (by norm_num)) (by norm_num)
    have b1 := h.mul (h.neg aY) aZ (hyz.safe (by norm_num) (by norm_num)) (by norm_num)
    have b2 := h.mul (h.nat 2) a1 (by rw [n2]; exact h2x.safe (by norm_num) (by norm_num)) (by norm_num)
    rw [n2] at b2
    have b3 := h.add b2 a2 (by positivity) (sq_nonneg _) (h3.safe (by norm_num) (by norm_num)) (by norm_num)
    have b4 := h.add b3 a3 (by positivity) (sq_nonneg _) (h4.safe (by norm_num) (by norm_num)) (by norm_num)
    have b5 := h.mul b1 b4 (hn.safe (by norm_num) (by norm_num)) (by norm_num)
    have c1 := h.add a1 a2 (sq_nonneg _) (sq_nonneg _) (hxy2.safe (by norm_num) (by norm_num)) (by norm_num)
    have c2 := h.add a1 a3 (sq_nonneg _) (sq_nonneg _) (hxz2.safe (by norm_num) (by norm_num)) (by norm_num)
    have c3 := h.mul c1 c2 (hm.safe (by norm_num) (by norm_num)) (by norm_num)
    have c4 := h.mul c3 aR (hd.safe (by norm_num) (by norm_num)) (by norm_num)
    obtain ⟨v, e, hv⟩ := h.div b5 c4
      (mul_ne_zero (mul_ne_zero (Ex.sq_add_sq_ne hxy.1) (Ex.sq_add_sq_ne hxy.2)) hr0)
      (hq.safe (by norm_num) (by norm_num)) (by norm_num)
    exact ⟨v, by rw [← e], h.mono (by norm_num) hv, hq.weaken (by norm_num) (by norm_num)⟩

omit aX aY aZ in
theorem enu_err {r : ℝ} (hr : r = rad x y z) (hr0 : r ≠ 0) (aR : Approx u 4 R r) (X' Y' Z' : Fl A) :
    ∃ v, prism.kernel_enu X' Y' Z' R = .ok v ∧ Approx u 25 v (-1 / r) ∧ Mag (-800) 800 (-1 / r) := by
  have mr : Mag (-80) 81 r := hr ▸ Mag.rad hx hy hz
  have hq := Mag.one.neg.div mr
  obtain ⟨v, e, hv⟩ := h.enu (k := 4) le_rfl hr0 aR (hq.safe (by norm_num) (by norm_num)) X' Y' Z'
  exact ⟨v, e, h.mono (by norm_num) hv, hq.weaken (by norm_num) (by norm_num)⟩

/-! ### lower orders -/

/-- the shared shape of `kernel_e/n/u` -/
theorem fk_err {LZ LY T : Fl A} (a1 : AbsApprox u 11 LZ (Lk z x y) (1 + |Lk z x y|))
    (m1 : Mag 0 8 (1 + |Lk z x y|)) (a2 : AbsApprox u 11 LY (Lk y x z) (1 + |Lk y x z|))
    (m2 : Mag 0 8 (1 + |Lk y x z|)) (a3 : Approx u 11 T (Tk x y z)) {V : Fl A}
    (hV : V = -(Y * LZ + Z * LY - X * T) ∨ V = -(Z * LY + Y * LZ - X * T)) :
    AbsApprox u 25 V (-Fk x y z)
      (|y| * (1 + |Lk z x y|) + |z| * (1 + |Lk y x z|) + |x| * |Tk x y z|) ∧
    Mag (-800) 800 (|y| * (1 + |Lk z x y|) + |z| * (1 + |Lk y x z|) + |x| * |Tk x y z|) := by
  have p1 := hy.abs.mul m1
  have p2 := hz.abs.mul m2
  have p3 := hx.abs.mul (Mag.Tk hx hy hz).abs
  have w1 := p1.weaken (a' := -500) (b' := 500) (by norm_num) (by norm_num)
  have w2 := p2.weaken (a' := -500) (b' := 500) (by norm_num) (by norm_num)
  have w3 := p3.weaken (a' := -500) (b' := 501) (by norm_num) (by norm_num)
  have s12 := w1.add w2 (by positivity) (by positivity)
  have s123 := s12.add w3 (by positivity) (by positivity)
  have b1 := h.absMul (h.toAbs aY) a1 (p1.safe (by norm_num) (by norm_num)) (by norm_num)
  have b2 := h.absMul (h.toAbs aZ) a2 (p2.safe (by norm_num) (by norm_num)) (by norm_num)
  have b3 := h.absMul (h.toAbs aX) (h.toAbs a3) (p3.safe (by norm_num) (by norm_num)) (by norm_num)
  refine ⟨?_, s123.weaken (by norm_num) (by norm_num)⟩
  rcases hV with rfl | rfl
  · have c := h.absAdd b1 b2 (s12.safe (by norm_num) (by norm_num)) (by norm_num)
    have d := h.absNeg (h.absSub c b3 (s123.safe (by norm_num) (by norm_num)) (by norm_num))
    exact h.absMono (by norm_num) le_rfl d
  · have c := h.absAdd b2 b1 (by rw [add_comm]; exact s12.safe (by norm_num) (by norm_num)) (by norm_num)
    have d := h.absNeg (h.absSub c b3 (by
      rw [add_comm (|z| * _)]; exact s123.safe (by norm_num) (by norm_num)) (by norm_num))
    rw [add_comm (|z| * _), add_comm (z * _)] at d
    exact h.absMono (by norm_num) le_rfl d

omit aY aZ in
theorem half_sq_err {T : Fl A} (a : Approx u 11 T (Tk x y z)) :
    AbsApprox u 16 (Fl.half * X ^ 2 * T) (1 / 2 * x ^ 2 * Tk x y z) (x ^ 2 / 2 * |Tk x y z|) ∧
    Mag (-600) 600 (x ^ 2 / 2 * |Tk x y z|) := by
  have hx2 := hx.pow (n := 2) (by norm_num)
  have mh : Mag (-1) (-1) (1 / 2) := by right; norm_num [abs_of_pos]
  have m1 := mh.mul hx2
  have m2 := m1.mul (Mag.Tk hx hy hz)
  have a1 := h.pow aX le_rfl (hx2.safe (by norm_num) (by norm_num)) (by norm_num)
  have a2 := h.mul (h.exact (1 / 2)) a1 (m1.safe (by norm_num) (by norm_num)) (by norm_num)
  have a3 := h.toAbs (h.mul a2 a (m2.safe (by norm_num) (by norm_num)) (by norm_num))
  have e : |1 / 2 * x ^ 2 * Tk x y z| = x ^ 2 / 2 * |Tk x y z| := by
    rw [abs_mul, abs_of_nonneg (by positivity)]; ring
  rw [e] at a3
  have m3 := m2.abs
  rw [e] at m3
  exact ⟨h.absMono (by norm_num) le_rfl a3, m3.weaken (by norm_num) (by norm_num)⟩

omit hz aZ in
theorem xyl_err {L : Fl A} {l : ℝ} (a : AbsApprox u 11 L l (1 + |l|)) (m : Mag 0 8 (1 + |l|)) :
    AbsApprox u 15 (X * Y * L) (x * y * l) (|x * y| * (1 + |l|)) ∧ Mag (-600) 600 (|x * y| * (1 + |l|)) := by
  have m1 := hx.mul hy
  have m2 := m1.abs.mul m
  have a1 := h.mul aX aY (m1.safe (by norm_num) (by norm_num)) (by norm_num)
  exact ⟨h.absMul (h.toAbs a1) a (m2.safe (by norm_num) (by norm_num)) (by norm_num),
    m2.weaken (by norm_num) (by norm_num)⟩

include hl

/-- Every prism kernel, called with rounded shifts and the radius computed from them. -/
theorem kernel_err (c : PKComp) (h0 : c.lowOrder ∨ rad x y z ≠ 0) :
    ∃ v, prism.vker (prismKernel c) X Y Z = .ok v ∧
      AbsApprox u 25 v (docKernel c x y z (rad x y z)) (kernelSize c x y z (rad x y z)) ∧
      Mag (-800) 800 (kernelSize c x y z (rad x y z)) := by
  have aR := h.vrad_err hx hy hz aX aY aZ
  have ll1 := docLn_eq x y z
  have ll2 := docLn_eq y x z
  have ll3 := docLn_eq z x y
  have tt1 := docAtan_eq x y z
  have tt2 := docAtan_eq y x z
  have tt3 := docAtan_eq z x y
  have i1 := docIII_eq x y z
  have i2 := docIII_eq y z x
  have i3 := docIII_eq z x y
  have j1 := docIIJ_eq x y z
  have j2 := docIIJ_eq x z y
  have j3 := docIIJ_eq y x z
  have j4 := docIIJ_eq y z x
  have j5 := docIIJ_eq z x y
  have j6 := docIIJ_eq z y x
  rw [rad_perm1 x y z] at ll2 tt2 j3
  rw [rad_perm2 x y z] at j2
  rw [rad_perm3 x y z] at i2 j4
  rw [rad_perm4 x y z] at ll3 tt3 i3 j5
  rw [rad_perm5 x y z] at j6
  obtain ⟨l1, el1, al1, ml1⟩ := h.safe_log_err hl hx hy hz aX aY aZ rfl aR
  obtain ⟨l1', el1', al1', ml1'⟩ := h.safe_log_err hl hx hz hy aX aZ aY (rad_perm2 x y z).symm aR
  obtain ⟨l2, el2, al2, ml2⟩ := h.safe_log_err hl hy hx hz aY aX aZ (rad_perm1 x y z).symm aR
  obtain ⟨l2', el2', al2', ml2'⟩ := h.safe_log_err hl hy hz hx aY aZ aX (rad_perm3 x y z).symm aR
  obtain ⟨l3, el3, al3, ml3⟩ := h.safe_log_err hl hz hx hy aZ aX aY (rad_perm4 x y z).symm aR
  rw [Lk_symm y x z] at al2' ml2'
  obtain ⟨t1, et1, at1⟩ := h.safe_atan_err hl hx hy hz aX aY aZ rfl aR (.inl rfl)
  obtain ⟨t1', et1', at1'⟩ := h.safe_atan_err hl hx hy hz aX aY aZ rfl aR (.inr rfl)
  obtain ⟨t2, et2, at2⟩ := h.safe_atan_err hl hy hx hz aY aX aZ (rad_perm1 x y z).symm aR (.inl rfl)
  obtain ⟨t2', et2', at2'⟩ := h.safe_atan_err hl hy hx hz aY aX aZ (rad_perm1 x y z).symm aR (.inr rfl)
  obtain ⟨t3, et3, at3⟩ := h.safe_atan_err hl hz hx hy aZ aX aY (rad_perm4 x y z).symm aR (.inl rfl)
  have hR : c.lowOrder ∨ Fl.eq (prism.vrad X Y Z) 0 = false := by
    rcases h0 with h0 | h0
    · exact .inl h0
    · right; rw [h.eq_zero_fin aR]; exact decide_eq_false h0
  unfold prism.vker
  generalize hR' : prism.vrad X Y Z = R at *
  have up : ∀ {V : Fl A} {q : ℝ} {call : Py (Fl A)},
      (call = .ok V ∧ Approx u 25 V q ∧ Mag (-800) 800 q) →
      (call = .ok V ∧ AbsApprox u 25 V q |q| ∧ Mag (-800) 800 |q|) := by
    rintro V q call ⟨e, a, m⟩
    exact ⟨e, h.toAbs a, m.abs⟩
  have low : c.lowOrder → (∃ v, (prismKernel c) X Y Z R = .ok v ∧
      AbsApprox u 25 v (docKernel c x y z (rad x y z)) (kernelSize c x y z (rad x y z)) ∧
      Mag (-800) 800 (kernelSize c x y z (rad x y z))) := by
    intro hc
    cases c <;> try exact hc.elim
    case pot =>
      have p1 := h.xyl_err hx hy aX aY al3 ml3
      have p2 := h.xyl_err hy hz aY aZ al1 ml1
      have p3 := h.xyl_err hx hz aX aZ al2' ml2'
      have q1 := h.half_sq_err hx hy hz aX at1'
      have q2 := h.half_sq_err hy hx hz aY at2'
      have q3 := h.half_sq_err hz hx hy aZ at3
      have s1 := p1.2.add p2.2 (by positivity) (by positivity)
      have s2 := s1.add (p3.2.weaken le_rfl (by norm_num)) (by positivity) (by positivity)
      have s3 := s2.add (q1.2.weaken le_rfl (by norm_num)) (by positivity) (by positivity)
      have s4 := s3.add (q2.2.weaken le_rfl (by norm_num)) (by positivity) (by positivity)
      have s5 := s4.add (q3.2.weaken le_rfl (by norm_num)) (by positivity) (by positivity)
      have b1 := h.absAdd p1.1 p2.1 (s1.safe (by norm_num) (by norm_num)) (by norm_num)
      have b2 := h.absAdd b1 p3.1 (s2.safe (by norm_num) (by norm_num)) (by norm_num)
      have b3 := h.absSub b2 q1.1 (s3.safe (by norm_num) (by norm_num)) (by norm_num)
      have b4 := h.absSub b3 q2.1 (s4.safe (by norm_num) (by norm_num)) (by norm_num)
      have b5 := h.absSub b4 q3.1 (s5.safe (by norm_num) (by norm_num)) (by norm_num)
      simp only [kernelSize, docKernel, ll1, ll2, ll3, tt1, tt2, tt3]
      rw [show x * y * Lk z x y + y * z * Lk x y z + x * z * Lk y x z - x ^ 2 / 2 * Tk x y z
        - y ^ 2 / 2 * Tk y x z - z ^ 2 / 2 * Tk z x y
        = x * y * Lk z x y + y * z * Lk x y z + x * z * Lk y x z - 1 / 2 * x ^ 2 * Tk x y z
        - 1 / 2 * y ^ 2 * Tk y x z - 1 / 2 * z ^ 2 * Tk z x y by ring]
      refine ⟨_, ?_, h.absMono (by norm_num) le_rfl b5, s5.weaken (by norm_num) (by norm_num)⟩
      simp only [prismKernel, prism.kernel_pot, el3, el1, el2', et1', et2', et3, Ex.ok_bind]
      rfl
    case e =>
      have := h.fk_err hx hy hz aX aY aZ al3 ml3 al2' ml2' at1 (.inl rfl)
      simp only [kernelSize, docKernel, ll1, ll2, ll3, tt1, tt2, tt3]
      refine ⟨_, ?_, this⟩
      simp only [prismKernel, prism.kernel_e, el3, el2', et1, Ex.ok_bind]
      rfl
    case n =>
      have l3s := Lk_symm z x y
      have := h.fk_err hy hx hz aY aX aZ (by rw [l3s]; exact al3) (by rw [l3s]; exact ml3) al1 ml1 at2 (.inr rfl)
      rw [l3s] at this
      simp only [kernelSize, docKernel, ll1, ll2, ll3, tt1, tt2, tt3]
      rw [show -(z * Lk x y z + x * Lk z x y - y * Tk y x z) = -Fk y x z by unfold Fk; rw [l3s]; ring,
        add_comm (|z| * _)]
      refine ⟨_, ?_, this⟩
      simp only [prismKernel, prism.kernel_n, el3, el1, et2, Ex.ok_bind]
      rfl
    case u =>
      have l1s := Lk_symm x y z
      have := h.fk_err hz hx hy aZ aX aY (by rw [Lk_symm y x z]; exact al2') (by rw [Lk_symm y x z]; exact ml2')
        (by rw [l1s]; exact al1) (by rw [l1s]; exact ml1) at3 (.inl rfl)
      rw [l1s, Lk_symm y x z] at this
      simp only [kernelSize, docKernel, ll1, ll2, ll3, tt1, tt2, tt3]
      rw [show -(x * Lk y x z + y * Lk x y z - z * Tk z x y) = -Fk z x y by
        unfold Fk; rw [l1s, Lk_symm y x z]]
      refine ⟨_, ?_, this⟩
      simp only [prismKernel, prism.kernel_u, el2', el1, et3, Ex.ok_bind]
      rfl
  by_cases hc : c.lowOrder
  · exact low hc
  replace hR := hR.resolve_left hc
  have hr0 := h0.resolve_left hc
  cases c <;> try exact (hc trivial).elim
  case ee =>
    simp only [kernelSize, docKernel, tt1]
    refine ⟨-t1, up ⟨?_, h.neg (h.mono (by norm_num) at1), ((Mag.Tk hx hy hz).weaken (by norm_num) (by norm_num)).neg⟩⟩
    simp only [prismKernel, prism.kernel_ee, hR, Bool.false_eq_true, if_false, et1, Ex.ok_bind]; rfl
  case nn =>
    simp only [kernelSize, docKernel, tt2]
    refine ⟨-t2, up ⟨?_, h.neg (h.mono (by norm_num) at2), ((Mag.Tk hy hx hz).weaken (by norm_num) (by norm_num)).neg⟩⟩
    simp only [prismKernel, prism.kernel_nn, hR, Bool.false_eq_true, if_false, et2, Ex.ok_bind]; rfl
  case uu =>
    simp only [kernelSize, docKernel, tt3]
    refine ⟨-t3, up ⟨?_, h.neg (h.mono (by norm_num) at3), ((Mag.Tk hz hx hy).weaken (by norm_num) (by norm_num)).neg⟩⟩
    simp only [prismKernel, prism.kernel_uu, hR, Bool.false_eq_true, if_false, et3, Ex.ok_bind]; rfl
  case en =>
    simp only [kernelSize, docKernel, ll3]
    refine ⟨l3, ?_, h.absMono (by norm_num) le_rfl al3, ml3.weaken (by norm_num) (by norm_num)⟩
    simp only [prismKernel, prism.kernel_en, hR, Bool.false_eq_true, if_false, el3]
  case eu =>
    simp only [kernelSize, docKernel, ll2]
    refine ⟨l2, ?_, h.absMono (by norm_num) le_rfl al2, ml2.weaken (by norm_num) (by norm_num)⟩
    simp only [prismKernel, prism.kernel_eu, hR, Bool.false_eq_true, if_false, el2]
  case nu =>
    simp only [kernelSize, docKernel, ll1]
    refine ⟨l1, ?_, h.absMono (by norm_num) le_rfl al1, ml1.weaken (by norm_num) (by norm_num)⟩
    simp only [prismKernel, prism.kernel_nu, hR, Bool.false_eq_true, if_false, el1]
  all_goals simp only [kernelSize, docKernel, i1, i2, i3, j1, j2, j3, j4, j5, j6]
  case eee => obtain ⟨v, hv⟩ := h.iii_err hx hy hz aX aY aZ rfl hr0 aR; exact ⟨v, up hv⟩
  case nnn => obtain ⟨v, hv⟩ := h.iii_err hy hz hx aY aZ aX (rad_perm3 x y z).symm hr0 aR; exact ⟨v, up hv⟩
  case uuu =>
    obtain ⟨v, hv⟩ := h.iii_err hz hy hx aZ aY aX (rad_perm5 x y z).symm hr0 aR
    rw [← Kiii_symm z y x] at hv
    exact ⟨v, up hv⟩
  case een => obtain ⟨v, hv⟩ := h.iij_err hx hy hz aX aY aZ rfl hr0 aR; exact ⟨v, up hv⟩
  case eeu => obtain ⟨v, hv⟩ := h.iij_err hx hz hy aX aZ aY (rad_perm2 x y z).symm hr0 aR; exact ⟨v, up hv⟩
  case enn => obtain ⟨v, hv⟩ := h.iij_err hy hx hz aY aX aZ (rad_perm1 x y z).symm hr0 aR; exact ⟨v, up hv⟩
  case nnu => obtain ⟨v, hv⟩ := h.iij_err hy hz hx aY aZ aX (rad_perm3 x y z).symm hr0 aR; exact ⟨v, up hv⟩
  case euu => obtain ⟨v, hv⟩ := h.iij_err hz hx hy aZ aX aY (rad_perm4 x y z).symm hr0 aR; exact ⟨v, up hv⟩
  case nuu => obtain ⟨v, hv⟩ := h.iij_err hz hy hx aZ aY aX (rad_perm5 x y z).symm hr0 aR; exact ⟨v, up hv⟩
  case enu => obtain ⟨v, hv⟩ := h.enu_err hx hy hz rfl hr0 aR X Y Z; exact ⟨v, up hv⟩

end Arith.Accurate

end Choclo
