import Verif.Lemmas.ErrorPrism3

/-! # Error analysis of the magnetic functions of a prism -/

namespace Choclo

variable {A : Arith} {u : ℝ}

open Classical

theorem edge_inside_any {A : Arith} (p : Pt) (P : Box) (hp : p ∉ P.edges) (hp' : p ∉ P.inside) :
    ¬(onPrism (A := A) prism.is_point_on_edge p P || onPrism (A := A) prism.is_interior_point p P) = true := by
  obtain ⟨e0, e1, e2, e3⟩ := C18_edges_by_direction (A := A) p P
  have e4 : onPrism (A := A) prism.is_interior_point p P = true ↔ p ∈ P.inside := by
    simp [onPrism, prism.is_interior_point, Box.inside, and_assoc, Fl.lt_fin_any]
  rw [Bool.or_eq_true, e0, e1, e2, e3, e4]
  simp only [Box.edges, Set.mem_union, not_or] at hp
  tauto

theorem Mag.fourpi : Mag 3 4 (4 * Real.pi) := (show Mag 2 2 4 by right; norm_num).mul Mag.pi

/-- third-order kernels among all kernels -/
def TComp.kernel : TComp → PKComp
  | .eee => .eee
  | .nnn => .nnn
  | .uuu => .uuu
  | .een => .een
  | .eeu => .eeu
  | .enn => .enn
  | .nnu => .nnu
  | .euu => .euu
  | .nuu => .nuu
  | .enu => .enu

namespace Arith.Accurate

theorem dk_third (c : TComp) : dk c.kernel = K3 c := by
  funext x y z
  have i1 := docIII_eq x y z
  have i2 := docIII_eq y z x
  have i3 := docIII_eq z x y
  have j1 := docIIJ_eq x y z
  have j2 := docIIJ_eq x z y
  have j3 := docIIJ_eq y x z
  have j4 := docIIJ_eq y z x
  have j5 := docIIJ_eq z x y
  have j6 := docIIJ_eq z y x
  rw [rad_perm1 x y z] at j3
  rw [rad_perm2 x y z] at j2
  rw [rad_perm3 x y z] at i2 j4
  rw [rad_perm4 x y z] at i3 j5
  rw [rad_perm5 x y z] at j6
  cases c <;> simp only [dk, TComp.kernel, docKernel, K3, i1, i2, i3, j1, j2, j3, j4, j5, j6]
  case uuu => rw [Kiii_symm]

variable (h : A.Accurate u (2 ^ (-1022 : ℤ)) (2 ^ (1023 : ℤ)))
variable (hl : A.LibmAccurate u (2 ^ (-1022 : ℤ)) (2 ^ (1023 : ℤ)))
include h

/-- one vertex: `Me k1 + Mn k2 + Mu k3` -/
theorem mdot {Me Mn Mu : ℝ} (hMe : Mag (-80) 80 Me) (hMn : Mag (-80) 80 Mn) (hMu : Mag (-80) 80 Mu)
    {v1 v2 v3 : Fl A} {x1 x2 x3 B1 B2 B3 : ℝ}
    (a1 : AbsApprox u 25 v1 x1 B1) (a2 : AbsApprox u 25 v2 x2 B2) (a3 : AbsApprox u 25 v3 x3 B3)
    (m1 : Mag (-800) 800 B1) (m2 : Mag (-800) 800 B2) (m3 : Mag (-800) 800 B3) :
    AbsApprox u 28 ((Me : Fl A) * v1 + (Mn : Fl A) * v2 + (Mu : Fl A) * v3) (Me * x1 + Mn * x2 + Mu * x3)
      (|Me| * B1 + |Mn| * B2 + |Mu| * B3) ∧ Mag (-880) 882 (|Me| * B1 + |Mn| * B2 + |Mu| * B3) := by
  have n1 := h.absNonneg a1
  have n2 := h.absNonneg a2
  have n3 := h.absNonneg a3
  have p1 := hMe.abs.mul m1
  have p2 := hMn.abs.mul m2
  have p3 := hMu.abs.mul m3
  have s1 := p1.add p2 (by positivity) (by positivity)
  have s2 := s1.add (p3.weaken le_rfl (by norm_num)) (by positivity) (by positivity)
  have t1 := h.absMul (h.toAbs (h.exact Me)) a1 (p1.safe (by norm_num) (by norm_num)) (by norm_num)
  have t2 := h.absMul (h.toAbs (h.exact Mn)) a2 (p2.safe (by norm_num) (by norm_num)) (by norm_num)
  have t3 := h.absMul (h.toAbs (h.exact Mu)) a3 (p3.safe (by norm_num) (by norm_num)) (by norm_num)
  have r1 := h.absAdd t1 t2 (s1.safe (by norm_num) (by norm_num)) (by norm_num)
  have r2 := h.absAdd r1 t3 (s2.safe (by norm_num) (by norm_num)) (by norm_num)
  exact ⟨h.absMono (by norm_num) le_rfl r2, s2.weaken (by norm_num) (by norm_num)⟩

include hl in
theorem component_err {c1 c2 c3 : PKComp} {p : Pt} {P : Box} (hm : ModerateOffsets p P)
    (h0 : ∀ x y z, (x = P.west - p.e ∨ x = P.east - p.e) →
      (y = P.south - p.n ∨ y = P.north - p.n) → (z = P.bottom - p.u ∨ z = P.top - p.u) → rad x y z ≠ 0)
    {Me Mn Mu : ℝ} (hMe : Mag (-80) 80 Me) (hMn : Mag (-80) 80 Mn) (hMu : Mag (-80) 80 Mu) :
    ∃ v, onPrism (A := A) prism._calculate_component p P Me Mn Mu (prismKernel c1) (prismKernel c2)
        (prismKernel c3) = .ok v ∧
      AbsApprox u 37 v (Me * Dv (dk c1) p P + Mn * Dv (dk c2) p P + Mu * Dv (dk c3) p P)
        (|Me| * Sv (ks c1) p P + |Mn| * Sv (ks c2) p P + |Mu| * Sv (ks c3) p P) ∧
      Mag (-880) 889 (|Me| * Sv (ks c1) p P + |Mn| * Sv (ks c2) p P + |Mu| * Sv (ks c3) p P) := by
  obtain ⟨mw, me, ms, mn, mb, mt⟩ := hm
  have key : ∀ x y z : ℝ, ∀ X Y Z : Fl A, (x = P.west - p.e ∨ x = P.east - p.e) →
      (y = P.south - p.n ∨ y = P.north - p.n) → (z = P.bottom - p.u ∨ z = P.top - p.u) →
      Approx u 1 X x → Approx u 1 Y y → Approx u 1 Z z →
      ∃ v1 v2 v3, prism.vker (prismKernel c1) X Y Z = .ok v1 ∧ prism.vker (prismKernel c2) X Y Z = .ok v2 ∧
        prism.vker (prismKernel c3) X Y Z = .ok v3 ∧
        AbsApprox u 28 ((Me : Fl A) * v1 + (Mn : Fl A) * v2 + (Mu : Fl A) * v3)
          (Me * dk c1 x y z + Mn * dk c2 x y z + Mu * dk c3 x y z)
          (|Me| * ks c1 x y z + |Mn| * ks c2 x y z + |Mu| * ks c3 x y z) ∧
        Mag (-880) 882 (|Me| * ks c1 x y z + |Mn| * ks c2 x y z + |Mu| * ks c3 x y z) := by
    intro x y z X Y Z hx hy hz aX aY aZ
    have mx : Mag (-80) 80 x := by rcases hx with rfl | rfl <;> assumption
    have my : Mag (-80) 80 y := by rcases hy with rfl | rfl <;> assumption
    have mz : Mag (-80) 80 z := by rcases hz with rfl | rfl <;> assumption
    have hr := h0 x y z hx hy hz
    obtain ⟨v1, e1, a1, m1⟩ := h.kernel_err hl mx my mz aX aY aZ c1 (.inr hr)
    obtain ⟨v2, e2, a2, m2⟩ := h.kernel_err hl mx my mz aX aY aZ c2 (.inr hr)
    obtain ⟨v3, e3, a3, m3⟩ := h.kernel_err hl mx my mz aX aY aZ c3 (.inr hr)
    exact ⟨v1, v2, v3, e1, e2, e3, h.mdot hMe hMn hMu a1 a2 a3 m1 m2 m3⟩
  have aw := h.shift_err mw
  have ae := h.shift_err me
  have as := h.shift_err ms
  have an := h.shift_err mn
  have ab := h.shift_err mb
  have at' := h.shift_err mt
  obtain ⟨v11, v12, v13, e11, e12, e13, a1, m1⟩ := key _ _ _ _ _ _ (.inr rfl) (.inr rfl) (.inr rfl) ae an at'
  obtain ⟨v21, v22, v23, e21, e22, e23, a2, m2⟩ := key _ _ _ _ _ _ (.inr rfl) (.inr rfl) (.inl rfl) ae an ab
  obtain ⟨v31, v32, v33, e31, e32, e33, a3, m3⟩ := key _ _ _ _ _ _ (.inr rfl) (.inl rfl) (.inr rfl) ae as at'
  obtain ⟨v41, v42, v43, e41, e42, e43, a4, m4⟩ := key _ _ _ _ _ _ (.inr rfl) (.inl rfl) (.inl rfl) ae as ab
  obtain ⟨v51, v52, v53, e51, e52, e53, a5, m5⟩ := key _ _ _ _ _ _ (.inl rfl) (.inr rfl) (.inr rfl) aw an at'
  obtain ⟨v61, v62, v63, e61, e62, e63, a6, m6⟩ := key _ _ _ _ _ _ (.inl rfl) (.inr rfl) (.inl rfl) aw an ab
  obtain ⟨v71, v72, v73, e71, e72, e73, a7, m7⟩ := key _ _ _ _ _ _ (.inl rfl) (.inl rfl) (.inr rfl) aw as at'
  obtain ⟨v81, v82, v83, e81, e82, e83, a8, m8⟩ := key _ _ _ _ _ _ (.inl rfl) (.inl rfl) (.inl rfl) aw as ab
  have hs := h.sum8 (a := -880) (by norm_num) a1 a2 a3 a4 a5 a6 a7 a8 (b := 882) (by norm_num) (by norm_num)
    m1 m2 m3 m4 m5 m6 m7 m8
  have eD : Me * Dv (dk c1) p P + Mn * Dv (dk c2) p P + Mu * Dv (dk c3) p P =
      Dv (fun x y z => Me * dk c1 x y z + Mn * dk c2 x y z + Mu * dk c3 x y z) p P := by
    unfold Dv D3; ring
  have eS : |Me| * Sv (ks c1) p P + |Mn| * Sv (ks c2) p P + |Mu| * Sv (ks c3) p P =
      Sv (fun x y z => |Me| * ks c1 x y z + |Mn| * ks c2 x y z + |Mu| * ks c3 x y z) p P := by
    unfold Sv; ring
  rw [eD, eS, Dv_alt]
  refine ⟨_, ?_, hs⟩
  unfold onPrism
  rw [prism.calculate_component_unroll]
  simp only [e11, e12, e13, e21, e22, e23, e31, e32, e33, e41, e42, e43, e51, e52, e53, e61, e62, e63,
    e71, e72, e73, e81, e82, e83, Ex.ok_bind]
  rfl

omit h in
theorem Sv_ks (c : PKComp) (p : Pt) (P : Box) : Sv (ks c) p P = vertexSum (kernelSize c) p P := rfl

include hl in
theorem magnetic_err {c : MComp} {p : Pt} {P : Box} (hP : P.Ordered) (hp : p ∉ P.edges) (hp' : p ∉ P.inside)
    (hm : ModerateOffsets p P) {Me Mn Mu : ℝ}
    (hMe : Mag (-80) 80 Me) (hMn : Mag (-80) 80 Mn) (hMu : Mag (-80) 80 Mu) :
    ∃ v, onPrism (A := A) (prismMagnetic c) p P Me Mn Mu = .ok v ∧
      AbsApprox u 43 v (mu0 / 4 / Real.pi * Bc c p P Me Mn Mu)
        (mu0 / 4 / Real.pi * (|Me| * totalSize (c.kernel .e) p P + |Mn| * totalSize (c.kernel .n) p P
          + |Mu| * totalSize (c.kernel .u) p P)) := by
  have h0 : ∀ x y z, (x = P.west - p.e ∨ x = P.east - p.e) → (y = P.south - p.n ∨ y = P.north - p.n) →
      (z = P.bottom - p.u ∨ z = P.top - p.u) → rad x y z ≠ 0 := fun x y z hx hy hz =>
    Ex.rad_ne_zero' hP (by tauto) hx hy hz
  have c1 : Mag (-20) (-19) mu0 := by right; unfold mu0; norm_num [abs_of_pos]
  have c2 := c1.div (show Mag 2 2 4 by right; norm_num)
  have c3 := c2.div Mag.pi
  have cmpos : 0 < mu0 / 4 / Real.pi := div_pos (div_pos mu0_pos (by norm_num)) Real.pi_pos
  obtain ⟨v0, w0, ec, ew, hw⟩ := h.cm hl.pi (c1.safe (by norm_num) (by norm_num))
    (c2.safe (by norm_num) (by norm_num)) (c3.safe (by norm_num) (by norm_num))
  obtain ⟨k1, k2, k3⟩ := faces_any (A := A) p P
  have hb := edge_inside_any (A := A) p P hp hp'
  unfold onPrism at k1 k2 k3 hb ⊢
  cases c <;> simp only [prismMagnetic]
  case e =>
    obtain ⟨v, ev, av, mv⟩ := h.component_err hl (c1 := MComp.kernel .e .e) (c2 := MComp.kernel .e .n)
      (c3 := MComp.kernel .e .u) hm h0 hMe hMn hMu
    simp only [MComp.kernel, prismKernel, onPrism] at ev
    simp only [MComp.kernel] at av mv
    have hn := h.absNonneg av
    have f0 := h.absMono (l := 43) (by norm_num) le_rfl (h.absMul (h.toAbs hw) av
      ((c3.abs.mul mv).safe (by norm_num) (by norm_num)) (by norm_num))
    have m4 : Mag (-77) 84 (4 * Real.pi * Me) := (Mag.fourpi.mul hMe).weaken (by norm_num) (by norm_num)
    have a4 := h.toAbs (h.mul (h.four_pi hl) (h.exact Me) (m4.safe (by norm_num) (by norm_num)) (by norm_num))
    have ms := mv.add (m4.abs.weaken (by norm_num) (by norm_num)) hn (abs_nonneg _)
    have a5 := h.absAdd av a4 (ms.safe (by norm_num) (by norm_num)) (by norm_num)
    have f1 := h.absMono (l := 43) (by norm_num) le_rfl (h.absMul (h.toAbs hw) a5
      ((c3.abs.mul ms).safe (by norm_num) (by norm_num)) (by norm_num))
    unfold prism.magnetic_e
    rw [if_neg hb, ev, Ex.ok_bind]
    by_cases hf : p ∈ P.faceEast
    · rw [if_pos (k1.2 hf)]; simp only [ec, ew, Ex.ok_bind]
      refine ⟨_, rfl, ?_⟩
      convert f1 using 1
      · simp only [Bc, Wc, Vc, corr, MComp.kernel, if_pos hf, ← dk_eq, GComp.kernel]; ring
      · rw [abs_of_pos cmpos]
        simp [totalSize, MComp.kernel, hf, ← Sv_ks, abs_mul, abs_of_pos Real.pi_pos]; left; ring
    · rw [if_neg (by rw [k1]; exact hf)]; simp only [ec, ew, Ex.ok_bind]
      refine ⟨_, rfl, ?_⟩
      convert f0 using 1
      · simp only [Bc, Wc, Vc, corr, MComp.kernel, if_neg hf, ← dk_eq, GComp.kernel]; ring
      · rw [abs_of_pos cmpos]
        simp [totalSize, MComp.kernel, hf, ← Sv_ks]
  case n =>
    obtain ⟨v, ev, av, mv⟩ := h.component_err hl (c1 := MComp.kernel .n .e) (c2 := MComp.kernel .n .n)
      (c3 := MComp.kernel .n .u) hm h0 hMe hMn hMu
    simp only [MComp.kernel, prismKernel, onPrism] at ev
    simp only [MComp.kernel] at av mv
    have hn := h.absNonneg av
    have f0 := h.absMono (l := 43) (by norm_num) le_rfl (h.absMul (h.toAbs hw) av
      ((c3.abs.mul mv).safe (by norm_num) (by norm_num)) (by norm_num))
    have m4 : Mag (-77) 84 (4 * Real.pi * Mn) := (Mag.fourpi.mul hMn).weaken (by norm_num) (by norm_num)
    have a4 := h.toAbs (h.mul (h.four_pi hl) (h.exact Mn) (m4.safe (by norm_num) (by norm_num)) (by norm_num))
    have ms := mv.add (m4.abs.weaken (by norm_num) (by norm_num)) hn (abs_nonneg _)
    have a5 := h.absAdd av a4 (ms.safe (by norm_num) (by norm_num)) (by norm_num)
    have f1 := h.absMono (l := 43) (by norm_num) le_rfl (h.absMul (h.toAbs hw) a5
      ((c3.abs.mul ms).safe (by norm_num) (by norm_num)) (by norm_num))
    unfold prism.magnetic_n
    rw [if_neg hb, ev, Ex.ok_bind]
    by_cases hf : p ∈ P.faceNorth
    · rw [if_pos (k2.2 hf)]; simp only [ec, ew, Ex.ok_bind]
      refine ⟨_, rfl, ?_⟩
      convert f1 using 1
      · simp only [Bc, Wc, Vc, corr, MComp.kernel, if_pos hf, ← dk_eq, GComp.kernel]; ring
      · rw [abs_of_pos cmpos]
        simp [totalSize, MComp.kernel, hf, ← Sv_ks, abs_mul, abs_of_pos Real.pi_pos]; left; ring
    · rw [if_neg (by rw [k2]; exact hf)]; simp only [ec, ew, Ex.ok_bind]
      refine ⟨_, rfl, ?_⟩
      convert f0 using 1
      · simp only [Bc, Wc, Vc, corr, MComp.kernel, if_neg hf, ← dk_eq, GComp.kernel]; ring
      · rw [abs_of_pos cmpos]
        simp [totalSize, MComp.kernel, hf, ← Sv_ks]
  case u =>
    obtain ⟨v, ev, av, mv⟩ := h.component_err hl (c1 := MComp.kernel .u .e) (c2 := MComp.kernel .u .n)
      (c3 := MComp.kernel .u .u) hm h0 hMe hMn hMu
    simp only [MComp.kernel, prismKernel, onPrism] at ev
    simp only [MComp.kernel] at av mv
    have hn := h.absNonneg av
    have f0 := h.absMono (l := 43) (by norm_num) le_rfl (h.absMul (h.toAbs hw) av
      ((c3.abs.mul mv).safe (by norm_num) (by norm_num)) (by norm_num))
    have m4 : Mag (-77) 84 (4 * Real.pi * Mu) := (Mag.fourpi.mul hMu).weaken (by norm_num) (by norm_num)
    have a4 := h.toAbs (h.mul (h.four_pi hl) (h.exact Mu) (m4.safe (by norm_num) (by norm_num)) (by norm_num))
    have ms := mv.add (m4.abs.weaken (by norm_num) (by norm_num)) hn (abs_nonneg _)
    have a5 := h.absAdd av a4 (ms.safe (by norm_num) (by norm_num)) (by norm_num)
    have f1 := h.absMono (l := 43) (by norm_num) le_rfl (h.absMul (h.toAbs hw) a5
      ((c3.abs.mul ms).safe (by norm_num) (by norm_num)) (by norm_num))
    unfold prism.magnetic_u
    rw [if_neg hb, ev, Ex.ok_bind]
    by_cases hf : p ∈ P.faceTop
    · rw [if_pos (k3.2 hf)]; simp only [ec, ew, Ex.ok_bind]
      refine ⟨_, rfl, ?_⟩
      convert f1 using 1
      · simp only [Bc, Wc, Vc, corr, MComp.kernel, if_pos hf, ← dk_eq, GComp.kernel]; ring
      · rw [abs_of_pos cmpos]
        simp [totalSize, MComp.kernel, hf, ← Sv_ks, abs_mul, abs_of_pos Real.pi_pos]; left; ring
    · rw [if_neg (by rw [k3]; exact hf)]; simp only [ec, ew, Ex.ok_bind]
      refine ⟨_, rfl, ?_⟩
      convert f0 using 1
      · simp only [Bc, Wc, Vc, corr, MComp.kernel, if_neg hf, ← dk_eq, GComp.kernel]; ring
      · rw [abs_of_pos cmpos]
        simp [totalSize, MComp.kernel, hf, ← Sv_ks]
  case ee =>
    obtain ⟨v, ev, av, mv⟩ := h.component_err hl (c1 := MComp.kernel .ee .e) (c2 := MComp.kernel .ee .n)
      (c3 := MComp.kernel .ee .u) hm h0 hMe hMn hMu
    simp only [MComp.kernel, prismKernel, onPrism] at ev
    simp only [MComp.kernel] at av mv
    have f0 := h.absMono (l := 43) (by norm_num) le_rfl (h.absMul (h.toAbs hw) av
      ((c3.abs.mul mv).safe (by norm_num) (by norm_num)) (by norm_num))
    unfold prism.magnetic_ee
    rw [if_neg hb, ev, Ex.ok_bind, ec, Ex.ok_bind, ew, Ex.ok_bind]
    refine ⟨_, rfl, ?_⟩
    convert f0 using 1
    · simp only [Bc, Wc, MComp.kernel, ← dk_third, TComp.kernel]
    · rw [abs_of_pos cmpos]
      simp [totalSize, MComp.kernel, ← Sv_ks]
  case nn =>
    obtain ⟨v, ev, av, mv⟩ := h.component_err hl (c1 := MComp.kernel .nn .e) (c2 := MComp.kernel .nn .n)
      (c3 := MComp.kernel .nn .u) hm h0 hMe hMn hMu
    simp only [MComp.kernel, prismKernel, onPrism] at ev
    simp only [MComp.kernel] at av mv
    have f0 := h.absMono (l := 43) (by norm_num) le_rfl (h.absMul (h.toAbs hw) av
      ((c3.abs.mul mv).safe (by norm_num) (by norm_num)) (by norm_num))
    unfold prism.magnetic_nn
    rw [if_neg hb, ev, Ex.ok_bind, ec, Ex.ok_bind, ew, Ex.ok_bind]
    refine ⟨_, rfl, ?_⟩
    convert f0 using 1
    · simp only [Bc, Wc, MComp.kernel, ← dk_third, TComp.kernel]
    · rw [abs_of_pos cmpos]
      simp [totalSize, MComp.kernel, ← Sv_ks]
  case uu =>
    obtain ⟨v, ev, av, mv⟩ := h.component_err hl (c1 := MComp.kernel .uu .e) (c2 := MComp.kernel .uu .n)
      (c3 := MComp.kernel .uu .u) hm h0 hMe hMn hMu
    simp only [MComp.kernel, prismKernel, onPrism] at ev
    simp only [MComp.kernel] at av mv
    have f0 := h.absMono (l := 43) (by norm_num) le_rfl (h.absMul (h.toAbs hw) av
      ((c3.abs.mul mv).safe (by norm_num) (by norm_num)) (by norm_num))
    unfold prism.magnetic_uu
    rw [if_neg hb, ev, Ex.ok_bind, ec, Ex.ok_bind, ew, Ex.ok_bind]
    refine ⟨_, rfl, ?_⟩
    convert f0 using 1
    · simp only [Bc, Wc, MComp.kernel, ← dk_third, TComp.kernel]
    · rw [abs_of_pos cmpos]
      simp [totalSize, MComp.kernel, ← Sv_ks]
  case en =>
    obtain ⟨v, ev, av, mv⟩ := h.component_err hl (c1 := MComp.kernel .en .e) (c2 := MComp.kernel .en .n)
      (c3 := MComp.kernel .en .u) hm h0 hMe hMn hMu
    simp only [MComp.kernel, prismKernel, onPrism] at ev
    simp only [MComp.kernel] at av mv
    have f0 := h.absMono (l := 43) (by norm_num) le_rfl (h.absMul (h.toAbs hw) av
      ((c3.abs.mul mv).safe (by norm_num) (by norm_num)) (by norm_num))
    unfold prism.magnetic_en
    rw [if_neg hb, ev, Ex.ok_bind, ec, Ex.ok_bind, ew, Ex.ok_bind]
    refine ⟨_, rfl, ?_⟩
    convert f0 using 1
    · simp only [Bc, Wc, MComp.kernel, ← dk_third, TComp.kernel]
    · rw [abs_of_pos cmpos]
      simp [totalSize, MComp.kernel, ← Sv_ks]
  case eu =>
    obtain ⟨v, ev, av, mv⟩ := h.component_err hl (c1 := MComp.kernel .eu .e) (c2 := MComp.kernel .eu .n)
      (c3 := MComp.kernel .eu .u) hm h0 hMe hMn hMu
    simp only [MComp.kernel, prismKernel, onPrism] at ev
    simp only [MComp.kernel] at av mv
    have f0 := h.absMono (l := 43) (by norm_num) le_rfl (h.absMul (h.toAbs hw) av
      ((c3.abs.mul mv).safe (by norm_num) (by norm_num)) (by norm_num))
    unfold prism.magnetic_eu
    rw [if_neg hb, ev, Ex.ok_bind, ec, Ex.ok_bind, ew, Ex.ok_bind]
    refine ⟨_, rfl, ?_⟩
    convert f0 using 1
    · simp only [Bc, Wc, MComp.kernel, ← dk_third, TComp.kernel]
    · rw [abs_of_pos cmpos]
      simp [totalSize, MComp.kernel, ← Sv_ks]
  case nu =>
    obtain ⟨v, ev, av, mv⟩ := h.component_err hl (c1 := MComp.kernel .nu .e) (c2 := MComp.kernel .nu .n)
      (c3 := MComp.kernel .nu .u) hm h0 hMe hMn hMu
    simp only [MComp.kernel, prismKernel, onPrism] at ev
    simp only [MComp.kernel] at av mv
    have f0 := h.absMono (l := 43) (by norm_num) le_rfl (h.absMul (h.toAbs hw) av
      ((c3.abs.mul mv).safe (by norm_num) (by norm_num)) (by norm_num))
    unfold prism.magnetic_nu
    rw [if_neg hb, ev, Ex.ok_bind, ec, Ex.ok_bind, ew, Ex.ok_bind]
    refine ⟨_, rfl, ?_⟩
    convert f0 using 1
    · simp only [Bc, Wc, MComp.kernel, ← dk_third, TComp.kernel]
    · rw [abs_of_pos cmpos]
      simp [totalSize, MComp.kernel, ← Sv_ks]

end Arith.Accurate

end Choclo
