import Verif.Lemmas.MixedPrism2
import Verif.Spec.MixedPrism

/-! # The sums over the vertices of a prism for calls with float32 arguments -/

namespace Choclo

variable {S D : Arith} {u : ℝ}

set_option linter.unusedSimpArgs false

open Classical

theorem Mixed.prism.evaluate_kernel_unroll (e n u w E s N b t : MFl S D) (K : Mixed.prism.Kernel S D) :
    Mixed.prism._evaluate_kernel e n u w E s N b t K = do
      let k1 ← vker K (E - e) (N - n) (t - u)
      let k2 ← vker K (E - e) (N - n) (b - u)
      let k3 ← vker K (E - e) (s - n) (t - u)
      let k4 ← vker K (E - e) (s - n) (b - u)
      let k5 ← vker K (w - e) (N - n) (t - u)
      let k6 ← vker K (w - e) (N - n) (b - u)
      let k7 ← vker K (w - e) (s - n) (t - u)
      let k8 ← vker K (w - e) (s - n) (b - u)
      return 0 + sgn 0 * k1 + sgn 1 * k2 + sgn 1 * k3 + sgn 2 * k4
        + sgn 1 * k5 + sgn 2 * k6 + sgn 2 * k7 + sgn 3 * k8 := by
  simp [_evaluate_kernel, vker, vrad, sgn]

theorem Mixed.prism.calculate_component_unroll (e n u w E s N b t Me Mn Mu : MFl S D) (K1 K2 K3 : Mixed.prism.Kernel S D) :
    Mixed.prism._calculate_component e n u w E s N b t Me Mn Mu K1 K2 K3 = do
      let k11 ← vker K1 (E - e) (N - n) (t - u)
      let k12 ← vker K2 (E - e) (N - n) (t - u)
      let k13 ← vker K3 (E - e) (N - n) (t - u)
      let k21 ← vker K1 (E - e) (N - n) (b - u)
      let k22 ← vker K2 (E - e) (N - n) (b - u)
      let k23 ← vker K3 (E - e) (N - n) (b - u)
      let k31 ← vker K1 (E - e) (s - n) (t - u)
      let k32 ← vker K2 (E - e) (s - n) (t - u)
      let k33 ← vker K3 (E - e) (s - n) (t - u)
      let k41 ← vker K1 (E - e) (s - n) (b - u)
      let k42 ← vker K2 (E - e) (s - n) (b - u)
      let k43 ← vker K3 (E - e) (s - n) (b - u)
      let k51 ← vker K1 (w - e) (N - n) (t - u)
      let k52 ← vker K2 (w - e) (N - n) (t - u)
      let k53 ← vker K3 (w - e) (N - n) (t - u)
      let k61 ← vker K1 (w - e) (N - n) (b - u)
      let k62 ← vker K2 (w - e) (N - n) (b - u)
      let k63 ← vker K3 (w - e) (N - n) (b - u)
      let k71 ← vker K1 (w - e) (s - n) (t - u)
      let k72 ← vker K2 (w - e) (s - n) (t - u)
      let k73 ← vker K3 (w - e) (s - n) (t - u)
      let k81 ← vker K1 (w - e) (s - n) (b - u)
      let k82 ← vker K2 (w - e) (s - n) (b - u)
      let k83 ← vker K3 (w - e) (s - n) (b - u)
      return 0 + sgn 0 * (Me * k11 + Mn * k12 + Mu * k13)
         + sgn 1 * (Me * k21 + Mn * k22 + Mu * k23)
         + sgn 1 * (Me * k31 + Mn * k32 + Mu * k33)
         + sgn 2 * (Me * k41 + Mn * k42 + Mu * k43)
         + sgn 1 * (Me * k51 + Mn * k52 + Mu * k53)
         + sgn 2 * (Me * k61 + Mn * k62 + Mu * k63)
         + sgn 2 * (Me * k71 + Mn * k72 + Mu * k73)
         + sgn 3 * (Me * k81 + Mn * k82 + Mu * k83) := by
  simp [_calculate_component, vker, vrad, sgn]

theorem Mixed.prism.sgn_eq (m : ℕ) : (Mixed.prism.sgn m : MFl S D) = .f64 (Choclo.prism.sgn m) := rfl

namespace BothAccurate

open Arith.Accurate (dk ks Sv Dv_alt dk_eq dk_third Sv_ks)

variable (h : BothAccurate S D u (2 ^ (-126 : ℤ)) (2 ^ (127 : ℤ)) (2 ^ (-1022 : ℤ)) (2 ^ (1023 : ℤ)))
variable (hS : S.LibmAccurate u (2 ^ (-126 : ℤ)) (2 ^ (127 : ℤ)))
  (hD : D.LibmAccurate u (2 ^ (-1022 : ℤ)) (2 ^ (1023 : ℤ)))
variable {e n up w E s N b t : MFl S D} {p : Pt} {P : Box} (hA : ArePrism e n up w E s N b t p P)
  (hm : ShortOffsets p P)
include h

theorem shift_err {a b : MFl S D} {x y : ℝ} (ha : a.IsReal x) (hb : b.IsReal y) (hm : Mag (-20) 24 (x - y)) :
    MApprox u 1 (a - b) (x - y) := h.sub_exact ha hb (hm.safe32 (by norm_num) (by norm_num))

include hS hD

/-- the kernels at a vertex -/
theorem vertex_err {c : PKComp} {x y z : ℝ} {X Y Z : MFl S D} (hx : Mag (-20) 24 x) (hy : Mag (-20) 24 y)
    (hz : Mag (-20) 24 z) (aX : MApprox u 1 X x) (aY : MApprox u 1 Y y) (aZ : MApprox u 1 Z z)
    (h0 : c.lowOrder ∨ rad x y z ≠ 0) :
    ∃ v : Fl D, Mixed.prism.vker (Mixed.prismKernel c) X Y Z = .ok (.f64 v) ∧ AbsApprox u 25 v (dk c x y z) (ks c x y z) ∧
      Mag (-800) 800 (ks c x y z) := by
  obtain ⟨_, e, ⟨v, rfl⟩, a, m⟩ := h.kernel_err hS hD hx hy hz aX aY aZ c h0
  exact ⟨v, e, a, m⟩

include hA hm

theorem evaluate_err {c : PKComp}
    (h0 : c.lowOrder ∨ ∀ x y z, (x = P.west - p.e ∨ x = P.east - p.e) →
      (y = P.south - p.n ∨ y = P.north - p.n) → (z = P.bottom - p.u ∨ z = P.top - p.u) → rad x y z ≠ 0) :
    ∃ v : Fl D, Mixed.prism._evaluate_kernel e n up w E s N b t (Mixed.prismKernel c) = .ok (.f64 v) ∧
      AbsApprox u 34 v (Dv (dk c) p P) (Sv (ks c) p P) ∧ Mag (-800) 807 (Sv (ks c) p P) := by
  obtain ⟨mw, me, ms, mn, mb, mt⟩ := hm
  have key : ∀ x y z : ℝ, ∀ X Y Z : MFl S D, (x = P.west - p.e ∨ x = P.east - p.e) →
      (y = P.south - p.n ∨ y = P.north - p.n) → (z = P.bottom - p.u ∨ z = P.top - p.u) →
      MApprox u 1 X x → MApprox u 1 Y y → MApprox u 1 Z z →
      ∃ v : Fl D, Mixed.prism.vker (Mixed.prismKernel c) X Y Z = .ok (.f64 v) ∧ AbsApprox u 25 v (dk c x y z) (ks c x y z) ∧
        Mag (-800) 800 (ks c x y z) := by
    intro x y z X Y Z hx hy hz aX aY aZ
    have mx : Mag (-20) 24 x := by rcases hx with rfl | rfl <;> assumption
    have my : Mag (-20) 24 y := by rcases hy with rfl | rfl <;> assumption
    have mz : Mag (-20) 24 z := by rcases hz with rfl | rfl <;> assumption
    exact h.vertex_err hS hD mx my mz aX aY aZ (h0.imp_right fun h0 => h0 x y z hx hy hz)
  have aw := h.shift_err hA.w hA.e mw
  have ae := h.shift_err hA.E hA.e me
  have as := h.shift_err hA.s hA.n ms
  have an := h.shift_err hA.N hA.n mn
  have ab := h.shift_err hA.b hA.u mb
  have at' := h.shift_err hA.t hA.u mt
  obtain ⟨v1, e1, a1, m1⟩ := key _ _ _ _ _ _ (.inr rfl) (.inr rfl) (.inr rfl) ae an at'
  obtain ⟨v2, e2, a2, m2⟩ := key _ _ _ _ _ _ (.inr rfl) (.inr rfl) (.inl rfl) ae an ab
  obtain ⟨v3, e3, a3, m3⟩ := key _ _ _ _ _ _ (.inr rfl) (.inl rfl) (.inr rfl) ae as at'
  obtain ⟨v4, e4, a4, m4⟩ := key _ _ _ _ _ _ (.inr rfl) (.inl rfl) (.inl rfl) ae as ab
  obtain ⟨v5, e5, a5, m5⟩ := key _ _ _ _ _ _ (.inl rfl) (.inr rfl) (.inr rfl) aw an at'
  obtain ⟨v6, e6, a6, m6⟩ := key _ _ _ _ _ _ (.inl rfl) (.inr rfl) (.inl rfl) aw an ab
  obtain ⟨v7, e7, a7, m7⟩ := key _ _ _ _ _ _ (.inl rfl) (.inl rfl) (.inr rfl) aw as at'
  obtain ⟨v8, e8, a8, m8⟩ := key _ _ _ _ _ _ (.inl rfl) (.inl rfl) (.inl rfl) aw as ab
  have hs := h.double.sum8 (a := -800) (by norm_num) a1 a2 a3 a4 a5 a6 a7 a8 (b := 800) (by norm_num) (by norm_num)
    m1 m2 m3 m4 m5 m6 m7 m8
  rw [Dv_alt]
  refine ⟨_, ?_, hs⟩
  rw [Mixed.prism.evaluate_kernel_unroll]
  simp only [e1, e2, e3, e4, e5, e6, e7, e8, Ex.ok_bind, Mixed.prism.sgn_eq, MFl.f64_mul, MFl.f64_add, MFl.ofNat_eq, MFl.toD_f64]
  rfl

theorem component_err {c1 c2 c3 : PKComp}
    (h0 : ∀ x y z, (x = P.west - p.e ∨ x = P.east - p.e) →
      (y = P.south - p.n ∨ y = P.north - p.n) → (z = P.bottom - p.u ∨ z = P.top - p.u) → rad x y z ≠ 0)
    {vMe vMn vMu : MFl S D} {Me Mn Mu : ℝ} (rMe : vMe.IsReal Me) (rMn : vMn.IsReal Mn) (rMu : vMu.IsReal Mu)
    (hMe : Mag (-80) 80 Me) (hMn : Mag (-80) 80 Mn) (hMu : Mag (-80) 80 Mu) :
    ∃ v : Fl D, Mixed.prism._calculate_component e n up w E s N b t vMe vMn vMu (Mixed.prismKernel c1) (Mixed.prismKernel c2)
        (Mixed.prismKernel c3) = .ok (.f64 v) ∧
      AbsApprox u 37 v (Me * Dv (dk c1) p P + Mn * Dv (dk c2) p P + Mu * Dv (dk c3) p P)
        (|Me| * Sv (ks c1) p P + |Mn| * Sv (ks c2) p P + |Mu| * Sv (ks c3) p P) ∧
      Mag (-880) 889 (|Me| * Sv (ks c1) p P + |Mn| * Sv (ks c2) p P + |Mu| * Sv (ks c3) p P) := by
  obtain ⟨mw, me, ms, mn, mb, mt⟩ := hm
  have key : ∀ x y z : ℝ, ∀ X Y Z : MFl S D, (x = P.west - p.e ∨ x = P.east - p.e) →
      (y = P.south - p.n ∨ y = P.north - p.n) → (z = P.bottom - p.u ∨ z = P.top - p.u) →
      MApprox u 1 X x → MApprox u 1 Y y → MApprox u 1 Z z →
      ∃ v1 v2 v3 : Fl D, Mixed.prism.vker (Mixed.prismKernel c1) X Y Z = .ok (.f64 v1) ∧
        Mixed.prism.vker (Mixed.prismKernel c2) X Y Z = .ok (.f64 v2) ∧
        Mixed.prism.vker (Mixed.prismKernel c3) X Y Z = .ok (.f64 v3) ∧
        AbsApprox u 28 ((Me : Fl D) * v1 + (Mn : Fl D) * v2 + (Mu : Fl D) * v3)
          (Me * dk c1 x y z + Mn * dk c2 x y z + Mu * dk c3 x y z)
          (|Me| * ks c1 x y z + |Mn| * ks c2 x y z + |Mu| * ks c3 x y z) ∧
        Mag (-880) 882 (|Me| * ks c1 x y z + |Mn| * ks c2 x y z + |Mu| * ks c3 x y z) := by
    intro x y z X Y Z hx hy hz aX aY aZ
    have mx : Mag (-20) 24 x := by rcases hx with rfl | rfl <;> assumption
    have my : Mag (-20) 24 y := by rcases hy with rfl | rfl <;> assumption
    have mz : Mag (-20) 24 z := by rcases hz with rfl | rfl <;> assumption
    have hr := h0 x y z hx hy hz
    obtain ⟨v1, e1, a1, m1⟩ := h.vertex_err hS hD (c := c1) mx my mz aX aY aZ (.inr hr)
    obtain ⟨v2, e2, a2, m2⟩ := h.vertex_err hS hD (c := c2) mx my mz aX aY aZ (.inr hr)
    obtain ⟨v3, e3, a3, m3⟩ := h.vertex_err hS hD (c := c3) mx my mz aX aY aZ (.inr hr)
    exact ⟨v1, v2, v3, e1, e2, e3, h.double.mdot hMe hMn hMu a1 a2 a3 m1 m2 m3⟩
  have aw := h.shift_err hA.w hA.e mw
  have ae := h.shift_err hA.E hA.e me
  have as := h.shift_err hA.s hA.n ms
  have an := h.shift_err hA.N hA.n mn
  have ab := h.shift_err hA.b hA.u mb
  have at' := h.shift_err hA.t hA.u mt
  obtain ⟨v11, v12, v13, e11, e12, e13, a1, m1⟩ := key _ _ _ _ _ _ (.inr rfl) (.inr rfl) (.inr rfl) ae an at'
  obtain ⟨v21, v22, v23, e21, e22, e23, a2, m2⟩ := key _ _ _ _ _ _ (.inr rfl) (.inr rfl) (.inl rfl) ae an ab
  obtain ⟨v31, v32, v33, e31, e32, e33, a3, m3⟩ := key _ _ _ _ _ _ (.inr rfl) (.inl rfl) (.inr rfl) ae as at'
  obtain ⟨v41, v42, v43, e41, e42, e43, a4, m4⟩ := key _ _ _ _ _ _ (.inr rfl) (.inl rfl) (.inl rfl) ae as ab
  obtain ⟨v51, v52, v53, e51, e52, e53, a5, m5⟩ := key _ _ _ _ _ _ (.inl rfl) (.inr rfl) (.inr rfl) aw an at'
  obtain ⟨v61, v62, v63, e61, e62, e63, a6, m6⟩ := key _ _ _ _ _ _ (.inl rfl) (.inr rfl) (.inl rfl) aw an ab
  obtain ⟨v71, v72, v73, e71, e72, e73, a7, m7⟩ := key _ _ _ _ _ _ (.inl rfl) (.inl rfl) (.inr rfl) aw as at'
  obtain ⟨v81, v82, v83, e81, e82, e83, a8, m8⟩ := key _ _ _ _ _ _ (.inl rfl) (.inl rfl) (.inl rfl) aw as ab
  have hs := h.double.sum8 (a := -880) (by norm_num) a1 a2 a3 a4 a5 a6 a7 a8 (b := 882) (by norm_num) (by norm_num)
    m1 m2 m3 m4 m5 m6 m7 m8
  have eD : Me * Dv (dk c1) p P + Mn * Dv (dk c2) p P + Mu * Dv (dk c3) p P =
      Dv (fun x y z => Me * dk c1 x y z + Mn * dk c2 x y z + Mu * dk c3 x y z) p P := by
    unfold Dv D3; ring
  have eS : |Me| * Sv (ks c1) p P + |Mn| * Sv (ks c2) p P + |Mu| * Sv (ks c3) p P =
      Sv (fun x y z => |Me| * ks c1 x y z + |Mn| * ks c2 x y z + |Mu| * ks c3 x y z) p P := by
    unfold Sv; ring
  rw [eD, eS, Dv_alt]
  refine ⟨_, ?_, hs⟩
  unfold MFl.IsReal at rMe rMn rMu
  rw [Mixed.prism.calculate_component_unroll]
  simp only [e11, e12, e13, e21, e22, e23, e31, e32, e33, e41, e42, e43, e51, e52, e53, e61, e62, e63,
    e71, e72, e73, e81, e82, e83, Ex.ok_bind, Mixed.prism.sgn_eq, MFl.f64_mul, MFl.mul_f64, MFl.f64_add, MFl.ofNat_eq, MFl.toD_f64,
    rMe, rMn, rMu]
  rfl

end BothAccurate
end Choclo
