import Verif.Lemmas.Integral
import Verif.Lemmas.VcCalc
import Verif.Lemmas.MagCalc

/-! # The prism potential and acceleration as volume integrals over the prism -/

namespace Choclo

open Real Set MeasureTheory Filter Topology

/-! ### translations and relabellings preserve volume -/

theorem region_eq_preimage (p : Pt) (P : Box) :
    P.region = (fun q : Pt => q - p) ⁻¹' rbox (P.west - p.e) (P.east - p.e) (P.south - p.n) (P.north - p.n)
      (P.bottom - p.u) (P.top - p.u) := by
  ext q
  simp only [Box.region, rbox, mem_preimage, mem_prod, mem_Icc, Prod.fst_sub, Prod.snd_sub,
    sub_le_sub_iff_right]

theorem measurePreserving_sub_pt (p : Pt) :
    MeasurePreserving (fun q : Pt => q - p) volume volume := measurePreserving_sub_right _ p

theorem measurableEmbedding_sub_pt (p : Pt) : MeasurableEmbedding (fun q : Pt => q - p) :=
  (MeasurableEquiv.subRight p).measurableEmbedding

theorem integral_region (p : Pt) (P : Box) (f : ℝ → ℝ → ℝ → ℝ) :
    ∫ q in P.region, f (q.e - p.e) (q.n - p.n) (q.u - p.u) =
      ∫ v in rbox (P.west - p.e) (P.east - p.e) (P.south - p.n) (P.north - p.n)
      (P.bottom - p.u) (P.top - p.u), f v.1 v.2.1 v.2.2 := by
  rw [region_eq_preimage p P]
  exact (measurePreserving_sub_pt p).setIntegral_preimage_emb (measurableEmbedding_sub_pt p)
    (fun v : Pt => f v.1 v.2.1 v.2.2) _

theorem integrableOn_region (p : Pt) (P : Box) (f : ℝ → ℝ → ℝ → ℝ) :
    IntegrableOn (fun q : Pt => f (q.e - p.e) (q.n - p.n) (q.u - p.u)) P.region ↔
      IntegrableOn (fun v : Pt => f v.1 v.2.1 v.2.2) (rbox (P.west - p.e) (P.east - p.e) (P.south - p.n) (P.north - p.n)
      (P.bottom - p.u) (P.top - p.u)) := by
  rw [region_eq_preimage p P]
  exact (measurePreserving_sub_pt p).integrableOn_comp_preimage (measurableEmbedding_sub_pt p)
    (f := fun v : Pt => f v.1 v.2.1 v.2.2)

theorem measurePreserving_nu : MeasurePreserving (fun q : Pt => q.swap .nu) volume volume :=
  (MeasurePreserving.id (volume : Measure ℝ)).prod
    (Measure.measurePreserving_swap (μ := (volume : Measure ℝ)) (ν := (volume : Measure ℝ)))

theorem measurePreserving_en : MeasurePreserving (fun q : Pt => q.swap .en) volume volume := by
  have h1 := (volume_preserving_prodAssoc (α₁ := ℝ) (β₁ := ℝ) (γ₁ := ℝ))
  have h2 : MeasurePreserving (fun w : (ℝ × ℝ) × ℝ => (w.1.swap, w.2)) volume volume :=
    (Measure.measurePreserving_swap (μ := (volume : Measure ℝ)) (ν := (volume : Measure ℝ))).prod
      (MeasurePreserving.id (volume : Measure ℝ))
  exact (h1.comp h2).comp h1.symm

theorem measurePreserving_ptswap (s : Swap) : MeasurePreserving (fun q : Pt => q.swap s) volume volume := by
  cases s
  · exact measurePreserving_en
  · exact (measurePreserving_en.comp measurePreserving_nu).comp measurePreserving_en
  · exact measurePreserving_nu

theorem measurableEmbedding_ptswap (s : Swap) : MeasurableEmbedding (fun q : Pt => q.swap s) :=
  MeasurableEquiv.measurableEmbedding
    { toFun := fun q : Pt => q.swap s
      invFun := fun q : Pt => q.swap s
      left_inv := fun q => Pt.swap_swap q s
      right_inv := fun q => Pt.swap_swap q s
      measurable_toFun := (measurePreserving_ptswap s).measurable
      measurable_invFun := (measurePreserving_ptswap s).measurable }

theorem region_eq_preimage_swap (P : Box) (s : Swap) :
    P.region = (fun q : Pt => q.swap s) ⁻¹' (P.swap s).region := by
  ext q
  rw [mem_preimage, region_swap]

theorem integral_swap (P : Box) (s : Swap) (f : Pt → ℝ) :
    ∫ q in P.region, f (q.swap s) = ∫ q in (P.swap s).region, f q := by
  rw [region_eq_preimage_swap P s]
  exact (measurePreserving_ptswap s).setIntegral_preimage_emb (measurableEmbedding_ptswap s) f _

theorem integrableOn_swap (P : Box) (s : Swap) (f : Pt → ℝ) :
    IntegrableOn (fun q : Pt => f (q.swap s)) P.region ↔ IntegrableOn f (P.swap s).region := by
  rw [region_eq_preimage_swap P s]
  exact (measurePreserving_ptswap s).integrableOn_comp_preimage (measurableEmbedding_ptswap s) (f := f)

/-! ### potential and acceleration -/

/-- the kernel of a point mass at `q` seen from `p` -/
noncomputable def kpp (c : KComp) (p q : Pt) : ℝ := kp c (p.e - q.e) (p.n - q.n) (p.u - q.u)

theorem rad_sub_comm (p q : Pt) : rad (p.e - q.e) (p.n - q.n) (p.u - q.u) =
    rad (q.e - p.e) (q.n - p.n) (q.u - p.u) := by
  unfold rad; congr 1; ring

theorem kpp_pot (p q : Pt) : kpp .pot p q = 1 / rad (q.e - p.e) (q.n - p.n) (q.u - p.u) := by
  simp only [kpp, kp, pow_one, rad_sub_comm p q]

theorem kpp_e (p q : Pt) : kpp .e p q = (q.e - p.e) / rad (q.e - p.e) (q.n - p.n) (q.u - p.u) ^ 3 := by
  simp only [kpp, kp, pow_one, rad_sub_comm p q]
  congr 1; ring

variable {P : Box}

theorem integrableOn_pot (p : Pt) (P : Box) : IntegrableOn (kpp .pot p) P.region := by
  have := (integrableOn_region p P (fun x y z => 1 / rad x y z)).2 (integrableOn_inv_rad _ _ _ _ _ _)
  refine this.congr_fun (fun q _ => (kpp_pot p q).symm) ?_
  exact (measurableSet_rbox _ _ _ _ _ _)

theorem integral_pot (hP : P.Ordered) (p : Pt) : ∫ q in P.region, kpp .pot p q = Vc .pot p P := by
  have := integral_region p P (fun x y z => 1 / rad x y z)
  rw [integral_inv_rad (by linarith [hP.1]) (by linarith [hP.2.1]) (by linarith [hP.2.2])] at this
  simp only [kpp_pot, this, Vc, corr, Kc, Dv, add_zero]

theorem integrableOn_acc_e (p : Pt) (P : Box) : IntegrableOn (kpp .e p) P.region := by
  have := (integrableOn_region p P (fun x y z => x / rad x y z ^ 3)).2 (integrableOn_accel _ _ _ _ _ _)
  refine this.congr_fun (fun q _ => (kpp_e p q).symm) ?_
  exact (measurableSet_rbox _ _ _ _ _ _)

theorem integral_acc_e (hP : P.Ordered) (p : Pt) : ∫ q in P.region, kpp .e p q = Vc .e p P := by
  have := integral_region p P (fun x y z => x / rad x y z ^ 3)
  rw [integral_accel (by linarith [hP.1]) (by linarith [hP.2.1]) (by linarith [hP.2.2])] at this
  simp only [kpp_e, this, Vc, corr, Kc, Dv, add_zero]

theorem kpp_swap (c : GComp) (s : Swap) (p q : Pt) :
    kpp (c.swap s).toK (p.swap s) (q.swap s) = kpp c.toK p q := by
  unfold kpp
  cases s <;> simp only [Pt.swap, Pt.e, Pt.n, Pt.u]
  · have := rad_perm1 (p.1 - q.1) (p.2.1 - q.2.1) (p.2.2 - q.2.2)
    cases c <;> simp only [GComp.swap, GComp.toK, kp, this] <;> ring
  · have : rad (p.2.2 - q.2.2) (p.2.1 - q.2.1) (p.1 - q.1) = rad (p.1 - q.1) (p.2.1 - q.2.1) (p.2.2 - q.2.2) := by
      unfold rad; congr 1; ring
    cases c <;> simp only [GComp.swap, GComp.toK, kp, this] <;> ring
  · have := rad_perm2 (p.1 - q.1) (p.2.1 - q.2.1) (p.2.2 - q.2.2)
    cases c <;> simp only [GComp.swap, GComp.toK, kp, this] <;> ring

/-- The potential and the acceleration of a prism are the integrals of the kernels of its mass
elements, and those integrals exist, at every observation point. -/
theorem integral_low (hP : P.Ordered) (c : GComp) (hc : c.letters ≤ 1) (p : Pt) :
    IntegrableOn (kpp c.toK p) P.region ∧ ∫ q in P.region, kpp c.toK p q = Vc c p P := by
  have tr : ∀ (c : GComp) (s : Swap),
      IntegrableOn (kpp (c.swap s).toK (p.swap s)) (P.swap s).region ∧
        ∫ q in (P.swap s).region, kpp (c.swap s).toK (p.swap s) q = Vc (c.swap s) (p.swap s) (P.swap s) →
      IntegrableOn (kpp c.toK p) P.region ∧ ∫ q in P.region, kpp c.toK p q = Vc c p P := by
    rintro c s ⟨h1, h2⟩
    rw [Vc_swap, ← integral_swap] at h2
    rw [← integrableOn_swap] at h1
    simp only [kpp_swap] at h1 h2
    exact ⟨h1, h2⟩
  cases c <;> simp [GComp.letters, GComp.index] at hc
  · exact ⟨integrableOn_pot p P, integral_pot hP p⟩
  · exact ⟨integrableOn_acc_e p P, integral_acc_e hP p⟩
  · exact tr .n .en ⟨integrableOn_acc_e _ _, integral_acc_e (hP.swap .en) _⟩
  · exact tr .u .eu ⟨integrableOn_acc_e _ _, integral_acc_e (hP.swap .eu) _⟩

end Choclo
