import Verif.Lemmas.Mutual
import Verif.Props.FarField
import Verif.Props.Dipole
import Verif.Lemmas.Flux2

/-! # C77: action and reaction between prisms -/

namespace Choclo

open Real Set MeasureTheory

variable {P Q : Box}

/-- The mutual potential energy of two prisms: integrating the potential of the first over the mass of
the second gives the same as integrating the potential of the second over the mass of the first. The
prisms may overlap. -/
theorem C77_energy (hP : P.Ordered) (hQ : Q.Ordered) (ρ σ : ℝ) :
    ∃ V W : Pt → ℝ,
      (∀ q, Returns (onPrism (A := Exact) prism.gravity_pot q P ρ) (V q)) ∧
      (∀ p, Returns (onPrism (A := Exact) prism.gravity_pot p Q σ) (W p)) ∧
      IntegrableOn V Q.region ∧ IntegrableOn W P.region ∧
      ∫ q in Q.region, σ * V q = ∫ p in P.region, ρ * W p := by
  refine ⟨fun q => Gc * ρ * Vc .pot q P, fun p => Gc * σ * Vc .pot p Q, fun q => Ex.gravity_pot_eval q P ρ,
    fun p => Ex.gravity_pot_eval p Q σ,
    (continuous_const.mul (continuous_Vpot hP)).continuousOn.integrableOn_compact (isCompact_region Q),
    (continuous_const.mul (continuous_Vpot hQ)).continuousOn.integrableOn_compact (isCompact_region P), ?_⟩
  have h := integral_integral_swap (f := fun q p => kpp GComp.pot.toK q p) (integrable_pair hQ hP .pot (by decide))
  simp only [← (integral_low hP .pot (by decide) _).2, ← (integral_low hQ .pot (by decide) _).2]
  rw [integral_const_mul, integral_const_mul, integral_const_mul, integral_const_mul]
  have h' : ∫ q in Q.region, ∫ p in P.region, kpp GComp.pot.toK q p = ∫ p in P.region, ∫ q in Q.region, kpp GComp.pot.toK p q := by
    refine h.trans ?_
    congr 1; funext x; congr 1; funext y
    exact kpp_pot_exchange _ _
  rw [h']; ring

theorem continuous_Vc_acc_integrable (hP : P.Ordered) (a : Axis) (k : ℝ) :
    IntegrableOn (fun q => k * Vc a.acc q P) Q.region :=
  (continuous_const.mul (continuous_Vacc hP a)).continuousOn.integrableOn_compact (isCompact_region Q)

theorem Continuous.integrableOn_region {f : Pt → ℝ} (h : Continuous f) : IntegrableOn f P.region :=
  h.continuousOn.integrableOn_compact (isCompact_region P)

theorem letters_acc (a : Axis) : a.acc.letters ≤ 1 := by cases a <;> decide

theorem third_law (hP : P.Ordered) (hQ : Q.Ordered) (a : Axis) :
    ∫ q in Q.region, Vc a.acc q P = -∫ p in P.region, Vc a.acc p Q := by
  have h := integral_integral_swap (f := fun q p => kpp a.acc.toK q p) (integrable_pair hQ hP a.acc (letters_acc a))
  simp only [← (integral_low hP a.acc (letters_acc a) _).2, ← (integral_low hQ a.acc (letters_acc a) _).2]
  refine h.trans ?_
  rw [← integral_neg]
  congr 1; funext p
  rw [← integral_neg]
  congr 1; funext q
  exact kpp_acc_exchange a p q

/-- Newton's third law: the force of the first prism on the second (its acceleration integrated over
the mass of the second) is opposite to the force of the second on the first. -/
theorem C77_third_law (hP : P.Ordered) (hQ : Q.Ordered) (ρ σ : ℝ) (a : Axis) :
    ∃ F G : Pt → ℝ,
      (∀ q, Returns (onPrism (A := Exact) (prismGravity a.acc) q P ρ) (F q)) ∧
      (∀ p, Returns (onPrism (A := Exact) (prismGravity a.acc) p Q σ) (G p)) ∧
      IntegrableOn F Q.region ∧ IntegrableOn G P.region ∧
      ∫ q in Q.region, σ * F q = -∫ p in P.region, ρ * G p := by
  refine ⟨fun q => Gc * ρ * Vc a.acc q P, fun p => Gc * σ * Vc a.acc p Q, fun q => acc_returns a q P ρ,
    fun p => acc_returns a p Q σ, continuous_Vc_acc_integrable hP a _, continuous_Vc_acc_integrable hQ a _, ?_⟩
  rw [integral_const_mul, integral_const_mul, integral_const_mul, integral_const_mul, third_law hP hQ a]
  ring

/-- A prism exerts no net force on itself. -/
theorem C77_no_self_force (hP : P.Ordered) (ρ : ℝ) (a : Axis) :
    ∃ F : Pt → ℝ, (∀ q, Returns (onPrism (A := Exact) (prismGravity a.acc) q P ρ) (F q)) ∧
      IntegrableOn F P.region ∧ ∫ q in P.region, ρ * F q = 0 := by
  refine ⟨fun q => Gc * ρ * Vc a.acc q P, fun q => acc_returns a q P ρ, continuous_Vc_acc_integrable hP a _, ?_⟩
  rw [integral_const_mul, integral_const_mul]
  have := third_law hP hP a
  have h0 : ∫ q in P.region, Vc a.acc q P = 0 := by linarith
  rw [h0]; ring

/-- The torques balance too: the moment, about the origin, of the force of the first prism on the
second and of the second on the first are opposite. (Components `a b` of the cross product.) -/
theorem C77_torque (hP : P.Ordered) (hQ : Q.Ordered) (ρ σ : ℝ) (a b : Axis) :
    ∃ F G : Axis → Pt → ℝ,
      (∀ c q, Returns (onPrism (A := Exact) (prismGravity c.acc) q P ρ) (F c q)) ∧
      (∀ c p, Returns (onPrism (A := Exact) (prismGravity c.acc) p Q σ) (G c p)) ∧
      IntegrableOn (fun q => σ * (q.coord a * F b q - q.coord b * F a q)) Q.region ∧
      IntegrableOn (fun p => ρ * (p.coord a * G b p - p.coord b * G a p)) P.region ∧
      ∫ q in Q.region, σ * (q.coord a * F b q - q.coord b * F a q) =
        -∫ p in P.region, ρ * (p.coord a * G b p - p.coord b * G a p) := by
  refine ⟨fun c q => Gc * ρ * Vc c.acc q P, fun c p => Gc * σ * Vc c.acc p Q, fun c q => acc_returns c q P ρ,
    fun c p => acc_returns c p Q σ, ?_, ?_, ?_⟩
  · exact Continuous.integrableOn_region (continuous_const.mul (((continuous_coord a).mul (continuous_const.mul
      (continuous_Vacc hP b))).sub ((continuous_coord b).mul (continuous_const.mul (continuous_Vacc hP a)))))
  · exact Continuous.integrableOn_region (continuous_const.mul (((continuous_coord a).mul (continuous_const.mul
      (continuous_Vacc hQ b))).sub ((continuous_coord b).mul (continuous_const.mul (continuous_Vacc hQ a)))))
  have ip := fun c : Axis => integrable_pair hQ hP c.acc (letters_acc c)
  have iq : ∀ a b : Axis, Integrable (fun w : Pt × Pt => w.1.coord a * kpp b.acc.toK w.1 w.2)
      ((volume.restrict Q.region).prod (volume.restrict P.region)) := fun a b =>
    integrable_pair_mul ((continuous_coord a).comp continuous_fst) (ip b)
  have ir : ∀ a b : Axis, Integrable (fun w : Pt × Pt => w.2.coord a * kpp b.acc.toK w.1 w.2)
      ((volume.restrict Q.region).prod (volume.restrict P.region)) := fun a b =>
    integrable_pair_mul ((continuous_coord a).comp continuous_snd) (ip b)
  have l1 : ∫ q in Q.region, (q.coord a * Vc b.acc q P - q.coord b * Vc a.acc q P) =
      ∫ w, (w.1.coord a * kpp b.acc.toK w.1 w.2 - w.1.coord b * kpp a.acc.toK w.1 w.2)
        ∂((volume.restrict Q.region).prod (volume.restrict P.region)) := by
    refine Eq.trans ?_ (integral_prod (fun w : Pt × Pt => w.1.coord a * kpp b.acc.toK w.1 w.2 -
      w.1.coord b * kpp a.acc.toK w.1 w.2) ((iq a b).sub (iq b a))).symm
    congr 1; funext q
    rw [← (integral_low hP b.acc (letters_acc b) q).2, ← (integral_low hP a.acc (letters_acc a) q).2,
      ← integral_const_mul, ← integral_const_mul, ← integral_sub]
    · exact (integral_low hP b.acc (letters_acc b) q).1.const_mul _
    · exact (integral_low hP a.acc (letters_acc a) q).1.const_mul _
  have l2 : ∫ p in P.region, (p.coord a * Vc b.acc p Q - p.coord b * Vc a.acc p Q) =
      -∫ w, (w.2.coord a * kpp b.acc.toK w.1 w.2 - w.2.coord b * kpp a.acc.toK w.1 w.2)
        ∂((volume.restrict Q.region).prod (volume.restrict P.region)) := by
    refine Eq.trans ?_ (congrArg Neg.neg (integral_prod_symm (fun w : Pt × Pt => w.2.coord a * kpp b.acc.toK w.1 w.2 -
      w.2.coord b * kpp a.acc.toK w.1 w.2) ((ir a b).sub (ir b a))).symm)
    rw [← integral_neg]
    congr 1; funext p
    rw [← (integral_low hQ b.acc (letters_acc b) p).2, ← (integral_low hQ a.acc (letters_acc a) p).2,
      ← integral_const_mul, ← integral_const_mul, ← integral_sub, ← integral_neg]
    · congr 1; funext q
      rw [kpp_acc_exchange b q p, kpp_acc_exchange a q p]; ring
    · exact (integral_low hQ b.acc (letters_acc b) p).1.const_mul _
    · exact (integral_low hQ a.acc (letters_acc a) p).1.const_mul _
  have l3 : ∫ w, (w.1.coord a * kpp b.acc.toK w.1 w.2 - w.1.coord b * kpp a.acc.toK w.1 w.2)
        ∂((volume.restrict Q.region).prod (volume.restrict P.region)) =
      ∫ w, (w.2.coord a * kpp b.acc.toK w.1 w.2 - w.2.coord b * kpp a.acc.toK w.1 w.2)
        ∂((volume.restrict Q.region).prod (volume.restrict P.region)) := by
    congr 1; funext w
    linarith [kpp_central a b w.1 w.2]
  have e1 : ∀ q : Pt, σ * (q.coord a * (Gc * ρ * Vc b.acc q P) - q.coord b * (Gc * ρ * Vc a.acc q P)) =
      σ * Gc * ρ * (q.coord a * Vc b.acc q P - q.coord b * Vc a.acc q P) := fun q => by ring
  have e2 : ∀ p : Pt, ρ * (p.coord a * (Gc * σ * Vc b.acc p Q) - p.coord b * (Gc * σ * Vc a.acc p Q)) =
      σ * Gc * ρ * (p.coord a * Vc b.acc p Q - p.coord b * Vc a.acc p Q) := fun p => by ring
  simp only [e1, e2]
  rw [integral_const_mul, integral_const_mul, l1, l2, l3]
  ring

/-! ### magnetized prisms -/

theorem integrable_pair_disjoint (h : Disjoint P.region Q.region) (c : KComp) :
    Integrable (fun w : Pt × Pt => kpp c w.1 w.2)
      ((volume.restrict Q.region).prod (volume.restrict P.region)) := by
  rw [Measure.prod_restrict]
  refine ContinuousOn.integrableOn_compact ((isCompact_region Q).prod (isCompact_region P)) ?_
  exact (continuousOn_kpp c).mono fun w hw he => Set.disjoint_left.1 h hw.2 (he ▸ hw.1)

theorem tensor_reciprocity (hP : P.Ordered) (hQ : Q.Ordered) (h : Disjoint P.region Q.region) (a b : Axis) :
    IntegrableOn (fun q => Vc (tensor a b) q P) Q.region ∧
    ∫ q in Q.region, Vc (tensor a b) q P = ∫ p in P.region, Vc (tensor b a) p Q := by
  have i := integrable_pair_disjoint h (kern2 a b)
  have e1 : EqOn (fun q => ∫ p in P.region, kpp (kern2 a b) q p) (fun q => Vc (tensor a b) q P) Q.region :=
    fun q hq => (Vtensor_eq hP a b (Set.disjoint_right.1 h hq)).symm
  have e2 : EqOn (fun p => ∫ q in Q.region, kpp (kern2 b a) p q) (fun p => Vc (tensor b a) p Q) P.region :=
    fun p hp => (Vtensor_eq hQ b a (Set.disjoint_left.1 h hp)).symm
  constructor
  · have i' : IntegrableOn (fun q => ∫ p in P.region, kpp (kern2 a b) q p) Q.region := i.integral_prod_left
    exact i'.congr_fun e1 (measurableSet_region Q)
  · rw [← setIntegral_congr_fun (measurableSet_region Q) e1, ← setIntegral_congr_fun (measurableSet_region P) e2,
      integral_integral_swap (f := fun q p => kpp (kern2 a b) q p) i]
    congr 1; funext p; congr 1; funext q
    have : kern2 b a = kern2 a b := by cases a <;> cases b <;> rfl
    unfold kpp
    rw [this, ← neg_sub p.e, ← neg_sub p.n, ← neg_sub p.u, kp2_neg]

/-- Magnetic reciprocity: the interaction energy of two disjoint magnetized prisms, the integral of the
field of one scalar the magnetization of the other, is the same either way. -/
theorem C77_magnetic (hP : P.Ordered) (hQ : Q.Ordered) (h : Disjoint P.region Q.region) (M N : Vec) :
    ∃ B C : Axis → Pt → ℝ,
      (∀ a, ∀ q ∈ Q.region, Returns (onPrism (A := Exact) (prismMagnetic a.field) q P M.e M.n M.u) (B a q)) ∧
      (∀ a, ∀ p ∈ P.region, Returns (onPrism (A := Exact) (prismMagnetic a.field) p Q N.e N.n N.u) (C a p)) ∧
      (∀ a, IntegrableOn (B a) Q.region ∧ IntegrableOn (C a) P.region) ∧
      ∫ q in Q.region, (N.e * B .e q + N.n * B .n q + N.u * B .u q) =
        ∫ p in P.region, (M.e * C .e p + M.n * C .n p + M.u * C .u p) := by
  have hx : ∀ q ∈ Q.region, q ∉ P.region := fun q hq => Set.disjoint_right.1 h hq
  have hy : ∀ p ∈ P.region, p ∉ Q.region := fun p hp => Set.disjoint_left.1 h hp
  have r := fun a b => tensor_reciprocity hP hQ h a b
  have r' := fun a b => tensor_reciprocity hQ hP h.symm a b
  have lin : ∀ {S : Set Pt} {f1 f2 f3 : Pt → ℝ}, IntegrableOn f1 S → IntegrableOn f2 S → IntegrableOn f3 S →
      ∀ x y z : ℝ, IntegrableOn (fun q => x * f1 q + y * f2 q + z * f3 q) S ∧
        ∫ q in S, (x * f1 q + y * f2 q + z * f3 q) =
          x * (∫ q in S, f1 q) + y * (∫ q in S, f2 q) + z * ∫ q in S, f3 q :=
    fun h1 h2 h3 x y z => by
      refine ⟨((h1.const_mul x).add (h2.const_mul y)).add (h3.const_mul z), ?_⟩
      have := integral_lin3 h1 h2 h3 x y z
      simp only [mul_comm _ x, mul_comm _ y, mul_comm _ z] at this
      exact this
  have l : ∀ a, IntegrableOn (fun q => mu0 / 4 / π * Bc a.field q P M.e M.n M.u) Q.region ∧
      ∫ q in Q.region, mu0 / 4 / π * Bc a.field q P M.e M.n M.u = mu0 / 4 / π *
        (M.e * (∫ q in Q.region, Vc (tensor a .e) q P) + M.n * (∫ q in Q.region, Vc (tensor a .n) q P) +
          M.u * ∫ q in Q.region, Vc (tensor a .u) q P) := fun a => by
    simp only [Bc_field]
    have := lin (r a .e).1 (r a .n).1 (r a .u).1 M.e M.n M.u
    exact ⟨this.1.const_mul _, by rw [integral_const_mul, this.2]⟩
  have l' : ∀ a, IntegrableOn (fun q => mu0 / 4 / π * Bc a.field q Q N.e N.n N.u) P.region ∧
      ∫ q in P.region, mu0 / 4 / π * Bc a.field q Q N.e N.n N.u = mu0 / 4 / π *
        (N.e * (∫ q in P.region, Vc (tensor a .e) q Q) + N.n * (∫ q in P.region, Vc (tensor a .n) q Q) +
          N.u * ∫ q in P.region, Vc (tensor a .u) q Q) := fun a => by
    simp only [Bc_field]
    have := lin (r' a .e).1 (r' a .n).1 (r' a .u).1 N.e N.n N.u
    exact ⟨this.1.const_mul _, by rw [integral_const_mul, this.2]⟩
  refine ⟨fun a q => mu0 / 4 / π * Bc a.field q P M.e M.n M.u, fun a p => mu0 / 4 / π * Bc a.field p Q N.e N.n N.u,
    fun a q hq => Ex.magnetic_returns hP (exterior_edges hP (hx q hq)) (fun h' => hx q hq (inside_subset_region h')) _ _ _,
    fun a p hp => Ex.magnetic_returns hQ (exterior_edges hQ (hy p hp)) (fun h' => hy p hp (inside_subset_region h')) _ _ _,
    fun a => ⟨(l a).1, (l' a).1⟩, ?_⟩
  rw [(lin (l .e).1 (l .n).1 (l .u).1 N.e N.n N.u).2, (lin (l' .e).1 (l' .n).1 (l' .u).1 M.e M.n M.u).2,
    (l .e).2, (l .n).2, (l .u).2, (l' .e).2, (l' .n).2, (l' .u).2]
  simp only [fun a b => (r a b).2]
  ring

/-- two prisms that touch no common point, and two that overlap -/
example : exBox.Ordered ∧ (exBox.shift (100, 0, 0)).Ordered ∧ Disjoint exBox.region (exBox.shift (100, 0, 0)).region ∧
    (exBox.shift (1, 0, 0)).Ordered := by
  refine ⟨exBox_ordered, ?_, ?_, ?_⟩
  · norm_num [exBox, Box.shift, Box.Ordered]
  · rw [Set.disjoint_left]
    rintro q ⟨⟨-, h1⟩, -⟩ ⟨⟨h2, -⟩, -⟩
    norm_num [exBox, Box.shift] at h1 h2
    linarith
  · norm_num [exBox, Box.shift, Box.Ordered]

end Choclo
