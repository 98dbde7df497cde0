import Verif.Lemmas.Continuity2
import Verif.Lemmas.Flux2
import Verif.Props.Dipole
import Verif.Props.PrismMagCalc
import Verif.Props.PrismIntegral
import Mathlib.Analysis.SpecialFunctions.Trigonometric.Deriv

/-! # C69, C70: continuity, total derivatives, conservative fields -/

namespace Choclo

open Real Set MeasureTheory Filter Topology

variable {P : Box}

/-! ## C69 -/

/-- The potential of a prism is a continuous function of the observation point, on all of space. -/
theorem C69_potential_continuous (hP : P.Ordered) (ρ : ℝ) : ∃ V : Pt → ℝ, Continuous V ∧
    ∀ p, Returns (onPrism (A := Exact) prism.gravity_pot p P ρ) (V p) :=
  ⟨fun p => Gc * ρ * Vc .pot p P, continuous_const.mul (continuous_Vpot hP), fun p => Ex.gravity_pot_eval p P ρ⟩

/-- So is every component of the acceleration: no jump at the surface, the edges or the vertices. -/
theorem C69_acceleration_continuous (hP : P.Ordered) (a : Axis) (ρ : ℝ) : ∃ g : Pt → ℝ, Continuous g ∧
    ∀ p, Returns (onPrism (A := Exact) (prismGravity a.acc) p P ρ) (g p) :=
  ⟨fun p => Gc * ρ * Vc a.acc p P, continuous_const.mul (continuous_Vacc hP a), fun p => acc_returns a p P ρ⟩

/-- The potential is totally differentiable at every point of space: the three acceleration components
give its first-order change for a displacement in any direction. -/
theorem C69_total_derivative (hP : P.Ordered) (ρ : ℝ) : ∃ (V : Pt → ℝ) (g : Axis → Pt → ℝ) (L : Pt → Pt →L[ℝ] ℝ),
    (∀ p, Returns (onPrism (A := Exact) prism.gravity_pot p P ρ) (V p)) ∧
    (∀ a p, Returns (onPrism (A := Exact) (prismGravity a.acc) p P ρ) (g a p)) ∧
    (∀ p w, L p w = g .e p * w.e + g .n p * w.n + g .u p * w.u) ∧ ∀ p, HasFDerivAt V (L p) p := by
  refine ⟨fun p => Gc * ρ * Vc .pot p P, fun a p => Gc * ρ * Vc a.acc p P, fun p => _,
    fun p => Ex.gravity_pot_eval p P ρ, fun a p => acc_returns a p P ρ, ?_, fun p =>
    hasFDerivAt_of_partials (G := fun a p => Gc * ρ * Vc a.acc p P) isOpen_univ
      (fun a p _ => (hasDerivAt_Vpot a p P).const_mul _)
      (fun a => (continuous_const.mul (continuous_Vacc hP a)).continuousOn) (mem_univ p)⟩
  intro p w
  simp only [ContinuousLinearMap.coprod_apply, ContinuousLinearMap.toSpanSingleton_apply, smul_eq_mul, Pt.e, Pt.n,
    Pt.u]
  ring

/-- The gravity tensor of a prism is continuous outside the closed prism. -/
theorem C69_tensor_continuous (hP : P.Ordered) (a b : Axis) (ρ : ℝ) : ∃ T : Pt → ℝ, ContinuousOn T P.regionᶜ ∧
    ∀ p ∉ P.region, Returns (onPrism (A := Exact) (prismGravity (tensor a b)) p P ρ) (T p) :=
  ⟨fun p => Gc * ρ * Vc (tensor a b) p P, continuousOn_const.mul (continuousOn_Vtensor hP a b),
    fun _ hp => Ex.gravity_returns hP (exterior_singular hP hp _) ρ⟩

/-- The magnetic field of a prism and its gradient are continuous outside the closed prism. -/
theorem C69_magnetic_continuous (hP : P.Ordered) (c : MComp) (M : Vec) : ∃ B : Pt → ℝ, ContinuousOn B P.regionᶜ ∧
    ∀ p ∉ P.region, Returns (onPrism (A := Exact) (prismMagnetic c) p P M.e M.n M.u) (B p) := by
  refine ⟨fun p => mu0 / 4 / π * Bc c p P M.e M.n M.u, continuousOn_const.mul ?_, fun p hp =>
    Ex.magnetic_returns hP (exterior_edges hP hp) (fun h' => hp (inside_subset_region h')) _ _ _⟩
  have field : ∀ a : Axis, ContinuousOn (fun p => Bc a.field p P M.e M.n M.u) P.regionᶜ := fun a => by
    simp only [Bc_field]
    exact ((continuousOn_const.mul (continuousOn_Vtensor hP a .e)).add
      (continuousOn_const.mul (continuousOn_Vtensor hP a .n))).add
      (continuousOn_const.mul (continuousOn_Vtensor hP a .u))
  have grad : ∀ a b : Axis, ContinuousOn (fun p => Bc (gradComp a b) p P M.e M.n M.u) P.regionᶜ := fun a b => by
    have k := fun i => continuousOn_integral_kpp (P := P) (kern3 a b i)
    refine ((((k .e).mul_const M.e).add ((k .n).mul_const M.n)).add ((k .u).mul_const M.u)).congr fun p hp => ?_
    have i := fun c => integrableOn_kpp (P := P) c hp
    rw [Bc_grad_integral hP a b hp, integral_lin3 (i _) (i _) (i _)]
    rfl
  cases c
  · exact field .e
  · exact field .n
  · exact field .u
  · exact grad .e .e
  · exact grad .n .n
  · exact grad .u .u
  · exact grad .e .n
  · exact grad .e .u
  · exact grad .n .u

/-- the boundary point (1, 1, 0) is a vertex, (0, 0, 3) is outside -/
example : exBox.Ordered ∧ ((1, 1, 0) : Pt) ∈ exBox.edges ∧ ((0, 0, 3) : Pt) ∉ exBox.region := by
  refine ⟨exBox_ordered, ?_, ?_⟩ <;> norm_num [exBox, Box.edges, Box.edgesE, Box.edgesN, Box.edgesU, Box.region]

/-! ## C70 -/

variable {γ γ' : ℝ → Pt} {s₀ s₁ : ℝ}

/-- The work of the gravity of a prism along any path, which may start, end or pass inside the
prism, through its faces, edges and vertices, is the difference of the potential between its ends. -/
theorem C70_prism_gravity (hP : P.Ordered) (hγ : IsPath γ γ' s₀ s₁) (ρ : ℝ) :
    ∃ V₀ V₁, Returns (onPrism (A := Exact) prism.gravity_pot (γ s₀) P ρ) V₀ ∧
      Returns (onPrism (A := Exact) prism.gravity_pot (γ s₁) P ρ) V₁ ∧
      HasWork (fun a p => onPrism (A := Exact) (prismGravity a.acc) p P ρ) γ γ' s₀ s₁ (V₁ - V₀) :=
  ⟨_, _, Ex.gravity_pot_eval _ P ρ, Ex.gravity_pot_eval _ P ρ, fun a p => Gc * ρ * Vc a.acc p P,
    fun a _ _ => acc_returns a _ P ρ, line_integral (F := fun p => Gc * ρ * Vc .pot p P) isOpen_univ
      (fun a p _ => (hasDerivAt_Vpot a p P).const_mul _)
      (fun a => (continuous_const.mul (continuous_Vacc hP a)).continuousOn) hγ fun _ _ => mem_univ _⟩

/-- No perpetual motion: the work along a closed path is zero. -/
theorem C70_prism_gravity_closed (hP : P.Ordered) (hγ : IsPath γ γ' s₀ s₁) (hc : γ s₁ = γ s₀) (ρ : ℝ) :
    HasWork (fun a p => onPrism (A := Exact) (prismGravity a.acc) p P ρ) γ γ' s₀ s₁ 0 := by
  obtain ⟨V₀, V₁, h₀, h₁, h⟩ := C70_prism_gravity hP hγ ρ
  rw [hc] at h₁
  have : V₁ = V₀ := by
    unfold Returns at h₀ h₁
    rw [h₀] at h₁
    injection h₁ with e
    injection e with e
    exact e.symm
  rwa [this, sub_self] at h

theorem continuousOn_kpp1 (c : KComp) (q : Pt) : ContinuousOn (fun p => kpp c p q) {q}ᶜ := by
  have := continuousOn_kpp c
  exact this.comp (f := fun p : Pt => ((p, q) : Pt × Pt)) (by fun_prop) fun p hp => hp

theorem kpp_hasDeriv {c c' : KComp} {a : Axis} (hc : c.Succ c' a) {p q : Pt} (h : p ≠ q) :
    HasDerivAt (fun t => kpp c (p.set a t) q) (kpp c' p q) (p.coord a) := kp_deriv c c' a hc h

/-- The same for a point mass, along every path that avoids it. -/
theorem C70_point_gravity (q : Pt) (hγ : IsPath γ γ' s₀ s₁) (h : ∀ t ∈ Icc s₀ s₁, γ t ≠ q) (m : ℝ) :
    ∃ V₀ V₁, Returns (onPair (A := Exact) (pointGravity .pot) (γ s₀) q m) V₀ ∧
      Returns (onPair (A := Exact) (pointGravity .pot) (γ s₁) q m) V₁ ∧
      HasWork (fun a p => onPair (A := Exact) (pointGravity a.acc) p q m) γ γ' s₀ s₁ (V₁ - V₀) := by
  have hs := hγ.1
  refine ⟨_, _, Ex.pointGravity_fin _ (h _ (left_mem_Icc.2 hs)) m, Ex.pointGravity_fin _ (h _ (right_mem_Icc.2 hs)) m,
    fun a p => Gc * m * kpp a.acc.toK p q, fun a t ht => Ex.pointGravity_fin _ (h t ht) m, ?_⟩
  exact line_integral (F := fun p => Gc * m * kpp .pot p q)
      (G := fun a p => Gc * m * kpp a.acc.toK p q) isOpen_compl_singleton
      (fun a p hp => (kpp_hasDeriv (by cases a <;> rfl) hp).const_mul _)
      (fun a => continuousOn_const.mul (continuousOn_kpp1 _ q)) hγ h

/-- Integrating a row of the gravity tensor of a prism along a path outside it gives the change of
the corresponding acceleration component. -/
theorem C70_prism_tensor (hP : P.Ordered) (b : Axis) (hγ : IsPath γ γ' s₀ s₁)
    (h : ∀ t ∈ Icc s₀ s₁, γ t ∉ P.region) (ρ : ℝ) :
    ∃ g₀ g₁, Returns (onPrism (A := Exact) (prismGravity b.acc) (γ s₀) P ρ) g₀ ∧
      Returns (onPrism (A := Exact) (prismGravity b.acc) (γ s₁) P ρ) g₁ ∧
      HasWork (fun a p => onPrism (A := Exact) (prismGravity (tensor a b)) p P ρ) γ γ' s₀ s₁ (g₁ - g₀) := by
  refine ⟨_, _, acc_returns b _ P ρ, acc_returns b _ P ρ, fun a p => Gc * ρ * Vc (tensor a b) p P,
    fun a t ht => Ex.gravity_returns hP (exterior_singular hP (h t ht) _) ρ, ?_⟩
  exact line_integral (F := fun p => Gc * ρ * Vc b.acc p P)
      (G := fun a p => Gc * ρ * Vc (tensor a b) p P) (isClosed_region P).isOpen_compl
      (fun a p hp => by
        rw [tensor_comm]
        refine HasDerivAt.const_mul _ ?_
        by_cases hab : b = a
        · subst hab; exact hasDerivAt_Vacc_diag b hP fun hf => hp hf.1
        · exact hasDerivAt_Vacc_off hab hP (exterior_singular hP hp _))
      (fun a => continuousOn_const.mul (continuousOn_Vtensor hP a b)) hγ h

/-- The magnetic field of a dipole has no circulation: its line integral along any path that avoids
the dipole is the drop of the scalar potential between the ends. -/
theorem C70_dipole (q m : Pt) (hγ : IsPath γ γ' s₀ s₁) (h : ∀ t ∈ Icc s₀ s₁, γ t ≠ q) :
    HasWork (fun a p => onPair (A := Exact) (dipoleMagnetic a) p q m.e m.n m.u) γ γ' s₀ s₁
      (dipolePotential (γ s₀) q m - dipolePotential (γ s₁) q m) := by
  refine ⟨fun a p => mu0 / 4 / π * (kpp (kern2 a .e) p q * m.e + kpp (kern2 a .n) p q * m.n
      + kpp (kern2 a .u) p q * m.u), fun a t ht => dipole_fin a (h t ht) m, ?_⟩
  have := line_integral (F := fun p => mu0 / 4 / π * (kpp .e p q * m.e + kpp .n p q * m.n + kpp .u p q * m.u))
    (G := fun a p => mu0 / 4 / π * (kpp (kern2 a .e) p q * m.e + kpp (kern2 a .n) p q * m.n
      + kpp (kern2 a .u) p q * m.u)) (isOpen_compl_singleton (x := q))
    (fun a p hp => ((((kpp_hasDeriv (kern_succ .e a) hp).mul_const m.e).add
      ((kpp_hasDeriv (kern_succ .n a) hp).mul_const m.n)).add
      ((kpp_hasDeriv (kern_succ .u a) hp).mul_const m.u)).const_mul _)
    (fun a => continuousOn_const.mul ((((continuousOn_kpp1 _ q).mul continuousOn_const).add
      ((continuousOn_kpp1 _ q).mul continuousOn_const)).add ((continuousOn_kpp1 _ q).mul continuousOn_const))) hγ h
  refine ⟨this.1, this.2.trans ?_⟩
  rw [dipolePotential_eq, dipolePotential_eq]
  simp only [kpp]
  ring

/-- The magnetic field of a prism has no circulation outside it: its line integral along any path
outside the closed prism is the change of `mu0 / (4 pi G)` times the magnetization component of the
unit-density acceleration (Poisson's relation), so it depends on the ends only. -/
theorem C70_prism_magnetic (hP : P.Ordered) (hγ : IsPath γ γ' s₀ s₁) (h : ∀ t ∈ Icc s₀ s₁, γ t ∉ P.region) (M : Vec) :
    ∃ g : Axis → Pt → ℝ, (∀ a p, Returns (onPrism (A := Exact) (prismGravity a.acc) p P (1 : ℝ)) (g a p)) ∧
      HasWork (fun a p => onPrism (A := Exact) (prismMagnetic a.field) p P M.e M.n M.u) γ γ' s₀ s₁
        (1.25663706212e-06 / (4 * π * 6.6743e-11) *
          (M.e * (g .e (γ s₁) - g .e (γ s₀)) + M.n * (g .n (γ s₁) - g .n (γ s₀))
            + M.u * (g .u (γ s₁) - g .u (γ s₀)))) := by
  refine ⟨_, fun a p => acc_returns a p P 1, fun a p => mu0 / 4 / π * Bc a.field p P M.e M.n M.u, fun a t ht =>
    Ex.magnetic_returns hP (exterior_edges hP (h t ht)) (fun h' => h t ht (inside_subset_region h')) _ _ _, ?_⟩
  have d : ∀ b a, ∀ p ∉ P.region, HasDerivAt (fun t => Vc b.acc (p.set a t) P) (Vc (tensor a b) p P) (p.coord a) := by
    intro b a p hp
    rw [tensor_comm]
    by_cases hab : b = a
    · subst hab; exact hasDerivAt_Vacc_diag b hP fun hf => hp (hf.1)
    · exact hasDerivAt_Vacc_off hab hP (exterior_singular hP hp _)
  have := line_integral (F := fun p => mu0 / 4 / π * (M.e * Vc (Axis.acc .e) p P + M.n * Vc (Axis.acc .n) p P
      + M.u * Vc (Axis.acc .u) p P))
    (G := fun a p => mu0 / 4 / π * (M.e * Vc (tensor a .e) p P + M.n * Vc (tensor a .n) p P
      + M.u * Vc (tensor a .u) p P)) (isClosed_region P).isOpen_compl
    (fun a p hp => ((((d .e a p hp).const_mul M.e).add ((d .n a p hp).const_mul M.n)).add
      ((d .u a p hp).const_mul M.u)).const_mul _)
    (fun a => continuousOn_const.mul (((continuousOn_const.mul (continuousOn_Vtensor hP a .e)).add
      (continuousOn_const.mul (continuousOn_Vtensor hP a .n))).add
      (continuousOn_const.mul (continuousOn_Vtensor hP a .u)))) hγ h
  simp only [Bc_field]
  refine ⟨this.1, this.2.trans ?_⟩
  have hG : Gc ≠ 0 := Gc_pos.ne'
  have e1 : (6.6743e-11 : ℝ) = Gc := rfl
  have e2 : (1.25663706212e-06 : ℝ) = mu0 := rfl
  rw [e1, e2]
  field_simp
  ring

/-- a closed path through the example prism (a circle in a horizontal plane) and one outside it -/
example (z : ℝ) : IsPath (fun t => (2 * cos t, 2 * sin t, z)) (fun t => (2 * -sin t, 2 * cos t, 0)) 0 (2 * π) ∧
    ((2 * cos (2 * π), 2 * sin (2 * π), z) : Pt) = (2 * cos 0, 2 * sin 0, z) := by
  refine ⟨⟨by positivity, by fun_prop, fun t _ => ?_, by fun_prop⟩, by simp⟩
  exact ((hasDerivAt_cos t).const_mul 2).prodMk (((hasDerivAt_sin t).const_mul 2).prodMk (hasDerivAt_const t z))

example (t : ℝ) : ((2 * cos t, 2 * sin t, 1) : Pt) ∉ exBox.region ∧ ((2 * cos t, 2 * sin t, 1) : Pt) ≠ (0, 0, 0) := by
  constructor
  · rintro ⟨_, _, h⟩; norm_num [exBox] at h
  · intro h; norm_num at h

end Choclo
