import Verif.Lemmas.MagCalc

/-! # Derivatives of the magnetic field at exterior points -/

namespace Choclo

open Real Filter Topology Classical

/-- unit vector along an axis -/
noncomputable def unitVec : Axis → Vec
  | .e => (1, 0, 0)
  | .n => (0, 1, 0)
  | .u => (0, 0, 1)

/-- the third-order entry for three axes -/
noncomputable def W3 (a b k : Axis) (p : Pt) (P : Box) : ℝ :=
  Bc (gradComp a k) p P (unitVec b).e (unitVec b).n (unitVec b).u

theorem gradComp_swap (a b : Axis) (s : Swap) : gradComp (a.swap s) (b.swap s) = (gradComp a b).swap s := by
  cases a <;> cases b <;> cases s <;> rfl

theorem unitVec_swap (a : Axis) (s : Swap) : unitVec (a.swap s) = (unitVec a).swap s := by
  cases a <;> cases s <;> rfl

theorem W3_swap (a b k : Axis) (p : Pt) (P : Box) (s : Swap) :
    W3 (a.swap s) (b.swap s) (k.swap s) (p.swap s) (P.swap s) = W3 a b k p P := by
  unfold W3
  rw [gradComp_swap, unitVec_swap, Bc_swap]

theorem W3_comm (a b k : Axis) (p : Pt) (P : Box) : W3 a b k p P = W3 b a k p P := by
  cases a <;> cases b <;> cases k <;>
    simp [W3, Bc, Wc, gradComp, unitVec, Pt.e, Pt.n, Pt.u]

theorem Bc_field (a : Axis) (p : Pt) (P : Box) (M : Vec) : Bc a.field p P M.e M.n M.u =
    M.e * Vc (tensor a .e) p P + M.n * Vc (tensor a .n) p P + M.u * Vc (tensor a .u) p P := by
  cases a <;> rfl

theorem Bc_grad (a k : Axis) (p : Pt) (P : Box) (M : Vec) : Bc (gradComp a k) p P M.e M.n M.u =
    M.e * W3 a .e k p P + M.n * W3 a .n k p P + M.u * W3 a .u k p P := by
  unfold W3 Bc
  simp only [unitVec, Pt.e, Pt.n, Pt.u]; ring

theorem tensor_comm (a b : Axis) : tensor a b = tensor b a := by cases a <;> cases b <;> rfl
theorem gradComp_comm (a b : Axis) : gradComp a b = gradComp b a := by cases a <;> cases b <;> rfl

theorem hasDerivAt_tensor (a b k : Axis) {p : Pt} {P : Box} (hP : P.Ordered) (h : p ∉ P.region) :
    HasDerivAt (fun t => Vc (tensor a b) (p.set k t) P) (W3 a b k p P) (p.coord k) := by
  let D : Axis → Axis → Axis → Prop := fun a b k => ∀ (p : Pt) (P : Box), P.Ordered → p ∉ P.region →
    HasDerivAt (fun t => Vc (tensor a b) (p.set k t) P) (W3 a b k p P) (p.coord k)
  have comm : ∀ {a b k}, D a b k → D b a k := by
    intro a b k H p P hP h
    rw [tensor_comm b a, W3_comm b a]; exact H p P hP h
  have step : ∀ (s : Swap) (a b k : Axis), D (a.swap s) (b.swap s) (k.swap s) → D a b k := by
    intro s a b k H p P hP h
    have := H (p.swap s) (P.swap s) (hP.swap s) (by rwa [region_swap])
    rw [tensor_swap, W3_swap, Pt.coord_swap] at this
    refine this.congr_of_eventuallyEq (Eventually.of_forall fun t => ?_)
    simp only
    rw [← Pt.set_swap, Vc_swap]
  have w1 : ∀ p P, W3 .e .e .e p P = Dv (K3 .eee) p P := fun p P => by
    simp [W3, Bc, Wc, gradComp, unitVec, Pt.e, Pt.n, Pt.u]
  have w2 : ∀ p P, W3 .e .e .n p P = Dv (K3 .een) p P := fun p P => by
    simp [W3, Bc, Wc, gradComp, unitVec, Pt.e, Pt.n, Pt.u]
  have w3 : ∀ p P, W3 .n .u .e p P = Dv (K3 .enu) p P := fun p P => by
    simp [W3, Bc, Wc, gradComp, unitVec, Pt.e, Pt.n, Pt.u]
  have w4 : ∀ p P, W3 .n .u .n p P = Dv (K3 .nnu) p P := fun p P => by
    simp [W3, Bc, Wc, gradComp, unitVec, Pt.e, Pt.n, Pt.u]
  have eee : D .e .e .e := fun p P hP h => by rw [w1]; exact hasDerivAt_Vee_e hP h
  have een : D .e .e .n := fun p P hP h => by rw [w2]; exact hasDerivAt_Vee_n hP h
  have nue : D .n .u .e := fun p P hP h => by rw [w3]; exact hasDerivAt_Vnu_e hP h
  have nun : D .n .u .n := fun p P hP h => by rw [w4]; exact hasDerivAt_Vnu_n hP h
  have nnn := step .en .n .n .n eee
  have uuu := step .eu .u .u .u eee
  have eeu := step .nu .e .e .u een
  have nne := step .en .n .n .e een
  have uun := step .eu .u .u .n een
  have nnu := step .nu .n .n .u uun
  have uue := step .en .u .u .e uun
  have enu := step .eu .e .n .u (comm nue)
  have eun := step .en .e .u .n nue
  have nuu := step .nu .n .u .u (comm nun)
  have eue := step .en .e .u .e nun
  have enn := step .eu .e .n .n (comm nun)
  have ene := step .nu .e .n .e eue
  have euu := step .en .e .u .u nuu
  have : D a b k := by
    cases a <;> cases b <;> cases k <;> first | assumption | (apply comm; assumption)
  exact this p P hP h

/-- the gradient components are the derivatives of the field -/
theorem hasDerivAt_Bfield (a k : Axis) {p : Pt} {P : Box} (hP : P.Ordered) (h : p ∉ P.region) (M : Vec) :
    HasDerivAt (fun t => Bc a.field (p.set k t) P M.e M.n M.u) (Bc (gradComp a k) p P M.e M.n M.u)
      (p.coord k) := by
  simp only [Bc_field, Bc_grad]
  have H := fun b => hasDerivAt_tensor a b k hP h
  exact (((H .e).const_mul M.e).add ((H .n).const_mul M.n)).add ((H .u).const_mul M.u)

end Choclo
