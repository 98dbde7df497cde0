import Verif.Lemmas.TensorSigns
import Verif.Props.NaN

/-! # C97: signs of the tensor components of a prism -/

namespace Choclo

open Real Set

variable {P : Box}

/-- **C97.** Wherever it is not NaN, an off-diagonal component of a prism has the sign of the density
times the offsets of the point from the centre of the prism along the two axes. In particular it is zero
exactly on the two planes through the centre. -/
theorem C97_off_diagonal (hP : P.Proper) {a b : Axis} (hab : a ≠ b) (ρ : ℝ) (p : Pt)
    (h : ¬ReturnsNaN (onPrism (A := Exact) (prismGravity (tensor a b)) p P ρ)) :
    ∃ v, Returns (onPrism (A := Exact) (prismGravity (tensor a b)) p P ρ) v ∧
      SignType.sign v = SignType.sign (ρ * ((p.coord a - P.centre a) * (p.coord b - P.centre b))) := by
  have hO := hP.ordered
  have hs : p ∉ P.singular (tensor a b) := fun hs => h ((C26_nan_iff hO (tensor a b) p ρ).1.2 hs)
  refine ⟨_, Ex.gravity_returns hO hs ρ, ?_⟩
  rw [sign_mul, sign_mul, _root_.sign_pos Gc_pos, one_mul, Voff_sign hP hab hs, ← sign_mul]

/-- **C97.** Between the two faces of the prism perpendicular to an axis, inside or beside the prism, the
diagonal component of this axis has the opposite sign of the density. -/
theorem C97_between (hP : P.Proper) (a : Axis) {ρ : ℝ} (hρ : ρ ≠ 0) (p : Pt)
    (h1 : P.lo a < p.coord a) (h2 : p.coord a < P.hi a) :
    ∃ v, Returns (onPrism (A := Exact) (prismGravity (tensor a a)) p P ρ) v ∧ ρ * v < 0 := by
  have hO := hP.ordered
  have hs : p ∉ P.singular (tensor a a) := fun hs => by
    cases a <;>
    · simp only [tensor, Box.singular, Box.edgesE, Box.edgesN, Box.edgesU, Set.mem_union, Set.mem_ofPred_eq,
        Box.lo, Box.hi, Pt.coord] at hs h1 h2
      grind
  refine ⟨_, Ex.gravity_returns hO hs ρ, ?_⟩
  have := Vdiag_neg hP a h1 h2
  have h3 : 0 < ρ ^ 2 := by positivity
  nlinarith [mul_pos Gc_pos h3, mul_pos (mul_pos Gc_pos h3) (neg_pos.2 this)]

/-- **C97.** In the column that the prism spans along an axis, on its two end faces and beyond them, the
diagonal component of this axis has the sign of the density, except where it is NaN. -/
theorem C97_column (hP : P.Proper) (a : Axis) {ρ : ℝ} (hρ : ρ ≠ 0) (p : Pt)
    (h : ¬ReturnsNaN (onPrism (A := Exact) (prismGravity (tensor a a)) p P ρ))
    (ho : p.coord a ≤ P.lo a ∨ P.hi a ≤ p.coord a)
    (hc : ∀ b, b ≠ a → P.lo b ≤ p.coord b ∧ p.coord b ≤ P.hi b) :
    ∃ v, Returns (onPrism (A := Exact) (prismGravity (tensor a a)) p P ρ) v ∧ 0 < ρ * v := by
  have hO := hP.ordered
  have hs : p ∉ P.singular (tensor a a) := fun hs => h ((C26_nan_iff hO (tensor a a) p ρ).1.2 hs)
  refine ⟨_, Ex.gravity_returns hO hs ρ, ?_⟩
  have := Vdiag_pos hP a hs ho hc
  have h3 : 0 < ρ ^ 2 := by positivity
  nlinarith [mul_pos Gc_pos h3, mul_pos (mul_pos Gc_pos h3) this]

/-- The centre of the top face of a proper prism is such a point: `gravity_uu` is positive there. -/
example (hP : P.Proper) : ∃ v, Returns (onPrism (A := Exact) (prismGravity .uu)
    (P.centre .e, P.centre .n, P.top) P (1 : ℝ)) v ∧ 0 < (1 : ℝ) * v := by
  have hO := hP.ordered
  obtain ⟨o1, o2, o3⟩ := hP
  refine C97_column ⟨o1, o2, o3⟩ .u one_ne_zero _ ?_ (.inr le_rfl) ?_
  · intro h
    have := (C26_nan_iff hO (tensor .u .u) _ (1 : ℝ)).1.1 h
    simp only [tensor, Box.singular, Box.edgesE, Box.edgesN, Set.mem_union, Set.mem_ofPred_eq, Box.centre,
      Box.lo, Box.hi, Pt.e, Pt.n, Pt.u] at this
    grind
  · intro b hb
    cases b
    · simp only [Box.lo, Box.hi, Pt.coord, Box.centre, Pt.e]; constructor <;> linarith
    · simp only [Box.lo, Box.hi, Pt.coord, Box.centre, Pt.n]; constructor <;> linarith
    · exact absurd rfl hb

end Choclo
