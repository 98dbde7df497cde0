import Verif.Lemmas.Signs
import Verif.Lemmas.MixedField

/-! # Sign symmetry of the operations on float32 and float64 numbers -/

namespace Choclo

/-- The same outcome with the returned number (a float32 or a float64) negated. -/
def Mixed.negated {S D : Arith} (call : Py (MFl S D)) : Py (MFl S D) := do return -(← call)

namespace MFl

variable {S D : Arith}

theorem up_neg (x : Fl S) : (Fl.up (-x) : Fl D) = -(Fl.up x) := by
  cases x <;> rfl

theorem toD_neg (a : MFl S D) : (-a).toD = -a.toD := by
  cases a with
  | f32 x => exact up_neg x
  | f64 x => rfl

theorem widen_neg (a : MFl S D) : (-a).widen = -a.widen := congrArg MFl.f64 (toD_neg a)

theorem neg_neg' (a : MFl S D) : - -a = a := by
  cases a with
  | f32 x => exact congrArg MFl.f32 (Fl.neg_neg' x)
  | f64 x => exact congrArg MFl.f64 (Fl.neg_neg' x)

theorem add_neg_neg (hS : S.SignSymmetric) (hD : D.SignSymmetric) (a b : MFl S D) : -a + -b = -(a + b) := by
  cases a with
  | f32 x =>
    cases b with
    | f32 y => exact congrArg MFl.f32 (Fl.add_neg_neg hS x y)
    | f64 y => exact congrArg MFl.f64 ((congrArg (· + -y) (up_neg x)).trans (Fl.add_neg_neg hD x.up y))
  | f64 x =>
    cases b with
    | f32 y => exact congrArg MFl.f64 ((congrArg (-x + ·) (up_neg y)).trans (Fl.add_neg_neg hD x y.up))
    | f64 y => exact congrArg MFl.f64 (Fl.add_neg_neg hD x y)

theorem add_comm' (a b : MFl S D) : a + b = b + a := by
  cases a with
  | f32 x =>
    cases b with
    | f32 y => exact congrArg MFl.f32 (Fl.add_comm' x y)
    | f64 y => exact congrArg MFl.f64 (Fl.add_comm' x.up y)
  | f64 x =>
    cases b with
    | f32 y => exact congrArg MFl.f64 (Fl.add_comm' x y.up)
    | f64 y => exact congrArg MFl.f64 (Fl.add_comm' x y)

theorem sub_def (a b : MFl S D) : a - b = a + -b := by
  cases a with
  | f32 x => cases b <;> rfl
  | f64 x =>
    cases b with
    | f32 y => exact congrArg MFl.f64 (congrArg (x + ·) (up_neg y).symm)
    | f64 y => rfl

theorem sub_swap (hS : S.SignSymmetric) (hD : D.SignSymmetric) (a b : MFl S D) : b - a = -(a - b) := by
  rw [sub_def, sub_def, ← add_neg_neg hS hD, neg_neg', add_comm']

theorem neg_sub_neg' (hS : S.SignSymmetric) (hD : D.SignSymmetric) (a b : MFl S D) : -a - -b = -(a - b) := by
  rw [sub_def, sub_def, add_neg_neg hS hD]

theorem neg_mul' (hS : S.SignSymmetric) (hD : D.SignSymmetric) (a b : MFl S D) : -a * b = -(a * b) := by
  cases a with
  | f32 x =>
    cases b with
    | f32 y => exact congrArg MFl.f32 (Fl.neg_mul' hS x y)
    | f64 y => exact congrArg MFl.f64 ((congrArg (· * y) (up_neg x)).trans (Fl.neg_mul' hD x.up y))
  | f64 x =>
    cases b with
    | f32 y => exact congrArg MFl.f64 (Fl.neg_mul' hD x y.up)
    | f64 y => exact congrArg MFl.f64 (Fl.neg_mul' hD x y)

theorem mul_neg' (hS : S.SignSymmetric) (hD : D.SignSymmetric) (a b : MFl S D) : a * -b = -(a * b) := by
  rw [mul_comm', neg_mul' hS hD, mul_comm']

theorem pow_neg_even (hS : S.SignSymmetric) (hD : D.SignSymmetric) (a : MFl S D) {n : ℕ} (hn : Even n) :
    (-a) ^ n = a ^ n := by
  cases a with
  | f32 x => exact congrArg MFl.f32 (Fl.pow_neg_even hS x hn)
  | f64 x => exact congrArg MFl.f64 (Fl.pow_neg_even hD x hn)

theorem sub_sq_swap (hS : S.SignSymmetric) (hD : D.SignSymmetric) (a b : MFl S D) : (b - a) ^ 2 = (a - b) ^ 2 := by
  rw [sub_swap hS hD, pow_neg_even hS hD _ even_two]

theorem neg_div' (hS : S.SignSymmetric) (hD : D.SignSymmetric) (a b : MFl S D) :
    (-a) /ₘ b = Mixed.negated (a /ₘ b) := by
  have k32 : ∀ r : Py (Fl S), (Py.negated r).map MFl.f32 = Mixed.negated (r.map (MFl.f32 : Fl S → MFl S D)) := by
    intro r; cases r <;> rfl
  have k64 : ∀ r : Py (Fl D), (Py.negated r).map MFl.f64 = Mixed.negated (r.map (MFl.f64 : Fl D → MFl S D)) := by
    intro r; cases r <;> rfl
  cases a with
  | f32 x =>
    cases b with
    | f32 y => exact (congrArg (Except.map MFl.f32) (Fl.neg_div' hS x y)).trans (k32 _)
    | f64 y => exact (congrArg (Except.map MFl.f64) ((congrArg (Fl.div · y) (up_neg x)).trans (Fl.neg_div' hD x.up y))).trans (k64 _)
  | f64 x =>
    cases b with
    | f32 y => exact (congrArg (Except.map MFl.f64) (Fl.neg_div' hD x y.up)).trans (k64 _)
    | f64 y => exact (congrArg (Except.map MFl.f64) (Fl.neg_div' hD x y)).trans (k64 _)

theorem cos_neg' (hS : S.SignSymmetric) (hD : D.SignSymmetric) (a : MFl S D) : cos (-a) = cos a := by
  cases a with
  | f32 x => exact congrArg MFl.f32 (Fl.cos_neg' hS x)
  | f64 x => exact congrArg MFl.f64 (Fl.cos_neg' hD x)

theorem neg_zero' : -(0 : MFl S D) = 0 := by
  show MFl.f64 (Fl.fin (-((0 : ℕ) : ℝ))) = MFl.f64 (Fl.fin ((0 : ℕ) : ℝ))
  simp

end MFl

theorem Mixed.negated_bind {S D : Arith} {x : Py (MFl S D)} {f g : MFl S D → Py (MFl S D)}
    (hfg : ∀ v, f (-v) = Mixed.negated (g v)) : (Mixed.negated x >>= f) = Mixed.negated (x >>= g) := by
  cases x with
  | error err => rfl
  | ok v => exact hfg v

namespace Mixed.prism

variable {S D : Arith}

theorem compStep_neg (hS : S.SignSymmetric) (hD : D.SignSymmetric) (m : ℕ) (x y z Me Mn Mu : MFl S D)
    (K1 K2 K3 : Kernel S D) (acc : MFl S D) :
    compStep m x y z (-Me) (-Mn) (-Mu) K1 K2 K3 (-acc) =
      Mixed.negated (compStep m x y z Me Mn Mu K1 K2 K3 acc) := by
  unfold compStep
  cases vker K1 x y z with
  | error err => rfl
  | ok k1 =>
    cases vker K2 x y z with
    | error err => rfl
    | ok k2 =>
      cases vker K3 x y z with
      | error err => rfl
      | ok k3 =>
        show Except.ok (-acc + sgn m * (-Me * k1 + -Mn * k2 + -Mu * k3)) =
          Except.ok (-(acc + sgn m * (Me * k1 + Mn * k2 + Mu * k3)))
        rw [MFl.neg_mul' hS hD, MFl.neg_mul' hS hD, MFl.neg_mul' hS hD, MFl.add_neg_neg hS hD, MFl.add_neg_neg hS hD,
          MFl.mul_neg' hS hD, MFl.add_neg_neg hS hD]

theorem component_neg (hS : S.SignSymmetric) (hD : D.SignSymmetric) (e n u w E s N b t Me Mn Mu : MFl S D)
    (K1 K2 K3 : Kernel S D) :
    _calculate_component e n u w E s N b t (-Me) (-Mn) (-Mu) K1 K2 K3 =
      Mixed.negated (_calculate_component e n u w E s N b t Me Mn Mu K1 K2 K3) := by
  rw [calculate_component_steps, calculate_component_steps]
  have step0 : compStep 0 (E - e) (N - n) (t - u) (-Me) (-Mn) (-Mu) K1 K2 K3 0 =
      Mixed.negated (compStep 0 (E - e) (N - n) (t - u) Me Mn Mu K1 K2 K3 0) := by
    have := compStep_neg hS hD 0 (E - e) (N - n) (t - u) Me Mn Mu K1 K2 K3 0
    rwa [MFl.neg_zero'] at this
  rw [step0]
  refine Mixed.negated_bind fun v => ?_
  rw [compStep_neg hS hD]
  refine Mixed.negated_bind fun v => ?_
  rw [compStep_neg hS hD]
  refine Mixed.negated_bind fun v => ?_
  rw [compStep_neg hS hD]
  refine Mixed.negated_bind fun v => ?_
  rw [compStep_neg hS hD]
  refine Mixed.negated_bind fun v => ?_
  rw [compStep_neg hS hD]
  refine Mixed.negated_bind fun v => ?_
  rw [compStep_neg hS hD]
  refine Mixed.negated_bind fun v => ?_
  rw [compStep_neg hS hD]

end Mixed.prism
end Choclo
