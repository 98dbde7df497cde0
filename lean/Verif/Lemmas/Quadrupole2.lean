import Verif.Lemmas.Quadrupole
import Verif.Props.Peak

/-! # Second moments of a prism, and its fields symmetrised about its centre -/

namespace Choclo

open Real Set MeasureTheory

variable {P : Box}

theorem continuous_quad (P : Box) (a b : Axis) :
    Continuous fun q : Pt => (q.coord a - P.centre a) * (q.coord b - P.centre b) := by
  have : ∀ a : Axis, Continuous fun q : Pt => q.coord a := fun a => by
    cases a <;> simp only [Pt.coord, Pt.e, Pt.n, Pt.u] <;> fun_prop
  exact ((this a).sub continuous_const).mul ((this b).sub continuous_const)

theorem integrableOn_quad (P : Box) (a b : Axis) :
    IntegrableOn (fun q : Pt => (q.coord a - P.centre a) * (q.coord b - P.centre b)) P.region :=
  (continuous_quad P a b).continuousOn.integrableOn_compact (isCompact_region P)

theorem integral_quad_ee (hP : P.Ordered) : ∫ q in P.region, (q.coord .e - P.centre .e) * (q.coord .e - P.centre .e)
    = P.volume * ((P.hi .e - P.lo .e) ^ 2 / 12) := by
  have h := integral_rbox (f := fun x _ _ => (x - P.centre .e) * (x - P.centre .e)) hP.1 hP.2.1 hP.2.2
    (integrableOn_quad P .e .e)
  refine h.trans ?_
  simp only [intervalIntegral.integral_const, smul_eq_mul]
  rw [intervalIntegral.integral_const_mul, intervalIntegral.integral_const_mul]
  have e : ∀ c l u : ℝ, ∫ x in l..u, (x - c) * (x - c) = ((u - c) ^ 3 - (l - c) ^ 3) / 3 := fun c l u => by
    rw [intervalIntegral.integral_comp_sub_right (fun x => x * x) c]
    simp only [← sq]
    rw [integral_pow]
    norm_num
  rw [e]
  simp only [Box.centre, Box.lo, Box.hi, Box.volume]
  ring

theorem integral_quad_en (hP : P.Ordered) :
    ∫ q in P.region, (q.coord .e - P.centre .e) * (q.coord .n - P.centre .n) = 0 := by
  have h := integral_rbox (f := fun x y _ => (x - P.centre .e) * (y - P.centre .n)) hP.1 hP.2.1 hP.2.2
    (integrableOn_quad P .e .n)
  refine h.trans ?_
  have e : ∀ c l u : ℝ, ∫ x in l..u, (x - c) = ((u - c) ^ 2 - (l - c) ^ 2) / 2 := fun c l u => by
    rw [intervalIntegral.integral_comp_sub_right (fun x => x) c, integral_id]
  simp only [intervalIntegral.integral_const, smul_eq_mul, intervalIntegral.integral_const_mul,
    intervalIntegral.integral_mul_const, e]
  simp only [Box.centre, Box.lo, Box.hi]
  ring

theorem volume_swap (P : Box) (s : Swap) : (P.swap s).volume = P.volume := by
  cases s <;> simp only [Box.swap, Box.volume] <;> ring

/-- second moments of a prism about its centre -/
theorem integral_quad (hP : P.Ordered) (a b : Axis) :
    ∫ q in P.region, (q.coord a - P.centre a) * (q.coord b - P.centre b)
      = if a = b then P.volume * ((P.hi a - P.lo a) ^ 2 / 12) else 0 := by
  have tr : ∀ (a b : Axis) (s : Swap), ∫ q in P.region, (q.coord a - P.centre a) * (q.coord b - P.centre b)
      = ∫ q in (P.swap s).region, (q.coord (a.swap s) - (P.swap s).centre (a.swap s))
        * (q.coord (b.swap s) - (P.swap s).centre (b.swap s)) := by
    intro a b s
    rw [← integral_swap]
    simp only [Pt.coord_swap, centre_swap]
  have sy : ∀ a b : Axis, ∫ q in P.region, (q.coord a - P.centre a) * (q.coord b - P.centre b)
      = ∫ q in P.region, (q.coord b - P.centre b) * (q.coord a - P.centre a) := fun a b => by
    simp only [mul_comm]
  have en := integral_quad_en hP
  have eu : ∫ q in P.region, (q.coord .e - P.centre .e) * (q.coord .u - P.centre .u) = 0 := by
    rw [tr .e .u .nu]; exact integral_quad_en (hP.swap .nu)
  have nu : ∫ q in P.region, (q.coord .n - P.centre .n) * (q.coord .u - P.centre .u) = 0 := by
    rw [sy, tr .u .n .eu]; exact integral_quad_en (hP.swap .eu)
  have nn : ∫ q in P.region, (q.coord .n - P.centre .n) * (q.coord .n - P.centre .n)
      = P.volume * ((P.hi .n - P.lo .n) ^ 2 / 12) := by
    rw [tr .n .n .en]
    exact (integral_quad_ee (hP.swap .en)).trans (by rw [volume_swap]; rfl)
  have uu : ∫ q in P.region, (q.coord .u - P.centre .u) * (q.coord .u - P.centre .u)
      = P.volume * ((P.hi .u - P.lo .u) ^ 2 / 12) := by
    rw [tr .u .u .eu]
    exact (integral_quad_ee (hP.swap .eu)).trans (by rw [volume_swap]; rfl)
  cases a <;> cases b <;> simp only [reduceCtorEq, if_true, if_false]
  · exact integral_quad_ee hP
  · exact en
  · exact eu
  · rw [sy]; exact en
  · exact nn
  · exact nu
  · rw [sy]; exact eu
  · rw [sy]; exact nu
  · exact uu

/-- a quadratic form in the offset from the centre -/
noncomputable def quadForm (P : Box) (h1 h2 h3 k1 k2 k3 : ℝ) (q : Pt) : ℝ :=
  (q.coord .e - P.centre .e) * (q.coord .e - P.centre .e) * h1
  + (q.coord .n - P.centre .n) * (q.coord .n - P.centre .n) * h2
  + (q.coord .u - P.centre .u) * (q.coord .u - P.centre .u) * h3
  + ((q.coord .e - P.centre .e) * (q.coord .n - P.centre .n) * k1
  + (q.coord .e - P.centre .e) * (q.coord .u - P.centre .u) * k2
  + (q.coord .n - P.centre .n) * (q.coord .u - P.centre .u) * k3)

theorem integrableOn_quadForm (P : Box) (h1 h2 h3 k1 k2 k3 : ℝ) :
    IntegrableOn (quadForm P h1 h2 h3 k1 k2 k3) P.region := by
  have i := fun a b (k : ℝ) => (integrableOn_quad P a b).mul_const k
  exact (((i _ _ _).add (i _ _ _)).add (i _ _ _)).add (((i _ _ _).add (i _ _ _)).add (i _ _ _))

theorem integral_quadForm (hP : P.Ordered) (h1 h2 h3 k1 k2 k3 : ℝ) :
    ∫ q in P.region, quadForm P h1 h2 h3 k1 k2 k3 q = P.volume / 12 *
      ((P.hi .e - P.lo .e) ^ 2 * h1 + (P.hi .n - P.lo .n) ^ 2 * h2 + (P.hi .u - P.lo .u) ^ 2 * h3) := by
  have i := fun a b (k : ℝ) => (integrableOn_quad P a b).mul_const k
  have j := fun a b => integrableOn_quad P a b
  unfold quadForm
  refine (integral_add (((i _ _ _).add (i _ _ _)).add (i _ _ _)) (((i _ _ _).add (i _ _ _)).add (i _ _ _))).trans ?_
  refine (congrArg₂ (· + ·) (integral_lin3 (j .e .e) (j .n .n) (j .u .u) h1 h2 h3)
    (integral_lin3 (j .e .n) (j .e .u) (j .n .u) k1 k2 k3)).trans ?_
  simp only [integral_quad hP, reduceCtorEq, if_true, if_false]
  ring

/-- the point opposite to `p` with respect to the centre -/
noncomputable def opp (P : Box) (p : Pt) : Pt :=
  (2 * P.centre .e - p.e, 2 * P.centre .n - p.n, 2 * P.centre .u - p.u)

theorem Vpot_opp (hP : P.Ordered) (p : Pt) : Vc .pot (opp P p) P = Vc .pot p P := by
  have h1 := Vpot_even hP .e p p.e
  have h2 := Vpot_even hP .n (p.set .e (2 * P.centre .e - p.e)) p.n
  have h3 := Vpot_even hP .u ((p.set .e (2 * P.centre .e - p.e)).set .n (2 * P.centre .n - p.n)) p.u
  exact h3.trans (h2.trans h1)

theorem Vacc_opp (hP : P.Ordered) (a : Axis) (p : Pt) : Vc a.acc (opp P p) P = -Vc a.acc p P := by
  have h1 := Vacc_mirror_set hP a .e p p.e
  have h2 := Vacc_mirror_set hP a .n (p.set .e (2 * P.centre .e - p.e)) p.n
  have h3 := Vacc_mirror_set hP a .u ((p.set .e (2 * P.centre .e - p.e)).set .n (2 * P.centre .n - p.n)) p.u
  have e : Vc a.acc (opp P p) P = (-1) ^ a.acc.count .u * ((-1) ^ a.acc.count .n * ((-1) ^ a.acc.count .e
    * Vc a.acc p P)) := by
    refine h3.trans ?_
    congr 1
    refine h2.trans ?_
    congr 1
  rw [e]
  cases a <;> simp [GComp.count, GComp.index, Axis.acc]

end Choclo
