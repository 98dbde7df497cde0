import Verif.Lemmas.Integral3
import Verif.Props.PrismBounds
import Mathlib.MeasureTheory.Measure.Haar.Unique

/-! # Second-order far-field estimates for all the kernels -/

namespace Choclo

open Real Set MeasureTheory Filter Topology

/-- distance along the segment from `v` in direction `-w` -/
noncomputable def lrad (v w : Pt) (t : ℝ) : ℝ := rad (v.e - t * w.e) (v.n - t * w.n) (v.u - t * w.u)

noncomputable def len (w : Pt) : ℝ := rad w.e w.n w.u

theorem len_nonneg (w : Pt) : 0 ≤ len w := Real.sqrt_nonneg _

/-- A function along the line `v - t w`, twice differentiable off the origin, of degree `k` there: the
function and its two derivatives are bounded by `A0`, `A1`, `A2` times what dimensional analysis says. -/
def Jet (v w : Pt) (k : ℤ) (A0 A1 A2 : ℝ) (f : ℝ → ℝ) : Prop :=
  ∃ f1 f2 : ℝ → ℝ, ∀ t, 0 < lrad v w t →
    HasDerivAt f (f1 t) t ∧ HasDerivAt f1 (f2 t) t ∧ |f t| ≤ A0 * lrad v w t ^ k ∧
    |f1 t| ≤ A1 * (len w * lrad v w t ^ (k - 1)) ∧ |f2 t| ≤ A2 * (len w ^ 2 * lrad v w t ^ (k - 2))

variable {v w : Pt} {k l : ℤ} {A0 A1 A2 B0 B1 B2 : ℝ} {f g : ℝ → ℝ}

theorem Jet.mul (hf : Jet v w k A0 A1 A2 f) (hg : Jet v w l B0 B1 B2 g) :
    Jet v w (k + l) (A0 * B0) (A1 * B0 + A0 * B1) (A2 * B0 + 2 * (A1 * B1) + A0 * B2) (fun t => f t * g t) := by
  obtain ⟨f1, f2, hf⟩ := hf
  obtain ⟨g1, g2, hg⟩ := hg
  refine ⟨fun t => f1 t * g t + f t * g1 t, fun t => (f2 t * g t + f1 t * g1 t) + (f1 t * g1 t + f t * g2 t),
    fun t ht => ?_⟩
  obtain ⟨a1, a2, a3, a4, a5⟩ := hf t ht
  obtain ⟨b1, b2, b3, b4, b5⟩ := hg t ht
  have e : ∀ i j : ℤ, lrad v w t ^ i * lrad v w t ^ j = lrad v w t ^ (i + j) := fun i j =>
    (zpow_add₀ ht.ne' i j).symm
  have hl := len_nonneg w
  have m : ∀ {x y X Y : ℝ}, |x| ≤ X → |y| ≤ Y → |x * y| ≤ X * Y := fun {x y X Y} hx hy => by
    rw [abs_mul]; exact mul_le_mul hx hy (abs_nonneg _) ((abs_nonneg _).trans hx)
  refine ⟨a1.mul b1, (a2.mul b1).add (a1.mul b2), ?_, ?_, ?_⟩
  · have := m a3 b3
    rw [← e]; linarith
  · have h1 := m a4 b3
    have h2 := m a3 b4
    have e1 : lrad v w t ^ (k - 1) * lrad v w t ^ l = lrad v w t ^ (k + l - 1) := by rw [e]; congr 1; ring
    have e2 : lrad v w t ^ k * lrad v w t ^ (l - 1) = lrad v w t ^ (k + l - 1) := by rw [e]; congr 1; ring
    refine (abs_add_le _ _).trans ((add_le_add h1 h2).trans (le_of_eq ?_))
    linear_combination (A1 * B0 * len w) * e1 + (A0 * B1 * len w) * e2
  · have h1 := m a5 b3
    have h2 := m a4 b4
    have h3 := m a3 b5
    have e1 : lrad v w t ^ (k - 2) * lrad v w t ^ l = lrad v w t ^ (k + l - 2) := by rw [e]; congr 1; ring
    have e2 : lrad v w t ^ (k - 1) * lrad v w t ^ (l - 1) = lrad v w t ^ (k + l - 2) := by rw [e]; congr 1; ring
    have e3 : lrad v w t ^ k * lrad v w t ^ (l - 2) = lrad v w t ^ (k + l - 2) := by rw [e]; congr 1; ring
    refine (abs_add_le _ _).trans ((add_le_add ((abs_add_le _ _).trans (add_le_add h1 h2))
      ((abs_add_le _ _).trans (add_le_add h2 h3))).trans (le_of_eq ?_))
    linear_combination (A2 * B0 * len w ^ 2) * e1 + (2 * (A1 * B1) * len w ^ 2) * e2
      + (A0 * B2 * len w ^ 2) * e3

theorem Jet.add (hf : Jet v w k A0 A1 A2 f) (hg : Jet v w k B0 B1 B2 g) :
    Jet v w k (A0 + B0) (A1 + B1) (A2 + B2) (fun t => f t + g t) := by
  obtain ⟨f1, f2, hf⟩ := hf
  obtain ⟨g1, g2, hg⟩ := hg
  refine ⟨fun t => f1 t + g1 t, fun t => f2 t + g2 t, fun t ht => ?_⟩
  obtain ⟨a1, a2, a3, a4, a5⟩ := hf t ht
  obtain ⟨b1, b2, b3, b4, b5⟩ := hg t ht
  refine ⟨a1.add b1, a2.add b2, ?_, ?_, ?_⟩ <;> refine (abs_add_le _ _).trans ?_ <;> linarith

theorem Jet.const_mul (c : ℝ) (hf : Jet v w k A0 A1 A2 f) :
    Jet v w k (|c| * A0) (|c| * A1) (|c| * A2) (fun t => c * f t) := by
  obtain ⟨f1, f2, hf⟩ := hf
  refine ⟨fun t => c * f1 t, fun t => c * f2 t, fun t ht => ?_⟩
  obtain ⟨a1, a2, a3, a4, a5⟩ := hf t ht
  refine ⟨a1.const_mul c, a2.const_mul c, ?_, ?_, ?_⟩ <;> rw [abs_mul, mul_assoc] <;>
    exact mul_le_mul_of_nonneg_left (by assumption) (abs_nonneg _)

theorem Jet.coord (v w : Pt) (a : Axis) : Jet v w 1 1 1 0 (fun t => v.coord a - t * w.coord a) := by
  refine ⟨fun _ => -w.coord a, fun _ => 0, fun t ht => ⟨?_, hasDerivAt_const _ _, ?_, ?_, ?_⟩⟩
  · simpa using ((hasDerivAt_id t).mul_const (w.coord a)).const_sub (v.coord a)
  · rw [one_mul, zpow_one]
    cases a
    · exact abs_le_rad1 _ _ _
    · exact abs_le_rad2 _ _ _
    · exact abs_le_rad3 _ _ _
  · rw [one_mul, sub_self, zpow_zero, mul_one, abs_neg]
    cases a
    · exact abs_le_rad1 _ _ _
    · exact abs_le_rad2 _ _ _
    · exact abs_le_rad3 _ _ _
  · simp

theorem hasDerivAt_lrad {t : ℝ} (h : 0 < lrad v w t) : HasDerivAt (lrad v w)
    (-((v.e - t * w.e) * w.e + (v.n - t * w.n) * w.n + (v.u - t * w.u) * w.u) / lrad v w t) t := by
  have c : ∀ x y : ℝ, HasDerivAt (fun t => (x - t * y) ^ 2) (-(2 * (x - t * y) * y)) t := fun x y => by
    have := (((hasDerivAt_id t).mul_const y).const_sub x).pow 2
    refine this.congr_deriv ?_
    simp
  have hpos : (v.e - t * w.e) ^ 2 + (v.n - t * w.n) ^ 2 + (v.u - t * w.u) ^ 2 ≠ 0 := (Real.sqrt_pos.1 h).ne'
  have := (((c v.e w.e).add (c v.n w.n)).add (c v.u w.u)).sqrt hpos
  refine this.congr_deriv ?_
  change _ / (2 * lrad v w t) = _
  have := h.ne'
  field_simp
  ring

theorem lrad_sq (v w : Pt) (t : ℝ) : lrad v w t ^ 2 =
    (v.e - t * w.e) ^ 2 + (v.n - t * w.n) ^ 2 + (v.u - t * w.u) ^ 2 := rad_sq _ _ _

theorem len_sq (w : Pt) : len w ^ 2 = w.e ^ 2 + w.n ^ 2 + w.u ^ 2 := rad_sq _ _ _

theorem Jet.inv (v w : Pt) : Jet v w (-1) 1 1 2 (fun t => 1 / lrad v w t) := by
  refine ⟨fun t => ((v.e - t * w.e) * w.e + (v.n - t * w.n) * w.n + (v.u - t * w.u) * w.u) / lrad v w t ^ 3,
    fun t => 3 * ((v.e - t * w.e) * w.e + (v.n - t * w.n) * w.n + (v.u - t * w.u) * w.u) ^ 2 / lrad v w t ^ 5
      - len w ^ 2 / lrad v w t ^ 3, fun t ht => ?_⟩
  have hd := hasDerivAt_lrad ht
  have hne := ht.ne'
  have hcs : |(v.e - t * w.e) * w.e + (v.n - t * w.n) * w.n + (v.u - t * w.u) * w.u| ≤ lrad v w t * len w :=
    cauchy3 _ _ _ _ _ _
  have hl := len_nonneg w
  refine ⟨?_, ?_, ?_, ?_, ?_⟩
  · refine ((hasDerivAt_const t (1 : ℝ)).div hd hne).congr_deriv ?_
    field_simp
    ring
  · have c : ∀ x y : ℝ, HasDerivAt (fun t => (x - t * y) * y) (-y * y) t := fun x y => by
      have := (((hasDerivAt_id t).mul_const y).const_sub x).mul_const y
      refine this.congr_deriv ?_
      simp
    have hn := ((c v.e w.e).add (c v.n w.n)).add (c v.u w.u)
    refine (hn.div (hd.pow 3) (pow_ne_zero 3 hne)).congr_deriv ?_
    simp only [Pi.add_apply, Pi.pow_apply]
    rw [len_sq]
    field_simp
    ring
  · simp only [one_div, one_mul, zpow_neg_one]
    rw [abs_of_pos (by positivity)]
  · rw [abs_div, abs_of_pos (by positivity : 0 < lrad v w t ^ 3), one_mul, div_le_iff₀ (by positivity)]
    refine hcs.trans (le_of_eq ?_)
    rw [show ((-1 : ℤ) - 1) = -2 by norm_num, zpow_neg]
    norm_cast
    field_simp
  · have h1 : 3 * ((v.e - t * w.e) * w.e + (v.n - t * w.n) * w.n + (v.u - t * w.u) * w.u) ^ 2 / lrad v w t ^ 5
        ≤ 3 * (len w ^ 2 / lrad v w t ^ 3) := by
      rw [div_le_iff₀ (by positivity)]
      have : ((v.e - t * w.e) * w.e + (v.n - t * w.n) * w.n + (v.u - t * w.u) * w.u) ^ 2 ≤
          (lrad v w t * len w) ^ 2 := sq_le_sq' (abs_le.1 hcs).1 (abs_le.1 hcs).2
      calc _ ≤ 3 * (lrad v w t * len w) ^ 2 := by linarith
        _ = _ := by field_simp
    have h0 : 0 ≤ 3 * ((v.e - t * w.e) * w.e + (v.n - t * w.n) * w.n + (v.u - t * w.u) * w.u) ^ 2 /
      lrad v w t ^ 5 := by positivity
    have h2 : 0 ≤ len w ^ 2 / lrad v w t ^ 3 := by positivity
    rw [show ((-1 : ℤ) - 2) = -3 by norm_num, zpow_neg]
    norm_cast
    rw [← div_eq_mul_inv, abs_le]
    constructor <;> linarith

theorem Jet.congr (hf : Jet v w k A0 A1 A2 f) (h : ∀ t, 0 < lrad v w t → g t = f t) : Jet v w k A0 A1 A2 g := by
  obtain ⟨f1, f2, hf⟩ := hf
  refine ⟨f1, f2, fun t ht => ?_⟩
  obtain ⟨a1, a2, a3, a4, a5⟩ := hf t ht
  refine ⟨a1.congr_of_eventuallyEq ?_, a2, by rwa [h t ht], a4, a5⟩
  have hc : Continuous (lrad v w) := by
    unfold lrad
    exact Continuous.rad (by fun_prop) (by fun_prop) (by fun_prop)
  filter_upwards [hc.continuousAt.eventually (lt_mem_nhds ht)] with s hs using h s hs

theorem Jet.weaken (hf : Jet v w k A0 A1 A2 f) (h : k = l) (h0 : A0 ≤ B0) (h1 : A1 ≤ B1) (h2 : A2 ≤ B2) :
    Jet v w l B0 B1 B2 f := by
  subst h
  obtain ⟨f1, f2, hf⟩ := hf
  refine ⟨f1, f2, fun t ht => ?_⟩
  obtain ⟨a1, a2, a3, a4, a5⟩ := hf t ht
  have hl := len_nonneg w
  exact ⟨a1, a2, a3.trans (by gcongr), a4.trans (by gcongr), a5.trans (by gcongr)⟩

/-- powers of the inverse distance -/
theorem Jet.inv_pow (v w : Pt) (n : ℕ) :
    Jet v w (-n) 1 n (n * (n + 1)) (fun t => 1 / lrad v w t ^ n) := by
  induction n with
  | zero =>
    refine ⟨fun _ => 0, fun _ => 0, fun t ht => ⟨?_, hasDerivAt_const _ _, ?_, ?_, ?_⟩⟩
    · simpa using hasDerivAt_const t (1 : ℝ)
    · simp
    · simp
    · simp
  | succ n ih =>
    refine ((ih.mul (Jet.inv v w)).congr (g := fun t => 1 / lrad v w t ^ (n + 1)) ?_).weaken ?_ ?_ ?_ ?_
    · intro t ht; rw [pow_succ]; have := ht.ne'; field_simp
    · push_cast; ring
    · norm_num
    · push_cast; linarith
    · push_cast; nlinarith

/-! ### the kernels -/

noncomputable def kd (a b : Axis) : ℝ := if a = b then 1 else 0

theorem abs_kd_le (a b : Axis) : |kd a b| ≤ 1 := by unfold kd; split_ifs <;> simp

theorem kp_kern1 (a : Axis) (x : Pt) : kp (kern1 a) x.e x.n x.u = (-1) * (x.coord a * (1 / rad x.e x.n x.u ^ 3)) := by
  cases a <;> simp only [kern1, kp, Pt.coord] <;> ring

theorem kp_kern2 (a b : Axis) (x : Pt) : kp (kern2 a b) x.e x.n x.u =
    3 * ((x.coord a * x.coord b) * (1 / rad x.e x.n x.u ^ 5)) + (-kd a b) * (1 / rad x.e x.n x.u ^ 3) := by
  cases a <;> cases b <;> simp only [kern2, kp, Pt.coord, kd, reduceCtorEq, if_true, if_false] <;> ring

theorem kp_kern3 (a b c : Axis) (x : Pt) : kp (kern3 a b c) x.e x.n x.u =
    (-15) * (((x.coord a * x.coord b) * x.coord c) * (1 / rad x.e x.n x.u ^ 7))
      + 3 * ((kd a b * (x.coord c * (1 / rad x.e x.n x.u ^ 5)) + kd a c * (x.coord b * (1 / rad x.e x.n x.u ^ 5)))
        + kd b c * (x.coord a * (1 / rad x.e x.n x.u ^ 5))) := by
  cases a <;> cases b <;> cases c <;>
    simp only [kern3, kp, Pt.coord, kd, reduceCtorEq, if_true, if_false] <;> ring

/-- the point reached at time `t` -/
noncomputable def lpt (v w : Pt) (t : ℝ) : Pt := (v.e - t * w.e, v.n - t * w.n, v.u - t * w.u)

theorem lpt_coord (v w : Pt) (t : ℝ) (a : Axis) : (lpt v w t).coord a = v.coord a - t * w.coord a := by
  cases a <;> rfl

theorem Jet.pot (v w : Pt) : ∃ A0 A1, Jet v w (-1) A0 A1 2
    (fun t => kp .pot (lpt v w t).e (lpt v w t).n (lpt v w t).u) :=
  ⟨_, _, (Jet.inv v w).congr fun t _ => by simp only [kp, pow_one]; rfl⟩

theorem Jet.kern1 (v w : Pt) (a : Axis) : ∃ A0 A1, Jet v w (-2) A0 A1 18
    (fun t => kp (kern1 a) (lpt v w t).e (lpt v w t).n (lpt v w t).u) := by
  refine ⟨_, _, ((((Jet.coord v w a).mul (Jet.inv_pow v w 3)).const_mul (-1)).congr ?_).weaken
    (by norm_num) le_rfl le_rfl (by norm_num)⟩
  intro t _
  rw [kp_kern1, lpt_coord]; rfl

theorem Jet.kern2 (v w : Pt) (a b : Axis) : ∃ A0 A1, Jet v w (-3) A0 A1 168
    (fun t => kp (kern2 a b) (lpt v w t).e (lpt v w t).n (lpt v w t).u) := by
  have h1 := ((((Jet.coord v w a).mul (Jet.coord v w b)).mul (Jet.inv_pow v w 5)).const_mul 3).weaken
    (l := -3) (by norm_num) le_rfl le_rfl le_rfl
  have h2 := ((Jet.inv_pow v w 3).const_mul (-kd a b)).weaken (l := -3) (by norm_num) le_rfl le_rfl le_rfl
  refine ⟨_, _, ((h1.add h2).congr ?_).weaken rfl le_rfl le_rfl ?_⟩
  · intro t _
    rw [kp_kern2, lpt_coord, lpt_coord]; rfl
  · rw [abs_neg]
    have := abs_kd_le a b
    norm_num
    linarith

theorem Jet.kern3 (v w : Pt) (a b c : Axis) : ∃ A0 A1, Jet v w (-4) A0 A1 1920
    (fun t => kp (kern3 a b c) (lpt v w t).e (lpt v w t).n (lpt v w t).u) := by
  have h1 := (((((Jet.coord v w a).mul (Jet.coord v w b)).mul (Jet.coord v w c)).mul
    (Jet.inv_pow v w 7)).const_mul (-15)).weaken (l := -4) (by norm_num) le_rfl le_rfl le_rfl
  have i := fun a => (Jet.coord v w a).mul (Jet.inv_pow v w 5)
  have h2 := (((((i c).const_mul (kd a b)).add ((i b).const_mul (kd a c))).add
    ((i a).const_mul (kd b c))).const_mul 3).weaken (l := -4) (by norm_num) le_rfl le_rfl le_rfl
  refine ⟨_, _, ((h1.add h2).congr ?_).weaken rfl le_rfl le_rfl ?_⟩
  · intro t _
    rw [kp_kern3, lpt_coord, lpt_coord, lpt_coord]; rfl
  · have := abs_kd_le a b
    have := abs_kd_le a c
    have := abs_kd_le b c
    norm_num
    linarith

/-- second symmetric difference -/
theorem second_diff {f f1 f2 : ℝ → ℝ} {M : ℝ}
    (h : ∀ t ∈ Icc (-1 : ℝ) 1, HasDerivAt f (f1 t) t ∧ HasDerivAt f1 (f2 t) t ∧ |f2 t| ≤ M) :
    |f 1 + f (-1) - 2 * f 0| ≤ M := by
  have hlip : ∀ t ∈ Icc (0 : ℝ) 1, |f1 t - f1 (-t)| ≤ 2 * t * M := by
    intro t ht
    have hsub : Icc (-t) t ⊆ Icc (-1 : ℝ) 1 := Icc_subset_Icc (by linarith [ht.2]) ht.2
    have := (convex_Icc (-t) t).norm_image_sub_le_of_norm_hasDerivWithin_le (f := f1) (f' := f2) (C := M)
      (x := -t) (y := t) (fun x hx => (h x (hsub hx)).2.1.hasDerivWithinAt) (fun x hx => (h x (hsub hx)).2.2)
      ⟨le_rfl, by linarith [ht.1]⟩ ⟨by linarith [ht.1], le_rfl⟩
    rw [Real.norm_eq_abs, Real.norm_eq_abs, show t - -t = 2 * t by ring, abs_of_nonneg (by linarith [ht.1] : 0 ≤ 2 * t)] at this
    linarith
  have hg : ∀ t ∈ Icc (0 : ℝ) 1, HasDerivAt (fun t => f t + f (-t)) (f1 t - f1 (-t)) t := by
    intro t ht
    have a := (h t ⟨by linarith [ht.1], ht.2⟩).1
    have b := (h (-t) ⟨by linarith [ht.2], by linarith [ht.1]⟩).1
    have b' := HasDerivAt.comp_of_eq t b (hasDerivAt_neg t) rfl
    refine (a.add b').congr_deriv (by ring)
  have hq : ∀ t : ℝ, HasDerivAt (fun t => M * t ^ 2) (2 * t * M) t := fun t => by
    refine ((hasDerivAt_pow 2 t).const_mul M).congr_deriv (by push_cast; ring)
  have mono : ∀ s : ℝ, |s| ≤ 1 → MonotoneOn (fun t => M * t ^ 2 - s * (f t + f (-t))) (Icc 0 1) := by
    intro s hs
    refine monotoneOn_of_deriv_nonneg (convex_Icc 0 1) ?_ ?_ ?_
    · intro t ht
      exact ((hq t).sub ((hg t ht).const_mul s)).continuousAt.continuousWithinAt
    · intro t ht
      rw [interior_Icc] at ht
      exact ((hq t).sub ((hg t ⟨ht.1.le, ht.2.le⟩).const_mul s)).differentiableAt.differentiableWithinAt
    · intro t ht
      rw [interior_Icc] at ht
      have ht' : t ∈ Icc (0 : ℝ) 1 := ⟨ht.1.le, ht.2.le⟩
      have hd : HasDerivAt (fun t => M * t ^ 2 - s * (f t + f (-t))) (2 * t * M - s * (f1 t - f1 (-t))) t :=
        (hq t).sub ((hg t ht').const_mul s)
      rw [hd.deriv]
      have h1 := hlip t ht'
      have h2 : s * (f1 t - f1 (-t)) ≤ |f1 t - f1 (-t)| := by
        refine (le_abs_self _).trans ?_
        rw [abs_mul]
        exact mul_le_of_le_one_left (abs_nonneg _) hs
      linarith
  have m1 := mono 1 (by simp) ⟨le_rfl, zero_le_one⟩ ⟨zero_le_one, le_rfl⟩ zero_le_one
  have m2 := mono (-1) (by simp) ⟨le_rfl, zero_le_one⟩ ⟨zero_le_one, le_rfl⟩ zero_le_one
  simp only [neg_zero] at m1 m2
  rw [abs_le]
  constructor <;> linarith

/-! ### prisms -/

variable {P : Box}

theorem lrad_ge {p q c : Pt} {t : ℝ} (ht : |t| ≤ 1) :
    dist3 p c - dist3 q c ≤ lrad (p - c) (q - c) t := by
  have h1 := dist3_triangle p (c + t • (q - c)) c
  have e1 : dist3 p (c + t • (q - c)) = lrad (p - c) (q - c) t := by
    unfold lrad
    rw [dist3_eq_rad]
    simp only [Pt.e, Pt.n, Pt.u, Prod.fst_add, Prod.snd_add, Prod.smul_fst, Prod.smul_snd, Prod.fst_sub,
      Prod.snd_sub, smul_eq_mul]
    unfold rad
    congr 1
    ring
  have e2 : dist3 (c + t • (q - c)) c = |t| * dist3 q c := by
    rw [dist3_eq_rad, dist3_eq_rad]
    simp only [Pt.e, Pt.n, Pt.u, Prod.fst_add, Prod.snd_add, Prod.smul_fst, Prod.smul_snd, Prod.fst_sub,
      Prod.snd_sub, smul_eq_mul, add_sub_cancel_left]
    unfold rad
    rw [← Real.sqrt_sq_eq_abs, ← Real.sqrt_mul (sq_nonneg t)]
    congr 1
    ring
  rw [e1, e2] at h1
  have : |t| * dist3 q c ≤ 1 * dist3 q c := mul_le_mul_of_nonneg_right ht (Real.sqrt_nonneg _)
  linarith

theorem kpp_lpt (c : KComp) (p q z : Pt) (t : ℝ) : kpp c p (z + t • (q - z)) =
    kp c (lpt (p - z) (q - z) t).e (lpt (p - z) (q - z) t).n (lpt (p - z) (q - z) t).u := by
  unfold kpp lpt
  simp only [Pt.e, Pt.n, Pt.u, Prod.fst_add, Prod.snd_add, Prod.smul_fst, Prod.smul_snd, Prod.fst_sub,
      Prod.snd_sub, smul_eq_mul]
  congr 1 <;> ring

theorem second_diff_kpp {c : KComp} {n : ℕ} {A : ℝ} (hA : 0 ≤ A)
    (hJ : ∀ v w : Pt, ∃ A0 A1, Jet v w (-n) A0 A1 A (fun t => kp c (lpt v w t).e (lpt v w t).n (lpt v w t).u))
    {p q z : Pt} {H : ℝ} (hq : dist3 q z ≤ H) (hH : H < dist3 p z) :
    |kpp c p q + kpp c p (2 • z - q) - 2 * kpp c p z| ≤ A * (H ^ 2 / (dist3 p z - H) ^ (n + 2)) := by
  obtain ⟨A0, A1, f1, f2, hj⟩ := hJ (p - z) (q - z)
  have hlen : len (q - z) = dist3 q z := rfl
  have h0 : 0 ≤ dist3 q z := Real.sqrt_nonneg _
  have key := second_diff (f := fun t => kp c (lpt (p - z) (q - z) t).e (lpt (p - z) (q - z) t).n
    (lpt (p - z) (q - z) t).u) (f1 := f1) (f2 := f2) (M := A * (H ^ 2 / (dist3 p z - H) ^ (n + 2))) (by
    intro t ht
    have hr := lrad_ge (p := p) (q := q) (c := z) (abs_le.2 ht)
    have hrH : dist3 p z - H ≤ lrad (p - z) (q - z) t := by linarith
    have hpos : 0 < dist3 p z - H := by linarith
    obtain ⟨a1, a2, _, _, a5⟩ := hj t (hpos.trans_le hrH)
    refine ⟨a1, a2, a5.trans ?_⟩
    rw [show (-(n : ℤ) - 2) = -((n + 2 : ℕ) : ℤ) by push_cast; ring, zpow_neg, zpow_natCast, ← div_eq_mul_inv, hlen]
    gcongr)
  simp only [← kpp_lpt] at key
  have e1 : z + (1 : ℝ) • (q - z) = q := by rw [one_smul]; abel
  have e2 : z + (-1 : ℝ) • (q - z) = 2 • z - q := by rw [neg_one_smul, two_smul]; abel
  have e3 : z + (0 : ℝ) • (q - z) = z := by rw [zero_smul, add_zero]
  rwa [e1, e2, e3] at key

theorem region_refl (P : Box) : P.region = (fun q : Pt => 2 • P.centrePt - q) ⁻¹' P.region := by
  ext q
  simp only [Box.region, Box.centrePt, Box.centre, Box.lo, Box.hi, mem_preimage, mem_prod, mem_Icc,
    Prod.fst_sub, Prod.snd_sub, two_smul, Prod.fst_add, Prod.snd_add]
  constructor <;> rintro ⟨⟨h1, h2⟩, ⟨h3, h4⟩, h5, h6⟩ <;>
    exact ⟨⟨by linarith, by linarith⟩, ⟨by linarith, by linarith⟩, by linarith, by linarith⟩

theorem measurePreserving_refl (z : Pt) : MeasurePreserving (fun q : Pt => z - q) volume volume :=
  (Measure.measurePreserving_sub_left (volume : Measure ℝ) z.1).prod
    ((Measure.measurePreserving_sub_left (volume : Measure ℝ) z.2.1).prod
      (Measure.measurePreserving_sub_left (volume : Measure ℝ) z.2.2))

theorem integral_refl (P : Box) (f : Pt → ℝ) :
    ∫ q in P.region, f (2 • P.centrePt - q) = ∫ q in P.region, f q := by
  have h : MeasurePreserving (fun q : Pt => 2 • P.centrePt - q) volume volume :=
    measurePreserving_refl _
  have he : MeasurableEmbedding (fun q : Pt => 2 • P.centrePt - q) :=
    (MeasurableEquiv.subLeft (2 • P.centrePt)).measurableEmbedding
  have := h.setIntegral_preimage_emb he f P.region
  rwa [← region_refl] at this

theorem integrableOn_refl {f : Pt → ℝ} (hf : IntegrableOn f P.region) :
    IntegrableOn (fun q => f (2 • P.centrePt - q)) P.region := by
  have h : MeasurePreserving (fun q : Pt => 2 • P.centrePt - q) volume volume :=
    measurePreserving_refl _
  have he : MeasurableEmbedding (fun q : Pt => 2 • P.centrePt - q) :=
    (MeasurableEquiv.subLeft (2 • P.centrePt)).measurableEmbedding
  have := (h.integrableOn_comp_preimage he (f := f) (s := P.region)).2 hf
  rwa [← region_refl] at this

theorem exterior_of_far {p : Pt} (h : P.halfDiagonal < dist3 p P.centrePt) : p ∉ P.region :=
  fun hp => absurd (dist_centre_le hp) (not_le.mpr h)

theorem far_kernel (hP : P.Ordered) {c : KComp} {n : ℕ} {A : ℝ} (hA : 0 ≤ A)
    (hJ : ∀ v w : Pt, ∃ A0 A1, Jet v w (-n) A0 A1 A (fun t => kp c (lpt v w t).e (lpt v w t).n (lpt v w t).u))
    {p : Pt} (h : P.halfDiagonal < dist3 p P.centrePt) :
    |(∫ q in P.region, kpp c p q) - P.volume * kpp c p P.centrePt| ≤
      P.volume * (A / 2 * (P.halfDiagonal ^ 2 / (dist3 p P.centrePt - P.halfDiagonal) ^ (n + 2))) := by
  have i := integrableOn_kpp (P := P) c (exterior_of_far h)
  have i' := integrableOn_refl i
  have ic : IntegrableOn (fun _ : Pt => 2 * kpp c p P.centrePt) P.region :=
    integrableOn_const (isCompact_region P).measure_lt_top.ne (by exact enorm_ne_top)
  have e : 2 * ((∫ q in P.region, kpp c p q) - P.volume * kpp c p P.centrePt) =
      ∫ q in P.region, (kpp c p q + kpp c p (2 • P.centrePt - q) - 2 * kpp c p P.centrePt) := by
    have s1 : ∫ q in P.region, (kpp c p q + kpp c p (2 • P.centrePt - q) - 2 * kpp c p P.centrePt) =
        (∫ q in P.region, (kpp c p q + kpp c p (2 • P.centrePt - q))) - ∫ q in P.region, 2 * kpp c p P.centrePt :=
      integral_sub (i.add i') ic
    have s2 : ∫ q in P.region, (kpp c p q + kpp c p (2 • P.centrePt - q)) =
        (∫ q in P.region, kpp c p q) + ∫ q in P.region, kpp c p (2 • P.centrePt - q) := integral_add i i'
    rw [s1, s2, integral_refl P (fun q => kpp c p q), setIntegral_const, volume_region hP, smul_eq_mul]
    ring
  have b : |∫ q in P.region, (kpp c p q + kpp c p (2 • P.centrePt - q) - 2 * kpp c p P.centrePt)| ≤
      A * (P.halfDiagonal ^ 2 / (dist3 p P.centrePt - P.halfDiagonal) ^ (n + 2)) * P.volume := by
    rw [← volume_region hP, ← Real.norm_eq_abs]
    refine norm_setIntegral_le_of_norm_le_const (isCompact_region P).measure_lt_top fun q hq => ?_
    rw [Real.norm_eq_abs]
    exact second_diff_kpp hA hJ (dist_centre_le hq) h
  rw [← e, abs_mul, abs_of_pos (by norm_num : (0 : ℝ) < 2)] at b
  linarith

end Choclo
