import Verif.Spec.TwoD
import Verif.Props.PrismIntegral

/-! # Integration along the strike -/

namespace Choclo

open Real Set MeasureTheory Filter Topology

/-! ### One-dimensional integrals along the strike; `c` is the squared distance to the line -/

noncomputable def hyp (c y : ℝ) : ℝ := √(c + y ^ 2)

theorem hyp_sq {c : ℝ} (hc : 0 < c) (y : ℝ) : hyp c y ^ 2 = c + y ^ 2 :=
  Real.sq_sqrt (by positivity)

theorem hyp_pos {c : ℝ} (hc : 0 < c) (y : ℝ) : 0 < hyp c y := Real.sqrt_pos.2 (by positivity)

theorem hyp_neg (c y : ℝ) : hyp c (-y) = hyp c y := by unfold hyp; rw [neg_sq]

theorem le_hyp {c : ℝ} (hc : 0 < c) (y : ℝ) : y ≤ hyp c y :=
  Real.le_sqrt_of_sq_le (by linarith)

theorem hasDerivAt_hyp {c : ℝ} (hc : 0 < c) (y : ℝ) : HasDerivAt (hyp c) (y / hyp c y) y := by
  have h1 : HasDerivAt (fun y : ℝ => c + y ^ 2) (2 * y) y := by
    simpa using (hasDerivAt_pow 2 y).const_add c
  have := h1.sqrt (by positivity)
  refine this.congr_deriv ?_
  unfold hyp; field_simp

theorem continuous_hyp (c : ℝ) : Continuous (hyp c) := by unfold hyp; fun_prop

theorem integral_hyp3 {c : ℝ} (hc : 0 < c) (a b : ℝ) :
    ∫ y in a..b, 1 / hyp c y ^ 3 = b / (c * hyp c b) - a / (c * hyp c a) := by
  refine intervalIntegral.integral_eq_sub_of_hasDerivAt (f := fun y => y / (c * hyp c y)) (fun y _ => ?_) ?_
  · have h := hyp_pos hc y
    have := (hasDerivAt_id y).fun_div ((hasDerivAt_hyp hc y).const_mul c) (by positivity)
    refine this.congr_deriv ?_
    simp only [id]
    have s := hyp_sq hc y
    field_simp
    linear_combination s
  · exact (continuous_const.div ((continuous_hyp c).pow 3) fun y => (pow_pos (hyp_pos hc y) 3).ne').intervalIntegrable _ _

theorem integral_hyp5 {c : ℝ} (hc : 0 < c) (a b : ℝ) :
    ∫ y in a..b, 1 / hyp c y ^ 5 =
      (b / (3 * c * hyp c b ^ 3) + 2 * b / (3 * c ^ 2 * hyp c b)) -
      (a / (3 * c * hyp c a ^ 3) + 2 * a / (3 * c ^ 2 * hyp c a)) := by
  refine intervalIntegral.integral_eq_sub_of_hasDerivAt
    (f := fun y => y / (3 * c * hyp c y ^ 3) + 2 * y / (3 * c ^ 2 * hyp c y)) (fun y _ => ?_) ?_
  · have h := hyp_pos hc y
    have h1 := (hasDerivAt_id y).fun_div (((hasDerivAt_hyp hc y).fun_pow 3).const_mul (3 * c)) (by positivity)
    have h2 := ((hasDerivAt_id y).const_mul 2).fun_div ((hasDerivAt_hyp hc y).const_mul (3 * c ^ 2)) (by positivity)
    refine (h1.fun_add h2).congr_deriv ?_
    simp only [id]
    have s := hyp_sq hc y
    have s' : c = hyp c y ^ 2 - y ^ 2 := by linarith
    generalize hyp c y = r at *
    have hc' : 0 < r ^ 2 - y ^ 2 := s' ▸ hc
    subst s'
    field_simp
    ring
  · exact (continuous_const.div ((continuous_hyp c).pow 5) fun y => (pow_pos (hyp_pos hc y) 5).ne').intervalIntegrable _ _

theorem integral_y_hyp3 {c : ℝ} (hc : 0 < c) (a b : ℝ) :
    ∫ y in a..b, y / hyp c y ^ 3 = 1 / hyp c a - 1 / hyp c b := by
  have := intervalIntegral.integral_eq_sub_of_hasDerivAt (a := a) (b := b) (f := fun y => - (1 / hyp c y))
    (f' := fun y => y / hyp c y ^ 3) (fun y _ => ?_) ?_
  · rw [this]; ring
  · have h := hyp_pos hc y
    have := ((hasDerivAt_const y (1:ℝ)).fun_div (hasDerivAt_hyp hc y) h.ne').fun_neg
    refine this.congr_deriv ?_
    field_simp; ring
  · exact (continuous_id.div ((continuous_hyp c).pow 3) fun y => (pow_pos (hyp_pos hc y) 3).ne').intervalIntegrable _ _

theorem integral_y_hyp5 {c : ℝ} (hc : 0 < c) (a b : ℝ) :
    ∫ y in a..b, 3 * y / hyp c y ^ 5 = 1 / hyp c a ^ 3 - 1 / hyp c b ^ 3 := by
  have := intervalIntegral.integral_eq_sub_of_hasDerivAt (a := a) (b := b) (f := fun y => - (1 / hyp c y ^ 3))
    (f' := fun y => 3 * y / hyp c y ^ 5) (fun y _ => ?_) ?_
  · rw [this]; ring
  · have h := hyp_pos hc y
    have := ((hasDerivAt_const y (1:ℝ)).fun_div ((hasDerivAt_hyp hc y).fun_pow 3) (pow_pos h 3).ne').fun_neg
    refine this.congr_deriv ?_
    field_simp; ring
  · exact ((continuous_const.mul continuous_id).div ((continuous_hyp c).pow 5) fun y => (pow_pos (hyp_pos hc y) 5).ne').intervalIntegrable _ _

theorem integral_yy_hyp5 {c : ℝ} (hc : 0 < c) (a b : ℝ) :
    ∫ y in a..b, (3 * y ^ 2 / hyp c y ^ 5 - 1 / hyp c y ^ 3) = a / hyp c a ^ 3 - b / hyp c b ^ 3 := by
  have := intervalIntegral.integral_eq_sub_of_hasDerivAt (a := a) (b := b) (f := fun y => - (y / hyp c y ^ 3))
    (f' := fun y => 3 * y ^ 2 / hyp c y ^ 5 - 1 / hyp c y ^ 3) (fun y _ => ?_) ?_
  · rw [this]; ring
  · have h := hyp_pos hc y
    have := ((hasDerivAt_id y).fun_div ((hasDerivAt_hyp hc y).fun_pow 3) (pow_pos h 3).ne').fun_neg
    refine this.congr_deriv ?_
    simp only [id]
    field_simp; ring
  · refine Continuous.intervalIntegrable ?_ _ _
    have := fun n : ℕ => fun y : ℝ => (pow_pos (hyp_pos hc y) n).ne'
    exact ((continuous_const.mul (continuous_id.pow 2)).div ((continuous_hyp c).pow 5) (this 5)).sub
      (continuous_const.div ((continuous_hyp c).pow 3) (this 3))

/-! ### What one end of the line contributes -/

/-- the missing part of `∫ 1/r³` beyond the distance `y` -/
theorem end3 {c y L : ℝ} (hc : 0 < c) (hL : 0 < L) (hy : L ≤ y) :
    0 ≤ 1 / c - y / (c * hyp c y) ∧ 1 / c - y / (c * hyp c y) ≤ 1 / (2 * L ^ 2) := by
  have h := hyp_pos hc y
  have l := le_hyp hc y
  have s := hyp_sq hc y
  have y0 : 0 < y := by linarith
  have e : 1 / c - y / (c * hyp c y) = 1 / (hyp c y * (hyp c y + y)) := by
    generalize hyp c y = r at *
    have : c = (r - y) * (r + y) := by linarith
    have h1 : 0 < r - y := by
      rcases l.lt_or_eq with h | h
      · linarith
      · subst h; simp at this; exact absurd this hc.ne'
    have h2 : 0 < r + y := by linarith
    subst this
    field_simp
  rw [e]
  refine ⟨by positivity, one_div_le_one_div_of_le (by positivity) ?_⟩
  nlinarith

/-- the missing part of `3 c ∫ 1/r⁵` -/
theorem end5 {c y L : ℝ} (hc : 0 < c) (hL : 0 < L) (hy : L ≤ y) :
    0 ≤ 2 / (3 * c ^ 2) - (y / (3 * c * hyp c y ^ 3) + 2 * y / (3 * c ^ 2 * hyp c y)) ∧
    3 * c * (2 / (3 * c ^ 2) - (y / (3 * c * hyp c y ^ 3) + 2 * y / (3 * c ^ 2 * hyp c y))) ≤ 1 / L ^ 2 := by
  have h := hyp_pos hc y
  have l := le_hyp hc y
  have s := hyp_sq hc y
  have y0 : 0 < y := by linarith
  obtain ⟨-, t2⟩ := end3 hc hL hy
  have e1 : 2 / (3 * c ^ 2) - (y / (3 * c * hyp c y ^ 3) + 2 * y / (3 * c ^ 2 * hyp c y)) =
      (2 * (1 / c - y / (c * hyp c y)) - y / hyp c y ^ 3) / (3 * c) := by
    field_simp
    ring
  have e : 1 / c - y / (c * hyp c y) = 1 / (hyp c y * (hyp c y + y)) := by
    generalize hyp c y = r at *
    have : c = (r - y) * (r + y) := by linarith
    have h1 : 0 < r - y := by
      rcases l.lt_or_eq with h | h
      · linarith
      · subst h; simp at this; exact absurd this hc.ne'
    have h2 : 0 < r + y := by linarith
    subst this
    field_simp
  rw [e1]
  constructor
  · refine div_nonneg ?_ (by positivity)
    rw [e, sub_nonneg, mul_one_div, div_le_div_iff₀ (by positivity) (by positivity)]
    nlinarith [mul_pos h y0, mul_le_mul_of_nonneg_left l y0.le, pow_pos h 2]
  · rw [mul_div_cancel₀ _ (by positivity)]
    have : 0 ≤ y / hyp c y ^ 3 := by positivity
    have e3 : 2 * (1 / (2 * L ^ 2)) = 1 / L ^ 2 := by field_simp
    linarith

theorem end_inv {c y L : ℝ} (hc : 0 < c) (hL : 0 < L) (hy : L ≤ y) :
    0 ≤ 1 / hyp c y ∧ 1 / hyp c y ≤ 1 / L :=
  ⟨one_div_nonneg.2 (hyp_pos hc y).le, one_div_le_one_div_of_le hL (hy.trans (le_hyp hc y))⟩

theorem end_inv2 {c y L t : ℝ} (hc : 0 < c) (hL : 0 < L) (hy : L ≤ y) (ht : |t| ≤ hyp c y) :
    |t| * (1 / hyp c y ^ 3) ≤ 1 / L ^ 2 := by
  have h := hyp_pos hc y
  calc |t| * (1 / hyp c y ^ 3) ≤ hyp c y * (1 / hyp c y ^ 3) := by gcongr
    _ = 1 / hyp c y ^ 2 := by field_simp
    _ ≤ 1 / L ^ 2 := one_div_le_one_div_of_le (by positivity)
        (pow_le_pow_left₀ hL.le (hy.trans (le_hyp hc y)) 2)

/-! ### Fubini with the strike integrated first -/

variable {P : Box}

theorem volume_section (P : Box) : (volume : Measure (ℝ × ℝ)).real P.section =
    max (P.east - P.west) 0 * max (P.top - P.bottom) 0 := by
  rw [Box.section, Measure.volume_eq_prod, measureReal_prod_prod]
  simp [Real.volume_real_Icc]

theorem section_real (hP : P.Ordered) : (volume : Measure (ℝ × ℝ)).real P.section = P.sectionArea := by
  obtain ⟨h1, h2, h3⟩ := hP
  rw [volume_section, max_eq_left (by linarith), max_eq_left (by linarith), Box.sectionArea]

theorem section_lt_top (P : Box) : (volume : Measure (ℝ × ℝ)) P.section < ⊤ :=
  (isCompact_Icc.prod isCompact_Icc).measure_lt_top

theorem strike_integral (hP : P.Ordered) {F : Pt → ℝ} (hF : IntegrableOn F P.region) {K : ℝ × ℝ → ℝ}
    (hm : Measurable K) {C : ℝ} {w0 : ℝ × ℝ}
    (hb : ∀ w ∈ P.section, w ≠ w0 → |(∫ y in P.south..P.north, F (w.1, y, w.2)) - K w| ≤ C) :
    IntegrableOn K P.section ∧ |(∫ q in P.region, F q) - ∫ w in P.section, K w| ≤ C * P.sectionArea := by
  have hF' : IntegrableOn (fun q : Pt => F (q.swap .en)) (P.swap .en).region := by
    rw [← integrableOn_swap]
    simpa only [Pt.swap_swap] using hF
  have hI' : ∫ q in P.region, F q = ∫ q in (P.swap .en).region, F (q.swap .en) := by
    rw [← integral_swap]
    simp only [Pt.swap_swap]
  have hreg : (P.swap .en).region = Icc P.south P.north ×ˢ P.section := rfl
  rw [hreg] at hF' hI'
  have hJ : Integrable (fun q : ℝ × (ℝ × ℝ) => F (q.2.1, q.1, q.2.2))
      (((volume : Measure ℝ).restrict (Icc P.south P.north)).prod
        ((volume : Measure (ℝ × ℝ)).restrict P.section)) := by
    rw [Measure.prod_restrict]; exact hF'
  have hE : ∫ q in P.region, F q = ∫ w in P.section, ∫ y in P.south..P.north, F (w.1, y, w.2) := by
    rw [hI', show (volume : Measure Pt) = (volume : Measure ℝ).prod (volume : Measure (ℝ × ℝ)) from rfl,
      ← Measure.prod_restrict]
    refine (integral_prod_symm _ hJ).trans ?_
    refine integral_congr_ae (Eventually.of_forall fun w => ?_)
    simp only
    rw [intervalIntegral.integral_of_le hP.2.1, integral_Icc_eq_integral_Ioc]
  have hR : IntegrableOn (fun w : ℝ × ℝ => ∫ y in P.south..P.north, F (w.1, y, w.2)) P.section := by
    refine hJ.integral_prod_right.congr (Eventually.of_forall fun w => ?_)
    simp only
    rw [intervalIntegral.integral_of_le hP.2.1, integral_Icc_eq_integral_Ioc]
  have hae : ∀ᵐ w ∂((volume : Measure (ℝ × ℝ)).restrict P.section),
      ‖(∫ y in P.south..P.north, F (w.1, y, w.2)) - K w‖ ≤ C := by
    rw [ae_restrict_iff' (show MeasurableSet P.section from measurableSet_Icc.prod measurableSet_Icc)]
    have h0 : ∀ᵐ w : ℝ × ℝ ∂volume, w ≠ w0 := by
      rw [ae_iff]
      have : {w : ℝ × ℝ | ¬ w ≠ w0} = ({w0.1} : Set ℝ) ×ˢ ({w0.2} : Set ℝ) := by
        ext w; simp [Prod.ext_iff]
      rw [this, Measure.volume_eq_prod, Measure.prod_prod]; simp
    filter_upwards [h0] with w h0 hw using hb w hw h0
  have hfin : IsFiniteMeasure ((volume : Measure (ℝ × ℝ)).restrict P.section) :=
    ⟨by simpa using section_lt_top P⟩
  have hD : IntegrableOn (fun w : ℝ × ℝ => (∫ y in P.south..P.north, F (w.1, y, w.2)) - K w) P.section :=
    Integrable.mono' (integrable_const C) (hR.aestronglyMeasurable.sub hm.aestronglyMeasurable) hae
  have hK : IntegrableOn K P.section := by
    have := hR.sub hD
    refine this.congr (Eventually.of_forall fun w => ?_)
    simp
  refine ⟨hK, ?_⟩
  rw [hE, ← integral_sub hR hK, ← section_real hP]
  have := norm_integral_le_of_norm_le_const hae
  simpa [Measure.real] using this

/-! ### The kernels integrated along the strike -/

theorem rad_hyp (x y z : ℝ) : rad x y z = hyp (x ^ 2 + z ^ 2) y := by
  unfold rad hyp; congr 1; ring

theorem strike_kpp (c : KComp) (p : Pt) (w : ℝ × ℝ) (s n : ℝ) :
    ∫ y in s..n, kpp c p (w.1, y, w.2) =
      ∫ t in p.n - n..p.n - s, kp c (p.e - w.1) t (p.u - w.2) := by
  rw [← intervalIntegral.integral_comp_sub_left (fun t => kp c (p.e - w.1) t (p.u - w.2)) p.n]
  rfl

/-- The deviation of the attraction of a long line segment from that of the infinite line. -/
theorem line_acc_err {X Z a b L : ℝ} (hc : 0 < X ^ 2 + Z ^ 2) (hL : 0 < L) (ha : a ≤ -L) (hb : L ≤ b) :
    |(∫ t in a..b, kp .e X t Z) - lineAcc .e (-X) (-Z)| ≤ |X| / L ^ 2 ∧
    |(∫ t in a..b, kp .u X t Z) - lineAcc .u (-X) (-Z)| ≤ |Z| / L ^ 2 ∧
    |∫ t in a..b, kp .n X t Z| ≤ 1 / L := by
  have i3 := integral_hyp3 hc a b
  have iy := integral_y_hyp3 hc a b
  obtain ⟨b1, b2⟩ := end3 hc hL hb
  obtain ⟨a1, a2⟩ := end3 hc hL (show L ≤ -a by linarith)
  obtain ⟨c1, c2⟩ := end_inv hc hL hb
  obtain ⟨d1, d2⟩ := end_inv hc hL (show L ≤ -a by linarith)
  rw [hyp_neg] at a1 a2 d1 d2
  have key : ∀ W : ℝ, |(-W) * (b / ((X ^ 2 + Z ^ 2) * hyp (X ^ 2 + Z ^ 2) b) -
      a / ((X ^ 2 + Z ^ 2) * hyp (X ^ 2 + Z ^ 2) a)) - 2 * (-W) / (X ^ 2 + Z ^ 2)| ≤ |W| / L ^ 2 := by
    intro W
    have e : (-W) * (b / ((X ^ 2 + Z ^ 2) * hyp (X ^ 2 + Z ^ 2) b) -
        a / ((X ^ 2 + Z ^ 2) * hyp (X ^ 2 + Z ^ 2) a)) - 2 * (-W) / (X ^ 2 + Z ^ 2) =
        W * ((1 / (X ^ 2 + Z ^ 2) - b / ((X ^ 2 + Z ^ 2) * hyp (X ^ 2 + Z ^ 2) b)) +
          (1 / (X ^ 2 + Z ^ 2) - -a / ((X ^ 2 + Z ^ 2) * hyp (X ^ 2 + Z ^ 2) a))) := by
      ring
    rw [e, abs_mul, abs_of_nonneg (add_nonneg b1 a1), div_eq_mul_one_div |W|]
    refine mul_le_mul_of_nonneg_left ?_ (abs_nonneg W)
    have : 1 / L ^ 2 = 1 / (2 * L ^ 2) + 1 / (2 * L ^ 2) := by field_simp; norm_num
    linarith
  refine ⟨?_, ?_, ?_⟩
  · have : ∫ t in a..b, kp .e X t Z = (-X) * ∫ t in a..b, 1 / hyp (X ^ 2 + Z ^ 2) t ^ 3 := by
      rw [← intervalIntegral.integral_const_mul]
      congr 1; funext t; simp only [kp, rad_hyp]; ring
    rw [this, i3]
    simpa only [lineAcc, neg_sq] using key X
  · have : ∫ t in a..b, kp .u X t Z = (-Z) * ∫ t in a..b, 1 / hyp (X ^ 2 + Z ^ 2) t ^ 3 := by
      rw [← intervalIntegral.integral_const_mul]
      congr 1; funext t; simp only [kp, rad_hyp]; ring
    rw [this, i3]
    simpa only [lineAcc, neg_sq] using key Z
  · have : ∫ t in a..b, kp .n X t Z = (-1) * ∫ t in a..b, t / hyp (X ^ 2 + Z ^ 2) t ^ 3 := by
      rw [← intervalIntegral.integral_const_mul]
      congr 1; funext t; simp only [kp, rad_hyp]; ring
    rw [this, iy, abs_le]
    constructor <;> linarith

theorem line_diag_err {c a b L W V : ℝ} (hc : 0 < c) (hL : 0 < L) (ha' : L ≤ -a) (hb : L ≤ b)
    (hWV : W ^ 2 + V ^ 2 = c) :
    |(∫ t in a..b, (3 * W ^ 2 * (1 / hyp c t ^ 5) - 1 / hyp c t ^ 3)) -
        2 * (W ^ 2 - V ^ 2) / c ^ 2| ≤ 2 / L ^ 2 := by
  obtain ⟨b1, b2⟩ := end3 hc hL hb
  obtain ⟨a1, a2⟩ := end3 hc hL ha'
  obtain ⟨c1, c2⟩ := end5 hc hL hb
  obtain ⟨d1, d2⟩ := end5 hc hL ha'
  rw [hyp_neg] at a1 a2 d1 d2
  have two : 2 / L ^ 2 = 1 / L ^ 2 + 1 / L ^ 2 := by ring
  have half : 1 / L ^ 2 = 1 / (2 * L ^ 2) + 1 / (2 * L ^ 2) := by field_simp; norm_num
  have hpos : 0 < 1 / L ^ 2 := by positivity
  have c3 : Continuous fun t => 1 / hyp c t ^ 3 :=
    continuous_const.div ((continuous_hyp _).pow 3) fun y => (pow_pos (hyp_pos hc y) 3).ne'
  have c5 : Continuous fun t => 3 * W ^ 2 * (1 / hyp c t ^ 5) :=
    continuous_const.mul (continuous_const.div ((continuous_hyp _).pow 5) fun y => (pow_pos (hyp_pos hc y) 5).ne')
  have hV : V ^ 2 = c - W ^ 2 := by linarith
  have hW : W ^ 2 ≤ c := by nlinarith [sq_nonneg V]
  rw [intervalIntegral.integral_sub (c5.intervalIntegrable _ _) (c3.intervalIntegrable _ _),
    intervalIntegral.integral_const_mul, integral_hyp5 hc, integral_hyp3 hc, hV]
  have e : 2 * (W ^ 2 - (c - W ^ 2)) / c ^ 2 = 3 * W ^ 2 * (2 * (2 / (3 * c ^ 2))) - 2 * (1 / c) := by
    field_simp; ring
  have e2 : 3 * W ^ 2 * ((b / (3 * c * hyp c b ^ 3) + 2 * b / (3 * c ^ 2 * hyp c b)) -
      (a / (3 * c * hyp c a ^ 3) + 2 * a / (3 * c ^ 2 * hyp c a))) -
      (b / (c * hyp c b) - a / (c * hyp c a)) - 2 * (W ^ 2 - (c - W ^ 2)) / c ^ 2 =
      ((1 / c - b / (c * hyp c b)) + (1 / c - -a / (c * hyp c a))) -
      (3 * W ^ 2 * (2 / (3 * c ^ 2) - (b / (3 * c * hyp c b ^ 3) + 2 * b / (3 * c ^ 2 * hyp c b))) +
      3 * W ^ 2 * (2 / (3 * c ^ 2) - (-a / (3 * c * hyp c a ^ 3) + 2 * -a / (3 * c ^ 2 * hyp c a)))) := by
    rw [e]; ring
  rw [e2]
  generalize 2 / (3 * c ^ 2) - (b / (3 * c * hyp c b ^ 3) + 2 * b / (3 * c ^ 2 * hyp c b)) = u1 at *
  generalize 2 / (3 * c ^ 2) - (-a / (3 * c * hyp c a ^ 3) + 2 * -a / (3 * c ^ 2 * hyp c a)) = u2 at *
  generalize 1 / c - b / (c * hyp c b) = v1 at *
  generalize 1 / c - -a / (c * hyp c a) = v2 at *
  have m1 : 3 * W ^ 2 * u1 ≤ 3 * c * u1 := by gcongr
  have m2 : 3 * W ^ 2 * u2 ≤ 3 * c * u2 := by gcongr
  have n1 : 0 ≤ 3 * W ^ 2 * u1 := by positivity
  have n2 : 0 ≤ 3 * W ^ 2 * u2 := by positivity
  rw [abs_le]
  constructor <;> linarith

theorem line_off_err {c a b L W : ℝ} (hc : 0 < c) (hL : 0 < L) (ha' : L ≤ -a) (hb : L ≤ b) (hW : |W| ≤ c) :
    |(∫ t in a..b, 3 * W * (1 / hyp c t ^ 5)) - 4 * W / c ^ 2| ≤ 2 / L ^ 2 := by
  obtain ⟨c1, c2⟩ := end5 hc hL hb
  obtain ⟨d1, d2⟩ := end5 hc hL ha'
  rw [hyp_neg] at d1 d2
  have two : 2 / L ^ 2 = 1 / L ^ 2 + 1 / L ^ 2 := by ring
  rw [intervalIntegral.integral_const_mul, integral_hyp5 hc]
  have e : 4 * W / c ^ 2 = 3 * W * (2 * (2 / (3 * c ^ 2))) := by field_simp; ring
  have e2 : 3 * W * ((b / (3 * c * hyp c b ^ 3) + 2 * b / (3 * c ^ 2 * hyp c b)) -
      (a / (3 * c * hyp c a ^ 3) + 2 * a / (3 * c ^ 2 * hyp c a))) - 4 * W / c ^ 2 =
      - (3 * W * ((2 / (3 * c ^ 2) - (b / (3 * c * hyp c b ^ 3) + 2 * b / (3 * c ^ 2 * hyp c b))) +
        (2 / (3 * c ^ 2) - (-a / (3 * c * hyp c a ^ 3) + 2 * -a / (3 * c ^ 2 * hyp c a))))) := by
    rw [e]; ring
  rw [e2]
  generalize 2 / (3 * c ^ 2) - (b / (3 * c * hyp c b ^ 3) + 2 * b / (3 * c ^ 2 * hyp c b)) = u1 at *
  generalize 2 / (3 * c ^ 2) - (-a / (3 * c * hyp c a ^ 3) + 2 * -a / (3 * c ^ 2 * hyp c a)) = u2 at *
  rw [abs_neg, abs_mul, abs_of_nonneg (add_nonneg c1 d1), abs_mul, abs_of_pos (show (0:ℝ) < 3 by norm_num)]
  have : 3 * |W| * (u1 + u2) ≤ 3 * c * (u1 + u2) := by gcongr
  linarith

theorem line_strike_err {c a b L W : ℝ} (hc : 0 < c) (hL : 0 < L) (ha' : L ≤ -a) (hb : L ≤ b)
    (h1 : |W| ≤ hyp c a) (h2 : |W| ≤ hyp c b) : |∫ t in a..b, W * (3 * t / hyp c t ^ 5)| ≤ 2 / L ^ 2 := by
  have t1 := end_inv2 hc hL hb h2
  have t2 := end_inv2 (t := W) hc hL ha' (by rwa [hyp_neg])
  rw [hyp_neg] at t2
  have two : 2 / L ^ 2 = 1 / L ^ 2 + 1 / L ^ 2 := by ring
  rw [intervalIntegral.integral_const_mul, integral_y_hyp5 hc, mul_sub]
  refine (abs_sub _ _).trans ?_
  rw [abs_mul, abs_mul, abs_of_nonneg (a := 1 / hyp c a ^ 3) (by have := hyp_pos hc a; positivity),
    abs_of_nonneg (a := 1 / hyp c b ^ 3) (by have := hyp_pos hc b; positivity)]
  linarith

theorem line_nn_err {c a b L : ℝ} (hc : 0 < c) (hL : 0 < L) (ha' : L ≤ -a) (hb : L ≤ b) :
    |∫ t in a..b, (3 * t ^ 2 / hyp c t ^ 5 - 1 / hyp c t ^ 3)| ≤ 2 / L ^ 2 := by
  have lb : ∀ y : ℝ, |y| ≤ hyp c y := fun y => Real.abs_le_sqrt (by linarith)
  have t1 := end_inv2 hc hL hb (lb b)
  have t2 := end_inv2 (t := a) hc hL ha' (by rw [hyp_neg]; exact lb a)
  rw [hyp_neg] at t2
  have two : 2 / L ^ 2 = 1 / L ^ 2 + 1 / L ^ 2 := by ring
  rw [integral_yy_hyp5 hc]
  refine (abs_sub _ _).trans ?_
  rw [div_eq_mul_one_div a, div_eq_mul_one_div b, abs_mul, abs_mul,
    abs_of_nonneg (a := 1 / hyp c a ^ 3) (by have := hyp_pos hc a; positivity),
    abs_of_nonneg (a := 1 / hyp c b ^ 3) (by have := hyp_pos hc b; positivity)]
  linarith

/-- The same for the gradient tensor: every component is within `2 / L²`. -/
theorem line_tensor_err {X Z a b L : ℝ} (hc : 0 < X ^ 2 + Z ^ 2) (hL : 0 < L) (ha : a ≤ -L) (hb : L ≤ b)
    (i j : Axis) :
    |(∫ t in a..b, kp (kern2 i j) X t Z) - lineTensor i j (-X) (-Z)| ≤ 2 / L ^ 2 := by
  have ha' : L ≤ -a := by linarith
  have lb : ∀ y : ℝ, |X| ≤ hyp (X ^ 2 + Z ^ 2) y ∧ |Z| ≤ hyp (X ^ 2 + Z ^ 2) y := by
    intro y
    refine ⟨?_, ?_⟩ <;> refine Real.abs_le_sqrt ?_ <;> nlinarith [sq_nonneg X, sq_nonneg Z, sq_nonneg y]
  have hXZ : |X * Z| ≤ X ^ 2 + Z ^ 2 := by
    rw [abs_le]; constructor <;> nlinarith [sq_nonneg (X + Z), sq_nonneg (X - Z), sq_nonneg X, sq_nonneg Z]
  have diag := fun {W V : ℝ} => line_diag_err (W := W) (V := V) hc hL ha' hb
  have offd := line_off_err hc hL ha' hb hXZ
  have strike := fun {W : ℝ} => line_strike_err (W := W) hc hL ha' hb
  have nn := line_nn_err hc hL ha' hb
  cases i <;> cases j <;> simp only [kern2, lineTensor, kp, rad_hyp, neg_sq, sub_zero]
  · refine le_of_eq_of_le ?_ (diag (W := X) (V := Z) rfl)
    congr 3; funext t; ring
  · refine le_of_eq_of_le ?_ (strike (lb a).1 (lb b).1)
    congr 2; funext t; ring
  · refine le_of_eq_of_le ?_ offd
    congr 2
    · congr 1; funext t; ring
    · ring
  · refine le_of_eq_of_le ?_ (strike (lb a).1 (lb b).1)
    congr 2; funext t; ring
  · refine le_of_eq_of_le ?_ nn
    congr 2; funext t; ring
  · refine le_of_eq_of_le ?_ (strike (lb a).2 (lb b).2)
    congr 2; funext t; ring
  · refine le_of_eq_of_le ?_ offd
    congr 2
    · congr 1; funext t; ring
    · ring
  · refine le_of_eq_of_le ?_ (strike (lb a).2 (lb b).2)
    congr 2; funext t; ring
  · refine le_of_eq_of_le ?_ (diag (W := Z) (V := X) (by ring))
    congr 3; funext t; ring

end Choclo
