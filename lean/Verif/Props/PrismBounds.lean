import Verif.Props.PrismIntegral

/-! # C35, C36, C53: sign and size of the gravity field of a prism -/

namespace Choclo

open Real Set MeasureTheory Filter Topology

variable {P : Box}

theorem volume_region (hP : P.Ordered) : (volume : Measure Pt).real P.region = P.volume := by
  obtain ⟨h1, h2, h3⟩ := hP
  unfold Box.region Box.volume
  rw [show (volume : Measure Pt) = (volume : Measure ℝ).prod ((volume : Measure ℝ).prod (volume : Measure ℝ))
    from rfl, measureReal_prod_prod, measureReal_prod_prod, Real.volume_real_Icc_of_le h1,
    Real.volume_real_Icc_of_le h2, Real.volume_real_Icc_of_le h3]
  ring

theorem isOpen_inside (P : Box) : IsOpen P.inside := isOpen_Ioo.prod (isOpen_Ioo.prod isOpen_Ioo)

theorem inside_nonempty (hP : P.Proper) : P.inside.Nonempty :=
  ⟨((P.west + P.east) / 2, (P.south + P.north) / 2, (P.bottom + P.top) / 2), by
    obtain ⟨h1, h2, h3⟩ := hP
    refine ⟨⟨?_, ?_⟩, ⟨?_, ?_⟩, ?_, ?_⟩ <;> simp only <;> linarith⟩

theorem Box.Proper.ordered (hP : P.Proper) : P.Ordered := ⟨hP.1.le, hP.2.1.le, hP.2.2.le⟩

theorem dist3_pos {p q : Pt} (h : p ≠ q) : 0 < dist3 p q :=
  lt_of_le_of_ne (Real.sqrt_nonneg _) (fun h' => h (dist3_eq_zero.mp h'.symm))

/-! ## C35 -/

theorem Vpot_pos (hP : P.Proper) (p : Pt) : 0 < Vc .pot p P := by
  obtain ⟨h1, h2⟩ := integral_low hP.ordered .pot (by decide) p
  rw [← h2, setIntegral_pos_iff_support_of_nonneg_ae ?_ h1]
  · have hsub : P.inside \ {p} ⊆ Function.support (kpp GComp.pot.toK p) ∩ P.region := by
      rintro q ⟨hq, hne⟩
      refine ⟨?_, inside_subset_region hq⟩
      have : 0 < dist3 p q := dist3_pos (fun h => hne h.symm)
      rw [Function.mem_support, show GComp.pot.toK = KComp.pot from rfl, kpp_pot_dist]
      positivity
    refine lt_of_lt_of_le ?_ (measure_mono hsub)
    rw [measure_diff_null (measure_singleton p)]
    exact (isOpen_inside P).measure_pos volume (inside_nonempty hP)
  · refine Eventually.of_forall fun q => ?_
    change 0 ≤ kpp .pot p q
    rw [kpp_pot_dist]
    exact div_nonneg zero_le_one (Real.sqrt_nonneg _)

/-- For positive density the potential of a proper prism is positive everywhere. -/
theorem C35_potential_positive (hP : P.Proper) (p : Pt) {ρ : ℝ} (hρ : 0 < ρ) :
    ∃ v, Returns (onPrism (A := Exact) prism.gravity_pot p P ρ) v ∧ 0 < v :=
  ⟨_, Ex.gravity_pot_eval p P ρ, mul_pos (mul_pos Gc_pos hρ) (Vpot_pos hP p)⟩

theorem inside_coord {p : Pt} (h : p ∈ P.inside) (a : Axis) : P.lo a < p.coord a ∧ p.coord a < P.hi a := by
  obtain ⟨h1, h2, h3⟩ := h
  cases a
  · exact h1
  · exact h2
  · exact h3

theorem region_coord {p : Pt} (h : p ∈ P.region) (a : Axis) : P.lo a ≤ p.coord a ∧ p.coord a ≤ P.hi a := by
  obtain ⟨h1, h2, h3⟩ := h
  cases a
  · exact h1
  · exact h2
  · exact h3

theorem Vacc_neg_above (hP : P.Proper) (a : Axis) (p : Pt) (h : P.hi a ≤ p.coord a) : Vc a.acc p P < 0 := by
  obtain ⟨h1, h2⟩ := integral_low hP.ordered a.acc (by cases a <;> decide) p
  have h1' : IntegrableOn (fun q => -kpp a.acc.toK p q) P.region := h1.neg
  rw [← h2, ← neg_pos, ← integral_neg, setIntegral_pos_iff_support_of_nonneg_ae ?_ h1']
  · have hsub : P.inside ⊆ (Function.support fun q => -kpp a.acc.toK p q) ∩ P.region := by
      intro q hq
      refine ⟨?_, inside_subset_region hq⟩
      have hlt : q.coord a - p.coord a < 0 := by have := (inside_coord hq a).2; linarith
      have : 0 < dist3 p q := dist3_pos (fun h' => by rw [h'] at hlt; linarith)
      rw [Function.mem_support, kpp_acc_dist]
      have := div_neg_of_neg_of_pos hlt (pow_pos this 3)
      linarith
    exact lt_of_lt_of_le ((isOpen_inside P).measure_pos volume (inside_nonempty hP)) (measure_mono hsub)
  · filter_upwards [ae_restrict_mem (measurableSet_region P)] with q hq
    change 0 ≤ -kpp a.acc.toK p q
    rw [kpp_acc_dist]
    have hle : q.coord a - p.coord a ≤ 0 := by have := (region_coord hq a).2; linarith
    have hd : 0 ≤ dist3 p q := Real.sqrt_nonneg _
    have := div_nonpos_of_nonpos_of_nonneg hle (pow_nonneg hd 3)
    linarith

theorem acc_count (a : Axis) : a.acc.count a = 1 := by cases a <;> rfl

theorem singular_acc (a : Axis) (p : Pt) (P : Box) : p ∉ P.singular a.acc := by
  cases a <;> simp [Axis.acc, Box.singular]

/-- twice the unit vector of an axis -/
def Axis.vec (a : Axis) (t : ℝ) : Pt :=
  match a with
  | .e => (t, 0, 0)
  | .n => (0, t, 0)
  | .u => (0, 0, t)

/-- mirror image in the plane `coordinate a = m` -/
theorem Vacc_reflect (hP : P.Ordered) (a : Axis) (p : Pt) (m : ℝ) :
    Vc a.acc ((p.mirror a).shift (a.vec (2 * m))) ((P.mirror a).shift (a.vec (2 * m))) = -Vc a.acc p P := by
  rw [Vc_shift, Vc_mirror hP a.acc a (singular_acc a p P), acc_count]; ring

theorem Vacc_centre (hP : P.Ordered) (a : Axis) (p : Pt) (h : p.coord a = P.centre a) : Vc a.acc p P = 0 := by
  have hr := Vacc_reflect hP a p (p.coord a)
  have e1 : (p.mirror a).shift (a.vec (2 * p.coord a)) = p := by
    cases a <;> simp only [Pt.mirror, Pt.shift, Axis.vec, Pt.coord, Pt.e, Pt.n, Pt.u] <;>
      ext <;> simp <;> ring
  have e2 : (P.mirror a).shift (a.vec (2 * p.coord a)) = P := by
    unfold Box.centre at h
    cases P
    cases a <;> simp only [Box.mirror, Box.shift, Axis.vec, Pt.e, Pt.n, Pt.u, Box.lo, Box.hi, add_zero] at h ⊢ <;>
      congr 1 <;> linarith
  rw [e1, e2] at hr
  linarith

theorem Vacc_neg (hP : P.Proper) (a : Axis) (p : Pt) (h : P.centre a < p.coord a) : Vc a.acc p P < 0 := by
  rcases le_or_gt (P.hi a) (p.coord a) with h1 | h1
  · exact Vacc_neg_above hP a p h1
  · -- cut off the part below the mirror image of the upper face
    set m := 2 * p.coord a - P.hi a with hm
    have hm' : P.lo a < m ∧ m < P.hi a := by
      unfold Box.centre at h
      constructor <;> linarith
    have hcut := Vc_cut (p := p) a.acc a ⟨hm'.1.le, hm'.2.le⟩ (singular_acc a p _)
    rw [if_neg (by rintro ⟨h', -⟩; cases a <;> cases h'), add_zero] at hcut
    have hb : (P.below m a).Proper := by
      obtain ⟨p1, p2, p3⟩ := hP
      cases a
      · exact ⟨hm'.1, p2, p3⟩
      · exact ⟨p1, hm'.1, p3⟩
      · exact ⟨p1, p2, hm'.1⟩
    have ha : (P.above m a).Ordered := by
      obtain ⟨p1, p2, p3⟩ := hP
      cases a
      · exact ⟨hm'.2.le, p2.le, p3.le⟩
      · exact ⟨p1.le, hm'.2.le, p3.le⟩
      · exact ⟨p1.le, p2.le, hm'.2.le⟩
    have v1 := Vacc_neg_above hb a p (by
      have : (P.below m a).hi a = m := by cases a <;> rfl
      rw [this, hm]; linarith)
    have v2 := Vacc_centre ha a p (by
      have e1 : (P.above m a).lo a = m := by cases a <;> rfl
      have e2 : (P.above m a).hi a = P.hi a := by cases a <;> rfl
      rw [Box.centre, e1, e2, hm]; ring)
    linarith

theorem Vacc_pos (hP : P.Proper) (a : Axis) (p : Pt) (h : p.coord a < P.centre a) : 0 < Vc a.acc p P := by
  have hr := Vacc_reflect hP.ordered a p 0
  have hm : ((P.mirror a).shift (a.vec (2 * 0))).Proper := by
    obtain ⟨p1, p2, p3⟩ := hP
    cases a <;> refine ⟨?_, ?_, ?_⟩ <;> simp only [Box.mirror, Box.shift, Axis.vec, Pt.e, Pt.n, Pt.u] <;> linarith
  have := Vacc_neg hm a ((p.mirror a).shift (a.vec (2 * 0))) (by
    unfold Box.centre at h ⊢
    cases a <;> simp only [Box.mirror, Box.shift, Axis.vec, Pt.e, Pt.n, Pt.u, Pt.mirror, Pt.shift, Pt.coord,
      Box.lo, Box.hi] at h ⊢ <;> linarith)
  linarith

/-- For positive density each acceleration component points towards the centre plane of the (proper)
prism, at every observation point whatsoever: its sign is the sign of `centre - coordinate`. In
particular it is negative on and above the top, positive on and below the bottom, and the
acceleration vanishes at the centre. -/
theorem C35_attractive (hP : P.Proper) (a : Axis) (p : Pt) {ρ : ℝ} (hρ : 0 < ρ) :
    ∃ g, Returns (onPrism (A := Exact) (prismGravity a.acc) p P ρ) g ∧
      (P.centre a < p.coord a → g < 0) ∧ (p.coord a < P.centre a → 0 < g) ∧
      (p.coord a = P.centre a → g = 0) := by
  have hG : 0 < Gc * ρ := mul_pos Gc_pos hρ
  refine ⟨_, acc_returns a p P ρ, fun h => mul_neg_of_pos_of_neg hG (Vacc_neg hP a p h),
    fun h => mul_pos hG (Vacc_pos hP a p h), fun h => by rw [Vacc_centre hP.ordered a p h, mul_zero]⟩

/-- on the top face, at the bottom, at the centre of the example prism -/
example : exBox.Proper ∧ exBox.centre .u = -1 := by
  refine ⟨exBox_proper, ?_⟩
  norm_num [Box.centre, Box.lo, Box.hi, exBox]

/-! ## C36 -/

theorem not_mem_of_dist {p : Pt} {d : ℝ} (hd : 0 < d) (h : ∀ q ∈ P.region, d ≤ dist3 p q) : p ∉ P.region := by
  intro hp
  have := h p hp
  rw [dist3_eq_zero.mpr rfl] at this
  linarith

/-- If the distances from the observation point to the points of the prism lie between `d₁` and `d₂`,
the potential lies between the potentials of a point of the same mass at these distances. -/
theorem C36_potential (hP : P.Ordered) (p : Pt) {ρ d₁ d₂ : ℝ} (hρ : 0 ≤ ρ) (hd : 0 < d₁)
    (h : ∀ q ∈ P.region, d₁ ≤ dist3 p q ∧ dist3 p q ≤ d₂) :
    ∃ v, Returns (onPrism (A := Exact) prism.gravity_pot p P ρ) v ∧
      6.6743e-11 * (ρ * P.volume) / d₂ ≤ v ∧ v ≤ 6.6743e-11 * (ρ * P.volume) / d₁ := by
  have hi : IntegrableOn (kpp .pot p) P.region := integrableOn_pot p P
  refine ⟨_, Ex.gravity_pot_eval p P ρ, ?_, ?_⟩
  · rw [← integral_pot hP p]
    have hc : IntegrableOn (fun _ : Pt => 1 / d₂) P.region :=
      integrableOn_const (isCompact_region P).measure_lt_top.ne (by simp)
    have := setIntegral_mono_on hc hi (measurableSet_region P) (fun q hq => by
      rw [kpp_pot_dist]
      exact one_div_le_one_div_of_le (lt_of_lt_of_le hd (h q hq).1) (h q hq).2)
    rw [setIntegral_const, volume_region hP, smul_eq_mul] at this
    have hG : 0 ≤ Gc * ρ := mul_nonneg Gc_pos.le hρ
    calc 6.6743e-11 * (ρ * P.volume) / d₂ = Gc * ρ * (P.volume * (1 / d₂)) := by unfold Gc; ring
      _ ≤ _ := mul_le_mul_of_nonneg_left this hG
  · rw [← integral_pot hP p]
    have hc : IntegrableOn (fun _ : Pt => 1 / d₁) P.region :=
      integrableOn_const (isCompact_region P).measure_lt_top.ne (by simp)
    have := setIntegral_mono_on hi hc (measurableSet_region P) (fun q hq => by
      rw [kpp_pot_dist]
      exact one_div_le_one_div_of_le hd (h q hq).1)
    rw [setIntegral_const, volume_region hP, smul_eq_mul] at this
    have hG : 0 ≤ Gc * ρ := mul_nonneg Gc_pos.le hρ
    calc Gc * ρ * (∫ q in P.region, kpp .pot p q) ≤ Gc * ρ * (P.volume * (1 / d₁)) :=
        mul_le_mul_of_nonneg_left this hG
      _ = _ := by unfold Gc; ring

theorem cauchy3 (a b c x y z : ℝ) :
    |a * x + b * y + c * z| ≤ √(a ^ 2 + b ^ 2 + c ^ 2) * √(x ^ 2 + y ^ 2 + z ^ 2) := by
  rw [← Real.sqrt_mul (by positivity)]
  apply Real.abs_le_sqrt
  nlinarith [sq_nonneg (a * y - b * x), sq_nonneg (a * z - c * x), sq_nonneg (b * z - c * y)]

theorem dist3_comm (p q : Pt) : dist3 p q = dist3 q p := by
  unfold dist3; congr 1; ring

theorem kpp_dot_le {p q : Pt} (h : p ≠ q) (x y z : ℝ) :
    kpp .e p q * x + kpp .n p q * y + kpp .u p q * z ≤
      √(x ^ 2 + y ^ 2 + z ^ 2) * (1 / dist3 p q ^ 2) := by
  have hd := dist3_pos h
  have e1 := kpp_acc_dist .e p q
  have e2 := kpp_acc_dist .n p q
  have e3 := kpp_acc_dist .u p q
  simp only [Axis.acc, GComp.toK, Pt.coord] at e1 e2 e3
  have hcs := (le_abs_self _).trans (cauchy3 (q.e - p.e) (q.n - p.n) (q.u - p.u) x y z)
  change _ ≤ dist3 q p * _ at hcs
  rw [dist3_comm q p] at hcs
  rw [e1, e2, e3]
  calc _ = ((q.e - p.e) * x + (q.n - p.n) * y + (q.u - p.u) * z) / dist3 p q ^ 3 := by ring
    _ ≤ dist3 p q * √(x ^ 2 + y ^ 2 + z ^ 2) / dist3 p q ^ 3 := by gcongr
    _ = _ := by field_simp

/-- If every point of the prism is at least `d` away, the magnitude of the acceleration is at most
that of a point of the same mass at distance `d`. -/
theorem C36_acceleration (hP : P.Ordered) (p : Pt) {ρ d : ℝ} (hρ : 0 ≤ ρ) (hd : 0 < d)
    (h : ∀ q ∈ P.region, d ≤ dist3 p q) :
    ∃ ge gn gu, Returns (onPrism (A := Exact) prism.gravity_e p P ρ) ge ∧
      Returns (onPrism (A := Exact) prism.gravity_n p P ρ) gn ∧
      Returns (onPrism (A := Exact) prism.gravity_u p P ρ) gu ∧
      √(ge ^ 2 + gn ^ 2 + gu ^ 2) ≤ 6.6743e-11 * (ρ * P.volume) / d ^ 2 := by
  refine ⟨_, _, _, Ex.gravity_e_eval p P ρ, Ex.gravity_n_eval p P ρ, Ex.gravity_u_eval p P ρ, ?_⟩
  set x := Vc .e p P
  set y := Vc .n p P
  set z := Vc .u p P
  have hG : 0 ≤ Gc * ρ := mul_nonneg Gc_pos.le hρ
  have hp := not_mem_of_dist hd h
  have hS : √((Gc * ρ * x) ^ 2 + (Gc * ρ * y) ^ 2 + (Gc * ρ * z) ^ 2) = Gc * ρ * √(x ^ 2 + y ^ 2 + z ^ 2) := by
    rw [show (Gc * ρ * x) ^ 2 + (Gc * ρ * y) ^ 2 + (Gc * ρ * z) ^ 2 = (Gc * ρ) ^ 2 * (x ^ 2 + y ^ 2 + z ^ 2) by ring,
      Real.sqrt_mul (sq_nonneg _), Real.sqrt_sq hG]
  rw [hS]
  set N := √(x ^ 2 + y ^ 2 + z ^ 2) with hN
  have hN0 : 0 ≤ N := Real.sqrt_nonneg _
  have hN2 : N ^ 2 = x ^ 2 + y ^ 2 + z ^ 2 := Real.sq_sqrt (by positivity)
  have key : N ^ 2 ≤ N * (P.volume * (1 / d ^ 2)) := by
    have i := fun c => integrableOn_kpp (P := P) c hp
    have l := integral_lin3 (i .e) (i .n) (i .u) x y z
    have e1 : ∫ q in P.region, kpp .e p q = x := (integral_low hP .e (by decide) p).2
    have e2 : ∫ q in P.region, kpp .n p q = y := (integral_low hP .n (by decide) p).2
    have e3 : ∫ q in P.region, kpp .u p q = z := (integral_low hP .u (by decide) p).2
    rw [e1, e2, e3] at l
    have hI : IntegrableOn (fun q => kpp .e p q * x + kpp .n p q * y + kpp .u p q * z) P.region :=
      (((i .e).mul_const x).add ((i .n).mul_const y)).add ((i .u).mul_const z)
    have hc : IntegrableOn (fun _ : Pt => N * (1 / d ^ 2)) P.region :=
      integrableOn_const (isCompact_region P).measure_lt_top.ne enorm_ne_top
    have := setIntegral_mono_on hI hc (measurableSet_region P) (fun q hq => by
      have hne : p ≠ q := fun h' => hp (by rw [h']; exact hq)
      refine (kpp_dot_le hne x y z).trans ?_
      have := h q hq
      gcongr)
    rw [l, setIntegral_const, volume_region hP, smul_eq_mul] at this
    calc N ^ 2 = x * x + y * y + z * z := by rw [hN2]; ring
      _ ≤ _ := this
      _ = _ := by ring
  have hfin : N ≤ P.volume * (1 / d ^ 2) := by
    have hvol : 0 ≤ P.volume := by rw [← volume_region hP]; exact measureReal_nonneg
    rcases hN0.eq_or_lt with h0 | h0
    · rw [← h0]; positivity
    · rw [sq] at key; exact le_of_mul_le_mul_left key h0
  calc Gc * ρ * N ≤ Gc * ρ * (P.volume * (1 / d ^ 2)) := mul_le_mul_of_nonneg_left hfin hG
    _ = _ := by unfold Gc; ring

/-- the example prism seen from 10 m above its top: distances between 10 and 20 -/
example : ∀ q ∈ exBox.region, (10 : ℝ) ≤ dist3 (0, 0, 10) q ∧ dist3 (0, 0, 10) q ≤ 20 := by
  rintro ⟨x, y, z⟩ ⟨⟨h1, h2⟩, ⟨h3, h4⟩, h5, h6⟩
  simp only [exBox] at h1 h2 h3 h4 h5 h6
  unfold dist3
  simp only [Pt.e, Pt.n, Pt.u]
  constructor
  · apply Real.le_sqrt_of_sq_le
    nlinarith [sq_nonneg x, sq_nonneg y]
  · apply Real.sqrt_le_iff.mpr
    constructor
    · norm_num
    · nlinarith

/-! ## C53 far field -/

theorem dist_centre_le {q : Pt} (hq : q ∈ P.region) : dist3 q P.centrePt ≤ P.halfDiagonal := by
  obtain ⟨⟨h1, h2⟩, ⟨h3, h4⟩, h5, h6⟩ := hq
  unfold dist3 Box.halfDiagonal
  rw [show (2 : ℝ) = √(2 ^ 2) from (Real.sqrt_sq (by norm_num)).symm, ← Real.sqrt_div (by positivity)]
  apply Real.sqrt_le_sqrt
  simp only [Box.centrePt, Box.centre, Box.lo, Box.hi, Pt.e, Pt.n, Pt.u]
  have a : ∀ {x l u : ℝ}, l ≤ x → x ≤ u → (x - (l + u) / 2) ^ 2 ≤ (u - l) ^ 2 / 4 := by
    intro x l u hl hu
    nlinarith [mul_nonneg (sub_nonneg.mpr hl) (sub_nonneg.mpr hu)]
  have := a h1 h2
  have := a h3 h4
  have := a h5 h6
  linarith

/-- triangle inequality -/
theorem dist3_triangle (p q c : Pt) : dist3 p c ≤ dist3 p q + dist3 q c := by
  have h := cauchy3 (p.e - q.e) (p.n - q.n) (p.u - q.u) (q.e - c.e) (q.n - c.n) (q.u - c.u)
  have h' := (le_abs_self _).trans h
  change _ ≤ dist3 p q * dist3 q c at h'
  have a1 : dist3 p q ^ 2 = (p.e - q.e) ^ 2 + (p.n - q.n) ^ 2 + (p.u - q.u) ^ 2 := Real.sq_sqrt (by positivity)
  have a2 : dist3 q c ^ 2 = (q.e - c.e) ^ 2 + (q.n - c.n) ^ 2 + (q.u - c.u) ^ 2 := Real.sq_sqrt (by positivity)
  have b1 : 0 ≤ dist3 p q := Real.sqrt_nonneg _
  have b2 : 0 ≤ dist3 q c := Real.sqrt_nonneg _
  rw [show dist3 p c = √((p.e - c.e) ^ 2 + (p.n - c.n) ^ 2 + (p.u - c.u) ^ 2) from rfl]
  apply Real.sqrt_le_iff.mpr
  refine ⟨by positivity, ?_⟩
  nlinarith

/-- Second-order Taylor estimate for the inverse distance. -/
theorem inv_dist_taylor {p q c : Pt} {h : ℝ} (hq : dist3 q c ≤ h) (hh : h < dist3 p c) :
    |1 / dist3 p q - 1 / dist3 p c
      - ((p.e - c.e) * (q.e - c.e) + (p.n - c.n) * (q.n - c.n) + (p.u - c.u) * (q.u - c.u)) / dist3 p c ^ 3|
      ≤ 3 * h ^ 2 / (dist3 p c ^ 2 * (dist3 p c - h)) := by
  set R := dist3 p c with hR
  set r := dist3 p q with hr
  set δ := dist3 q c with hδ
  set s := (p.e - c.e) * (q.e - c.e) + (p.n - c.n) * (q.n - c.n) + (p.u - c.u) * (q.u - c.u) with hs
  have hδ0 : 0 ≤ δ := Real.sqrt_nonneg _
  have hh0 : 0 ≤ h := hδ0.trans hq
  have hR0 : 0 < R := hh0.trans_lt hh
  have t1 : R ≤ r + δ := dist3_triangle p q c
  have t2 : r ≤ R + δ := by
    have := dist3_triangle p c q
    rw [dist3_comm c q] at this; exact this
  have hr0 : 0 < r := by linarith
  have hs' : |s| ≤ R * δ := cauchy3 _ _ _ _ _ _
  have a1 : r ^ 2 = (p.e - q.e) ^ 2 + (p.n - q.n) ^ 2 + (p.u - q.u) ^ 2 := Real.sq_sqrt (by positivity)
  have a2 : δ ^ 2 = (q.e - c.e) ^ 2 + (q.n - c.n) ^ 2 + (q.u - c.u) ^ 2 := Real.sq_sqrt (by positivity)
  have a3 : R ^ 2 = (p.e - c.e) ^ 2 + (p.n - c.n) ^ 2 + (p.u - c.u) ^ 2 := Real.sq_sqrt (by positivity)
  have hrel : R ^ 2 - r ^ 2 = 2 * s - δ ^ 2 := by rw [a1, a2, a3, hs]; ring
  have split : 1 / r - 1 / R - s / R ^ 3 =
      s * ((R - r) * (2 * R + r)) / (R ^ 3 * (r * (R + r))) - δ ^ 2 / (R * (r * (R + r))) := by
    have : R + r ≠ 0 := by positivity
    have h2s : s = (R ^ 2 - r ^ 2 + δ ^ 2) / 2 := by linarith
    rw [h2s]
    field_simp
    ring
  have hRr : |R - r| ≤ δ := by rw [abs_le]; constructor <;> linarith
  have b1 : |s * ((R - r) * (2 * R + r)) / (R ^ 3 * (r * (R + r)))| ≤ 2 * (δ ^ 2 / (R ^ 2 * r)) := by
    rw [abs_div, abs_mul, abs_mul, abs_of_pos (by positivity : 0 < 2 * R + r),
      abs_of_pos (by positivity : 0 < R ^ 3 * (r * (R + r)))]
    calc |s| * (|R - r| * (2 * R + r)) / (R ^ 3 * (r * (R + r)))
        ≤ (R * δ) * (δ * (2 * (R + r))) / (R ^ 3 * (r * (R + r))) := by
          have : 2 * R + r ≤ 2 * (R + r) := by linarith
          gcongr
      _ = _ := by field_simp
  have b2 : |δ ^ 2 / (R * (r * (R + r)))| ≤ δ ^ 2 / (R ^ 2 * r) := by
    rw [abs_of_nonneg (by positivity)]
    have : R ^ 2 * r ≤ R * (r * (R + r)) := by nlinarith [mul_pos hR0 (mul_pos hr0 hr0)]
    gcongr
  rw [split]
  calc _ ≤ 2 * (δ ^ 2 / (R ^ 2 * r)) + δ ^ 2 / (R ^ 2 * r) := (abs_sub _ _).trans (add_le_add b1 b2)
    _ = 3 * δ ^ 2 / (R ^ 2 * r) := by ring
    _ ≤ 3 * h ^ 2 / (R ^ 2 * (R - h)) := by
      have : R - h ≤ r := by linarith
      have : 0 < R - h := by linarith
      gcongr

theorem integrableOn_coord (P : Box) (a : Axis) : IntegrableOn (fun q : Pt => q.coord a - P.centre a) P.region := by
  refine ContinuousOn.integrableOn_compact (isCompact_region P) ?_
  cases a <;> simp only [Pt.coord] <;> fun_prop

theorem integral_coord_e (hP : P.Ordered) : ∫ q in P.region, (q.coord .e - P.centre .e) = 0 := by
  have h := integral_rbox (f := fun x _ _ => x - P.centre .e) hP.1 hP.2.1 hP.2.2 (integrableOn_coord P .e)
  refine h.trans ?_
  simp only [intervalIntegral.integral_const, smul_eq_mul, intervalIntegral.integral_const_mul,
    Box.centre, Box.lo, Box.hi]
  rw [intervalIntegral.integral_sub (by simp) (by simp)]
  simp only [intervalIntegral.integral_const, smul_eq_mul, integral_id]
  ring

theorem centre_swap (P : Box) (a : Axis) (s : Swap) : (P.swap s).centre (a.swap s) = P.centre a := by
  unfold Box.centre; rw [Box.lo_swap, Box.hi_swap]

theorem integral_coord (hP : P.Ordered) (a : Axis) : ∫ q in P.region, (q.coord a - P.centre a) = 0 := by
  have tr : ∀ (a : Axis) (s : Swap), ∫ q in (P.swap s).region, (q.coord (a.swap s) - (P.swap s).centre (a.swap s)) = 0 →
      ∫ q in P.region, (q.coord a - P.centre a) = 0 := by
    intro a s h
    rw [← integral_swap] at h
    simp only [Pt.coord_swap, centre_swap] at h
    exact h
  cases a
  · exact integral_coord_e hP
  · exact tr .n .en (integral_coord_e (hP.swap .en))
  · exact tr .u .eu (integral_coord_e (hP.swap .eu))

/-- Seen from outside its circumscribed sphere, a prism attracts like a point mass at its centre up to
a relative error of `3 h² / (R (R - h))`, where `h` is half its diagonal and `R` the distance to its
centre. -/
theorem C53_far_field (hP : P.Ordered) (p : Pt) (ρ : ℝ) (h : P.halfDiagonal < dist3 p P.centrePt) :
    ∃ v m, Returns (onPrism (A := Exact) prism.gravity_pot p P ρ) v ∧
      Returns (onPair (A := Exact) point.gravity_pot p P.centrePt (ρ * P.volume : ℝ)) m ∧
      |v - m| ≤ |m| * (3 * P.halfDiagonal ^ 2 /
        (dist3 p P.centrePt * (dist3 p P.centrePt - P.halfDiagonal))) := by
  set c := P.centrePt with hc
  set R := dist3 p c with hR
  set H := P.halfDiagonal with hH
  have hH0 : 0 ≤ H := by rw [hH, Box.halfDiagonal]; positivity
  have hR0 : 0 < R := hH0.trans_lt h
  have hpc : p ≠ c := fun h' => by rw [hR, h', dist3_eq_zero.mpr rfl] at hR0; exact lt_irrefl _ hR0
  refine ⟨_, _, Ex.gravity_pot_eval p P ρ, Ex.pointGravity_fin .pot hpc _, ?_⟩
  have hm : kp GComp.pot.toK (p.e - c.e) (p.n - c.n) (p.u - c.u) = 1 / R := kpp_pot_dist p c
  rw [hm]
  have hvol : 0 ≤ P.volume := by rw [← volume_region hP]; exact measureReal_nonneg
  -- the linear term integrates to zero
  set L := fun q : Pt => (q.coord .e - P.centre .e) * ((p.e - c.e) / R ^ 3)
    + (q.coord .n - P.centre .n) * ((p.n - c.n) / R ^ 3) + (q.coord .u - P.centre .u) * ((p.u - c.u) / R ^ 3) with hL
  have iL : IntegrableOn L P.region :=
    (((integrableOn_coord P .e).mul_const _).add ((integrableOn_coord P .n).mul_const _)).add
      ((integrableOn_coord P .u).mul_const _)
  have zL : ∫ q in P.region, L q = 0 := by
    rw [hL, integral_lin3 (integrableOn_coord P .e) (integrableOn_coord P .n) (integrableOn_coord P .u),
      integral_coord hP, integral_coord hP, integral_coord hP]
    ring
  have iK : IntegrableOn (kpp .pot p) P.region := integrableOn_pot p P
  have ic : IntegrableOn (fun _ : Pt => 1 / R) P.region :=
    integrableOn_const (isCompact_region P).measure_lt_top.ne (by simp)
  have e : Vc .pot p P - P.volume * (1 / R) = ∫ q in P.region, (kpp .pot p q - 1 / R - L q) := by
    have s1 : ∫ q in P.region, (kpp .pot p q - 1 / R - L q) =
        (∫ q in P.region, (kpp .pot p q - 1 / R)) - ∫ q in P.region, L q := integral_sub (iK.sub ic) iL
    have s2 : ∫ q in P.region, (kpp .pot p q - 1 / R) =
        (∫ q in P.region, kpp .pot p q) - ∫ q in P.region, 1 / R := integral_sub iK ic
    rw [s1, s2, zL, integral_pot hP, setIntegral_const, volume_region hP, smul_eq_mul, sub_zero]
  have bound : |Vc .pot p P - P.volume * (1 / R)| ≤ 3 * H ^ 2 / (R ^ 2 * (R - H)) * P.volume := by
    rw [e, ← volume_region hP, ← Real.norm_eq_abs]
    refine norm_setIntegral_le_of_norm_le_const (isCompact_region P).measure_lt_top ?_
    intro q hq
    have := inv_dist_taylor (p := p) (dist_centre_le hq) h
    rw [Real.norm_eq_abs, kpp_pot_dist]
    refine le_of_eq_of_le ?_ this
    congr 1
    simp only [hL, Pt.coord]
    change _ = 1 / dist3 p q - 1 / R - _ / R ^ 3
    simp only [hc, Box.centrePt, Pt.e, Pt.n, Pt.u]
    ring
  have hRH : 0 < R - H := by linarith
  calc |Gc * ρ * Vc .pot p P - Gc * (ρ * P.volume) * (1 / R)|
      = |Gc * ρ| * |Vc .pot p P - P.volume * (1 / R)| := by rw [← abs_mul]; congr 1; ring
    _ ≤ |Gc * ρ| * (3 * H ^ 2 / (R ^ 2 * (R - H)) * P.volume) := mul_le_mul_of_nonneg_left bound (abs_nonneg _)
    _ = |Gc * (ρ * P.volume) * (1 / R)| * (3 * H ^ 2 / (R * (R - H))) := by
      rw [show Gc * (ρ * P.volume) * (1 / R) = (Gc * ρ) * (P.volume * (1 / R)) by ring, abs_mul (Gc * ρ),
        abs_of_nonneg (by positivity : 0 ≤ P.volume * (1 / R))]
      field_simp

/-- non-vacuity: the example prism seen from 100 m above -/
example : exBox.halfDiagonal < dist3 (0, 0, 100) exBox.centrePt := by
  have h1 : exBox.halfDiagonal ≤ 2 := by
    unfold Box.halfDiagonal exBox
    rw [div_le_iff₀ (by norm_num)]
    apply Real.sqrt_le_iff.mpr
    norm_num
  have h2 : (100 : ℝ) ≤ dist3 (0, 0, 100) exBox.centrePt := by
    unfold dist3
    apply Real.le_sqrt_of_sq_le
    norm_num [Box.centrePt, Box.centre, Box.lo, Box.hi, exBox]
  linarith

end Choclo
