import Verif.Lemmas.Quadrupole2

/-! # C115: the far field of a prism to fourth order -/

namespace Choclo

open Real Set MeasureTheory

variable {P : Box}

/-- geometry of the line through the centre and a point of the prism -/
theorem line_geom {d1 d2 d3 y1 y2 y3 H : ℝ} (hY : y1 ^ 2 + y2 ^ 2 + y3 ^ 2 ≤ H ^ 2) (hH : 0 ≤ H)
    (hR : H < √(d1 ^ 2 + d2 ^ 2 + d3 ^ 2)) :
    (∀ t ∈ Icc (-1:ℝ) 1, (√(d1 ^ 2 + d2 ^ 2 + d3 ^ 2) - H) ^ 2 ≤ (d1 ^ 2 + d2 ^ 2 + d3 ^ 2)
      + 2 * (d1 * y1 + d2 * y2 + d3 * y3) * t + (y1 ^ 2 + y2 ^ 2 + y3 ^ 2) * t ^ 2) ∧
    (d1 * y1 + d2 * y2 + d3 * y3) ^ 2 ≤ (y1 ^ 2 + y2 ^ 2 + y3 ^ 2) * (d1 ^ 2 + d2 ^ 2 + d3 ^ 2) := by
  set R := √(d1 ^ 2 + d2 ^ 2 + d3 ^ 2) with hRd
  have hR2 : R ^ 2 = d1 ^ 2 + d2 ^ 2 + d3 ^ 2 := Real.sq_sqrt (by positivity)
  have hc := cauchy3 d1 d2 d3 y1 y2 y3
  set y := √(y1 ^ 2 + y2 ^ 2 + y3 ^ 2) with hyd
  have hy2 : y ^ 2 = y1 ^ 2 + y2 ^ 2 + y3 ^ 2 := Real.sq_sqrt (by positivity)
  have hy0 : 0 ≤ y := Real.sqrt_nonneg _
  have hyH : y ≤ H := abs_le_of_sq_le_sq' (by rw [hy2]; exact hY) hH |>.2
  set β := d1 * y1 + d2 * y2 + d3 * y3
  rw [← hR2, ← hy2]
  obtain ⟨h1, h2⟩ := abs_le.1 hc
  refine ⟨fun t ht => ?_, by nlinarith⟩
  have ht' : |t| ≤ 1 := abs_le.2 ht
  have k : -(R * y * |t|) ≤ β * t := by
    have : |β * t| ≤ R * y * |t| := by
      rw [abs_mul]; exact mul_le_mul_of_nonneg_right hc (abs_nonneg _)
    exact (abs_le.1 this).1
  have k2 : y * |t| ≤ H := by nlinarith [abs_nonneg t]
  have : (R - H) ^ 2 ≤ (R - y * |t|) ^ 2 := by
    have : 0 ≤ y * |t| := by positivity
    nlinarith
  nlinarith [sq_abs t]

theorem dist3_p (p q : Pt) : dist3 p q = √((P.centre .e - p.e) ^ 2 + (P.centre .n - p.n) ^ 2 + (P.centre .u - p.u) ^ 2
      + 2 * ((P.centre .e - p.e) * (q.coord .e - P.centre .e) + (P.centre .n - p.n) * (q.coord .n - P.centre .n)
        + (P.centre .u - p.u) * (q.coord .u - P.centre .u)) * 1
      + ((q.coord .e - P.centre .e) ^ 2 + (q.coord .n - P.centre .n) ^ 2 + (q.coord .u - P.centre .u) ^ 2) * 1 ^ 2) := by
  unfold dist3
  congr 1
  simp only [Pt.coord]
  ring

theorem dist3_opp (p q : Pt) : dist3 (opp P p) q = √((P.centre .e - p.e) ^ 2 + (P.centre .n - p.n) ^ 2 + (P.centre .u - p.u) ^ 2
      + 2 * ((P.centre .e - p.e) * (q.coord .e - P.centre .e) + (P.centre .n - p.n) * (q.coord .n - P.centre .n)
        + (P.centre .u - p.u) * (q.coord .u - P.centre .u)) * (-1)
      + ((q.coord .e - P.centre .e) ^ 2 + (q.coord .n - P.centre .n) ^ 2 + (q.coord .u - P.centre .u) ^ 2) * (-1) ^ 2) := by
  unfold dist3
  congr 1
  simp only [Pt.coord, opp, Pt.e, Pt.n, Pt.u]
  ring

theorem dist3_centre (p : Pt) : dist3 p P.centrePt
    = √((P.centre .e - p.e) ^ 2 + (P.centre .n - p.n) ^ 2 + (P.centre .u - p.u) ^ 2) := by
  unfold dist3
  congr 1
  simp only [Box.centrePt, Pt.e, Pt.n, Pt.u]
  ring

theorem sq_centre_le {q : Pt} (hq : q ∈ P.region) :
    (q.coord .e - P.centre .e) ^ 2 + (q.coord .n - P.centre .n) ^ 2 + (q.coord .u - P.centre .u) ^ 2 ≤ P.halfDiagonal ^ 2 := by
  have h := dist_centre_le hq
  have : dist3 q P.centrePt ^ 2 = (q.coord .e - P.centre .e) ^ 2 + (q.coord .n - P.centre .n) ^ 2 + (q.coord .u - P.centre .u) ^ 2 :=
    Real.sq_sqrt (by positivity)
  rw [← this]
  have : 0 ≤ dist3 q P.centrePt := Real.sqrt_nonneg _
  gcongr

theorem halfDiagonal_nonneg (P : Box) : 0 ≤ P.halfDiagonal := by rw [Box.halfDiagonal]; positivity

/-- the pointwise expansion of the potential -/
theorem pot_local {p q : Pt} (h : P.halfDiagonal < dist3 p P.centrePt) (hq : q ∈ P.region) :
    |kpp .pot p q + kpp .pot (opp P p) q - 2 * (1 / dist3 p P.centrePt)
      - quadForm P (3 * (P.centre .e - p.e) ^ 2 / dist3 p P.centrePt ^ 5 - 1 / dist3 p P.centrePt ^ 3)
        (3 * (P.centre .n - p.n) ^ 2 / dist3 p P.centrePt ^ 5 - 1 / dist3 p P.centrePt ^ 3)
        (3 * (P.centre .u - p.u) ^ 2 / dist3 p P.centrePt ^ 5 - 1 / dist3 p P.centrePt ^ 3)
        (6 * (P.centre .e - p.e) * (P.centre .n - p.n) / dist3 p P.centrePt ^ 5)
        (6 * (P.centre .e - p.e) * (P.centre .u - p.u) / dist3 p P.centrePt ^ 5)
        (6 * (P.centre .n - p.n) * (P.centre .u - p.u) / dist3 p P.centrePt ^ 5) q|
      ≤ 2 * P.halfDiagonal ^ 4 / (dist3 p P.centrePt - P.halfDiagonal) ^ 5 := by
  have hH := halfDiagonal_nonneg P
  have hY := sq_centre_le hq
  have hR := h
  rw [dist3_centre] at hR
  obtain ⟨g1, g2⟩ := line_geom hY hH hR
  have key := sym4_inv (sub_pos.2 hR) g1 g2
  rw [← dist3_centre] at key
  rw [kpp_pot_dist, kpp_pot_dist, dist3_p (P := P) p q, dist3_opp]
  have e0 : invd ((P.centre .e - p.e) ^ 2 + (P.centre .n - p.n) ^ 2 + (P.centre .u - p.u) ^ 2)
      ((P.centre .e - p.e) * (q.coord .e - P.centre .e) + (P.centre .n - p.n) * (q.coord .n - P.centre .n)
        + (P.centre .u - p.u) * (q.coord .u - P.centre .u))
      ((q.coord .e - P.centre .e) ^ 2 + (q.coord .n - P.centre .n) ^ 2 + (q.coord .u - P.centre .u) ^ 2) 0
      = 1 / dist3 p P.centrePt := by
    rw [dist3_centre, invd]; simp
  rw [e0] at key
  have hR0 : 0 < dist3 p P.centrePt := hH.trans_lt h
  refine le_of_eq_of_le ?_ (key.trans ?_)
  · unfold invd quadForm
    congr 1
    simp only [one_div_pow]
    ring
  · rw [show P.halfDiagonal ^ 4 = (P.halfDiagonal ^ 2) ^ 2 by ring]
    have : 0 < dist3 p P.centrePt - P.halfDiagonal := sub_pos.2 h
    gcongr

theorem line_sq (d1 d2 d3 y1 y2 y3 t : ℝ) : d1 ^ 2 + d2 ^ 2 + d3 ^ 2 + 2 * (d1 * y1 + d2 * y2 + d3 * y3) * t
    + (y1 ^ 2 + y2 ^ 2 + y3 ^ 2) * t ^ 2 = (d1 + y1 * t) ^ 2 + (d2 + y2 * t) ^ 2 + (d3 + y3 * t) ^ 2 := by ring

/-- the pointwise expansion of the acceleration -/
theorem acc_local (a : Axis) {p : Pt} (h : P.halfDiagonal < dist3 p P.centrePt) : ∃ k1 k2 k3 : ℝ, ∀ q ∈ P.region,
    |kpp a.acc.toK p q - kpp a.acc.toK (opp P p) q - 2 * kpp a.acc.toK p P.centrePt
      - quadForm P (kpp (kern3 a .e .e) p P.centrePt) (kpp (kern3 a .n .n) p P.centrePt)
        (kpp (kern3 a .u .u) p P.centrePt) k1 k2 k3 q|
      ≤ 50 * P.halfDiagonal ^ 4 / (dist3 p P.centrePt - P.halfDiagonal) ^ 6 := by
  have hH := halfDiagonal_nonneg P
  have hR := h
  rw [dist3_centre] at hR
  have hR0 : 0 < dist3 p P.centrePt := hH.trans_lt h
  have hδ : 0 < dist3 p P.centrePt - P.halfDiagonal := sub_pos.2 h
  have main : ∀ q ∈ P.region, |(q.coord a - p.coord a) / dist3 p q ^ 3
      - (q.coord a - (opp P p).coord a) / dist3 (opp P p) q ^ 3
      - 2 * ((P.centre a - p.coord a) * (1 / dist3 p P.centrePt) ^ 3)
      - ((P.centre a - p.coord a) * (15 * ((P.centre .e - p.e) * (q.coord .e - P.centre .e)
          + (P.centre .n - p.n) * (q.coord .n - P.centre .n)
          + (P.centre .u - p.u) * (q.coord .u - P.centre .u)) ^ 2 * (1 / dist3 p P.centrePt) ^ 7
          - 3 * ((q.coord .e - P.centre .e) ^ 2 + (q.coord .n - P.centre .n) ^ 2 + (q.coord .u - P.centre .u) ^ 2)
            * (1 / dist3 p P.centrePt) ^ 5)
        - 6 * (q.coord a - P.centre a) * ((P.centre .e - p.e) * (q.coord .e - P.centre .e)
          + (P.centre .n - p.n) * (q.coord .n - P.centre .n)
          + (P.centre .u - p.u) * (q.coord .u - P.centre .u)) * (1 / dist3 p P.centrePt) ^ 5)|
      ≤ 50 * P.halfDiagonal ^ 4 / (dist3 p P.centrePt - P.halfDiagonal) ^ 6 := by
    intro q hq
    have hY := sq_centre_le hq
    obtain ⟨g1, g2⟩ := line_geom hY hH hR
    have hx : ∀ t ∈ Icc (-1:ℝ) 1, ((P.centre a - p.coord a) + (q.coord a - P.centre a) * t) ^ 2
        ≤ ((P.centre .e - p.e) ^ 2 + (P.centre .n - p.n) ^ 2 + (P.centre .u - p.u) ^ 2)
          + 2 * ((P.centre .e - p.e) * (q.coord .e - P.centre .e) + (P.centre .n - p.n) * (q.coord .n - P.centre .n)
            + (P.centre .u - p.u) * (q.coord .u - P.centre .u)) * t
          + ((q.coord .e - P.centre .e) ^ 2 + (q.coord .n - P.centre .n) ^ 2 + (q.coord .u - P.centre .u) ^ 2) * t ^ 2 := by
      intro t _
      rw [line_sq]
      have s1 := sq_nonneg ((P.centre .e - p.e) + (q.coord .e - P.centre .e) * t)
      have s2 := sq_nonneg ((P.centre .n - p.n) + (q.coord .n - P.centre .n) * t)
      have s3 := sq_nonneg ((P.centre .u - p.u) + (q.coord .u - P.centre .u) * t)
      cases a
      · change ((P.centre .e - p.e) + (q.coord .e - P.centre .e) * t) ^ 2 ≤ _; linarith only [s2, s3]
      · change ((P.centre .n - p.n) + (q.coord .n - P.centre .n) * t) ^ 2 ≤ _; linarith only [s1, s3]
      · change ((P.centre .u - p.u) + (q.coord .u - P.centre .u) * t) ^ 2 ≤ _; linarith only [s1, s2]
    have hy : (q.coord a - P.centre a) ^ 2 ≤
        (q.coord .e - P.centre .e) ^ 2 + (q.coord .n - P.centre .n) ^ 2 + (q.coord .u - P.centre .u) ^ 2 := by
      cases a
      · linarith [sq_nonneg (q.coord .n - P.centre .n), sq_nonneg (q.coord .u - P.centre .u)]
      · linarith [sq_nonneg (q.coord .e - P.centre .e), sq_nonneg (q.coord .u - P.centre .u)]
      · linarith [sq_nonneg (q.coord .e - P.centre .e), sq_nonneg (q.coord .n - P.centre .n)]
    have key := sym4_inv3 (sub_pos.2 hR) g1 g2 hx hy
    rw [← dist3_centre] at key
    have e0 : invd ((P.centre .e - p.e) ^ 2 + (P.centre .n - p.n) ^ 2 + (P.centre .u - p.u) ^ 2)
        ((P.centre .e - p.e) * (q.coord .e - P.centre .e) + (P.centre .n - p.n) * (q.coord .n - P.centre .n)
          + (P.centre .u - p.u) * (q.coord .u - P.centre .u))
        ((q.coord .e - P.centre .e) ^ 2 + (q.coord .n - P.centre .n) ^ 2 + (q.coord .u - P.centre .u) ^ 2) 0
        = 1 / dist3 p P.centrePt := by
      rw [dist3_centre, invd]; simp
    rw [e0] at key
    have eo : q.coord a - (opp P p).coord a = -((P.centre a - p.coord a) - (q.coord a - P.centre a)) := by
      cases a <;> simp only [Pt.coord, opp, Pt.e, Pt.n, Pt.u] <;> ring
    refine le_of_eq_of_le ?_ (key.trans ?_)
    · rw [dist3_p (P := P) p q, dist3_opp, eo]
      unfold invd
      congr 1
      simp only [one_div_pow]
      ring
    · rw [show P.halfDiagonal ^ 4 = (P.halfDiagonal ^ 2) ^ 2 by ring]
      gcongr
  have hr : rad (p.e - P.centrePt.e) (p.n - P.centrePt.n) (p.u - P.centrePt.u) = dist3 p P.centrePt := rfl
  set R := dist3 p P.centrePt with hRd
  refine ⟨30 * (P.centre a - p.coord a) * (P.centre .e - p.e) * (P.centre .n - p.n) / R ^ 7
      - (match (generalizing := false) a with | .e => 6 * (P.centre .n - p.n) | .n => 6 * (P.centre .e - p.e) | .u => 0) / R ^ 5,
    30 * (P.centre a - p.coord a) * (P.centre .e - p.e) * (P.centre .u - p.u) / R ^ 7
      - (match (generalizing := false) a with | .e => 6 * (P.centre .u - p.u) | .n => 0 | .u => 6 * (P.centre .e - p.e)) / R ^ 5,
    30 * (P.centre a - p.coord a) * (P.centre .n - p.n) * (P.centre .u - p.u) / R ^ 7
      - (match (generalizing := false) a with | .e => 0 | .n => 6 * (P.centre .u - p.u) | .u => 6 * (P.centre .n - p.n)) / R ^ 5, fun q hq => ?_⟩
  refine le_of_eq_of_le ?_ (main q hq)
  congr 1
  rw [kpp_acc_dist, kpp_acc_dist, kpp_acc_dist, ← hRd]
  unfold quadForm kpp
  clear_value R
  clear main hR
  cases a <;> simp only [kern3, kp, hr] <;>
    simp only [Pt.coord, Box.centrePt, Pt.e, Pt.n, Pt.u, one_div_pow] <;> ring

theorem integrable_const_region (k : ℝ) : IntegrableOn (fun _ : Pt => k) P.region :=
  integrableOn_const (isCompact_region P).measure_lt_top.ne (by simp)

theorem volume_nonneg (hP : P.Ordered) : 0 ≤ P.volume := by rw [← volume_region hP]; exact measureReal_nonneg

/-- integrate a pointwise expansion over the prism -/
theorem integrate_local (hP : P.Ordered) {f g : Pt → ℝ} {k h1 h2 h3 k1 k2 k3 B : ℝ} (hf : IntegrableOn f P.region)
    (hg : IntegrableOn g P.region)
    (h : ∀ q ∈ P.region, |f q + g q - 2 * k - quadForm P h1 h2 h3 k1 k2 k3 q| ≤ B) :
    |(∫ q in P.region, f q) + (∫ q in P.region, g q) - P.volume * (2 * k) - P.volume / 12 *
      ((P.hi .e - P.lo .e) ^ 2 * h1 + (P.hi .n - P.lo .n) ^ 2 * h2 + (P.hi .u - P.lo .u) ^ 2 * h3)| ≤ B * P.volume := by
  have s1 : ∫ q in P.region, (f q + g q - 2 * k - quadForm P h1 h2 h3 k1 k2 k3 q)
      = (∫ q in P.region, (f q + g q - 2 * k)) - ∫ q in P.region, quadForm P h1 h2 h3 k1 k2 k3 q :=
    integral_sub ((hf.add hg).sub (integrable_const_region _)) (integrableOn_quadForm _ _ _ _ _ _ _)
  have s2 : ∫ q in P.region, (f q + g q - 2 * k) = (∫ q in P.region, (f q + g q)) - ∫ q in P.region, 2 * k :=
    integral_sub (hf.add hg) (integrable_const_region _)
  have s3 : ∫ q in P.region, (f q + g q) = (∫ q in P.region, f q) + ∫ q in P.region, g q := integral_add hf hg
  have s4 : ∫ _ in P.region, 2 * k = P.volume * (2 * k) := by
    rw [setIntegral_const, volume_region hP, smul_eq_mul]
  rw [← integral_quadForm hP h1 h2 h3 k1 k2 k3, ← s4, ← s3, ← s2, ← s1, ← volume_region hP, ← Real.norm_eq_abs]
  exact norm_setIntegral_le_of_norm_le_const (isCompact_region P).measure_lt_top (fun q hq => h q hq)

/-- Outside its circumscribed sphere a prism acts like a point mass at its centre plus the quadrupole given by its
extents, up to the fourth order: the potential. -/
theorem C115_potential (hP : P.Ordered) (p : Pt) (ρ : ℝ) (h : P.halfDiagonal < dist3 p P.centrePt) :
    ∃ v m te tn tu, Returns (onPrism (A := Exact) prism.gravity_pot p P ρ) v ∧
      Returns (onPair (A := Exact) point.gravity_pot p P.centrePt (ρ * P.volume : ℝ)) m ∧
      Returns (onPair (A := Exact) point.gravity_ee p P.centrePt (ρ * P.volume : ℝ)) te ∧
      Returns (onPair (A := Exact) point.gravity_nn p P.centrePt (ρ * P.volume : ℝ)) tn ∧
      Returns (onPair (A := Exact) point.gravity_uu p P.centrePt (ρ * P.volume : ℝ)) tu ∧
      |v - (m + (P.east - P.west) ^ 2 / 24 * te + (P.north - P.south) ^ 2 / 24 * tn
        + (P.top - P.bottom) ^ 2 / 24 * tu)|
        ≤ 6.6743e-11 * |ρ * P.volume| * P.halfDiagonal ^ 4 / (dist3 p P.centrePt - P.halfDiagonal) ^ 5 := by
  have hH := halfDiagonal_nonneg P
  have hR0 : 0 < dist3 p P.centrePt := hH.trans_lt h
  have hpc : p ≠ P.centrePt := fun h' => by
    rw [dist3_eq_zero.mpr h'] at hR0; exact lt_irrefl _ hR0
  refine ⟨_, _, _, _, _, Ex.gravity_pot_eval p P ρ, Ex.pointGravity_fin .pot hpc _, Ex.pointGravity_fin .ee hpc _,
    Ex.pointGravity_fin .nn hpc _, Ex.pointGravity_fin .uu hpc _, ?_⟩
  have key := integrate_local hP (integrableOn_pot p P) (integrableOn_pot (opp P p) P)
    (fun q hq => pot_local h hq)
  rw [integral_pot hP, integral_pot hP, Vpot_opp hP] at key
  have hr : rad (p.e - P.centrePt.e) (p.n - P.centrePt.n) (p.u - P.centrePt.u) = dist3 p P.centrePt := rfl
  have hδ := sub_pos.2 h
  set R := dist3 p P.centrePt
  have hv := volume_nonneg hP
  have e : ∀ V : ℝ, Gc * ρ * V - (Gc * (ρ * P.volume) * kp GComp.pot.toK (p.e - P.centrePt.e) (p.n - P.centrePt.n) (p.u - P.centrePt.u)
      + (P.east - P.west) ^ 2 / 24 * (Gc * (ρ * P.volume) * kp GComp.ee.toK (p.e - P.centrePt.e) (p.n - P.centrePt.n) (p.u - P.centrePt.u))
      + (P.north - P.south) ^ 2 / 24 * (Gc * (ρ * P.volume) * kp GComp.nn.toK (p.e - P.centrePt.e) (p.n - P.centrePt.n) (p.u - P.centrePt.u))
      + (P.top - P.bottom) ^ 2 / 24 * (Gc * (ρ * P.volume) * kp GComp.uu.toK (p.e - P.centrePt.e) (p.n - P.centrePt.n) (p.u - P.centrePt.u)))
      = Gc * ρ / 2 * (V + V - P.volume * (2 * (1 / R)) - P.volume / 12 *
      ((P.hi .e - P.lo .e) ^ 2 * (3 * (P.centre .e - p.e) ^ 2 / R ^ 5 - 1 / R ^ 3)
        + (P.hi .n - P.lo .n) ^ 2 * (3 * (P.centre .n - p.n) ^ 2 / R ^ 5 - 1 / R ^ 3)
        + (P.hi .u - P.lo .u) ^ 2 * (3 * (P.centre .u - p.u) ^ 2 / R ^ 5 - 1 / R ^ 3))) := by
    intro V
    simp only [GComp.toK, kp, hr]
    simp only [Box.centrePt, Box.hi, Box.lo, Pt.e, Pt.n, Pt.u]
    ring
  rw [e, abs_mul]
  refine (mul_le_mul_of_nonneg_left key (abs_nonneg _)).trans (le_of_eq ?_)
  rw [abs_div, abs_mul, abs_of_pos Gc_pos, abs_mul, abs_of_nonneg hv, abs_of_pos (by norm_num : (0:ℝ) < 2)]
  unfold Gc
  ring

/-- The same for the three acceleration components. -/
theorem C115_acceleration (hP : P.Ordered) (a : Axis) (p : Pt) (ρ : ℝ) (h : P.halfDiagonal < dist3 p P.centrePt) :
    ∃ v m ke kn ku, Returns (onPrism (A := Exact) (prismGravity a.acc) p P ρ) v ∧
      Returns (onPair (A := Exact) (pointGravity a.acc) p P.centrePt (ρ * P.volume : ℝ)) m ∧
      Returns (callKernel (A := Exact) (kern3 a .e .e) p P.centrePt) ke ∧
      Returns (callKernel (A := Exact) (kern3 a .n .n) p P.centrePt) kn ∧
      Returns (callKernel (A := Exact) (kern3 a .u .u) p P.centrePt) ku ∧
      |v - (m + 6.6743e-11 * (ρ * P.volume) * ((P.east - P.west) ^ 2 / 24 * ke + (P.north - P.south) ^ 2 / 24 * kn
        + (P.top - P.bottom) ^ 2 / 24 * ku))|
        ≤ 25 * (6.6743e-11 * |ρ * P.volume| * P.halfDiagonal ^ 4 / (dist3 p P.centrePt - P.halfDiagonal) ^ 6) := by
  have hH := halfDiagonal_nonneg P
  have hR0 : 0 < dist3 p P.centrePt := hH.trans_lt h
  have hpc : p ≠ P.centrePt := fun h' => by
    rw [dist3_eq_zero.mpr h'] at hR0; exact lt_irrefl _ hR0
  refine ⟨_, _, _, _, _, acc_returns a p P ρ, Ex.pointGravity_fin a.acc hpc _, Ex.callKernel_fin _ hpc,
    Ex.callKernel_fin _ hpc, Ex.callKernel_fin _ hpc, ?_⟩
  obtain ⟨k1, k2, k3, hl⟩ := acc_local a h
  obtain ⟨i1, i2⟩ := integral_low hP a.acc (by cases a <;> decide) p
  obtain ⟨j1, j2⟩ := integral_low hP a.acc (by cases a <;> decide) (opp P p)
  have key := integrate_local hP (g := fun q => -kpp a.acc.toK (opp P p) q) i1 j1.neg hl
  rw [integral_neg, i2, j2, Vacc_opp hP] at key
  have hδ := sub_pos.2 h
  have hv := volume_nonneg hP
  change |Gc * ρ * Vc a.acc p P - (Gc * (ρ * P.volume) * kpp a.acc.toK p P.centrePt
    + 6.6743e-11 * (ρ * P.volume) * ((P.east - P.west) ^ 2 / 24 * kpp (kern3 a .e .e) p P.centrePt
    + (P.north - P.south) ^ 2 / 24 * kpp (kern3 a .n .n) p P.centrePt
    + (P.top - P.bottom) ^ 2 / 24 * kpp (kern3 a .u .u) p P.centrePt))| ≤ _
  rw [show (6.6743e-11 : ℝ) = Gc from rfl]
  have e : ∀ V m x y z : ℝ, Gc * ρ * V - (Gc * (ρ * P.volume) * m + Gc * (ρ * P.volume) *
      ((P.east - P.west) ^ 2 / 24 * x + (P.north - P.south) ^ 2 / 24 * y + (P.top - P.bottom) ^ 2 / 24 * z))
      = Gc * ρ / 2 * (V + - -V - P.volume * (2 * m) - P.volume / 12 *
      ((P.hi .e - P.lo .e) ^ 2 * x + (P.hi .n - P.lo .n) ^ 2 * y + (P.hi .u - P.lo .u) ^ 2 * z)) := by
    intro V m x y z
    simp only [Box.hi, Box.lo]
    ring
  rw [e, abs_mul]
  refine (mul_le_mul_of_nonneg_left key (abs_nonneg _)).trans (le_of_eq ?_)
  rw [abs_div, abs_mul, abs_of_pos Gc_pos, abs_mul, abs_of_nonneg hv, abs_of_pos (by norm_num : (0:ℝ) < 2)]
  ring

/-- A cube has no quadrupole: outside its circumscribed sphere it is a point mass up to the fourth order. -/
theorem C115_cube (hP : P.Ordered) (h1 : P.north - P.south = P.east - P.west) (h2 : P.top - P.bottom = P.east - P.west)
    (p : Pt) (ρ : ℝ) (h : P.halfDiagonal < dist3 p P.centrePt) :
    (∃ v m, Returns (onPrism (A := Exact) prism.gravity_pot p P ρ) v ∧
      Returns (onPair (A := Exact) point.gravity_pot p P.centrePt (ρ * P.volume : ℝ)) m ∧
      |v - m| ≤ 6.6743e-11 * |ρ * P.volume| * P.halfDiagonal ^ 4 / (dist3 p P.centrePt - P.halfDiagonal) ^ 5) ∧
    (∀ a : Axis, ∃ v m, Returns (onPrism (A := Exact) (prismGravity a.acc) p P ρ) v ∧
      Returns (onPair (A := Exact) (pointGravity a.acc) p P.centrePt (ρ * P.volume : ℝ)) m ∧
      |v - m| ≤ 25 * (6.6743e-11 * |ρ * P.volume| * P.halfDiagonal ^ 4 /
        (dist3 p P.centrePt - P.halfDiagonal) ^ 6)) := by
  have hH := halfDiagonal_nonneg P
  have hR0 : 0 < dist3 p P.centrePt := hH.trans_lt h
  have hpc : p ≠ P.centrePt := fun h' => by
    rw [dist3_eq_zero.mpr h'] at hR0; exact lt_irrefl _ hR0
  constructor
  · obtain ⟨v, m, te, tn, tu, hv, hm, he, hn, hu, hb⟩ := C115_potential hP p ρ h
    refine ⟨v, m, hv, hm, ?_⟩
    have z : te + tn + tu = 0 := by
      rw [he.inj (Ex.pointGravity_fin .ee hpc _), hn.inj (Ex.pointGravity_fin .nn hpc _),
        hu.inj (Ex.pointGravity_fin .uu hpc _), ← mul_add, ← mul_add]
      exact mul_eq_zero_of_right _ (kp_trace .ee .nn .uu _ _ _ (rad_ne hpc) (by simp))
    rw [h1, h2] at hb
    rwa [show m + (P.east - P.west) ^ 2 / 24 * te + (P.east - P.west) ^ 2 / 24 * tn + (P.east - P.west) ^ 2 / 24 * tu
      = m + (P.east - P.west) ^ 2 / 24 * (te + tn + tu) by ring, z, mul_zero, add_zero] at hb
  · intro a
    obtain ⟨v, m, te, tn, tu, hv, hm, he, hn, hu, hb⟩ := C115_acceleration hP a p ρ h
    refine ⟨v, m, hv, hm, ?_⟩
    have z : te + tn + tu = 0 := by
      rw [he.inj (Ex.callKernel_fin _ hpc), hn.inj (Ex.callKernel_fin _ hpc), hu.inj (Ex.callKernel_fin _ hpc)]
      exact kp_trace _ _ _ _ _ _ (rad_ne hpc) (by cases a <;> simp [kern3])
    rw [h1, h2] at hb
    rwa [show (P.east - P.west) ^ 2 / 24 * te + (P.east - P.west) ^ 2 / 24 * tn + (P.east - P.west) ^ 2 / 24 * tu
      = (P.east - P.west) ^ 2 / 24 * (te + tn + tu) by ring, z, mul_zero, mul_zero, add_zero] at hb

/-- non-vacuity: the example prism is a cube, seen from 100 m above, where the bound for the potential is below
`2e-7` of the point mass value `G M / R` -/
example : exBox.Ordered ∧ exBox.north - exBox.south = exBox.east - exBox.west ∧
    exBox.top - exBox.bottom = exBox.east - exBox.west ∧ exBox.halfDiagonal < dist3 (0, 0, 100) exBox.centrePt ∧
    exBox.halfDiagonal ^ 4 / (dist3 (0, 0, 100) exBox.centrePt - exBox.halfDiagonal) ^ 5
      ≤ 2e-7 * (1 / dist3 (0, 0, 100) exBox.centrePt) := by
  have h1 : exBox.halfDiagonal ≤ 2 := by
    unfold Box.halfDiagonal exBox
    rw [div_le_iff₀ (by norm_num)]
    apply Real.sqrt_le_iff.mpr
    norm_num
  have h0 := halfDiagonal_nonneg exBox
  have h2 : dist3 (0, 0, 100) exBox.centrePt = 101 := by
    unfold dist3
    rw [show (101 : ℝ) = √(101 ^ 2) by rw [Real.sqrt_sq (by norm_num)]]
    congr 1
    norm_num [Box.centrePt, Box.centre, Box.lo, Box.hi, exBox, Pt.e, Pt.n, Pt.u]
  refine ⟨exBox_ordered, by norm_num [exBox], by norm_num [exBox], by rw [h2]; linarith, ?_⟩
  rw [h2]
  calc exBox.halfDiagonal ^ 4 / (101 - exBox.halfDiagonal) ^ 5 ≤ 2 ^ 4 / (101 - 2) ^ 5 := by gcongr
    _ ≤ _ := by norm_num

end Choclo
