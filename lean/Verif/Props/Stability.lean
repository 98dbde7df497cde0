import Verif.Spec.Stability
import Verif.Lemmas.BallBound
import Verif.Props.Decay
import Verif.Props.PrismSym
import Verif.Lemmas.Taylor
import Mathlib.Analysis.Real.Pi.Bounds

/-! # C119: how much errors in the coordinates change the results -/

namespace Choclo

open Real Set MeasureTheory Filter Topology

variable {P Q : Box}

/-! ## Volumes -/

theorem volume_symmDiff_ne_top (P Q : Box) : (volume : Measure Pt) (symmDiff P.region Q.region) ≠ ⊤ :=
  ((measure_mono (Set.symmDiff_subset_union)).trans_lt
    ((isCompact_region P).union (isCompact_region Q)).measure_lt_top).ne

theorem slab_le {B : Box} {δ x y z : ℝ} (hB : B.Ordered) (hV : B.volume = x * y * z) (h : x ≤ δ) (hy : 0 ≤ y) (hz : 0 ≤ z) :
    (volume : Measure Pt).real B.region ≤ δ * (y * z) := by
  rw [volume_region hB, hV, mul_assoc]
  exact mul_le_mul_of_nonneg_right h (mul_nonneg hy hz)

/-- If no boundary moves by more than `δ`, the volume that does not belong to both prisms is at most `δ` times the surface
of the first prism grown by `δ`. -/
theorem C119_volume (hP : P.Ordered) (hQ : Q.Ordered) {δ : ℝ} (h : P.Near δ Q) :
    (volume : Measure Pt).real (symmDiff P.region Q.region) ≤ δ * (P.grow δ).surfaceArea := by
  obtain ⟨o1, o2, o3⟩ := hP
  obtain ⟨r1, r2, r3⟩ := hQ
  obtain ⟨w, e, s, n, b, t⟩ := P
  obtain ⟨w', e', s', n', b', t'⟩ := Q
  obtain ⟨h1, h2, h3, h4, h5, h6⟩ := h
  simp only [abs_le] at h1 h2 h3 h4 h5 h6 o1 o2 o3 r1 r2 r3
  set B1 : Box := ⟨min w w', max w w', s - δ, n + δ, b - δ, t + δ⟩ with hB1
  set B2 : Box := ⟨min e e', max e e', s - δ, n + δ, b - δ, t + δ⟩ with hB2
  set B3 : Box := ⟨w - δ, e + δ, min s s', max s s', b - δ, t + δ⟩ with hB3
  set B4 : Box := ⟨w - δ, e + δ, min n n', max n n', b - δ, t + δ⟩ with hB4
  set B5 : Box := ⟨w - δ, e + δ, s - δ, n + δ, min b b', max b b'⟩ with hB5
  set B6 : Box := ⟨w - δ, e + δ, s - δ, n + δ, min t t', max t t'⟩ with hB6
  have sub : symmDiff (Box.region ⟨w, e, s, n, b, t⟩) (Box.region ⟨w', e', s', n', b', t'⟩) ⊆
      ((((B1.region ∪ B2.region) ∪ B3.region) ∪ B4.region) ∪ B5.region) ∪ B6.region := by
    rintro ⟨x, y, z⟩ hq
    simp only [Set.mem_symmDiff, Box.region, mem_prod, mem_Icc, mem_union, hB1, hB2, hB3, hB4, hB5, hB6, min_le_iff,
      le_max_iff] at hq ⊢
    rcases hq with ⟨⟨⟨a1, a2⟩, ⟨a3, a4⟩, ⟨a5, a6⟩⟩, hn⟩ | ⟨⟨⟨a1, a2⟩, ⟨a3, a4⟩, ⟨a5, a6⟩⟩, hn⟩
    · by_cases c1 : w' ≤ x
      · by_cases c2 : x ≤ e'
        · by_cases c3 : s' ≤ y
          · by_cases c4 : y ≤ n'
            · by_cases c5 : b' ≤ z
              · by_cases c6 : z ≤ t'
                · exact absurd ⟨⟨c1, c2⟩, ⟨c3, c4⟩, c5, c6⟩ hn
                · right; refine ⟨⟨?_, ?_⟩, ⟨?_, ?_⟩, .inr (not_le.1 c6).le, .inl a6⟩ <;> linarith
              · left; right; refine ⟨⟨?_, ?_⟩, ⟨?_, ?_⟩, .inl a5, .inr (not_le.1 c5).le⟩ <;> linarith
            · left; left; right; refine ⟨⟨?_, ?_⟩, ⟨.inr (not_le.1 c4).le, .inl a4⟩, ?_, ?_⟩ <;> linarith
          · left; left; left; right; refine ⟨⟨?_, ?_⟩, ⟨.inl a3, .inr (not_le.1 c3).le⟩, ?_, ?_⟩ <;> linarith
        · left; left; left; left; right; refine ⟨⟨.inr (not_le.1 c2).le, .inl a2⟩, ⟨?_, ?_⟩, ?_, ?_⟩ <;> linarith
      · left; left; left; left; left; refine ⟨⟨.inl a1, .inr (not_le.1 c1).le⟩, ⟨?_, ?_⟩, ?_, ?_⟩ <;> linarith
    · by_cases c1 : w ≤ x
      · by_cases c2 : x ≤ e
        · by_cases c3 : s ≤ y
          · by_cases c4 : y ≤ n
            · by_cases c5 : b ≤ z
              · by_cases c6 : z ≤ t
                · exact absurd ⟨⟨c1, c2⟩, ⟨c3, c4⟩, c5, c6⟩ hn
                · right; refine ⟨⟨?_, ?_⟩, ⟨?_, ?_⟩, .inl (not_le.1 c6).le, .inr a6⟩ <;> linarith
              · left; right; refine ⟨⟨?_, ?_⟩, ⟨?_, ?_⟩, .inr a5, .inl (not_le.1 c5).le⟩ <;> linarith
            · left; left; right; refine ⟨⟨?_, ?_⟩, ⟨.inl (not_le.1 c4).le, .inr a4⟩, ?_, ?_⟩ <;> linarith
          · left; left; left; right; refine ⟨⟨?_, ?_⟩, ⟨.inr a3, .inl (not_le.1 c3).le⟩, ?_, ?_⟩ <;> linarith
        · left; left; left; left; right; refine ⟨⟨.inl (not_le.1 c2).le, .inr a2⟩, ⟨?_, ?_⟩, ?_, ?_⟩ <;> linarith
      · left; left; left; left; left; refine ⟨⟨.inr a1, .inl (not_le.1 c1).le⟩, ⟨?_, ?_⟩, ?_, ?_⟩ <;> linarith
  have mm : ∀ x y : ℝ, min x y ≤ max x y := fun x y => min_le_max
  have md : ∀ {x y : ℝ}, -δ ≤ x - y → x - y ≤ δ → max x y - min x y ≤ δ := fun {x y} h1 h2 => by
    rw [max_sub_min_eq_abs, abs_le]; constructor <;> linarith
  have hδ : 0 ≤ δ := by linarith [h1.1.trans h1.2]
  have k1 : (volume : Measure Pt).real B1.region ≤ δ * ((n + δ - (s - δ)) * (t + δ - (b - δ))) :=
    slab_le (B := B1) ⟨mm _ _, by linarith, by linarith⟩ (by simp only [Box.volume, hB1]) (md h1.1 h1.2) (by linarith) (by linarith)
  have k2 : (volume : Measure Pt).real B2.region ≤ δ * ((n + δ - (s - δ)) * (t + δ - (b - δ))) :=
    slab_le (B := B2) ⟨mm _ _, by linarith, by linarith⟩ (by simp only [Box.volume, hB2]) (md h2.1 h2.2) (by linarith) (by linarith)
  have k3 : (volume : Measure Pt).real B3.region ≤ δ * ((e + δ - (w - δ)) * (t + δ - (b - δ))) :=
    slab_le (B := B3) ⟨by linarith, mm _ _, by linarith⟩ (x := max s s' - min s s')
      (by simp only [Box.volume, hB3]; ring) (md h3.1 h3.2) (by linarith) (by linarith)
  have k4 : (volume : Measure Pt).real B4.region ≤ δ * ((e + δ - (w - δ)) * (t + δ - (b - δ))) :=
    slab_le (B := B4) ⟨by linarith, mm _ _, by linarith⟩ (x := max n n' - min n n')
      (by simp only [Box.volume, hB4]; ring) (md h4.1 h4.2) (by linarith) (by linarith)
  have k5 : (volume : Measure Pt).real B5.region ≤ δ * ((e + δ - (w - δ)) * (n + δ - (s - δ))) :=
    slab_le (B := B5) ⟨by linarith, by linarith, mm _ _⟩ (x := max b b' - min b b')
      (by simp only [Box.volume, hB5]; ring) (md h5.1 h5.2) (by linarith) (by linarith)
  have k6 : (volume : Measure Pt).real B6.region ≤ δ * ((e + δ - (w - δ)) * (n + δ - (s - δ))) :=
    slab_le (B := B6) ⟨by linarith, by linarith, mm _ _⟩ (x := max t t' - min t t')
      (by simp only [Box.volume, hB6]; ring) (md h6.1 h6.2) (by linarith) (by linarith)
  have fin : (volume : Measure Pt) (((((B1.region ∪ B2.region) ∪ B3.region) ∪ B4.region) ∪ B5.region) ∪ B6.region) ≠ ⊤ :=
    ((((((isCompact_region B1).union (isCompact_region B2)).union (isCompact_region B3)).union (isCompact_region B4)).union
      (isCompact_region B5)).union (isCompact_region B6)).measure_lt_top.ne
  refine (measureReal_mono sub fin).trans ?_
  have u6 := measureReal_union_le (μ := (volume : Measure Pt)) ((((B1.region ∪ B2.region) ∪ B3.region) ∪ B4.region) ∪ B5.region) B6.region
  have u5 := measureReal_union_le (μ := (volume : Measure Pt)) (((B1.region ∪ B2.region) ∪ B3.region) ∪ B4.region) B5.region
  have u4 := measureReal_union_le (μ := (volume : Measure Pt)) ((B1.region ∪ B2.region) ∪ B3.region) B4.region
  have u3 := measureReal_union_le (μ := (volume : Measure Pt)) (B1.region ∪ B2.region) B3.region
  have u2 := measureReal_union_le (μ := (volume : Measure Pt)) B1.region B2.region
  simp only [Box.surfaceArea, Box.grow]
  clear_value B1 B2 B3 B4 B5 B6
  linarith

/-! ## Integrals over two prisms -/

theorem integral_sub_le {f g : Pt → ℝ} (hf : IntegrableOn f P.region) (hf' : IntegrableOn f Q.region)
    (hg : IntegrableOn g P.region) (hg' : IntegrableOn g Q.region)
    (h : ∀ q ∈ P.region ∪ Q.region, |f q| ≤ g q) :
    |(∫ q in P.region, f q) - ∫ q in Q.region, f q| ≤ ∫ q in symmDiff P.region Q.region, g q := by
  have mP := measurableSet_region P
  have mQ := measurableSet_region Q
  have s1 := integral_inter_add_sdiff mQ hf
  have s2 := integral_inter_add_sdiff mP hf'
  rw [inter_comm] at s2
  have e : (∫ q in P.region, f q) - ∫ q in Q.region, f q
      = (∫ q in P.region \ Q.region, f q) - ∫ q in Q.region \ P.region, f q := by rw [← s1, ← s2]; ring
  have b : ∀ A B : Box, IntegrableOn g A.region → (∀ q ∈ A.region, |f q| ≤ g q) →
      |∫ q in A.region \ B.region, f q| ≤ ∫ q in A.region \ B.region, g q := by
    intro A B hA hh
    rw [← Real.norm_eq_abs]
    refine norm_integral_le_of_norm_le (hA.mono_set sdiff_subset) ?_
    exact (ae_restrict_iff' (MeasurableSet.diff (measurableSet_region A) (measurableSet_region B))).2
      (.of_forall fun q hq => hh q hq.1)
  have dj : Disjoint (P.region \ Q.region) (Q.region \ P.region) :=
    Set.disjoint_left.2 fun q h1 h2 => h2.2 h1.1
  rw [e, Set.symmDiff_def, setIntegral_union dj (MeasurableSet.diff mQ mP) (hg.mono_set sdiff_subset) (hg'.mono_set sdiff_subset)]
  exact (abs_sub _ _).trans (add_le_add (b P Q hg fun q hq => h q (.inl hq)) (b Q P hg' fun q hq => h q (.inr hq)))

theorem integral_sub_const_le {f : Pt → ℝ} {C : ℝ} (hf : IntegrableOn f P.region) (hf' : IntegrableOn f Q.region)
    (h : ∀ q ∈ P.region ∪ Q.region, |f q| ≤ C) :
    |(∫ q in P.region, f q) - ∫ q in Q.region, f q| ≤ C * (volume : Measure Pt).real (symmDiff P.region Q.region) := by
  refine (integral_sub_le hf hf' (integrableOn_const (isCompact_region P).measure_lt_top.ne)
    (integrableOn_const (isCompact_region Q).measure_lt_top.ne) h).trans (le_of_eq ?_)
  rw [setIntegral_const, smul_eq_mul, mul_comm]

theorem integrableOn_inv_sq (p : Pt) (P : Box) : IntegrableOn (fun q => 1 / dist3 p q ^ 2) P.region := by
  have h : IntegrableOn (fun v : Pt => 1 / rad v.1 v.2.1 v.2.2 ^ 2) (rbox (P.west - p.e) (P.east - p.e) (P.south - p.n)
      (P.north - p.n) (P.bottom - p.u) (P.top - p.u)) := by
    refine integrableOn_of_le_inv_sq ((measurable_rad3.pow_const 2).const_div 1) 1 (isBounded_rbox _ _ _ _ _ _) ?_ zero_le_one
    intro v _ _
    rw [abs_of_nonneg (by positivity), one_mul]
  have := (integrableOn_region p P (fun x y z => 1 / rad x y z ^ 2)).2 h
  refine this.congr_fun (fun q _ => ?_) (measurableSet_region P)
  show 1 / rad _ _ _ ^ 2 = 1 / dist3 p q ^ 2
  rw [dist3_eq_rad, rad_sq, rad_sq]
  ring

theorem integrableOn_inv (p : Pt) (P : Box) : IntegrableOn (fun q => 1 / dist3 p q) P.region :=
  (integrableOn_pot p P).congr_fun (fun q _ => kpp_pot_dist p q) (measurableSet_region P)

/-! ## Two prisms, one observation point -/

theorem Vc_low_integral (hP : P.Ordered) (c : GComp) (hc : c.letters ≤ 1) (p : Pt) :
    Vc c p P = ∫ q in P.region, kpp c.toK p q := (integral_low hP c hc p).2.symm

theorem gravity_low_returns (hP : P.Ordered) (c : GComp) (hc : c.letters ≤ 1) (p : Pt) (ρ : ℝ) :
    Returns (onPrism (A := Exact) (prismGravity c) p P ρ) (Gc * ρ * Vc c p P) := by
  refine Ex.gravity_returns hP ?_ ρ
  cases c <;> simp [GComp.letters, GComp.index] at hc <;> simp [Box.singular]

/-- The potentials of two prisms of the same density differ by at most the largest potential of a ball that has the volume
which does not belong to both; at every observation point. -/
theorem C119_potential (hP : P.Ordered) (hQ : Q.Ordered) (p : Pt) (ρ : ℝ) {R : ℝ} (hR : 0 ≤ R)
    (hv : (volume : Measure Pt).real (symmDiff P.region Q.region) ≤ 4 / 3 * π * R ^ 3) :
    ∃ v w, Returns (onPrism (A := Exact) prism.gravity_pot p P ρ) v ∧ Returns (onPrism (A := Exact) prism.gravity_pot p Q ρ) w ∧
      |v - w| ≤ 2 * π * 6.6743e-11 * |ρ| * R ^ 2 := by
  refine ⟨_, _, gravity_low_returns hP .pot (by decide) p ρ, gravity_low_returns hQ .pot (by decide) p ρ, ?_⟩
  rw [Vc_low_integral hP .pot (by decide), Vc_low_integral hQ .pot (by decide), ← mul_sub, abs_mul, abs_mul, abs_of_pos Gc_pos]
  have i := fun B => integrableOn_inv p B
  have k : ∀ B : Box, IntegrableOn (fun q => kpp GComp.pot.toK p q) B.region := fun B => integrableOn_pot p B
  have h1 := integral_sub_le (k P) (k Q) (i P) (i Q) fun q _ => by
    show |kpp .pot p q| ≤ _
    rw [kpp_pot_dist]
    exact (abs_of_nonneg (div_nonneg zero_le_one (Real.sqrt_nonneg _))).le
  have h2 := ball_bound_inv (volume_symmDiff_ne_top P Q)
    (((i P).union (i Q)).mono_set Set.symmDiff_subset_union) hR hv
  refine (mul_le_mul_of_nonneg_left (h1.trans h2) (mul_nonneg Gc_pos.le (abs_nonneg ρ))).trans (le_of_eq ?_)
  unfold Gc; ring

theorem acc_dir_le {p q w : Pt} :
    |kpp Axis.e.acc.toK p q * w.e + kpp Axis.n.acc.toK p q * w.n + kpp Axis.u.acc.toK p q * w.u|
      ≤ 1 / dist3 p q ^ 2 * len w := by
  refine (cauchy3 _ _ _ _ _ _).trans (mul_le_mul_of_nonneg_right ?_ (Real.sqrt_nonneg _))
  have d0 : 0 ≤ dist3 p q := Real.sqrt_nonneg _
  refine Real.sqrt_le_iff.2 ⟨by positivity, ?_⟩
  rw [kpp_acc_dist, kpp_acc_dist, kpp_acc_dist]
  rcases d0.eq_or_lt with h | h
  · rw [← h]; norm_num
  have e : dist3 p q ^ 2 = (q.e - p.e) ^ 2 + (q.n - p.n) ^ 2 + (q.u - p.u) ^ 2 := by
    rw [dist3_eq_rad, rad_sq]; ring
  have : ((q.coord .e - p.coord .e) / dist3 p q ^ 3) ^ 2 + ((q.coord .n - p.coord .n) / dist3 p q ^ 3) ^ 2
      + ((q.coord .u - p.coord .u) / dist3 p q ^ 3) ^ 2 = dist3 p q ^ 2 / (dist3 p q ^ 3) ^ 2 := by
    rw [e]; simp only [Pt.coord, div_pow]; ring
  rw [this]
  refine le_of_eq ?_
  field_simp

/-- ... and the vectors of gravitational acceleration by at most `4 π G |ρ| R`. -/
theorem C119_acceleration (hP : P.Ordered) (hQ : Q.Ordered) (p : Pt) (ρ : ℝ) {R : ℝ} (hR : 0 ≤ R)
    (hv : (volume : Measure Pt).real (symmDiff P.region Q.region) ≤ 4 / 3 * π * R ^ 3) :
    ∃ g h : Axis → ℝ, (∀ a, Returns (onPrism (A := Exact) (prismGravity a.acc) p P ρ) (g a)) ∧
      (∀ a, Returns (onPrism (A := Exact) (prismGravity a.acc) p Q ρ) (h a)) ∧
      √((g .e - h .e) ^ 2 + (g .n - h .n) ^ 2 + (g .u - h .u) ^ 2) ≤ 4 * π * 6.6743e-11 * |ρ| * R := by
  have hl : ∀ a : Axis, a.acc.letters ≤ 1 := fun a => by cases a <;> decide
  refine ⟨_, _, fun a => gravity_low_returns hP a.acc (hl a) p ρ, fun a => gravity_low_returns hQ a.acc (hl a) p ρ, ?_⟩
  have iP := fun a : Axis => (integral_low hP a.acc (hl a) p).1
  have iQ := fun a : Axis => (integral_low hQ a.acc (hl a) p).1
  set w : Pt := (Vc (Axis.acc .e) p P - Vc (Axis.acc .e) p Q, Vc (Axis.acc .n) p P - Vc (Axis.acc .n) p Q,
    Vc (Axis.acc .u) p P - Vc (Axis.acc .u) p Q) with hw
  have e : √((Gc * ρ * Vc (Axis.acc .e) p P - Gc * ρ * Vc (Axis.acc .e) p Q) ^ 2
      + (Gc * ρ * Vc (Axis.acc .n) p P - Gc * ρ * Vc (Axis.acc .n) p Q) ^ 2
      + (Gc * ρ * Vc (Axis.acc .u) p P - Gc * ρ * Vc (Axis.acc .u) p Q) ^ 2) = Gc * |ρ| * len w := by
    have : len w = √(w.e ^ 2 + w.n ^ 2 + w.u ^ 2) := rfl
    rw [this, show Gc * |ρ| = √((Gc * ρ) ^ 2) by rw [Real.sqrt_sq_eq_abs, abs_mul, abs_of_pos Gc_pos], ← Real.sqrt_mul (sq_nonneg _)]
    congr 1
    simp only [hw, Pt.e, Pt.n, Pt.u]; ring
  rw [e]
  have key : len w ^ 2 ≤ 4 * π * R * len w := by
    have l1 := integral_lin3 (iP .e) (iP .n) (iP .u) w.e w.n w.u
    have l2 := integral_lin3 (iQ .e) (iQ .n) (iQ .u) w.e w.n w.u
    have l : len w ^ 2 = (∫ q in P.region, (kpp (Axis.acc .e).toK p q * w.e + kpp (Axis.acc .n).toK p q * w.n + kpp (Axis.acc .u).toK p q * w.u))
        - ∫ q in Q.region, (kpp (Axis.acc .e).toK p q * w.e + kpp (Axis.acc .n).toK p q * w.n + kpp (Axis.acc .u).toK p q * w.u) := by
      rw [l1, l2, ← Vc_low_integral hP _ (hl .e), ← Vc_low_integral hP _ (hl .n), ← Vc_low_integral hP _ (hl .u),
        ← Vc_low_integral hQ _ (hl .e), ← Vc_low_integral hQ _ (hl .n), ← Vc_low_integral hQ _ (hl .u), len_sq, hw]
      simp only [Pt.e, Pt.n, Pt.u]; ring
    have i := fun B => (integrableOn_inv_sq p B).mul_const (len w)
    have jP := (((iP .e).mul_const w.e).add ((iP .n).mul_const w.n)).add ((iP .u).mul_const w.u)
    have jQ := (((iQ .e).mul_const w.e).add ((iQ .n).mul_const w.n)).add ((iQ .u).mul_const w.u)
    have h1 := integral_sub_le jP jQ (i P) (i Q) fun q _ => acc_dir_le
    have h2 := ball_bound_inv_sq (volume_symmDiff_ne_top P Q)
      (((integrableOn_inv_sq p P).union (integrableOn_inv_sq p Q)).mono_set Set.symmDiff_subset_union) hR hv
    rw [l]
    refine (le_abs_self _).trans (h1.trans ?_)
    rw [integral_mul_const]
    exact mul_le_mul_of_nonneg_right h2 (len_nonneg w)
  have hlw : len w ≤ 4 * π * R := by
    rcases (len_nonneg w).eq_or_lt with h0 | h0
    · rw [← h0]; positivity
    · exact le_of_mul_le_mul_right (by rw [← sq]; exact key) h0
  refine (mul_le_mul_of_nonneg_left hlw (mul_nonneg Gc_pos.le (abs_nonneg ρ))).trans (le_of_eq ?_)
  unfold Gc; ring

/-- Off both prisms: the components of the gravity gradient tensor. -/
theorem C119_tensor (hP : P.Ordered) (hQ : Q.Ordered) (a b : Axis) (p : Pt) (ρ : ℝ) {d : ℝ} (hd : 0 < d)
    (h : ∀ q ∈ P.region ∪ Q.region, d ≤ dist3 p q) :
    ∃ v w, Returns (onPrism (A := Exact) (prismGravity (tensor a b)) p P ρ) v ∧
      Returns (onPrism (A := Exact) (prismGravity (tensor a b)) p Q ρ) w ∧
      |v - w| ≤ 2 * 6.6743e-11 * |ρ| * (volume : Measure Pt).real (symmDiff P.region Q.region) / d ^ 3 := by
  have hx := not_mem_of_dist hd fun q hq => h q (.inl hq)
  have hy := not_mem_of_dist hd fun q hq => h q (.inr hq)
  refine ⟨_, _, Ex.gravity_returns hP (exterior_singular hP hx _) ρ, Ex.gravity_returns hQ (exterior_singular hQ hy _) ρ, ?_⟩
  rw [Vc_tensor_integral hP a b hx, Vc_tensor_integral hQ a b hy, show (tensor a b).toK = kern2 a b by cases a <;> cases b <;> rfl,
    ← mul_sub, abs_mul, abs_mul, abs_of_pos Gc_pos]
  have := integral_sub_const_le (integrableOn_kpp (kern2 a b) hx) (integrableOn_kpp (kern2 a b) hy)
    (fun q hq => abs_kern2_le' a b hd (h q hq))
  refine (mul_le_mul_of_nonneg_left this (mul_nonneg Gc_pos.le (abs_nonneg ρ))).trans (le_of_eq ?_)
  unfold Gc; ring

/-- Off both prisms: the components of the magnetic field. -/
theorem C119_magnetic (hP : P.Ordered) (hQ : Q.Ordered) (a : Axis) (p : Pt) (M : Vec) {d : ℝ} (hd : 0 < d)
    (h : ∀ q ∈ P.region ∪ Q.region, d ≤ dist3 p q) :
    ∃ v w, Returns (onPrism (A := Exact) (prismMagnetic a.field) p P M.e M.n M.u) v ∧
      Returns (onPrism (A := Exact) (prismMagnetic a.field) p Q M.e M.n M.u) w ∧
      |v - w| ≤ 2 * (1.25663706212e-06 / (4 * π)) * √(M.e ^ 2 + M.n ^ 2 + M.u ^ 2)
        * (volume : Measure Pt).real (symmDiff P.region Q.region) / d ^ 3 := by
  have hx := not_mem_of_dist hd fun q hq => h q (.inl hq)
  have hy := not_mem_of_dist hd fun q hq => h q (.inr hq)
  have hmu : 0 < mu0 / 4 / π := div_pos (div_pos mu0_pos (by norm_num)) Real.pi_pos
  have e : (1.25663706212e-06 / (4 * π) : ℝ) = mu0 / 4 / π := by rw [mu0, div_div]
  refine ⟨_, _, Ex.magnetic_returns hP (exterior_edges hP hx) (fun h' => hx (inside_subset_region h')) _ _ _,
    Ex.magnetic_returns hQ (exterior_edges hQ hy) (fun h' => hy (inside_subset_region h')) _ _ _, ?_⟩
  rw [Bc_field_integral hP a hx, Bc_field_integral hQ a hy, integral_const_mul, integral_const_mul, ← mul_sub, abs_mul,
    abs_of_pos hmu, e]
  have i : ∀ {B : Box}, p ∉ B.region → IntegrableOn (fun q => row2 a p q M) B.region := fun hB =>
    (((integrableOn_kpp _ hB).mul_const _).add ((integrableOn_kpp _ hB).mul_const _)).add
      ((integrableOn_kpp _ hB).mul_const _)
  have := integral_sub_const_le (C := 2 * len M / d ^ 3) (i hx) (i hy) (fun q hq => by
    have hne : p ≠ q := fun h' => by
      have := h q hq
      rw [dist3_eq_zero.mpr h'] at this
      linarith
    have f := form2_le hne (unitVec a) M
    rw [len_unit, mul_one] at f
    have e' : row2 .e p q M * (unitVec a).e + row2 .n p q M * (unitVec a).n + row2 .u p q M * (unitVec a).u = row2 a p q M := by
      cases a <;> simp [unitVec, Pt.e, Pt.n, Pt.u]
    rw [e'] at f
    refine f.trans ?_
    have := h q hq
    have := len_nonneg M
    gcongr)
  refine (mul_le_mul_of_nonneg_left this hmu.le).trans (le_of_eq ?_)
  have hl : len M = √(M.e ^ 2 + M.n ^ 2 + M.u ^ 2) := rfl
  rw [← hl]
  ring

/-- Off both prisms: the components of the gradient of the magnetic field. -/
theorem C119_gradient (hP : P.Ordered) (hQ : Q.Ordered) (a b : Axis) (p : Pt) (M : Vec) {d : ℝ} (hd : 0 < d)
    (h : ∀ q ∈ P.region ∪ Q.region, d ≤ dist3 p q) :
    ∃ v w, Returns (onPrism (A := Exact) (prismMagnetic (gradComp a b)) p P M.e M.n M.u) v ∧
      Returns (onPrism (A := Exact) (prismMagnetic (gradComp a b)) p Q M.e M.n M.u) w ∧
      |v - w| ≤ 6 * (1.25663706212e-06 / (4 * π)) * √(M.e ^ 2 + M.n ^ 2 + M.u ^ 2)
        * (volume : Measure Pt).real (symmDiff P.region Q.region) / d ^ 4 := by
  have hx := not_mem_of_dist hd fun q hq => h q (.inl hq)
  have hy := not_mem_of_dist hd fun q hq => h q (.inr hq)
  have hmu : 0 < mu0 / 4 / π := div_pos (div_pos mu0_pos (by norm_num)) Real.pi_pos
  have e : (1.25663706212e-06 / (4 * π) : ℝ) = mu0 / 4 / π := by rw [mu0, div_div]
  refine ⟨_, _, Ex.magnetic_returns hP (exterior_edges hP hx) (fun h' => hx (inside_subset_region h')) _ _ _,
    Ex.magnetic_returns hQ (exterior_edges hQ hy) (fun h' => hy (inside_subset_region h')) _ _ _, ?_⟩
  rw [Bc_grad_integral hP a b hx, Bc_grad_integral hQ a b hy, ← mul_sub, abs_mul, abs_of_pos hmu, e]
  have i : ∀ {B : Box}, p ∉ B.region → IntegrableOn (fun q => row3 a b p q M) B.region := fun hB =>
    (((integrableOn_kpp _ hB).mul_const _).add ((integrableOn_kpp _ hB).mul_const _)).add
      ((integrableOn_kpp _ hB).mul_const _)
  have := integral_sub_const_le (C := 6 / d ^ 4 * len M) (i hx) (i hy) (fun q hq => by
    have hne : p ≠ q := fun h' => by
      have := h q hq
      rw [dist3_eq_zero.mpr h'] at this
      linarith
    refine (row3_le a b hne M).trans ?_
    have := h q hq
    have := len_nonneg M
    gcongr)
  refine (mul_le_mul_of_nonneg_left this hmu.le).trans (le_of_eq ?_)
  have hl : len M = √(M.e ^ 2 + M.n ^ 2 + M.u ^ 2) := rfl
  rw [← hl]
  ring

/-! ## All coordinates inexact -/

theorem near_moved {δ : ℝ} {p p' : Pt} (hp : p.Near δ p') (hP : P.Near δ Q) : P.Near (2 * δ) (Q.shift (p - p')) := by
  obtain ⟨a1, a2, a3⟩ := hp
  obtain ⟨b1, b2, b3, b4, b5, b6⟩ := hP
  simp only [abs_le] at *
  simp only [Box.Near, Box.shift, Pt.e, Pt.n, Pt.u, Prod.fst_sub, Prod.snd_sub, abs_le] at *
  refine ⟨⟨?_, ?_⟩, ⟨?_, ?_⟩, ⟨?_, ?_⟩, ⟨?_, ?_⟩, ⟨?_, ?_⟩, ?_, ?_⟩ <;> linarith

theorem gravity_moved (hQ : Q.Ordered) (c : GComp) (p p' : Pt) (ρ : ℝ) :
    onPrism (A := Exact) (prismGravity c) p' Q ρ = onPrism (A := Exact) (prismGravity c) p (Q.shift (p - p')) ρ := by
  rw [← C31_gravity hQ c p' (p - p') ρ]
  simp only [Pt.shift, Pt.e, Pt.n, Pt.u, Prod.fst_sub, Prod.snd_sub, add_sub_cancel]

/-- If the coordinates of the observation point and of the boundaries are wrong by at most `δ`, the potential is wrong by at
most `2 π G |ρ| R²` and the acceleration by at most `4 π G |ρ| R`, where a ball of radius `R` has the volume `2 δ` times
the surface of the prism grown by `2 δ`. -/
theorem C119_coordinates (hP : P.Ordered) (hQ : Q.Ordered) {p p' : Pt} {δ : ℝ} (hp : p.Near δ p') (hPQ : P.Near δ Q) (ρ : ℝ)
    {R : ℝ} (hR : 0 ≤ R) (hv : 2 * δ * (P.grow (2 * δ)).surfaceArea ≤ 4 / 3 * π * R ^ 3) :
    (∃ v w, Returns (onPrism (A := Exact) prism.gravity_pot p P ρ) v ∧ Returns (onPrism (A := Exact) prism.gravity_pot p' Q ρ) w ∧
      |v - w| ≤ 2 * π * 6.6743e-11 * |ρ| * R ^ 2) ∧
    ∃ g h : Axis → ℝ, (∀ a, Returns (onPrism (A := Exact) (prismGravity a.acc) p P ρ) (g a)) ∧
      (∀ a, Returns (onPrism (A := Exact) (prismGravity a.acc) p' Q ρ) (h a)) ∧
      √((g .e - h .e) ^ 2 + (g .n - h .n) ^ 2 + (g .u - h .u) ^ 2) ≤ 4 * π * 6.6743e-11 * |ρ| * R := by
  have hQ' := hQ.shift (p - p')
  have hv' := (C119_volume hP hQ' (near_moved hp hPQ)).trans hv
  constructor
  · obtain ⟨v, w, h1, h2, h3⟩ := C119_potential hP hQ' p ρ hR hv'
    exact ⟨v, w, h1, (gravity_moved hQ .pot p p' ρ).trans h2, h3⟩
  · obtain ⟨g, h, h1, h2, h3⟩ := C119_acceleration hP hQ' p ρ hR hv'
    exact ⟨g, h, h1, fun a => (gravity_moved hQ a.acc p p' ρ).trans (h2 a), h3⟩

theorem magnetic_moved (hQ : Q.Ordered) (c : MComp) (p p' : Pt) (M : Vec) :
    onPrism (A := Exact) (prismMagnetic c) p' Q M.e M.n M.u
      = onPrism (A := Exact) (prismMagnetic c) p (Q.shift (p - p')) M.e M.n M.u := by
  rw [← C31_magnetic hQ c p' (p - p') M]
  simp only [Pt.shift, Pt.e, Pt.n, Pt.u, Prod.fst_sub, Prod.snd_sub, add_sub_cancel]

theorem dist_moved {p p' : Pt} {d : ℝ} (h1 : ∀ q ∈ P.region, d ≤ dist3 p q) (h2 : ∀ q ∈ Q.region, d ≤ dist3 p' q) :
    ∀ q ∈ P.region ∪ (Q.shift (p - p')).region, d ≤ dist3 p q := by
  rintro q (hq | hq)
  · exact h1 q hq
  · have := h2 (q - (p - p')) (by
      obtain ⟨⟨a1, a2⟩, ⟨a3, a4⟩, ⟨a5, a6⟩⟩ := hq
      simp only [Box.shift, Pt.e, Pt.n, Pt.u, Prod.fst_sub, Prod.snd_sub] at a1 a2 a3 a4 a5 a6
      refine ⟨⟨?_, ?_⟩, ⟨?_, ?_⟩, ?_, ?_⟩ <;> simp only [Prod.fst_sub, Prod.snd_sub] <;> linarith)
    refine this.trans (le_of_eq ?_)
    rw [dist3_eq_rad, dist3_eq_rad]
    simp only [Pt.e, Pt.n, Pt.u, Prod.fst_sub, Prod.snd_sub]
    congr 1 <;> ring

/-- The same for gravity gradients, magnetic fields and magnetic gradients at a distance of at least `d` from the prism. -/
theorem C119_coordinates_off (hP : P.Ordered) (hQ : Q.Ordered) {p p' : Pt} {δ : ℝ} (hp : p.Near δ p') (hPQ : P.Near δ Q)
    (a b : Axis) (ρ : ℝ) (M : Vec) {d : ℝ} (hd : 0 < d) (h1 : ∀ q ∈ P.region, d ≤ dist3 p q)
    (h2 : ∀ q ∈ Q.region, d ≤ dist3 p' q) :
    (∃ v w, Returns (onPrism (A := Exact) (prismGravity (tensor a b)) p P ρ) v ∧
      Returns (onPrism (A := Exact) (prismGravity (tensor a b)) p' Q ρ) w ∧
      |v - w| ≤ 2 * 6.6743e-11 * |ρ| * (2 * δ * (P.grow (2 * δ)).surfaceArea) / d ^ 3) ∧
    (∃ v w, Returns (onPrism (A := Exact) (prismMagnetic a.field) p P M.e M.n M.u) v ∧
      Returns (onPrism (A := Exact) (prismMagnetic a.field) p' Q M.e M.n M.u) w ∧
      |v - w| ≤ 2 * (1.25663706212e-06 / (4 * π)) * √(M.e ^ 2 + M.n ^ 2 + M.u ^ 2)
        * (2 * δ * (P.grow (2 * δ)).surfaceArea) / d ^ 3) ∧
    ∃ v w, Returns (onPrism (A := Exact) (prismMagnetic (gradComp a b)) p P M.e M.n M.u) v ∧
      Returns (onPrism (A := Exact) (prismMagnetic (gradComp a b)) p' Q M.e M.n M.u) w ∧
      |v - w| ≤ 6 * (1.25663706212e-06 / (4 * π)) * √(M.e ^ 2 + M.n ^ 2 + M.u ^ 2)
        * (2 * δ * (P.grow (2 * δ)).surfaceArea) / d ^ 4 := by
  have hQ' := hQ.shift (p - p')
  have hv := C119_volume hP hQ' (near_moved hp hPQ)
  have hd' := dist_moved h1 h2
  refine ⟨?_, ?_, ?_⟩
  · obtain ⟨v, w, r1, r2, r3⟩ := C119_tensor hP hQ' a b p ρ hd hd'
    refine ⟨v, w, r1, (gravity_moved hQ _ p p' ρ).trans r2, r3.trans ?_⟩
    gcongr
  · obtain ⟨v, w, r1, r2, r3⟩ := C119_magnetic hP hQ' a p M hd hd'
    refine ⟨v, w, r1, (magnetic_moved hQ _ p p' M).trans r2, r3.trans ?_⟩
    gcongr
  · obtain ⟨v, w, r1, r2, r3⟩ := C119_gradient hP hQ' a b p M hd hd'
    refine ⟨v, w, r1, (magnetic_moved hQ _ p p' M).trans r2, r3.trans ?_⟩
    gcongr

/-- No prism has a potential above `2 π G |ρ| R²` or an attraction above `4 π G |ρ| R` anywhere, where `R` is the radius of a ball
of its volume (or of a larger one). -/
theorem C119_largest (hP : P.Ordered) (p : Pt) (ρ : ℝ) {R : ℝ} (hR : 0 ≤ R) (hv : P.volume ≤ 4 / 3 * π * R ^ 3) :
    (∃ v, Returns (onPrism (A := Exact) prism.gravity_pot p P ρ) v ∧ |v| ≤ 2 * π * 6.6743e-11 * |ρ| * R ^ 2) ∧
    ∃ g : Axis → ℝ, (∀ a, Returns (onPrism (A := Exact) (prismGravity a.acc) p P ρ) (g a)) ∧
      √(g .e ^ 2 + g .n ^ 2 + g .u ^ 2) ≤ 4 * π * 6.6743e-11 * |ρ| * R := by
  set Z : Box := ⟨0, 0, 0, 0, 0, 0⟩ with hZ
  have oZ : Z.Ordered := ⟨le_refl _, le_refl _, le_refl _⟩
  have vZ : (volume : Measure Pt).real Z.region = 0 := by rw [volume_region oZ]; simp [Box.volume, hZ]
  have nZ : (volume : Measure Pt) Z.region = 0 := by
    rw [measureReal_def, ENNReal.toReal_eq_zero_iff] at vZ
    exact vZ.resolve_right (isCompact_region Z).measure_lt_top.ne
  have hv' : (volume : Measure Pt).real (symmDiff P.region Z.region) ≤ 4 / 3 * π * R ^ 3 := by
    refine le_trans ?_ hv
    rw [← volume_region hP]
    refine (measureReal_mono Set.symmDiff_subset_union
      ((isCompact_region P).union (isCompact_region Z)).measure_lt_top.ne).trans ?_
    refine (measureReal_union_le _ _).trans ?_
    rw [vZ, add_zero]
  have z : ∀ c : GComp, c.letters ≤ 1 → Vc c p Z = 0 := fun c hc => by
    rw [Vc_low_integral oZ c hc, setIntegral_measure_zero _ nZ]
  have hl : ∀ a : Axis, a.acc.letters ≤ 1 := fun a => by cases a <;> decide
  constructor
  · obtain ⟨v, w, h1, h2, h3⟩ := C119_potential hP oZ p ρ hR hv'
    have := h2.inj (gravity_low_returns oZ .pot (by decide) p ρ)
    rw [z .pot (by decide), mul_zero] at this
    rw [this, sub_zero] at h3
    exact ⟨v, h1, h3⟩
  · obtain ⟨g, h, h1, h2, h3⟩ := C119_acceleration hP oZ p ρ hR hv'
    have k : ∀ a, h a = 0 := fun a => by
      have := (h2 a).inj (gravity_low_returns oZ a.acc (hl a) p ρ)
      rwa [z a.acc (hl a), mul_zero] at this
    simp only [k, sub_zero] at h3
    exact ⟨g, h1, h3⟩

/-- non-vacuity: the example prism with its top raised by one metre; every point of both is at least one metre from (0, 0, 2) -/
example : exBox.Ordered ∧ (⟨-1, 1, -1, 1, -2, 1⟩ : Box).Ordered ∧ exBox.Near 1 ⟨-1, 1, -1, 1, -2, 1⟩ ∧
    Pt.Near 1 (0, 0, 2) (0, 1, 2) ∧
    (∀ q ∈ exBox.region ∪ (⟨-1, 1, -1, 1, -2, 1⟩ : Box).region, 1 ≤ dist3 (0, 0, 2) q) ∧
    2 * 1 * (exBox.grow (2 * 1)).surfaceArea ≤ 4 / 3 * π * (10 : ℝ) ^ 3 := by
  refine ⟨exBox_ordered, ⟨by norm_num, by norm_num, by norm_num⟩, ?_, ?_, ?_, ?_⟩
  · norm_num [Box.Near, exBox]
  · norm_num [Pt.Near, Pt.e, Pt.n, Pt.u]
  · rintro q (⟨_, _, _, h⟩ | ⟨_, _, _, h⟩) <;>
    · simp only [exBox] at h
      refine Real.le_sqrt_of_sq_le ?_
      simp only [Pt.e, Pt.n, Pt.u]
      nlinarith [sq_nonneg (0 - q.1), sq_nonneg (0 - q.2.1)]
  · norm_num [Box.surfaceArea, Box.grow, exBox]
    nlinarith [Real.pi_gt_d2]

end Choclo
