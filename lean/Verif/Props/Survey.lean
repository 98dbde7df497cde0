import Verif.Lemmas.Survey
import Verif.Props.Plane
import Verif.Props.HalfSpace

/-! # C140: surveys of finite extent

`discAt c R` is the disc of radius `R` around `c`, `Pt.foot a q` the foot of the perpendicular from `q` to a plane
`coordinate a = t`, and `missed h R = h / √(h² + R²)` (Spec/Survey.lean). -/

namespace Choclo

open Real Set MeasureTheory Filter Topology

variable {P : Box} {a : Axis} {t : ℝ}

/-! ## C140 -/

/-- **What a survey of radius `R` sees of a point source.**  Over the disc of radius `R` around the point straight above a
point source at depth `h`, the normal acceleration integrates to `2 π G mass (1 - h / √(h² + R²))`. -/
theorem C140_point {q : Pt} (h : q.coord a < t) {R : ℝ} (hR : 0 ≤ R) (m : ℝ) :
    ∃ g : ℝ × ℝ → ℝ, (∀ s, Returns (onPair (A := Exact) (pointGravity a.acc) (Pt.onPlane a t s) q m) (g s)) ∧
      IntegrableOn g (discAt (q.foot a) R) ∧
      ∫ s in discAt (q.foot a) R, g s = -(2 * π * 6.6743e-11 * (m * (1 - missed (t - q.coord a) R))) := by
  refine ⟨fun s => Gc * m * kpp (kern1 a) (Pt.onPlane a t s) q, fun s => ?_,
    ((plane_kern1 a h.ne').1.const_mul _).integrableOn, ?_⟩
  · rw [← acc_toK]; exact Ex.pointGravity_fin a.acc (off_plane h.ne' s) m
  · rw [integral_const_mul, disc_kern1 a h hR, Gc]; ring

/-- **The mass of a prism from a survey of finite extent.**  The prism reaches from depth `t - hi` to depth `t - lo` below the
plane, every point of it within the horizontal distance `d` of `c`.  A survey that contains the disc of radius `R` around `c`
finds at least the part `1 - h / √(h² + (R - d)²)`, `h` the greatest depth, of its mass and never more than all of it; a survey
contained in the disc finds at most the part `1 - h / √(h² + (R + d)²)`, `h` the least depth. -/
theorem C140_prism (hP : P.Ordered) (ht : P.hi a ≤ t) {ρ d R : ℝ} (hρ : 0 ≤ ρ) (hd : 0 ≤ d) (hR : d < R) {c : ℝ × ℝ}
    (hc : ∀ q ∈ P.region, q.foot a ∈ discAt c d) (S : Set (ℝ × ℝ)) :
    ∃ g : ℝ × ℝ → ℝ, (∀ s, Returns (onPrism (A := Exact) (prismGravity a.acc) (Pt.onPlane a t s) P ρ) (g s)) ∧
      IntegrableOn g S ∧
      -∫ s in S, g s ≤ 2 * π * 6.6743e-11 * (ρ * P.volume) ∧
      (discAt c R ⊆ S →
        2 * π * 6.6743e-11 * (ρ * P.volume * (1 - missed (t - P.lo a) (R - d))) ≤ -∫ s in S, g s) ∧
      (S ⊆ discAt c R →
        -∫ s in S, g s ≤ 2 * π * 6.6743e-11 * (ρ * P.volume * (1 - missed (t - P.hi a) (R + d)))) := by
  obtain ⟨h1, -, -, -⟩ := plane_prism_Vacc hP a t
  obtain ⟨w1, w2⟩ := window_prism hP a t S
  have n : 0 ≤ Gc * ρ := mul_nonneg Gc_pos.le hρ
  have p2 := Real.pi_pos
  have R0 : 0 ≤ R := hd.trans hR.le
  have below : ∀ q ∈ P.region, t ≠ q.coord a → q.coord a < t := fun q hq hne =>
    lt_of_le_of_ne ((coord_mem_region hq a).2.trans ht) hne.symm
  have w := fun q hq hne => window_kern1 (R := R) a (below q hq hne) (hc q hq) hd S
  have nw := w2.neg
  have key : -∫ s in S, Gc * ρ * Vc a.acc (Pt.onPlane a t s) P =
      Gc * ρ * ∫ q in P.region, -∫ s in S, kpp (kern1 a) (Pt.onPlane a t s) q := by
    rw [integral_const_mul, w1, integral_neg]; ring
  refine ⟨fun s => Gc * ρ * Vc a.acc (Pt.onPlane a t s) P, fun s => acc_returns a _ P ρ, (h1.const_mul _).integrableOn, ?_, ?_, ?_⟩
  · rw [key]
    have := (region_bounds hP a t nw (A := 0) (B := 2 * π) fun q hq hne => ⟨?_, ?_⟩).2
    · refine (mul_le_mul_of_nonneg_left this n).trans (le_of_eq ?_)
      rw [Gc]; ring
    · show 0 ≤ -∫ s in S, kpp (kern1 a) (Pt.onPlane a t s) q
      rw [← integral_neg]
      exact integral_nonneg fun s => kern1_nonneg a (below q hq hne) s
    · show -∫ s in S, kpp (kern1 a) (Pt.onPlane a t s) q ≤ _
      have i := (plane_kern1 a hne).1.neg
      rw [← integral_neg]
      refine (integral_mono_measure Measure.restrict_le_self
        (Eventually.of_forall (kern1_nonneg a (below q hq hne))) i).trans (le_of_eq ?_)
      rw [integral_neg, (plane_kern1 a hne).2, if_pos (below q hq hne), neg_neg]
  · intro hS
    rw [key]
    have := (region_bounds hP a t nw (A := 2 * π * (1 - missed (t - P.lo a) (R - d))) (B := 2 * π) fun q hq hne => ⟨?_, ?_⟩).1
    · refine le_trans (le_of_eq ?_) (mul_le_mul_of_nonneg_left this n)
      rw [Gc]; ring
    · refine le_trans ?_ ((w q hq hne).1 hR.le hS)
      have := missed_mono (h := t - q.coord a) (h' := t - P.lo a) (R := R - d) (R' := R - d) (by linarith [below q hq hne])
        (by linarith [(coord_mem_region hq a).1]) (by linarith) le_rfl
      nlinarith
    · show -∫ s in S, kpp (kern1 a) (Pt.onPlane a t s) q ≤ _
      have i := (plane_kern1 a hne).1.neg
      rw [← integral_neg]
      refine (integral_mono_measure Measure.restrict_le_self
        (Eventually.of_forall (kern1_nonneg a (below q hq hne))) i).trans (le_of_eq ?_)
      rw [integral_neg, (plane_kern1 a hne).2, if_pos (below q hq hne), neg_neg]
  · intro hS
    rw [key]
    have := (region_bounds hP a t nw (A := 0) (B := 2 * π * (1 - missed (t - P.hi a) (R + d))) fun q hq hne => ⟨?_, ?_⟩).2
    · refine (mul_le_mul_of_nonneg_left this n).trans (le_of_eq ?_)
      rw [Gc]; ring
    · show 0 ≤ -∫ s in S, kpp (kern1 a) (Pt.onPlane a t s) q
      rw [← integral_neg]
      exact integral_nonneg fun s => kern1_nonneg a (below q hq hne) s
    · refine ((w q hq hne).2 R0 hS).trans ?_
      have := missed_mono (h := t - P.hi a) (h' := t - q.coord a) (R := R + d) (R' := R + d) (by linarith)
        (by linarith [(coord_mem_region hq a).2]) (by linarith) le_rfl
      nlinarith

/-- **How large the survey must be.**  If the survey contains a disc whose radius exceeds the horizontal extent `d` of the
prism by its greatest depth divided by `ε`, the mass it finds is right to the fraction `ε`. -/
theorem C140_enough (hP : P.Ordered) (ht : P.hi a ≤ t) {ρ d R ε : ℝ} (hρ : 0 ≤ ρ) (hd : 0 ≤ d) (hR : d < R)
    (hε : t - P.lo a ≤ ε * (R - d)) {c : ℝ × ℝ} (hc : ∀ q ∈ P.region, q.foot a ∈ discAt c d)
    {S : Set (ℝ × ℝ)} (hS : discAt c R ⊆ S) :
    ∃ g : ℝ × ℝ → ℝ, (∀ s, Returns (onPrism (A := Exact) (prismGravity a.acc) (Pt.onPlane a t s) P ρ) (g s)) ∧
      IntegrableOn g S ∧
      (1 - ε) * (ρ * P.volume) ≤ -(∫ s in S, g s) / (2 * π * 6.6743e-11) ∧
      -(∫ s in S, g s) / (2 * π * 6.6743e-11) ≤ ρ * P.volume := by
  obtain ⟨g, h1, h2, h3, h4, -⟩ := C140_prism hP ht hρ hd hR hc S
  have p2 := Real.pi_pos
  have k : 0 < 2 * π * 6.6743e-11 := by positivity
  have lo : P.lo a ≤ P.hi a := by obtain ⟨x, y, z⟩ := hP; cases a <;> assumption
  have m := missed_le (h := t - P.lo a) (R := R - d) (ε := ε) (by linarith) (by linarith) hε
  have v : 0 ≤ ρ * P.volume := mul_nonneg hρ (by rw [← volume_region hP]; exact ENNReal.toReal_nonneg)
  refine ⟨g, h1, h2, ?_, ?_⟩
  · rw [le_div_iff₀ k]
    refine le_trans ?_ (h4 hS)
    nlinarith [mul_le_mul_of_nonneg_left m (mul_nonneg k.le v)]
  · rw [div_le_iff₀ k]
    linarith

/-- **Upward continuation of data of finite extent.**  If `g` continues upward from the plane (C134) and is at most `K` in
absolute value outside the disc of radius `R` around the point below `p`, then continuing the data of any region that contains the
disc gives `g p` with an error of at most `K h / √(h² + R²)`, `h` the height of `p` above the plane. -/
theorem C140_upward {g : Pt → ℝ} (hg : UpwardContinues g a t) {p : Pt} (hp : t < p.coord a) {R K : ℝ} (hR : 0 ≤ R)
    (hK : ∀ s ∉ discAt (p.foot a) R, |g (Pt.onPlane a t s)| ≤ K) {S : Set (ℝ × ℝ)} (hS : MeasurableSet S)
    (hRS : discAt (p.foot a) R ⊆ S) :
    |(∫ s in S, g (Pt.onPlane a t s) * upwardWeight a t p s) - g p| ≤ K * missed (p.coord a - t) R := by
  obtain ⟨i, e⟩ := hg p hp
  obtain ⟨w1, w2⟩ := weight_integral hp
  have h0 : 0 < p.coord a - t := by linarith
  have K0 : 0 ≤ K := by
    by_contra hn
    have : ∀ s, s ∈ discAt (p.foot a) R := fun s => by
      by_contra hs; exact hn ((abs_nonneg _).trans (hK s hs))
    have := this ((p.foot a).1 + (R + 1), (p.foot a).2)
    simp only [discAt, mem_ofPred_eq] at this
    nlinarith
  have md := measurable_disc (p.foot a) R
  have wd : ∫ s in (discAt (p.foot a) R)ᶜ, upwardWeight a t p s = missed (p.coord a - t) R := by
    have tot := integral_add_compl md w1
    have d : ∫ s in discAt (p.foot a) R, upwardWeight a t p s = 1 - missed (p.coord a - t) R := by
      have e : ∀ s, upwardWeight a t p s = (p.coord a - t) / (2 * π) * (1 / rad (t - p.coord a) (s - p.foot a).1 (s - p.foot a).2 ^ 3) := fun s => by
        rw [← dist3_foot, dist3_comm]
        unfold upwardWeight
        rw [div_mul_div_comm, mul_one]
      simp only [e]
      rw [integral_const_mul, disc_shift _ R (fun s => 1 / rad (t - p.coord a) s.1 s.2 ^ 3),
        disc_rad3 (by linarith : t - p.coord a ≠ 0) hR, abs_of_neg (by linarith), missed]
      have : 0 < √((p.coord a - t) ^ 2 + R ^ 2) := Real.sqrt_pos.2 (by positivity)
      rw [show (t - p.coord a) ^ 2 = (p.coord a - t) ^ 2 by ring, neg_sub]
      have := Real.pi_pos
      field_simp
    rw [w2, d] at tot
    linarith
  have sp := integral_add_compl hS i
  rw [e] at sp
  rw [show (∫ s in S, g (Pt.onPlane a t s) * upwardWeight a t p s) - g p =
    -∫ s in Sᶜ, g (Pt.onPlane a t s) * upwardWeight a t p s by linarith, abs_neg]
  calc |∫ s in Sᶜ, g (Pt.onPlane a t s) * upwardWeight a t p s|
      ≤ ∫ s in Sᶜ, K * upwardWeight a t p s := by
        refine abs_integral_le_integral_abs.trans ?_
        refine setIntegral_mono_on i.abs.integrableOn (w1.const_mul K).integrableOn hS.compl fun s hs => ?_
        rw [abs_mul, abs_of_nonneg (weight_nonneg hp s)]
        exact mul_le_mul_of_nonneg_right (hK s fun hd => hs (hRS hd)) (weight_nonneg hp s)
    _ ≤ ∫ s in (discAt (p.foot a) R)ᶜ, K * upwardWeight a t p s :=
        integral_mono_measure (Measure.restrict_mono (compl_subset_compl.2 hRS) le_rfl)
          (Eventually.of_forall fun s => mul_nonneg K0 (weight_nonneg hp s)) (w1.const_mul K).integrableOn
    _ = K * missed (p.coord a - t) R := by rw [integral_const_mul, wd]

/-- non-vacuity: a source two metres below the plane, seen by a disc of radius `√12`: half of its flux is missed. -/
example : Pt.coord (1, 2, -2) .u < 0 ∧ missed (0 - Pt.coord (1, 2, -2) .u) (√12) = 1 / 2 := by
  refine ⟨by norm_num [Pt.coord, Pt.u], ?_⟩
  have : (0 - Pt.coord (1, 2, -2) .u) = 2 := by norm_num [Pt.coord, Pt.u]
  rw [this, missed, Real.sq_sqrt (by norm_num), show (2:ℝ) ^ 2 + 12 = 4 ^ 2 by norm_num, Real.sqrt_sq (by norm_num)]
  norm_num

/-- non-vacuity: the example prism lies below `upward = 0` within the horizontal distance 2 of the origin, and a survey that
contains the disc of radius 202 finds its mass to one percent. -/
example : exBox.hi .u ≤ 0 ∧ (2:ℝ) < 202 ∧ 0 - exBox.lo .u ≤ 1 / 100 * (202 - 2) ∧
    (∀ q ∈ exBox.region, q.foot .u ∈ discAt (0, 0) 2) := by
  refine ⟨by norm_num [exBox, Box.hi], by norm_num, by norm_num [exBox, Box.lo], ?_⟩
  rintro q ⟨⟨h1, h2⟩, ⟨h3, h4⟩, -⟩
  simp only [exBox] at h1 h2 h3 h4
  show (q.e - 0) ^ 2 + (q.n - 0) ^ 2 ≤ 2 ^ 2
  nlinarith

end Choclo
