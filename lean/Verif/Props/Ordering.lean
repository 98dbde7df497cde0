import Verif.Props.PrismBounds
import Mathlib.Analysis.Calculus.Deriv.MeanValue

/-! # C73: how the potential varies with density, prism and observation point -/

namespace Choclo

open Real Set MeasureTheory Filter Topology

variable {P Q : Box}

/-! ## C73 -/

/-- A prism contained in a larger one of at least the same (non-negative) density has at most its
potential, at every observation point. -/
theorem C73_inclusion (hP : P.Ordered) (hQ : Q.Ordered) (h : P.region ⊆ Q.region) (p : Pt) {ρ σ : ℝ} (hρ : 0 ≤ ρ)
    (hσ : ρ ≤ σ) : ∃ v w, Returns (onPrism (A := Exact) prism.gravity_pot p P ρ) v ∧
      Returns (onPrism (A := Exact) prism.gravity_pot p Q σ) w ∧ v ≤ w := by
  refine ⟨_, _, Ex.gravity_pot_eval p P ρ, Ex.gravity_pot_eval p Q σ, ?_⟩
  obtain ⟨_, h2⟩ := integral_low hP .pot (by decide) p
  obtain ⟨i, h4⟩ := integral_low hQ .pot (by decide) p
  have hk : ∀ q, 0 ≤ kpp GComp.pot.toK p q := fun q => by
    change 0 ≤ kpp .pot p q
    rw [kpp_pot_dist]; exact div_nonneg zero_le_one (Real.sqrt_nonneg _)
  have hV : Vc .pot p P ≤ Vc .pot p Q := by
    rw [← h2, ← h4]
    exact setIntegral_mono_set i (Eventually.of_forall hk) (LE.le.eventuallyLE h)
  have h0 : 0 ≤ Vc .pot p P := by rw [← h2]; exact integral_nonneg hk
  have hG := Gc_pos.le
  have : 0 ≤ Gc * σ := mul_nonneg hG (hρ.trans hσ)
  calc Gc * ρ * Vc .pot p P ≤ Gc * σ * Vc .pot p P := by gcongr
    _ ≤ _ := by gcongr

theorem Vpot_even (hP : P.Ordered) (a : Axis) (p : Pt) (t : ℝ) :
    Vc .pot (p.set a (2 * P.centre a - t)) P = Vc .pot (p.set a t) P := by
  have k := Vc_mirror (p := p.set a t) hP .pot a (by intro h; cases h)
  rw [← Vc_shift (p := (p.set a t).mirror a) (P := P.mirror a) (t := a.vec (2 * P.centre a))] at k
  have e1 : ((p.set a t).mirror a).shift (a.vec (2 * P.centre a)) = p.set a (2 * P.centre a - t) := by
    cases a <;> simp only [Pt.mirror, Pt.shift, Axis.vec, Pt.set, Pt.e, Pt.n, Pt.u] <;>
      ext <;> simp <;> ring
  have e2 : (P.mirror a).shift (a.vec (2 * P.centre a)) = P := by
    cases P
    cases a <;> simp only [Box.mirror, Box.shift, Axis.vec, Pt.e, Pt.n, Pt.u, Box.centre, Box.lo, Box.hi, add_zero] <;>
      congr 1 <;> ring
  rw [e1, e2] at k
  rw [k]
  cases a <;> simp [GComp.count, GComp.index]

theorem strictAntiOn_Vpot (hP : P.Proper) (a : Axis) (p : Pt) :
    StrictAntiOn (fun t => Vc .pot (p.set a t) P) (Ici (P.centre a)) := by
  have d : ∀ t, HasDerivAt (fun t => Vc .pot (p.set a t) P) (Vc a.acc (p.set a t) P) t := fun t => by
    have := hasDerivAt_Vpot a (p.set a t) P
    cases a <;> exact this
  refine strictAntiOn_of_deriv_neg (convex_Ici _) (fun t _ => (d t).continuousAt.continuousWithinAt) fun t ht => ?_
  rw [interior_Ici] at ht
  rw [(d t).deriv]
  refine Vacc_neg hP a _ ?_
  cases a <;> exact ht

theorem Vpot_lt (hP : P.Proper) (a : Axis) (p : Pt) {s t : ℝ} (h : |s - P.centre a| < |t - P.centre a|) :
    Vc .pot (p.set a t) P < Vc .pot (p.set a s) P := by
  have fold : ∀ t, Vc .pot (p.set a t) P = Vc .pot (p.set a (P.centre a + |t - P.centre a|)) P := fun t => by
    rcases le_total (P.centre a) t with ht | ht
    · rw [abs_of_nonneg (by linarith)]; congr 2; ring
    · rw [abs_of_nonpos (by linarith), ← Vpot_even hP.ordered]; congr 2; ring
  rw [fold s, fold t]
  exact strictAntiOn_Vpot hP a p (by simp) (by simp) (by linarith)

/-- On every line parallel to an axis the potential of a prism of positive density depends only on
the distance to the mid-plane of the prism and decreases strictly with it. -/
theorem C73_axis (hP : P.Proper) (a : Axis) (p : Pt) {ρ : ℝ} (hρ : 0 < ρ) (s t : ℝ) :
    ∃ v w, Returns (onPrism (A := Exact) prism.gravity_pot (p.set a s) P ρ) v ∧
      Returns (onPrism (A := Exact) prism.gravity_pot (p.set a t) P ρ) w ∧
      (|s - P.centre a| < |t - P.centre a| ↔ w < v) ∧ (|s - P.centre a| = |t - P.centre a| ↔ v = w) := by
  refine ⟨_, _, Ex.gravity_pot_eval _ P ρ, Ex.gravity_pot_eval _ P ρ, ?_⟩
  have hG : 0 < Gc * ρ := mul_pos Gc_pos hρ
  have l : ∀ {s t : ℝ}, |s - P.centre a| < |t - P.centre a| →
      Gc * ρ * Vc .pot (p.set a t) P < Gc * ρ * Vc .pot (p.set a s) P := fun h =>
    mul_lt_mul_of_pos_left (Vpot_lt hP a p h) hG
  have e : ∀ {s t : ℝ}, |s - P.centre a| = |t - P.centre a| →
      Gc * ρ * Vc .pot (p.set a s) P = Gc * ρ * Vc .pot (p.set a t) P := fun {s t} h => by
    rcases abs_eq_abs.1 h with h | h
    · rw [sub_left_inj.1 h]
    · rw [← Vpot_even hP.ordered a p t]
      congr 3; linarith
  rcases lt_trichotomy |s - P.centre a| |t - P.centre a| with h | h | h
  · exact ⟨⟨fun _ => l h, fun _ => h⟩, ⟨fun h' => absurd h' h.ne, fun h' => absurd h' (l h).ne'⟩⟩
  · exact ⟨⟨fun h' => absurd h h'.ne, fun h' => absurd (e h) h'.ne'⟩, ⟨fun _ => e h, fun _ => h⟩⟩
  · exact ⟨⟨fun h' => absurd h' h.not_gt, fun h' => absurd h' (l h).not_gt⟩,
      ⟨fun h' => absurd h' h.ne', fun h' => absurd h' (l h).ne⟩⟩

/-- The potential of a prism of positive density is greatest at its centre, and only there. -/
theorem C73_maximum (hP : P.Proper) (p : Pt) (hp : p ≠ P.centrePt) {ρ : ℝ} (hρ : 0 < ρ) :
    ∃ v w, Returns (onPrism (A := Exact) prism.gravity_pot p P ρ) v ∧
      Returns (onPrism (A := Exact) prism.gravity_pot P.centrePt P ρ) w ∧ v < w := by
  refine ⟨_, _, Ex.gravity_pot_eval _ P ρ, Ex.gravity_pot_eval _ P ρ, ?_⟩
  have hG : 0 < Gc * ρ := mul_pos Gc_pos hρ
  refine mul_lt_mul_of_pos_left ?_ hG
  have step : ∀ (a : Axis) (p : Pt), p.coord a ≠ P.centre a → Vc .pot p P < Vc .pot (p.set a (P.centre a)) P := by
    intro a p h
    have := Vpot_lt hP a p (s := P.centre a) (t := p.coord a) (by
      rw [sub_self, abs_zero]; exact abs_pos.2 (sub_ne_zero.2 h))
    rwa [Pt.set_coord] at this
  have step' : ∀ (a : Axis) (p : Pt), Vc .pot p P ≤ Vc .pot (p.set a (P.centre a)) P := by
    intro a p
    by_cases h : p.coord a = P.centre a
    · rw [← h, Pt.set_coord]
    · exact (step a p h).le
  have fin : ((p.set .e (P.centre .e)).set .n (P.centre .n)).set .u (P.centre .u) = P.centrePt := rfl
  rw [← fin]
  by_cases h1 : p.coord .e = P.centre .e
  · by_cases h2 : p.coord .n = P.centre .n
    · have h3 : p.coord .u ≠ P.centre .u := fun h3 => hp (by
        obtain ⟨x, y, z⟩ := p
        simp only [Pt.coord, Pt.e, Pt.n, Pt.u] at h1 h2 h3
        rw [Box.centrePt, h1, h2, h3])
      rw [← h1, Pt.set_coord, ← h2, Pt.set_coord]
      exact step .u p h3
    · rw [← h1, Pt.set_coord]
      exact (step .n p h2).trans_le (step' .u _)
  · exact (step .e p h1).trans_le ((step' .n _).trans (step' .u _))

example : exBox.Proper ∧ exBox.region ⊆ exBox.region ∧ ((0, 0, 0) : Pt) ≠ exBox.centrePt := by
  refine ⟨by norm_num [Box.Proper, exBox], subset_rfl, fun h => ?_⟩
  have := congrArg (fun p : Pt => p.2.2) h
  norm_num [Box.centrePt, Box.centre, Box.lo, Box.hi, exBox] at this

end Choclo
