import Verif.Lemmas.Analytic
import Mathlib.Analysis.Analytic.Uniqueness
import Mathlib.Analysis.Convex.Topology

/-! # Unique continuation outside one or two prisms -/

namespace Choclo

open Real Set MeasureTheory Filter Topology

/-- real-analytic along every line, at the points of `Ω` -/
def LineAnalytic (f : Pt → ℝ) (Ω : Set Pt) : Prop :=
  ∀ p d t, lineR p d t ∈ Ω → AnalyticAt ℝ (fun t => f (lineR p d t)) t

theorem continuous_lineR (p d : Pt) : Continuous (lineR p d) := by
  unfold lineR; fun_prop

theorem lineR_zero (p d : Pt) : lineR p d 0 = p := by
  simp only [lineR, zero_mul, add_zero]

theorem lineR_one (p q : Pt) : lineR p (q - p) 1 = q := by
  refine Prod.ext ?_ (Prod.ext ?_ ?_) <;> simp [lineR, Pt.e, Pt.n, Pt.u]

theorem lineR_mem {p q : Pt} {B : Set Pt} (hB : Convex ℝ B) (hp : p ∈ B) (hq : q ∈ B) {t : ℝ} (ht : t ∈ Icc (0:ℝ) 1) :
    lineR p (q - p) t ∈ B := by
  have := hB.add_smul_sub_mem hp hq ht
  exact this

theorem unique_continuation {Ω : Set Pt} (hΩ : IsOpen Ω) (hc : IsPreconnected Ω) {f g : Pt → ℝ}
    (hf : LineAnalytic f Ω) (hg : LineAnalytic g Ω) {U : Set Pt} (hU : IsOpen U) (hne : (U ∩ Ω).Nonempty)
    (h : ∀ q ∈ U ∩ Ω, f q = g q) : ∀ q ∈ Ω, f q = g q := by
  set A : Set Pt := {x | ∀ᶠ y in 𝓝 x, f y = g y} with hA
  have oA : IsOpen A := isOpen_iff_mem_nhds.2 fun x hx => eventually_eventually_nhds.2 hx
  have sub : Ω ⊆ A := by
    refine hc.subset_of_closure_inter_subset oA ?_ ?_
    · obtain ⟨x, hx⟩ := hne
      refine ⟨x, hx.2, ?_⟩
      filter_upwards [(hU.inter hΩ).mem_nhds hx] with y hy using h y hy
    · rintro y ⟨hy, hyΩ⟩
      obtain ⟨r, hr, hb⟩ := Metric.isOpen_iff.1 hΩ y hyΩ
      obtain ⟨a, haA, hay⟩ := Metric.mem_closure_iff.1 hy r hr
      have ha : a ∈ Metric.ball y r := by rw [Metric.mem_ball, dist_comm]; exact hay
      show ∀ᶠ x in 𝓝 y, f x = g x
      filter_upwards [Metric.ball_mem_nhds y hr] with x hx
      have an : ∀ {f : Pt → ℝ}, LineAnalytic f Ω → AnalyticOnNhd ℝ (fun t => f (lineR a (x - a) t)) (Icc 0 1) :=
        fun hf t ht => hf a (x - a) t (hb (lineR_mem (convex_ball y r) ha hx ht))
      have e0 : (fun t => f (lineR a (x - a) t)) =ᶠ[𝓝 0] fun t => g (lineR a (x - a) t) := by
        have : Tendsto (lineR a (x - a)) (𝓝 0) (𝓝 a) := by
          have := (continuous_lineR a (x - a)).tendsto 0
          rwa [lineR_zero] at this
        exact this.eventually haA
      have := (an hf).eqOn_of_preconnected_of_eventuallyEq (an hg) isPreconnected_Icc (left_mem_Icc.2 zero_le_one) e0
        (right_mem_Icc.2 zero_le_one)
      simpa only [lineR_one] using this
  exact fun q hq => (sub hq).self_of_nhds

theorem isPreconnected_line (p : Pt) (b : Axis) : IsPreconnected (range fun t : ℝ => p.set b t) :=
  isPreconnected_range (Pt.continuous_set p b)

/-- The space outside two prisms is connected. -/
theorem isPreconnected_outside (P Q : Box) : IsPreconnected (P.regionᶜ ∩ Q.regionᶜ) := by
  have memb : ∀ (P : Box) (q : Pt), q ∈ P.region ↔ ∀ a : Axis, P.lo a ≤ q.coord a ∧ q.coord a ≤ P.hi a := by
    intro P q
    constructor
    · rintro ⟨h1, h2, h3⟩ a
      cases a
      · exact h1
      · exact h2
      · exact h3
    · exact fun h => ⟨h .e, h .n, h .u⟩
  set m : Axis → ℝ := fun a => max (P.hi a) (Q.hi a) with hm
  refine isPreconnected_of_forall ((m .e + 1, m .n + 1, m .u + 1) : Pt) ?_
  rintro y ⟨hyP, hyQ⟩
  have ex : ∀ {P : Box}, y ∉ P.region → ∃ a, ∀ b, b ≠ a → ∀ t, y.set b t ∉ P.region := by
    intro P h
    rw [memb] at h
    push Not at h
    obtain ⟨a, ha⟩ := h
    refine ⟨a, fun b hb t hr => ?_⟩
    have := (memb P _).1 hr a
    have e : (y.set b t).coord a = y.coord a := by
      cases a <;> cases b <;> first | rfl | exact absurd rfl hb
    rw [e] at this
    exact absurd this.2 (not_le.2 (ha this.1))
  obtain ⟨a1, h1⟩ := ex hyP
  obtain ⟨a2, h2⟩ := ex hyQ
  obtain ⟨b, hb1, hb2⟩ : ∃ b : Axis, b ≠ a1 ∧ b ≠ a2 := by
    cases a1 <;> cases a2 <;> first
      | exact ⟨.e, by decide, by decide⟩
      | exact ⟨.n, by decide, by decide⟩
      | exact ⟨.u, by decide, by decide⟩
  have hcoord : ∀ t, (y.set b t).coord b = t := fun t => by cases b <;> rfl
  have hH : Convex ℝ {x : Pt | m b < x.coord b} := by
    cases b
    · exact convex_halfSpace_gt (f := fun x : Pt => x.coord .e) ⟨fun _ _ => rfl, fun _ _ => rfl⟩ _
    · exact convex_halfSpace_gt (f := fun x : Pt => x.coord .n) ⟨fun _ _ => rfl, fun _ _ => rfl⟩ _
    · exact convex_halfSpace_gt (f := fun x : Pt => x.coord .u) ⟨fun _ _ => rfl, fun _ _ => rfl⟩ _
  refine ⟨range (fun t : ℝ => y.set b t) ∪ {x : Pt | m b < x.coord b}, ?_, .inr ?_, .inl ⟨y.coord b, Pt.set_coord y b⟩, ?_⟩
  · rintro x (⟨t, rfl⟩ | hx)
    · exact ⟨h1 b hb1 t, h2 b hb2 t⟩
    · have hx' : m b < x.coord b := hx
      exact ⟨fun h => absurd ((memb P x).1 h b).2 (not_le.2 ((le_max_left _ _).trans_lt hx')),
        fun h => absurd ((memb Q x).1 h b).2 (not_le.2 ((le_max_right _ _).trans_lt hx'))⟩
  · show m b < _
    cases b <;> simp only [Pt.coord, Pt.e, Pt.n, Pt.u] <;> linarith
  · refine IsPreconnected.union (y.set b (m b + 1)) ⟨_, rfl⟩ ?_ (isPreconnected_line y b) hH.isPreconnected
    show m b < _
    rw [hcoord]; linarith

theorem isOpen_outside (P Q : Box) : IsOpen (P.regionᶜ ∩ Q.regionᶜ) :=
  (isCompact_region P).isClosed.isOpen_compl.inter (isCompact_region Q).isClosed.isOpen_compl

end Choclo
