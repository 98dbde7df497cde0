import Verif.Props.Uniqueness3
import Mathlib.Data.Prod.Lex

/-! # Families of prisms: the extreme corner, and continuation up to it -/

namespace Choclo

open Real Set MeasureTheory Filter Topology

variable {ι : Type*} {P : ι → Box} {S : Finset ι}

/-- off all prisms of a family -/
def Off (S : Finset ι) (P : ι → Box) : Set Pt := {q | ∀ j ∈ S, q ∉ (P j).region}

/-- the high corner of prism `i` is the last one, first by easting, then by northing, then by height -/
def Extreme (S : Finset ι) (P : ι → Box) (i : ι) : Prop :=
  ∀ j ∈ S, (P j).east < (P i).east ∨ (P j).east = (P i).east ∧
    ((P j).north < (P i).north ∨ (P j).north = (P i).north ∧ (P j).top ≤ (P i).top)

theorem exists_extreme (hS : S.Nonempty) (P : ι → Box) : ∃ i ∈ S, Extreme S P i := by
  obtain ⟨i, hi, h⟩ := S.exists_max_image (fun i => toLex ((P i).east, toLex ((P i).north, (P i).top))) hS
  refine ⟨i, hi, fun j hj => ?_⟩
  have := h j hj
  rw [Prod.Lex.toLex_le_toLex] at this
  rcases this with h | ⟨h, h'⟩
  · exact .inl h
  · rw [Prod.Lex.toLex_le_toLex] at h'
    exact .inr ⟨h, h'⟩

theorem Extreme.not_mem {i j : ι} (h : Extreme S P i) (hj : j ∈ S) (hne : (P j).highCorner ≠ (P i).highCorner) :
    (P i).highCorner ∉ (P j).region := by
  rintro ⟨⟨_, h1⟩, ⟨_, h2⟩, ⟨_, h3⟩⟩
  change (P i).east ≤ _ at h1
  change (P i).north ≤ _ at h2
  change (P i).top ≤ _ at h3
  rcases h j hj with h | ⟨h, h' | ⟨h', h''⟩⟩
  · linarith
  · linarith
  · exact hne (Prod.ext h (Prod.ext h' (le_antisymm h'' h3)))

theorem convex_beyond (b : Axis) (m : ℝ) : Convex ℝ {p : Pt | m < p.coord b} := by
  intro x hx y hy s t hs ht hst
  have hx : m < x.coord b := hx
  have hy : m < y.coord b := hy
  have e : (s • x + t • y).coord b = s * x.coord b + t * y.coord b := by cases b <;> rfl
  show m < _
  rw [e]
  rcases hs.eq_or_lt with rfl | hs
  · have : t = 1 := by linarith
    subst this; linarith
  · obtain rfl : t = 1 - s := by linarith
    nlinarith [mul_pos hs (sub_pos.2 hx), mul_nonneg ht (sub_nonneg.2 hy.le)]

/-- A function that is analytic off all prisms of the family and vanishes on a patch outside a box around them vanishes
all around the extreme corner. -/
theorem vanish_corner {i : ι} (hi : i ∈ S) (hx : Extreme S P i) (hP : (P i).Proper)
    (hv : ∀ j ∈ S, j ≠ i → (P i).highCorner ∉ (P j).region) {B : Box} (hB : ∀ j ∈ S, (P j).region ⊆ B.region)
    {f : Pt → ℝ} (hf : LineAnalytic f (Off S P)) {U : Set Pt} (hU : IsOpen U) (hne : ∃ p ∈ U, p ∉ B.region)
    (h : ∀ p ∈ U, p ∉ B.region → f p = 0) : ∀ᶠ q in 𝓝[(P i).regionᶜ] (P i).highCorner, f q = 0 := by
  set v := (P i).highCorner with hvd
  have g0 : ∀ Ω, LineAnalytic (fun _ => (0 : ℝ)) Ω := fun Ω p d t _ => analyticAt_const
  obtain ⟨p0, h0, h0'⟩ := hne
  have s1 : B.regionᶜ ⊆ Off S P := fun q hq j hj hm => hq (hB j hj hm)
  have z1 : ∀ q, q ∉ B.region → f q = 0 := fun q hq =>
    unique_continuation (isOpen_outside B B) (isPreconnected_outside B B) (hf.mono (inter_subset_left.trans s1)) (g0 _) hU
      ⟨p0, h0, h0', h0'⟩ (fun q hq => h q hq.1 hq.2.1) q ⟨hq, hq⟩
  have s2 : {p : Pt | v.e < p.coord .e} ⊆ Off S P := by
    rintro q hq j hj ⟨⟨_, hm⟩, _⟩
    have hq : (P i).east < q.e := hq
    rcases hx j hj with h | ⟨h, _⟩ <;> linarith
  have z2 : ∀ q, v.e < q.e → f q = 0 := fun q hq =>
    unique_continuation (isOpen_beyond .e v.e) (convex_beyond .e v.e).isPreconnected (hf.mono s2) (g0 _)
      (isOpen_beyond .e B.east) ⟨(max v.e B.east + 1, 0, 0), lt_of_le_of_lt (le_max_right v.e B.east) (lt_add_one _),
        lt_of_le_of_lt (le_max_left v.e B.east) (lt_add_one _)⟩
      (fun q hq => z1 q (fun hm => absurd hm.1.2 (not_le.2 hq.1))) q hq
  have ev : ∀ᶠ q in 𝓝 v, ∀ j ∈ S, j ≠ i → q ∉ (P j).region := by
    rw [Filter.eventually_all_finset]
    intro j hj
    by_cases hji : j = i
    · exact Eventually.of_forall fun q h => absurd hji h
    · filter_upwards [eventually_off_region (hv j hj hji)] with q hq _ using hq
  obtain ⟨r0, hr0, hb0⟩ := Metric.eventually_nhds_iff_ball.1 ev
  obtain ⟨o1, o2, o3⟩ := hP
  set r := min r0 (min ((P i).east - (P i).west) (min ((P i).north - (P i).south) ((P i).top - (P i).bottom))) with hr
  have rpos : 0 < r := lt_min hr0 (lt_min (by linarith) (lt_min (by linarith) (by linarith)))
  have r1 : r ≤ r0 := min_le_left _ _
  have r2 : r ≤ (P i).east - (P i).west := (min_le_right _ _).trans (min_le_left _ _)
  have r3 : r ≤ (P i).north - (P i).south := (min_le_right _ _).trans ((min_le_right _ _).trans (min_le_left _ _))
  have r4 : r ≤ (P i).top - (P i).bottom := (min_le_right _ _).trans ((min_le_right _ _).trans (min_le_right _ _))
  have hb : ∀ q ∈ Metric.ball v r, ∀ j ∈ S, j ≠ i → q ∉ (P j).region := fun q hq =>
    hb0 q (Metric.ball_subset_ball r1 hq)
  have z3 : ∀ (b : Axis) q, q ∈ Metric.ball v r → v.coord b < q.coord b → f q = 0 := by
    intro b q hq hq'
    refine unique_continuation (Ω := Metric.ball v r ∩ {p : Pt | v.coord b < p.coord b})
      (Metric.isOpen_ball.inter (isOpen_beyond b _)) ((convex_ball v r).inter (convex_beyond b _)).isPreconnected
      (hf.mono ?_) (g0 _) (isOpen_beyond .e v.e) ⟨v + (r / 2, r / 2, r / 2), ?_, ?_, ?_⟩
      (fun q hq => z2 q hq.1) q ⟨hq, hq'⟩
    · rintro p ⟨hp, hp'⟩ j hj
      by_cases hji : j = i
      · subst hji
        intro hm
        have hp' : v.coord b < p.coord b := hp'
        have := region_le_hi hm b
        have e : v.coord b = (P j).hi b := by cases b <;> rfl
        linarith
      · exact hb p hp j hj hji
    · show v.e < v.e + r / 2
      linarith
    · rw [Metric.mem_ball, dist_eq_norm, add_sub_cancel_left, Prod.norm_def, Prod.norm_def]
      simp only [Real.norm_eq_abs, abs_of_pos (half_pos rpos), max_self]
      linarith
    · have e : (v + (r / 2, r / 2, r / 2)).coord b = v.coord b + r / 2 := by cases b <;> rfl
      show v.coord b < _
      rw [e]; linarith
  filter_upwards [self_mem_nhdsWithin, mem_nhdsWithin_of_mem_nhds (Metric.ball_mem_nhds v rpos)] with q hq hqb
  have d : ∀ b : Axis, v.coord b - r < q.coord b := by
    intro b
    rw [Metric.mem_ball, dist_eq_norm] at hqb
    have h1 : |q.coord b - v.coord b| ≤ ‖q - v‖ := by
      rw [Prod.norm_def, Prod.norm_def]
      cases b
      · exact le_max_left _ _
      · exact (le_max_left _ _).trans (le_max_right _ _)
      · exact (le_max_right _ _).trans (le_max_right _ _)
    have := neg_abs_le (q.coord b - v.coord b)
    linarith
  by_contra hc
  have k : ∀ b : Axis, q.coord b ≤ v.coord b := fun b => not_lt.1 fun hlt => hc (z3 b q hqb hlt)
  refine hq ⟨⟨?_, k .e⟩, ⟨?_, k .n⟩, ⟨?_, k .u⟩⟩
  · have := d .e
    change (P i).east - r < q.e at this
    linarith
  · have := d .n
    change (P i).north - r < q.n at this
    linarith
  · have := d .u
    change (P i).top - r < q.u at this
    linarith

theorem lineAnalytic_sum {κ : Type*} (s : Finset κ) {f : κ → Pt → ℝ} {Ω : Set Pt} (h : ∀ k ∈ s, LineAnalytic (f k) Ω) :
    LineAnalytic (fun q => ∑ k ∈ s, f k q) Ω := by
  classical
  induction s using Finset.induction_on with
  | empty => simp only [Finset.sum_empty]; exact fun p d t _ => analyticAt_const
  | insert a s ha ih =>
    simp only [Finset.sum_insert ha]
    exact (h a (Finset.mem_insert_self a s)).add (ih fun k hk => h k (Finset.mem_insert_of_mem hk))

end Choclo
