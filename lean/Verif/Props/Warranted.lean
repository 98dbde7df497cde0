import Verif.Lemmas.Blowup
import Verif.Props.FaceValues

/-! # C95: the NaN results are warranted -/

namespace Choclo

open Real Set Filter Topology

variable {P : Box}

/-- **C95.** At every point where `gravity_en`, `gravity_eu` or `gravity_nu` returns NaN, the values it
returns at neighbouring points grow beyond every bound: no number could be returned there. -/
theorem C95_off_diagonal (hP : P.Proper) {a b : Axis} (hab : a ≠ b) {ρ : ℝ} (hρ : ρ ≠ 0) (p : Pt)
    (h : ReturnsNaN (onPrism (A := Exact) (prismGravity (tensor a b)) p P ρ)) :
    ∃ T : Pt → ℝ,
      (∀ q, ¬ReturnsNaN (onPrism (A := Exact) (prismGravity (tensor a b)) q P ρ) →
        Returns (onPrism (A := Exact) (prismGravity (tensor a b)) q P ρ) (T q)) ∧
      Tendsto (fun q => |T q|)
        (𝓝[{q | ¬ReturnsNaN (onPrism (A := Exact) (prismGravity (tensor a b)) q P ρ)}] p) atTop := by
  have hO := hP.ordered
  have iff : ∀ q, ReturnsNaN (onPrism (A := Exact) (prismGravity (tensor a b)) q P ρ) ↔
      q ∈ P.singular (tensor a b) := fun q => (C26_nan_iff hO (tensor a b) q ρ).1
  refine ⟨fun q => Gc * ρ * Vc (tensor a b) q P, fun q hq =>
    Ex.gravity_returns hO (fun hs => hq ((iff q).2 hs)) ρ, ?_⟩
  have hset : {q | ¬ReturnsNaN (onPrism (A := Exact) (prismGravity (tensor a b)) q P ρ)}
      = (P.singular (tensor a b))ᶜ := by
    ext q
    exact not_congr (iff q)
  rw [hset]
  simp only [abs_mul]
  exact (tendsto_abs_Voff hP hab ((iff p).1 h)).const_mul_atTop
    (mul_pos (abs_pos.2 Gc_pos.ne') (abs_pos.2 hρ))

/-- **C95.** At every point where `gravity_ee`, `gravity_nn` or `gravity_uu` returns NaN, the values it
returns at exterior points have no limit: they depend on the direction of approach. (At every other
point of the surface they do have one, see C28.) -/
theorem C95_diagonal (hP : P.Proper) (a : Axis) {ρ : ℝ} (hρ : ρ ≠ 0) (p : Pt)
    (h : ReturnsNaN (onPrism (A := Exact) (prismGravity (tensor a a)) p P ρ)) :
    ∃ T : Pt → ℝ,
      (∀ q ∉ P.region, Returns (onPrism (A := Exact) (prismGravity (tensor a a)) q P ρ) (T q)) ∧
      ∀ v : ℝ, ¬Tendsto T (𝓝[P.regionᶜ] p) (𝓝 v) := by
  have hO := hP.ordered
  have hs : p ∈ P.singular (tensor a a) := (C26_nan_iff hO (tensor a a) p ρ).1.1 h
  refine ⟨fun q => Gc * ρ * Vc (tensor a a) q P, fun q hq =>
    Ex.gravity_returns hO (exterior_singular hO hq _) ρ, fun v hv => ?_⟩
  have hg : Gc * ρ ≠ 0 := mul_ne_zero Gc_pos.ne' hρ
  refine no_limit_diag hP a hs (v / (Gc * ρ)) ((hv.div_const (Gc * ρ)).congr fun q => ?_)
  rw [mul_div_cancel_left₀ _ hg]

/-- Every point where a tensor component is NaN can be approached through exterior points, so that the
two statements above speak about actual results. -/
theorem C95_approachable (hP : P.Proper) (c : GComp) {ρ : ℝ} (p : Pt)
    (h : ReturnsNaN (onPrism (A := Exact) (prismGravity c) p P ρ)) : (𝓝[P.regionᶜ] p).NeBot := by
  have hO := hP.ordered
  have hs : p ∈ P.singular c := (C26_nan_iff hO c p ρ).1.1 h
  have he := singular_subset_edges hs
  have hf : p.e = P.west ∨ p.e = P.east ∨ p.n = P.south ∨ p.n = P.north := by
    simp only [Box.edges, Set.mem_union, Box.edgesE, Box.edgesN, Box.edgesU, Set.mem_ofPred_eq] at he
    tauto
  have path : ∀ d : Pt, (∀ t > 0, ((p.e + d.e * t, p.n + d.n * t, p.u) : Pt) ∉ P.region) →
      (𝓝[P.regionᶜ] p).NeBot := by
    intro d hd
    refine Filter.NeBot.mono (inferInstance : (map (fun t : ℝ => ((p.e + d.e * t, p.n + d.n * t, p.u) : Pt))
      (𝓝[>] (0 : ℝ))).NeBot) ?_
    apply tendsto_nhdsWithin_of_tendsto_nhds_of_eventually_within
    · have hc : Continuous fun t : ℝ => ((p.e + d.e * t, p.n + d.n * t, p.u) : Pt) := by fun_prop
      have := hc.tendsto 0
      simp only [mul_zero, add_zero] at this
      exact this.mono_left nhdsWithin_le_nhds
    · filter_upwards [self_mem_nhdsWithin] with t ht using hd t ht
  rcases hf with h | h | h | h
  · refine path (-1, 0, 0) fun t ht hr => ?_
    have := hr.1.1; simp only [Pt.e] at this h; linarith
  · refine path (1, 0, 0) fun t ht hr => ?_
    have := hr.1.2; simp only [Pt.e] at this h; linarith
  · refine path (0, -1, 0) fun t ht hr => ?_
    have := hr.2.1.1; simp only [Pt.n] at this h; linarith
  · refine path (0, 1, 0) fun t ht hr => ?_
    have := hr.2.1.2; simp only [Pt.n] at this h; linarith

/-- the example prism, on a vertical edge and at a vertex -/
example : exBox.Proper ∧ ReturnsNaN (onPrism (A := Exact) (prismGravity .en) (exBox.east, exBox.north, -1) exBox (1 : ℝ)) ∧
    ReturnsNaN (onPrism (A := Exact) (prismGravity .uu) (exBox.east, exBox.north, exBox.top) exBox (1 : ℝ)) := by
  have hp : exBox.Proper := by norm_num [exBox, Box.Proper]
  refine ⟨hp, ?_, ?_⟩
  · apply C26_nan hp.ordered
    norm_num [Box.singular, Box.edgesU, exBox, Pt.e, Pt.n, Pt.u]
  · apply C26_nan hp.ordered
    norm_num [Box.singular, Box.edgesE, Box.edgesN, exBox, Pt.e, Pt.n, Pt.u]

end Choclo
