import Verif.Props.Witness3
import Verif.Props.Absorbed

/-! # The theorems applied to concrete data, continued -/

namespace Choclo.Witness

open Choclo userguide MeasureTheory Set

/-! ### Upward continuation -/

theorem exBox_below : exBox.hi .u < 1 := by norm_num [exBox, Box.hi]

/-- gravity gradients on the plane one metre above the prism, known up to an error of 3 -/
example : ∃ g : Pt → ℝ, (∀ p : Pt, 1 ≤ p.coord .u → Returns (onPrism (A := Exact) prism.gravity_uu p exBox (2670 : ℝ)) (g p)) ∧
    ∀ d : ℝ × ℝ → ℝ, Measurable d → (∀ s, |d s - g (Pt.onPlane .u 1 s)| ≤ 3) →
      |(∫ s, d s * upwardWeight .u 1 obs s) - g obs| ≤ 3 := by
  obtain ⟨g, h1, h2⟩ := C134_prism (a := .u) (t := 1) exBox_ordered .uu (.inl exBox_below) 2670
  exact ⟨g, h1, fun d hd he => (C134_error h2 hd he (by norm_num [Pt.coord, obs])).2⟩

/-! ### Separate prisms -/

/-- a second prism east of the first -/
def besides : Box := ⟨2, 3, -1, 1, -2, 0⟩

theorem besides_ordered : besides.Ordered := by norm_num [besides, Box.Ordered]

theorem besides_disjoint : Disjoint exBox.region besides.region := by
  rw [Set.disjoint_left]
  rintro q ⟨h1, -⟩ ⟨h2, -⟩
  have h1 : q.1 ≤ 1 := h1.2
  have h2 : 2 ≤ q.1 := h2.1
  linarith

example := C65_disjoint besides_ordered exBox_ordered besides_disjoint 2670
example := C77_magnetic exBox_ordered besides_ordered besides_disjoint mag mag

example := C36_potential exBox_ordered obs (ρ := 2670) (d₁ := 9) (d₂ := 12) (by norm_num) (by norm_num) (fun q h => ⟨obs_far q h, by
  obtain ⟨⟨a1, a2⟩, ⟨a3, a4⟩, ⟨a5, a6⟩⟩ := h
  simp only [exBox] at a1 a2 a3 a4 a5 a6
  unfold dist3
  rw [Real.sqrt_le_left (by norm_num)]
  simp only [Pt.e, Pt.n, Pt.u]
  nlinarith⟩)

theorem huge : (12 : ℝ) ≤ 2 ^ (300 : ℤ) :=
  le_trans (by norm_num) (zpow_le_zpow_right₀ (by norm_num) (show (4 : ℤ) ≤ 300 by norm_num) : (2 : ℝ) ^ (4 : ℤ) ≤ 2 ^ (300 : ℤ))

example := C102_dipole .u obs src
  (fun a => le_trans (by cases a <;> norm_num [Pt.coord, obs, src]) huge)
  ⟨.u, le_trans (zpow_le_one_of_nonpos₀ (by norm_num) (by norm_num)) (by norm_num [Pt.coord, obs, src])⟩
  (me := 1) (mn := 2) (mu := 3) (le_trans (by norm_num) huge) (le_trans (by norm_num) huge) (le_trans (by norm_num) huge)

example := C142_coincident (a := .u) (t := 0) (h := 1) (x := (fun _ => (0, 0) : Fin 2 → ℝ × ℝ)) (i := 0) (j := 1) (by decide) rfl
  (by norm_num) .uu

/-- a cube of 2 m on the ground, seen from 2^60 m -/
example := C104_lost_magnetic ⟨-1, 1, -1, 1, -1, 1⟩ (by unfold Box.Proper; norm_num) (10, 20, 2 ^ 60)
    (by
      have := B64.isF_zpow (z := 60) (by norm_num)
      exact_mod_cast this)
    (by
      refine ⟨?_, ?_, ?_, ?_, ?_, ?_⟩ <;> simp only [Pt.e, Pt.n, Pt.u] <;> right <;>
        norm_num [abs_of_pos, abs_of_neg])
    (by simp only [Pt.u]; norm_num) (by simp only [Pt.u]; norm_num) mag sizes_mag .uu

theorem higher_volume : (volume : Measure Pt).real (symmDiff exBox.region higher.region) ≤ 4 / 3 * Real.pi * 3 ^ 3 := by
  refine (C119_volume exBox_ordered higher_ordered higher_near).trans ?_
  norm_num [Box.grow, Box.surfaceArea, exBox]
  nlinarith [Real.pi_gt_three]

example := C119_potential exBox_ordered higher_ordered obs 2670 (R := 3) (by norm_num) higher_volume
example := C119_acceleration exBox_ordered higher_ordered obs 2670 (R := 3) (by norm_num) higher_volume

/-- prisms with sides growing without bound -/
def slab (i : ℕ) : Box := ⟨-(i : ℝ), i, -(i : ℝ), i, -2, 0⟩

example := C72_bouguer (l := Filter.atTop) .u (lo := -2) (hi := 0) (by norm_num) (P := slab) (fun _ => rfl) (fun _ => rfl)
  (fun b hb => by
    cases b
    · exact ⟨Filter.tendsto_neg_atTop_atBot.comp tendsto_natCast_atTop_atTop, tendsto_natCast_atTop_atTop⟩
    · exact ⟨Filter.tendsto_neg_atTop_atBot.comp tendsto_natCast_atTop_atTop, tendsto_natCast_atTop_atTop⟩
    · exact absurd rfl hb) obs 2670

end Choclo.Witness
