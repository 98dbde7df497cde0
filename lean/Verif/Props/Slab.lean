import Verif.Lemmas.Slab
import Verif.Props.PrismCalc

/-! # C72: flat plates -/

namespace Choclo

open Real Set MeasureTheory Filter Topology

variable {P : Box}

/-! ## C72 -/

theorem abs_Vacc_le (hP : P.Ordered) (a : Axis) (p : Pt) : |Vc a.acc p P| ≤ 2 * π * (P.hi a - P.lo a) := by
  cases a
  · exact abs_Ve_le hP p
  · have := abs_Ve_le (hP.swap .en) (p.swap .en)
    rw [← Vc_swap (c := Axis.acc .n) (s := .en)]; exact this
  · have := abs_Ve_le (hP.swap .eu) (p.swap .eu)
    rw [← Vc_swap (c := Axis.acc .u) (s := .eu)]; exact this

/-- No acceleration component of a prism exceeds `2 pi G |density| thickness`, the thickness being
measured along the component's axis: the attraction of the infinite (Bouguer) plate, however wide the
prism and wherever the observation point. -/
theorem C72_bound (hP : P.Ordered) (a : Axis) (p : Pt) (ρ : ℝ) :
    ∃ g, Returns (onPrism (A := Exact) (prismGravity a.acc) p P ρ) g ∧
      |g| ≤ 2 * π * 6.6743e-11 * |ρ| * (P.hi a - P.lo a) := by
  refine ⟨_, acc_returns a p P ρ, ?_⟩
  rw [abs_mul, abs_mul, abs_of_pos Gc_pos]
  refine (mul_le_mul_of_nonneg_left (abs_Vacc_le hP a p) (mul_nonneg Gc_pos.le (abs_nonneg ρ))).trans (le_of_eq ?_)
  unfold Gc; ring

theorem tendsto_Ve_plate {ι : Type*} {l : Filter ι} {lo hi : ℝ} (h : lo ≤ hi) {P : ι → Box}
    (hlo : ∀ i, (P i).lo .e = lo) (hhi : ∀ i, (P i).hi .e = hi)
    (h1 : Tendsto (fun i => (P i).lo .n) l atBot) (h2 : Tendsto (fun i => (P i).hi .n) l atTop)
    (h3 : Tendsto (fun i => (P i).lo .u) l atBot) (h4 : Tendsto (fun i => (P i).hi .u) l atTop) (p : Pt) :
    Tendsto (fun i => Vc .e p (P i)) l (𝓝 (2 * π * (|hi - p.e| - |p.e - lo|))) := by
  have k := tendsto_Ve_slab (l := atBot ×ˢ atTop ×ˢ atBot ×ˢ atTop)
    (s := fun v : ℝ × ℝ × ℝ × ℝ => v.1) (n := fun v => v.2.1) (b := fun v => v.2.2.1) (t := fun v => v.2.2.2) h
    tendsto_fst (tendsto_fst.comp tendsto_snd) (tendsto_fst.comp (tendsto_snd.comp tendsto_snd))
    (tendsto_snd.comp (tendsto_snd.comp tendsto_snd)) p
  have m : Tendsto (fun i => ((P i).lo .n, (P i).hi .n, (P i).lo .u, (P i).hi .u)) l
      (atBot ×ˢ atTop ×ˢ atBot ×ˢ atTop) := h1.prodMk (h2.prodMk (h3.prodMk h4))
  have := k.comp m
  rw [abs_sub_comm lo] at this
  refine this.congr fun i => ?_
  rw [Function.comp]
  congr 1
  rw [← hlo i, ← hhi i]
  rfl

/-- The Bouguer plate: when the four bounds perpendicular to axis `a` go to infinity, in whatever
way, the acceleration along `a` tends to `2 pi G density (|hi - x| - |x - lo|)`, `x` being the
coordinate of the observation point: `-2 pi G density thickness` above the plate, the opposite below
it, linear in between. -/
theorem C72_bouguer {ι : Type*} {l : Filter ι} (a : Axis) {lo hi : ℝ} (h : lo ≤ hi) {P : ι → Box}
    (hlo : ∀ i, (P i).lo a = lo) (hhi : ∀ i, (P i).hi a = hi)
    (hw : ∀ b, b ≠ a → Tendsto (fun i => (P i).lo b) l atBot ∧ Tendsto (fun i => (P i).hi b) l atTop)
    (p : Pt) (ρ : ℝ) :
    ∃ g : ι → ℝ, (∀ i, Returns (onPrism (A := Exact) (prismGravity a.acc) p (P i) ρ) (g i)) ∧
      Tendsto g l (𝓝 (2 * π * 6.6743e-11 * ρ * (|hi - p.coord a| - |p.coord a - lo|))) := by
  refine ⟨_, fun i => acc_returns a p (P i) ρ, ?_⟩
  have e : ∀ V : ℝ, 2 * π * 6.6743e-11 * ρ * V = Gc * ρ * (2 * π * V) := fun V => by unfold Gc; ring
  rw [e]
  refine Tendsto.const_mul _ ?_
  cases a
  · obtain ⟨a1, a2⟩ := hw .n (by decide)
    obtain ⟨a3, a4⟩ := hw .u (by decide)
    exact tendsto_Ve_plate h hlo hhi a1 a2 a3 a4 p
  · obtain ⟨a1, a2⟩ := hw .e (by decide)
    obtain ⟨a3, a4⟩ := hw .u (by decide)
    refine (tendsto_Ve_plate (P := fun i => (P i).swap .en) h hlo hhi a1 a2 a3 a4 (p.swap .en)).congr fun i => ?_
    exact Vc_swap (p := p) (P := P i) .n .en
  · obtain ⟨a1, a2⟩ := hw .n (by decide)
    obtain ⟨a3, a4⟩ := hw .e (by decide)
    refine (tendsto_Ve_plate (P := fun i => (P i).swap .eu) h hlo hhi a1 a2 a3 a4 (p.swap .eu)).congr fun i => ?_
    exact Vc_swap (p := p) (P := P i) .u .eu

/-- a family of ever wider plates between heights -3 and 0 -/
example : ∃ P : ℕ → Box, (∀ i, (P i).lo .u = -3) ∧ (∀ i, (P i).hi .u = 0) ∧ ∀ b, b ≠ .u →
    Tendsto (fun i => (P i).lo b) atTop atBot ∧ Tendsto (fun i => (P i).hi b) atTop atTop := by
  refine ⟨fun i => ⟨-i, i, -i, i, -3, 0⟩, fun _ => rfl, fun _ => rfl, fun b hb => ?_⟩
  cases b
  · exact ⟨tendsto_neg_atTop_atBot.comp tendsto_natCast_atTop_atTop, tendsto_natCast_atTop_atTop⟩
  · exact ⟨tendsto_neg_atTop_atBot.comp tendsto_natCast_atTop_atTop, tendsto_natCast_atTop_atTop⟩
  · exact absurd rfl hb

end Choclo
