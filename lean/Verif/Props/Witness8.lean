import Verif.Props.Witness7
import Verif.Props.ForwardNumba

/-! # The theorems applied to concrete data, continued -/

namespace Choclo.Witness

open Choclo userguide MeasureTheory Set

/-- A value between `1/64` and `10^6` in magnitude lies well within the range of binary64. -/
theorem safe_of {x : ℝ} (h1 : 1 / 64 ≤ |x|) (h2 : |x| ≤ 1000000) : InSafeRange (2 ^ (-1022 : ℤ)) (2 ^ (1023 : ℤ)) x := .inr
  ⟨by
    have : (2 : ℝ) * 2 ^ (-1022 : ℤ) ≤ 1 / 64 := by
      calc (2 : ℝ) * 2 ^ (-1022 : ℤ) ≤ 2 * 2 ^ (-10 : ℤ) := by gcongr <;> norm_num
        _ ≤ 1 / 64 := by norm_num
    exact this.trans h1, by
    have : (2000000 : ℝ) ≤ 2 ^ (1023 : ℤ) := by
      calc (2000000 : ℝ) ≤ 2 ^ (30 : ℤ) := by norm_num
        _ ≤ _ := zpow_le_zpow_right₀ (by norm_num) (by norm_num)
    exact (mul_le_mul_of_nonneg_left h2 zero_le_two).trans (le_trans (by norm_num) this)⟩

/-- third-order kernels at a vertex `(3, 4, 12)` away -/
example : ReturnsNear (prismKernel (A := Binary64) .een (3 : ℝ) (4 : ℝ) (12 : ℝ) (13 : ℝ)) (docKernel .een 3 4 12 13)
    (gammaErr (2 ^ (-53 : ℤ)) 13) :=
  C51_third_order Binary64_accurate .een trivial 3 4 12 13 (by norm_num) (by
    intro t ht
    simp only [thirdOrderSteps, iijSteps, List.mem_cons, List.not_mem_nil, or_false] at ht
    rcases ht with h | h | h | h | h | h <;> subst h <;> exact safe_of (by norm_num [abs_of_pos]) (by norm_num [abs_of_pos]))

example : ReturnsNear (prismKernel (A := Binary64) .nnn (3 : ℝ) (4 : ℝ) (12 : ℝ) (13 : ℝ)) (docKernel .nnn 3 4 12 13)
    (gammaErr (2 ^ (-53 : ℤ)) 13) :=
  C51_third_order Binary64_accurate .nnn trivial 3 4 12 13 (by norm_num) (by
    intro t ht
    simp only [thirdOrderSteps, iiiSteps, List.mem_cons, List.not_mem_nil, or_false] at ht
    rcases ht with h | h | h | h | h | h | h | h | h | h | h | h | h <;> subst h <;>
      exact safe_of (by norm_num [abs_of_pos, abs_of_neg]) (by norm_num [abs_of_pos, abs_of_neg]))

/-- a second derivative of the inverse distance of two points -/
example : ∃ x : ℝ, Returns (callKernel (A := Exact) .uu (1, 2, 2) (0, 0, 0)) x ∧
    ReturnsWithin (callKernel (A := Binary64) .uu (1, 2, 2) (0, 0, 0)) x
      (gammaErr (2 ^ (-53 : ℤ)) 42 * (24 / dist3 (1, 2, 2) (0, 0, 0) ^ (KComp.uu.order + 1))) :=
  C94_kernels Binary64_accurate .uu _ _ (by norm_num) (by
    have hd : dist3 (1, 2, 2) (0, 0, 0) = 3 := by
      unfold dist3
      rw [Real.sqrt_eq_iff_mul_self_eq (by positivity) (by norm_num)]
      norm_num [Pt.e, Pt.n, Pt.u]
    intro t ht
    simp only [distanceSteps, kernelSteps, kDiagSteps, hd, Pt.e, Pt.n, Pt.u, List.mem_append, List.mem_cons, List.not_mem_nil, or_false] at ht
    rcases ht with (h | h | h | h | h | h | h | h | h) | h
    all_goals try (subst h; exact safe_of (by norm_num [abs_of_pos]) (by norm_num [abs_of_pos]))
    rcases h with h | h | h | h | h | h | h <;> subst h <;> exact safe_of (by norm_num [abs_of_pos]) (by norm_num [abs_of_pos]))

example : (Finsupp.single src ((1, 2, 3) : Vec)) = Finsupp.single src (1, 2, 3) :=
  C125_dipoles .u _ _ isOpen_univ univ_nonempty fun p _ h1 _ => by
    refine ⟨_, _, fun q hq => dipole_fin .u (fun e => h1 (by rw [e]; exact hq)) _,
      fun q hq => dipole_fin .u (fun e => h1 (by rw [e]; exact hq)) _, rfl⟩

/-- the user guide in the arithmetic of compiled code -/
example (r : Fin 2 → Fl Binary64) := C90_forward (points ![obs, top]) (boxes ![exBox]) (values ![2670]) r

end Choclo.Witness
