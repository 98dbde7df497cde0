import Verif.Props.ErrorBound
import Verif.Spec.KernelSteps

/-! # C94: rounding errors of the 20 point kernels -/

namespace Choclo

variable {A : Arith} {u lo hi : ℝ}

namespace Arith.Accurate

variable (h : A.Accurate u lo hi)
include h

theorem two_terms {p q : Pt} {a b d : Fl A} {x y : ℝ} (hd : 0 < dist3 p q)
    (ha : Approx u 2 a x) (hb : Approx u 6 b y) (hdv : Approx u 4 d (dist3 p q))
    (s5 : InSafeRange lo hi (dist3 p q ^ 5)) (t5 : InSafeRange lo hi (x / dist3 p q ^ 5))
    (s7 : InSafeRange lo hi (dist3 p q ^ 7)) (t7 : InSafeRange lo hi (y / dist3 p q ^ 7))
    (st : InSafeRange lo hi (|x / dist3 p q ^ 5| + |y / dist3 p q ^ 7|)) :
    ∃ v, (do return (← a /. d ^ 5) - (← b /. d ^ 7)) = .ok v ∧
      AbsApprox u 42 v (x / dist3 p q ^ 5 - y / dist3 p q ^ 7)
        (|x / dist3 p q ^ 5| + |y / dist3 p q ^ 7|) := by
  obtain ⟨v, e, hv⟩ := h.div ha (h.pow hdv (by norm_num) s5 (by norm_num)) (pow_ne_zero 5 hd.ne') t5
    (by norm_num)
  obtain ⟨w, e', hw⟩ := h.div hb (h.pow hdv (by norm_num) s7 (by norm_num)) (pow_ne_zero 7 hd.ne') t7
    (by norm_num)
  refine ⟨v - w, ?_, ?_⟩
  · change (a /. d ^ 5) = _ at e
    change (b /. d ^ 7) = _ at e'
    rw [e, e']
    rfl
  · exact h.absMono (by norm_num) le_rfl (h.absSub (h.toAbs hv) (h.toAbs hw) st (by norm_num))

theorem natMul {n k : ℕ} {N : ℝ} (hN : (n : ℝ) = N) {v : Fl A} {x : ℝ} (hv : Approx u k v x)
    (hs : InSafeRange lo hi (N * x)) (hk : k ≤ 64) :
    Approx u (k + 1) ((OfNat.ofNat n : Fl A) * v) (N * x) := by
  subst hN
  exact h.mono (by omega) (h.mul (h.nat n) hv hs (by omega))

theorem cube_kernel {p q : Pt} {a b : ℝ} (hd : 0 < dist3 p q) {d : Fl A}
    (hdv : Approx u 4 d (dist3 p q)) (h0 : InSafeRange lo hi (a - b))
    (hs : ∀ t ∈ kCubeSteps (dist3 p q) (a - b), InSafeRange lo hi t) :
    ∃ v, (do return (← 9 * ((a : Fl A) - (b : Fl A)) /. d ^ 5)
        - (← 15 * ((a : Fl A) - (b : Fl A)) ^ 3 /. d ^ 7)) = .ok v ∧
      AbsApprox u 42 v (9 * (a - b) / dist3 p q ^ 5 - 15 * (a - b) ^ 3 / dist3 p q ^ 7)
        (|9 * (a - b) / dist3 p q ^ 5| + |15 * (a - b) ^ 3 / dist3 p q ^ 7|) := by
  simp only [kCubeSteps, List.mem_cons, List.not_mem_nil, or_false, forall_eq_or_imp, forall_eq] at hs
  obtain ⟨s1, s2, s3, s4, s5, s6, s7, s8⟩ := hs
  have e0 := h.sub_exact (A := A) h0
  have e1 := h.natMul (n := 9) (by norm_num) e0 s1 (by norm_num)
  have e2 := h.natMul (n := 15) (by norm_num) (h.pow e0 (by norm_num) s4 (by norm_num)) s5 (by norm_num)
  exact h.two_terms hd e1 (h.mono (by norm_num) e2) hdv s2 s3 s6 s7 s8

theorem mix_kernel {p q : Pt} {a b a' b' : ℝ} (hd : 0 < dist3 p q) {d : Fl A}
    (hdv : Approx u 4 d (dist3 p q)) (h0 : InSafeRange lo hi (a - b)) (h0' : InSafeRange lo hi (a' - b'))
    (hs : ∀ t ∈ kMixSteps (dist3 p q) (a - b) (a' - b'), InSafeRange lo hi t) :
    ∃ v, (do return (← 3 * ((a' : Fl A) - (b' : Fl A)) /. d ^ 5)
        - (← 15 * ((a : Fl A) - (b : Fl A)) ^ 2 * ((a' : Fl A) - (b' : Fl A)) /. d ^ 7)) = .ok v ∧
      AbsApprox u 42 v (3 * (a' - b') / dist3 p q ^ 5 - 15 * (a - b) ^ 2 * (a' - b') / dist3 p q ^ 7)
        (|3 * (a' - b') / dist3 p q ^ 5| + |15 * (a - b) ^ 2 * (a' - b') / dist3 p q ^ 7|) := by
  simp only [kMixSteps, List.mem_cons, List.not_mem_nil, or_false, forall_eq_or_imp, forall_eq] at hs
  obtain ⟨s1, s2, s3, s4, s5, s6, s7, s8, s9⟩ := hs
  have e0 := h.sub_exact (A := A) h0
  have e0' := h.sub_exact (A := A) h0'
  have e1 := h.natMul (n := 3) (by norm_num) e0' s1 (by norm_num)
  have e2 := h.natMul (n := 15) (by norm_num) (h.pow e0 (by norm_num) s4 (by norm_num)) s5 (by norm_num)
  have e3 := h.mul e2 e0' s6 (by norm_num)
  exact h.two_terms hd e1 (h.mono (by norm_num) e3) hdv s2 s3 s7 s8 s9

theorem triple_kernel {p q : Pt} (hd : 0 < dist3 p q) {d : Fl A}
    (hdv : Approx u 4 d (dist3 p q)) (hx : InSafeRange lo hi (p.e - q.e))
    (hy : InSafeRange lo hi (p.n - q.n)) (hz : InSafeRange lo hi (p.u - q.u))
    (hs : ∀ t ∈ kTripleSteps (dist3 p q) (p.e - q.e) (p.n - q.n) (p.u - q.u), InSafeRange lo hi t) :
    ∃ v, onPair (point.kernel_enu (A := A)) p q d = .ok v ∧
      Approx u 41 v (-15 * (p.e - q.e) * (p.n - q.n) * (p.u - q.u) / dist3 p q ^ 7) := by
  simp only [kTripleSteps, List.mem_cons, List.not_mem_nil, or_false, forall_eq_or_imp, forall_eq] at hs
  obtain ⟨s1, s2, s3, s4, s5⟩ := hs
  have n15 : -((15 : ℕ) : ℝ) = -15 := by norm_num
  have e1 := h.mul (h.neg (h.nat 15)) (h.sub_exact hx) (by rw [n15]; exact s1) (by norm_num)
  rw [n15] at e1
  have e2 := h.mul e1 (h.sub_exact hy) s2 (by norm_num)
  have e3 := h.mul e2 (h.sub_exact hz) s3 (by norm_num)
  obtain ⟨v, e, hv⟩ := h.div e3 (h.pow hdv (by norm_num) s4 (by norm_num)) (pow_ne_zero 7 hd.ne') s5
    (by norm_num)
  exact ⟨v, by rw [← e]; rfl, h.mono (by norm_num) hv⟩

end Arith.Accurate

theorem abs_coord_le_dist (p q : Pt) (a : Axis) : |p.coord a - q.coord a| ≤ dist3 p q := by
  have := coord_le_norm (p - q) a
  cases a <;> exact this

theorem pow_frac_le {x y d : ℝ} {n m : ℕ} (hd : 0 < d) (hx : |x| ≤ y * d ^ n) :
    |x / d ^ (n + m)| ≤ y / d ^ m := by
  rw [abs_div, abs_of_pos (by positivity : 0 < d ^ (n + m)), pow_add, div_le_div_iff₀ (by positivity) (by positivity)]
  have : 0 < d ^ m := by positivity
  nlinarith

theorem kernel_monomial (h : A.Accurate u lo hi) (c : KComp) (hc : c.monomial) (p q : Pt) (hpq : p ≠ q)
    (hs : ∀ t ∈ distanceSteps p q ++ kernelSteps c p q, InSafeRange lo hi t) :
    ∃ v, callKernel (A := A) c p q = .ok v ∧
      Approx u 41 v (kp c (p.e - q.e) (p.n - q.n) (p.u - q.u)) := by
  have hd0 : dist3 p q ≠ 0 := fun h' => hpq (dist3_eq_zero.mp h')
  have hd : 0 < dist3 p q := lt_of_le_of_ne (Real.sqrt_nonneg _) (Ne.symm hd0)
  rw [List.forall_mem_append] at hs
  obtain ⟨hs, hs'⟩ := hs
  have he : InSafeRange lo hi (p.e - q.e) := hs _ (by simp [distanceSteps])
  have hn : InSafeRange lo hi (p.n - q.n) := hs _ (by simp [distanceSteps])
  have hu : InSafeRange lo hi (p.u - q.u) := hs _ (by simp [distanceSteps])
  refine bindNear h hs fun d hdv => ?_
  cases c <;> try exact hc.elim
  case pot =>
    obtain ⟨v, e, hv⟩ := h.inv_distance hd0 hdv (hs' _ (by simp [kernelSteps]))
    refine ⟨v, by rw [← e]; rfl, ?_⟩
    replace hv := h.mono (show _ ≤ 41 by norm_num) hv
    rw [dist3_eq_rad] at hv
    simpa only [kp, pow_one] using hv
  case enu =>
    obtain ⟨v, e, hv⟩ := h.triple_kernel hd hdv he hn hu hs'
    refine ⟨v, by rw [← e]; rfl, ?_⟩
    rw [dist3_eq_rad] at hv
    simpa only [kp, pow_one] using hv
  case' e =>
    obtain ⟨v, e, hv⟩ := h.acc_kernel hd0 hdv he (hs' _ (by simp [kernelSteps, kFirstSteps]))
      (hs' _ (by simp [kernelSteps, kFirstSteps]))
  case' n =>
    obtain ⟨v, e, hv⟩ := h.acc_kernel hd0 hdv hn (hs' _ (by simp [kernelSteps, kFirstSteps]))
      (hs' _ (by simp [kernelSteps, kFirstSteps]))
  case' u =>
    obtain ⟨v, e, hv⟩ := h.acc_kernel hd0 hdv hu (hs' _ (by simp [kernelSteps, kFirstSteps]))
      (hs' _ (by simp [kernelSteps, kFirstSteps]))
  case' en =>
    obtain ⟨v, e, hv⟩ := h.off_kernel hd0 hdv he hn (hs' _ (by simp [kernelSteps, kOffSteps]))
      (hs' _ (by simp [kernelSteps, kOffSteps])) (hs' _ (by simp [kernelSteps, kOffSteps]))
      (hs' _ (by simp [kernelSteps, kOffSteps]))
  case' eu =>
    obtain ⟨v, e, hv⟩ := h.off_kernel hd0 hdv he hu (hs' _ (by simp [kernelSteps, kOffSteps]))
      (hs' _ (by simp [kernelSteps, kOffSteps])) (hs' _ (by simp [kernelSteps, kOffSteps]))
      (hs' _ (by simp [kernelSteps, kOffSteps]))
  case' nu =>
    obtain ⟨v, e, hv⟩ := h.off_kernel hd0 hdv hn hu (hs' _ (by simp [kernelSteps, kOffSteps]))
      (hs' _ (by simp [kernelSteps, kOffSteps])) (hs' _ (by simp [kernelSteps, kOffSteps]))
      (hs' _ (by simp [kernelSteps, kOffSteps]))
  all_goals
    refine ⟨v, by rw [← e]; rfl, ?_⟩
    replace hv := h.mono (show _ ≤ 41 by norm_num) hv
    rw [dist3_eq_rad] at hv
    simpa only [kp, pow_one, neg_one_mul] using hv

theorem kernel_within (h : A.Accurate u lo hi) (c : KComp) (p q : Pt) (hpq : p ≠ q)
    (hs : ∀ t ∈ distanceSteps p q ++ kernelSteps c p q, InSafeRange lo hi t) :
    ∃ v, callKernel (A := A) c p q = .ok v ∧
      AbsApprox u 42 v (kp c (p.e - q.e) (p.n - q.n) (p.u - q.u)) (24 / dist3 p q ^ (c.order + 1)) := by
  have hd0 : dist3 p q ≠ 0 := fun h' => hpq (dist3_eq_zero.mp h')
  have hd : 0 < dist3 p q := lt_of_le_of_ne (Real.sqrt_nonneg _) (Ne.symm hd0)
  have bx : |p.e - q.e| ≤ dist3 p q := abs_coord_le_dist p q .e
  have bn : |p.n - q.n| ≤ dist3 p q := abs_coord_le_dist p q .n
  have bu : |p.u - q.u| ≤ dist3 p q := abs_coord_le_dist p q .u
  have two : ∀ {x y : ℝ}, |x| ≤ dist3 p q → |y| ≤ dist3 p q →
      |x * y| ≤ dist3 p q ^ 2 := fun h1 h2 => by
    rw [abs_mul, pow_two]; exact mul_le_mul h1 h2 (abs_nonneg _) hd.le
  have thr : ∀ {x y z : ℝ}, |x| ≤ dist3 p q → |y| ≤ dist3 p q → |z| ≤ dist3 p q →
      |x * y * z| ≤ dist3 p q ^ 3 := fun h1 h2 h3 => by
    rw [abs_mul, pow_succ]; exact mul_le_mul (two h1 h2) h3 (abs_nonneg _) (by positivity)
  have up : ∀ {k m : ℝ} {n : ℕ}, k ≤ 24 → m = k / dist3 p q ^ n → m ≤ 24 / dist3 p q ^ n :=
    fun hk hm => by rw [hm]; exact div_le_div_of_nonneg_right hk (by positivity)
  by_cases hc : c.monomial
  · obtain ⟨v, e, hv⟩ := kernel_monomial h c hc p q hpq hs
    refine ⟨v, e, h.absMono (by norm_num) ?_ (h.toAbs hv)⟩
    have one : ∀ {x : ℝ}, |x| ≤ dist3 p q → |-1 * x / dist3 p q ^ 3| ≤ 24 / dist3 p q ^ 2 := fun h1 =>
      (pow_frac_le (n := 1) (m := 2) (y := 1) hd (by rw [neg_one_mul, abs_neg]; simpa using h1)).trans
        (up (by norm_num) rfl)
    have off : ∀ {x y : ℝ}, |x| ≤ dist3 p q → |y| ≤ dist3 p q →
        |3 * x * y / dist3 p q ^ 5| ≤ 24 / dist3 p q ^ 3 := fun h1 h2 =>
      (pow_frac_le (n := 2) (m := 3) (y := 3) hd (by
        rw [mul_assoc, abs_mul, abs_of_pos (by norm_num : (0:ℝ) < 3)]
        exact mul_le_mul_of_nonneg_left (two h1 h2) (by norm_num))).trans (up (by norm_num) rfl)
    cases c <;> try exact hc.elim
    all_goals simp only [kp, pow_one, ← dist3_eq_rad, KComp.order, KComp.index]
    case pot =>
      rw [abs_of_pos (by positivity)]
      exact up (k := 1) (by norm_num) (by simp)
    case enu =>
      refine (pow_frac_le (n := 3) (m := 4) (y := 15) hd ?_).trans (up (by norm_num) rfl)
      rw [mul_assoc, mul_assoc, abs_mul, ← mul_assoc, show |(-15 : ℝ)| = 15 by norm_num]
      exact mul_le_mul_of_nonneg_left (thr bx bn bu) (by norm_num)
    case e => exact one bx
    case n => exact one bn
    case u => exact one bu
    case en => exact off bx bn
    case eu => exact off bx bu
    case nu => exact off bn bu
  rw [List.forall_mem_append] at hs
  obtain ⟨hs, hs'⟩ := hs
  have he : InSafeRange lo hi (p.e - q.e) := hs _ (by simp [distanceSteps])
  have hn : InSafeRange lo hi (p.n - q.n) := hs _ (by simp [distanceSteps])
  have hu : InSafeRange lo hi (p.u - q.u) := hs _ (by simp [distanceSteps])
  refine bindWithin h hs fun d hdv => ?_
  have diagB : ∀ {x : ℝ}, |x| ≤ dist3 p q →
      3 * x ^ 2 / dist3 p q ^ 5 + 1 / dist3 p q ^ 3 ≤ 24 / dist3 p q ^ 3 := fun {x} h1 => by
    have := pow_frac_le (n := 2) (m := 3) (x := 3 * x ^ 2) (y := 3) hd (by
      rw [abs_mul, abs_of_pos (by norm_num : (0:ℝ) < 3), pow_two]
      exact mul_le_mul_of_nonneg_left (two h1 h1) (by norm_num))
    rw [abs_of_nonneg (by positivity)] at this
    calc _ ≤ 3 / dist3 p q ^ 3 + 1 / dist3 p q ^ 3 := by linarith
      _ ≤ _ := up (k := 4) (by norm_num) (by ring)
  have cubeB : ∀ {x y k : ℝ}, 0 ≤ k → k ≤ 9 → |y| ≤ dist3 p q →
      |x| ≤ dist3 p q → |k * y / dist3 p q ^ 5| + |15 * x ^ 2 * y / dist3 p q ^ 7| ≤ 24 / dist3 p q ^ 4 :=
    fun {x y k} hk hk9 hy hx => by
    have h1 := pow_frac_le (n := 1) (m := 4) (x := k * y) (y := k) hd (by
      rw [abs_mul, abs_of_nonneg hk, pow_one]; exact mul_le_mul_of_nonneg_left hy hk)
    have h2 := pow_frac_le (n := 3) (m := 4) (x := 15 * x ^ 2 * y) (y := 15) hd (by
      rw [mul_assoc, abs_mul, abs_of_pos (by norm_num : (0:ℝ) < 15), pow_two]
      exact mul_le_mul_of_nonneg_left (thr hx hx hy) (by norm_num))
    calc _ ≤ k / dist3 p q ^ 4 + 15 / dist3 p q ^ 4 := add_le_add h1 h2
      _ ≤ _ := up (k := k + 15) (by linarith) (by ring)
  cases c <;> try exact (hc trivial).elim
  case' ee =>
    obtain ⟨v, e, hv⟩ := h.diag_kernel hd hdv he (hs' _ (by simp [kernelSteps, kDiagSteps]))
      (hs' _ (by simp [kernelSteps, kDiagSteps])) (hs' _ (by simp [kernelSteps, kDiagSteps]))
      (hs' _ (by simp [kernelSteps, kDiagSteps])) (hs' _ (by simp [kernelSteps, kDiagSteps]))
      (hs' _ (by simp [kernelSteps, kDiagSteps])) (hs' _ (by simp [kernelSteps, kDiagSteps]))
    have hB := diagB bx
  case' nn =>
    obtain ⟨v, e, hv⟩ := h.diag_kernel hd hdv hn (hs' _ (by simp [kernelSteps, kDiagSteps]))
      (hs' _ (by simp [kernelSteps, kDiagSteps])) (hs' _ (by simp [kernelSteps, kDiagSteps]))
      (hs' _ (by simp [kernelSteps, kDiagSteps])) (hs' _ (by simp [kernelSteps, kDiagSteps]))
      (hs' _ (by simp [kernelSteps, kDiagSteps])) (hs' _ (by simp [kernelSteps, kDiagSteps]))
    have hB := diagB bn
  case' uu =>
    obtain ⟨v, e, hv⟩ := h.diag_kernel hd hdv hu (hs' _ (by simp [kernelSteps, kDiagSteps]))
      (hs' _ (by simp [kernelSteps, kDiagSteps])) (hs' _ (by simp [kernelSteps, kDiagSteps]))
      (hs' _ (by simp [kernelSteps, kDiagSteps])) (hs' _ (by simp [kernelSteps, kDiagSteps]))
      (hs' _ (by simp [kernelSteps, kDiagSteps])) (hs' _ (by simp [kernelSteps, kDiagSteps]))
    have hB := diagB bu
  case' eee =>
    obtain ⟨v, e, hv⟩ := h.cube_kernel hd hdv he hs'
    have hB := cubeB (k := 9) (by norm_num) (by norm_num) bx bx
    rw [mul_assoc 15, ← pow_succ] at hB
  case' nnn =>
    obtain ⟨v, e, hv⟩ := h.cube_kernel hd hdv hn hs'
    have hB := cubeB (k := 9) (by norm_num) (by norm_num) bn bn
    rw [mul_assoc 15, ← pow_succ] at hB
  case' uuu =>
    obtain ⟨v, e, hv⟩ := h.cube_kernel hd hdv hu hs'
    have hB := cubeB (k := 9) (by norm_num) (by norm_num) bu bu
    rw [mul_assoc 15, ← pow_succ] at hB
  case' een =>
    obtain ⟨v, e, hv⟩ := h.mix_kernel hd hdv he hn hs'
    have hB := cubeB (k := 3) (by norm_num) (by norm_num) bn bx
  case' eeu =>
    obtain ⟨v, e, hv⟩ := h.mix_kernel hd hdv he hu hs'
    have hB := cubeB (k := 3) (by norm_num) (by norm_num) bu bx
  case' nne =>
    obtain ⟨v, e, hv⟩ := h.mix_kernel hd hdv hn he hs'
    have hB := cubeB (k := 3) (by norm_num) (by norm_num) bx bn
  case' nnu =>
    obtain ⟨v, e, hv⟩ := h.mix_kernel hd hdv hn hu hs'
    have hB := cubeB (k := 3) (by norm_num) (by norm_num) bu bn
  case' uue =>
    obtain ⟨v, e, hv⟩ := h.mix_kernel hd hdv hu he hs'
    have hB := cubeB (k := 3) (by norm_num) (by norm_num) bx bu
  case' uun =>
    obtain ⟨v, e, hv⟩ := h.mix_kernel hd hdv hu hn hs'
    have hB := cubeB (k := 3) (by norm_num) (by norm_num) bn bu
  all_goals
    refine ⟨v, by rw [← e]; rfl, ?_⟩
    replace hv := h.absMono (show _ ≤ 42 by norm_num) hB hv
    refine (congrArg (fun t => AbsApprox u 42 v t _) ?_).mpr hv
    rw [dist3_eq_rad]
    simp only [kp, pow_one]
    ring

/-- **C94.** In every arithmetic with unit roundoff `u`, each of the 20 functions
`choclo.point.kernel_*`, called with the distance computed by `distance_cartesian`, returns a finite
number within `24 γ₄₂ / d^(k+1)` of the value the same call has in exact arithmetic, where `k` is the
order of differentiation of the kernel and `d` the distance, provided no intermediate result over- or
underflows. -/
theorem C94_kernels (h : A.Accurate u lo hi) (c : KComp) (p q : Pt) (hpq : p ≠ q)
    (hs : ∀ t ∈ distanceSteps p q ++ kernelSteps c p q, InSafeRange lo hi t) :
    ∃ x : ℝ, Returns (callKernel (A := Exact) c p q) x ∧
      ReturnsWithin (callKernel (A := A) c p q) x (gammaErr u 42 * (24 / dist3 p q ^ (c.order + 1))) :=
  ⟨_, Ex.callKernel_fin c hpq, withinOf h (by norm_num) (kernel_within h c p q hpq hs)⟩

/-- **C94.** The kernels made of a single term (`pot`, `e`, `n`, `u`, `en`, `eu`, `nu`, `enu`) have a
relative error of at most `γ₄₁`. -/
theorem C94_relative (h : A.Accurate u lo hi) (c : KComp) (hc : c.monomial) (p q : Pt) (hpq : p ≠ q)
    (hs : ∀ t ∈ distanceSteps p q ++ kernelSteps c p q, InSafeRange lo hi t) :
    ∃ x : ℝ, Returns (callKernel (A := Exact) c p q) x ∧
      ReturnsNear (callKernel (A := A) c p q) x (gammaErr u 41) :=
  ⟨_, Ex.callKernel_fin c hpq, nearOf h (by norm_num) (kernel_monomial h c hc p q hpq hs)⟩

theorem Mag.nine : Mag 3 4 9 := by right; norm_num [abs_of_pos]
theorem Mag.fifteen : Mag 3 4 15 := by right; norm_num [abs_of_pos]

theorem safe_kernel {c : KComp} {p q : Pt} (hΔ : ∀ a : Axis, ModerateSize (p.coord a - q.coord a)) :
    ∀ t ∈ kernelSteps c p q, InSafeRange (2 ^ (-1022 : ℤ)) (2 ^ (1023 : ℤ)) t := by
  have he : Mag (-80) 80 (p.e - q.e) := hΔ .e
  have hn : Mag (-80) 80 (p.n - q.n) := hΔ .n
  have hu : Mag (-80) 80 (p.u - q.u) := hΔ .u
  have hd := mag_dist hΔ
  have hd0 : 0 ≤ dist3 p q := Real.sqrt_nonneg _
  have hd3 := hd.pow (n := 3) (by norm_num)
  have hd5 := hd.pow (n := 5) (by norm_num)
  have hd7 := hd.pow (n := 7) (by norm_num)
  have hi := Mag.one.div hd3
  have first : ∀ {x : ℝ}, Mag (-80) 80 x →
      ∀ t ∈ kFirstSteps (dist3 p q) x, InSafeRange (2 ^ (-1022 : ℤ)) (2 ^ (1023 : ℤ)) t := by
    intro x hx
    simp only [kFirstSteps, List.mem_cons, List.not_mem_nil, or_false, forall_eq_or_imp, forall_eq]
    exact ⟨hd3.safe (by norm_num) (by norm_num), (hx.neg.div hd3).safe (by norm_num) (by norm_num)⟩
  have diag : ∀ {x : ℝ}, Mag (-80) 80 x →
      ∀ t ∈ kDiagSteps (dist3 p q) x, InSafeRange (2 ^ (-1022 : ℤ)) (2 ^ (1023 : ℤ)) t := by
    intro x hx
    have h3 := Mag.three.mul (hx.pow two_ne_zero)
    have hq := h3.div hd5
    have hsum := (hq.weaken (a' := -800) (b' := 800) (by norm_num) (by norm_num)).add
      (hi.weaken (a' := -800) (b' := 800) (by norm_num) (by norm_num)) (by positivity) (by positivity)
    simp only [kDiagSteps, List.mem_cons, List.not_mem_nil, or_false, forall_eq_or_imp, forall_eq]
    exact ⟨(hx.pow two_ne_zero).safe (by norm_num) (by norm_num), h3.safe (by norm_num) (by norm_num),
      hd5.safe (by norm_num) (by norm_num), hq.safe (by norm_num) (by norm_num),
      hd3.safe (by norm_num) (by norm_num), hi.safe (by norm_num) (by norm_num),
      hsum.safe (by norm_num) (by norm_num)⟩
  have off : ∀ {x y : ℝ}, Mag (-80) 80 x → Mag (-80) 80 y →
      ∀ t ∈ kOffSteps (dist3 p q) x y, InSafeRange (2 ^ (-1022 : ℤ)) (2 ^ (1023 : ℤ)) t := by
    intro x y hx hy
    have h3 := Mag.three.mul hx
    simp only [kOffSteps, List.mem_cons, List.not_mem_nil, or_false, forall_eq_or_imp, forall_eq]
    exact ⟨h3.safe (by norm_num) (by norm_num), (h3.mul hy).safe (by norm_num) (by norm_num),
      hd5.safe (by norm_num) (by norm_num), ((h3.mul hy).div hd5).safe (by norm_num) (by norm_num)⟩
  have cube : ∀ {x : ℝ}, Mag (-80) 80 x →
      ∀ t ∈ kCubeSteps (dist3 p q) x, InSafeRange (2 ^ (-1022 : ℤ)) (2 ^ (1023 : ℤ)) t := by
    intro x hx
    have h9 := Mag.nine.mul hx
    have h3 := hx.pow three_ne_zero
    have h15 := Mag.fifteen.mul h3
    have hq := h9.div hd5
    have hq' := h15.div hd7
    have hsum := (hq.abs.weaken (a' := -900) (b' := 900) (by norm_num) (by norm_num)).add
      (hq'.abs.weaken (a' := -900) (b' := 900) (by norm_num) (by norm_num)) (abs_nonneg _) (abs_nonneg _)
    simp only [kCubeSteps, List.mem_cons, List.not_mem_nil, or_false, forall_eq_or_imp, forall_eq]
    exact ⟨h9.safe (by norm_num) (by norm_num), hd5.safe (by norm_num) (by norm_num),
      hq.safe (by norm_num) (by norm_num), h3.safe (by norm_num) (by norm_num),
      h15.safe (by norm_num) (by norm_num), hd7.safe (by norm_num) (by norm_num),
      hq'.safe (by norm_num) (by norm_num), hsum.safe (by norm_num) (by norm_num)⟩
  have mix : ∀ {x y : ℝ}, Mag (-80) 80 x → Mag (-80) 80 y →
      ∀ t ∈ kMixSteps (dist3 p q) x y, InSafeRange (2 ^ (-1022 : ℤ)) (2 ^ (1023 : ℤ)) t := by
    intro x y hx hy
    have h3 := Mag.three.mul hy
    have h2 := hx.pow two_ne_zero
    have h15 := Mag.fifteen.mul h2
    have h15' := h15.mul hy
    have hq := h3.div hd5
    have hq' := h15'.div hd7
    have hsum := (hq.abs.weaken (a' := -900) (b' := 900) (by norm_num) (by norm_num)).add
      (hq'.abs.weaken (a' := -900) (b' := 900) (by norm_num) (by norm_num)) (abs_nonneg _) (abs_nonneg _)
    simp only [kMixSteps, List.mem_cons, List.not_mem_nil, or_false, forall_eq_or_imp, forall_eq]
    exact ⟨h3.safe (by norm_num) (by norm_num), hd5.safe (by norm_num) (by norm_num),
      hq.safe (by norm_num) (by norm_num), h2.safe (by norm_num) (by norm_num),
      h15.safe (by norm_num) (by norm_num), h15'.safe (by norm_num) (by norm_num),
      hd7.safe (by norm_num) (by norm_num),
      hq'.safe (by norm_num) (by norm_num), hsum.safe (by norm_num) (by norm_num)⟩
  cases c
  case pot =>
    simp only [kernelSteps, List.mem_cons, List.not_mem_nil, or_false, forall_eq]
    exact (Mag.one.div hd).safe (by norm_num) (by norm_num)
  case e => exact first he
  case n => exact first hn
  case u => exact first hu
  case ee => exact diag he
  case nn => exact diag hn
  case uu => exact diag hu
  case en => exact off he hn
  case eu => exact off he hu
  case nu => exact off hn hu
  case eee => exact cube he
  case nnn => exact cube hn
  case uuu => exact cube hu
  case een => exact mix he hn
  case eeu => exact mix he hu
  case nne => exact mix hn he
  case nnu => exact mix hn hu
  case uue => exact mix hu he
  case uun => exact mix hu hn
  case enu =>
    have h1 := Mag.fifteen.neg.mul he
    have h2 := h1.mul hn
    have h3 := h2.mul hu
    simp only [kernelSteps, kTripleSteps, List.mem_cons, List.not_mem_nil, or_false, forall_eq_or_imp,
      forall_eq]
    exact ⟨h1.safe (by norm_num) (by norm_num), h2.safe (by norm_num) (by norm_num),
      h3.safe (by norm_num) (by norm_num), hd7.safe (by norm_num) (by norm_num),
      (h3.div hd7).safe (by norm_num) (by norm_num)⟩

/-- **C94, in IEEE double precision.** For points whose coordinate differences are zero or between
`2⁻⁸⁰` and `2⁸⁰` in magnitude, every point kernel is within `2⁻⁴¹ / d^(k+1)` of its exact value, and the
single-term kernels have relative error at most `2⁻⁴⁶`. -/
theorem C94_double (c : KComp) (p q : Pt) (hpq : p ≠ q)
    (hΔ : ∀ a : Axis, ModerateSize (p.coord a - q.coord a)) :
    ∃ x : ℝ, Returns (callKernel (A := Exact) c p q) x ∧
      ReturnsWithin (callKernel (A := Binary64) c p q) x (2 ^ (-41 : ℤ) / dist3 p q ^ (c.order + 1)) ∧
      (c.monomial → ReturnsNear (callKernel (A := Binary64) c p q) x (2 ^ (-46 : ℤ))) := by
  have hs : ∀ t ∈ distanceSteps p q ++ kernelSteps c p q,
      InSafeRange (2 ^ (-1022 : ℤ)) (2 ^ (1023 : ℤ)) t :=
    List.forall_mem_append.2 ⟨safe_distance hΔ, safe_kernel hΔ⟩
  refine ⟨_, Ex.callKernel_fin c hpq, ?_, fun hc => ?_⟩
  · obtain ⟨y, e, hy⟩ := withinOf Binary64_accurate (by norm_num)
      (kernel_within Binary64_accurate c p q hpq hs)
    refine ⟨y, e, hy.trans ?_⟩
    have := gamma_double (k := 42) (e := -46) (by norm_num) (by norm_num)
    have hd : 0 ≤ dist3 p q := Real.sqrt_nonneg _
    have e5 : (2 : ℝ) ^ (-41 : ℤ) = 2 ^ (-46 : ℤ) * 32 := by norm_num
    rw [e5, mul_div_assoc]
    exact mul_le_mul this (div_le_div_of_nonneg_right (by norm_num) (by positivity)) (by positivity)
      (Mag.zp _).le
  · exact near_double (k := 41) (by norm_num) (by norm_num)
      (nearOf Binary64_accurate (by norm_num) (kernel_monomial Binary64_accurate c hc p q hpq hs))

/-- `kernel_een` of a pair of points 100 m apart, computed in double precision. -/
example : ∃ x : ℝ, Returns (callKernel (A := Exact) .een (3, 4, 0) (0, 0, -100)) x ∧
    ReturnsWithin (callKernel (A := Binary64) .een (3, 4, 0) (0, 0, -100)) x
      (2 ^ (-41 : ℤ) / dist3 (3, 4, 0) (0, 0, -100) ^ 4) := by
  obtain ⟨x, h1, h2, -⟩ := C94_double .een (3, 4, 0) (0, 0, -100) (by norm_num [Prod.ext_iff]) (by
    intro a
    cases a <;> simp only [Pt.coord, Pt.e, Pt.n, Pt.u] <;> apply moderate_of <;>
      norm_num [abs_of_pos])
  exact ⟨x, h1, h2⟩

end Choclo
