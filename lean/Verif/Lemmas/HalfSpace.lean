import Mathlib.Analysis.Calculus.DerivativeTest
import Verif.Spec.HalfSpace
import Verif.Lemmas.Plane

/-! # The maximum principle, and the Poisson integral of a half-space -/

namespace Choclo

open Real Set MeasureTheory Filter Topology

/-! ### the maximum principle -/

/-- twice differentiable along the axes with vanishing Laplacian, and continuous -/
def Harm (w : Pt → ℝ) (Ω : Set Pt) : Prop :=
  ContinuousOn w Ω ∧ ∃ D DD : Axis → Pt → ℝ, ∀ p ∈ Ω,
    (∀ b, HasDerivAt (fun x => w (p.set b x)) (D b p) (p.coord b) ∧
      HasDerivAt (fun x => D b (p.set b x)) (DD b p) (p.coord b)) ∧
    DD .e p + DD .n p + DD .u p = 0

theorem second_nonpos {f f' : ℝ → ℝ} {x s : ℝ} (hm : IsLocalMax f x) (h1 : ∀ᶠ y in 𝓝 x, HasDerivAt f (f' y) y)
    (h2 : HasDerivAt f' s x) : s ≤ 0 := by
  by_contra hs
  push Not at hs
  have e : deriv f =ᶠ[𝓝 x] f' := h1.mono fun y hy => hy.deriv
  have d2 : deriv (deriv f) x = s := by rw [e.deriv_eq, h2.deriv]
  have d1 : deriv f x = 0 := hm.deriv_eq_zero
  have hmin := isLocalMin_of_deriv_deriv_pos (by rw [d2]; exact hs) d1 h1.self_of_nhds.continuousAt
  have c : f =ᶠ[𝓝 x] fun _ => f x := by
    filter_upwards [hm, hmin] with y h3 h4 using le_antisymm h3 h4
  have c1 : deriv f =ᶠ[𝓝 x] fun _ => 0 := by
    filter_upwards [c.eventuallyEq_nhds] with y hy
    rw [hy.deriv_eq, deriv_const]
  have : deriv (deriv f) x = 0 := by rw [c1.deriv_eq, deriv_const]
  linarith

theorem continuous_set (p : Pt) (b : Axis) : Continuous fun x : ℝ => p.set b x := by
  cases b <;> unfold Pt.set <;> dsimp only <;> fun_prop

theorem set_coord (p : Pt) (b : Axis) : p.set b (p.coord b) = p := by cases b <;> rfl

/-- the squared distance, and its derivatives along the axes -/
noncomputable def sqd (p q : Pt) : ℝ := (p.e - q.e) ^ 2 + (p.n - q.n) ^ 2 + (p.u - q.u) ^ 2

theorem continuous_sqd (q : Pt) : Continuous fun p => sqd p q := by
  unfold sqd Pt.e Pt.n Pt.u; fun_prop

theorem hasDerivAt_sqd (p q : Pt) (b : Axis) (x : ℝ) :
    HasDerivAt (fun x => sqd (p.set b x) q) (2 * (x - q.coord b)) x := by
  have h : HasDerivAt (fun x : ℝ => (x - q.coord b) ^ 2) (2 * (x - q.coord b)) x := by
    simpa using ((hasDerivAt_id x).sub_const (q.coord b)).fun_pow 2
  cases b <;> simp only [sqd, Pt.set, Pt.e, Pt.n, Pt.u, Pt.coord] at h ⊢
  · exact ((h.add_const _).add_const _)
  · exact ((h.const_add _).add_const _)
  · exact h.const_add _

theorem max_principle {w : Pt → ℝ} {Ω : Set Pt} (hΩ : IsOpen Ω) (hw : Harm w Ω)
    (hb : ∀ ε > 0, ∃ K, IsCompact K ∧ K ⊆ Ω ∧ ∀ p ∈ Ω, p ∉ K → w p ≤ ε) {p : Pt} (hp : p ∈ Ω) : w p ≤ 0 := by
  by_contra hM
  push Not at hM
  obtain ⟨hc, D, DD, hd⟩ := hw
  obtain ⟨K, hK, hKΩ, hout⟩ := hb (w p / 2) (by linarith)
  have hK' : IsCompact (insert p K) := hK.insert p
  have hK'Ω : insert p K ⊆ Ω := insert_subset hp hKΩ
  obtain ⟨C, hC⟩ := (hK'.image (continuous_sqd p)).bddAbove
  have hC' : ∀ q ∈ insert p K, sqd q p ≤ C := fun q hq => hC (mem_image_of_mem _ hq)
  have C0 : 0 ≤ C := by
    have := hC' p (mem_insert _ _)
    simpa [sqd] using this
  obtain ⟨ε, hε, hεC⟩ : ∃ ε > 0, ε * C ≤ w p / 4 := by
    refine ⟨w p / (4 * (C + 1)), by positivity, ?_⟩
    rw [div_mul_eq_mul_div, div_le_div_iff₀ (by positivity) (by norm_num)]
    nlinarith
  have vc : ContinuousOn (fun q => w q + ε * sqd q p) Ω := hc.add ((continuous_sqd p).const_mul ε).continuousOn
  obtain ⟨q, hq, hmax⟩ := hK'.exists_isMaxOn ⟨p, mem_insert _ _⟩ (vc.mono hK'Ω)
  have hqΩ := hK'Ω hq
  have h1 : w p ≤ w q + ε * sqd q p := by
    have := hmax (mem_insert p K)
    simpa [sqd] using this
  have h2 : w p / 2 < w q := by
    have : ε * sqd q p ≤ ε * C := mul_le_mul_of_nonneg_left (hC' q hq) hε.le
    linarith
  have loc : ∀ᶠ r in 𝓝 q, w r + ε * sqd r p ≤ w q + ε * sqd q p := by
    filter_upwards [hΩ.mem_nhds hqΩ, (hc.continuousAt (hΩ.mem_nhds hqΩ)).eventually (lt_mem_nhds h2)] with r hr hr'
    refine hmax (mem_insert_of_mem _ ?_)
    by_contra hn
    exact absurd (hout r hr hn) (not_le.2 hr')
  have key : ∀ b, DD b q + 2 * ε ≤ 0 := by
    intro b
    have cs := (continuous_set q b).continuousAt (x := q.coord b)
    have e := set_coord q b
    refine second_nonpos (f := fun x => w (q.set b x) + ε * sqd (q.set b x) p)
      (f' := fun x => D b (q.set b x) + ε * (2 * (x - p.coord b))) (x := q.coord b) ?_ ?_ ?_
    · have := cs.eventually (p := fun r => w r + ε * sqd r p ≤ w q + ε * sqd q p) (by simp only [e]; exact loc)
      filter_upwards [this] with x hx
      simp only [e]
      exact hx
    · have := cs.eventually (p := fun r => r ∈ Ω) (by simp only [e]; exact hΩ.mem_nhds hqΩ)
      filter_upwards [this] with x hx
      have h := ((hd _ hx).1 b).1
      have e1 : (q.set b x).coord b = x := by cases b <;> rfl
      have e2 : ∀ y, (q.set b x).set b y = q.set b y := fun y => by cases b <;> rfl
      rw [e1] at h
      simp only [e2] at h
      exact h.add ((hasDerivAt_sqd q p b x).const_mul ε)
    · have h := ((hd q hqΩ).1 b).2
      have h' : HasDerivAt (fun x : ℝ => ε * (2 * (x - p.coord b))) (ε * (2 * 1)) (q.coord b) :=
        (((hasDerivAt_id _).sub_const _).const_mul 2).const_mul ε
      exact (h.add h').congr_deriv (by ring)
  have := (hd q hqΩ).2
  linarith [key .e, key .n, key .u]

theorem Harm.sub {v w : Pt → ℝ} {Ω : Set Pt} (hv : Harm v Ω) (hw : Harm w Ω) : Harm (fun p => v p - w p) Ω := by
  obtain ⟨c1, D1, E1, h1⟩ := hv
  obtain ⟨c2, D2, E2, h2⟩ := hw
  refine ⟨c1.sub c2, fun b p => D1 b p - D2 b p, fun b p => E1 b p - E2 b p, fun p hp => ⟨fun b => ⟨?_, ?_⟩, ?_⟩⟩
  · exact ((h1 p hp).1 b).1.sub ((h2 p hp).1 b).1
  · exact ((h1 p hp).1 b).2.sub ((h2 p hp).1 b).2
  · linarith [(h1 p hp).2, (h2 p hp).2]

theorem harm_eq {v w : Pt → ℝ} {Ω : Set Pt} (hΩ : IsOpen Ω) (hv : Harm v Ω) (hw : Harm w Ω)
    (hb : ∀ ε > 0, ∃ K, IsCompact K ∧ K ⊆ Ω ∧ ∀ p ∈ Ω, p ∉ K → |v p - w p| ≤ ε) {p : Pt} (hp : p ∈ Ω) : v p = w p := by
  have h1 := max_principle hΩ (hv.sub hw) (fun ε hε => by
    obtain ⟨K, h1, h2, h3⟩ := hb ε hε
    exact ⟨K, h1, h2, fun p hp hn => (le_abs_self _).trans (h3 p hp hn)⟩) hp
  have h2 := max_principle hΩ (hw.sub hv) (fun ε hε => by
    obtain ⟨K, h1, h2, h3⟩ := hb ε hε
    exact ⟨K, h1, h2, fun p hp hn => (le_abs_self _).trans (by rw [abs_sub_comm]; exact h3 p hp hn)⟩) hp
  linarith

/-! ### the Poisson integral -/

variable {a : Axis} {t : ℝ}

theorem weight_kern (a : Axis) (t : ℝ) (p : Pt) (s : ℝ × ℝ) :
    upwardWeight a t p s = -(1 / (2 * π)) * kpp (kern1 a) p (Pt.onPlane a t s) := by
  rw [← acc_toK, kpp_acc_dist, show (Pt.onPlane a t s).coord a = t by cases a <;> rfl, upwardWeight, mul_comm (2 * π),
    ← div_div]
  ring

theorem plane_src {p : Pt} (h : t ≠ p.coord a) :
    Integrable (fun s => 1 / dist3 p (Pt.onPlane a t s) ^ 3) ∧
    ∫ s, 1 / dist3 p (Pt.onPlane a t s) ^ 3 = 2 * π / |t - p.coord a| := by
  simp only [dist3_comm p]
  exact plane_dist3 a h

theorem off_src {p : Pt} (h : t ≠ p.coord a) (s : ℝ × ℝ) : p ≠ Pt.onPlane a t s := (off_plane h s).symm

theorem height_le (p : Pt) (s : ℝ × ℝ) : p.coord a - t ≤ dist3 p (Pt.onPlane a t s) := by
  have := dist_ge p (Pt.onPlane a t s) a
  rw [show (Pt.onPlane a t s).coord a = t by cases a <;> rfl] at this
  exact (le_abs_self _).trans this

theorem weight_nonneg {p : Pt} (h : t < p.coord a) (s : ℝ × ℝ) : 0 ≤ upwardWeight a t p s := by
  have : 0 ≤ dist3 p (Pt.onPlane a t s) := Real.sqrt_nonneg _
  have := Real.pi_pos
  unfold upwardWeight
  exact div_nonneg (by linarith) (by positivity)

theorem weight_integral {p : Pt} (h : t < p.coord a) :
    Integrable (upwardWeight a t p) ∧ ∫ s, upwardWeight a t p s = 1 := by
  obtain ⟨h1, h2⟩ := plane_src (p := p) (a := a) (t := t) h.ne
  have e : ∀ s, upwardWeight a t p s = (p.coord a - t) / (2 * π) * (1 / dist3 p (Pt.onPlane a t s) ^ 3) := fun s => by
    unfold upwardWeight
    rw [div_mul_div_comm, mul_one]
  refine ⟨(h1.const_mul _).congr (Eventually.of_forall fun s => (e s).symm), ?_⟩
  simp only [e]
  rw [integral_const_mul, h2, abs_of_neg (by linarith)]
  have : p.coord a - t ≠ 0 := by linarith
  have := Real.pi_ne_zero
  rw [neg_sub]; field_simp

theorem measurable_kpp_src (c : KComp) (a : Axis) (t : ℝ) (p : Pt) :
    Measurable fun s : ℝ × ℝ => kpp c p (Pt.onPlane a t s) := by
  unfold kpp
  cases a <;> simp only [Pt.onPlane, Pt.e, Pt.n, Pt.u] <;>
    exact measurable_kp_comp c (by fun_prop) (by fun_prop) (by fun_prop)

theorem half_dist {p p' : Pt} (hp : dist3 p p' ≤ (p.coord a - t) / 2) (s : ℝ × ℝ) :
    dist3 p (Pt.onPlane a t s) / 2 ≤ dist3 p' (Pt.onPlane a t s) := by
  have h1 := dist3_triangle p p' (Pt.onPlane a t s)
  have h2 := height_le (a := a) (t := t) p s
  linarith

variable {f : ℝ × ℝ → ℝ} {M : ℝ}

theorem src_integrable (hm : Measurable f) (hM : ∀ s, |f s| ≤ M) {c : KComp} {p : Pt} (h : t < p.coord a) {K : ℝ}
    (hK : ∀ s, |kpp c p (Pt.onPlane a t s)| ≤ K / dist3 p (Pt.onPlane a t s) ^ 3) :
    Integrable fun s => f s * kpp c p (Pt.onPlane a t s) := by
  have M0 : 0 ≤ M := (abs_nonneg _).trans (hM 0)
  refine ((plane_src (p := p) h.ne).1.const_mul (M * K)).mono' (hm.mul (measurable_kpp_src c a t p)).aestronglyMeasurable
    (Eventually.of_forall fun s => ?_)
  rw [Real.norm_eq_abs, abs_mul]
  refine (mul_le_mul (hM s) (hK s) (abs_nonneg _) M0).trans (le_of_eq (by ring))

theorem dist3_set (p : Pt) (b : Axis) (x : ℝ) : dist3 p (p.set b x) = |x - p.coord b| := by
  unfold dist3
  cases b <;> simp only [Pt.set, Pt.e, Pt.n, Pt.u, Pt.coord, sub_self] <;>
    rw [← Real.sqrt_sq_eq_abs] <;> congr 1 <;> ring

theorem src_deriv (hm : Measurable f) (hM : ∀ s, |f s| ≤ M) {c c' : KComp} {b : Axis} (hc : c.Succ c' b) {p : Pt}
    (h : t < p.coord a) {K K' : ℝ} (hK : ∀ s, |kpp c p (Pt.onPlane a t s)| ≤ K / dist3 p (Pt.onPlane a t s) ^ 3)
    (hK' : ∀ p' : Pt, t + (p.coord a - t) / 2 ≤ p'.coord a → ∀ s,
      |kpp c' p' (Pt.onPlane a t s)| ≤ K' / dist3 p' (Pt.onPlane a t s) ^ 3) :
    HasDerivAt (fun x => ∫ s, f s * kpp c (p.set b x) (Pt.onPlane a t s))
      (∫ s, f s * kpp c' p (Pt.onPlane a t s)) (p.coord b) := by
  have M0 : 0 ≤ M := (abs_nonneg _).trans (hM 0)
  have h0 : 0 < (p.coord a - t) / 2 := by linarith
  have near : ∀ x ∈ Metric.ball (p.coord b) ((p.coord a - t) / 2), dist3 p (p.set b x) ≤ (p.coord a - t) / 2 := by
    intro x hx
    rw [dist3_set]
    rw [Metric.mem_ball, Real.dist_eq] at hx
    exact hx.le
  have high : ∀ x ∈ Metric.ball (p.coord b) ((p.coord a - t) / 2), t + (p.coord a - t) / 2 ≤ (p.set b x).coord a := by
    intro x hx
    have h1 := (dist_ge p (p.set b x) a).trans (near x hx)
    have := le_abs_self (p.coord a - (p.set b x).coord a)
    linarith
  have K0 : 0 ≤ K' := by
    have h1 := hK' p (by linarith) 0
    have d := dist3_pos (off_src (a := a) (t := t) (p := p) h.ne 0)
    by_contra hn
    push Not at hn
    have : K' / dist3 p (Pt.onPlane a t 0) ^ 3 < 0 := div_neg_of_neg_of_pos hn (by positivity)
    linarith [abs_nonneg (kpp c' p (Pt.onPlane a t 0))]
  have main := hasDerivAt_integral_of_dominated_loc_of_deriv_le (μ := (volume : Measure (ℝ × ℝ)))
    (F := fun x s => f s * kpp c (p.set b x) (Pt.onPlane a t s))
    (F' := fun x s => f s * kpp c' (p.set b x) (Pt.onPlane a t s)) (x₀ := p.coord b)
    (bound := fun s => M * (8 * K') * (1 / dist3 p (Pt.onPlane a t s) ^ 3))
    (Metric.ball_mem_nhds (p.coord b) h0)
    (Eventually.of_forall fun x => (hm.mul (measurable_kpp_src c a t _)).aestronglyMeasurable)
    (by simp only [set_coord]; exact src_integrable hm hM h hK)
    ((hm.mul (measurable_kpp_src c' a t _)).aestronglyMeasurable)
    (Eventually.of_forall fun s x hx => by
      have h1 := hK' _ (high x hx) s
      have h2 := half_dist (near x hx) s
      have d := dist3_pos (off_src (a := a) (t := t) (p := p) h.ne s)
      have h3 : K' / dist3 (p.set b x) (Pt.onPlane a t s) ^ 3 ≤ 8 * K' * (1 / dist3 p (Pt.onPlane a t s) ^ 3) := by
        calc K' / dist3 (p.set b x) (Pt.onPlane a t s) ^ 3 ≤ K' / (dist3 p (Pt.onPlane a t s) / 2) ^ 3 := by gcongr
          _ = 8 * K' * (1 / dist3 p (Pt.onPlane a t s) ^ 3) := by field_simp; ring
      rw [Real.norm_eq_abs, abs_mul, mul_assoc M]
      exact mul_le_mul (hM s) (h1.trans h3) (abs_nonneg _) M0)
    ((plane_src (p := p) h.ne).1.const_mul _)
    (Eventually.of_forall fun s x hx => by
      have h2 := half_dist (near x hx) s
      have d := dist3_pos (off_src (a := a) (t := t) (p := p) h.ne s)
      exact (kpp_deriv hc (ne_of_far (by linarith) h2)).const_mul (f s))
  have := main.2
  simp only [set_coord] at this
  exact this

/-- the Poisson integral of `f` -/
noncomputable def poisson (a : Axis) (t : ℝ) (f : ℝ × ℝ → ℝ) (p : Pt) : ℝ := ∫ s, f s * upwardWeight a t p s

theorem poisson_kern (a : Axis) (t : ℝ) (f : ℝ × ℝ → ℝ) (p : Pt) :
    poisson a t f p = -(1 / (2 * π)) * ∫ s, f s * kpp (kern1 a) p (Pt.onPlane a t s) := by
  unfold poisson
  rw [← integral_const_mul]
  congr 1; funext s
  rw [weight_kern]; ring

theorem kern1_normal (p : Pt) (s : ℝ × ℝ) : |kpp (kern1 a) p (Pt.onPlane a t s)| =
    |p.coord a - t| / dist3 p (Pt.onPlane a t s) ^ 3 := by
  rw [← acc_toK, kpp_acc_dist, show (Pt.onPlane a t s).coord a = t by cases a <;> rfl, abs_div, abs_sub_comm,
    abs_of_nonneg (pow_nonneg (show 0 ≤ dist3 p (Pt.onPlane a t s) from Real.sqrt_nonneg _) 3)]

theorem poisson_integrable (hm : Measurable f) (hM : ∀ s, |f s| ≤ M) {p : Pt} (h : t < p.coord a) :
    Integrable fun s => f s * upwardWeight a t p s := by
  have := (src_integrable hm hM h (c := kern1 a) (K := |p.coord a - t|) (fun s => (kern1_normal p s).le)).const_mul
    (-(1 / (2 * π)))
  refine this.congr (Eventually.of_forall fun s => ?_)
  simp only [weight_kern]; ring

theorem isOpen_above (a : Axis) (t : ℝ) : IsOpen {p : Pt | t < p.coord a} := by
  refine isOpen_lt continuous_const ?_
  cases a <;> unfold Pt.coord Pt.e Pt.n Pt.u <;> dsimp only <;> fun_prop

theorem continuous_dist3 (q : Pt) : Continuous fun p => dist3 q p := by
  unfold dist3 Pt.e Pt.n Pt.u; fun_prop

theorem continuousAt_poisson (hm : Measurable f) (hM : ∀ s, |f s| ≤ M) {p : Pt} (h : t < p.coord a) :
    ContinuousAt (poisson a t f) p := by
  have M0 : 0 ≤ M := (abs_nonneg _).trans (hM 0)
  have h0 : 0 < (p.coord a - t) / 2 := by linarith
  have e : poisson a t f = fun p => -(1 / (2 * π)) * ∫ s, f s * kpp (kern1 a) p (Pt.onPlane a t s) := by
    funext p; exact poisson_kern a t f p
  rw [e]
  refine ContinuousAt.const_mul ?_ _
  have near : ∀ᶠ p' in 𝓝 p, dist3 p p' < (p.coord a - t) / 2 :=
    (continuous_dist3 p).continuousAt.eventually (gt_mem_nhds (by simp only [dist3_eq_zero.2 (rfl : p = p)]; exact h0))
  refine continuousAt_of_dominated (bound := fun s => M * (8 * (2 * (p.coord a - t))) * (1 / dist3 p (Pt.onPlane a t s) ^ 3))
    (Eventually.of_forall fun p' => (hm.mul (measurable_kpp_src _ a t p')).aestronglyMeasurable) ?_
    ((plane_src (p := p) h.ne).1.const_mul _) (Eventually.of_forall fun s => ?_)
  · filter_upwards [near] with p' hp'
    refine Eventually.of_forall fun s => ?_
    have h2 := half_dist hp'.le s
    have d := dist3_pos (off_src (a := a) (t := t) (p := p) h.ne s)
    have h1 := (dist_ge p p' a).trans hp'.le
    have h3 : |p'.coord a - t| ≤ 2 * (p.coord a - t) := by
      rw [abs_le] at h1 ⊢
      constructor <;> linarith [h1.1, h1.2]
    rw [Real.norm_eq_abs, abs_mul, mul_assoc M]
    refine mul_le_mul (hM s) ?_ (abs_nonneg _) M0
    rw [kern1_normal]
    calc |p'.coord a - t| / dist3 p' (Pt.onPlane a t s) ^ 3
        ≤ 2 * (p.coord a - t) / (dist3 p (Pt.onPlane a t s) / 2) ^ 3 := by gcongr
      _ = _ := by field_simp; ring
  · have hne : p ≠ Pt.onPlane a t s := off_src h.ne s
    have hc := continuousOn_kpp (kern1 a) (p, Pt.onPlane a t s) hne
    have ho : IsOpen {w : Pt × Pt | w.1 ≠ w.2} := isOpen_ne_fun continuous_fst continuous_snd
    have hc' : ContinuousAt (fun w : Pt × Pt => kpp (kern1 a) w.1 w.2) (p, Pt.onPlane a t s) :=
      hc.continuousAt (ho.mem_nhds hne)
    exact (hc'.comp (f := fun p' => (p', Pt.onPlane a t s)) (by fun_prop)).const_mul (f s)

theorem kern3_trace (a : Axis) {p q : Pt} (h : p ≠ q) :
    kpp (kern3 .e .e a) p q + kpp (kern3 .n .n a) p q + kpp (kern3 .u .u a) p q = 0 := by
  cases a
  · exact kp_trace .eee .nne .uue _ _ _ (rad_ne h) (by simp)
  · exact kp_trace .een .nnn .uun _ _ _ (rad_ne h) (by simp)
  · exact kp_trace .eeu .nnu .uuu _ _ _ (rad_ne h) (by simp)

theorem harm_poisson (hm : Measurable f) (hM : ∀ s, |f s| ≤ M) : Harm (poisson a t f) {p | t < p.coord a} := by
  refine ⟨fun p hp => (continuousAt_poisson hm hM hp).continuousWithinAt,
    fun b p => -(1 / (2 * π)) * ∫ s, f s * kpp (kern2 b a) p (Pt.onPlane a t s),
    fun b p => -(1 / (2 * π)) * ∫ s, f s * kpp (kern3 b b a) p (Pt.onPlane a t s), fun p hp => ?_⟩
  have hp : t < p.coord a := hp
  have b2 : ∀ b (p : Pt), t < p.coord a → ∀ s, |kpp (kern2 b a) p (Pt.onPlane a t s)| ≤ 2 / dist3 p (Pt.onPlane a t s) ^ 3 :=
    fun b p hp s => abs_kern2_le b a (off_src hp.ne s)
  have b3 : ∀ b, ∀ p' : Pt, t + (p.coord a - t) / 2 ≤ p'.coord a → ∀ s,
      |kpp (kern3 b b a) p' (Pt.onPlane a t s)| ≤ 6 / ((p.coord a - t) / 2) / dist3 p' (Pt.onPlane a t s) ^ 3 := by
    intro b p' hp' s
    have h1 : 0 < (p.coord a - t) / 2 := by linarith
    have hne : t ≠ p'.coord a := by intro e; linarith
    have d := dist3_pos (off_src (a := a) hne s)
    refine (abs_kern3_le b b a (off_src hne s)).trans ?_
    have := height_le (a := a) (t := t) p' s
    rw [div_div, pow_succ' _ 3]
    gcongr
    linarith
  refine ⟨fun b => ⟨?_, ?_⟩, ?_⟩
  · have := (src_deriv hm hM (kern_succ a b) hp (fun s => (kern1_normal p s).le)
      (fun p' hp' s => b2 b p' (by linarith) s)).const_mul (-(1 / (2 * π)))
    refine this.congr_of_eventuallyEq (Eventually.of_forall fun x => ?_)
    exact poisson_kern a t f _
  · exact (src_deriv hm hM (kern2_succ b b a) hp (fun s => b2 b p hp s) (b3 b)).const_mul _
  · have i : ∀ b, Integrable fun s => f s * kpp (kern3 b b a) p (Pt.onPlane a t s) :=
      fun b => src_integrable hm hM hp (b3 b p (by linarith))
    rw [← mul_add, ← mul_add, ← integral_add (i .e) (i .n)]
    have e : ∫ s, f s * kpp (kern3 .e .e a) p (Pt.onPlane a t s) + f s * kpp (kern3 .n .n a) p (Pt.onPlane a t s) =
        -∫ s, f s * kpp (kern3 .u .u a) p (Pt.onPlane a t s) := by
      rw [← integral_neg]
      congr 1; funext s
      linear_combination f s * kern3_trace a (off_src hp.ne s)
    rw [e]; ring

/-! ### boundary values and decay of the Poisson integral -/

theorem poisson_near (hm : Measurable f) (hM : ∀ s, |f s| ≤ M) {p : Pt} (h : t < p.coord a) {y η δ : ℝ} (hδ : 0 < δ)
    (hη : 0 ≤ η) (hy : |y| ≤ M) (hn : ∀ s, dist3 p (Pt.onPlane a t s) < δ → |f s - y| ≤ η) :
    |poisson a t f p - y| ≤ η + 6 * M * (p.coord a - t) / δ := by
  have M0 : 0 ≤ M := (abs_nonneg _).trans hy
  have h0 : 0 < p.coord a - t := by linarith
  obtain ⟨w1, w2⟩ := weight_integral h
  have hp2 := Real.pi_pos
  have hq : t ≠ (p.set a (t + δ)).coord a := by
    rw [show (p.set a (t + δ)).coord a = t + δ by cases a <;> rfl]; linarith
  obtain ⟨d1, d2⟩ := plane_src hq
  rw [show (p.set a (t + δ)).coord a = t + δ by cases a <;> rfl, show |t - (t + δ)| = δ by
    rw [show t - (t + δ) = -δ by ring, abs_neg, abs_of_pos hδ]] at d2
  have e : poisson a t f p - y = ∫ s, (f s - y) * upwardWeight a t p s := by
    have : ∫ s, (f s - y) * upwardWeight a t p s = ∫ s, (f s * upwardWeight a t p s - y * upwardWeight a t p s) := by
      congr 1; funext s; ring
    rw [this, integral_sub (poisson_integrable hm hM h) (w1.const_mul y), integral_const_mul, w2, mul_one]
    rfl
  have bd : ∀ s, ‖(f s - y) * upwardWeight a t p s‖ ≤ η * upwardWeight a t p s +
      2 * M * ((p.coord a - t) / (2 * π) * 3) * (1 / dist3 (p.set a (t + δ)) (Pt.onPlane a t s) ^ 3) := by
    intro s
    have wn := weight_nonneg h s
    have dD := dist3_pos (off_src hq s)
    rw [norm_mul, Real.norm_eq_abs, Real.norm_of_nonneg wn]
    rcases lt_or_ge (dist3 p (Pt.onPlane a t s)) δ with hl | hl
    · have := mul_le_mul_of_nonneg_right (hn s hl) wn
      have h3 : 0 ≤ 2 * M * ((p.coord a - t) / (2 * π) * 3) * (1 / dist3 (p.set a (t + δ)) (Pt.onPlane a t s) ^ 3) := by
        positivity
      linarith
    · have h1 : |f s - y| ≤ 2 * M := (abs_sub _ _).trans (by linarith [hM s])
      have d : 0 < dist3 p (Pt.onPlane a t s) := by linarith
      have h2 : upwardWeight a t p s ≤ (p.coord a - t) / (2 * π) * 3 * (1 / dist3 (p.set a (t + δ)) (Pt.onPlane a t s) ^ 3) := by
        have sq : dist3 (p.set a (t + δ)) (Pt.onPlane a t s) ^ 2 ≤ 2 * dist3 p (Pt.onPlane a t s) ^ 2 := by
          have h4 : δ ^ 2 ≤ dist3 p (Pt.onPlane a t s) ^ 2 := by gcongr
          have h5 : dist3 (p.set a (t + δ)) (Pt.onPlane a t s) ^ 2 ≤ δ ^ 2 + dist3 p (Pt.onPlane a t s) ^ 2 := by
            unfold dist3
            rw [Real.sq_sqrt (by positivity), Real.sq_sqrt (by positivity)]
            cases a <;> simp only [Pt.set, Pt.onPlane, Pt.e, Pt.n, Pt.u]
            · nlinarith [sq_nonneg (p.1 - t)]
            · nlinarith [sq_nonneg (p.2.1 - t)]
            · nlinarith [sq_nonneg (p.2.2 - t)]
          linarith
        have cube : dist3 (p.set a (t + δ)) (Pt.onPlane a t s) ^ 3 ≤ 3 * dist3 p (Pt.onPlane a t s) ^ 3 := by
          refine le_of_sq_le_sq ?_ (by positivity)
          generalize dist3 (p.set a (t + δ)) (Pt.onPlane a t s) = X at *
          generalize dist3 p (Pt.onPlane a t s) = Y at *
          calc (X ^ 3) ^ 2 = (X ^ 2) ^ 3 := by ring
            _ ≤ (2 * Y ^ 2) ^ 3 := by gcongr
            _ = 8 * Y ^ 6 := by ring
            _ ≤ 9 * Y ^ 6 := by have := pow_pos d 6; linarith
            _ = (3 * Y ^ 3) ^ 2 := by ring
        unfold upwardWeight
        rw [show (p.coord a - t) / (2 * π) * 3 * (1 / dist3 (p.set a (t + δ)) (Pt.onPlane a t s) ^ 3) =
          (p.coord a - t) * 3 / (2 * π * dist3 (p.set a (t + δ)) (Pt.onPlane a t s) ^ 3) by field_simp]
        rw [div_le_div_iff₀ (by positivity) (by positivity)]
        nlinarith [mul_le_mul_of_nonneg_left cube (show 0 ≤ (p.coord a - t) * (2 * π) by positivity)]
      have h3 := mul_le_mul h1 h2 wn (by linarith)
      have h4 := mul_nonneg hη wn
      linarith
  have ib : Integrable fun s => η * upwardWeight a t p s +
      2 * M * ((p.coord a - t) / (2 * π) * 3) * (1 / dist3 (p.set a (t + δ)) (Pt.onPlane a t s) ^ 3) :=
    (w1.const_mul η).add (d1.const_mul _)
  rw [e, ← Real.norm_eq_abs]
  refine (norm_integral_le_of_norm_le ib (Eventually.of_forall bd)).trans (le_of_eq ?_)
  rw [integral_add (w1.const_mul η) (d1.const_mul _), integral_const_mul, integral_const_mul, w2, d2]
  field_simp
  ring

theorem norm_le_dist3 (p q : Pt) : ‖p - q‖ ≤ dist3 p q := by
  have h := dist_ge p q
  have h1 := h .e
  have h2 := h .n
  have h3 := h .u
  rw [Prod.norm_def, Prod.norm_def, Real.norm_eq_abs, Real.norm_eq_abs, Real.norm_eq_abs]
  exact max_le h1 (max_le h2 h3)

theorem norm_onPlane (a : Axis) (t : ℝ) (s : ℝ × ℝ) : ‖s‖ ≤ ‖Pt.onPlane a t s‖ ∧ ‖Pt.onPlane a t s‖ ≤ max |t| ‖s‖ := by
  cases a <;> simp only [Pt.onPlane, Prod.norm_def, Real.norm_eq_abs] <;> constructor <;>
    grind

theorem poisson_far (hM : ∀ s, |f s| ≤ M) {ε R : ℝ} (hε : 0 ≤ ε) (hR : ∀ s, R < ‖s‖ → |f s| ≤ ε)
    {p : Pt} (h : t < p.coord a) (hp : max |t| R < ‖p‖) :
    |poisson a t f p| ≤ ε + M / (2 * π) / (‖p‖ - max |t| R) ^ 2 * (volume : Measure (ℝ × ℝ)).real (Metric.closedBall 0 R) := by
  have M0 : 0 ≤ M := (abs_nonneg _).trans (hM 0)
  obtain ⟨w1, w2⟩ := weight_integral h
  have hp2 := Real.pi_pos
  have g0 : 0 < ‖p‖ - max |t| R := by linarith
  have bd : ∀ s, ‖f s * upwardWeight a t p s‖ ≤ ε * upwardWeight a t p s +
      (Metric.closedBall (0 : ℝ × ℝ) R).indicator (fun _ => M / (2 * π) / (‖p‖ - max |t| R) ^ 2) s := by
    intro s
    have wn := weight_nonneg h s
    rw [norm_mul, Real.norm_eq_abs, Real.norm_of_nonneg wn]
    rcases lt_or_ge R ‖s‖ with hl | hl
    · have h1 := mul_le_mul_of_nonneg_right (hR s hl) wn
      have h2 : 0 ≤ (Metric.closedBall (0 : ℝ × ℝ) R).indicator (fun _ => M / (2 * π) / (‖p‖ - max |t| R) ^ 2) s :=
        indicator_nonneg (fun _ _ => by positivity) s
      linarith
    · rw [indicator_of_mem (by simpa [Metric.mem_closedBall, dist_zero_right] using hl)]
      have d1 : ‖p‖ - max |t| R ≤ dist3 p (Pt.onPlane a t s) := by
        have := norm_sub_norm_le p (Pt.onPlane a t s)
        have h3 := (norm_onPlane a t s).2
        have h4 : max |t| ‖s‖ ≤ max |t| R := max_le_max le_rfl hl
        linarith [norm_le_dist3 p (Pt.onPlane a t s)]
      have d0 : 0 < dist3 p (Pt.onPlane a t s) := by linarith
      have h2 : upwardWeight a t p s ≤ 1 / (2 * π) / (‖p‖ - max |t| R) ^ 2 := by
        calc upwardWeight a t p s ≤ dist3 p (Pt.onPlane a t s) / (2 * π * dist3 p (Pt.onPlane a t s) ^ 3) := by
              unfold upwardWeight
              have := height_le (a := a) (t := t) p s
              gcongr
          _ = 1 / (2 * π) / dist3 p (Pt.onPlane a t s) ^ 2 := by field_simp
          _ ≤ _ := by gcongr
      have h3 := mul_le_mul (hM s) h2 wn M0
      have h4 := mul_nonneg hε wn
      calc |f s| * upwardWeight a t p s ≤ M * (1 / (2 * π) / (‖p‖ - max |t| R) ^ 2) := h3
        _ = M / (2 * π) / (‖p‖ - max |t| R) ^ 2 := by ring
        _ ≤ _ := by linarith
  have i2 : Integrable ((Metric.closedBall (0 : ℝ × ℝ) R).indicator
      (fun _ => M / (2 * π) / (‖p‖ - max |t| R) ^ 2)) :=
    (integrable_indicator_iff measurableSet_closedBall).2
      (integrableOn_const measure_closedBall_lt_top.ne)
  unfold poisson
  rw [← Real.norm_eq_abs]
  refine (norm_integral_le_of_norm_le ((w1.const_mul ε).add i2) (Eventually.of_forall bd)).trans (le_of_eq ?_)
  rw [integral_add' (w1.const_mul ε) i2, integral_const_mul, w2, integral_indicator measurableSet_closedBall,
    setIntegral_const, smul_eq_mul]
  ring

/-! ### harmonic functions of a half-space are Poisson integrals of their boundary values -/

variable {w : Pt → ℝ}

/-- reflection into the half-space -/
noncomputable def fold (a : Axis) (t : ℝ) (p : Pt) : Pt := p.set a (t + |p.coord a - t|)

theorem continuous_fold (a : Axis) (t : ℝ) : Continuous (fold a t) := by
  cases a <;> unfold fold Pt.set Pt.coord Pt.e Pt.n Pt.u <;> dsimp only <;> fun_prop

theorem fold_above (a : Axis) (t : ℝ) (p : Pt) : t ≤ (fold a t p).coord a := by
  rw [fold, show ∀ x, (p.set a x).coord a = x from fun x => by cases a <;> rfl]
  linarith [abs_nonneg (p.coord a - t)]

theorem fold_of_above {p : Pt} (h : t ≤ p.coord a) : fold a t p = p := by
  rw [fold, abs_of_nonneg (by linarith), add_sub_cancel, set_coord]

theorem norm_le_fold (a : Axis) (t : ℝ) (p : Pt) : ‖p‖ ≤ ‖fold a t p‖ + 2 * |t| := by
  have k : ∀ x : ℝ, |x| ≤ |t + (|x - t|)| + 2 * |t| := fun x => by
    have h1 := abs_sub_abs_le_abs_sub x t
    have h2 := le_abs_self (t + |x - t|)
    have h3 := neg_abs_le t
    linarith
  have n := abs_nonneg t
  cases a <;> simp only [fold, Pt.set, Pt.coord, Pt.e, Pt.n, Pt.u, Prod.norm_def, Real.norm_eq_abs] <;>
    refine max_le ?_ (max_le ?_ ?_)
  · have := k p.1; have := le_max_left |t + (|p.1 - t|)| (max |p.2.1| |p.2.2|); linarith
  · have := (le_max_left |p.2.1| |p.2.2|).trans (le_max_right |t + (|p.1 - t|)| (max |p.2.1| |p.2.2|)); linarith
  · have := (le_max_right |p.2.1| |p.2.2|).trans (le_max_right |t + (|p.1 - t|)| (max |p.2.1| |p.2.2|)); linarith
  · have := le_max_left |p.1| (max |t + (|p.2.1 - t|)| |p.2.2|); linarith
  · have := k p.2.1
    have := (le_max_left |t + (|p.2.1 - t|)| |p.2.2|).trans (le_max_right |p.1| (max |t + (|p.2.1 - t|)| |p.2.2|)); linarith
  · have := (le_max_right |t + (|p.2.1 - t|)| |p.2.2|).trans (le_max_right |p.1| (max |t + (|p.2.1 - t|)| |p.2.2|)); linarith
  · have := le_max_left |p.1| (max |p.2.1| |t + (|p.2.2 - t|)|); linarith
  · have := (le_max_left |p.2.1| |t + (|p.2.2 - t|)|).trans (le_max_right |p.1| (max |p.2.1| |t + (|p.2.2 - t|)|)); linarith
  · have := k p.2.2
    have := (le_max_right |p.2.1| |t + (|p.2.2 - t|)|).trans (le_max_right |p.1| (max |p.2.1| |t + (|p.2.2 - t|)|)); linarith

/-- vanishing at infinity in the closed half-space -/
def VanishAt (w : Pt → ℝ) (a : Axis) (t : ℝ) : Prop := ∀ ε > 0, ∃ R, ∀ p : Pt, t ≤ p.coord a → R ≤ ‖p‖ → |w p| ≤ ε

theorem fold_uniform (hc : ContinuousOn w {p | t ≤ p.coord a}) (hz : VanishAt w a t) :
    UniformContinuous fun p => w (fold a t p) := by
  have c : Continuous fun p => w (fold a t p) :=
    hc.comp_continuous (continuous_fold a t) (fold_above a t)
  refine c.uniformContinuous_of_tendsto_cocompact (x := 0) ?_
  rw [← Metric.cobounded_eq_cocompact, Metric.tendsto_nhds]
  intro ε hε
  obtain ⟨R, hR⟩ := hz (ε / 2) (by linarith)
  filter_upwards [tendsto_norm_cobounded_atTop.eventually (eventually_ge_atTop (R + 2 * |t|))] with p hp
  rw [dist_zero_right, Real.norm_eq_abs]
  have := hR _ (fold_above a t p) (by linarith [norm_le_fold a t p])
  linarith

theorem bounded_above (hc : ContinuousOn w {p | t ≤ p.coord a}) (hz : VanishAt w a t) :
    ∃ M, ∀ p : Pt, t ≤ p.coord a → |w p| ≤ M := by
  obtain ⟨R, hR⟩ := hz 1 one_pos
  have hK : IsCompact (Metric.closedBall (0 : Pt) R ∩ {p | t ≤ p.coord a}) :=
    (isCompact_closedBall 0 R).inter_right (isClosed_le continuous_const (continuous_coord a))
  obtain ⟨C, hC⟩ := hK.exists_bound_of_continuousOn (hc.mono inter_subset_right)
  refine ⟨max C 1, fun p hp => ?_⟩
  rcases le_total ‖p‖ R with h | h
  · exact (hC p ⟨by simpa using h, hp⟩).trans (le_max_left _ _)
  · exact (hR p hp h).trans (le_max_right _ _)

theorem onPlane_coord (a : Axis) (t : ℝ) (s : ℝ × ℝ) : (Pt.onPlane a t s).coord a = t := by cases a <;> rfl

theorem continuous_onPlane (a : Axis) (t : ℝ) : Continuous (Pt.onPlane a t) := by
  cases a <;> unfold Pt.onPlane <;> dsimp only <;> fun_prop

theorem poisson_rep (hc : ContinuousOn w {p | t ≤ p.coord a}) (hh : Harm w {p | t < p.coord a}) (hz : VanishAt w a t) :
    (Measurable fun s => w (Pt.onPlane a t s)) ∧ (∃ M, ∀ p : Pt, t ≤ p.coord a → |w p| ≤ M) ∧
    ∀ p : Pt, t < p.coord a → poisson a t (fun s => w (Pt.onPlane a t s)) p = w p := by
  obtain ⟨M, hM⟩ := bounded_above hc hz
  have cf : Continuous fun s => w (Pt.onPlane a t s) :=
    hc.comp_continuous (continuous_onPlane a t) (fun s => (onPlane_coord a t s).ge)
  have hm := cf.measurable
  have hMf : ∀ s, |w (Pt.onPlane a t s)| ≤ M := fun s => hM _ (onPlane_coord a t s).ge
  have M0 : 0 ≤ M := (abs_nonneg _).trans (hMf 0)
  refine ⟨hm, ⟨M, hM⟩, fun p hp => ?_⟩
  refine harm_eq (isOpen_above a t) (harm_poisson hm hMf) hh (fun ε hε => ?_) hp
  -- close to the plane
  obtain ⟨δ, hδ, hu⟩ := Metric.uniformContinuous_iff.1 (fold_uniform hc hz) (ε / 2) (by linarith)
  have nearB : ∀ p : Pt, t < p.coord a → p.coord a - t ≤ ε * δ / (12 * (M + 1)) →
      |poisson a t (fun s => w (Pt.onPlane a t s)) p - w p| ≤ ε := by
    intro p hp hl
    have hp : t < p.coord a := hp
    have := poisson_near hm hMf hp hδ (show 0 ≤ ε / 2 by linarith) (hM p hp.le) (fun s hs => by
      have h1 : dist (Pt.onPlane a t s) p < δ := by
        rw [dist_comm, dist_eq_norm]
        exact (norm_le_dist3 _ _).trans_lt hs
      have h2 := hu h1
      simp only [fold_of_above (onPlane_coord a t s).ge, fold_of_above hp.le] at h2
      rw [Real.dist_eq] at h2
      exact h2.le)
    refine this.trans ?_
    have h3 : 6 * M * (p.coord a - t) / δ ≤ ε / 2 := by
      rw [div_le_iff₀ hδ]
      have h4 : 6 * M * (p.coord a - t) ≤ 6 * (M + 1) * (ε * δ / (12 * (M + 1))) :=
        mul_le_mul (by linarith) hl (by linarith) (by positivity)
      have h5 : 6 * (M + 1) * (ε * δ / (12 * (M + 1))) = ε / 2 * δ := by field_simp; norm_num
      linarith
    linarith
  -- far away
  obtain ⟨R, hR⟩ := hz (ε / 4) (by linarith)
  have farB : ∃ S, ∀ p : Pt, t < p.coord a → S ≤ ‖p‖ →
      |poisson a t (fun s => w (Pt.onPlane a t s)) p - w p| ≤ ε := by
    have lim : Tendsto (fun x : ℝ => M / (2 * π) / (x - max |t| R) ^ 2 *
        (volume : Measure (ℝ × ℝ)).real (Metric.closedBall 0 R)) atTop (𝓝 (0 * (volume : Measure (ℝ × ℝ)).real (Metric.closedBall 0 R))) := by
      refine Tendsto.mul_const _ (Tendsto.const_div_atTop ?_ _)
      exact (tendsto_pow_atTop two_ne_zero).comp (tendsto_atTop_add_const_right _ (-(max |t| R)) tendsto_id)
    rw [zero_mul] at lim
    obtain ⟨S, hS⟩ := eventually_atTop.1 (lim.eventually (gt_mem_nhds (show 0 < ε / 4 by linarith)))
    refine ⟨max S (max R (max |t| R + 1)), fun p hp hl => ?_⟩
    have l1 := (le_max_left _ _).trans hl
    have l2 := ((le_max_left _ _).trans (le_max_right _ _)).trans hl
    have l3 := ((le_max_right _ _).trans (le_max_right _ _)).trans hl
    have h1 := poisson_far (a := a) (t := t) (f := fun s => w (Pt.onPlane a t s)) hMf (show 0 ≤ ε / 4 by linarith)
      (fun s hs => hR _ (onPlane_coord a t s).ge (hs.le.trans (norm_onPlane a t s).1)) hp (by linarith)
    have h2 := hS _ l1
    have h3 := hR p hp.le l2
    refine (abs_sub _ _).trans ?_
    linarith
  obtain ⟨S, hS⟩ := farB
  refine ⟨Metric.closedBall 0 S ∩ {p : Pt | t + ε * δ / (12 * (M + 1)) ≤ p.coord a},
    (isCompact_closedBall 0 S).inter_right (isClosed_le continuous_const (continuous_coord a)), ?_, ?_⟩
  · rintro q ⟨-, hq⟩
    have : 0 < ε * δ / (12 * (M + 1)) := by positivity
    have hq : t + ε * δ / (12 * (M + 1)) ≤ q.coord a := hq
    show t < q.coord a
    linarith
  · intro q hq hn
    by_cases h1 : q.coord a - t ≤ ε * δ / (12 * (M + 1))
    · exact nearB q hq h1
    · refine hS q hq ?_
      by_contra h2
      refine hn ⟨by simpa using (not_le.1 h2).le, ?_⟩
      show t + ε * δ / (12 * (M + 1)) ≤ q.coord a
      push Not at h1
      linarith

end Choclo
