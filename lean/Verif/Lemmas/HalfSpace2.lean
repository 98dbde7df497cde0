import Verif.Lemmas.HalfSpace
import Verif.Props.Uniqueness2

/-! # Upward continuation of sources below a plane -/

namespace Choclo

open Real Set MeasureTheory Filter Topology

variable {a : Axis} {t : ℝ} {w w' : Pt → ℝ}

/-- bounded, measurable, and given by the Poisson integral -/
def UpRep (w : Pt → ℝ) (a : Axis) (t : ℝ) : Prop :=
  (Measurable fun s => w (Pt.onPlane a t s)) ∧ (∃ M, ∀ s, |w (Pt.onPlane a t s)| ≤ M) ∧
    ∀ p : Pt, t < p.coord a → poisson a t (fun s => w (Pt.onPlane a t s)) p = w p

theorem UpRep.continues (h : UpRep w a t) : UpwardContinues w a t := fun p hp => by
  obtain ⟨h1, ⟨M, h2⟩, h3⟩ := h
  exact ⟨poisson_integrable h1 h2 hp, h3 p hp⟩

theorem UpRep.congr (h : UpRep w a t) (e : ∀ p : Pt, t ≤ p.coord a → w p = w' p) : UpRep w' a t := by
  obtain ⟨h1, ⟨M, h2⟩, h3⟩ := h
  have e1 : ∀ s, w (Pt.onPlane a t s) = w' (Pt.onPlane a t s) := fun s => e _ (onPlane_coord a t s).ge
  simp only [e1] at h1 h2 h3
  exact ⟨h1, ⟨M, h2⟩, fun p hp => by rw [h3 p hp, e p hp.le]⟩

theorem UpRep.const_mul (h : UpRep w a t) (k : ℝ) : UpRep (fun p => k * w p) a t := by
  obtain ⟨h1, ⟨M, h2⟩, h3⟩ := h
  refine ⟨h1.const_mul k, ⟨|k| * M, fun s => ?_⟩, fun p hp => ?_⟩
  · rw [abs_mul]; exact mul_le_mul_of_nonneg_left (h2 s) (abs_nonneg k)
  · beta_reduce
    rw [← h3 p hp]
    unfold poisson
    rw [← integral_const_mul]
    congr 1; funext s; ring

theorem UpRep.add (h : UpRep w a t) (h' : UpRep w' a t) : UpRep (fun p => w p + w' p) a t := by
  obtain ⟨h1, ⟨M, h2⟩, h3⟩ := h
  obtain ⟨k1, ⟨N, k2⟩, k3⟩ := h'
  refine ⟨h1.add k1, ⟨M + N, fun s => ?_⟩, fun p hp => ?_⟩
  · exact (abs_add_le _ _).trans (add_le_add (h2 s) (k2 s))
  · beta_reduce
    rw [← h3 p hp, ← k3 p hp]
    unfold poisson
    rw [← integral_add (poisson_integrable h1 h2 hp) (poisson_integrable k1 k2 hp)]
    congr 1; funext s; ring

/-- the shift of the plane that moves the coordinate `b` -/
def planeShift (a b : Axis) (x : ℝ) : ℝ × ℝ :=
  match a, b with
  | .e, .n => (x, 0) | .e, .u => (0, x)
  | .n, .e => (x, 0) | .n, .u => (0, x)
  | .u, .e => (x, 0) | .u, .n => (0, x)
  | .e, .e => 0 | .n, .n => 0 | .u, .u => 0

theorem onPlane_shift {b : Axis} (hab : b ≠ a) (x : ℝ) (s : ℝ × ℝ) :
    Pt.onPlane a t (s + planeShift a b x) =
      (Pt.onPlane a t s).set b ((Pt.onPlane a t s).coord b + x) := by
  cases a <;> cases b <;> simp_all [planeShift, Pt.onPlane, Pt.set, Pt.coord, Pt.e, Pt.n, Pt.u]

theorem dist3_move (p q : Pt) (b : Axis) (x : ℝ) :
    dist3 (p.set b (p.coord b + x)) (q.set b (q.coord b + x)) = dist3 p q := by
  cases b <;> simp only [dist3, Pt.set, Pt.coord, Pt.e, Pt.n, Pt.u, add_sub_add_right_eq_sub]

theorem UpRep.deriv {b : Axis} (hab : b ≠ a) (h : UpRep w a t)
    (hd : ∀ p : Pt, t ≤ p.coord a → HasDerivAt (fun x => w (p.set b x)) (w' p) (p.coord b))
    (hm : Measurable fun s => w' (Pt.onPlane a t s)) {M' : ℝ} (hb : ∀ p : Pt, t ≤ p.coord a → |w' p| ≤ M') :
    UpRep w' a t := by
  obtain ⟨h1, ⟨M, h2⟩, h3⟩ := h
  refine ⟨hm, ⟨M', fun s => hb _ (onPlane_coord a t s).ge⟩, fun p hp => ?_⟩
  obtain ⟨w1, w2⟩ := weight_integral hp
  have ca : ∀ (q : Pt) (x : ℝ), (q.set b x).coord a = q.coord a := fun q x => by
    cases a <;> cases b <;> first | exact absurd rfl hab | rfl
  have shift : ∀ x : ℝ, w (p.set b (p.coord b + x)) =
      ∫ s, w (Pt.onPlane a t (s + planeShift a b x)) * upwardWeight a t p s := by
    intro x
    have hp' : t < (p.set b (p.coord b + x)).coord a := by rw [ca]; exact hp
    rw [← h3 _ hp']
    unfold poisson
    rw [← integral_add_right_eq_self (μ := (volume : Measure (ℝ × ℝ))) _ (planeShift a b x)]
    congr 1; funext s
    congr 1
    unfold upwardWeight
    rw [onPlane_shift hab, dist3_move, ca]
  have key := hasDerivAt_integral_of_dominated_loc_of_deriv_le (μ := (volume : Measure (ℝ × ℝ)))
    (F := fun x s => w (Pt.onPlane a t (s + planeShift a b x)) * upwardWeight a t p s)
    (F' := fun x s => w' (Pt.onPlane a t (s + planeShift a b x)) * upwardWeight a t p s) (x₀ := (0 : ℝ))
    (bound := fun s => M' * upwardWeight a t p s) (s := univ) univ_mem
    (Eventually.of_forall fun x => ((h1.comp (measurable_add_const _)).aestronglyMeasurable).mul w1.aestronglyMeasurable)
    (by
      have := poisson_integrable h1 h2 hp
      have e : planeShift a b 0 = 0 := by cases a <;> cases b <;> rfl
      simp only [e, add_zero]; exact this)
    ((hm.comp (measurable_add_const _)).aestronglyMeasurable.mul w1.aestronglyMeasurable)
    (Eventually.of_forall fun s x _ => by
      have wn := weight_nonneg hp s
      rw [norm_mul, Real.norm_eq_abs, Real.norm_of_nonneg wn]
      exact mul_le_mul_of_nonneg_right (hb _ (onPlane_coord a t _).ge) wn)
    (w1.const_mul M')
    (Eventually.of_forall fun s x _ => by
      refine HasDerivAt.mul_const ?_ _
      have h4 := hd (Pt.onPlane a t (s + planeShift a b x)) (onPlane_coord a t _).ge
      have h5 : HasDerivAt (fun y : ℝ => (Pt.onPlane a t s).coord b + y) 1 x := by
        simpa using (hasDerivAt_id x).const_add ((Pt.onPlane a t s).coord b)
      have e1 : (Pt.onPlane a t (s + planeShift a b x)).coord b = (Pt.onPlane a t s).coord b + x := by
        rw [onPlane_shift hab]; cases b <;> rfl
      have e2 : ∀ y, (Pt.onPlane a t (s + planeShift a b x)).set b y = (Pt.onPlane a t s).set b y := fun y => by
        rw [onPlane_shift hab]; cases b <;> rfl
      rw [e1] at h4
      simp only [e2] at h4
      have h6 := h4.comp x h5
      rw [mul_one] at h6
      refine h6.congr_of_eventuallyEq (Eventually.of_forall fun y => ?_)
      simp only [Function.comp, onPlane_shift hab])
  have d1 := key.2
  have d2 : HasDerivAt (fun x => w (p.set b (p.coord b + x))) (w' p) 0 := by
    have h4 := hd p hp.le
    have h5 : HasDerivAt (fun y : ℝ => p.coord b + y) 1 0 := by
      simpa using (hasDerivAt_id (0 : ℝ)).const_add (p.coord b)
    have := HasDerivAt.comp_of_eq (0 : ℝ) h4 h5 (by ring)
    rwa [mul_one] at this
  have d3 := d2.congr_of_eventuallyEq (Eventually.of_forall fun x => (shift x).symm)
  have := d1.unique d3
  have e : planeShift a b 0 = 0 := by cases a <;> cases b <;> rfl
  simp only [e, add_zero] at this
  exact this

/-! ### families of fields of sources strictly below the plane -/

theorem kern_cases (c : KComp) : c = .pot ∨ (∃ i, c = kern1 i) ∨ (∃ i j, c = kern2 i j) ∨ ∃ i j k, c = kern3 i j k := by
  cases c
  case pot => exact .inl rfl
  case e => exact .inr (.inl ⟨.e, rfl⟩)
  case n => exact .inr (.inl ⟨.n, rfl⟩)
  case u => exact .inr (.inl ⟨.u, rfl⟩)
  case ee => exact .inr (.inr (.inl ⟨.e, .e, rfl⟩))
  case nn => exact .inr (.inr (.inl ⟨.n, .n, rfl⟩))
  case uu => exact .inr (.inr (.inl ⟨.u, .u, rfl⟩))
  case en => exact .inr (.inr (.inl ⟨.e, .n, rfl⟩))
  case eu => exact .inr (.inr (.inl ⟨.e, .u, rfl⟩))
  case nu => exact .inr (.inr (.inl ⟨.n, .u, rfl⟩))
  case eee => exact .inr (.inr (.inr ⟨.e, .e, .e, rfl⟩))
  case nnn => exact .inr (.inr (.inr ⟨.n, .n, .n, rfl⟩))
  case uuu => exact .inr (.inr (.inr ⟨.u, .u, .u, rfl⟩))
  case een => exact .inr (.inr (.inr ⟨.e, .e, .n, rfl⟩))
  case eeu => exact .inr (.inr (.inr ⟨.e, .e, .u, rfl⟩))
  case nne => exact .inr (.inr (.inr ⟨.n, .n, .e, rfl⟩))
  case nnu => exact .inr (.inr (.inr ⟨.n, .n, .u, rfl⟩))
  case uue => exact .inr (.inr (.inr ⟨.u, .u, .e, rfl⟩))
  case uun => exact .inr (.inr (.inr ⟨.u, .u, .n, rfl⟩))
  case enu => exact .inr (.inr (.inr ⟨.e, .n, .u, rfl⟩))

def TraceTriple (c1 c2 c3 : KComp) : Prop :=
  (c1, c2, c3) ∈ [(KComp.ee, KComp.nn, KComp.uu), (.eee, .nne, .uue), (.een, .nnn, .uun), (.eeu, .nnu, .uuu)]

/-- the potential of sources below the plane, and its derivatives -/
structure Sources (G : KComp → Pt → ℝ) (a : Axis) (t : ℝ) : Prop where
  deriv : ∀ {c c' b}, KComp.Succ c c' b → ∀ p : Pt, t ≤ p.coord a →
    HasDerivAt (fun x => G c (p.set b x)) (G c' p) (p.coord b)
  cont : ∀ c (p : Pt), t ≤ p.coord a → ContinuousAt (G c) p
  trace : ∀ {c1 c2 c3}, TraceTriple c1 c2 c3 → ∀ p : Pt, t ≤ p.coord a → G c1 p + G c2 p + G c3 p = 0
  vanish : ∀ c, VanishAt (G c) a t

theorem Sources.upRep {G : KComp → Pt → ℝ} (h : Sources G a t) (c : KComp) : UpRep (G c) a t := by
  have cw : ∀ c, ContinuousOn (G c) {p | t ≤ p.coord a} := fun c p hp => (h.cont c p hp).continuousWithinAt
  have ms : ∀ c, Measurable fun s => G c (Pt.onPlane a t s) := fun c =>
    ((cw c).comp_continuous (continuous_onPlane a t) (fun s => (onPlane_coord a t s).ge)).measurable
  have sub : ∀ {p : Pt}, p ∈ {p : Pt | t < p.coord a} → t ≤ p.coord a := fun hp => le_of_lt hp
  have rep : ∀ c, Harm (G c) {p | t < p.coord a} → UpRep (G c) a t := fun c hh => by
    obtain ⟨h1, ⟨M, h2⟩, h3⟩ := poisson_rep (cw c) hh (h.vanish c)
    exact ⟨h1, ⟨M, fun s => h2 _ (onPlane_coord a t s).ge⟩, h3⟩
  have der : ∀ {c c' b}, b ≠ a → KComp.Succ c c' b → UpRep (G c) a t → UpRep (G c') a t := fun {c c' b} hb hs hu => by
    obtain ⟨M, hM⟩ := bounded_above (cw c') (h.vanish c')
    exact hu.deriv hb (h.deriv hs) (ms c') hM
  have tr : ∀ {c1 c2 c3}, TraceTriple c1 c2 c3 → UpRep (G c1) a t → UpRep (G c2) a t → UpRep (G c3) a t :=
    fun {c1 c2 c3} ht u1 u2 => ((u1.add u2).const_mul (-1)).congr fun p hp => by linarith [h.trace ht p hp]
  have tr' : ∀ {c1 c2 c3}, TraceTriple c1 c2 c3 → UpRep (G c2) a t → UpRep (G c3) a t → UpRep (G c1) a t :=
    fun {c1 c2 c3} ht u1 u2 => ((u1.add u2).const_mul (-1)).congr fun p hp => by linarith [h.trace ht p hp]
  have tr'' : ∀ {c1 c2 c3}, TraceTriple c1 c2 c3 → UpRep (G c1) a t → UpRep (G c3) a t → UpRep (G c2) a t :=
    fun {c1 c2 c3} ht u1 u2 => ((u1.add u2).const_mul (-1)).congr fun p hp => by linarith [h.trace ht p hp]
  have pot : UpRep (G .pot) a t := by
    refine rep _ ⟨(cw _).mono fun p hp => sub hp, fun b => G (kern1 b), fun b => G (kern2 b b), fun p hp => ⟨fun b => ⟨?_, ?_⟩, ?_⟩⟩
    · exact h.deriv (by cases b <;> rfl) p (sub hp)
    · exact h.deriv (kern_succ b b) p (sub hp)
    · exact h.trace (by simp [TraceTriple, kern2]) p (sub hp)
  have acc : ∀ i, UpRep (G (kern1 i)) a t := fun i => by
    refine rep _ ⟨(cw _).mono fun p hp => sub hp, fun b => G (kern2 b i), fun b => G (kern3 b b i), fun p hp => ⟨fun b => ⟨?_, ?_⟩, ?_⟩⟩
    · exact h.deriv (kern_succ i b) p (sub hp)
    · exact h.deriv (kern2_succ b b i) p (sub hp)
    · exact h.trace (by cases i <;> simp [TraceTriple, kern3]) p (sub hp)
  have ten0 : ∀ i j, i ≠ a → UpRep (G (kern2 i j)) a t := fun i j hi => der hi (kern_succ j i) (acc j)
  have ten : ∀ i j, UpRep (G (kern2 i j)) a t := fun i j => by
    by_cases hi : i = a
    · by_cases hj : j = a
      · subst hi hj
        cases j
        · exact tr' (c1 := .ee) (c2 := .nn) (c3 := .uu) (by simp [TraceTriple]) (ten0 .n .n (by decide)) (ten0 .u .u (by decide))
        · exact tr'' (c1 := .ee) (c2 := .nn) (c3 := .uu) (by simp [TraceTriple]) (ten0 .e .e (by decide)) (ten0 .u .u (by decide))
        · exact tr (c1 := .ee) (c2 := .nn) (c3 := .uu) (by simp [TraceTriple]) (ten0 .e .e (by decide)) (ten0 .n .n (by decide))
      · rw [kern2_symm]; exact ten0 j i hj
    · exact ten0 i j hi
  have gr0 : ∀ i j k, j ≠ a → UpRep (G (kern3 i j k)) a t := fun i j k hj => der hj (kern2_succ i j k) (ten i k)
  rcases kern_cases c with rfl | ⟨i, rfl⟩ | ⟨i, j, rfl⟩ | ⟨i, j, k, rfl⟩
  · exact pot
  · exact acc i
  · exact ten i j
  · by_cases hj : j = a
    · by_cases hi : i = a
      · by_cases hk : k = a
        · subst hi hj hk
          cases k
          · exact tr' (c1 := .eee) (c2 := .nne) (c3 := .uue) (by simp [TraceTriple]) (gr0 .n .n .e (by decide)) (gr0 .u .u .e (by decide))
          · exact tr'' (c1 := .een) (c2 := .nnn) (c3 := .uun) (by simp [TraceTriple]) (gr0 .e .e .n (by decide)) (gr0 .u .u .n (by decide))
          · exact tr (c1 := .eeu) (c2 := .nnu) (c3 := .uuu) (by simp [TraceTriple]) (gr0 .e .e .u (by decide)) (gr0 .n .n .u (by decide))
        · rw [(kern3_symm i j k).2]; exact gr0 i k j hk
      · rw [(kern3_symm i j k).1]; exact gr0 j i k hi
    · exact gr0 i j k hj

theorem abs_kpp_far (c : KComp) {p q : Pt} (h : 1 ≤ dist3 p q) : |kpp c p q| ≤ 6 / dist3 p q := by
  have d : 0 < dist3 p q := by linarith
  have hne : p ≠ q := fun e => by rw [dist3_eq_zero.2 e] at h; linarith
  have k : ∀ (C : ℝ) (n : ℕ), 0 ≤ C → C ≤ 6 → 1 ≤ n → C / dist3 p q ^ n ≤ 6 / dist3 p q := fun C n h0 h6 hn => by
    have : dist3 p q ≤ dist3 p q ^ n := le_self_pow₀ h (by omega)
    gcongr
  rcases kern_cases c with rfl | ⟨i, rfl⟩ | ⟨i, j, rfl⟩ | ⟨i, j, l, rfl⟩
  · have e : kpp .pot p q = 1 / dist3 p q ^ 1 := rfl
    rw [e, abs_of_pos (by positivity)]
    exact k 1 1 (by norm_num) (by norm_num) le_rfl
  · exact (abs_kern1_le i hne).trans (k 1 2 (by norm_num) (by norm_num) (by norm_num))
  · exact (abs_kern2_le i j hne).trans (k 2 3 (by norm_num) (by norm_num) (by norm_num))
  · exact (abs_kern3_le i j l hne).trans (k 6 4 (by norm_num) (by norm_num) (by norm_num))

theorem sources_point {q : Pt} (h : q.coord a < t) : Sources (fun c p => kpp c p q) a t where
  deriv := fun hs p hp => kp_deriv _ _ _ hs (fun e => by rw [e] at hp; linarith)
  cont := fun c p hp => continuousAt_kpp c (fun e => by rw [e] at hp; linarith)
  trace := fun ht p hp => kp_trace _ _ _ _ _ _ (rad_ne (p := p) (q := q) (fun e => by rw [e] at hp; linarith)) ht
  vanish := fun c ε hε => by
    refine ⟨‖q‖ + max 1 (6 / ε), fun p _ hR => ?_⟩
    have h1 := (norm_sub_norm_le p q).trans (norm_le_dist3 p q)
    have h2 := le_max_left 1 (6 / ε)
    have h3 := le_max_right 1 (6 / ε)
    refine (abs_kpp_far c (by linarith)).trans ?_
    rw [div_le_iff₀ (by linarith), ← div_le_iff₀' hε]
    linarith

variable {P : Box}

theorem above_off_region {p : Pt} (h : P.hi a < t) (hp : t ≤ p.coord a) : p ∉ P.region := fun hm => by
  have := (coord_mem_region hm a).2
  linarith

theorem vanish_prism (hP : P.Ordered) (c : KComp) :
    VanishAt (fun p => ∫ q in P.region, kpp c p q) a t := fun ε hε => by
  obtain ⟨R, hR⟩ := (isCompact_region P).isBounded.exists_norm_le
  have v0 : 0 ≤ P.volume := by rw [← volume_region hP]; exact measureReal_nonneg
  refine ⟨R + max 1 (6 * P.volume / ε), fun p _ hp => ?_⟩
  have h2 := le_max_left 1 (6 * P.volume / ε)
  have h3 := le_max_right 1 (6 * P.volume / ε)
  generalize max 1 (6 * P.volume / ε) = m at *
  have b : ∀ q ∈ P.region, ‖kpp c p q‖ ≤ 6 / m := fun q hq => by
    have h1 := (norm_sub_norm_le p q).trans (norm_le_dist3 p q)
    have h4 := hR q hq
    refine (abs_kpp_far c (by linarith)).trans ?_
    have : m ≤ dist3 p q := by linarith
    gcongr
  rw [← Real.norm_eq_abs]
  refine (norm_setIntegral_le_of_norm_le_const (isCompact_region P).measure_lt_top b).trans ?_
  rw [volume_region hP, div_mul_eq_mul_div, div_le_iff₀ (by linarith), ← div_le_iff₀' hε]
  exact h3

theorem sources_prism (hP : P.Ordered) (h : P.hi a < t) : Sources (fun c p => ∫ q in P.region, kpp c p q) a t where
  deriv := fun hs _ hp => hasDerivAt_integral_kpp hs (above_off_region h hp)
  cont := fun c _ hp => (smooth_integral_set c (isCompact_region P) (above_off_region h hp)).continuousAt
  trace := fun {c1 c2 c3} ht p hp => by
    have i := fun c => integrableOn_kpp (P := P) c (above_off_region h hp)
    rw [← integral_add (i c1) (i c2)]
    have : ∫ q in P.region, kpp c1 p q + kpp c2 p q = -∫ q in P.region, kpp c3 p q := by
      rw [← integral_neg]
      refine setIntegral_congr_fun (isCompact_region P).measurableSet fun q hq => ?_
      have hne : p ≠ q := fun e => above_off_region h hp (e ▸ hq)
      have := kp_trace c1 c2 c3 _ _ _ (rad_ne hne) ht
      have e : kpp c1 p q + kpp c2 p q + kpp c3 p q = 0 := this
      show kpp c1 p q + kpp c2 p q = -kpp c3 p q
      linarith
    rw [this]; ring
  vanish := fun c => vanish_prism hP c

theorem low_cases {c : GComp} (hc : c.letters ≤ 1) : c.toK = .pot ∨ ∃ i, c.toK = kern1 i := by
  cases c <;> first
    | exact absurd hc (by decide)
    | exact Or.inl rfl
    | exact Or.inr ⟨.e, rfl⟩
    | exact Or.inr ⟨.n, rfl⟩
    | exact Or.inr ⟨.u, rfl⟩

/-- potential and acceleration of a prism, the plane touching it or not -/
theorem upRep_low (hP : P.Ordered) (h : P.hi a ≤ t) {c : GComp} (hc : c.letters ≤ 1) : UpRep (fun p => Vc c p P) a t := by
  have e : ∀ p, Vc c p P = ∫ q in P.region, kpp c.toK p q := fun p => (integral_low hP c hc p).2.symm
  have cont : Continuous fun p => Vc c p P := by
    cases c <;> first | exact absurd hc (by decide) | skip
    · exact continuous_Vpot hP
    · exact continuous_Vacc hP .e
    · exact continuous_Vacc hP .n
    · exact continuous_Vacc hP .u
  have van : VanishAt (fun p => Vc c p P) a t := by
    have := vanish_prism (a := a) (t := t) hP c.toK
    simp only [e]; exact this
  have off : ∀ p ∈ {p : Pt | t < p.coord a}, p ∉ P.region := fun p hp hm => by
    have h1 := (coord_mem_region hm a).2
    have hp : t < p.coord a := hp
    linarith
  have tr : ∀ {c1 c2 c3}, TraceTriple c1 c2 c3 → ∀ p : Pt, t < p.coord a →
      (∫ q in P.region, kpp c1 p q) + (∫ q in P.region, kpp c2 p q) + (∫ q in P.region, kpp c3 p q) = 0 :=
    fun ht p hp => (sources_prism hP (a := a) (t := (t + p.coord a) / 2) (by linarith)).trace ht p (by linarith)
  have hh : Harm (fun p => Vc c p P) {p | t < p.coord a} := by
    simp only [e]
    have cw : ContinuousOn (fun p => ∫ q in P.region, kpp c.toK p q) {p | t < p.coord a} := by
      simp only [← e]; exact cont.continuousOn
    rcases low_cases hc with h1 | ⟨i, h1⟩
    · rw [h1] at cw ⊢
      refine ⟨cw, fun b p => ∫ q in P.region, kpp (kern1 b) p q, fun b p => ∫ q in P.region, kpp (kern2 b b) p q,
        fun p hp => ⟨fun b => ⟨?_, ?_⟩, ?_⟩⟩
      · exact hasDerivAt_integral_kpp (by cases b <;> rfl) (off p hp)
      · exact hasDerivAt_integral_kpp (kern_succ b b) (off p hp)
      · exact tr (by simp [TraceTriple, kern2]) p hp
    · rw [h1] at cw ⊢
      refine ⟨cw, fun b p => ∫ q in P.region, kpp (kern2 b i) p q, fun b p => ∫ q in P.region, kpp (kern3 b b i) p q,
        fun p hp => ⟨fun b => ⟨?_, ?_⟩, ?_⟩⟩
      · exact hasDerivAt_integral_kpp (kern_succ i b) (off p hp)
      · exact hasDerivAt_integral_kpp (kern2_succ b b i) (off p hp)
      · exact tr (by cases i <;> simp [TraceTriple, kern3]) p hp
  obtain ⟨h1, ⟨M, h2⟩, h3⟩ := poisson_rep cont.continuousOn hh van
  exact ⟨h1, ⟨M, fun s => h2 _ (onPlane_coord a t s).ge⟩, h3⟩

end Choclo
