import Verif.Props.Ordering
import Verif.Props.TensorSigns
import Verif.Lemmas.Continuity
import Mathlib.Order.Monotone.Union

/-! # C114: where the attraction of a prism is strongest -/

namespace Choclo

open Real Set Filter Topology

variable {P : Box}

theorem Pt.coord_set_self (p : Pt) (a : Axis) (t : ℝ) : (p.set a t).coord a = t := by cases a <;> rfl

theorem Pt.coord_set_ne (p : Pt) {a b : Axis} (h : a ≠ b) (t : ℝ) : (p.set b t).coord a = p.coord a := by
  cases a <;> cases b <;> first | rfl | exact absurd rfl h

theorem Pt.set_set_same (p : Pt) (a : Axis) (s t : ℝ) : (p.set a s).set a t = p.set a t := by cases a <;> rfl

theorem Vacc_mirror_set (hP : P.Ordered) (a b : Axis) (p : Pt) (t : ℝ) :
    Vc a.acc (p.set b (2 * P.centre b - t)) P = (-1) ^ a.acc.count b * Vc a.acc (p.set b t) P := by
  have k := Vc_mirror (p := p.set b t) hP a.acc b (by intro h; cases a <;> cases h)
  rw [← Vc_shift (p := (p.set b t).mirror b) (P := P.mirror b) (t := b.vec (2 * P.centre b))] at k
  have e1 : ((p.set b t).mirror b).shift (b.vec (2 * P.centre b)) = p.set b (2 * P.centre b - t) := by
    cases b <;> simp only [Pt.mirror, Pt.shift, Axis.vec, Pt.set, Pt.e, Pt.n, Pt.u] <;>
      ext <;> simp <;> ring
  have e2 : (P.mirror b).shift (b.vec (2 * P.centre b)) = P := by
    cases P
    cases b <;> simp only [Box.mirror, Box.shift, Axis.vec, Pt.e, Pt.n, Pt.u, Box.centre, Box.lo, Box.hi, add_zero] <;>
      congr 1 <;> ring
  rwa [e1, e2] at k

theorem abs_Vacc_mirror (hP : P.Ordered) (a b : Axis) (p : Pt) (t : ℝ) :
    |Vc a.acc (p.set b (2 * P.centre b - t)) P| = |Vc a.acc (p.set b t) P| := by
  rw [Vacc_mirror_set hP, abs_mul, abs_pow, abs_neg, abs_one, one_pow, one_mul]

theorem abs_Vacc_fold (hP : P.Ordered) (a b : Axis) (p : Pt) (t : ℝ) :
    |Vc a.acc (p.set b t) P| = |Vc a.acc (p.set b (P.centre b + |t - P.centre b|)) P| := by
  rcases le_total (P.centre b) t with ht | ht
  · rw [abs_of_nonneg (show 0 ≤ t - P.centre b by linarith)]; congr 3; ring
  · rw [abs_of_nonpos (show t - P.centre b ≤ 0 by linarith), ← abs_Vacc_mirror hP]; congr 3; ring

theorem continuous_Vacc_set (hP : P.Ordered) (a b : Axis) (p : Pt) : Continuous fun t => Vc a.acc (p.set b t) P := by
  exact (continuous_Vacc hP a).comp (Pt.continuous_set p b)

theorem centre_lt_hi (hP : P.Proper) (a : Axis) : P.lo a < P.centre a ∧ P.centre a < P.hi a := by
  obtain ⟨h1, h2, h3⟩ := hP
  cases a <;> simp only [Box.centre, Box.lo, Box.hi] <;> constructor <;> linarith

theorem off_singular {a b : Axis} (hab : a ≠ b) {p : Pt} (h1 : p.coord b ≠ P.lo b) (h2 : p.coord b ≠ P.hi b) :
    p ∉ P.singular (tensor a b) := by
  cases a <;> cases b <;> first | exact absurd rfl hab | skip
  all_goals
    simp only [tensor, Box.singular, Box.edgesE, Box.edgesN, Box.edgesU, Set.mem_ofPred_eq, Box.lo, Box.hi, Pt.coord] at h1 h2 ⊢
    grind

/-- Away from the mid-plane of the axis `b`, the attraction along another axis fades. -/
theorem lateral_mono (hP : P.Proper) {a b : Axis} (hab : a ≠ b) (p : Pt) (h : p.coord a ≠ P.centre a) :
    StrictMonoOn (fun t => (p.coord a - P.centre a) * Vc a.acc (p.set b t) P) (Ici (P.centre b)) := by
  have hO := hP.ordered
  obtain ⟨l1, l2⟩ := centre_lt_hi hP b
  have hc := (continuous_Vacc_set hO a b p).const_mul (p.coord a - P.centre a)
  have d : ∀ t, t ≠ P.lo b → t ≠ P.hi b → P.centre b < t →
      0 < deriv (fun t => (p.coord a - P.centre a) * Vc a.acc (p.set b t) P) t := by
    intro t t1 t2 t3
    have hs : p.set b t ∉ P.singular (tensor a b) :=
      off_singular hab (by rwa [Pt.coord_set_self]) (by rwa [Pt.coord_set_self])
    have hd := hasDerivAt_Vacc_off hab hO hs
    simp only [Pt.coord_set_self, Pt.set_set_same] at hd
    rw [(hd.const_mul _).deriv]
    have hsg := Voff_sign hP hab hs
    rw [Pt.coord_set_self, Pt.coord_set_ne _ hab] at hsg
    rcases lt_or_gt_of_ne h with h' | h'
    · rw [_root_.sign_neg (mul_neg_of_neg_of_pos (by linarith) (by linarith)), sign_eq_neg_one_iff] at hsg
      exact mul_pos_of_neg_of_neg (by linarith) hsg
    · rw [_root_.sign_pos (mul_pos (by linarith) (by linarith)), sign_eq_one_iff] at hsg
      exact mul_pos (by linarith) hsg
  have m1 : StrictMonoOn (fun t => (p.coord a - P.centre a) * Vc a.acc (p.set b t) P) (Icc (P.centre b) (P.hi b)) := by
    refine strictMonoOn_of_deriv_pos (convex_Icc _ _) hc.continuousOn fun t ht => ?_
    rw [interior_Icc] at ht
    exact d t (by linarith [ht.1]) ht.2.ne ht.1
  have m2 : StrictMonoOn (fun t => (p.coord a - P.centre a) * Vc a.acc (p.set b t) P) (Ici (P.hi b)) := by
    refine strictMonoOn_of_deriv_pos (convex_Ici _) hc.continuousOn fun t ht => ?_
    rw [interior_Ici] at ht
    have ht' : P.hi b < t := ht
    exact d t (by linarith) ht'.ne' (by linarith)
  have := m1.union m2 (isGreatest_Icc l2.le) isLeast_Ici
  rwa [Icc_union_Ici_eq_Ici l2.le] at this

theorem Vacc_toward (hP : P.Proper) (a : Axis) (p : Pt) (h : p.coord a ≠ P.centre a) :
    (p.coord a - P.centre a) * Vc a.acc p P < 0 := by
  rcases lt_or_gt_of_ne h with h' | h'
  · exact mul_neg_of_neg_of_pos (by linarith) (Vacc_pos hP a p h')
  · exact mul_neg_of_pos_of_neg (by linarith) (Vacc_neg hP a p h')

theorem lateral_lt (hP : P.Proper) {a b : Axis} (hab : a ≠ b) (p : Pt) (h : p.coord a ≠ P.centre a) {s t : ℝ}
    (hst : |s - P.centre b| < |t - P.centre b|) : |Vc a.acc (p.set b t) P| < |Vc a.acc (p.set b s) P| := by
  rw [abs_Vacc_fold hP.ordered a b p s, abs_Vacc_fold hP.ordered a b p t]
  have hm := (lateral_mono hP hab p h).lt_iff_lt (mem_Ici.2 (le_add_of_nonneg_right (abs_nonneg (s - P.centre b))))
    (mem_Ici.2 (le_add_of_nonneg_right (abs_nonneg (t - P.centre b))))
  have hm' := hm.2 (by linarith)
  have n : ∀ r, (p.coord a - P.centre a) * Vc a.acc (p.set b r) P < 0 := fun r => by
    have := Vacc_toward hP a (p.set b r) (by rwa [Pt.coord_set_ne _ hab])
    rwa [Pt.coord_set_ne _ hab] at this
  have hpos : 0 < |p.coord a - P.centre a| := abs_pos.2 (sub_ne_zero.2 h)
  refine lt_of_mul_lt_mul_left ?_ hpos.le
  rw [← abs_mul, ← abs_mul, abs_of_neg (n _), abs_of_neg (n _)]
  exact neg_lt_neg hm'

theorem off_closedFaces {a : Axis} {p : Pt} (h1 : p.coord a ≠ P.lo a) (h2 : p.coord a ≠ P.hi a) :
    p ∉ P.closedFaces a := by
  cases a <;>
  · simp only [Box.closedFaces, Set.mem_ofPred_eq, Box.lo, Box.hi, Pt.coord] at h1 h2 ⊢
    grind

theorem hasDerivAt_line (hP : P.Proper) (a : Axis) (p : Pt) {t : ℝ} (h1 : t ≠ P.lo a) (h2 : t ≠ P.hi a) :
    HasDerivAt (fun t => Vc a.acc (p.set a t) P) (Vc (tensor a a) (p.set a t) P) t := by
  have hd := hasDerivAt_Vacc_diag a hP.ordered (p := p.set a t)
    (off_closedFaces (by rwa [Pt.coord_set_self]) (by rwa [Pt.coord_set_self]))
  simpa only [Pt.coord_set_self, Pt.set_set_same] using hd

/-- Between the faces the attraction grows with the distance from the mid-plane. -/
theorem between_lt (hP : P.Proper) (a : Axis) (p : Pt) {s t : ℝ} (hst : |s - P.centre a| < |t - P.centre a|)
    (ht : t ∈ Icc (P.lo a) (P.hi a)) : |Vc a.acc (p.set a s) P| < |Vc a.acc (p.set a t) P| := by
  have hO := hP.ordered
  obtain ⟨l1, l2⟩ := centre_lt_hi hP a
  have hc : P.hi a - P.centre a = P.centre a - P.lo a := by unfold Box.centre; ring
  have hm : StrictAntiOn (fun t => Vc a.acc (p.set a t) P) (Icc (P.centre a) (P.hi a)) := by
    refine strictAntiOn_of_deriv_neg (convex_Icc _ _) (continuous_Vacc_set hO a a p).continuousOn fun t ht => ?_
    rw [interior_Icc] at ht
    rw [(hasDerivAt_line hP a p (by linarith [ht.1]) ht.2.ne).deriv]
    exact Vdiag_neg hP a (by rw [Pt.coord_set_self]; linarith [ht.1]) (by rw [Pt.coord_set_self]; exact ht.2)
  have h0 := abs_nonneg (s - P.centre a)
  have h1 : P.centre a + |t - P.centre a| ≤ P.hi a := by
    have : |t - P.centre a| ≤ P.hi a - P.centre a := abs_le.2 ⟨by linarith [ht.1], by linarith [ht.2]⟩
    linarith
  rw [abs_Vacc_fold hO a a p s, abs_Vacc_fold hO a a p t]
  have hm' := hm (a := P.centre a + |s - P.centre a|) ⟨by linarith, by linarith⟩ (b := P.centre a + |t - P.centre a|)
    ⟨by linarith, h1⟩ (by linarith)
  have n1 : Vc a.acc (p.set a (P.centre a + |t - P.centre a|)) P < 0 :=
    Vacc_neg hP a _ (by rw [Pt.coord_set_self]; linarith)
  have n2 : Vc a.acc (p.set a (P.centre a + |s - P.centre a|)) P ≤ 0 := by
    rcases h0.eq_or_lt with h | h
    · rw [Vacc_centre hO a _ (by rw [Pt.coord_set_self, ← h, add_zero])]
    · exact (Vacc_neg hP a _ (by rw [Pt.coord_set_self]; linarith)).le
  rw [abs_of_neg n1, abs_of_nonpos n2]
  exact neg_lt_neg hm'

/-- Above and below the prism the attraction fades with the distance from the mid-plane. -/
theorem beyond_lt (hP : P.Proper) (a : Axis) (p : Pt) (hcol : ∀ b, b ≠ a → P.lo b ≤ p.coord b ∧ p.coord b ≤ P.hi b)
    {s t : ℝ} (hs : s ∉ Ioo (P.lo a) (P.hi a)) (hst : |s - P.centre a| < |t - P.centre a|) :
    |Vc a.acc (p.set a t) P| < |Vc a.acc (p.set a s) P| := by
  have hO := hP.ordered
  obtain ⟨l1, l2⟩ := centre_lt_hi hP a
  have hc : P.hi a - P.centre a = P.centre a - P.lo a := by unfold Box.centre; ring
  have hm : StrictMonoOn (fun t => Vc a.acc (p.set a t) P) (Ici (P.hi a)) := by
    refine strictMonoOn_of_deriv_pos (convex_Ici _) (continuous_Vacc_set hO a a p).continuousOn fun t ht => ?_
    rw [interior_Ici] at ht
    have ht' : P.hi a < t := ht
    rw [(hasDerivAt_line hP a p (by linarith) ht'.ne').deriv]
    refine Vdiag_pos hP a ?_ (.inr (by rw [Pt.coord_set_self]; exact ht'.le)) fun b hb => ?_
    · intro h
      have : (p.set a t).coord a ≠ P.lo a ∧ (p.set a t).coord a ≠ P.hi a := by
        rw [Pt.coord_set_self]; exact ⟨by linarith, ht'.ne'⟩
      revert h this
      generalize p.set a t = q
      intro h this
      cases a <;>
      · simp only [tensor, Box.singular, Box.edgesE, Box.edgesN, Box.edgesU, Set.mem_union, Set.mem_ofPred_eq,
          Box.lo, Box.hi, Pt.coord] at h this
        grind
    · rw [Pt.coord_set_ne _ hb]; exact hcol b hb
  have h1 : P.hi a ≤ P.centre a + |s - P.centre a| := by
    rw [mem_Ioo, not_and_or, not_lt, not_lt] at hs
    rcases hs with hs | hs
    · rw [abs_of_nonpos (by linarith)]; linarith
    · rw [abs_of_nonneg (by linarith)]; linarith
  rw [abs_Vacc_fold hO a a p s, abs_Vacc_fold hO a a p t]
  have hm' := hm (a := P.centre a + |s - P.centre a|) h1 (b := P.centre a + |t - P.centre a|)
    (mem_Ici.2 (by linarith)) (by linarith)
  have n : ∀ r, P.hi a ≤ r → Vc a.acc (p.set a r) P < 0 := fun r hr =>
    Vacc_neg hP a _ (by rw [Pt.coord_set_self]; linarith)
  rw [abs_of_neg (n _ h1), abs_of_neg (n _ (by linarith))]
  exact neg_lt_neg hm'

/-! ## C114 -/

/-- The two calls return numbers, the first of which is smaller in absolute value. -/
def WeakerThan (call call' : Py (Fl Exact)) : Prop := ∃ v w : ℝ, Returns call v ∧ Returns call' w ∧ |v| < |w|

theorem weaker_of {a : Axis} {p q : Pt} {ρ : ℝ} (hρ : ρ ≠ 0) (h : |Vc a.acc p P| < |Vc a.acc q P|) :
    WeakerThan (onPrism (prismGravity a.acc) p P ρ) (onPrism (prismGravity a.acc) q P ρ) := by
  refine ⟨_, _, acc_returns a p P ρ, acc_returns a q P ρ, ?_⟩
  rw [abs_mul, abs_mul (Gc * ρ)]
  exact mul_lt_mul_of_pos_left h (abs_pos.2 (mul_ne_zero Gc_pos.ne' hρ))

/-- **C114.** Moving sideways: on every line parallel to an axis `b` (above, below, beside or through the prism), the
acceleration along another axis `a` is weaker the farther the point is from the mid-plane of `b`. (It is zero on the whole
line if the line is in the mid-plane of `a`.) -/
theorem C114_sideways (hP : P.Proper) {a b : Axis} (hab : a ≠ b) (p : Pt) (h : p.coord a ≠ P.centre a) {ρ : ℝ} (hρ : ρ ≠ 0)
    {s t : ℝ} (hst : |s - P.centre b| < |t - P.centre b|) :
    WeakerThan (onPrism (prismGravity a.acc) (p.set b t) P ρ) (onPrism (prismGravity a.acc) (p.set b s) P ρ) :=
  weaker_of hρ (lateral_lt hP hab p h hst)

/-- **C114.** Moving along the axis of the component: between the two faces, inside or beside the prism, the acceleration
is stronger the farther the point is from the mid-plane. -/
theorem C114_between (hP : P.Proper) (a : Axis) (p : Pt) {ρ : ℝ} (hρ : ρ ≠ 0) {s t : ℝ}
    (ht : P.lo a ≤ t ∧ t ≤ P.hi a) (hst : |s - P.centre a| < |t - P.centre a|) :
    WeakerThan (onPrism (prismGravity a.acc) (p.set a s) P ρ) (onPrism (prismGravity a.acc) (p.set a t) P ρ) :=
  weaker_of hρ (between_lt hP a p hst ht)

/-- **C114.** Beyond the faces, in the column spanned by the prism, the acceleration is weaker the farther the point is. -/
theorem C114_beyond (hP : P.Proper) (a : Axis) (p : Pt) (hcol : ∀ b, b ≠ a → P.lo b ≤ p.coord b ∧ p.coord b ≤ P.hi b)
    {ρ : ℝ} (hρ : ρ ≠ 0) {s t : ℝ} (hs : s ≤ P.lo a ∨ P.hi a ≤ s) (hst : |s - P.centre a| < |t - P.centre a|) :
    WeakerThan (onPrism (prismGravity a.acc) (p.set a t) P ρ) (onPrism (prismGravity a.acc) (p.set a s) P ρ) :=
  weaker_of hρ (beyond_lt hP a p hcol (by rw [mem_Ioo, not_and_or, not_lt, not_lt]; exact hs) hst)

theorem abs_le_side (hP : P.Proper) {a b : Axis} (hab : a ≠ b) (p : Pt) :
    |Vc a.acc p P| ≤ |Vc a.acc (p.set b (P.centre b)) P| ∧ (p.coord a ≠ P.centre a → p.coord b ≠ P.centre b →
      |Vc a.acc p P| < |Vc a.acc (p.set b (P.centre b)) P|) := by
  have key : p.coord a ≠ P.centre a → p.coord b ≠ P.centre b →
      |Vc a.acc p P| < |Vc a.acc (p.set b (P.centre b)) P| := fun h1 h2 => by
    have := lateral_lt hP hab p h1 (s := P.centre b) (t := p.coord b) (by
      rw [sub_self, abs_zero]; exact abs_pos.2 (sub_ne_zero.2 h2))
    rwa [Pt.set_coord] at this
  refine ⟨?_, key⟩
  by_cases h2 : p.coord b = P.centre b
  · rw [← h2, Pt.set_coord]
  · by_cases h1 : p.coord a = P.centre a
    · rw [Vacc_centre hP.ordered a p h1, Vacc_centre hP.ordered a _ (by rw [Pt.coord_set_ne _ hab]; exact h1)]
    · exact (key h1 h2).le

/-- On the axis through the centre, the attraction is greatest at the faces. -/
theorem axis_lt (hP : P.Proper) (a : Axis) {t : ℝ} (h1 : t ≠ P.lo a) (h2 : t ≠ P.hi a) :
    |Vc a.acc (P.centrePt.set a t) P| < |Vc a.acc (P.centrePt.set a (P.hi a)) P| := by
  obtain ⟨l1, l2⟩ := centre_lt_hi hP a
  have hc : P.hi a - P.centre a = P.centre a - P.lo a := by unfold Box.centre; ring
  by_cases ht : t ∈ Ioo (P.lo a) (P.hi a)
  · refine between_lt hP a _ ?_ ⟨by linarith, le_rfl⟩
    rw [abs_of_pos (show 0 < P.hi a - P.centre a by linarith)]
    exact abs_lt.2 ⟨by linarith [ht.1], by linarith [ht.2]⟩
  · refine beyond_lt hP a _ (fun b _ => ?_) (s := P.hi a) (by simp) ?_
    · obtain ⟨m1, m2⟩ := centre_lt_hi hP b
      have : P.centrePt.coord b = P.centre b := by cases b <;> rfl
      rw [this]; exact ⟨m1.le, m2.le⟩
    · rw [mem_Ioo, not_and_or, not_lt, not_lt] at ht
      rw [abs_of_pos (show 0 < P.hi a - P.centre a by linarith)]
      rcases ht with ht | ht
      · rw [abs_of_nonpos (by linarith)]
        have := lt_of_le_of_ne ht h1; linarith
      · rw [abs_of_nonneg (by linarith)]
        have := lt_of_le_of_ne ht (Ne.symm h2); linarith

/-- **C114.** The strongest acceleration along an axis is attained at the centres of the two faces perpendicular to it, and
nowhere else: everywhere else in space the returned component is weaker. -/
theorem C114_maximum (hP : P.Proper) (a : Axis) (p : Pt) (h1 : p ≠ P.centrePt.set a (P.lo a)) (h2 : p ≠ P.centrePt.set a (P.hi a))
    {ρ : ℝ} (hρ : ρ ≠ 0) :
    WeakerThan (onPrism (prismGravity a.acc) p P ρ) (onPrism (prismGravity a.acc) (P.centrePt.set a (P.hi a)) P ρ) ∧
    WeakerThan (onPrism (prismGravity a.acc) p P ρ) (onPrism (prismGravity a.acc) (P.centrePt.set a (P.lo a)) P ρ) := by
  have hO := hP.ordered
  have heq : |Vc a.acc (P.centrePt.set a (P.lo a)) P| = |Vc a.acc (P.centrePt.set a (P.hi a)) P| := by
    rw [← abs_Vacc_mirror hO a a P.centrePt (P.hi a)]
    congr 3
    unfold Box.centre; ring
  have key : |Vc a.acc p P| < |Vc a.acc (P.centrePt.set a (P.hi a)) P| := by
    have hle : ∀ t, |Vc a.acc (P.centrePt.set a t) P| ≤ |Vc a.acc (P.centrePt.set a (P.hi a)) P| := fun t => by
      by_cases t1 : t = P.lo a
      · rw [t1, heq]
      · by_cases t2 : t = P.hi a
        · rw [t2]
        · exact (axis_lt hP a t1 t2).le
    by_cases h0 : p.coord a = P.centre a
    · rw [Vacc_centre hO a p h0, abs_zero]
      refine abs_pos.2 (Vacc_neg hP a _ ?_).ne
      rw [Pt.coord_set_self]
      exact (centre_lt_hi hP a).2
    · obtain ⟨b, c, hb, hc, hbc, hcov⟩ : ∃ b c, a ≠ b ∧ a ≠ c ∧ c ≠ b ∧
          (p.set b (P.centre b)).set c (P.centre c) = P.centrePt.set a (p.coord a) := by
        cases a
        · exact ⟨.n, .u, by decide, by decide, by decide, rfl⟩
        · exact ⟨.e, .u, by decide, by decide, by decide, rfl⟩
        · exact ⟨.e, .n, by decide, by decide, by decide, rfl⟩
      have s1 := abs_le_side hP hb p
      have s2 := abs_le_side hP hc (p.set b (P.centre b))
      rw [hcov, Pt.coord_set_ne _ hb, Pt.coord_set_ne _ hbc] at s2
      by_cases hb' : p.coord b = P.centre b
      · by_cases hc' : p.coord c = P.centre c
        · have hp : p = P.centrePt.set a (p.coord a) := by
            rw [← hcov, ← hb', Pt.set_coord, ← hc', Pt.set_coord]
          rw [hp]
          refine axis_lt hP a (fun h => h1 ?_) (fun h => h2 ?_)
          · rw [h] at hp; exact hp
          · rw [h] at hp; exact hp
        · exact s1.1.trans_lt ((s2.2 h0 hc').trans_le (hle _))
      · exact (s1.2 h0 hb').trans_le (s2.1.trans (hle _))
  exact ⟨weaker_of hρ key, weaker_of hρ (heq ▸ key)⟩

/-! ### The hypotheses can be met -/

/-- above the top of `exBox`, 3 m to the side instead of above its centre -/
example : exBox.Proper ∧ (Pt.coord (exBox.centre .e, exBox.centre .n, 7) .u ≠ exBox.centre .u) ∧
    |exBox.centre .e - exBox.centre .e| < |exBox.centre .e + 3 - exBox.centre .e| := by
  refine ⟨by norm_num [Box.Proper, exBox], ?_, by norm_num⟩
  norm_num [Pt.coord, Pt.u, Box.centre, Box.lo, Box.hi, exBox]

/-- the centre of `exBox` is not one of the two points at which the acceleration is strongest -/
example (a : Axis) : exBox.centrePt ≠ exBox.centrePt.set a (exBox.lo a) ∧ exBox.centrePt ≠ exBox.centrePt.set a (exBox.hi a) := by
  have hP : exBox.Proper := by norm_num [Box.Proper, exBox]
  obtain ⟨h1, h2⟩ := centre_lt_hi hP a
  have e : exBox.centrePt.coord a = exBox.centre a := by cases a <;> rfl
  constructor <;> intro h <;> have := congrArg (fun p => Pt.coord p a) h <;> simp only [Pt.coord_set_self, e] at this <;> linarith

end Choclo
