import Verif.Props.SinglePrecision

/-!
# Single precision overflow (C108)

With float32 coordinates `distance**5` overflows if the points are more than 53 000 km apart, and `distance**7` if they
are more than 328 km apart.  No error is raised: the term is taken to be zero and the remaining term is returned.
The diagonal of the gravity gradient then has the wrong sign along the line that joins the points, the off-diagonal
components vanish, and so do (beyond 328 km) the leading terms of the third-order kernels.
-/

namespace Choclo

namespace B32

/-- at least `c`, possibly infinite -/
def Big (c : ℝ) (a : Fl Binary32) : Prop := a = Fl.inf false ∨ ∃ x : ℝ, a = Fl.fin x ∧ c ≤ x

theorem rnd_over {x : ℝ} (h : 2 ^ (128 : ℤ) ≤ x) : B32.rnd x = .inf false := by
  have h1 : 2 ^ (128 : ℤ) ≤ B32.round x := by
    have := round_mono h
    rwa [(isF_zpow (by norm_num : (-149 : ℤ) ≤ 128)).round] at this
  have h0 : 0 < B32.round x := lt_of_lt_of_le (two_zpow_pos _) h1
  unfold B32.rnd
  rw [if_neg (by rw [abs_of_pos h0]; exact not_lt.2 h1), if_pos h0]

theorem Big.rnd {x c : ℝ} (hc : IsF c) (hc0 : 0 < c) (h : c ≤ x) : Big c (Fl.ofRaw (B32.rnd x)) := by
  have h1 : c ≤ B32.round x := by
    have := round_mono h
    rwa [hc.round] at this
  unfold B32.rnd
  split
  · exact .inr ⟨_, rfl, h1⟩
  · left
    rw [if_pos (lt_of_lt_of_le hc0 h1)]; rfl

theorem Big.mul {c d : ℝ} (hc : 0 < c) (hd : 0 < d) (hcd : IsF (c * d)) {a b : Fl Binary32} (ha : Big c a) (hb : Big d b) :
    Big (c * d) (a * b) := by
  rcases ha with rfl | ⟨x, rfl, hx⟩ <;> rcases hb with rfl | ⟨y, rfl, hy⟩
  · exact .inl rfl
  · left
    show Fl.mul (Fl.inf false) (Fl.fin y) = _
    have : 0 < y := by linarith
    simp [Fl.mul, Fl.mulInf, Fl.inf, Fl.fin, this, this.ne']; rfl
  · left
    show Fl.mul (Fl.fin x) (Fl.inf false) = _
    have : 0 < x := by linarith
    simp [Fl.mul, Fl.mulInf, Fl.inf, Fl.fin, this, this.ne']; rfl
  · rw [Fl.fin_mul_fin]
    exact Big.rnd hcd (mul_pos hc hd) (mul_le_mul hx hy hd.le (by linarith))

theorem Big.over {c d : ℝ} (hc : 0 < c) (hd : 0 < d) (hcd : 2 ^ (128 : ℤ) ≤ c * d) {a b : Fl Binary32} (ha : Big c a)
    (hb : Big d b) : a * b = Fl.inf false := by
  rcases ha with rfl | ⟨x, rfl, hx⟩ <;> rcases hb with rfl | ⟨y, rfl, hy⟩
  · rfl
  · show Fl.mul (Fl.inf false) (Fl.fin y) = _
    have : 0 < y := by linarith
    simp [Fl.mul, Fl.mulInf, Fl.inf, Fl.fin, this, this.ne']; rfl
  · show Fl.mul (Fl.fin x) (Fl.inf false) = _
    have : 0 < x := by linarith
    simp [Fl.mul, Fl.mulInf, Fl.inf, Fl.fin, this, this.ne']; rfl
  · rw [Fl.fin_mul_fin]
    have := rnd_over (hcd.trans (mul_le_mul hx hy hd.le (by linarith : (0 : ℝ) ≤ x)))
    show (Fl.ofRaw (B32.rnd (x * y)) : Fl Binary32) = _
    rw [this]; rfl

theorem pow_five_over {x : ℝ} (h : 52428800 ≤ x) : ((Fl.fin x : Fl Numba32) ^ 5) = Fl.inf false := by
  have hx : Big 52428800 (Fl.fin x) := .inr ⟨x, rfl, h⟩
  have h2 := hx.mul (by norm_num) (by norm_num) ⟨625, 42, by norm_num, by norm_num, by norm_num⟩ hx
  have h4 := h2.mul (by norm_num) (by norm_num) ⟨390625, 84, by norm_num, by norm_num, by norm_num⟩ h2
  have h5 := hx.over (by norm_num) (by norm_num) (by norm_num) h4
  show (Fl.ofRaw (Binary32.withNumbaPow.pow x 5) : Fl Numba32) = _
  rw [withNumbaPow_pow_le (by norm_num), numbaPow_five, h5]
  rfl

theorem pow_seven_over {x : ℝ} (h : 327680 ≤ x) : ((Fl.fin x : Fl Numba32) ^ 7) = Fl.inf false := by
  have hx : Big 327680 (Fl.fin x) := .inr ⟨x, rfl, h⟩
  have h2 := hx.mul (by norm_num) (by norm_num) ⟨25, 32, by norm_num, by norm_num, by norm_num⟩ hx
  have h4 := h2.mul (by norm_num) (by norm_num) ⟨625, 64, by norm_num, by norm_num, by norm_num⟩ h2
  have h3 := hx.mul (by norm_num) (by norm_num) ⟨125, 48, by norm_num, by norm_num, by norm_num⟩ h2
  have h7 := h3.over (by norm_num) (by norm_num) (by norm_num) h4
  show (Fl.ofRaw (Binary32.withNumbaPow.pow x 7) : Fl Numba32) = _
  rw [withNumbaPow_pow_le (by norm_num), numbaPow_seven, h7]
  rfl

end B32


section far
variable {p q : Pt}

theorem are32 (p q : Pt) : ArePoints (S := Numba32) (D := Numba64) (.f32 (Fl.fin p.e)) (.f32 (Fl.fin p.n))
    (.f32 (Fl.fin p.u)) (.f32 (Fl.fin q.e)) (.f32 (Fl.fin q.n)) (.f32 (Fl.fin q.u)) p q :=
  ⟨isReal_f32 _, isReal_f32 _, isReal_f32 _, isReal_f32 _, isReal_f32 _, isReal_f32 _⟩

theorem long_dist (hΔ : ∀ a : Axis, LongLength (p.coord a - q.coord a)) : Mag (-20) 41 (dist3 p q) := by
  have he : Mag (-20) 40 (p.e - q.e) := hΔ .e
  have hn : Mag (-20) 40 (p.n - q.n) := hΔ .n
  have hu : Mag (-20) 40 (p.u - q.u) := hΔ .u
  unfold dist3
  apply Mag.sqrt
  have h1 := (he.pow two_ne_zero).add (hn.pow two_ne_zero) (sq_nonneg _) (sq_nonneg _)
  exact (h1.add ((hu.pow two_ne_zero).weaken le_rfl (by norm_num)) (by positivity) (sq_nonneg _)).weaken
    (by norm_num) (by norm_num)

theorem long_safe (hΔ : ∀ a : Axis, LongLength (p.coord a - q.coord a)) :
    ∀ t ∈ distanceSteps p q, InSafeRange (2 ^ (-126 : ℤ)) (2 ^ (127 : ℤ)) t := by
  have he : Mag (-20) 40 (p.e - q.e) := hΔ .e
  have hn : Mag (-20) 40 (p.n - q.n) := hΔ .n
  have hu : Mag (-20) 40 (p.u - q.u) := hΔ .u
  have h1 := (he.pow two_ne_zero).add (hn.pow two_ne_zero) (sq_nonneg _) (sq_nonneg _)
  have h2 := h1.add ((hu.pow two_ne_zero).weaken le_rfl (by norm_num)) (by positivity) (sq_nonneg _)
  simp only [distanceSteps, List.mem_cons, List.not_mem_nil, or_false, forall_eq_or_imp, forall_eq]
  exact ⟨he.safe32 (by norm_num) (by norm_num), hn.safe32 (by norm_num) (by norm_num),
    hu.safe32 (by norm_num) (by norm_num), (he.pow two_ne_zero).safe32 (by norm_num) (by norm_num),
    (hn.pow two_ne_zero).safe32 (by norm_num) (by norm_num),
    (hu.pow two_ne_zero).safe32 (by norm_num) (by norm_num),
    h1.safe32 (by norm_num) (by norm_num), h2.safe32 (by norm_num) (by norm_num),
    (long_dist hΔ).safe32 (by norm_num) (by norm_num)⟩

theorem up_eq {S D : Arith} {X : Fl S} {y : ℝ} (e : (MFl.f32 X : MFl S D).toD = Fl.fin y) : X = Fl.fin y := e

theorem single_distance (p q : Pt) : ∃ X : Fl Numba32,
    MFl.sqrt (((.f32 (Fl.fin p.e) : MFl Numba32 Numba64) - .f32 (Fl.fin q.e)) ^ 2
        + ((.f32 (Fl.fin p.n) : MFl Numba32 Numba64) - .f32 (Fl.fin q.n)) ^ 2
        + ((.f32 (Fl.fin p.u) : MFl Numba32 Numba64) - .f32 (Fl.fin q.u)) ^ 2) = .f32 X := ⟨_, rfl⟩

/-- the distance that is computed, a float32 -/
theorem far_distance (hΔ : ∀ a : Axis, LongLength (p.coord a - q.coord a)) :
    ∃ y : ℝ, (MFl.sqrt (((.f32 (Fl.fin p.e) : MFl Numba32 Numba64) - .f32 (Fl.fin q.e)) ^ 2
        + ((.f32 (Fl.fin p.n) : MFl Numba32 Numba64) - .f32 (Fl.fin q.n)) ^ 2
        + ((.f32 (Fl.fin p.u) : MFl Numba32 Numba64) - .f32 (Fl.fin q.u)) ^ 2)) = .f32 (Fl.fin y) ∧
      MApprox (2 ^ (-23 : ℤ)) 4 (.f32 (Fl.fin y) : MFl Numba32 Numba64) (dist3 p q) ∧ dist3 p q * (1 - 2 ^ (-20 : ℤ)) ≤ y := by
  have h := numba_both
  have hd := h.distance (are32 p q) (long_safe hΔ)
  have eX := single_distance p q
  generalize MFl.sqrt (((.f32 (Fl.fin p.e) : MFl Numba32 Numba64) - .f32 (Fl.fin q.e)) ^ 2
        + ((.f32 (Fl.fin p.n) : MFl Numba32 Numba64) - .f32 (Fl.fin q.n)) ^ 2
        + ((.f32 (Fl.fin p.u) : MFl Numba32 Numba64) - .f32 (Fl.fin q.u)) ^ 2) = V at *
  obtain ⟨X, rfl⟩ := eX
  obtain ⟨y, e, hy⟩ := h.double.bound hd (by norm_num)
  have e' : X = Fl.fin y := up_eq e
  subst e'
  refine ⟨y, rfl, hd, ?_⟩
  have h1 := gamma_single (k := 4) (e := -20) (by norm_num) (by norm_num)
  have h0 : 0 ≤ dist3 p q := Real.sqrt_nonneg _
  rw [abs_of_nonneg h0] at hy
  have h2 := neg_le_of_abs_le hy
  have h3 := mul_le_mul_of_nonneg_right h1 h0
  rw [mul_sub, mul_one, mul_comm (dist3 p q)]
  linarith

/-- a finite number over a power that overflows -/
theorem div_over {S D : Arith} {u : ℝ} {k n : ℕ} {v : MFl S D} {x y : ℝ} (hw : v.Wide) (hv : MApprox u k v x)
    (hy : ((Fl.fin y : Fl S) ^ n) = Fl.inf false) :
    MFl.div v ((.f32 (Fl.fin y) : MFl S D) ^ n) = .ok (.f64 (Fl.fin 0)) := by
  obtain ⟨w, rfl⟩ := hw
  obtain ⟨θ, -, e⟩ := hv
  have e' : w = Fl.fin (x * θ) := e
  show Except.map (MFl.f64 (S := S)) (w /. (((Fl.fin y : Fl S) ^ n).up : Fl D)) = _
  rw [hy, e']
  rfl

theorem zero_approx {S D : Arith} {u lo hi lo' hi' : ℝ} (h : BothAccurate S D u lo hi lo' hi') :
    MAbs u 0 (.f64 (Fl.fin 0) : MFl S D) 0 0 := by
  have := h.toAbs (h.exact (v := (.f64 (Fl.fin 0) : MFl S D)) (x := 0) rfl)
  rwa [abs_zero] at this

variable (hΔ : ∀ a : Axis, LongLength (p.coord a - q.coord a)) (hfar : 53000000 ≤ dist3 p q)
include hΔ hfar

/-- **C108.** Beyond 53 000 km the off-diagonal components of the gradient of a point mass are zero, and the diagonal
ones lack the term `3 (x_a - y_a)² / d⁵`. -/
theorem C108_gradient {vm : MFl Numba32 Numba64} {m : ℝ} (hvm : vm.IsReal m) (hm : ModerateSize m) :
    (∀ c ∈ [GComp.en, .eu, .nu], MReturnsNear (Mixed.onPair32 (Mixed.pointGravity c) p q vm) 0 0) ∧
    (∀ a : Axis, MReturnsNear (Mixed.onPair32 (Mixed.pointGravity a.diag) p q vm)
      (-(6.6743e-11 * m / dist3 p q ^ 3)) (2 ^ (-17 : ℤ))) := by
  have h := numba_both
  have hd := long_dist hΔ
  have hd' : 0 < dist3 p q := by linarith
  obtain ⟨y, ey, hya, hyd⟩ := far_distance hΔ
  have hy5 : ((Fl.fin y : Fl Numba32) ^ 5) = Fl.inf false := by
    apply B32.pow_five_over
    refine le_trans ?_ hyd
    have : (52428800 : ℝ) ≤ 53000000 * (1 - 2 ^ (-20 : ℤ)) := by norm_num
    exact this.trans (mul_le_mul_of_nonneg_right hfar (by norm_num))
  have hm' : Mag (-80) 80 m := hm
  have hgm := Mag.gc.mul hm'
  have g1 : InSafeRange (2 ^ (-1022 : ℤ)) (2 ^ (1023 : ℤ)) Gc := Mag.gc.safe (by norm_num) (by norm_num)
  have g2 : InSafeRange (2 ^ (-1022 : ℤ)) (2 ^ (1023 : ℤ)) (Gc * m) := hgm.safe (by norm_num) (by norm_num)
  have hcoord : ∀ a : Axis, Mag (-20) 40 (p.coord a - q.coord a) := hΔ
  constructor
  · have key : ∀ (v w v' w' : MFl Numba32 Numba64) (a b : Axis), v.IsReal (p.coord a) → w.IsReal (q.coord a) →
        v'.IsReal (p.coord b) → w'.IsReal (q.coord b) →
        MFl.div (3 * (v - w) * (v' - w')) ((.f32 (Fl.fin y) : MFl Numba32 Numba64) ^ 5) = .ok (.f64 (Fl.fin 0)) := by
      intro v w v' w' a b hv hw hv' hw'
      have s1 := h.sub_exact hv hw ((hcoord a).safe32 (by norm_num) (by norm_num))
      have s2 := h.sub_exact hv' hw' ((hcoord b).safe32 (by norm_num) (by norm_num))
      have m1 := h.mulD (.inl (BothAccurate.nat_wide 3)) (h.nat 3) s1
        ((Mag.three.mul (hcoord a)).safe (by norm_num) (by norm_num)) (by norm_num)
      have m2 := h.mulD (.inl (BothAccurate.wide_mul (.inl (BothAccurate.nat_wide 3)))) m1 s2
        (((Mag.three.mul (hcoord a)).mul (hcoord b)).safe (by norm_num) (by norm_num)) (by norm_num)
      exact div_over (BothAccurate.wide_mul (.inl (BothAccurate.wide_mul (.inl (BothAccurate.nat_wide 3))))) m2 hy5
    have fin : ∀ {call : Py (MFl Numba32 Numba64)}, call = .ok (.f64 (Fl.fin 0)) →
        MReturnsNear (do let kernel ← call; return Mixed.GRAVITATIONAL_CONST * vm * kernel) 0 0 := by
      intro call hc
      obtain ⟨v, e, hv⟩ := h.absFinish (k := 0) hvm (by norm_num) g1 g2 (by rw [mul_zero]; exact .inl rfl)
        ⟨_, hc, zero_approx h⟩
      rw [mul_zero, mul_zero] at hv
      obtain ⟨z, e', hz, -⟩ := hv
      exact ⟨v, z, e, e', by simpa using hz⟩
    intro c hc
    simp only [List.mem_cons, List.not_mem_nil, or_false] at hc
    rcases hc with rfl | rfl | rfl
    · show MReturnsNear (do
        let kernel ← Mixed.point.kernel_en _ _ _ _ _ _ (MFl.sqrt _)
        return Mixed.GRAVITATIONAL_CONST * vm * kernel) 0 0
      rw [ey]
      exact fin (key _ _ _ _ .e .n (isReal_f32 _) (isReal_f32 _) (isReal_f32 _) (isReal_f32 _))
    · show MReturnsNear (do
        let kernel ← Mixed.point.kernel_eu _ _ _ _ _ _ (MFl.sqrt _)
        return Mixed.GRAVITATIONAL_CONST * vm * kernel) 0 0
      rw [ey]
      exact fin (key _ _ _ _ .e .u (isReal_f32 _) (isReal_f32 _) (isReal_f32 _) (isReal_f32 _))
    · show MReturnsNear (do
        let kernel ← Mixed.point.kernel_nu _ _ _ _ _ _ (MFl.sqrt _)
        return Mixed.GRAVITATIONAL_CONST * vm * kernel) 0 0
      rw [ey]
      exact fin (key _ _ _ _ .n .u (isReal_f32 _) (isReal_f32 _) (isReal_f32 _) (isReal_f32 _))
  · have hd3 := hd.pow three_ne_zero
    have hi := Mag.one.div hd3
    have key : ∀ (v w : MFl Numba32 Numba64) (a : Axis), v.IsReal (p.coord a) → w.IsReal (q.coord a) →
        MReturnsNear (do
          let kernel ← (do
            return (← MFl.div (3 * (v - w) ^ 2) ((.f32 (Fl.fin y) : MFl Numba32 Numba64) ^ 5)) - (← MFl.div 1 ((.f32 (Fl.fin y) : MFl Numba32 Numba64) ^ 3)))
          return Mixed.GRAVITATIONAL_CONST * vm * kernel) (-(6.6743e-11 * m / dist3 p q ^ 3)) (2 ^ (-17 : ℤ)) := by
      intro v w a hv hw
      have s1 := h.sub_exact hv hw ((hcoord a).safe32 (by norm_num) (by norm_num))
      have s2 := h.pow s1 le_rfl (((hcoord a).pow two_ne_zero).safe32 (by norm_num) (by norm_num)) (by norm_num)
      have m1 := h.mulD (.inl (BothAccurate.nat_wide 3)) (h.nat 3) s2
        ((Mag.three.mul ((hcoord a).pow two_ne_zero)).safe (by norm_num) (by norm_num)) (by norm_num)
      have e1 := div_over (BothAccurate.wide_mul (.inl (BothAccurate.nat_wide 3))) m1 hy5
      have c3 := h.pow hya (n := 3) (by norm_num) (hd3.safe32 (by norm_num) (by norm_num)) (by norm_num)
      obtain ⟨z, e2, hw2, hz⟩ := h.divD (.inl (BothAccurate.nat_wide 1)) (h.nat 1) c3 (pow_ne_zero 3 hd'.ne')
        (by rw [Nat.cast_one]; exact hi.safe (by norm_num) (by norm_num)) (by norm_num)
      rw [Nat.cast_one] at hz
      have hB : 0 + |1 / dist3 p q ^ 3| = 1 / dist3 p q ^ 3 := by
        rw [zero_add, abs_of_pos (by positivity)]
      have sub := h.absSubD (.inl ⟨_, rfl⟩) (zero_approx h) (h.toAbs hz)
        (by rw [hB]; exact hi.safe (by norm_num) (by norm_num)) (by norm_num)
      rw [hB] at sub
      have := mwithinOf h (by norm_num) (h.absFinish (k := 16) hvm (by norm_num) g1 g2
        ((hgm.abs.mul hi).safe (by norm_num) (by norm_num)) ⟨_, rfl, sub⟩)
      obtain ⟨r, t, er, et, ht⟩ := this
      refine ⟨r, t, ?_, et, ?_⟩
      · rw [← er, e1]
        have e2' : MFl.div 1 ((.f32 (Fl.fin y) : MFl Numba32 Numba64) ^ 3) = .ok z := e2
        rw [e2']
        rfl
      · have hg := gamma_single (k := 19) (e := -17) (by norm_num) (by norm_num)
        have e3 : Gc * m * (0 - 1 / dist3 p q ^ 3) = -(6.6743e-11 * m / dist3 p q ^ 3) := by unfold Gc; ring
        have e4 : |Gc * m| * (1 / dist3 p q ^ 3) = |(-(6.6743e-11 * m / dist3 p q ^ 3))| := by
          rw [← e3, abs_mul (Gc * m), zero_sub, abs_neg, abs_of_pos (by positivity : 0 < 1 / dist3 p q ^ 3)]
        rw [e3, e4] at ht
        exact ht.trans (mul_le_mul_of_nonneg_right hg (abs_nonneg _))
    intro a
    cases a
    · show MReturnsNear (do
        let kernel ← Mixed.point.kernel_ee _ _ _ _ _ _ (MFl.sqrt _)
        return Mixed.GRAVITATIONAL_CONST * vm * kernel) _ _
      rw [ey]
      exact key _ _ .e (isReal_f32 _) (isReal_f32 _)
    · show MReturnsNear (do
        let kernel ← Mixed.point.kernel_nn _ _ _ _ _ _ (MFl.sqrt _)
        return Mixed.GRAVITATIONAL_CONST * vm * kernel) _ _
      rw [ey]
      exact key _ _ .n (isReal_f32 _) (isReal_f32 _)
    · show MReturnsNear (do
        let kernel ← Mixed.point.kernel_uu _ _ _ _ _ _ (MFl.sqrt _)
        return Mixed.GRAVITATIONAL_CONST * vm * kernel) _ _
      rw [ey]
      exact key _ _ .u (isReal_f32 _) (isReal_f32 _)

omit hΔ hfar

/-- **C108.** The consequence: a positive mass seen along one of the axes from more than 53 000 km away.  The exact gradient
along that axis is `2 G m / d³ > 0`, the returned number is negative. -/
theorem C108_wrong_sign {vm : MFl Numba32 Numba64} {m x : ℝ} (hvm : vm.IsReal m) (hm : ModerateSize m) (hm0 : 0 < m)
    (hx : 53000000 ≤ x) (hx' : x ≤ 2 ^ (40 : ℤ)) :
    6.6743e-11 * m * (3 * x ^ 2 / x ^ 5 - 1 / x ^ 3) = 2 * (6.6743e-11 * m / x ^ 3) ∧
    ∃ v : MFl Numba32 Numba64, ∃ y : ℝ, y < 0 ∧ v.IsReal y ∧
      Mixed.onPair32 (Mixed.pointGravity .ee) (x, 0, 0) (0, 0, 0) vm = .ok v := by
  have hx0 : 0 < x := by linarith
  constructor
  · field_simp; ring
  have hd : dist3 (x, 0, 0) (0, 0, 0) = x := by
    unfold dist3
    simp only [Pt.e, Pt.n, Pt.u, sub_zero]
    rw [show x ^ 2 + (0 : ℝ) ^ 2 + 0 ^ 2 = x ^ 2 by ring, Real.sqrt_sq hx0.le]
  have hL : ∀ a : Axis, LongLength (Pt.coord (x, 0, 0) a - Pt.coord (0, 0, 0) a) := by
    intro a
    cases a
    · right
      show _ ≤ |x - 0| ∧ |x - 0| ≤ _
      rw [sub_zero, abs_of_pos hx0]
      exact ⟨le_trans (by norm_num) hx, hx'⟩
    · exact .inl (sub_self _)
    · exact .inl (sub_self _)
  obtain ⟨v, y, e, hv, hy⟩ := (C108_gradient hL (by rw [hd]; exact hx) hvm hm).2 .e
  refine ⟨v, y, ?_, hv, e⟩
  rw [hd] at hy
  have hp : 0 < 6.6743e-11 * m / x ^ 3 := by positivity
  generalize 6.6743e-11 * m / x ^ 3 = g at *
  rw [abs_neg, abs_of_pos hp] at hy
  have h1 := (abs_le.1 hy).2
  have h2 : (2 : ℝ) ^ (-17 : ℤ) ≤ 1 / 2 := by norm_num
  have h3 := mul_le_mul_of_nonneg_right h2 hp.le
  generalize (2 : ℝ) ^ (-17 : ℤ) * g = k at *
  linarith

end far

section third
variable {p q : Pt} (hΔ : ∀ a : Axis, ShortLength (p.coord a - q.coord a)) (hfar : 328000 ≤ dist3 p q)
include hΔ hfar

/-- **C108.** Beyond 328 km the third-order point kernels lack the term in `1 / d⁷`. -/
theorem C108_third_order :
    (∀ c a, (c, a) ∈ [(KComp.eee, Axis.e), (.nnn, .n), (.uuu, .u)] →
      MReturnsNear (Mixed.callKernel32 (S := Numba32) (D := Numba64) c p q) (9 * (p.coord a - q.coord a) / dist3 p q ^ 5)
        (2 ^ (-17 : ℤ))) ∧
    (∀ c a, (c, a) ∈ [(KComp.een, Axis.n), (.eeu, .u), (.nne, .e), (.nnu, .u), (.uue, .e), (.uun, .n)] →
      MReturnsNear (Mixed.callKernel32 (S := Numba32) (D := Numba64) c p q) (3 * (p.coord a - q.coord a) / dist3 p q ^ 5)
        (2 ^ (-17 : ℤ))) ∧
    MReturnsNear (Mixed.callKernel32 (S := Numba32) (D := Numba64) .enu p q) 0 0 := by
  have h := numba_both
  have hL : ∀ a : Axis, LongLength (p.coord a - q.coord a) := by
    intro a
    rcases hΔ a with h | ⟨h, h'⟩
    · exact .inl h
    · exact .inr ⟨h, h'.trans (Mag.zle (by norm_num))⟩
  have hd := short_dist hΔ
  have hd' : 0 < dist3 p q := by linarith
  obtain ⟨y, ey, hya, hyd⟩ := far_distance hL
  have hy7 : ((Fl.fin y : Fl Numba32) ^ 7) = Fl.inf false := by
    apply B32.pow_seven_over
    refine le_trans ?_ hyd
    have : (327680 : ℝ) ≤ 328000 * (1 - 2 ^ (-20 : ℤ)) := by norm_num
    exact this.trans (mul_le_mul_of_nonneg_right hfar (by norm_num))
  have hcoord : ∀ a : Axis, Mag (-20) 24 (p.coord a - q.coord a) := hΔ
  have hd5 := hd.pow (n := 5) (by norm_num)
  have w15 : (15 : MFl Numba32 Numba64).Wide := BothAccurate.nat_wide 15
  have m15 : Mag 3 4 ((15 : ℕ) : ℝ) := by right; norm_num
  have coordR : ∀ a : Axis, ∀ v w : MFl Numba32 Numba64, v.IsReal (p.coord a) → w.IsReal (q.coord a) →
      MApprox (2 ^ (-23 : ℤ)) 1 (v - w) (p.coord a - q.coord a) :=
    fun a v w hv hw => h.sub_exact hv hw ((hcoord a).safe32 (by norm_num) (by norm_num))
  have first : ∀ (n : ℕ) (a : Axis) (v w T : MFl Numba32 Numba64) (k : ℕ) (t : ℝ), Mag 1 4 (n : ℝ) → v.IsReal (p.coord a) →
      w.IsReal (q.coord a) → T.Wide → MApprox (2 ^ (-23 : ℤ)) k T t →
      MReturnsNear (do
        return (← MFl.div ((OfNat.ofNat n) * (v - w)) ((.f32 (Fl.fin y) : MFl Numba32 Numba64) ^ 5))
          - (← MFl.div T ((.f32 (Fl.fin y) : MFl Numba32 Numba64) ^ 7)))
        (n * (p.coord a - q.coord a) / dist3 p q ^ 5) (2 ^ (-17 : ℤ)) := by
    intro n a v w T k t hn hv hw hT ht
    have hna := hn.mul (hcoord a)
    have hq := hna.div hd5
    have m1 := h.mulD (.inl (BothAccurate.nat_wide n)) (h.nat n) (coordR a v w hv hw)
      (hna.safe (by norm_num) (by norm_num)) (by norm_num)
    have c5 := h.pow hya (n := 5) (by norm_num) (hd5.safe32 (by norm_num) (by norm_num)) (by norm_num)
    obtain ⟨z, e1, hzw, hz⟩ := h.divD (.inl (BothAccurate.wide_mul (.inl (BothAccurate.nat_wide n)))) m1 c5
      (pow_ne_zero 5 hd'.ne') (hq.safe (by norm_num) (by norm_num)) (by norm_num)
    have e2 := div_over hT ht hy7
    have sub := h.absSubD (.inl hzw) (h.toAbs hz) (zero_approx h)
      (by rw [add_zero]; exact hq.abs.safe (by norm_num) (by norm_num)) (by norm_num)
    rw [sub_zero, add_zero] at sub
    have h28 : MAbs (2 ^ (-23 : ℤ)) 28 (z - .f64 (Fl.fin 0)) (n * (p.coord a - q.coord a) / dist3 p q ^ 5)
        |n * (p.coord a - q.coord a) / dist3 p q ^ 5| := h.absMono (by norm_num) le_rfl sub
    obtain ⟨r, x, er, ex, hx⟩ := mwithinOf h (by norm_num) ⟨_, rfl, h28⟩
    refine ⟨r, x, ?_, ex, hx.trans (mul_le_mul_of_nonneg_right (gamma_single (by norm_num) (by norm_num)) (abs_nonneg _))⟩
    rw [← er, e1, e2]
    rfl
  have cube : ∀ (a : Axis) (v w : MFl Numba32 Numba64), v.IsReal (p.coord a) → w.IsReal (q.coord a) →
      MApprox (2 ^ (-23 : ℤ)) 6 (15 * (v - w) ^ 3) (15 * (p.coord a - q.coord a) ^ 3) := by
    intro a v w hv hw
    have h3 := (hcoord a).pow three_ne_zero
    exact h.mulD (.inl w15) (h.nat 15) (h.pow (coordR a v w hv hw) (n := 3) (by norm_num)
      (h3.safe32 (by norm_num) (by norm_num)) (by norm_num)) ((m15.mul h3).safe (by norm_num) (by norm_num)) (by norm_num)
  have mixed : ∀ (a b : Axis) (v w v' w' : MFl Numba32 Numba64), v.IsReal (p.coord a) → w.IsReal (q.coord a) →
      v'.IsReal (p.coord b) → w'.IsReal (q.coord b) →
      MApprox (2 ^ (-23 : ℤ)) 6 (15 * (v - w) ^ 2 * (v' - w')) (15 * (p.coord a - q.coord a) ^ 2 * (p.coord b - q.coord b)) := by
    intro a b v w v' w' hv hw hv' hw'
    have h2 := (hcoord a).pow two_ne_zero
    have m1 := h.mulD (.inl w15) (h.nat 15) (h.pow (coordR a v w hv hw) (n := 2) (by norm_num)
      (h2.safe32 (by norm_num) (by norm_num)) (by norm_num)) ((m15.mul h2).safe (by norm_num) (by norm_num)) (by norm_num)
    exact h.mulD (.inl (BothAccurate.wide_mul (.inl w15))) m1 (coordR b v' w' hv' hw')
      (((m15.mul h2).mul (hcoord b)).safe (by norm_num) (by norm_num)) (by norm_num)
  have ww : ∀ v w : MFl Numba32 Numba64, (15 * v * w).Wide := fun v w =>
    BothAccurate.wide_mul (.inl (BothAccurate.wide_mul (.inl w15)))
  have n9 : Mag 1 4 ((9 : ℕ) : ℝ) := by right; norm_num
  have n3 : Mag 1 4 ((3 : ℕ) : ℝ) := by right; norm_num
  have e9 : ((9 : ℕ) : ℝ) = 9 := by norm_num
  have e3 : ((3 : ℕ) : ℝ) = 3 := by norm_num
  refine ⟨fun c a hc => ?_, fun c a hc => ?_, ?_⟩
  · simp only [List.mem_cons, Prod.mk.injEq, List.not_mem_nil, or_false] at hc
    rcases hc with ⟨rfl, rfl⟩ | ⟨rfl, rfl⟩ | ⟨rfl, rfl⟩
    · show MReturnsNear (Mixed.onPair32 Mixed.point.kernel_eee p q (MFl.sqrt _)) _ _
      rw [ey, ← e9]
      exact first 9 .e _ _ _ _ _ n9 (isReal_f32 _) (isReal_f32 _) (BothAccurate.wide_mul (.inl w15))
        (cube .e _ _ (isReal_f32 _) (isReal_f32 _))
    · show MReturnsNear (Mixed.onPair32 Mixed.point.kernel_nnn p q (MFl.sqrt _)) _ _
      rw [ey, ← e9]
      exact first 9 .n _ _ _ _ _ n9 (isReal_f32 _) (isReal_f32 _) (BothAccurate.wide_mul (.inl w15))
        (cube .n _ _ (isReal_f32 _) (isReal_f32 _))
    · show MReturnsNear (Mixed.onPair32 Mixed.point.kernel_uuu p q (MFl.sqrt _)) _ _
      rw [ey, ← e9]
      exact first 9 .u _ _ _ _ _ n9 (isReal_f32 _) (isReal_f32 _) (BothAccurate.wide_mul (.inl w15))
        (cube .u _ _ (isReal_f32 _) (isReal_f32 _))
  · simp only [List.mem_cons, Prod.mk.injEq, List.not_mem_nil, or_false] at hc
    rcases hc with ⟨rfl, rfl⟩ | ⟨rfl, rfl⟩ | ⟨rfl, rfl⟩ | ⟨rfl, rfl⟩ | ⟨rfl, rfl⟩ | ⟨rfl, rfl⟩
    · show MReturnsNear (Mixed.onPair32 Mixed.point.kernel_een p q (MFl.sqrt _)) _ _
      rw [ey, ← e3]
      exact first 3 .n _ _ _ _ _ n3 (isReal_f32 _) (isReal_f32 _) (ww _ _)
        (mixed .e .n _ _ _ _ (isReal_f32 _) (isReal_f32 _) (isReal_f32 _) (isReal_f32 _))
    · show MReturnsNear (Mixed.onPair32 Mixed.point.kernel_eeu p q (MFl.sqrt _)) _ _
      rw [ey, ← e3]
      exact first 3 .u _ _ _ _ _ n3 (isReal_f32 _) (isReal_f32 _) (ww _ _)
        (mixed .e .u _ _ _ _ (isReal_f32 _) (isReal_f32 _) (isReal_f32 _) (isReal_f32 _))
    · show MReturnsNear (Mixed.onPair32 Mixed.point.kernel_nne p q (MFl.sqrt _)) _ _
      rw [ey, ← e3]
      exact first 3 .e _ _ _ _ _ n3 (isReal_f32 _) (isReal_f32 _) (ww _ _)
        (mixed .n .e _ _ _ _ (isReal_f32 _) (isReal_f32 _) (isReal_f32 _) (isReal_f32 _))
    · show MReturnsNear (Mixed.onPair32 Mixed.point.kernel_nnu p q (MFl.sqrt _)) _ _
      rw [ey, ← e3]
      exact first 3 .u _ _ _ _ _ n3 (isReal_f32 _) (isReal_f32 _) (ww _ _)
        (mixed .n .u _ _ _ _ (isReal_f32 _) (isReal_f32 _) (isReal_f32 _) (isReal_f32 _))
    · show MReturnsNear (Mixed.onPair32 Mixed.point.kernel_uue p q (MFl.sqrt _)) _ _
      rw [ey, ← e3]
      exact first 3 .e _ _ _ _ _ n3 (isReal_f32 _) (isReal_f32 _) (ww _ _)
        (mixed .u .e _ _ _ _ (isReal_f32 _) (isReal_f32 _) (isReal_f32 _) (isReal_f32 _))
    · show MReturnsNear (Mixed.onPair32 Mixed.point.kernel_uun p q (MFl.sqrt _)) _ _
      rw [ey, ← e3]
      exact first 3 .n _ _ _ _ _ n3 (isReal_f32 _) (isReal_f32 _) (ww _ _)
        (mixed .u .n _ _ _ _ (isReal_f32 _) (isReal_f32 _) (isReal_f32 _) (isReal_f32 _))
  · have wm15 : (-15 : MFl Numba32 Numba64).Wide := ⟨_, rfl⟩
    have m1 := h.mulD (.inl wm15) (h.neg (h.nat 15)) (coordR .e (.f32 (Fl.fin p.e)) (.f32 (Fl.fin q.e)) (isReal_f32 _) (isReal_f32 _))
      ((m15.neg.mul (hcoord .e)).safe (by norm_num) (by norm_num)) (by norm_num)
    have m2 := h.mulD (.inl (BothAccurate.wide_mul (.inl wm15))) m1
      (coordR .n (.f32 (Fl.fin p.n)) (.f32 (Fl.fin q.n)) (isReal_f32 _) (isReal_f32 _))
      (((m15.neg.mul (hcoord .e)).mul (hcoord .n)).safe (by norm_num) (by norm_num)) (by norm_num)
    have m3 := h.mulD (.inl (BothAccurate.wide_mul (.inl (BothAccurate.wide_mul (.inl wm15))))) m2
      (coordR .u (.f32 (Fl.fin p.u)) (.f32 (Fl.fin q.u)) (isReal_f32 _) (isReal_f32 _))
      ((((m15.neg.mul (hcoord .e)).mul (hcoord .n)).mul (hcoord .u)).safe (by norm_num) (by norm_num)) (by norm_num)
    have e := div_over (BothAccurate.wide_mul (.inl (BothAccurate.wide_mul (.inl (BothAccurate.wide_mul (.inl wm15)))))) m3 hy7
    refine ⟨.f64 (Fl.fin 0), 0, ?_, rfl, by simp⟩
    show Mixed.onPair32 Mixed.point.kernel_enu p q (MFl.sqrt _) = _
    rw [ey]
    exact e

end third

/-! ### a mass seen from 100 000 km -/

example : ∃ v : MFl Numba32 Numba64, ∃ y : ℝ, y < 0 ∧ v.IsReal y ∧
    Mixed.onPair32 (Mixed.pointGravity .ee) (100000000, 0, 0) (0, 0, 0) (.f32 (Fl.fin 1000)) = .ok v :=
  (C108_wrong_sign (isReal_f32 1000) (moderate_of (by norm_num [abs_of_pos]) (by norm_num [abs_of_pos])) (by norm_num)
    (by norm_num) (by norm_num)).2

/-- the kernels 500 km above a point -/
example : MReturnsNear (Mixed.callKernel32 (S := Numba32) (D := Numba64) .uuu (0, 0, 500000) (0, 0, 0))
    (9 * (500000 - 0) / dist3 (0, 0, 500000) (0, 0, 0) ^ 5) (2 ^ (-17 : ℤ)) :=
  (C108_third_order (p := (0, 0, 500000)) (q := (0, 0, 0))
    (by
      intro a
      cases a
      · exact .inl (sub_self _)
      · exact .inl (sub_self _)
      · show ShortLength ((500000 : ℝ) - 0)
        apply short_of <;> norm_num [abs_of_pos])
    (by
      show 328000 ≤ Real.sqrt ((0 - 0) ^ 2 + (0 - 0) ^ 2 + (500000 - 0) ^ 2)
      apply Real.le_sqrt_of_sq_le
      norm_num)).1 .uuu .u (by simp)

end Choclo
