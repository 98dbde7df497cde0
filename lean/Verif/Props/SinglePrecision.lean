import Verif.Lemmas.MixedError
import Verif.Lemmas.NumbaPow32
import Verif.Props.NumbaPow

/-!
# Accuracy of calls with float32 arguments (C107)

Whatever mixture of float32 and float64 numbers is passed (`IsReal`: an argument is the real number, in either type),
the results have about six correct decimal digits, if the coordinate differences are zero or between a micrometre and
16777 km.  `C108` shows that the upper limit cannot be lifted by much.
-/

namespace Choclo

variable {S D : Arith} {u lo hi lo' hi' : ℝ}

theorem mnearOf (h : BothAccurate S D u lo hi lo' hi') {k : ℕ} (hk : k ≤ 64) {call : Py (MFl S D)} {x : ℝ}
    (hc : ∃ v, call = .ok v ∧ MApprox u k v x) : MReturnsNear call x (gammaErr u k) := by
  obtain ⟨v, e, hv⟩ := hc
  obtain ⟨y, e', hy⟩ := h.double.bound hv (by
    have h1 : (k : ℝ) ≤ 64 := by exact_mod_cast hk
    have := h.double.u_small
    have := h.double.u_nonneg
    nlinarith)
  exact ⟨v, y, e, e', hy⟩

theorem mwithinOf (h : BothAccurate S D u lo hi lo' hi') {k : ℕ} (hk : k ≤ 64) {call : Py (MFl S D)} {x B : ℝ}
    (hc : ∃ v, call = .ok v ∧ MAbs u k v x B) : MReturnsWithin call x (gammaErr u k * B) := by
  obtain ⟨v, e, hv⟩ := hc
  obtain ⟨y, e', hy⟩ := h.double.absBound hv (by
    have h1 : (k : ℝ) ≤ 64 := by exact_mod_cast hk
    have := h.double.u_small
    have := h.double.u_nonneg
    nlinarith)
  exact ⟨v, y, e, e', hy⟩

theorem numba_both : BothAccurate Numba32 Numba64 (2 ^ (-23 : ℤ)) (2 ^ (-126 : ℤ)) (2 ^ (127 : ℤ)) (2 ^ (-1022 : ℤ))
    (2 ^ (1023 : ℤ)) :=
  ⟨Numba32_accurate, Numba64_accurate.larger (Mag.zle (by norm_num)) (by norm_num), Mag.zle (by norm_num), Mag.zle (by norm_num)⟩

theorem Mag.safe32 {a b : ℤ} {x : ℝ} (hx : Mag a b x) (ha : -125 ≤ a) (hb : b ≤ 126) :
    InSafeRange (2 ^ (-126 : ℤ)) (2 ^ (127 : ℤ)) x := by
  rcases hx with hx | ⟨h1, h2⟩
  · exact .inl hx
  right
  have e1 : (2 : ℝ) * 2 ^ (-126 : ℤ) = 2 ^ (-125 : ℤ) := by
    rw [show (-125 : ℤ) = -126 + 1 by norm_num, zpow_add_one₀ (by norm_num)]; ring
  have e2 : (2 : ℝ) ^ (127 : ℤ) = 2 * 2 ^ (126 : ℤ) := by
    rw [show (127 : ℤ) = 126 + 1 by norm_num, zpow_add_one₀ (by norm_num)]; ring
  rw [e1, e2]
  refine ⟨(zle ha).trans h1, ?_⟩
  exact mul_le_mul_of_nonneg_left (h2.trans (zle hb)) (by norm_num)

theorem gamma_single {k : ℕ} {e : ℤ} (hk : k ≤ 64) (hke : (k : ℝ) * 2 ^ (-22 : ℤ) ≤ 2 ^ e) :
    gammaErr (2 ^ (-23 : ℤ)) k ≤ 2 ^ e := by
  refine le_trans ?_ hke
  unfold gammaErr
  have h1 : (k : ℝ) ≤ 64 := by exact_mod_cast hk
  have e2 : (2 : ℝ) ^ (-22 : ℤ) = 2 * 2 ^ (-23 : ℤ) := by norm_num
  have h3 : (2 : ℝ) ^ (-23 : ℤ) ≤ 1 / 128 := by norm_num
  have h0 := Mag.zp (-23)
  rw [e2]
  generalize (2 : ℝ) ^ (-23 : ℤ) = u at *
  have h4 : (k : ℝ) * u ≤ 1 / 2 := by nlinarith
  have hk0 : (0 : ℝ) ≤ k := Nat.cast_nonneg k
  rw [div_le_iff₀ (by linarith)]
  nlinarith [mul_nonneg hk0 h0.le]

theorem near_single {k : ℕ} {e : ℤ} (hk : k ≤ 64) (hke : (k : ℝ) * 2 ^ (-22 : ℤ) ≤ 2 ^ e)
    {call : Py (MFl S D)} {x : ℝ} (h : MReturnsNear call x (gammaErr (2 ^ (-23 : ℤ)) k)) : MReturnsNear call x (2 ^ e) := by
  obtain ⟨v, y, e, e', hy⟩ := h
  exact ⟨v, y, e, e', hy.trans (mul_le_mul_of_nonneg_right (gamma_single hk hke) (abs_nonneg x))⟩

section pairs
variable {p q : Pt} (hΔ : ∀ a : Axis, ShortLength (p.coord a - q.coord a))
include hΔ

theorem short_dist : Mag (-20) 25 (dist3 p q) := by
  have he : Mag (-20) 24 (p.e - q.e) := hΔ .e
  have hn : Mag (-20) 24 (p.n - q.n) := hΔ .n
  have hu : Mag (-20) 24 (p.u - q.u) := hΔ .u
  unfold dist3
  apply Mag.sqrt
  have h1 := (he.pow two_ne_zero).add (hn.pow two_ne_zero) (sq_nonneg _) (sq_nonneg _)
  exact (h1.add ((hu.pow two_ne_zero).weaken le_rfl (by norm_num)) (by positivity) (sq_nonneg _)).weaken
    (by norm_num) (by norm_num)

theorem short_safe : ∀ t ∈ distanceSteps p q, InSafeRange (2 ^ (-126 : ℤ)) (2 ^ (127 : ℤ)) t := by
  have he : Mag (-20) 24 (p.e - q.e) := hΔ .e
  have hn : Mag (-20) 24 (p.n - q.n) := hΔ .n
  have hu : Mag (-20) 24 (p.u - q.u) := hΔ .u
  have h1 := (he.pow two_ne_zero).add (hn.pow two_ne_zero) (sq_nonneg _) (sq_nonneg _)
  have h2 := h1.add ((hu.pow two_ne_zero).weaken le_rfl (by norm_num)) (by positivity) (sq_nonneg _)
  simp only [distanceSteps, List.mem_cons, List.not_mem_nil, or_false, forall_eq_or_imp, forall_eq]
  exact ⟨he.safe32 (by norm_num) (by norm_num), hn.safe32 (by norm_num) (by norm_num),
    hu.safe32 (by norm_num) (by norm_num), (he.pow two_ne_zero).safe32 (by norm_num) (by norm_num),
    (hn.pow two_ne_zero).safe32 (by norm_num) (by norm_num),
    (hu.pow two_ne_zero).safe32 (by norm_num) (by norm_num),
    h1.safe32 (by norm_num) (by norm_num), h2.safe32 (by norm_num) (by norm_num),
    (short_dist hΔ).safe32 (by norm_num) (by norm_num)⟩

variable {ep np up eq nq uq : MFl Numba32 Numba64} (hA : ArePoints ep np up eq nq uq p q)
include hA

/-- **C107.** `distance_cartesian`. -/
theorem C107_distance :
    MReturnsNear (Mixed.utils.distance_cartesian ep np up eq nq uq) (dist3 p q) (2 ^ (-20 : ℤ)) :=
  near_single (k := 4) (by norm_num) (by norm_num)
    (mnearOf numba_both (by norm_num) ⟨_, rfl, numba_both.distance hA (short_safe hΔ)⟩)

/-- **C107.** The gravitational potential, acceleration and off-diagonal gradient of a point mass. -/
theorem C107_point (hpq : p ≠ q) {vm : MFl Numba32 Numba64} {m : ℝ} (hvm : vm.IsReal m) (hm : ModerateSize m) :
    MReturnsNear (Mixed.point.gravity_pot ep np up eq nq uq vm) (6.6743e-11 * m / dist3 p q) (2 ^ (-19 : ℤ)) ∧
    (∀ a : Axis, MReturnsNear (Mixed.pointGravity a.acc ep np up eq nq uq vm)
      (-(6.6743e-11 * m * (p.coord a - q.coord a)) / dist3 p q ^ 3) (2 ^ (-17 : ℤ))) ∧
    (∀ c a b, (c, a, b) ∈ [(GComp.en, Axis.e, Axis.n), (.eu, .e, .u), (.nu, .n, .u)] →
      MReturnsNear (Mixed.pointGravity c ep np up eq nq uq vm)
        (6.6743e-11 * m * (3 * (p.coord a - q.coord a) * (p.coord b - q.coord b)) / dist3 p q ^ 5)
        (2 ^ (-17 : ℤ))) := by
  have h := numba_both
  have hd0 : dist3 p q ≠ 0 := fun h' => hpq (dist3_eq_zero.mp h')
  have hd := short_dist hΔ
  have hs := short_safe hΔ
  have hdv := h.distance hA hs
  have hm' : Mag (-80) 80 m := hm
  have hgm := Mag.gc.mul hm'
  have hinv := Mag.one.div hd
  have hcoord : ∀ a : Axis, Mag (-20) 24 (p.coord a - q.coord a) := hΔ
  have g1 : InSafeRange (2 ^ (-1022 : ℤ)) (2 ^ (1023 : ℤ)) Gc := Mag.gc.safe (by norm_num) (by norm_num)
  have g2 : InSafeRange (2 ^ (-1022 : ℤ)) (2 ^ (1023 : ℤ)) (Gc * m) := hgm.safe (by norm_num) (by norm_num)
  refine ⟨?_, fun a => ?_, fun c a b hc => ?_⟩
  · refine near_single (k := 8) (by norm_num) (by norm_num) (mnearOf h (by norm_num) ?_)
    rw [show (6.6743e-11 * m / dist3 p q : ℝ) = Gc * m * (1 / dist3 p q) by unfold Gc; ring]
    obtain ⟨v, e, hv⟩ := h.inv_distance hd0 hdv (hinv.safe (by norm_num) (by norm_num))
    exact h.finish (k := 5) hvm (by norm_num) g1 g2 ((hgm.mul hinv).safe (by norm_num) (by norm_num)) ⟨v, by rw [← e]; rfl, hv⟩
  · have hd3 := hd.pow three_ne_zero
    have hda := hcoord a
    have hq := hda.neg.div hd3
    refine near_single (k := 19) (by norm_num) (by norm_num) (mnearOf h (by norm_num) ?_)
    rw [show (-(6.6743e-11 * m * (p.coord a - q.coord a)) / dist3 p q ^ 3 : ℝ)
      = Gc * m * (-(p.coord a - q.coord a) / dist3 p q ^ 3) by unfold Gc; ring]
    have s1 := hda.safe32 (by norm_num) (by norm_num)
    have s3 := hd3.safe32 (by norm_num) (by norm_num)
    have s4 := hq.safe32 (by norm_num) (by norm_num)
    have s5 := (hgm.mul hq).safe (by norm_num) (by norm_num)
    cases a
    · obtain ⟨v, e, hv⟩ := h.acc_kernel hA.ep hA.eq hd0 hdv s1 s3 s4
      exact h.finish (k := 16) hvm (by norm_num) g1 g2 s5 ⟨v, by rw [← e]; rfl, hv⟩
    · obtain ⟨v, e, hv⟩ := h.acc_kernel hA.np hA.nq hd0 hdv s1 s3 s4
      exact h.finish (k := 16) hvm (by norm_num) g1 g2 s5 ⟨v, by rw [← e]; rfl, hv⟩
    · obtain ⟨v, e, hv⟩ := h.acc_kernel hA.up hA.uq hd0 hdv s1 s3 s4
      exact h.finish (k := 16) hvm (by norm_num) g1 g2 s5 ⟨v, by rw [← e]; rfl, hv⟩
  · have hda := hcoord a
    have hdb := hcoord b
    have hd5 := hd.pow (n := 5) (by norm_num)
    have h3 := Mag.three.mul hda
    have hq := (h3.mul hdb).div hd5
    refine near_single (k := 32) (by norm_num) (by norm_num) (mnearOf h (by norm_num) ?_)
    rw [show (6.6743e-11 * m * (3 * (p.coord a - q.coord a) * (p.coord b - q.coord b)) / dist3 p q ^ 5 : ℝ)
      = Gc * m * (3 * (p.coord a - q.coord a) * (p.coord b - q.coord b) / dist3 p q ^ 5) by unfold Gc; ring]
    have s1 := hda.safe32 (by norm_num) (by norm_num)
    have s2 := hdb.safe32 (by norm_num) (by norm_num)
    have s3 := h3.safe (by norm_num) (by norm_num)
    have s4 := (h3.mul hdb).safe (by norm_num) (by norm_num)
    have s5 := hd5.safe32 (by norm_num) (by norm_num)
    have s6 := hq.safe (by norm_num) (by norm_num)
    have s7 := (hgm.mul hq).safe (by norm_num) (by norm_num)
    simp only [List.mem_cons, Prod.mk.injEq, List.not_mem_nil, or_false] at hc
    rcases hc with ⟨rfl, rfl, rfl⟩ | ⟨rfl, rfl, rfl⟩ | ⟨rfl, rfl, rfl⟩
    · obtain ⟨v, e, hv⟩ := h.off_kernel hA.ep hA.eq hA.np hA.nq hd0 hdv s1 s2 s3 s4 s5 s6
      exact h.finish (k := 29) hvm (by norm_num) g1 g2 s7 ⟨v, by rw [← e]; rfl, hv⟩
    · obtain ⟨v, e, hv⟩ := h.off_kernel hA.ep hA.eq hA.up hA.uq hd0 hdv s1 s2 s3 s4 s5 s6
      exact h.finish (k := 29) hvm (by norm_num) g1 g2 s7 ⟨v, by rw [← e]; rfl, hv⟩
    · obtain ⟨v, e, hv⟩ := h.off_kernel hA.np hA.nq hA.up hA.uq hd0 hdv s1 s2 s3 s4 s5 s6
      exact h.finish (k := 29) hvm (by norm_num) g1 g2 s7 ⟨v, by rw [← e]; rfl, hv⟩

/-- **C107.** The diagonal components of the gradient of a point mass. -/
theorem C107_diagonal (hpq : p ≠ q) {vm : MFl Numba32 Numba64} {m : ℝ} (hvm : vm.IsReal m) (hm : ModerateSize m) (a : Axis) :
    MReturnsWithin (Mixed.pointGravity a.diag ep np up eq nq uq vm)
      (6.6743e-11 * m * (3 * (p.coord a - q.coord a) ^ 2 / dist3 p q ^ 5 - 1 / dist3 p q ^ 3))
      (2 ^ (-14 : ℤ) * (6.6743e-11 * |m| / dist3 p q ^ 3)) := by
  have h := numba_both
  have hd0 : dist3 p q ≠ 0 := fun h' => hpq (dist3_eq_zero.mp h')
  have hd' : 0 < dist3 p q := lt_of_le_of_ne (Real.sqrt_nonneg _) (Ne.symm hd0)
  have hd := short_dist hΔ
  have hs := short_safe hΔ
  have hdv := h.distance hA hs
  have hm' : Mag (-80) 80 m := hm
  have hgm := Mag.gc.mul hm'
  have hda : Mag (-20) 24 (p.coord a - q.coord a) := hΔ a
  have hd5 := hd.pow (n := 5) (by norm_num)
  have hd3 := hd.pow (n := 3) (by norm_num)
  have h3 := Mag.three.mul (hda.pow two_ne_zero)
  have hq := h3.div hd5
  have hi := Mag.one.div hd3
  have hsum := (hq.weaken (a' := -800) (b' := 800) (by norm_num) (by norm_num)).add
    (hi.weaken (a' := -800) (b' := 800) (by norm_num) (by norm_num)) (by positivity) (by positivity)
  have hle : (p.coord a - q.coord a) ^ 2 ≤ dist3 p q ^ 2 := by
    unfold dist3
    rw [Real.sq_sqrt (by positivity)]
    have := sq_nonneg (p.e - q.e)
    have := sq_nonneg (p.n - q.n)
    have := sq_nonneg (p.u - q.u)
    cases a <;> simp only [Pt.coord] <;> linarith
  have hB : |Gc * m| * (3 * (p.coord a - q.coord a) ^ 2 / dist3 p q ^ 5 + 1 / dist3 p q ^ 3)
      ≤ 4 * (6.6743e-11 * |m| / dist3 p q ^ 3) := by
    have h1 : 3 * (p.coord a - q.coord a) ^ 2 / dist3 p q ^ 5 ≤ 3 / dist3 p q ^ 3 := by
      rw [div_le_div_iff₀ (by positivity) (by positivity)]
      have : dist3 p q ^ 5 = dist3 p q ^ 2 * dist3 p q ^ 3 := by ring
      rw [this]
      have h3 : 0 < dist3 p q ^ 3 := by positivity
      nlinarith
    rw [abs_mul, show |Gc| = 6.6743e-11 by unfold Gc; exact abs_of_pos (by norm_num)]
    calc _ ≤ 6.6743e-11 * |m| * (3 / dist3 p q ^ 3 + 1 / dist3 p q ^ 3) := by gcongr
      _ = _ := by ring
  have g1 : InSafeRange (2 ^ (-1022 : ℤ)) (2 ^ (1023 : ℤ)) Gc := Mag.gc.safe (by norm_num) (by norm_num)
  have g2 : InSafeRange (2 ^ (-1022 : ℤ)) (2 ^ (1023 : ℤ)) (Gc * m) := hgm.safe (by norm_num) (by norm_num)
  have s0 := hda.safe32 (by norm_num) (by norm_num)
  have s3 := (hda.pow two_ne_zero).safe32 (by norm_num) (by norm_num)
  have s4 := h3.safe (by norm_num) (by norm_num)
  have s5 := hd5.safe32 (by norm_num) (by norm_num)
  have s6 := hq.safe (by norm_num) (by norm_num)
  have s7 := hd3.safe32 (by norm_num) (by norm_num)
  have s8 := hi.safe (by norm_num) (by norm_num)
  have s9 := hsum.safe (by norm_num) (by norm_num)
  have s10 := (hgm.abs.mul hsum).safe (by norm_num) (by norm_num)
  have key : MReturnsWithin (Mixed.pointGravity a.diag ep np up eq nq uq vm)
      (Gc * m * (3 * (p.coord a - q.coord a) ^ 2 / dist3 p q ^ 5 - 1 / dist3 p q ^ 3))
      (gammaErr (2 ^ (-23 : ℤ)) 33 * (4 * (6.6743e-11 * |m| / dist3 p q ^ 3))) := by
    refine mwithinOf h (by norm_num) ?_
    cases a
    · obtain ⟨v, e, hv⟩ := h.diag_kernel hA.ep hA.eq hd' hdv s0 s3 s4 s5 s6 s7 s8 s9
      obtain ⟨w, e', hw⟩ := h.absFinish (k := 30) hvm (by norm_num) g1 g2 s10 ⟨v, e, hv⟩
      exact ⟨w, by rw [← e']; rfl, h.absMono le_rfl hB hw⟩
    · obtain ⟨v, e, hv⟩ := h.diag_kernel hA.np hA.nq hd' hdv s0 s3 s4 s5 s6 s7 s8 s9
      obtain ⟨w, e', hw⟩ := h.absFinish (k := 30) hvm (by norm_num) g1 g2 s10 ⟨v, e, hv⟩
      exact ⟨w, by rw [← e']; rfl, h.absMono le_rfl hB hw⟩
    · obtain ⟨v, e, hv⟩ := h.diag_kernel hA.up hA.uq hd' hdv s0 s3 s4 s5 s6 s7 s8 s9
      obtain ⟨w, e', hw⟩ := h.absFinish (k := 30) hvm (by norm_num) g1 g2 s10 ⟨v, e, hv⟩
      exact ⟨w, by rw [← e']; rfl, h.absMono le_rfl hB hw⟩
  obtain ⟨v, y, e, e', hy⟩ := key
  refine ⟨v, y, e, e', hy.trans ?_⟩
  have := gamma_single (k := 33) (e := -16) (by norm_num) (by norm_num)
  have e4 : (2 : ℝ) ^ (-14 : ℤ) = 2 ^ (-16 : ℤ) * 4 := by norm_num
  rw [e4, mul_assoc]
  exact mul_le_mul_of_nonneg_right this (by positivity)

/-- **C107.** The magnetic field of a dipole. -/
theorem C107_dipole (hpq : p ≠ q) {me mn mu : MFl Numba32 Numba64} {m : Pt} (hme : me.IsReal m.e) (hmn : mn.IsReal m.n)
    (hmu : mu.IsReal m.u) (hm : ∀ a : Axis, ShortMoment (m.coord a)) (a : Axis) :
    MReturnsWithin (Mixed.dipoleMagnetic a ep np up eq nq uq me mn mu)
      (1.25663706212e-06 / 4 / Real.pi *
        (3 * (m.e * (p.e - q.e) + m.n * (p.n - q.n) + m.u * (p.u - q.u)) * (p.coord a - q.coord a)
          / dist3 p q ^ 5 - m.coord a / dist3 p q ^ 3))
      (2 ^ (-14 : ℤ) * (1.25663706212e-06 / 4 / Real.pi * dist3 m (0, 0, 0) / dist3 p q ^ 3)) := by
  have h := numba_both
  have hp : Numba64.PiAccurate (2 ^ (-23 : ℤ)) :=
    Numba64_piAccurate.trans (mul_le_mul_of_nonneg_right (Mag.zle (by norm_num)) Real.pi_pos.le)
  have hd0 : dist3 p q ≠ 0 := fun h' => hpq (dist3_eq_zero.mp h')
  have hd' : 0 < dist3 p q := lt_of_le_of_ne (Real.sqrt_nonneg _) (Ne.symm hd0)
  have hd := short_dist hΔ
  have hs := short_safe hΔ
  have he : Mag (-20) 24 (p.e - q.e) := hΔ .e
  have hn : Mag (-20) 24 (p.n - q.n) := hΔ .n
  have hu : Mag (-20) 24 (p.u - q.u) := hΔ .u
  have hMe : Mag (-40) 40 m.e := hm .e
  have hMn : Mag (-40) 40 m.n := hm .n
  have hMu : Mag (-40) 40 m.u := hm .u
  have hda : Mag (-20) 24 (p.coord a - q.coord a) := hΔ a
  have hma : Mag (-40) 40 (m.coord a) := hm a
  have hd5 := hd.pow (n := 5) (by norm_num)
  have hd3 := hd.pow (n := 3) (by norm_num)
  have m1 := hMe.mul he
  have m2 := hMn.mul hn
  have m3 := hMu.mul hu
  have s2 := m1.abs.add m2.abs (abs_nonneg _) (abs_nonneg _)
  have s3 := s2.add (m3.abs.weaken le_rfl (by norm_num)) (by positivity) (abs_nonneg _)
  have t1 := Mag.three.mul s3
  have t2 := t1.mul hda.abs
  have t3 := t2.div hd5
  have t4 := hma.div hd3
  have t5 := (t3.weaken (a' := -830) (b' := 830) (by norm_num) (by norm_num)).add
    (t4.abs.weaken (a' := -830) (b' := 830) (by norm_num) (by norm_num)) (by positivity) (abs_nonneg _)
  have c1 : Mag (-20) (-19) mu0 := by right; unfold mu0; norm_num [abs_of_pos]
  have c2 := c1.div (show Mag 2 2 4 by right; norm_num)
  have c3 := c2.div (show Mag 1 2 Real.pi by
    right
    rw [abs_of_pos Real.pi_pos]
    have := Real.pi_gt_three
    have := Real.pi_le_four
    norm_num
    constructor <;> linarith)
  have hs2 : ∀ t ∈ [m.e * (p.e - q.e), m.n * (p.n - q.n), m.u * (p.u - q.u),
      |m.e * (p.e - q.e)| + |m.n * (p.n - q.n)|, |m.e * (p.e - q.e)| + |m.n * (p.n - q.n)| + |m.u * (p.u - q.u)|,
      dist3 p q ^ 5, dist3 p q ^ 3, m.coord a / dist3 p q ^ 3], InSafeRange (2 ^ (-126 : ℤ)) (2 ^ (127 : ℤ)) t := by
    simp only [List.mem_cons, List.not_mem_nil, or_false, forall_eq_or_imp, forall_eq]
    refine ⟨m1.safe32 ?_ ?_, m2.safe32 ?_ ?_, m3.safe32 ?_ ?_, s2.safe32 ?_ ?_, s3.safe32 ?_ ?_, hd5.safe32 ?_ ?_,
      hd3.safe32 ?_ ?_, t4.safe32 ?_ ?_⟩ <;> norm_num
  have hs' : ∀ t ∈ dipoleSteps p q m (p.coord a - q.coord a) (m.coord a), InSafeRange (2 ^ (-1022 : ℤ)) (2 ^ (1023 : ℤ)) t := by
    simp only [dipoleSteps, List.mem_cons, List.not_mem_nil, or_false, forall_eq_or_imp, forall_eq]
    refine ⟨m1.safe ?_ ?_, m2.safe ?_ ?_, m3.safe ?_ ?_, s2.safe ?_ ?_, s3.safe ?_ ?_, t1.safe ?_ ?_,
      t2.safe ?_ ?_, hd5.safe ?_ ?_, t3.safe ?_ ?_, hd3.safe ?_ ?_, t4.safe ?_ ?_, t5.safe ?_ ?_,
      c1.safe ?_ ?_, c2.safe ?_ ?_, c3.safe ?_ ?_, (c3.mul t5).safe ?_ ?_⟩ <;> norm_num
  have hm0 : dist3 m (0, 0, 0) = Real.sqrt (m.e ^ 2 + m.n ^ 2 + m.u ^ 2) := by
    unfold dist3; simp only [Pt.e, Pt.n, Pt.u, sub_zero]
  have hcs : |m.e * (p.e - q.e)| + |m.n * (p.n - q.n)| + |m.u * (p.u - q.u)|
      ≤ dist3 m (0, 0, 0) * dist3 p q := by
    rw [hm0]; exact cauchy_schwarz_abs _ _ _ _ _ _
  have hca : |p.coord a - q.coord a| ≤ dist3 p q := by
    have := coord_le_norm (p - q) a
    cases a <;> exact this
  have hmM : |m.coord a| ≤ dist3 m (0, 0, 0) := by rw [hm0]; exact coord_le_norm m a
  have hmu' : 0 < mu0 / 4 / Real.pi := by
    have := Real.pi_pos
    unfold mu0
    positivity
  have hB : mu0 / 4 / Real.pi * (3 * (|m.e * (p.e - q.e)| + |m.n * (p.n - q.n)| + |m.u * (p.u - q.u)|)
          * |p.coord a - q.coord a| / dist3 p q ^ 5 + |m.coord a / dist3 p q ^ 3|)
      ≤ 4 * (mu0 / 4 / Real.pi * dist3 m (0, 0, 0) / dist3 p q ^ 3) := by
    have hM : 0 ≤ dist3 m (0, 0, 0) := Real.sqrt_nonneg _
    rw [abs_div, abs_of_pos (by positivity : 0 < dist3 p q ^ 3)]
    calc _ ≤ mu0 / 4 / Real.pi * (3 * (dist3 m (0, 0, 0) * dist3 p q) * dist3 p q / dist3 p q ^ 5
            + dist3 m (0, 0, 0) / dist3 p q ^ 3) := by gcongr
      _ = _ := by field_simp; ring
  have s0 := hda.safe32 (by norm_num) (by norm_num)
  rw [show (1.25663706212e-06 : ℝ) = mu0 from rfl]
  have key : MReturnsWithin (Mixed.dipoleMagnetic a ep np up eq nq uq me mn mu)
      (mu0 / 4 / Real.pi *
        (3 * (m.e * (p.e - q.e) + m.n * (p.n - q.n) + m.u * (p.u - q.u)) * (p.coord a - q.coord a)
          / dist3 p q ^ 5 - m.coord a / dist3 p q ^ 3))
      (gammaErr (2 ^ (-23 : ℤ)) 38 * (4 * (mu0 / 4 / Real.pi * dist3 m (0, 0, 0) / dist3 p q ^ 3))) := by
    refine mwithinOf h (by norm_num) ?_
    cases a
    · obtain ⟨v, e, hv⟩ := h.dipole_comp hp hA hme hmn hmu hd' hA.ep hA.eq hme s0 hs hs2 hs'
      exact ⟨v, by rw [← e]; rfl, h.absMono le_rfl hB hv⟩
    · obtain ⟨v, e, hv⟩ := h.dipole_comp hp hA hme hmn hmu hd' hA.np hA.nq hmn s0 hs hs2 hs'
      exact ⟨v, by rw [← e]; rfl, h.absMono le_rfl hB hv⟩
    · obtain ⟨v, e, hv⟩ := h.dipole_comp hp hA hme hmn hmu hd' hA.up hA.uq hmu s0 hs hs2 hs'
      exact ⟨v, by rw [← e]; rfl, h.absMono le_rfl hB hv⟩
  obtain ⟨v, y, e, e', hy⟩ := key
  refine ⟨v, y, e, e', hy.trans ?_⟩
  have := gamma_single (k := 38) (e := -16) (by norm_num) (by norm_num)
  have e4 : (2 : ℝ) ^ (-14 : ℤ) = 2 ^ (-16 : ℤ) * 4 := by norm_num
  rw [e4, mul_assoc]
  have hM : 0 ≤ dist3 m (0, 0, 0) := Real.sqrt_nonneg _
  exact mul_le_mul_of_nonneg_right this (by positivity)

end pairs

theorem short_iij {x y z r : ℝ} (hx : Mag (-20) 24 x) (hy : Mag (-20) 24 y) (hz : Mag (-20) 24 z)
    (hr : Mag (-20) 25 r) : ∀ t ∈ iijSteps x y z r, InSafeRange (2 ^ (-126 : ℤ)) (2 ^ (127 : ℤ)) t := by
  have h1 := hx.mul hz
  have h2 := hx.pow two_ne_zero
  have h3 := hy.pow two_ne_zero
  have h4 := h2.add h3 (sq_nonneg _) (sq_nonneg _)
  have h5 := h4.mul hr
  have h6 := h1.div h5
  simp only [iijSteps, List.mem_cons, List.not_mem_nil, or_false, forall_eq_or_imp, forall_eq]
  refine ⟨h1.safe32 ?_ ?_, h2.safe32 ?_ ?_, h3.safe32 ?_ ?_, h4.safe32 ?_ ?_, h5.safe32 ?_ ?_, h6.safe32 ?_ ?_⟩ <;> norm_num

theorem short_iii {x y z r : ℝ} (hx : Mag (-20) 24 x) (hy : Mag (-20) 24 y) (hz : Mag (-20) 24 z)
    (hr : Mag (-20) 25 r) : ∀ t ∈ [x ^ 2, y ^ 2, z ^ 2, -y * z, x ^ 2 + y ^ 2, x ^ 2 + z ^ 2,
      (x ^ 2 + y ^ 2) * (x ^ 2 + z ^ 2), (x ^ 2 + y ^ 2) * (x ^ 2 + z ^ 2) * r],
      InSafeRange (2 ^ (-126 : ℤ)) (2 ^ (127 : ℤ)) t := by
  have hx2 := hx.pow two_ne_zero
  have hy2 := hy.pow two_ne_zero
  have hz2 := hz.pow two_ne_zero
  have h1 := hy.neg.mul hz
  have h6 := hx2.add hy2 (sq_nonneg _) (sq_nonneg _)
  have h7 := hx2.add hz2 (sq_nonneg _) (sq_nonneg _)
  have h8 := h6.mul h7
  have h9 := h8.mul hr
  simp only [List.mem_cons, List.not_mem_nil, or_false, forall_eq_or_imp, forall_eq]
  refine ⟨hx2.safe32 ?_ ?_, hy2.safe32 ?_ ?_, hz2.safe32 ?_ ?_, h1.safe32 ?_ ?_, h6.safe32 ?_ ?_, h7.safe32 ?_ ?_,
    h8.safe32 ?_ ?_, h9.safe32 ?_ ?_⟩ <;> norm_num

/-- **C107.** The third-order prism kernels, with the radius computed from the same arguments. -/
theorem C107_third_order (c : PKComp) (hc : c.thirdOrder) {xv yv zv : MFl Numba32 Numba64} {x y z : ℝ} (hx : xv.IsReal x)
    (hy : yv.IsReal y) (hz : zv.IsReal z) (h0 : x ≠ 0 ∨ y ≠ 0 ∨ z ≠ 0) (sx : ShortLength x) (sy : ShortLength y)
    (sz : ShortLength z) :
    MReturnsNear (Mixed.prismKernel c xv yv zv (MFl.sqrt (xv ^ 2 + yv ^ 2 + zv ^ 2)))
      (docKernel c x y z (Real.sqrt (x ^ 2 + y ^ 2 + z ^ 2))) (2 ^ (-18 : ℤ)) := by
  have h := numba_both
  have hx' : Mag (-20) 24 x := sx
  have hy' : Mag (-20) 24 y := sy
  have hz' : Mag (-20) 24 z := sz
  have h1 := (hx'.pow two_ne_zero).add (hy'.pow two_ne_zero) (sq_nonneg _) (sq_nonneg _)
  have h2 := h1.add ((hz'.pow two_ne_zero).weaken le_rfl (by norm_num)) (by positivity) (sq_nonneg _)
  have hmr : Mag (-20) 25 (Real.sqrt (x ^ 2 + y ^ 2 + z ^ 2)) := Mag.sqrt (h2.weaken (by norm_num) (by norm_num))
  have hrv := h.radius hx hy hz (by
    simp only [List.mem_cons, List.not_mem_nil, or_false, forall_eq_or_imp, forall_eq]
    refine ⟨(hx'.pow two_ne_zero).safe32 ?_ ?_, (hy'.pow two_ne_zero).safe32 ?_ ?_, (hz'.pow two_ne_zero).safe32 ?_ ?_,
      h1.safe32 ?_ ?_, h2.safe32 ?_ ?_, hmr.safe32 ?_ ?_⟩ <;> norm_num)
  have hr0 : Real.sqrt (x ^ 2 + y ^ 2 + z ^ 2) ≠ 0 := by
    apply (Real.sqrt_pos.2 _).ne'
    rcases h0 with h | h | h <;> positivity
  refine near_single (k := 16) (by norm_num) (by norm_num) (mnearOf h (by norm_num)
    (h.third_order (k := 3) (by norm_num) c hc hx hy hz hr0 hrv ?_ ?_))
  · cases c <;> try exact hc.elim
    case eee => exact short_iii hx' hy' hz' hmr
    case nnn => exact short_iii hy' hz' hx' hmr
    case uuu => exact short_iii hz' hy' hx' hmr
    case een => exact short_iij hx' hy' hz' hmr
    case eeu => exact short_iij hx' hz' hy' hmr
    case enn => exact short_iij hy' hx' hz' hmr
    case nnu => exact short_iij hy' hz' hx' hmr
    case euu => exact short_iij hz' hx' hy' hmr
    case nuu => exact short_iij hz' hy' hx' hmr
    case enu => simp [thirdOrderSteps32]
  · have hX : Mag (-80) 80 x := hx'.weaken (by norm_num) (by norm_num)
    have hY : Mag (-80) 80 y := hy'.weaken (by norm_num) (by norm_num)
    have hZ : Mag (-80) 80 z := hz'.weaken (by norm_num) (by norm_num)
    have hR : Mag (-80) 81 (Real.sqrt (x ^ 2 + y ^ 2 + z ^ 2)) := hmr.weaken (by norm_num) (by norm_num)
    cases c <;> try exact hc.elim
    case eee => exact safe_iii hX hY hZ hR
    case nnn => exact safe_iii hY hZ hX hR
    case uuu => exact safe_iii hZ hY hX hR
    case een => exact safe_iij hX hY hZ hR
    case eeu => exact safe_iij hX hZ hY hR
    case enn => exact safe_iij hY hX hZ hR
    case nnu => exact safe_iij hY hZ hX hR
    case euu => exact safe_iij hZ hX hY hR
    case nuu => exact safe_iij hZ hY hX hR
    case enu =>
      simp only [thirdOrderSteps, List.mem_cons, List.not_mem_nil, or_false, forall_eq]
      exact (Mag.one.neg.div hR).safe (by norm_num) (by norm_num)

/-! ### a call with float32 coordinates and a float32 mass -/

theorem short_of {x : ℝ} (h1 : 1 / 1000 ≤ |x|) (h2 : |x| ≤ 1000000) : ShortLength x :=
  .inr ⟨le_trans (by norm_num) h1, h2.trans (by norm_num)⟩

theorem isReal_f32 (x : ℝ) : (MFl.f32 (Fl.fin x) : MFl S D).IsReal x := rfl

example : MReturnsNear (Mixed.point.gravity_pot (S := Numba32) (D := Numba64) (.f32 (Fl.fin 3)) (.f32 (Fl.fin 4))
      (.f32 (Fl.fin 0)) (.f32 (Fl.fin 0)) (.f32 (Fl.fin 0)) (.f32 (Fl.fin (-100))) (.f32 (Fl.fin 1000)))
    (6.6743e-11 * 1000 / dist3 (3, 4, 0) (0, 0, -100)) (2 ^ (-19 : ℤ)) :=
  (C107_point (p := (3, 4, 0)) (q := (0, 0, -100))
    (by
      intro a
      cases a <;> simp only [Pt.coord, Pt.e, Pt.n, Pt.u] <;> apply short_of <;> norm_num [abs_of_pos])
    (show ArePoints (S := Numba32) (D := Numba64) (.f32 (Fl.fin 3)) (.f32 (Fl.fin 4)) (.f32 (Fl.fin 0)) (.f32 (Fl.fin 0))
      (.f32 (Fl.fin 0)) (.f32 (Fl.fin (-100))) (3, 4, 0) (0, 0, -100) from
      ⟨isReal_f32 _, isReal_f32 _, isReal_f32 _, isReal_f32 _, isReal_f32 _, isReal_f32 _⟩)
    (by norm_num [Prod.ext_iff]) (m := 1000) (isReal_f32 _)
    (moderate_of (by norm_num [abs_of_pos]) (by norm_num [abs_of_pos]))).1

end Choclo
