import Verif.Lemmas.NumbaPow
import Verif.Lemmas.CastPrism
import Verif.Props.ErrorPrism
import Verif.Props.Typed
import Verif.Props.Spherical
import Verif.Props.Bits2
import Verif.Props.Bits3
import Verif.Props.NoRaise

/-! # C90: powers by repeated multiplication, as Numba compiles them -/

namespace Choclo

open Real

variable {A : Arith}

/-! ## The laws of arithmetic -/

theorem sameOps_numba (A : Arith) (h : ∀ x, A.pow x 2 = A.rnd (x ^ 2)) : SameOps A A.withNumbaPow where
  rnd := rfl
  sq := fun x => by rw [h, numbaPow_sq]
  log := rfl
  atan := rfl
  sin := rfl
  cos := rfl
  radians := rfl
  pi := rfl

theorem sameOps_numba64 : SameOps Binary64 Numba64 := sameOps_numba _ fun _ => rfl

/-- The powers that occur in the code, spelled out: `x ** 3 = x·x²`, `x ** 5 = x·(x²)²` and
`x ** 7 = (x·x²)·(x²)²`, rounded after every product. -/
theorem C90_powers (x : ℝ) :
    (x : Fl Numba64) ^ 2 = (x : Fl Numba64) * x ∧
    (x : Fl Numba64) ^ 3 = (x : Fl Numba64) * (x * x) ∧
    (x : Fl Numba64) ^ 5 = (x : Fl Numba64) * ((x * x) * (x * x)) ∧
    (x : Fl Numba64) ^ 7 = ((x : Fl Numba64) * (x * x)) * ((x * x) * (x * x)) := by
  have h := sameOps_numba64
  have e : (x : Fl Numba64) = Fl.cast (x : Fl Binary64) := rfl
  rw [e]
  simp only [Fl.cast_mul h]
  exact ⟨numbaPow_two x, numbaPow_three x, numbaPow_five x, numbaPow_seven x⟩

theorem Numba64_piAccurate : Numba64.PiAccurate (2 ^ (-52 : ℤ)) :=
  Binary64_piAccurate.trans (mul_le_mul_of_nonneg_right (by norm_num) Real.pi_pos.le)

/-- an exact product of integers -/
theorem ints_mul {L : ℕ} (h : ∀ n : ℤ, |n| ≤ L → A.rnd n = .fin n) {a b : Fl A} {m k : ℤ} (ha : a = Fl.fin m)
    (hb : b = Fl.fin k) (hl : |m * k| ≤ (L : ℤ)) : a * b = Fl.fin ((m * k : ℤ) : ℝ) := by
  subst ha hb
  show Fl.ofRaw (A.rnd (m * k)) = _
  have := h _ hl
  push_cast at this ⊢
  rw [this]
  rfl

theorem abs_pow_le_of_le {n : ℤ} {j k : ℕ} {L : ℤ} (hjk : j ≤ k) (hL : 1 ≤ L) (h : |n ^ k| ≤ L) : |n ^ j| ≤ L := by
  rcases eq_or_ne n 0 with rfl | hn
  · rcases Nat.eq_zero_or_pos j with rfl | hj
    · simpa using hL
    · rw [zero_pow (by omega)]
      simp
      omega
  · rw [abs_pow] at *
    exact (pow_le_pow_right₀ (Int.one_le_abs hn) hjk).trans h

theorem numba_exactInts {L : ℕ} (h : A.ExactInts L) (hL : 1 ≤ L) : A.withNumbaPow.ExactInts L := by
  refine ⟨h.1, fun n k hk => ?_⟩
  have hL' : (1 : ℤ) ≤ L := by exact_mod_cast hL
  rcases Nat.lt_or_ge 7 k with h7 | h7
  · rw [withNumbaPow_pow_gt h7]; exact h.2 n k hk
  rw [withNumbaPow_pow_le h7]
  have e1 : (Fl.fin (n : ℝ) : Fl A) = Fl.fin ((n ^ 1 : ℤ) : ℝ) := by simp
  have key : ∀ {i j l : ℕ} {a b : Fl A}, i + j = l → l ≤ k → a = Fl.fin ((n ^ i : ℤ) : ℝ) → b = Fl.fin ((n ^ j : ℤ) : ℝ) →
      a * b = Fl.fin ((n ^ l : ℤ) : ℝ) := by
    intro i j l a b hl hlk ha hb
    have := ints_mul h.1 ha hb (by rw [← pow_add, hl]; exact abs_pow_le_of_le hlk hL' hk)
    rwa [← pow_add, hl] at this
  have fin : ∀ {a : Fl A}, a = Fl.fin ((n ^ k : ℤ) : ℝ) → (a : Raw) = .fin ((n : ℝ) ^ k) := by
    rintro a rfl
    push_cast
    rfl
  have h2 : 2 ≤ k → (Fl.fin (n : ℝ) * Fl.fin (n : ℝ) : Fl A) = Fl.fin ((n ^ 2 : ℤ) : ℝ) := fun hk => key (i := 1) (j := 1) rfl hk e1 e1
  interval_cases k
  · rw [numbaPow_zero]; exact fin (by simp)
  · rw [numbaPow_one]; exact fin e1
  · rw [numbaPow_two]; exact fin (h2 le_rfl)
  · rw [numbaPow_three]; exact fin (key rfl le_rfl e1 (h2 (by norm_num)))
  · rw [numbaPow_four]; exact fin (key rfl le_rfl (h2 (by norm_num)) (h2 (by norm_num)))
  · rw [numbaPow_five]
    exact fin (key rfl le_rfl e1 (key rfl (by norm_num) (h2 (by norm_num)) (h2 (by norm_num))))
  · rw [numbaPow_six]
    exact fin (key rfl le_rfl (h2 (by norm_num)) (key rfl (by norm_num) (h2 (by norm_num)) (h2 (by norm_num))))
  · rw [numbaPow_seven]
    exact fin (key rfl le_rfl (key rfl (by norm_num) e1 (h2 (by norm_num)))
      (key rfl (by norm_num) (h2 (by norm_num)) (h2 (by norm_num))))

/-- Double precision with Numba's powers still obeys every law that the generic theorems rest on. -/
theorem C90_laws : Numba64.SignSymmetric ∧ Numba64.Monotone ∧ Numba64.ExactAtZero ∧ Numba64.SquareRounded ∧
    Numba64.ExactInts (2 ^ 53) ∧ Numba64.Accurate (2 ^ (-52 : ℤ)) (2 ^ (-1022 : ℤ)) (2 ^ (1023 : ℤ)) ∧
    Numba64.PiAccurate (2 ^ (-53 : ℤ)) ∧ Numba64.LibmAccurate (2 ^ (-53 : ℤ)) (2 ^ (-1022 : ℤ)) (2 ^ (1023 : ℤ)) := by
  refine ⟨numbaPow_signSymmetric Binary64_signSymmetric, numbaPow_monotone Binary64_monotone,
    ⟨Binary64_exactAtZero.1, fun n hn => ?_⟩, numbaPow_sq, numba_exactInts Binary64_exactInts (by norm_num), Numba64_accurate,
    Binary64_piAccurate, Binary64_libmAccurate.pi, Binary64_libmAccurate.log, Binary64_libmAccurate.atan,
    Binary64_libmAccurate.atan_zero⟩
  exact numbaPow_pow_zero Binary64_exactAtZero.1 Binary64_exactAtZero.2 n hn

/-! ## Everything that only squares is unchanged, bit for bit -/

/-- **C90.** The distances and every prism function return the same bits whether powers are rounded correctly or
computed by repeated multiplication. (`Fl.cast` is the same floating-point datum.) -/
theorem C90_same_bits (e n u w E s N b t ρ Me Mn Mu : Fl Binary64) :
    utils.distance_cartesian (Fl.cast e : Fl Numba64) (Fl.cast n) (Fl.cast u) (Fl.cast w) (Fl.cast E) (Fl.cast s)
      = (utils.distance_cartesian e n u w E s).map Fl.cast ∧
    utils.distance_spherical (Fl.cast e : Fl Numba64) (Fl.cast n) (Fl.cast u) (Fl.cast w) (Fl.cast E) (Fl.cast s)
      = (utils.distance_spherical e n u w E s).map Fl.cast ∧
    (∀ c, prismGravity c (Fl.cast e : Fl Numba64) (Fl.cast n) (Fl.cast u) (Fl.cast w) (Fl.cast E) (Fl.cast s) (Fl.cast N) (Fl.cast b) (Fl.cast t) (Fl.cast ρ)
      = (prismGravity c e n u w E s N b t ρ).map Fl.cast) ∧
    (∀ c, prismMagnetic c (Fl.cast e : Fl Numba64) (Fl.cast n) (Fl.cast u) (Fl.cast w) (Fl.cast E) (Fl.cast s) (Fl.cast N) (Fl.cast b) (Fl.cast t) (Fl.cast Me) (Fl.cast Mn) (Fl.cast Mu)
      = (prismMagnetic c e n u w E s N b t Me Mn Mu).map Fl.cast) ∧
    prism.magnetic_field (Fl.cast e : Fl Numba64) (Fl.cast n) (Fl.cast u) (Fl.cast w) (Fl.cast E) (Fl.cast s) (Fl.cast N) (Fl.cast b) (Fl.cast t) (Fl.cast Me) (Fl.cast Mn) (Fl.cast Mu)
      = (prism.magnetic_field e n u w E s N b t Me Mn Mu).map
          (fun B => (Fl.cast B.1, Fl.cast B.2.1, Fl.cast B.2.2)) ∧
    (∀ c, prismKernel c (Fl.cast e : Fl Numba64) (Fl.cast n) (Fl.cast u) (Fl.cast w)
      = (prismKernel c e n u w).map Fl.cast) := by
  have h := sameOps_numba64
  refine ⟨cast_distance_cartesian h _ _ _ _ _ _, cast_distance_spherical h _ _ _ _ _ _, fun c => ?_, fun c => ?_,
    cast_prism_magnetic_field h _ _ _ _ _ _ _ _ _ _ _ _, fun c => ?_⟩
  · cases c
    · exact cast_prism_gravity_pot h ..
    · exact cast_prism_gravity_e h ..
    · exact cast_prism_gravity_n h ..
    · exact cast_prism_gravity_u h ..
    · exact cast_prism_gravity_ee h ..
    · exact cast_prism_gravity_nn h ..
    · exact cast_prism_gravity_uu h ..
    · exact cast_prism_gravity_en h ..
    · exact cast_prism_gravity_eu h ..
    · exact cast_prism_gravity_nu h ..
  · cases c
    · exact cast_prism_magnetic_e h ..
    · exact cast_prism_magnetic_n h ..
    · exact cast_prism_magnetic_u h ..
    · exact cast_prism_magnetic_ee h ..
    · exact cast_prism_magnetic_nn h ..
    · exact cast_prism_magnetic_uu h ..
    · exact cast_prism_magnetic_en h ..
    · exact cast_prism_magnetic_eu h ..
    · exact cast_prism_magnetic_nu h ..
  · cases c
    · exact cast_prismkernel_pot h e n u w
    · exact cast_prismkernel_e h e n u w
    · exact cast_prismkernel_n h e n u w
    · exact cast_prismkernel_u h e n u w
    · exact cast_prismkernel_ee h e n u w
    · exact cast_prismkernel_nn h e n u w
    · exact cast_prismkernel_uu h e n u w
    · exact cast_prismkernel_en h e n u w
    · exact cast_prismkernel_eu h e n u w
    · exact cast_prismkernel_nu h e n u w
    · exact cast_prismkernel_eee h e n u w
    · exact cast_prismkernel_nnn h e n u w
    · exact cast_prismkernel_uuu h e n u w
    · exact cast_prismkernel_een h e n u w
    · exact cast_prismkernel_eeu h e n u w
    · exact cast_prismkernel_enn h e n u w
    · exact cast_prismkernel_nnu h e n u w
    · exact cast_prismkernel_euu h e n u w
    · exact cast_prismkernel_nuu h e n u w
    · exact cast_prismkernel_enu h e n u w

/-! ## Rounding errors of point masses and dipoles -/

theorem gamma_numba {k : ℕ} {e : ℤ} (hk : k ≤ 64) (hke : (k : ℝ) * 2 ^ (-51 : ℤ) ≤ 2 ^ e) :
    gammaErr (2 ^ (-52 : ℤ)) k ≤ 2 ^ e := by
  refine le_trans ?_ hke
  unfold gammaErr
  have h1 : (k : ℝ) ≤ 64 := by exact_mod_cast hk
  have e2 : (2 : ℝ) ^ (-51 : ℤ) = 2 * 2 ^ (-52 : ℤ) := by norm_num
  have h3 : (2 : ℝ) ^ (-52 : ℤ) ≤ 1 / 128 := by norm_num
  have h0 := Mag.zp (-52)
  rw [e2]
  generalize (2 : ℝ) ^ (-52 : ℤ) = u at *
  have h4 : (k : ℝ) * u ≤ 1 / 2 := by nlinarith
  have hk0 : (0 : ℝ) ≤ k := Nat.cast_nonneg k
  rw [div_le_iff₀ (by linarith)]
  nlinarith [mul_nonneg hk0 h0.le]

theorem near_numba {k : ℕ} {e : ℤ} (hk : k ≤ 64) (hke : (k : ℝ) * 2 ^ (-51 : ℤ) ≤ 2 ^ e)
    {call : Py (Fl A)} {x : ℝ} (h : ReturnsNear call x (gammaErr (2 ^ (-52 : ℤ)) k)) :
    ReturnsNear call x (2 ^ e) := by
  obtain ⟨y, e, hy⟩ := h
  exact ⟨y, e, hy.trans (mul_le_mul_of_nonneg_right (gamma_numba hk hke) (abs_nonneg x))⟩


/-- **C90, point masses.** With Numba's powers distance, potential, acceleration and off-diagonal tensor are
accurate to about 14 decimal digits. -/
theorem C90_point (p q : Pt) (hpq : p ≠ q) (m : ℝ)
    (hΔ : ∀ a : Axis, ModerateSize (p.coord a - q.coord a)) (hm : ModerateSize m) :
    ReturnsNear (onPair (A := Numba64) utils.distance_cartesian p q) (dist3 p q) (2 ^ (-49 : ℤ)) ∧
    ReturnsNear (onPair (A := Numba64) point.gravity_pot p q m) (6.6743e-11 * m / dist3 p q)
      (2 ^ (-48 : ℤ)) ∧
    (∀ a : Axis, ReturnsNear (onPair (A := Numba64) (pointGravity a.acc) p q m)
      (-(6.6743e-11 * m * (p.coord a - q.coord a)) / dist3 p q ^ 3) (2 ^ (-46 : ℤ))) ∧
    (∀ c a b, (c, a, b) ∈ [(GComp.en, Axis.e, Axis.n), (.eu, .e, .u), (.nu, .n, .u)] →
      ReturnsNear (onPair (A := Numba64) (pointGravity c) p q m)
        (6.6743e-11 * m * (3 * (p.coord a - q.coord a) * (p.coord b - q.coord b)) / dist3 p q ^ 5)
        (2 ^ (-46 : ℤ))) := by
  have hd := mag_dist hΔ
  have hs := safe_distance hΔ
  have hm' : Mag (-80) 80 m := hm
  have hgm := Mag.gc.mul hm'
  have hinv := Mag.one.div hd
  refine ⟨?_, ?_, fun a => ?_, fun c a b hc => ?_⟩
  · exact near_numba (by norm_num) (by norm_num) (C50_distance Numba64_accurate p q hs)
  · refine near_numba (k := 8) (by norm_num) (by norm_num) (C50_potential Numba64_accurate p q hpq m ?_)
    rw [List.forall_mem_append]
    refine ⟨hs, ?_⟩
    simp only [potSteps, List.mem_cons, List.not_mem_nil, or_false, forall_eq_or_imp, forall_eq]
    exact ⟨Mag.gc.safe (by norm_num) (by norm_num), hgm.safe (by norm_num) (by norm_num),
      hinv.safe (by norm_num) (by norm_num), (hgm.mul hinv).safe (by norm_num) (by norm_num)⟩
  · have hda : Mag (-80) 80 (p.coord a - q.coord a) := hΔ a
    have hd3 := hd.pow three_ne_zero
    refine near_numba (k := 19) (by norm_num) (by norm_num)
      (C50_acceleration Numba64_accurate a p q hpq m ?_)
    rw [List.forall_mem_append]
    refine ⟨hs, ?_⟩
    simp only [accSteps, List.mem_cons, List.not_mem_nil, or_false, forall_eq_or_imp, forall_eq]
    exact ⟨Mag.gc.safe (by norm_num) (by norm_num), hgm.safe (by norm_num) (by norm_num),
      hd3.safe (by norm_num) (by norm_num), (hda.neg.div hd3).safe (by norm_num) (by norm_num),
      (hgm.mul (hda.neg.div hd3)).safe (by norm_num) (by norm_num)⟩
  · have hda : Mag (-80) 80 (p.coord a - q.coord a) := hΔ a
    have hdb : Mag (-80) 80 (p.coord b - q.coord b) := hΔ b
    have hd5 := hd.pow (n := 5) (by norm_num)
    have h3 := Mag.three.mul hda
    refine near_numba (k := 32) (by norm_num) (by norm_num)
      (C50_off_diagonal Numba64_accurate c a b hc p q hpq m ?_)
    rw [List.forall_mem_append]
    refine ⟨hs, ?_⟩
    simp only [offDiagSteps, List.mem_cons, List.not_mem_nil, or_false, forall_eq_or_imp, forall_eq]
    exact ⟨Mag.gc.safe (by norm_num) (by norm_num), hgm.safe (by norm_num) (by norm_num),
      h3.safe (by norm_num) (by norm_num), (h3.mul hdb).safe (by norm_num) (by norm_num),
      hd5.safe (by norm_num) (by norm_num), ((h3.mul hdb).div hd5).safe (by norm_num) (by norm_num),
      (hgm.mul ((h3.mul hdb).div hd5)).safe (by norm_num) (by norm_num)⟩

/-- **C90, diagonal of the tensor.** -/
theorem C90_point_diagonal (a : Axis) (p q : Pt) (hpq : p ≠ q) (m : ℝ)
    (hΔ : ∀ a : Axis, ModerateSize (p.coord a - q.coord a)) (hm : ModerateSize m) :
    ReturnsWithin (onPair (A := Numba64) (pointGravity a.diag) p q m)
      (6.6743e-11 * m * (3 * (p.coord a - q.coord a) ^ 2 / dist3 p q ^ 5 - 1 / dist3 p q ^ 3))
      (2 ^ (-43 : ℤ) * (6.6743e-11 * |m| / dist3 p q ^ 3)) := by
  have hd := mag_dist hΔ
  have hs := safe_distance hΔ
  have hm' : Mag (-80) 80 m := hm
  have hgm := Mag.gc.mul hm'
  have hda : Mag (-80) 80 (p.coord a - q.coord a) := hΔ a
  have hd5 := hd.pow (n := 5) (by norm_num)
  have hd3 := hd.pow (n := 3) (by norm_num)
  have hd0 : 0 ≤ dist3 p q := Real.sqrt_nonneg _
  have h3 := Mag.three.mul (hda.pow two_ne_zero)
  have hq := h3.div hd5
  have hi := Mag.one.div hd3
  have hsum := (hq.weaken (a' := -800) (b' := 800) (by norm_num) (by norm_num)).add
    (hi.weaken (a' := -800) (b' := 800) (by norm_num) (by norm_num)) (by positivity) (by positivity)
  obtain ⟨y, e, hy⟩ := C54_diagonal Numba64_accurate a p q hpq m (by
    rw [List.forall_mem_append]
    refine ⟨hs, ?_⟩
    simp only [diagSteps, List.mem_cons, List.not_mem_nil, or_false, forall_eq_or_imp, forall_eq]
    exact ⟨Mag.gc.safe (by norm_num) (by norm_num), hgm.safe (by norm_num) (by norm_num),
      (hda.pow two_ne_zero).safe (by norm_num) (by norm_num), h3.safe (by norm_num) (by norm_num),
      hd5.safe (by norm_num) (by norm_num), hq.safe (by norm_num) (by norm_num),
      hd3.safe (by norm_num) (by norm_num), hi.safe (by norm_num) (by norm_num),
      hsum.safe (by norm_num) (by norm_num), (hgm.abs.mul hsum).safe (by norm_num) (by norm_num)⟩)
  refine ⟨y, e, hy.trans ?_⟩
  have := gamma_numba (k := 33) (e := -45) (by norm_num) (by norm_num)
  have e4 : (2 : ℝ) ^ (-43 : ℤ) = 2 ^ (-45 : ℤ) * 4 := by norm_num
  rw [e4, mul_assoc]
  exact mul_le_mul_of_nonneg_right this (by positivity)

/-- **C90, dipoles.** -/
theorem C90_dipole (a : Axis) (p q : Pt) (hpq : p ≠ q) (m : Pt)
    (hΔ : ∀ a : Axis, ModerateSize (p.coord a - q.coord a)) (hm : ∀ a : Axis, ModerateSize (m.coord a)) :
    ReturnsWithin (onPair (A := Numba64) (dipoleMagnetic a) p q m.e m.n m.u)
      (1.25663706212e-06 / 4 / Real.pi *
        (3 * (m.e * (p.e - q.e) + m.n * (p.n - q.n) + m.u * (p.u - q.u)) * (p.coord a - q.coord a)
          / dist3 p q ^ 5 - m.coord a / dist3 p q ^ 3))
      (2 ^ (-43 : ℤ) * (1.25663706212e-06 / 4 / Real.pi * dist3 m (0, 0, 0) / dist3 p q ^ 3)) := by
  have hd := mag_dist hΔ
  have hs := safe_distance hΔ
  have he : Mag (-80) 80 (p.e - q.e) := hΔ .e
  have hn : Mag (-80) 80 (p.n - q.n) := hΔ .n
  have hu : Mag (-80) 80 (p.u - q.u) := hΔ .u
  have hme : Mag (-80) 80 m.e := hm .e
  have hmn : Mag (-80) 80 m.n := hm .n
  have hmu : Mag (-80) 80 m.u := hm .u
  have hda : Mag (-80) 80 (p.coord a - q.coord a) := hΔ a
  have hma : Mag (-80) 80 (m.coord a) := hm a
  have hd5 := hd.pow (n := 5) (by norm_num)
  have hd3 := hd.pow (n := 3) (by norm_num)
  have hd0 : 0 ≤ dist3 p q := Real.sqrt_nonneg _
  have m1 := hme.mul he
  have m2 := hmn.mul hn
  have m3 := hmu.mul hu
  have s2 := m1.abs.add m2.abs (abs_nonneg _) (abs_nonneg _)
  have s3 := s2.add (m3.abs.weaken le_rfl (by norm_num)) (by positivity) (abs_nonneg _)
  have t1 := Mag.three.mul s3
  have t2 := t1.mul hda.abs
  have t3 := t2.div hd5
  have t4 := hma.div hd3
  have t5 := (t3.weaken (a' := -830) (b' := 830) (by norm_num) (by norm_num)).add
    (t4.abs.weaken (a' := -830) (b' := 830) (by norm_num) (by norm_num)) (by positivity) (abs_nonneg _)
  have c1 : Mag (-20) (-19) mu0 := by right; unfold mu0; norm_num [abs_of_pos]
  have c2 := c1.div (show Mag 2 2 4 by right; norm_num)
  have c3 := c2.div (show Mag 1 2 Real.pi by
    right
    rw [abs_of_pos Real.pi_pos]
    have := Real.pi_gt_three
    have := Real.pi_le_four
    norm_num
    constructor <;> linarith)
  obtain ⟨y, e, hy⟩ := C55_dipole Numba64_accurate Numba64_piAccurate a p q hpq m (by
    rw [List.forall_mem_append]
    refine ⟨hs, ?_⟩
    simp only [dipoleSteps, List.mem_cons, List.not_mem_nil, or_false, forall_eq_or_imp, forall_eq]
    refine ⟨m1.safe ?_ ?_, m2.safe ?_ ?_, m3.safe ?_ ?_, s2.safe ?_ ?_, s3.safe ?_ ?_, t1.safe ?_ ?_,
      t2.safe ?_ ?_, hd5.safe ?_ ?_, t3.safe ?_ ?_, hd3.safe ?_ ?_, t4.safe ?_ ?_, t5.safe ?_ ?_,
      c1.safe ?_ ?_, c2.safe ?_ ?_, c3.safe ?_ ?_, (c3.mul t5).safe ?_ ?_⟩ <;> norm_num)
  refine ⟨y, e, hy.trans ?_⟩
  have := gamma_numba (k := 38) (e := -45) (by norm_num) (by norm_num)
  have e4 : (2 : ℝ) ^ (-43 : ℤ) = 2 ^ (-45 : ℤ) * 4 := by norm_num
  rw [e4, mul_assoc]
  have hM : 0 ≤ dist3 m (0, 0, 0) := Real.sqrt_nonneg _
  have hpi := Real.pi_pos
  exact mul_le_mul_of_nonneg_right this (by positivity)
/-- **C90, prisms.** Newton's integrals are met as accurately as with correctly rounded powers. -/
theorem C90_prism (p : Pt) (P : Box) (hP : P.Ordered) (hm : ModerateOffsets p P) (ρ : ℝ) (hρ : ModerateSize ρ) :
    ReturnsWithin (onPrism (A := Numba64) prism.gravity_pot p P ρ)
      (∫ q in P.region, 6.6743e-11 * ρ / dist3 p q)
      (2 ^ (-46 : ℤ) * (6.6743e-11 * |ρ| * totalSize .pot p P)) ∧
    ∀ a : Axis, ReturnsWithin (onPrism (A := Numba64) (prismGravity a.acc) p P ρ)
      (∫ q in P.region, 6.6743e-11 * ρ * (q.coord a - p.coord a) / dist3 p q ^ 3)
      (2 ^ (-46 : ℤ) * (6.6743e-11 * |ρ| * totalSize a.acc.kernel p P)) := by
  obtain ⟨h1, h2⟩ := C57_newton_double p P hP hm ρ hρ
  have key : ∀ (c : GComp) (x δ : ℝ), ReturnsWithin (onPrism (A := Binary64) (prismGravity c) p P ρ) x δ →
      ReturnsWithin (onPrism (A := Numba64) (prismGravity c) p P ρ) x δ := by
    rintro c x δ ⟨y, hy, hd⟩
    refine ⟨y, ?_, hd⟩
    have := (C90_same_bits (p.e : Fl Binary64) p.n p.u P.west P.east P.south P.north P.bottom P.top ρ 0 0 0).2.2.1 c
    refine Eq.trans this ?_
    unfold Returns onPrism at hy
    rw [hy]
    rfl
  exact ⟨key .pot _ _ h1, fun a => key a.acc _ _ (h2 a)⟩

/-- **C90, at the source.** Zero distance still raises, whatever the mass or moment. -/
theorem C90_coincident (p : Pt) (m mn mu : Fl Numba64) :
    (∀ c, RaisesZeroDivision (onPair (A := Numba64) (pointGravity c) p p m)) ∧
    ∀ a, RaisesZeroDivision (onPair (A := Numba64) (dipoleMagnetic a) p p m mn mu) :=
  ⟨fun c => C61_point C90_laws.2.2.1 c p m, fun a => C61_dipole C90_laws.2.2.1 a p m mn mu⟩

/-- non-vacuity: a mass of 1000 kg at (0, 0, -100), seen from (3, 4, 0) -/
example : ReturnsNear (onPair (A := Numba64) point.gravity_u (3, 4, 0) (0, 0, -100) (1000 : ℝ))
    (-(6.6743e-11 * 1000 * (Pt.coord (3, 4, 0) .u - Pt.coord (0, 0, -100) .u)) / dist3 (3, 4, 0) (0, 0, -100) ^ 3)
    (2 ^ (-46 : ℤ)) :=
  (C90_point (3, 4, 0) (0, 0, -100) (by norm_num [Prod.ext_iff]) 1000
    (by
      intro a
      cases a <;> simp only [Pt.coord, Pt.e, Pt.n, Pt.u] <;> apply moderate_of <;>
        norm_num [abs_of_pos])
    (moderate_of (by norm_num [abs_of_pos]) (by norm_num [abs_of_pos]))).2.2.1 .u

/-- non-vacuity: the demonstration prism -/
example := C90_prism (130, 75, 5) demoPrism demo_ordered demo_offsets 2670
  (moderate_of (by norm_num [abs_of_pos]) (by norm_num [abs_of_pos]))

end Choclo
