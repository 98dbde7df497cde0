import Verif.Props.Utils
import Verif.Lemmas.SinCos
import Verif.Lemmas.Mag
import Verif.Lemmas.ErrorSph
import Mathlib.Analysis.Real.Pi.Bounds

/-! # `distance_spherical` in floating point: C62, C63 -/

namespace Choclo

open Real

namespace B64

/-- the degree, in double precision -/
theorem round_degree : round (π / 180) = 5030569068109113 * 2 ^ (-58 : ℤ) := by
  have h1 := Real.pi_gt_d20
  have h2 := Real.pi_lt_d20
  have := round_eq (x := π / 180) (m := 5030569068109113) (q := -58) (by norm_num)
    (by rw [abs_of_pos (by positivity)]; norm_num; linarith)
    (by rw [abs_of_pos (by positivity)]; norm_num; linarith)
    (by rw [abs_lt]; norm_num; constructor <;> linarith)
  rw [this]; push_cast; rfl

theorem rad8 : rnd (8 * round (π / 180)) = .fin (5030569068109113 * 2 ^ (-55 : ℤ)) := by
  rw [round_degree, show (8 : ℝ) * (5030569068109113 * 2 ^ (-58 : ℤ)) =
    5030569068109113 * 2 ^ (-55 : ℤ) by norm_num]
  apply IsF.rnd
  · exact ⟨5030569068109113, -55, by norm_num, by norm_num, by push_cast; rfl⟩
  · rw [abs_of_pos (by positivity)]
    calc (5030569068109113 * 2 ^ (-55 : ℤ) : ℝ) < 2 ^ (1 : ℤ) := by norm_num
      _ ≤ 2 ^ (1024 : ℤ) := two_zpow_le (by norm_num)

theorem phi_le : |(5030569068109113 * 2 ^ (-55 : ℤ) : ℝ)| ≤ 1 := by
  rw [abs_of_pos (by positivity)]; norm_num

theorem sin8 : rnd (Real.sin (5030569068109113 * 2 ^ (-55 : ℤ))) =
    .fin (5014239404989977 * 2 ^ (-55 : ℤ)) := by
  have h := (cos_sin_enclosure phi_le).2
  generalize Real.sin (5030569068109113 * 2 ^ (-55 : ℤ)) = s at h ⊢
  rw [abs_of_pos (by positivity : (0 : ℝ) < 5030569068109113 * 2 ^ (-55 : ℤ))] at h
  rw [abs_le] at h
  unfold sinTaylor at h
  obtain ⟨h1, h2⟩ := h
  norm_num at h1 h2
  have hs : 0 < s := by linarith
  have := rnd_eq (x := s) (m := 5014239404989977) (q := -55) (by norm_num) (by norm_num)
    (by rw [abs_of_pos hs]; norm_num; linarith)
    (by rw [abs_of_pos hs]; norm_num; linarith)
    (by rw [abs_lt]; norm_num; constructor <;> linarith)
  rw [this]; push_cast; rfl

theorem cos8 : rnd (Real.cos (5030569068109113 * 2 ^ (-55 : ℤ))) =
    .fin (8919541810762874 * 2 ^ (-53 : ℤ)) := by
  have h := (cos_sin_enclosure phi_le).1
  generalize Real.cos (5030569068109113 * 2 ^ (-55 : ℤ)) = s at h ⊢
  rw [abs_of_pos (by positivity : (0 : ℝ) < 5030569068109113 * 2 ^ (-55 : ℤ))] at h
  rw [abs_le] at h
  unfold cosTaylor at h
  obtain ⟨h1, h2⟩ := h
  norm_num at h1 h2
  have hs : 0 < s := by linarith
  have := rnd_eq (x := s) (m := 8919541810762874) (q := -53) (by norm_num) (by norm_num)
    (by rw [abs_of_pos hs]; norm_num; linarith)
    (by rw [abs_of_pos hs]; norm_num; linarith)
    (by rw [abs_lt]; norm_num; constructor <;> linarith)
  rw [this]; push_cast; rfl

theorem ssq8 : rnd (5014239404989977 * 2 ^ (-55 : ℤ) * (5014239404989977 * 2 ^ (-55 : ℤ))) =
    .fin (5582777975588868 * 2 ^ (-58 : ℤ)) := by
  have := rnd_eq (x := 5014239404989977 * 2 ^ (-55 : ℤ) * (5014239404989977 * 2 ^ (-55 : ℤ)))
    (m := 5582777975588868) (q := -58) (by norm_num) (by norm_num)
    (by rw [abs_of_pos (by positivity)]; norm_num)
    (by rw [abs_of_pos (by positivity)]; norm_num)
    (by rw [abs_lt]; norm_num)
  rw [this]; push_cast; rfl

theorem csq8 : rnd (8919541810762874 * 2 ^ (-53 : ℤ) * (8919541810762874 * 2 ^ (-53 : ℤ))) =
    .fin (8832737443003841 * 2 ^ (-53 : ℤ)) := by
  have := rnd_eq (x := 8919541810762874 * 2 ^ (-53 : ℤ) * (8919541810762874 * 2 ^ (-53 : ℤ)))
    (m := 8832737443003841) (q := -53) (by norm_num) (by norm_num)
    (by rw [abs_of_pos (by positivity)]; norm_num)
    (by rw [abs_of_pos (by positivity)]; norm_num)
    (by rw [abs_lt]; norm_num)
  rw [this]; push_cast; rfl

theorem rnd_int {m q : ℤ} (hm : |m| ≤ 2 ^ 53) (hq : -1074 ≤ q) (hq' : q ≤ 970) :
    rnd (m * 2 ^ q) = .fin (m * 2 ^ q) := by
  apply IsF.rnd ⟨m, q, hm, hq, rfl⟩
  rw [abs_mul, abs_of_pos (two_zpow_pos q), ← Int.cast_abs]
  have h1 : ((|m| : ℤ) : ℝ) ≤ 2 ^ (53 : ℤ) := by
    have : ((|m| : ℤ) : ℝ) ≤ ((2 ^ 53 : ℤ) : ℝ) := by exact_mod_cast hm
    rw [show ((2 : ℝ) ^ (53 : ℤ)) = ((2 ^ 53 : ℤ) : ℝ) by norm_num]
    exact this
  calc ((|m| : ℤ) : ℝ) * 2 ^ q ≤ 2 ^ (53 : ℤ) * 2 ^ q :=
        mul_le_mul_of_nonneg_right h1 (two_zpow_pos q).le
    _ = 2 ^ (53 + q) := by rw [zpow_add₀ (by norm_num)]
    _ < 2 ^ (1024 : ℤ) := zpow_lt_zpow_right₀ (by norm_num) (by omega)

theorem sum8 : rnd (5582777975588868 * 2 ^ (-58 : ℤ) + 8832737443003841 * 2 ^ (-53 : ℤ)) =
    .fin (4503599627370497 * 2 ^ (-52 : ℤ)) := by
  have := rnd_eq (x := 5582777975588868 * 2 ^ (-58 : ℤ) + 8832737443003841 * 2 ^ (-53 : ℤ))
    (m := 4503599627370497) (q := -52) (by norm_num) (by norm_num)
    (by rw [abs_of_pos (by positivity)]; norm_num)
    (by rw [abs_of_pos (by positivity)]; norm_num)
    (by rw [abs_lt]; norm_num)
  rw [this]; push_cast; rfl

/-- rounding a number of ordinary size keeps its sign and (roughly) its size -/
theorem rnd_pos {x : ℝ} {a b : ℤ} (h0 : 0 < x) (ha : (2 : ℝ) ^ a ≤ x) (hb : x ≤ 2 ^ b) (hla : -1022 ≤ a)
    (hlb : b ≤ 1022) : ∃ y : ℝ, rnd x = .fin y ∧ 2 ^ (a - 1) ≤ y ∧ y ≤ 2 ^ (b + 1) := by
  obtain ⟨δ, hδ, e⟩ := rnd_rel (x := x)
    (by rw [abs_of_pos h0]; exact (two_zpow_le hla).trans ha)
    (by rw [abs_of_pos h0]; exact hb.trans (two_zpow_le (by omega)))
  have hu : (2 : ℝ) ^ (-53 : ℤ) ≤ 1 / 2 := by norm_num
  generalize (2 : ℝ) ^ (-53 : ℤ) = u at hδ hu
  rw [abs_le] at hδ
  refine ⟨_, e, ?_, ?_⟩
  · rw [zpow_sub₀ (by norm_num), zpow_one]
    have h1 : 1 / 2 ≤ 1 + δ := by linarith [hδ.1]
    nlinarith [two_zpow_pos a]
  · rw [zpow_add₀ (by norm_num), zpow_one]
    have h1 : 1 + δ ≤ 2 := by linarith [hδ.2]
    nlinarith [two_zpow_pos b]

end B64

/-- **C62 (finding).** In double precision, with correctly rounded sine and cosine, the spherical
distance from a point at latitude 8° to itself is not zero but NaN, for every longitude and every
radius of ordinary size. -/
theorem C62_nan (lon r : ℝ) (hlon : |lon| ≤ 360)
    (hr : (2 : ℝ) ^ (-100 : ℤ) ≤ r ∧ r ≤ 2 ^ (100 : ℤ)) :
    utils.distance_spherical (A := Binary64) (lon : Fl Binary64) (8 : ℝ) (r : ℝ) (lon : ℝ) (8 : ℝ) (r : ℝ)
      = .ok Fl.nan := by
  obtain ⟨l, hl⟩ : ∃ l : ℝ, B64.rnd (lon * B64.round (π / 180)) = .fin l := by
    refine ⟨_, B64.rnd_of_le ?_⟩
    rw [B64.round_degree, abs_mul, abs_of_pos (by positivity : (0 : ℝ) < 5030569068109113 * 2 ^ (-58 : ℤ))]
    calc |lon| * (5030569068109113 * 2 ^ (-58 : ℤ)) ≤ 360 * 1 := by
          apply mul_le_mul hlon (by norm_num) (by positivity) (by norm_num)
      _ ≤ 2 ^ (10 : ℤ) := by norm_num
      _ ≤ _ := B64.two_zpow_le (by norm_num)
  have e1 : Fl.radians ((lon : ℝ) : Fl Binary64) = Fl.fin l := hl
  have e2 : Fl.radians (((8 : ℝ) : ℝ) : Fl Binary64) = Fl.fin (5030569068109113 * 2 ^ (-55 : ℤ)) := B64.rad8
  have e3 : Fl.sin (Fl.fin (5030569068109113 * 2 ^ (-55 : ℤ)) : Fl Binary64) =
    Fl.fin (5014239404989977 * 2 ^ (-55 : ℤ)) := B64.sin8
  have e4 : Fl.cos (Fl.fin (5030569068109113 * 2 ^ (-55 : ℤ)) : Fl Binary64) =
    Fl.fin (8919541810762874 * 2 ^ (-53 : ℤ)) := B64.cos8
  have e5 (x : ℝ) : (Fl.fin x - Fl.fin x : Fl Binary64) = Fl.fin 0 := by
    show B64.rnd (x + -x) = _
    rw [add_neg_cancel, B64.rnd_zero]; rfl
  have r1 : B64.rnd 1 = .fin 1 := by
    have := B64.rnd_int (m := 1) (q := 0) (by norm_num) (by norm_num) (by norm_num)
    simpa using this
  have e6 : Fl.cos (Fl.fin 0 : Fl Binary64) = Fl.fin 1 := by
    show B64.rnd (Real.cos 0) = _
    rw [Real.cos_zero]; exact r1
  have e7 : (Fl.fin (5014239404989977 * 2 ^ (-55 : ℤ)) * Fl.fin (5014239404989977 * 2 ^ (-55 : ℤ)) : Fl Binary64) =
    Fl.fin (5582777975588868 * 2 ^ (-58 : ℤ)) := B64.ssq8
  have e8 : (Fl.fin (8919541810762874 * 2 ^ (-53 : ℤ)) * Fl.fin (8919541810762874 * 2 ^ (-53 : ℤ)) : Fl Binary64) =
    Fl.fin (8832737443003841 * 2 ^ (-53 : ℤ)) := B64.csq8
  have e9 : (Fl.fin (8832737443003841 * 2 ^ (-53 : ℤ)) * Fl.fin 1 : Fl Binary64) =
      Fl.fin (8832737443003841 * 2 ^ (-53 : ℤ)) := by
    show B64.rnd _ = _
    rw [mul_one]
    have := B64.rnd_int (m := 8832737443003841) (q := -53) (by norm_num) (by norm_num) (by norm_num)
    push_cast at this
    exact this
  have e10 : (Fl.fin (5582777975588868 * 2 ^ (-58 : ℤ)) + Fl.fin (8832737443003841 * 2 ^ (-53 : ℤ)) : Fl Binary64) =
    Fl.fin (4503599627370497 * 2 ^ (-52 : ℤ)) := B64.sum8
  have e11 : ((1 : Fl Binary64) - Fl.fin (4503599627370497 * 2 ^ (-52 : ℤ)) : Fl Binary64) =
      Fl.fin (-1 * 2 ^ (-52 : ℤ)) := by
    show B64.rnd (((1 : ℕ) : ℝ) + -(4503599627370497 * 2 ^ (-52 : ℤ))) = _
    rw [show ((1 : ℕ) : ℝ) + -(4503599627370497 * 2 ^ (-52 : ℤ)) = -1 * 2 ^ (-52 : ℤ) by norm_num]
    have := B64.rnd_int (m := -1) (q := -52) (by norm_num) (by norm_num) (by norm_num)
    push_cast at this
    exact this
  have e12 : ((Fl.fin 0 : Fl Binary64) ^ 2) = Fl.fin 0 := by
    show B64.rnd (0 ^ 2) = _
    rw [zero_pow (by norm_num), B64.rnd_zero]; rfl
  have hr0 : 0 < r := lt_of_lt_of_le (B64.two_zpow_pos _) hr.1
  obtain ⟨a, ha, ha1, ha2⟩ := B64.rnd_pos (x := 2 * r) (a := -100) (b := 101) (by linarith)
    (by linarith [hr.1]) (by rw [show (101 : ℤ) = 100 + 1 by norm_num, zpow_add_one₀ (by norm_num)]; linarith [hr.2])
    (by norm_num) (by norm_num)
  have ha0 : 0 < a := lt_of_lt_of_le (B64.two_zpow_pos _) ha1
  have e13 : ((2 : Fl Binary64) * ((r : ℝ) : Fl Binary64)) = Fl.fin a := by
    show B64.rnd (((2 : ℕ) : ℝ) * r) = _
    push_cast; exact ha
  obtain ⟨b, hb, hb1, hb2⟩ := B64.rnd_pos (x := a * r) (a := -201) (b := 202) (by positivity)
    (by
      rw [show (-201 : ℤ) = (-100 - 1) + -100 by norm_num, zpow_add₀ (by norm_num)]
      exact mul_le_mul ha1 hr.1 (B64.two_zpow_pos _).le ha0.le)
    (by
      rw [show (202 : ℤ) = (101 + 1) + 100 by norm_num, zpow_add₀ (by norm_num)]
      exact mul_le_mul ha2 hr.2 hr0.le (B64.two_zpow_pos _).le)
    (by norm_num) (by norm_num)
  have hb0 : 0 < b := lt_of_lt_of_le (B64.two_zpow_pos _) hb1
  have e14 : ((Fl.fin a : Fl Binary64) * ((r : ℝ) : Fl Binary64)) = Fl.fin b := hb
  obtain ⟨c, hc, hc1, hc2⟩ := B64.rnd_pos (x := b * 2 ^ (-52 : ℤ)) (a := -254) (b := 151)
    (mul_pos hb0 (B64.two_zpow_pos _))
    (by
      rw [show (-254 : ℤ) = (-201 - 1) + -52 by norm_num, zpow_add₀ (by norm_num)]
      exact mul_le_mul_of_nonneg_right hb1 (B64.two_zpow_pos _).le)
    (by
      rw [show (151 : ℤ) = (202 + 1) + -52 by norm_num, zpow_add₀ (by norm_num)]
      exact mul_le_mul_of_nonneg_right hb2 (B64.two_zpow_pos _).le)
    (by norm_num) (by norm_num)
  have hc0 : 0 < c := lt_of_lt_of_le (B64.two_zpow_pos _) hc1
  have e15 : ((Fl.fin b : Fl Binary64) * Fl.fin (-1 * 2 ^ (-52 : ℤ))) = Fl.fin (-c) := by
    show (Fl.ofRaw (Binary64.rnd (b * (-1 * 2 ^ (-52 : ℤ)))) : Fl Binary64) = _
    rw [show b * (-1 * 2 ^ (-52 : ℤ)) = -(b * 2 ^ (-52 : ℤ)) by ring, Binary64_signSymmetric.rnd_neg]
    show -(Fl.ofRaw (B64.rnd _) : Fl Binary64) = _
    rw [hc]; rfl
  obtain ⟨d, hd, hd1, hd2⟩ := B64.rnd_pos (x := c) (a := -254 - 1) (b := 151 + 1) hc0 hc1 hc2 (by norm_num) (by norm_num)
  have hd0 : 0 < d := lt_of_lt_of_le (B64.two_zpow_pos _) hd1
  have e16 : ((Fl.fin 0 : Fl Binary64) + Fl.fin (-c)) = Fl.fin (-d) := by
    show (Fl.ofRaw (Binary64.rnd (0 + -c)) : Fl Binary64) = _
    rw [zero_add, Binary64_signSymmetric.rnd_neg]
    show -(Fl.ofRaw (B64.rnd _) : Fl Binary64) = _
    rw [hd]; rfl
  have e17 : Fl.sqrt (Fl.fin (-d) : Fl Binary64) = Fl.nan := by
    show (if -d < 0 then Fl.nan else _) = _
    rw [if_pos (by linarith)]
  unfold utils.distance_spherical utils.distance_spherical_core
  simp only [e1, e2, e3, e4, e5, e6, e7, e8, e9, e10, e11, e12, e13, e14, e15, e16, e17]
  rfl

/-- non-vacuity: a point on the surface of the Earth -/
example : utils.distance_spherical (A := Binary64) ((-60 : ℝ) : Fl Binary64) (8 : ℝ) (6371000 : ℝ) (-60 : ℝ) (8 : ℝ)
    (6371000 : ℝ) = .ok Fl.nan :=
  C62_nan _ _ (by norm_num [abs_le]) ⟨by norm_num, by norm_num⟩

/-- … while in exact arithmetic it is zero. -/
example : Returns (utils.distance_spherical (A := Exact) ((-60 : ℝ) : Fl Exact) (8 : ℝ) (6371000 : ℝ) (-60 : ℝ)
    (8 : ℝ) (6371000 : ℝ)) 0 := by
  have h := C02_distance_spherical (-60) 8 6371000 (-60) 8 6371000
  rwa [dist_self] at h

/-! ## C63: rounding error -/

variable {A : Arith} {u : ℝ}

/-- `np.radians` of geographic angles. -/
theorem radians_ok (ht : A.TrigAccurate u (2 ^ (-1022 : ℤ))) (hu0 : 0 ≤ u) {x b : ℝ} {m : ℝ}
    (hx : |x| ≤ b) (hb : b ≤ 360) (hb1 : 1 ≤ b) (hm : 3 * (b * (3.15 / 180)) ≤ m) :
    ∃ y : ℝ, Fl.radians ((x : ℝ) : Fl A) = Fl.fin y ∧ |y - deg x| ≤ m * u := by
  obtain ⟨y, e, hy⟩ := ht.radians x (hx.trans (hb.trans (by norm_num)))
  refine ⟨y, congrArg Fl.ofRaw e, hy.trans ?_⟩
  have hp := Real.pi_lt_d2
  have hp0 := Real.pi_pos
  have h1 : |x * (π / 180)| ≤ b * (3.15 / 180) := by
    rw [abs_mul, abs_of_pos (by positivity : 0 < π / 180)]
    apply mul_le_mul hx _ (by positivity) (by linarith)
    linarith
  have h2 : (2 : ℝ) ^ (-1022 : ℤ) ≤ b * (3.15 / 180) := by
    calc (2 : ℝ) ^ (-1022 : ℤ) ≤ 2 ^ (-10 : ℤ) := Mag.zle (by norm_num)
      _ ≤ _ := by norm_num; linarith
  calc 3 * u * max |x * (π / 180)| (2 ^ (-1022 : ℤ)) ≤ 3 * u * (b * (3.15 / 180)) :=
        mul_le_mul_of_nonneg_left (max_le h1 h2) (by positivity)
    _ = 3 * (b * (3.15 / 180)) * u := by ring
    _ ≤ m * u := mul_le_mul_of_nonneg_right hm hu0

/-- **C63.** In any arithmetic with unit roundoff `u`, the range of IEEE double precision and accurate
sine, cosine and `radians`: between geographic positions with radii of moderate size whose exact
distance `d` satisfies `d² ≥ 400 u rₚ r_q` (on the Earth in double precision: farther apart than about
1.4 m), `distance_spherical` returns a finite number — never NaN — within
`7 u d + 192 u rₚ r_q / d` of the exact distance. -/
theorem C63_distance_spherical (h : A.Accurate u (2 ^ (-1022 : ℤ)) (2 ^ (1023 : ℤ)))
    (ht : A.TrigAccurate u (2 ^ (-1022 : ℤ))) (hu : u ≤ 2 ^ (-20 : ℤ)) (lonp latp rp lonq latq rq : ℝ)
    (hp : GeographicAngles lonp latp) (hq : GeographicAngles lonq latq)
    (hrp : ModerateRadius rp) (hrq : ModerateRadius rq) (hrr : ModerateSize (rp - rq))
    {d : ℝ} (hd : d = dist (toE (sph (deg lonp) (deg latp) rp)) (toE (sph (deg lonq) (deg latq) rq)))
    (hd0 : 0 < d) (hfar : 400 * u * (rp * rq) ≤ d ^ 2) :
    ReturnsWithin (utils.distance_spherical (A := A) lonp latp rp lonq latq rq) d
      (7 * u * d + 192 * u * (rp * rq / d)) := by
  have hu0 := h.u_nonneg
  have hu' : u ≤ 1 / 1048576 := by norm_num at hu; exact hu
  have hpi := Real.pi_lt_d2
  have hpi0 := Real.pi_pos
  obtain ⟨lp', e1, f1⟩ := radians_ok (A := A) ht hu0 hp.1 (by norm_num) (by norm_num) (m := 19) (by norm_num)
  obtain ⟨p', e2, f2⟩ := radians_ok (A := A) ht hu0 hp.2 (by norm_num) (by norm_num) (m := 5) (by norm_num)
  obtain ⟨lq', e3, f3⟩ := radians_ok (A := A) ht hu0 hq.1 (by norm_num) (by norm_num) (m := 19) (by norm_num)
  obtain ⟨q', e4, f4⟩ := radians_ok (A := A) ht hu0 hq.2 (by norm_num) (by norm_num) (m := 5) (by norm_num)
  have big : ∀ x y : ℝ, |x| ≤ 90 → |y - deg x| ≤ 5 * u → |y| ≤ 2 ^ 20 := by
    intro x y hx hy
    have h1 : |deg x| ≤ 90 * 1 := by
      unfold deg
      rw [abs_mul, abs_of_pos (by positivity : 0 < π / 180)]
      apply mul_le_mul hx _ (by positivity) (by norm_num)
      linarith
    have := abs_sub_abs_le_abs_sub y (deg x)
    norm_num; linarith
  have turn : ∀ x : ℝ, |x| ≤ 360 → |deg x| ≤ 2 * π := by
    intro x hx
    unfold deg
    rw [abs_mul, abs_of_pos (by positivity : 0 < π / 180)]
    nlinarith
  obtain ⟨cp, e5, f5⟩ := Fl.cos_ok ht (big _ _ hp.2 f2) f2
  obtain ⟨sp, e6, f6⟩ := Fl.sin_ok ht (big _ _ hp.2 f2) f2
  obtain ⟨cq, e7, f7⟩ := Fl.cos_ok ht (big _ _ hq.2 f4) f4
  obtain ⟨sq, e8, f8⟩ := Fl.sin_ok ht (big _ _ hq.2 f4) f4
  norm_num only at f5 f6 f7 f8
  obtain ⟨D, cpsi, cl, e9, -, -, hD⟩ := sph_core_err h ht hu (turn _ hp.1) (turn _ hq.1) f1 f3 f5 f6 f7 f8
    hrp hrq hrr
  rw [← dist3_eq_dist] at hd
  rw [← hd] at hD
  obtain ⟨y, ey, fy⟩ := hD hd0 hfar
  refine ⟨y, ?_, fy⟩
  unfold Returns utils.distance_spherical
  simp only [e1, e2, e3, e4, e5, e6, e7, e8]
  show (utils.distance_spherical_core (Fl.fin lp') (Fl.fin cp) (Fl.fin sp) ((rp : ℝ) : Fl A) (Fl.fin lq') (Fl.fin cq)
    (Fl.fin sq) ((rq : ℝ) : Fl A) >>= fun x => pure x.1) = _
  rw [e9, ey]; rfl

/-- **C63.** `distance_spherical_core` on rounded sines, cosines and longitudes (errors up to `6 u` and
`19 u`): the same bound for the distance, `82 u` for the cosine of the angle, `53 u` for the cosine of
the longitude difference; the latter two never become NaN or infinite. -/
theorem C63_core (h : A.Accurate u (2 ^ (-1022 : ℤ)) (2 ^ (1023 : ℤ)))
    (ht : A.TrigAccurate u (2 ^ (-1022 : ℤ))) (hu : u ≤ 2 ^ (-20 : ℤ))
    {lonp latp lonq latq lp cp sp rp lq cq sq rq : ℝ} (hlp : |lonp| ≤ 2 * π) (hlq : |lonq| ≤ 2 * π)
    (elp : |lp - lonp| ≤ 19 * u) (elq : |lq - lonq| ≤ 19 * u)
    (ecp : |cp - cos latp| ≤ 6 * u) (esp : |sp - sin latp| ≤ 6 * u)
    (ecq : |cq - cos latq| ≤ 6 * u) (esq : |sq - sin latq| ≤ 6 * u)
    (hrp : ModerateRadius rp) (hrq : ModerateRadius rq) (hrr : ModerateSize (rp - rq))
    {d : ℝ} (hd : d = dist (toE (sph lonp latp rp)) (toE (sph lonq latq rq))) :
    ∃ (D : Fl A) (cpsi cl : ℝ),
      utils.distance_spherical_core (A := A) lp cp sp rp lq cq sq rq = .ok (D, Fl.fin cpsi, Fl.fin cl) ∧
      |cpsi - cosAngle lonp latp lonq latq| ≤ 82 * u ∧ |cl - cos (lonq - lonp)| ≤ 53 * u ∧
      (0 < d → 400 * u * (rp * rq) ≤ d ^ 2 →
        ∃ y : ℝ, D = Fl.fin y ∧ |y - d| ≤ 7 * u * d + 192 * u * (rp * rq / d)) := by
  rw [hd, ← dist3_eq_dist]
  exact sph_core_err h ht hu hlp hlq elp elq ecp esp ecq esq hrp hrq hrr

/-- double precision has the accuracy asked for -/
theorem Binary64_trigAccurate : Binary64.TrigAccurate (2 ^ (-53 : ℤ)) (2 ^ (-1022 : ℤ)) := by
  have hu : (2 : ℝ) ^ (-53 : ℤ) ≤ 1 / 1048576 := by norm_num
  have hu0 : (0 : ℝ) < 2 ^ (-53 : ℤ) := Mag.zp _
  have hlo0 : (0 : ℝ) < 2 ^ (-1022 : ℤ) := Mag.zp _
  have hlo1 : (2 : ℝ) ^ (-1022 : ℤ) ≤ 1 := by
    calc (2 : ℝ) ^ (-1022 : ℤ) ≤ 2 ^ (0 : ℤ) := Mag.zle (by norm_num)
      _ = 1 := by norm_num
  have hhi : (1048576 : ℝ) ≤ 2 ^ (1023 : ℤ) := by
    calc (1048576 : ℝ) = 2 ^ (20 : ℤ) := by norm_num
      _ ≤ _ := Mag.zle (by norm_num)
  have unit : ∀ t : ℝ, |t| ≤ 1 → ∃ y : ℝ, B64.rnd t = .fin y ∧ |y - t| ≤ 2 ^ (-53 : ℤ) := by
    intro t ht
    obtain ⟨y, e, hy⟩ := Binary64_accurate.rnd_abs t (ht.trans (le_trans (by norm_num) hhi))
    refine ⟨y, e, hy.trans ?_⟩
    calc (2 : ℝ) ^ (-53 : ℤ) * max |t| (2 ^ (-1022 : ℤ)) ≤ 2 ^ (-53 : ℤ) * 1 :=
          mul_le_mul_of_nonneg_left (max_le ht hlo1) hu0.le
      _ = _ := mul_one _
  refine ⟨fun x hx => ?_, fun x _ => unit _ (abs_sin_le_one x), fun x _ => unit _ (abs_cos_le_one x)⟩
  have hpi := Real.pi_lt_d2
  have hpi0 := Real.pi_pos
  have hc : |B64.round (π / 180) - π / 180| ≤ 2 ^ (-53 : ℤ) * |π / 180| := by
    apply B64.abs_round_sub_le
    calc (2 : ℝ) ^ (-1022 : ℤ) ≤ 2 ^ (-10 : ℤ) := Mag.zle (by norm_num)
      _ ≤ _ := by rw [abs_of_pos (by positivity)]; norm_num; linarith [Real.pi_gt_three]
  rw [abs_of_pos (by positivity : 0 < π / 180)] at hc
  have hx1 : |x * B64.round (π / 180) - x * (π / 180)| ≤ 2 ^ (-53 : ℤ) * |x * (π / 180)| := by
    rw [← mul_sub, abs_mul, abs_mul, abs_of_pos (by positivity : 0 < π / 180)]
    calc |x| * |B64.round (π / 180) - π / 180| ≤ |x| * (2 ^ (-53 : ℤ) * (π / 180)) :=
          mul_le_mul_of_nonneg_left hc (abs_nonneg x)
      _ = _ := by ring
  have hx2 : |x * (π / 180)| ≤ 1048576 / 10 := by
    rw [abs_mul, abs_of_pos (by positivity : 0 < π / 180)]
    calc |x| * (π / 180) ≤ 2 ^ 20 * (1 / 10) := by
          apply mul_le_mul hx (by linarith) (by positivity) (by norm_num)
      _ = _ := by norm_num
  have hx3 : |x * B64.round (π / 180)| ≤ (1 + 2 ^ (-53 : ℤ)) * |x * (π / 180)| := by
    have := abs_sub_abs_le_abs_sub (x * B64.round (π / 180)) (x * (π / 180))
    linarith
  obtain ⟨y, e, hy⟩ := Binary64_accurate.rnd_abs (x * B64.round (π / 180)) (by
    generalize (2 : ℝ) ^ (-53 : ℤ) = u at *
    generalize (2 : ℝ) ^ (1023 : ℤ) = hi at *
    nlinarith [abs_nonneg (x * (π / 180))])
  refine ⟨y, e, ?_⟩
  generalize (2 : ℝ) ^ (-53 : ℤ) = u at *
  generalize (2 : ℝ) ^ (-1022 : ℤ) = lo at *
  have hm0 : 0 ≤ max |x * (π / 180)| lo := (abs_nonneg _).trans (le_max_left _ _)
  have hm1 : max |x * B64.round (π / 180)| lo ≤ (1 + u) * max |x * (π / 180)| lo := by
    apply max_le
    · exact hx3.trans (mul_le_mul_of_nonneg_left (le_max_left _ _) (by linarith))
    · have := le_max_right |x * (π / 180)| lo
      nlinarith
  calc |y - x * (π / 180)| = |(y - x * B64.round (π / 180)) + (x * B64.round (π / 180) - x * (π / 180))| := by
        ring_nf
    _ ≤ _ := abs_add_le _ _
    _ ≤ u * ((1 + u) * max |x * (π / 180)| lo) + u * max |x * (π / 180)| lo := by
        refine add_le_add (hy.trans (mul_le_mul_of_nonneg_left hm1 hu0.le)) (hx1.trans ?_)
        exact mul_le_mul_of_nonneg_left (le_max_left _ _) hu0.le
    _ ≤ 3 * u * max |x * (π / 180)| lo := by
        have := mul_nonneg hu0.le hm0
        nlinarith

/-- **C63.** In double precision. -/
theorem C63_double (lonp latp rp lonq latq rq : ℝ)
    (hp : GeographicAngles lonp latp) (hq : GeographicAngles lonq latq)
    (hrp : ModerateRadius rp) (hrq : ModerateRadius rq) (hrr : ModerateSize (rp - rq))
    {d : ℝ} (hd : d = dist (toE (sph (deg lonp) (deg latp) rp)) (toE (sph (deg lonq) (deg latq) rq)))
    (hfar : (2 : ℝ) ^ (-44 : ℤ) * (rp * rq) ≤ d ^ 2) :
    ReturnsWithin (utils.distance_spherical (A := Binary64) lonp latp rp lonq latq rq) d
      (2 ^ (-50 : ℤ) * d + 2 ^ (-45 : ℤ) * (rp * rq / d)) := by
  have hr0 : 0 < rp * rq :=
    mul_pos (lt_of_lt_of_le (Mag.zp _) hrp.1) (lt_of_lt_of_le (Mag.zp _) hrq.1)
  have hd00 : 0 ≤ d := by rw [hd]; exact dist_nonneg
  have hd0 : 0 < d := by
    rcases hd00.eq_or_lt with h0 | h0
    · rw [← h0] at hfar
      have := mul_pos (Mag.zp (-44)) hr0
      norm_num at hfar this
      linarith
    · exact h0
  obtain ⟨y, e, hy⟩ := C63_distance_spherical Binary64_accurate Binary64_trigAccurate (Mag.zle (by norm_num))
    lonp latp rp lonq latq rq hp hq hrp hrq hrr hd hd0 (by
      refine le_trans (mul_le_mul_of_nonneg_right ?_ hr0.le) hfar
      norm_num)
  refine ⟨y, e, hy.trans ?_⟩
  have : 0 ≤ rp * rq / d := by positivity
  apply add_le_add
  · exact mul_le_mul_of_nonneg_right (by norm_num) hd00
  · exact mul_le_mul_of_nonneg_right (by norm_num) this

/-- non-vacuity: from the equator to the north pole of the Earth -/
example : ∃ y : ℝ, Returns (utils.distance_spherical (A := Binary64) ((0 : ℝ) : Fl Binary64) (0 : ℝ) (6371000 : ℝ)
    (0 : ℝ) (90 : ℝ) (6371000 : ℝ)) y := by
  have e : dist (toE (sph (deg 0) (deg 0) 6371000)) (toE (sph (deg 0) (deg 90) 6371000)) = √(2 * 6371000 ^ 2) := by
    rw [← dist3_eq_dist]
    have h90 : deg 90 = π / 2 := by unfold deg; ring
    have h0 : deg 0 = 0 := by unfold deg; ring
    unfold dist3
    simp only [sph, h90, h0, Pt.e, Pt.n, Pt.u, cos_zero, sin_zero, cos_pi_div_two, sin_pi_div_two]
    congr 1; ring
  obtain ⟨y, hy, -⟩ := C63_double 0 0 6371000 0 90 6371000 ⟨by norm_num, by norm_num⟩
    ⟨by norm_num, by norm_num [abs_le]⟩ ⟨by norm_num, by norm_num⟩ ⟨by norm_num, by norm_num⟩
    (.inl (by norm_num)) e.symm (by
      rw [Real.sq_sqrt (by positivity)]
      norm_num)
  exact ⟨y, hy⟩

end Choclo
