import Verif.Lemmas.MixedSph
import Verif.Props.Spherical
import Verif.Props.NoRaise32

/-!
# `distance_spherical` and `distance_spherical_core` with float32 arguments (C129)
-/

namespace Choclo

open Real

namespace B32

/-- the rounding of `x` is the nearest multiple of the unit in its binade -/
theorem round_eq {x : ℝ} {m q : ℤ} (hq : -149 ≤ q) (h1 : (2 : ℝ) ^ (q + 23) ≤ |x|)
    (h2 : |x| < 2 ^ (q + 24)) (h3 : |x - m * 2 ^ q| < 2 ^ q / 2) : round x = m * 2 ^ q := by
  have hx : 0 < |x| := lt_of_lt_of_le (two_zpow_pos _) h1
  have hlog : Int.log 2 |x| = q + 23 := by
    apply le_antisymm
    · have : Int.log 2 |x| < q + 24 := (Int.lt_zpow_iff_log_lt (by norm_num) hx).1 (by exact_mod_cast h2)
      omega
    · exact (Int.zpow_le_iff_le_log (by norm_num) hx).1 (by exact_mod_cast h1)
  have hqe : qexp x = q := by
    unfold qexp
    rw [hlog, add_sub_cancel_right, max_eq_left hq]
  unfold round
  rw [hqe]
  have hp := two_zpow_pos q
  have h4 : |x / 2 ^ q - m| < 1 / 2 := by
    rw [show x / 2 ^ q - m = (x - m * 2 ^ q) / 2 ^ q by field_simp, abs_div, abs_of_pos hp,
      div_lt_iff₀ hp]
    linarith
  have h5 := abs_rne_sub_le (x / 2 ^ q)
  have h6 : |((rne (x / 2 ^ q) - m : ℤ) : ℝ)| < 1 := by
    push_cast
    calc |(rne (x / 2 ^ q) : ℝ) - m| = |((rne (x / 2 ^ q) : ℝ) - x / 2 ^ q) + (x / 2 ^ q - m)| := by
          ring_nf
      _ ≤ _ := abs_add_le _ _
      _ < 1 := by linarith
  have h7 : rne (x / 2 ^ q) - m = 0 := by
    have : |rne (x / 2 ^ q) - m| < 1 := by exact_mod_cast h6
    rwa [Int.abs_lt_one_iff] at this
  rw [sub_eq_zero.1 h7]

/-- the same, as a datum, for results of magnitude below `2^128` -/
theorem rnd_eq {x : ℝ} {m q : ℤ} (hq : -149 ≤ q) (hq' : q ≤ 103) (h1 : (2 : ℝ) ^ (q + 23) ≤ |x|)
    (h2 : |x| < 2 ^ (q + 24)) (h3 : |x - m * 2 ^ q| < 2 ^ q / 2) : rnd x = .fin (m * 2 ^ q) := by
  unfold rnd
  rw [round_eq hq h1 h2 h3, if_pos]
  have : |(m : ℝ) * 2 ^ q| ≤ |x| + |x - m * 2 ^ q| := by
    have := abs_sub_abs_le_abs_sub ((m : ℝ) * 2 ^ q) x
    rw [abs_sub_comm] at this
    linarith
  calc |(m : ℝ) * 2 ^ q| ≤ |x| + |x - m * 2 ^ q| := this
    _ < 2 ^ (q + 24) + 2 ^ q := by have := two_zpow_pos q; linarith
    _ ≤ 2 ^ (q + 24) + 2 ^ (q + 24) := by
        have := two_zpow_le (a := q) (b := q + 24) (by omega); linarith
    _ = 2 ^ (q + 25) := by
        rw [show q + 25 = q + 24 + 1 by ring, zpow_add_one₀ (by norm_num)]; ring
    _ ≤ 2 ^ (128 : ℤ) := two_zpow_le (by omega)


/-- the degree, in single precision -/
theorem round_degree : round (π / 180) = 9370165 * 2 ^ (-29 : ℤ) := by
  have h1 := Real.pi_gt_d20
  have h2 := Real.pi_lt_d20
  have := round_eq (x := π / 180) (m := 9370165) (q := -29) (by norm_num)
    (by rw [abs_of_pos (by positivity)]; norm_num; linarith)
    (by rw [abs_of_pos (by positivity)]; norm_num; linarith)
    (by rw [abs_lt]; norm_num; constructor <;> linarith)
  rw [this]; push_cast; rfl

theorem rnd_int {m q : ℤ} (hm : |m| ≤ 2 ^ 24) (hq : -149 ≤ q) (hq' : q ≤ 103) :
    rnd (m * 2 ^ q) = .fin (m * 2 ^ q) := by
  apply IsF.rnd ⟨m, q, hm, hq, rfl⟩
  rw [abs_mul, abs_of_pos (two_zpow_pos q), ← Int.cast_abs]
  have h1 : ((|m| : ℤ) : ℝ) ≤ 2 ^ (24 : ℤ) := by
    have : ((|m| : ℤ) : ℝ) ≤ ((2 ^ 24 : ℤ) : ℝ) := by exact_mod_cast hm
    rw [show ((2 : ℝ) ^ (24 : ℤ)) = ((2 ^ 24 : ℤ) : ℝ) by norm_num]
    exact this
  calc ((|m| : ℤ) : ℝ) * 2 ^ q ≤ 2 ^ (24 : ℤ) * 2 ^ q :=
        mul_le_mul_of_nonneg_right h1 (two_zpow_pos q).le
    _ = 2 ^ (24 + q) := by rw [zpow_add₀ (by norm_num)]
    _ < 2 ^ (128 : ℤ) := zpow_lt_zpow_right₀ (by norm_num) (by omega)

theorem rnd_near {x : ℝ} {m q : ℤ} (hx : 0 < x) (hq : -149 ≤ q) (hq' : q ≤ 103) (h1 : (2 : ℝ) ^ (q + 23) ≤ x)
    (h2 : x < 2 ^ (q + 24)) (h3 : -(2 ^ q / 2) < x - m * 2 ^ q) (h4 : x - m * 2 ^ q < 2 ^ q / 2) :
    rnd x = .fin (m * 2 ^ q) :=
  rnd_eq hq hq' (by rwa [abs_of_pos hx]) (by rwa [abs_of_pos hx]) (abs_lt.2 ⟨h3, h4⟩)


theorem rad4 : rnd (4 * round (π / 180)) = .fin (9370165 * 2 ^ (-27 : ℤ)) := by
  rw [round_degree, show (4 : ℝ) * (9370165 * 2 ^ (-29 : ℤ)) = 9370165 * 2 ^ (-27 : ℤ) by norm_num]
  exact_mod_cast rnd_int (m := 9370165) (q := -27) (by norm_num) (by norm_num) (by norm_num)

theorem sin4 : rnd (Real.sin (9370165 * 2 ^ (-27 : ℤ))) = .fin (9362555 * 2 ^ (-27 : ℤ)) := by
  have h := (cos_sin_enclosure (x := 9370165 * 2 ^ (-27 : ℤ)) (by rw [abs_of_pos (by positivity)]; norm_num)).2
  generalize Real.sin (9370165 * 2 ^ (-27 : ℤ)) = s at h ⊢
  rw [abs_of_pos (by positivity : (0 : ℝ) < 9370165 * 2 ^ (-27 : ℤ)), abs_le] at h
  unfold sinTaylor at h
  obtain ⟨h1, h2⟩ := h
  norm_num at h1 h2
  exact_mod_cast rnd_near (x := s) (m := 9362555) (q := -27) (by linarith) (by norm_num) (by norm_num) (by norm_num; linarith)
    (by norm_num; linarith) (by norm_num; linarith) (by norm_num; linarith)

theorem cos4 : rnd (Real.cos (9370165 * 2 ^ (-27 : ℤ))) = .fin (16736348 * 2 ^ (-24 : ℤ)) := by
  have h := (cos_sin_enclosure (x := 9370165 * 2 ^ (-27 : ℤ)) (by rw [abs_of_pos (by positivity)]; norm_num)).1
  generalize Real.cos (9370165 * 2 ^ (-27 : ℤ)) = s at h ⊢
  rw [abs_of_pos (by positivity : (0 : ℝ) < 9370165 * 2 ^ (-27 : ℤ)), abs_le] at h
  unfold cosTaylor at h
  obtain ⟨h1, h2⟩ := h
  norm_num at h1 h2
  exact_mod_cast rnd_near (x := s) (m := 16736348) (q := -24) (by linarith) (by norm_num) (by norm_num) (by norm_num; linarith)
    (by norm_num; linarith) (by norm_num; linarith) (by norm_num; linarith)

theorem ssq4 : rnd (9362555 * 2 ^ (-27 : ℤ) * (9362555 * 2 ^ (-27 : ℤ))) = .fin (10449581 * 2 ^ (-31 : ℤ)) := by
  exact_mod_cast rnd_near (x := 9362555 * 2 ^ (-27 : ℤ) * (9362555 * 2 ^ (-27 : ℤ))) (m := 10449581) (q := -31) (by positivity)
    (by norm_num) (by norm_num) (by norm_num) (by norm_num) (by norm_num) (by norm_num)

theorem csq4 : rnd (16736348 * 2 ^ (-24 : ℤ) * (16736348 * 2 ^ (-24 : ℤ))) = .fin (16695580 * 2 ^ (-24 : ℤ)) := by
  exact_mod_cast rnd_near (x := 16736348 * 2 ^ (-24 : ℤ) * (16736348 * 2 ^ (-24 : ℤ))) (m := 16695580) (q := -24) (by positivity)
    (by norm_num) (by norm_num) (by norm_num) (by norm_num) (by norm_num) (by norm_num)

theorem csq4' : rnd (16695580 * 2 ^ (-24 : ℤ) * 1) = .fin (16695580 * 2 ^ (-24 : ℤ)) := by
  rw [mul_one]
  exact_mod_cast rnd_int (m := 16695580) (q := -24) (by norm_num) (by norm_num) (by norm_num)

theorem sum4 : rnd (10449581 * 2 ^ (-31 : ℤ) + 16695580 * 2 ^ (-24 : ℤ)) = .fin (8388609 * 2 ^ (-23 : ℤ)) := by
  exact_mod_cast rnd_near (x := 10449581 * 2 ^ (-31 : ℤ) + 16695580 * 2 ^ (-24 : ℤ)) (m := 8388609) (q := -23) (by positivity)
    (by norm_num) (by norm_num) (by norm_num) (by norm_num) (by norm_num) (by norm_num)

theorem rad8 : rnd (8 * round (π / 180)) = .fin (9370165 * 2 ^ (-26 : ℤ)) := by
  rw [round_degree, show (8 : ℝ) * (9370165 * 2 ^ (-29 : ℤ)) = 9370165 * 2 ^ (-26 : ℤ) by norm_num]
  exact_mod_cast rnd_int (m := 9370165) (q := -26) (by norm_num) (by norm_num) (by norm_num)

theorem sin8 : rnd (Real.sin (9370165 * 2 ^ (-26 : ℤ))) = .fin (9339749 * 2 ^ (-26 : ℤ)) := by
  have h := (cos_sin_enclosure (x := 9370165 * 2 ^ (-26 : ℤ)) (by rw [abs_of_pos (by positivity)]; norm_num)).2
  generalize Real.sin (9370165 * 2 ^ (-26 : ℤ)) = s at h ⊢
  rw [abs_of_pos (by positivity : (0 : ℝ) < 9370165 * 2 ^ (-26 : ℤ)), abs_le] at h
  unfold sinTaylor at h
  obtain ⟨h1, h2⟩ := h
  norm_num at h1 h2
  exact_mod_cast rnd_near (x := s) (m := 9339749) (q := -26) (by linarith) (by norm_num) (by norm_num) (by norm_num; linarith)
    (by norm_num; linarith) (by norm_num; linarith) (by norm_num; linarith)

theorem cos8 : rnd (Real.cos (9370165 * 2 ^ (-26 : ℤ))) = .fin (16613941 * 2 ^ (-24 : ℤ)) := by
  have h := (cos_sin_enclosure (x := 9370165 * 2 ^ (-26 : ℤ)) (by rw [abs_of_pos (by positivity)]; norm_num)).1
  generalize Real.cos (9370165 * 2 ^ (-26 : ℤ)) = s at h ⊢
  rw [abs_of_pos (by positivity : (0 : ℝ) < 9370165 * 2 ^ (-26 : ℤ)), abs_le] at h
  unfold cosTaylor at h
  obtain ⟨h1, h2⟩ := h
  norm_num at h1 h2
  exact_mod_cast rnd_near (x := s) (m := 16613941) (q := -24) (by linarith) (by norm_num) (by norm_num) (by norm_num; linarith)
    (by norm_num; linarith) (by norm_num; linarith) (by norm_num; linarith)

theorem ssq8 : rnd (9339749 * 2 ^ (-26 : ℤ) * (9339749 * 2 ^ (-26 : ℤ))) = .fin (10398735 * 2 ^ (-29 : ℤ)) := by
  exact_mod_cast rnd_near (x := 9339749 * 2 ^ (-26 : ℤ) * (9339749 * 2 ^ (-26 : ℤ))) (m := 10398735) (q := -29) (by positivity)
    (by norm_num) (by norm_num) (by norm_num) (by norm_num) (by norm_num) (by norm_num)

theorem csq8 : rnd (16613941 * 2 ^ (-24 : ℤ) * (16613941 * 2 ^ (-24 : ℤ))) = .fin (16452255 * 2 ^ (-24 : ℤ)) := by
  exact_mod_cast rnd_near (x := 16613941 * 2 ^ (-24 : ℤ) * (16613941 * 2 ^ (-24 : ℤ))) (m := 16452255) (q := -24) (by positivity)
    (by norm_num) (by norm_num) (by norm_num) (by norm_num) (by norm_num) (by norm_num)

theorem csq8' : rnd (16452255 * 2 ^ (-24 : ℤ) * 1) = .fin (16452255 * 2 ^ (-24 : ℤ)) := by
  rw [mul_one]
  exact_mod_cast rnd_int (m := 16452255) (q := -24) (by norm_num) (by norm_num) (by norm_num)

theorem sum8 : rnd (10398735 * 2 ^ (-29 : ℤ) + 16452255 * 2 ^ (-24 : ℤ)) = .fin (16777215 * 2 ^ (-24 : ℤ)) := by
  exact_mod_cast rnd_near (x := 10398735 * 2 ^ (-29 : ℤ) + 16452255 * 2 ^ (-24 : ℤ)) (m := 16777215) (q := -24) (by positivity)
    (by norm_num) (by norm_num) (by norm_num) (by norm_num) (by norm_num) (by norm_num)

end B32

/-- single precision has the accuracy asked for -/
theorem Binary32_trigAccurate : Binary32.TrigAccurate (2 ^ (-24 : ℤ)) (2 ^ (-126 : ℤ)) := by
  have hu : (2 : ℝ) ^ (-24 : ℤ) ≤ 1 / 1048576 := by norm_num
  have hu0 : (0 : ℝ) < 2 ^ (-24 : ℤ) := Mag.zp _
  have hlo0 : (0 : ℝ) < 2 ^ (-126 : ℤ) := Mag.zp _
  have hlo1 : (2 : ℝ) ^ (-126 : ℤ) ≤ 1 := by
    calc (2 : ℝ) ^ (-126 : ℤ) ≤ 2 ^ (0 : ℤ) := Mag.zle (by norm_num)
      _ = 1 := by norm_num
  have hhi : (1048576 : ℝ) ≤ 2 ^ (127 : ℤ) := by
    calc (1048576 : ℝ) = 2 ^ (20 : ℤ) := by norm_num
      _ ≤ _ := Mag.zle (by norm_num)
  have unit : ∀ t : ℝ, |t| ≤ 1 → ∃ y : ℝ, B32.rnd t = .fin y ∧ |y - t| ≤ 2 ^ (-24 : ℤ) := by
    intro t ht
    obtain ⟨y, e, hy⟩ := Binary32_accurate.rnd_abs t (ht.trans (le_trans (by norm_num) hhi))
    refine ⟨y, e, hy.trans ?_⟩
    calc (2 : ℝ) ^ (-24 : ℤ) * max |t| (2 ^ (-126 : ℤ)) ≤ 2 ^ (-24 : ℤ) * 1 :=
          mul_le_mul_of_nonneg_left (max_le ht hlo1) hu0.le
      _ = _ := mul_one _
  refine ⟨fun x hx => ?_, fun x _ => unit _ (abs_sin_le_one x), fun x _ => unit _ (abs_cos_le_one x)⟩
  have hpi := Real.pi_lt_d2
  have hpi0 := Real.pi_pos
  have hc : |B32.round (π / 180) - π / 180| ≤ 2 ^ (-24 : ℤ) * |π / 180| := by
    apply B32.abs_round_sub_le
    calc (2 : ℝ) ^ (-126 : ℤ) ≤ 2 ^ (-10 : ℤ) := Mag.zle (by norm_num)
      _ ≤ _ := by rw [abs_of_pos (by positivity)]; norm_num; linarith [Real.pi_gt_three]
  rw [abs_of_pos (by positivity : 0 < π / 180)] at hc
  have hx1 : |x * B32.round (π / 180) - x * (π / 180)| ≤ 2 ^ (-24 : ℤ) * |x * (π / 180)| := by
    rw [← mul_sub, abs_mul, abs_mul, abs_of_pos (by positivity : 0 < π / 180)]
    calc |x| * |B32.round (π / 180) - π / 180| ≤ |x| * (2 ^ (-24 : ℤ) * (π / 180)) :=
          mul_le_mul_of_nonneg_left hc (abs_nonneg x)
      _ = _ := by ring
  have hx2 : |x * (π / 180)| ≤ 1048576 / 10 := by
    rw [abs_mul, abs_of_pos (by positivity : 0 < π / 180)]
    calc |x| * (π / 180) ≤ 2 ^ 20 * (1 / 10) := by
          apply mul_le_mul hx (by linarith) (by positivity) (by norm_num)
      _ = _ := by norm_num
  have hx3 : |x * B32.round (π / 180)| ≤ (1 + 2 ^ (-24 : ℤ)) * |x * (π / 180)| := by
    have := abs_sub_abs_le_abs_sub (x * B32.round (π / 180)) (x * (π / 180))
    linarith
  obtain ⟨y, e, hy⟩ := Binary32_accurate.rnd_abs (x * B32.round (π / 180)) (by
    generalize (2 : ℝ) ^ (-24 : ℤ) = u at *
    generalize (2 : ℝ) ^ (127 : ℤ) = hi at *
    nlinarith [abs_nonneg (x * (π / 180))])
  refine ⟨y, e, ?_⟩
  generalize (2 : ℝ) ^ (-24 : ℤ) = u at *
  generalize (2 : ℝ) ^ (-126 : ℤ) = lo at *
  have hm0 : 0 ≤ max |x * (π / 180)| lo := (abs_nonneg _).trans (le_max_left _ _)
  have hm1 : max |x * B32.round (π / 180)| lo ≤ (1 + u) * max |x * (π / 180)| lo := by
    apply max_le
    · exact hx3.trans (mul_le_mul_of_nonneg_left (le_max_left _ _) (by linarith))
    · have := le_max_right |x * (π / 180)| lo
      nlinarith
  calc |y - x * (π / 180)| = |(y - x * B32.round (π / 180)) + (x * B32.round (π / 180) - x * (π / 180))| := by
        ring_nf
    _ ≤ _ := abs_add_le _ _
    _ ≤ u * ((1 + u) * max |x * (π / 180)| lo) + u * max |x * (π / 180)| lo := by
        refine add_le_add (hy.trans (mul_le_mul_of_nonneg_left hm1 hu0.le)) (hx1.trans ?_)
        exact mul_le_mul_of_nonneg_left (le_max_left _ _) hu0.le
    _ ≤ 3 * u * max |x * (π / 180)| lo := by
        have := mul_nonneg hu0.le hm0
        nlinarith

theorem numba_trig : BothTrig Numba32 Numba64 (2 ^ (-23 : ℤ)) (2 ^ (-126 : ℤ)) (2 ^ (-1022 : ℤ)) where
  single := by
    obtain ⟨h1, h2, h3⟩ := Binary32_trigAccurate
    have hu : (2 : ℝ) ^ (-24 : ℤ) ≤ 2 ^ (-23 : ℤ) := Mag.zle (by norm_num)
    refine ⟨fun x hx => ?_, fun x hx => ?_, fun x hx => ?_⟩
    · obtain ⟨y, e, f⟩ := h1 x hx
      refine ⟨y, e, f.trans ?_⟩
      apply mul_le_mul_of_nonneg_right (by linarith)
      exact (abs_nonneg _).trans (le_max_left _ _)
    · obtain ⟨y, e, f⟩ := h2 x hx
      exact ⟨y, e, f.trans hu⟩
    · obtain ⟨y, e, f⟩ := h3 x hx
      exact ⟨y, e, f.trans hu⟩
  double := by
    obtain ⟨h1, h2, h3⟩ := Binary64_trigAccurate
    have hu : (2 : ℝ) ^ (-53 : ℤ) ≤ 2 ^ (-23 : ℤ) := Mag.zle (by norm_num)
    refine ⟨fun x hx => ?_, fun x hx => ?_, fun x hx => ?_⟩
    · obtain ⟨y, e, f⟩ := h1 x hx
      refine ⟨y, e, f.trans ?_⟩
      apply mul_le_mul_of_nonneg_right (by linarith)
      exact (abs_nonneg _).trans (le_max_left _ _)
    · obtain ⟨y, e, f⟩ := h2 x hx
      exact ⟨y, e, f.trans hu⟩
    · obtain ⟨y, e, f⟩ := h3 x hx
      exact ⟨y, e, f.trans hu⟩

section
variable {S D : Arith} {u lo' hi' : ℝ}

theorem radians_ok32 (ht : BothTrig S D u (2 ^ (-126 : ℤ)) (2 ^ (-1022 : ℤ))) (hu0 : 0 ≤ u) {v : MFl S D} {x b : ℝ} {m : ℝ}
    (hv : v.IsReal x) (hx : |x| ≤ b) (hb : b ≤ 360) (hb1 : 1 ≤ b) (hm : 3 * (b * (3.15 / 180)) ≤ m) :
    ∃ y : ℝ, (MFl.radians v).IsReal y ∧ |y - deg x| ≤ m * u := by
  cases v with
  | f64 a =>
    change a = Fl.fin x at hv; subst hv
    exact radians_ok ht.double hu0 hx hb hb1 hm
  | f32 a =>
    change a = Fl.fin x at hv; subst hv
    obtain ⟨y, e, hy⟩ := ht.single.radians x (hx.trans (hb.trans (by norm_num)))
    refine ⟨y, congrArg Fl.ofRaw e, hy.trans ?_⟩
    have hp := Real.pi_lt_d2
    have hp0 := Real.pi_pos
    have h1 : |x * (π / 180)| ≤ b * (3.15 / 180) := by
      rw [abs_mul, abs_of_pos (by positivity : 0 < π / 180)]
      apply mul_le_mul hx _ (by positivity) (by linarith)
      linarith
    have h2 : (2 : ℝ) ^ (-126 : ℤ) ≤ b * (3.15 / 180) := by
      calc (2 : ℝ) ^ (-126 : ℤ) ≤ 2 ^ (-10 : ℤ) := Mag.zle (by norm_num)
        _ ≤ _ := by norm_num; linarith
    calc 3 * u * max |x * (π / 180)| (2 ^ (-126 : ℤ)) ≤ 3 * u * (b * (3.15 / 180)) :=
          mul_le_mul_of_nonneg_left (max_le h1 h2) (by positivity)
      _ = 3 * (b * (3.15 / 180)) * u := by ring
      _ ≤ m * u := mul_le_mul_of_nonneg_right hm hu0

end

/-- **C129.** Calls with any mixture of float32 and float64 arguments: between geographic positions with radii between
`10⁻⁶` and `10¹²` metres whose exact distance `d` satisfies `d² ≥ 2⁻¹⁴ rₚ r_q` (on the Earth: farther apart than about
50 km), `distance_spherical` returns a finite number — never NaN — within `2⁻²⁰ d + 2⁻¹⁵ rₚ r_q / d` of the exact
distance. -/
theorem C129_distance_spherical {vlonp vlatp vrp vlonq vlatq vrq : MFl Numba32 Numba64} {lonp latp rp lonq latq rq : ℝ}
    (alonp : vlonp.IsReal lonp) (alatp : vlatp.IsReal latp) (arp : vrp.IsReal rp)
    (alonq : vlonq.IsReal lonq) (alatq : vlatq.IsReal latq) (arq : vrq.IsReal rq)
    (hp : GeographicAngles lonp latp) (hq : GeographicAngles lonq latq)
    (hrp : SinglePrecisionRadius rp) (hrq : SinglePrecisionRadius rq) (hrr : LongLength (rp - rq))
    {d : ℝ} (hd : d = dist (toE (sph (deg lonp) (deg latp) rp)) (toE (sph (deg lonq) (deg latq) rq)))
    (hfar : (2 : ℝ) ^ (-14 : ℤ) * (rp * rq) ≤ d ^ 2) :
    MReturnsWithin (Mixed.utils.distance_spherical vlonp vlatp vrp vlonq vlatq vrq) d
      (2 ^ (-20 : ℤ) * d + 2 ^ (-15 : ℤ) * (rp * rq / d)) := by
  have hr0 : 0 < rp * rq :=
    mul_pos (lt_of_lt_of_le (Mag.zp _) hrp.1) (lt_of_lt_of_le (Mag.zp _) hrq.1)
  have hd00 : 0 ≤ d := by rw [hd]; exact dist_nonneg
  have hd0 : 0 < d := by
    rcases hd00.eq_or_lt with h0 | h0
    · rw [← h0] at hfar
      have := mul_pos (Mag.zp (-14)) hr0
      norm_num at hfar this
      linarith
    · exact h0
  have h := numba_both
  have ht := numba_trig
  have hpi := Real.pi_lt_d2
  have hpi0 := Real.pi_pos
  have hu0 := h.double.u_nonneg
  have hu : (2 : ℝ) ^ (-23 : ℤ) ≤ 2 ^ (-20 : ℤ) := Mag.zle (by norm_num)
  have hu' : (2 : ℝ) ^ (-23 : ℤ) ≤ 1 / 1048576 := by norm_num
  have hfar' : 400 * (2 : ℝ) ^ (-23 : ℤ) * (rp * rq) ≤ d ^ 2 := by
    refine le_trans (mul_le_mul_of_nonneg_right ?_ hr0.le) hfar
    norm_num
  have hfin : 7 * (2 : ℝ) ^ (-23 : ℤ) * d + 192 * 2 ^ (-23 : ℤ) * (rp * rq / d) ≤
      2 ^ (-20 : ℤ) * d + 2 ^ (-15 : ℤ) * (rp * rq / d) := by
    have : 0 ≤ rp * rq / d := by positivity
    apply add_le_add
    · exact mul_le_mul_of_nonneg_right (by norm_num) hd00
    · exact mul_le_mul_of_nonneg_right (by norm_num) this
  generalize (2 : ℝ) ^ (-23 : ℤ) = u at *
  obtain ⟨lp', e1, f1⟩ := radians_ok32 ht hu0 alonp hp.1 (by norm_num) (by norm_num) (m := 19) (by norm_num)
  obtain ⟨p', e2, f2⟩ := radians_ok32 ht hu0 alatp hp.2 (by norm_num) (by norm_num) (m := 5) (by norm_num)
  obtain ⟨lq', e3, f3⟩ := radians_ok32 ht hu0 alonq hq.1 (by norm_num) (by norm_num) (m := 19) (by norm_num)
  obtain ⟨q', e4, f4⟩ := radians_ok32 ht hu0 alatq hq.2 (by norm_num) (by norm_num) (m := 5) (by norm_num)
  have big : ∀ x y : ℝ, |x| ≤ 90 → |y - deg x| ≤ 5 * u → |y| ≤ 2 ^ 20 := by
    intro x y hx hy
    have h1 : |deg x| ≤ 90 * 1 := by
      unfold deg
      rw [abs_mul, abs_of_pos (by positivity : 0 < π / 180)]
      apply mul_le_mul hx _ (by positivity) (by norm_num)
      linarith
    have := abs_sub_abs_le_abs_sub y (deg x)
    norm_num; linarith
  have turn : ∀ x : ℝ, |x| ≤ 360 → |deg x| ≤ 2 * π := by
    intro x hx
    unfold deg
    rw [abs_mul, abs_of_pos (by positivity : 0 < π / 180)]
    nlinarith
  obtain ⟨cp, e5, f5⟩ := ht.cos_ok e2 (big _ _ hp.2 f2) f2
  obtain ⟨sp, e6, f6⟩ := ht.sin_ok e2 (big _ _ hp.2 f2) f2
  obtain ⟨cq, e7, f7⟩ := ht.cos_ok e4 (big _ _ hq.2 f4) f4
  obtain ⟨sq, e8, f8⟩ := ht.sin_ok e4 (big _ _ hq.2 f4) f4
  norm_num only at f5 f6 f7 f8
  obtain ⟨E, vcpsi, vcl, cpsi, cl, e9, -, -, -, -, hE⟩ := sph_core_err32 h ht hu e1 e3 e5 e6 e7 e8 arp arq (turn _ hp.1)
    (turn _ hq.1) f1 f3 f5 f6 f7 f8 hrp hrq hrr
  rw [← dist3_eq_dist] at hd
  rw [← hd] at hE
  obtain ⟨y, ey, fy⟩ := hE hd0 hfar'
  refine ⟨E, y, ?_, ey, fy.trans hfin⟩
  unfold Mixed.utils.distance_spherical
  show (Mixed.utils.distance_spherical_core (MFl.radians vlonp) (MFl.cos (MFl.radians vlatp)) (MFl.sin (MFl.radians vlatp))
    vrp (MFl.radians vlonq) (MFl.cos (MFl.radians vlatq)) (MFl.sin (MFl.radians vlatq)) vrq >>= fun x => pure x.1) = _
  rw [e9]; rfl

/-- **C129.** `distance_spherical_core` on rounded sines, cosines and longitudes, in any mixture of types. -/
theorem C129_core {vlp vlq vcp vsp vcq vsq vrp vrq : MFl Numba32 Numba64} {lonp latp lonq latq lp cp sp rp lq cq sq rq : ℝ}
    (alp : vlp.IsReal lp) (acp : vcp.IsReal cp) (asp : vsp.IsReal sp) (arp : vrp.IsReal rp)
    (alq : vlq.IsReal lq) (acq : vcq.IsReal cq) (asq : vsq.IsReal sq) (arq : vrq.IsReal rq)
    (hlp : |lonp| ≤ 2 * π) (hlq : |lonq| ≤ 2 * π)
    (elp : |lp - lonp| ≤ 2 ^ (-19 : ℤ)) (elq : |lq - lonq| ≤ 2 ^ (-19 : ℤ))
    (ecp : |cp - cos latp| ≤ 2 ^ (-21 : ℤ)) (esp : |sp - sin latp| ≤ 2 ^ (-21 : ℤ))
    (ecq : |cq - cos latq| ≤ 2 ^ (-21 : ℤ)) (esq : |sq - sin latq| ≤ 2 ^ (-21 : ℤ))
    (hrp : SinglePrecisionRadius rp) (hrq : SinglePrecisionRadius rq) (hrr : LongLength (rp - rq))
    {d : ℝ} (hd : d = dist (toE (sph lonp latp rp)) (toE (sph lonq latq rq))) :
    ∃ (E vcpsi vcl : MFl Numba32 Numba64) (cpsi cl : ℝ),
      Mixed.utils.distance_spherical_core vlp vcp vsp vrp vlq vcq vsq vrq = .ok (E, vcpsi, vcl) ∧
      vcpsi.IsReal cpsi ∧ vcl.IsReal cl ∧
      |cpsi - cosAngle lonp latp lonq latq| ≤ 2 ^ (-16 : ℤ) ∧ |cl - cos (lonq - lonp)| ≤ 2 ^ (-17 : ℤ) ∧
      ((2 : ℝ) ^ (-14 : ℤ) * (rp * rq) ≤ d ^ 2 →
        ∃ y : ℝ, E.IsReal y ∧ |y - d| ≤ 2 ^ (-20 : ℤ) * d + 2 ^ (-15 : ℤ) * (rp * rq / d)) := by
  have hr0 : 0 < rp * rq :=
    mul_pos (lt_of_lt_of_le (Mag.zp _) hrp.1) (lt_of_lt_of_le (Mag.zp _) hrq.1)
  have hd00 : 0 ≤ d := by rw [hd]; exact dist_nonneg
  have b1 : (2 : ℝ) ^ (-19 : ℤ) ≤ 19 * 2 ^ (-23 : ℤ) := by norm_num
  have b2 : (2 : ℝ) ^ (-21 : ℤ) ≤ 6 * 2 ^ (-23 : ℤ) := by norm_num
  rw [← dist3_eq_dist] at hd
  obtain ⟨E, vcpsi, vcl, cpsi, cl, e, g1, g2, f1, f2, f3⟩ := sph_core_err32 numba_both numba_trig (Mag.zle (by norm_num))
    alp alq acp asp acq asq arp arq hlp hlq (elp.trans b1) (elq.trans b1) (ecp.trans b2) (esp.trans b2) (ecq.trans b2)
    (esq.trans b2) hrp hrq hrr
  rw [← hd] at f3
  refine ⟨E, vcpsi, vcl, cpsi, cl, e, g1, g2, f1.trans (by norm_num), f2.trans (by norm_num), fun hfar => ?_⟩
  have hd0 : 0 < d := by
    rcases hd00.eq_or_lt with h0 | h0
    · rw [← h0] at hfar
      have := mul_pos (Mag.zp (-14)) hr0
      norm_num at hfar this
      linarith
    · exact h0
  obtain ⟨y, ey, fy⟩ := f3 hd0 (by
    refine le_trans (mul_le_mul_of_nonneg_right ?_ hr0.le) hfar
    norm_num)
  refine ⟨y, ey, fy.trans ?_⟩
  have : 0 ≤ rp * rq / d := by positivity
  apply add_le_add
  · exact mul_le_mul_of_nonneg_right (by norm_num) hd00
  · exact mul_le_mul_of_nonneg_right (by norm_num) this

/-! ## The distance from a point to itself -/

theorem sqrt_neg_nan {A : Arith} {x : ℝ} (h : x < 0) : (Fl.sqrt (Fl.fin x) : Fl A) = Fl.nan := by
  show (if x < 0 then _ else _) = _
  rw [if_pos h]

theorem b32_cos_zero : Numba32.cos 0 = .fin 1 := by
  show B32.rnd (Real.cos 0) = _
  rw [Real.cos_zero]
  have := B32.rnd_int (m := 1) (q := 0) (by norm_num) (by norm_num) (by norm_num)
  simpa using this

theorem cos_fin {A : Arith} (x : ℝ) : (Fl.cos (Fl.fin x) : Fl A) = Fl.ofRaw (A.cos x) := rfl
theorem sin_fin {A : Arith} (x : ℝ) : (Fl.sin (Fl.fin x) : Fl A) = Fl.ofRaw (A.sin x) := rfl
theorem radians_fin {A : Arith} (x : ℝ) : (Fl.radians (Fl.fin x) : Fl A) = Fl.ofRaw (A.radians x) := rfl
theorem mul_fin {A : Arith} (x y : ℝ) : (Fl.fin x * Fl.fin y : Fl A) = Fl.ofRaw (A.rnd (x * y)) := rfl
theorem add_fin {A : Arith} (x y : ℝ) : (Fl.fin x + Fl.fin y : Fl A) = Fl.ofRaw (A.rnd (x + y)) := rfl

theorem sub_fin {A : Arith} (x y : ℝ) : (Fl.fin x - Fl.fin y : Fl A) = Fl.ofRaw (A.rnd (x - y)) := by
  rw [sub_eq_add_neg]; rfl

theorem MFl.sqrt_neg {S D : Arith} {v : MFl S D} {x : ℝ} (hv : v.IsReal x) (h : x < 0) : (MFl.sqrt v).toD = Fl.nan := by
  cases v with
  | f32 a =>
    change a = Fl.fin x at hv; subst hv
    show (Fl.up (Fl.sqrt (Fl.fin x : Fl S)) : Fl D) = _
    rw [sqrt_neg_nan h]; rfl
  | f64 a =>
    change a = Fl.fin x at hv; subst hv
    exact sqrt_neg_nan h

theorem spherical_eq {S D : Arith} (lonp latp rp lonq latq rq : MFl S D) :
    Mixed.utils.distance_spherical lonp latp rp lonq latq rq = .ok (MFl.sqrt ((rp - rq) ^ 2 + 2 * rp * rq *
      (1 - (MFl.sin (MFl.radians latq) * MFl.sin (MFl.radians latp) + MFl.cos (MFl.radians latq) *
        MFl.cos (MFl.radians latp) * MFl.cos (MFl.radians lonq - MFl.radians lonp))))) := rfl

theorem self_cospsi {S D : Arith} {lon lat l p s c a b t : ℝ} (g1 : (Fl.radians (Fl.fin lon : Fl S)) = Fl.fin l)
    (g2 : (Fl.radians (Fl.fin lat : Fl S)) = Fl.fin p) (g3 : (Fl.sin (Fl.fin p : Fl S)) = Fl.fin s)
    (g4 : (Fl.cos (Fl.fin p : Fl S)) = Fl.fin c) (g5 : (Fl.fin l - Fl.fin l : Fl S) = Fl.fin 0)
    (g6 : (Fl.cos (Fl.fin 0 : Fl S)) = Fl.fin 1) (g7 : (Fl.fin s * Fl.fin s : Fl S) = Fl.fin a)
    (g8 : (Fl.fin c * Fl.fin c : Fl S) = Fl.fin b) (g9 : (Fl.fin b * Fl.fin 1 : Fl S) = Fl.fin b)
    (g10 : (Fl.fin a + Fl.fin b : Fl S) = Fl.fin t) :
    (MFl.sin (MFl.radians (.f32 (Fl.fin lat))) * MFl.sin (MFl.radians (.f32 (Fl.fin lat))) +
      MFl.cos (MFl.radians (.f32 (Fl.fin lat))) * MFl.cos (MFl.radians (.f32 (Fl.fin lat))) *
        MFl.cos (MFl.radians (.f32 (Fl.fin lon)) - MFl.radians (.f32 (Fl.fin lon))) : MFl S D) = .f32 (Fl.fin t) := by
  show MFl.f32 (Fl.sin (Fl.radians (Fl.fin lat)) * Fl.sin (Fl.radians (Fl.fin lat)) +
    Fl.cos (Fl.radians (Fl.fin lat)) * Fl.cos (Fl.radians (Fl.fin lat)) *
      Fl.cos (Fl.radians (Fl.fin lon) - Fl.radians (Fl.fin lon))) = _
  rw [g1, g2, g3, g4, g5, g6, g7, g8, g9, g10]

/-- the cosine of the angle of a point with itself -/
theorem self_angle (lon : ℝ) (hlon : |lon| ≤ 360) {lat p s c a b t : ℝ} (e1 : B32.rnd (lat * B32.round (π / 180)) = .fin p)
    (e2 : B32.rnd (Real.sin p) = .fin s) (e3 : B32.rnd (Real.cos p) = .fin c) (e4 : B32.rnd (s * s) = .fin a)
    (e5 : B32.rnd (c * c) = .fin b) (e6 : B32.rnd (b * 1) = .fin b) (e7 : B32.rnd (a + b) = .fin t) :
    ∃ vc : MFl Numba32 Numba64, (∀ vr, Mixed.utils.distance_spherical (S := Numba32) (D := Numba64) (.f32 (Fl.fin lon))
      (.f32 (Fl.fin lat)) vr (.f32 (Fl.fin lon)) (.f32 (Fl.fin lat)) vr
      = .ok (MFl.sqrt ((vr - vr) ^ 2 + 2 * vr * vr * (1 - vc)))) ∧ vc.IsReal t := by
  obtain ⟨l, hl⟩ : ∃ l : ℝ, B32.rnd (lon * B32.round (π / 180)) = .fin l := by
    refine ⟨_, B32.rnd_of_le ?_⟩
    rw [B32.round_degree, abs_mul, abs_of_pos (by positivity : (0 : ℝ) < 9370165 * 2 ^ (-29 : ℤ))]
    calc |lon| * (9370165 * 2 ^ (-29 : ℤ)) ≤ 360 * 1 := by
          apply mul_le_mul hlon (by norm_num) (by positivity) (by norm_num)
      _ ≤ 2 ^ (10 : ℤ) := by norm_num
      _ ≤ _ := B32.two_zpow_le (by norm_num)
  have g1 : (Fl.radians (Fl.fin lon : Fl Numba32)) = Fl.fin l := (radians_fin lon).trans (congrArg Fl.ofRaw hl)
  have g2 : (Fl.radians (Fl.fin lat : Fl Numba32)) = Fl.fin p := (radians_fin lat).trans (congrArg Fl.ofRaw e1)
  have g3 : (Fl.sin (Fl.fin p : Fl Numba32)) = Fl.fin s := (sin_fin p).trans (congrArg Fl.ofRaw e2)
  have g4 : (Fl.cos (Fl.fin p : Fl Numba32)) = Fl.fin c := (cos_fin p).trans (congrArg Fl.ofRaw e3)
  have g5 : (Fl.fin l - Fl.fin l : Fl Numba32) = Fl.fin 0 := by
    refine (sub_fin l l).trans ?_
    rw [sub_self]
    exact congrArg (Fl.ofRaw (A := Numba32)) B32.rnd_zero
  have g6 : (Fl.cos (Fl.fin 0 : Fl Numba32)) = Fl.fin 1 := by
    have e0 : Numba32.cos 0 = .fin 1 := b32_cos_zero
    exact (cos_fin 0).trans (congrArg Fl.ofRaw e0)
  have g7 : (Fl.fin s * Fl.fin s : Fl Numba32) = Fl.fin a := (mul_fin s s).trans (congrArg Fl.ofRaw e4)
  have g8 : (Fl.fin c * Fl.fin c : Fl Numba32) = Fl.fin b := (mul_fin c c).trans (congrArg Fl.ofRaw e5)
  have g9 : (Fl.fin b * Fl.fin 1 : Fl Numba32) = Fl.fin b := (mul_fin b 1).trans (congrArg Fl.ofRaw e6)
  have g10 : (Fl.fin a + Fl.fin b : Fl Numba32) = Fl.fin t := (add_fin a b).trans (congrArg Fl.ofRaw e7)
  refine ⟨.f32 (Fl.fin t), fun vr => ?_, isReal_f32 t⟩
  rw [spherical_eq, self_cospsi g1 g2 g3 g4 g5 g6 g7 g8 g9 g10]

/-- the part of `distance_spherical_core` after the cosine `c` of the angle, for equal radii -/
theorem self_radicand {vrp vc : MFl Numba32 Numba64} {r c : ℝ} (arp : vrp.IsReal r) (hr : SinglePrecisionRadius r)
    (ac : vc.IsReal c) (hc1 : (2 : ℝ) ^ (-24 : ℤ) ≤ |1 - c|) (hc2 : |1 - c| ≤ 2 ^ (-20 : ℤ)) :
    ∃ R θ : ℝ, ((vrp - vrp) ^ 2 + 2 * vrp * vrp * (1 - vc)).IsReal R ∧ R = 2 * r * r * (1 - c) * θ ∧ 0.99 ≤ θ ∧ θ ≤ 1.01 := by
  have h := numba_both
  have hc : Mag (-24) (-20) (1 - c) := .inr ⟨hc1, hc2⟩
  have hr0 : 0 < r := lt_of_lt_of_le (Mag.zp _) hr.1
  have mr : Mag (-20) 40 r := .inr (by rw [abs_of_pos hr0]; exact hr)
  have r1 : (1 : MFl Numba32 Numba64).IsReal 1 := by
    show Fl.fin (((1 : ℕ) : ℝ)) = _
    rw [Nat.cast_one]
  obtain ⟨θ0, -, eA⟩ := h.pow (n := 2) (h.sub_exact arp arp (.inl (sub_self r))) (by norm_num)
    (.inl (by rw [sub_self]; norm_num)) (by norm_num)
  have eA' : ((vrp - vrp) ^ 2).IsReal 0 := by
    have : (0 : ℝ) = (r - r) ^ 2 * θ0 := by rw [sub_self]; ring
    rw [this]; exact eA
  obtain ⟨η, hη, eB⟩ := h.mul (h.mul (h.mul (h.nat 2) (h.exact arp)
      (by push_cast; exact (Mag.two.mul mr).safe32 (by norm_num) (by norm_num)) (by norm_num)) (h.exact arp)
      (by push_cast; exact ((Mag.two.mul mr).mul mr).safe32 (by norm_num) (by norm_num)) (by norm_num))
      (h.sub_exact r1 ac (hc.safe32 (by norm_num) (by norm_num)))
      (by push_cast; exact (((Mag.two.mul mr).mul mr).mul hc).safe32 (by norm_num) (by norm_num)) (by norm_num)
  push_cast at eB
  have mX : Mag (-63) 61 (2 * r * r * (1 - c)) := ((Mag.two.mul mr).mul mr).mul hc
  have hX : 2 * r * r * (1 - c) ≠ 0 := by
    have : 1 - c ≠ 0 := by
      intro h0; rw [h0, abs_zero] at hc1
      exact absurd (Mag.zp (-24)) (not_lt.2 hc1)
    positivity
  obtain ⟨x1, x2⟩ := mX.resolve_left hX
  have hη' : |η - 1| ≤ 0.001 := by
    refine (h.double.abs_theta hη).trans ((h.double.gamma_bound (k := 4) (by norm_num)).trans ?_)
    unfold gammaErr; norm_num
  generalize 2 * r * r * (1 - c) = X at *
  have hXp : 0 < |X| := abs_pos.2 hX
  have hη2 : |X * η| ≤ 1.001 * |X| := by
    rw [abs_mul, mul_comm]
    refine mul_le_mul_of_nonneg_right ?_ hXp.le
    rw [abs_le] at hη' ⊢; constructor <;> linarith [hη'.1, hη'.2]
  have hbig : |0 + X * η| ≤ 2 ^ (127 : ℤ) := by
    rw [zero_add]
    calc |X * η| ≤ 1.001 * |X| := hη2
      _ ≤ 2 ^ (1 : ℤ) * 2 ^ (61 : ℤ) := by
          refine mul_le_mul (by norm_num) x2 (abs_nonneg _) (by norm_num)
      _ = 2 ^ (62 : ℤ) := by rw [← zpow_add₀ (by norm_num)]; norm_num
      _ ≤ _ := Mag.zle (by norm_num)
  obtain ⟨R, e, f⟩ := h.add_ok eA' (show MFl.IsReal _ (X * η) from eB) hbig
  refine ⟨R, R / X, e, by field_simp, ?_⟩
  have hlo : (2 : ℝ) ^ (-126 : ℤ) ≤ |X| := (Mag.zle (by norm_num)).trans x1
  rw [zero_add] at f
  have f' : |R - X * η| ≤ 0.001 * |X| := by
    refine f.trans ?_
    calc (2 : ℝ) ^ (-23 : ℤ) * (|X * η| + 2 ^ (-126 : ℤ)) ≤ 2 ^ (-23 : ℤ) * (1.001 * |X| + |X|) :=
          mul_le_mul_of_nonneg_left (add_le_add hη2 hlo) (Mag.zp _).le
      _ = (2 ^ (-23 : ℤ) * 2.001) * |X| := by ring
      _ ≤ 0.001 * |X| := mul_le_mul_of_nonneg_right (by norm_num) hXp.le
  have g : |R / X - η| ≤ 0.001 := by
    rw [show R / X - η = (R - X * η) / X by field_simp, abs_div, div_le_iff₀ hXp]
    exact f'
  rw [abs_le] at g hη'
  constructor <;> linarith [g.1, g.2, hη'.1, hη'.2]

/-- **C129 (finding).** With float32 angles (and radii of either type), the spherical distance from a point at latitude 4°
to itself is NaN, for every longitude and radius. -/
theorem C129_nan (lon : ℝ) (hlon : |lon| ≤ 360) {vr : MFl Numba32 Numba64} {r : ℝ} (ar : vr.IsReal r)
    (hr : SinglePrecisionRadius r) :
    MReturnsNaN (Mixed.utils.distance_spherical (S := Numba32) (D := Numba64) (.f32 (Fl.fin lon)) (.f32 (Fl.fin 4)) vr
      (.f32 (Fl.fin lon)) (.f32 (Fl.fin 4)) vr) := by
  obtain ⟨vc, ec, ac⟩ := self_angle lon hlon B32.rad4 B32.sin4 B32.cos4 B32.ssq4 B32.csq4 B32.csq4' B32.sum4
  obtain ⟨R, θ, eR, hR, h1, h2⟩ := self_radicand ar hr ac (by norm_num [abs_of_neg]) (by norm_num [abs_of_neg])
  have hr0 : 0 < r := lt_of_lt_of_le (Mag.zp _) hr.1
  have hneg : R < 0 := by
    rw [hR]
    have : (1 : ℝ) - 8388609 * 2 ^ (-23 : ℤ) = -(1 / 8388608) := by norm_num
    rw [this]
    have : 0 < 2 * r * r * θ := by positivity
    linarith
  exact ⟨_, ec vr, MFl.sqrt_neg eR hneg⟩

/-- **C129 (finding).** At latitude 8° it is not NaN but about `r / 2900`: more than 2 km on the Earth. -/
theorem C129_nonzero (lon : ℝ) (hlon : |lon| ≤ 360) {vr : MFl Numba32 Numba64} {r : ℝ} (ar : vr.IsReal r)
    (hr : SinglePrecisionRadius r) :
    MReturnsNear (Mixed.utils.distance_spherical (S := Numba32) (D := Numba64) (.f32 (Fl.fin lon)) (.f32 (Fl.fin 8)) vr
      (.f32 (Fl.fin lon)) (.f32 (Fl.fin 8)) vr) (r / 2900) 0.02 := by
  obtain ⟨vc, ec, ac⟩ := self_angle lon hlon B32.rad8 B32.sin8 B32.cos8 B32.ssq8 B32.csq8 B32.csq8' B32.sum8
  obtain ⟨R, θ, eR, hR, h1, h2⟩ := self_radicand ar hr ac (by norm_num [abs_of_pos]) (by norm_num [abs_of_pos])
  have hr0 : 0 < r := lt_of_lt_of_le (Mag.zp _) hr.1
  have e1 : (1 : ℝ) - 16777215 * 2 ^ (-24 : ℤ) = 1 / 16777216 := by norm_num
  rw [e1] at hR
  have hR0 : 0 ≤ R := by rw [hR]; positivity
  have s1 : √R ≤ 1.01 * (r / 2900) := by
    apply Real.sqrt_le_iff.2 ⟨by positivity, ?_⟩
    rw [hR]; nlinarith [mul_pos hr0 hr0]
  have s2 : 0.99 * (r / 2900) ≤ √R := by
    apply Real.le_sqrt_of_sq_le
    rw [hR]; nlinarith [mul_pos hr0 hr0]
  have hrhi : r ≤ 2 ^ (40 : ℤ) := hr.2
  have hrlo : (2 : ℝ) ^ (-20 : ℤ) ≤ r := hr.1
  obtain ⟨y, ey, fy⟩ := numba_both.sqrt_ok eR hR0 (by
    calc √R ≤ 1.01 * (r / 2900) := s1
      _ ≤ r := by linarith
      _ ≤ 2 ^ (40 : ℤ) := hrhi
      _ ≤ _ := Mag.zle (by norm_num))
  refine ⟨_, y, ec vr, ey, ?_⟩
  rw [abs_of_nonneg (Real.sqrt_nonneg _)] at fy
  have hlo : (2 : ℝ) ^ (-126 : ℤ) ≤ r := (Mag.zle (by norm_num)).trans hrlo
  have fy' : |y - √R| ≤ 0.001 * (r / 2900) := by
    refine fy.trans ?_
    calc (2 : ℝ) ^ (-23 : ℤ) * max √R (2 ^ (-126 : ℤ)) ≤ 2 ^ (-23 : ℤ) * r :=
          mul_le_mul_of_nonneg_left (max_le (by linarith) hlo) (Mag.zp _).le
      _ ≤ 0.001 * (r / 2900) := by norm_num; linarith
  rw [abs_of_pos (by positivity : 0 < r / 2900)]
  rw [abs_le] at fy' ⊢
  constructor <;> linarith [fy'.1, fy'.2]

/-- non-vacuity: points on the surface of the Earth -/
example : MReturnsNaN (Mixed.utils.distance_spherical (S := Numba32) (D := Numba64) (.f32 (Fl.fin (-75))) (.f32 (Fl.fin 4))
    (.f32 (Fl.fin 6371000)) (.f32 (Fl.fin (-75))) (.f32 (Fl.fin 4)) (.f32 (Fl.fin 6371000))) :=
  C129_nan (-75) (by norm_num [abs_le]) (isReal_f32 _) ⟨by norm_num, by norm_num⟩

example : ∃ v y, Mixed.utils.distance_spherical (S := Numba32) (D := Numba64) (.f32 (Fl.fin 10)) (.f32 (Fl.fin 8))
    (.f32 (Fl.fin 6371000)) (.f32 (Fl.fin 10)) (.f32 (Fl.fin 8)) (.f32 (Fl.fin 6371000)) = .ok v ∧ v.IsReal y ∧ 2000 < y := by
  obtain ⟨v, y, e, hv, hy⟩ := C129_nonzero 10 (by norm_num) (isReal_f32 6371000) ⟨by norm_num, by norm_num⟩
  refine ⟨v, y, e, hv, ?_⟩
  rw [abs_le] at hy
  norm_num at hy
  linarith [hy.1]

/-- non-vacuity: from the equator to the north pole of the Earth -/
example : ∃ δ : ℝ, δ < 1500 ∧ MReturnsWithin (Mixed.utils.distance_spherical (S := Numba32) (D := Numba64) (.f32 (Fl.fin 0))
    (.f32 (Fl.fin 0)) (.f32 (Fl.fin 6371000)) (.f32 (Fl.fin 0)) (.f32 (Fl.fin 90)) (.f32 (Fl.fin 6371000)))
    √(2 * 6371000 ^ 2) δ := by
  have e : √(2 * 6371000 ^ 2) = dist (toE (sph (deg 0) (deg 0) 6371000)) (toE (sph (deg 0) (deg 90) 6371000)) := by
    rw [← dist3_eq_dist]
    have h90 : deg 90 = π / 2 := by unfold deg; ring
    have h0 : deg 0 = 0 := by unfold deg; ring
    unfold dist3
    simp only [sph, h90, h0, Pt.e, Pt.n, Pt.u, cos_zero, sin_zero, cos_pi_div_two, sin_pi_div_two]
    congr 1; ring
  have s1 : (6371000 : ℝ) ≤ √(2 * 6371000 ^ 2) := Real.le_sqrt_of_sq_le (by norm_num)
  have s2 : √(2 * 6371000 ^ 2) ≤ (2 * 6371000 : ℝ) := Real.sqrt_le_iff.2 ⟨by norm_num, by norm_num⟩
  refine ⟨_, ?_, C129_distance_spherical (isReal_f32 0) (isReal_f32 0) (isReal_f32 6371000) (isReal_f32 0) (isReal_f32 90)
    (isReal_f32 6371000) ⟨by norm_num, by norm_num⟩ ⟨by norm_num, by norm_num [abs_le]⟩ ⟨by norm_num, by norm_num⟩
    ⟨by norm_num, by norm_num⟩ (.inl (by norm_num)) e ?_⟩
  · have : (6371000 * 6371000 : ℝ) / √(2 * 6371000 ^ 2) ≤ 6371000 := by
      rw [div_le_iff₀ (by linarith)]; nlinarith
    norm_num at this s2 ⊢
    linarith
  · rw [Real.sq_sqrt (by positivity)]; norm_num

end Choclo
