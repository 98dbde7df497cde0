import Verif.Lemmas.Slab
import Verif.Spec.Integral

/-! # Signs of the tensor components of a prism -/

namespace Choclo

open Real Set MeasureTheory Filter Topology

variable {P : Box} {p : Pt}

/-- mixed difference of a convex function -/
theorem inv_sqrt_mixed {s h k : ℝ} (hs : 0 < s) (hh : 0 < h) (hk : 0 < k) :
    0 < 1 / √(s + h + k) - 1 / √(s + h) - (1 / √(s + k) - 1 / √s) := by
  have a := Real.sqrt_pos.2 hs
  have b := Real.sqrt_pos.2 (by linarith : 0 < s + k)
  have a' := Real.sqrt_pos.2 (by linarith : 0 < s + h)
  have b' := Real.sqrt_pos.2 (by linarith : 0 < s + h + k)
  have qa := Real.sq_sqrt hs.le
  have qb := Real.sq_sqrt (by linarith : 0 ≤ s + k)
  have qa' := Real.sq_sqrt (by linarith : 0 ≤ s + h)
  have qb' := Real.sq_sqrt (by linarith : 0 ≤ s + h + k)
  have la : √s < √(s + h) := Real.sqrt_lt_sqrt hs.le (by linarith)
  have lb : √(s + k) < √(s + h + k) := Real.sqrt_lt_sqrt (by linarith) (by linarith)
  generalize √s = A at *
  generalize √(s + k) = B at *
  generalize √(s + h) = A' at *
  generalize √(s + h + k) = B' at *
  have e1 : 1 / A - 1 / B = k / (A * B * (A + B)) := by
    field_simp; nlinarith
  have e2 : 1 / A' - 1 / B' = k / (A' * B' * (A' + B')) := by
    field_simp; nlinarith
  have : k / (A' * B' * (A' + B')) < k / (A * B * (A + B)) := by
    apply div_lt_div_of_pos_left hk (by positivity)
    gcongr
  linarith

/-- mixed difference of the inverse distance over a rectangle -/
noncomputable def mixed (z x1 x2 y1 y2 : ℝ) : ℝ :=
  1 / rad z x2 y2 - 1 / rad z x2 y1 - (1 / rad z x1 y2 - 1 / rad z x1 y1)

theorem mixed_pos {z x1 x2 y1 y2 : ℝ} (h : rad z x1 y1 ≠ 0) (hx : x1 ^ 2 < x2 ^ 2) (hy : y1 ^ 2 < y2 ^ 2) :
    0 < mixed z x1 x2 y1 y2 := by
  have h0 : 0 < z ^ 2 + x1 ^ 2 + y1 ^ 2 := by
    have := rad_sq z x1 y1
    rw [← this]; positivity
  have := inv_sqrt_mixed (s := z ^ 2 + x1 ^ 2 + y1 ^ 2) (h := x2 ^ 2 - x1 ^ 2) (k := y2 ^ 2 - y1 ^ 2) h0
    (by linarith) (by linarith)
  unfold mixed rad
  convert this using 3 <;> congr 2 <;> ring

theorem mixed_swap1 (z x1 x2 y1 y2 : ℝ) : mixed z x2 x1 y1 y2 = -mixed z x1 x2 y1 y2 := by
  unfold mixed; ring
theorem mixed_swap2 (z x1 x2 y1 y2 : ℝ) : mixed z x1 x2 y2 y1 = -mixed z x1 x2 y1 y2 := by
  unfold mixed; ring

theorem mixed_sign {z x1 x2 y1 y2 : ℝ} (h11 : rad z x1 y1 ≠ 0) (h22 : rad z x2 y2 ≠ 0)
    (h : 0 < (x2 ^ 2 - x1 ^ 2) * (y2 ^ 2 - y1 ^ 2)) : 0 < mixed z x1 x2 y1 y2 := by
  rcases mul_pos_iff.1 h with ⟨a, b⟩ | ⟨a, b⟩
  · exact mixed_pos h11 (by linarith) (by linarith)
  · have := mixed_pos (x1 := x2) (x2 := x1) (y1 := y2) (y2 := y1) h22 (by linarith) (by linarith)
    rw [mixed_swap1, mixed_swap2] at this
    linarith

theorem mixed_sign_neg {z x1 x2 y1 y2 : ℝ} (h12 : rad z x1 y2 ≠ 0) (h21 : rad z x2 y1 ≠ 0)
    (h : (x2 ^ 2 - x1 ^ 2) * (y2 ^ 2 - y1 ^ 2) < 0) : mixed z x1 x2 y1 y2 < 0 := by
  have := mixed_sign h21 h12 (by linarith)
  rw [mixed_swap1] at this
  linarith

theorem mixed_zero {z x1 x2 y1 y2 : ℝ} (h : (x2 ^ 2 - x1 ^ 2) * (y2 ^ 2 - y1 ^ 2) = 0) :
    mixed z x1 x2 y1 y2 = 0 := by
  unfold mixed rad
  rcases mul_eq_zero.1 h with h | h
  · rw [show x2 ^ 2 = x1 ^ 2 by linarith]; ring
  · rw [show y2 ^ 2 = y1 ^ 2 by linarith]; ring

/-- an edge contributes the integral of the inverse distance -/
theorem Lk_diff_integral {z1 z2 x y : ℝ} (hz : z1 ≤ z2) (h : ∀ z ∈ Icc z1 z2, rad z x y ≠ 0) :
    IntervalIntegrable (fun z => 1 / rad z x y) volume z1 z2 ∧
    Lk z2 x y - Lk z1 x y = ∫ z in z1..z2, 1 / rad z x y := by
  have hc : ContinuousOn (fun z => 1 / rad z x y) (uIcc z1 z2) := by
    rw [uIcc_of_le hz]
    exact continuousOn_const.div (Continuous.rad continuous_id continuous_const continuous_const).continuousOn h
  have hi := hc.intervalIntegrable (μ := volume)
  refine ⟨hi, (intervalIntegral.integral_eq_sub_of_hasDerivAt (f := fun z => Lk z x y) (fun z hz' => ?_) hi).symm⟩
  rw [uIcc_of_le hz] at hz'
  simpa using hasDerivAt_Lk1 (h z hz')

theorem Ven_mixed (hP : P.Proper) (h : p ∉ P.singular .en) :
    IntervalIntegrable (fun z => mixed z (P.west - p.e) (P.east - p.e) (P.south - p.n) (P.north - p.n)) volume
      (P.bottom - p.u) (P.top - p.u) ∧
    Vc .en p P = ∫ z in (P.bottom - p.u)..(P.top - p.u),
      mixed z (P.west - p.e) (P.east - p.e) (P.south - p.n) (P.north - p.n) := by
  obtain ⟨o1, o2, o3⟩ := hP
  have hr : ∀ a b, (a = P.west ∨ a = P.east) → (b = P.south ∨ b = P.north) →
      ∀ z ∈ Icc (P.bottom - p.u) (P.top - p.u), rad z (a - p.e) (b - p.n) ≠ 0 := by
    intro a b ha hb z hz h0
    obtain ⟨h1, h2, h3⟩ := rad_eq_zero.1 h0
    refine h ?_
    simp only [Box.singular, Box.edgesU, Set.mem_ofPred_eq]
    have e1 : p.e = a := by linarith
    have e2 : p.n = b := by linarith
    rw [e1, e2]
    exact ⟨ha, hb, by linarith [hz.1], by linarith [hz.2]⟩
  have L := fun a b ha hb => Lk_diff_integral (by linarith : P.bottom - p.u ≤ P.top - p.u) (hr a b ha hb)
  obtain ⟨i1, e1⟩ := L P.east P.north (.inr rfl) (.inr rfl)
  obtain ⟨i2, e2⟩ := L P.east P.south (.inr rfl) (.inl rfl)
  obtain ⟨i3, e3⟩ := L P.west P.north (.inl rfl) (.inr rfl)
  obtain ⟨i4, e4⟩ := L P.west P.south (.inl rfl) (.inl rfl)
  refine ⟨(i1.sub i2).sub (i3.sub i4), ?_⟩
  unfold mixed
  rw [intervalIntegral.integral_sub (i1.sub i2) (i3.sub i4), intervalIntegral.integral_sub i1 i2,
    intervalIntegral.integral_sub i3 i4, ← e1, ← e2, ← e3, ← e4]
  simp only [Vc, corr, add_zero, Dv, D3, Kc]

theorem Ven_sign (hP : P.Proper) (h : p ∉ P.singular .en) :
    SignType.sign (Vc .en p P) = SignType.sign ((p.e - P.centre .e) * (p.n - P.centre .n)) := by
  obtain ⟨hi, hV⟩ := Ven_mixed hP h
  obtain ⟨o1, o2, o3⟩ := hP
  have key : ((P.east - p.e) ^ 2 - (P.west - p.e) ^ 2) * ((P.north - p.n) ^ 2 - (P.south - p.n) ^ 2) =
      4 * (P.east - P.west) * (P.north - P.south) * ((p.e - P.centre .e) * (p.n - P.centre .n)) := by
    simp only [Box.centre, Box.lo, Box.hi]; ring
  have hpos : 0 < 4 * (P.east - P.west) * (P.north - P.south) := by
    have := mul_pos (sub_pos.2 o1) (sub_pos.2 o2)
    linarith
  have hr : ∀ a b, (a = P.west ∨ a = P.east) → (b = P.south ∨ b = P.north) →
      ∀ z ∈ Ioo (P.bottom - p.u) (P.top - p.u), rad z (a - p.e) (b - p.n) ≠ 0 := by
    intro a b ha hb z hz h0
    obtain ⟨h1, h2, h3⟩ := rad_eq_zero.1 h0
    refine h ?_
    simp only [Box.singular, Box.edgesU, Set.mem_ofPred_eq]
    have e1 : p.e = a := by linarith
    have e2 : p.n = b := by linarith
    rw [e1, e2]
    exact ⟨ha, hb, by linarith [hz.1], by linarith [hz.2]⟩
  rcases lt_trichotomy ((p.e - P.centre .e) * (p.n - P.centre .n)) 0 with hs | hs | hs
  · rw [_root_.sign_neg hs, _root_.sign_neg]
    have := intervalIntegral.intervalIntegral_pos_of_pos_on hi.neg (fun z hz => by
      have := mixed_sign_neg (hr _ _ (.inl rfl) (.inr rfl) z hz) (hr _ _ (.inr rfl) (.inl rfl) z hz)
        (by rw [key]; exact mul_neg_of_pos_of_neg hpos hs)
      simpa using this) (by linarith)
    rw [hV]
    simp only [Pi.neg_apply, intervalIntegral.integral_neg] at this
    linarith
  · rw [hs, _root_.sign_zero, hV]
    rw [_root_.sign_eq_zero_iff]
    simp only [mixed_zero (show ((P.east - p.e) ^ 2 - (P.west - p.e) ^ 2) * ((P.north - p.n) ^ 2 - (P.south - p.n) ^ 2) = 0 by
      rw [key, hs, mul_zero])]
    simp
  · rw [sign_pos hs, sign_pos]
    rw [hV]
    exact intervalIntegral.intervalIntegral_pos_of_pos_on hi (fun z hz => 
      mixed_sign (hr _ _ (.inl rfl) (.inl rfl) z hz) (hr _ _ (.inr rfl) (.inr rfl) z hz)
        (by rw [key]; exact mul_pos hpos hs)) (by linarith)

theorem Voff_sign (hP : P.Proper) {a b : Axis} (hab : a ≠ b) (h : p ∉ P.singular (tensor a b)) :
    SignType.sign (Vc (tensor a b) p P) =
      SignType.sign ((p.coord a - P.centre a) * (p.coord b - P.centre b)) := by
  have sw : ∀ {P : Box} (s : Swap), P.Proper → (P.swap s).Proper := by
    rintro P (_ | _ | _) ⟨h1, h2, h3⟩
    · exact ⟨h2, h1, h3⟩
    · exact ⟨h3, h2, h1⟩
    · exact ⟨h1, h3, h2⟩
  have en : p ∉ P.singular .en → SignType.sign (Vc .en p P) = SignType.sign ((p.e - P.centre .e) * (p.n - P.centre .n)) :=
    Ven_sign hP
  have eu : p ∉ P.singular .eu → SignType.sign (Vc .eu p P) = SignType.sign ((p.e - P.centre .e) * (p.u - P.centre .u)) :=
    fun h => by
      have := Ven_sign (p := p.swap .nu) (sw .nu hP) (by rwa [← singular_swap p P GComp.eu .nu] at h)
      rw [← Vc_swap p P .eu .nu]
      exact this
  have nu : p ∉ P.singular .nu → SignType.sign (Vc .nu p P) = SignType.sign ((p.u - P.centre .u) * (p.n - P.centre .n)) :=
    fun h => by
      have := Ven_sign (p := p.swap .eu) (sw .eu hP) (by rwa [← singular_swap p P GComp.nu .eu] at h)
      rw [← Vc_swap p P .nu .eu]
      exact this
  cases a <;> cases b
  · exact absurd rfl hab
  · exact en h
  · exact eu h
  · rw [mul_comm]; exact en h
  · exact absurd rfl hab
  · rw [mul_comm]; exact nu h
  · rw [mul_comm]; exact eu h
  · exact nu h
  · exact absurd rfl hab

/-! ### diagonal components -/

theorem D2_Ar_pos {x y1 y2 z1 z2 : ℝ} (hx : 0 < x) (hy : y1 < y2) (hz : z1 < z2) : 0 < D2 (Ar x) y1 y2 z1 z2 := by
  have h := integral_face (x := x) (b := 0) (c := 0) hy.le hz.le
  simp only [sub_zero] at h
  rw [← h]
  have hI := integrableOn_face x 0 0 y1 y2 z1 z2
  simp only [sub_zero] at hI
  have hpos : ∀ s : ℝ × ℝ, 0 < x / rad x s.1 s.2 ^ 3 := fun s => by
    have : 0 < rad x s.1 s.2 := rad_pos (by rintro ⟨h, -⟩; exact hx.ne' h)
    positivity
  rw [setIntegral_pos_iff_support_of_nonneg_ae (Eventually.of_forall fun s => (hpos s).le) hI]
  have : Function.support (fun s : ℝ × ℝ => x / rad x s.1 s.2 ^ 3) = univ := by
    ext s; simpa using (hpos s).ne'
  rw [this, univ_inter, show (volume : Measure (ℝ × ℝ)) = (volume : Measure ℝ).prod (volume : Measure ℝ) from rfl,
    Measure.prod_prod, Real.volume_Icc, Real.volume_Icc]
  exact ENNReal.mul_pos (by simpa using hy) (by simpa using hz)

theorem Ar_neg1 (x y z : ℝ) : Ar (-x) y z = -Ar x y z := by
  unfold Ar
  rw [rad_neg1, neg_mul, div_neg, Real.arctan_neg]

theorem D2_Ar_neg1 (x y1 y2 z1 z2 : ℝ) : D2 (Ar (-x)) y1 y2 z1 z2 = -D2 (Ar x) y1 y2 z1 z2 := by
  simp only [D2, Ar_neg1]; ring

theorem D2_Tk {x : ℝ} (hx : x ≠ 0) (y1 y2 z1 z2 : ℝ) : D2 (Tk x) y1 y2 z1 z2 = D2 (Ar x) y1 y2 z1 z2 := by
  simp only [D2, Ar_eq_Tk hx]

theorem Dv_ee (p : Pt) (P : Box) : Dv (Kc .ee) p P =
    D2 (Tk (P.west - p.e)) (P.south - p.n) (P.north - p.n) (P.bottom - p.u) (P.top - p.u) -
    D2 (Tk (P.east - p.e)) (P.south - p.n) (P.north - p.n) (P.bottom - p.u) (P.top - p.u) := by
  simp only [Dv, D3, Kc, D2]; ring

/-- between the two faces perpendicular to the axis the component is negative -/
theorem Vee_neg (hP : P.Proper) (h1 : P.west < p.e) (h2 : p.e < P.east) : Vc .ee p P < 0 := by
  obtain ⟨o1, o2, o3⟩ := hP
  have hf : p ∉ P.faceEast := fun h => by
    have : p.e = P.east := h.1; linarith
  have w : P.west - p.e ≠ 0 := by linarith
  have e : P.east - p.e ≠ 0 := by linarith
  simp only [Vc, corr, if_neg hf, add_zero, Dv_ee, D2_Tk w, D2_Tk e]
  have a := D2_Ar_pos (x := P.east - p.e) (y1 := P.south - p.n) (y2 := P.north - p.n) (z1 := P.bottom - p.u)
    (z2 := P.top - p.u) (by linarith) (by linarith) (by linarith)
  have b := D2_Ar_pos (x := -(P.west - p.e)) (y1 := P.south - p.n) (y2 := P.north - p.n) (z1 := P.bottom - p.u)
    (z2 := P.top - p.u) (by linarith) (by linarith) (by linarith)
  rw [D2_Ar_neg1] at b
  linarith

/-- the solid angle of a rectangle in front of the observer, corner by corner -/
theorem Ar_anti {x x' y z : ℝ} (hx : 0 < x) (hx' : x < x') (h : 0 ≤ y * z) : Ar x' y z ≤ Ar x y z := by
  unfold Ar
  apply Real.arctan_strictMono.monotone
  have r : 0 < rad x y z := rad_pos (by rintro ⟨h, -⟩; exact hx.ne' h)
  have rr : rad x y z ≤ rad x' y z := by
    unfold rad; apply Real.sqrt_le_sqrt; nlinarith
  have h0 : 0 ≤ x' := by linarith
  apply div_le_div_of_nonneg_left h (by positivity)
  gcongr

theorem Ar_strictAnti {x x' y z : ℝ} (hx : 0 < x) (hx' : x < x') (h : 0 < y * z) : Ar x' y z < Ar x y z := by
  unfold Ar
  apply Real.arctan_strictMono
  have r : 0 < rad x y z := rad_pos (by rintro ⟨h, -⟩; exact hx.ne' h)
  have rr : rad x y z < rad x' y z := by
    unfold rad; apply Real.sqrt_lt_sqrt (by positivity); nlinarith
  apply div_lt_div_of_pos_left h (by positivity)
  gcongr

theorem D2_Ar_anti {x x' y1 y2 z1 z2 : ℝ} (hx : 0 < x) (hx' : x < x') (hy : y1 < y2) (hz : z1 < z2) (y1n : y1 ≤ 0)
    (y2p : 0 ≤ y2) (z1n : z1 ≤ 0) (z2p : 0 ≤ z2) : D2 (Ar x') y1 y2 z1 z2 < D2 (Ar x) y1 y2 z1 z2 := by
  have e : ∀ x, D2 (Ar x) y1 y2 z1 z2 = Ar x y2 z2 + Ar x y2 (-z1) + (Ar x (-y1) z2 + Ar x (-y1) (-z1)) := fun x => by
    simp only [Ar_neg2, Ar_neg3, D2]; ring
  rw [e, e]
  have a1 := Ar_anti (y := y2) (z := z2) hx hx' (by positivity)
  have a2 := Ar_anti (y := y2) (z := -z1) hx hx' (mul_nonneg y2p (by linarith))
  have a3 := Ar_anti (y := -y1) (z := z2) hx hx' (mul_nonneg (by linarith) z2p)
  have a4 := Ar_anti (y := -y1) (z := -z1) hx hx' (mul_nonneg (by linarith) (by linarith))
  have hy' : 0 < y2 ∨ 0 < -y1 := by
    by_contra hn; push Not at hn; linarith [hn.1, hn.2]
  have hz' : 0 < z2 ∨ 0 < -z1 := by
    by_contra hn; push Not at hn; linarith [hn.1, hn.2]
  rcases hy' with hy' | hy' <;> rcases hz' with hz' | hz' <;>
    linarith [Ar_strictAnti hx hx' (mul_pos hy' hz')]

theorem D2_Tk_zero {y1 y2 z1 z2 : ℝ} (hy : y1 < 0) (hy' : 0 < y2) (hz : z1 < 0) (hz' : 0 < z2) :
    D2 (Tk 0) y1 y2 z1 z2 = 2 * π := by
  simp only [D2, Tk_zero1, Real.sign_of_neg hy, Real.sign_of_neg hz, Real.sign_of_pos hy', Real.sign_of_pos hz']
  ring

theorem D2_Ar_lt (x y1 y2 z1 z2 : ℝ) : D2 (Ar x) y1 y2 z1 z2 < 2 * π := by
  have h1 := fun y z => Real.arctan_lt_pi_div_two (y * z / (x * rad x y z))
  have h2 := fun y z => Real.neg_pi_div_two_lt_arctan (y * z / (x * rad x y z))
  unfold D2 Ar
  linarith [h1 y2 z2, h1 y1 z1, h2 y2 z1, h2 y1 z2]

/-- in the column over the prism along the axis the component is positive -/
theorem Vee_pos (hP : P.Proper) (hs : p ∉ P.singular .ee) (ho : p.e ≤ P.west ∨ P.east ≤ p.e)
    (n1 : P.south ≤ p.n) (n2 : p.n ≤ P.north) (u1 : P.bottom ≤ p.u) (u2 : p.u ≤ P.top) : 0 < Vc .ee p P := by
  obtain ⟨o1, o2, o3⟩ := hP
  have inner : p.e = P.west ∨ p.e = P.east → P.south < p.n ∧ p.n < P.north ∧ P.bottom < p.u ∧ p.u < P.top := by
    intro h
    refine ⟨lt_of_le_of_ne n1 ?_, lt_of_le_of_ne n2 ?_, lt_of_le_of_ne u1 ?_, lt_of_le_of_ne u2 ?_⟩ <;>
    · intro h'
      apply hs
      simp only [Box.singular, Box.edgesU, Box.edgesN, Set.mem_union, Set.mem_ofPred_eq]
      grind
  have A := fun {x x' : ℝ} (h : 0 < x) (h' : x < x') => D2_Ar_anti (y1 := P.south - p.n) (y2 := P.north - p.n)
    (z1 := P.bottom - p.u) (z2 := P.top - p.u) h h' (by linarith) (by linarith) (by linarith) (by linarith)
    (by linarith) (by linarith)
  simp only [Vc, corr, Dv_ee]
  rcases ho with ho | ho
  · have hf : p ∉ P.faceEast := fun h => by have : p.e = P.east := h.1; linarith
    rw [if_neg hf, add_zero]
    have e : P.east - p.e ≠ 0 := by linarith
    rcases ho.lt_or_eq with h | h
    · rw [D2_Tk e, D2_Tk (by linarith : P.west - p.e ≠ 0)]
      linarith [A (x := P.west - p.e) (x' := P.east - p.e) (by linarith) (by linarith)]
    · obtain ⟨i1, i2, i3, i4⟩ := inner (.inl h)
      rw [D2_Tk e, h, sub_self, D2_Tk_zero (by linarith) (by linarith) (by linarith) (by linarith)]
      linarith [D2_Ar_lt (P.east - P.west) (P.south - p.n) (P.north - p.n) (P.bottom - p.u) (P.top - p.u)]
  · have w : P.west - p.e ≠ 0 := by linarith
    rcases ho.lt_or_eq with h | h
    · have hf : p ∉ P.faceEast := fun h => by have : p.e = P.east := h.1; linarith
      rw [if_neg hf, add_zero, D2_Tk w, D2_Tk (by linarith : P.east - p.e ≠ 0)]
      have := A (x := -(P.east - p.e)) (x' := -(P.west - p.e)) (by linarith) (by linarith)
      rw [D2_Ar_neg1, D2_Ar_neg1] at this
      linarith
    · obtain ⟨i1, i2, i3, i4⟩ := inner (.inr h.symm)
      have hf : p ∈ P.faceEast := ⟨h.symm, ⟨i1, i2⟩, i3, i4⟩
      rw [if_pos hf, D2_Tk w, h, sub_self, D2_Tk_zero (by linarith) (by linarith) (by linarith) (by linarith)]
      have := D2_Ar_lt (-(P.west - p.e)) (P.south - p.n) (P.north - p.n) (P.bottom - p.u) (P.top - p.u)
      rw [D2_Ar_neg1] at this
      linarith

theorem Vdiag_neg (hP : P.Proper) (a : Axis) (h1 : P.lo a < p.coord a) (h2 : p.coord a < P.hi a) :
    Vc (tensor a a) p P < 0 := by
  obtain ⟨o1, o2, o3⟩ := hP
  cases a
  · exact Vee_neg ⟨o1, o2, o3⟩ h1 h2
  · show Vc .nn p P < 0
    rw [← Vc_swap p P .nn .en]
    exact Vee_neg (P := P.swap .en) (p := p.swap .en) ⟨o2, o1, o3⟩ h1 h2
  · show Vc .uu p P < 0
    rw [← Vc_swap p P .uu .eu]
    exact Vee_neg (P := P.swap .eu) (p := p.swap .eu) ⟨o3, o2, o1⟩ h1 h2

theorem Vdiag_pos (hP : P.Proper) (a : Axis) (hs : p ∉ P.singular (tensor a a))
    (ho : p.coord a ≤ P.lo a ∨ P.hi a ≤ p.coord a)
    (hc : ∀ b, b ≠ a → P.lo b ≤ p.coord b ∧ p.coord b ≤ P.hi b) : 0 < Vc (tensor a a) p P := by
  obtain ⟨o1, o2, o3⟩ := hP
  cases a
  · obtain ⟨h1, h2⟩ := hc .n (by simp)
    obtain ⟨h3, h4⟩ := hc .u (by simp)
    exact Vee_pos ⟨o1, o2, o3⟩ hs ho h1 h2 h3 h4
  · obtain ⟨h1, h2⟩ := hc .e (by simp)
    obtain ⟨h3, h4⟩ := hc .u (by simp)
    show 0 < Vc .nn p P
    rw [← Vc_swap p P .nn .en]
    exact Vee_pos (P := P.swap .en) (p := p.swap .en) ⟨o2, o1, o3⟩
      (fun h => hs ((singular_swap p P .nn .en).1 h)) ho h1 h2 h3 h4
  · obtain ⟨h1, h2⟩ := hc .n (by simp)
    obtain ⟨h3, h4⟩ := hc .e (by simp)
    show 0 < Vc .uu p P
    rw [← Vc_swap p P .uu .eu]
    exact Vee_pos (P := P.swap .eu) (p := p.swap .eu) ⟨o3, o2, o1⟩
      (fun h => hs ((singular_swap p P .uu .eu).1 h)) ho h1 h2 h3 h4

end Choclo
