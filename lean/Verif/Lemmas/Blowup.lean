import Verif.Lemmas.Continuity2

/-! # Behaviour of the tensor components near the edges where they are undefined -/

namespace Choclo

open Real Set Filter Topology

variable {P : Box} {p : Pt}

theorem rad_shift (s x y z : ℝ) (h : x ≤ s) : rad x y z ≤ rad s y z + (s - x) := by
  have h1 := rad_sq x y z
  have h2 := rad_sq s y z
  have h3 := rad_nonneg x y z
  have h4 := rad_nonneg s y z
  have h5 := neg_le_of_abs_le (abs_le_rad s y z)
  have h6 := le_of_abs_le (abs_le_rad s y z)
  by_contra hn
  push Not at hn
  nlinarith

/-- the contribution of an edge to an off-diagonal component grows at least logarithmically -/
theorem edge_lower {x1 x2 y z s : ℝ} (h : x1 < x2) (h1 : x1 ≤ s) (h2 : s ≤ x2)
    (hp : ¬(y = 0 ∧ z = 0 ∧ x1 ≤ 0 ∧ 0 ≤ x2)) :
    Real.log ((x2 - x1) / (2 * rad s y z)) ≤ Lk x2 y z - Lk x1 y z := by
  by_cases h0 : y = 0 ∧ z = 0
  · obtain ⟨rfl, rfl⟩ := h0
    have hs : rad s 0 0 = |s| := by
      unfold rad
      rw [← Real.sqrt_sq_eq_abs]; congr 1; ring
    rw [hs]
    by_cases hx : x1 ≤ 0
    · have hx2 : x2 < 0 := by
        by_contra hc
        exact hp ⟨rfl, rfl, hx, not_lt.1 hc⟩
      rw [Lk_axis_neg hx2, Lk_axis_neg (h.trans hx2), abs_of_neg (by linarith),
        show -Real.log (-2 * x2) - -Real.log (-2 * x1) = Real.log (-2 * x1) - Real.log (-2 * x2) by ring,
        ← Real.log_div (by linarith) (by linarith)]
      apply Real.log_le_log (div_pos (by linarith) (by linarith))
      rw [div_le_div_iff₀ (by linarith) (by linarith)]
      nlinarith
    · push Not at hx
      rw [Lk_axis_nonneg (hx.trans h).le, Lk_axis_nonneg hx.le, abs_of_pos (by linarith),
        ← Real.log_div (by linarith) (by linarith)]
      apply Real.log_le_log (div_pos (by linarith) (by linarith))
      rw [div_le_div_iff₀ (by linarith) (by linarith)]
      nlinarith
  · have hρ := sq_add_sq_pos h0
    have q1 := rad_sq x1 y z
    have q2 := rad_sq x2 y z
    have n1 := rad_nonneg x1 y z
    have n2 := rad_nonneg x2 y z
    have n := rad_nonneg s y z
    have a1 := neg_le_of_abs_le (abs_le_rad x1 y z)
    have a1' := le_of_abs_le (abs_le_rad x1 y z)
    have a2 := neg_le_of_abs_le (abs_le_rad x2 y z)
    have a2' := le_of_abs_le (abs_le_rad x2 y z)
    have as := neg_le_of_abs_le (abs_le_rad s y z)
    have as' := le_of_abs_le (abs_le_rad s y z)
    have t1 := rad_shift s x1 y z h1
    have t2 := rad_shift (-s) (-x2) y z (by linarith)
    rw [rad_neg1, rad_neg1] at t2
    have hR : 0 < rad s y z := by
      rcases eq_or_lt_of_le n with h' | h'
      · exact absurd (rad_eq_zero.1 h'.symm) (by tauto)
      · exact h'
    have p1 : 0 < x1 + rad x1 y z := by
      by_contra hn
      push Not at hn
      nlinarith
    have p2 : 0 < x2 + rad x2 y z := by
      by_contra hn
      push Not at hn
      nlinarith
    rw [Lk_off_axis h0, Lk_off_axis h0, ← Real.log_div p2.ne' p1.ne']
    apply Real.log_le_log (div_pos (by linarith) (by linarith))
    rw [div_le_div_iff₀ (by linarith) p1]
    have m1 : x1 + rad x1 y z ≤ 2 * rad s y z := by linarith
    have m2 : rad x2 y z - x2 ≤ 2 * rad s y z := by linarith
    rcases le_or_gt (x2 - x1) (x2 + rad x2 y z) with hc | hc
    · rw [mul_comm (x2 + rad x2 y z)]
      calc (x2 - x1) * (x1 + rad x1 y z) ≤ (x2 - x1) * (2 * rad s y z) :=
            mul_le_mul_of_nonneg_left m1 (by linarith)
        _ = (2 * rad s y z) * (x2 - x1) := by ring
        _ ≤ _ := mul_le_mul_of_nonneg_left hc (by linarith)
    · have hx : x2 - x1 ≤ rad x1 y z - x1 := by linarith
      calc (x2 - x1) * (x1 + rad x1 y z) ≤ (rad x1 y z - x1) * (x1 + rad x1 y z) :=
            mul_le_mul_of_nonneg_right hx p1.le
        _ = (x2 + rad x2 y z) * (rad x2 y z - x2) := by nlinarith
        _ ≤ _ := mul_le_mul_of_nonneg_left m2 p2.le

theorem tendsto_edge (hB : P.bottom < P.top) {a b : ℝ} {p : Pt} (he : p.e = a) (hn : p.n = b)
    (hu : p.u ∈ Icc P.bottom P.top) {S : Set Pt}
    (hS : ∀ q ∈ S, ¬(q.e = a ∧ q.n = b ∧ P.bottom ≤ q.u ∧ q.u ≤ P.top)) :
    Tendsto (fun q : Pt => Lk (P.top - q.u) (a - q.e) (b - q.n) - Lk (P.bottom - q.u) (a - q.e) (b - q.n))
      (𝓝[S] p) atTop := by
  have hd : Tendsto (fun q : Pt => rad (p.u - q.u) (a - q.e) (b - q.n)) (𝓝[S] p) (𝓝[>] 0) := by
    refine tendsto_nhdsWithin_of_tendsto_nhds_of_eventually_within _ ?_ ?_
    · have hc : Continuous (fun q : Pt => rad (p.u - q.u) (a - q.e) (b - q.n)) := by
        unfold rad Pt.u Pt.e Pt.n; fun_prop
      have := hc.tendsto p
      rw [he, hn, sub_self, sub_self, sub_self, rad_eq_zero.2 ⟨rfl, rfl, rfl⟩] at this
      exact this.mono_left nhdsWithin_le_nhds
    · filter_upwards [self_mem_nhdsWithin] with q hq
      refine lt_of_le_of_ne (rad_nonneg _ _ _) fun h => hS q hq ?_
      obtain ⟨h1, h2, h3⟩ := rad_eq_zero.1 h.symm
      refine ⟨by linarith, by linarith, ?_, ?_⟩
      · have := hu.1; linarith
      · have := hu.2; linarith
  have hl : Tendsto (fun q : Pt => Real.log ((P.top - P.bottom) / (2 * rad (p.u - q.u) (a - q.e) (b - q.n))))
      (𝓝[S] p) atTop := by
    refine Real.tendsto_log_atTop.comp ?_
    have h2 : Tendsto (fun q : Pt => ((P.top - P.bottom) / 2) * (rad (p.u - q.u) (a - q.e) (b - q.n))⁻¹)
        (𝓝[S] p) atTop := Tendsto.const_mul_atTop (by linarith) (tendsto_inv_nhdsGT_zero.comp hd)
    refine h2.congr fun q => ?_
    rw [div_mul_eq_div_div, ← div_eq_mul_inv]
  refine tendsto_atTop_mono' _ ?_ hl
  filter_upwards [self_mem_nhdsWithin] with q hq
  have := edge_lower (x1 := P.bottom - q.u) (x2 := P.top - q.u) (y := a - q.e) (z := b - q.n)
    (s := p.u - q.u) (by linarith) (by linarith [hu.1]) (by linarith [hu.2]) (by
      rintro ⟨h1, h2, h3, h4⟩
      exact hS q hq ⟨by linarith, by linarith, by linarith, by linarith⟩)
  rw [show P.top - q.u - (P.bottom - q.u) = P.top - P.bottom by ring] at this
  exact this

theorem tendsto_abs_Ven (hP : P.Proper) (h : p ∈ P.singular .en) :
    Tendsto (fun q => |Vc .en q P|) (𝓝[(P.singular .en)ᶜ] p) atTop := by
  obtain ⟨o1, o2, o3⟩ := hP
  simp only [Box.singular, Box.edgesU, Set.mem_ofPred_eq] at h
  obtain ⟨he, hn, hu⟩ := h
  set E : ℝ → ℝ → Pt → ℝ := fun a b q =>
    Lk (P.top - q.u) (a - q.e) (b - q.n) - Lk (P.bottom - q.u) (a - q.e) (b - q.n) with hE
  have hV : ∀ q, Vc .en q P = E P.east P.north q - E P.east P.south q - (E P.west P.north q - E P.west P.south q) :=
    fun q => by simp only [Vc, corr, add_zero, Dv, D3, Kc, hE]
  have cont : ∀ a b, ¬(p.e = a ∧ p.n = b) → ContinuousAt (E a b) p := by
    intro a b hab
    have h0 : ¬(a - p.1 = 0 ∧ b - p.2.1 = 0) := fun h => hab ⟨by simp only [Pt.e]; linarith [h.1], by simp only [Pt.n]; linarith [h.2]⟩
    exact (ContinuousAt.Lk (f := fun q : Pt => P.top - q.2.2) (g := fun q : Pt => a - q.1) (h := fun q : Pt => b - q.2.1)
      (by fun_prop) (by fun_prop) (by fun_prop) h0).sub
      (ContinuousAt.Lk (f := fun q : Pt => P.bottom - q.2.2) (g := fun q : Pt => a - q.1) (h := fun q : Pt => b - q.2.1)
      (by fun_prop) (by fun_prop) (by fun_prop) h0)
  have top : ∀ a b, (a = P.west ∨ a = P.east) → (b = P.south ∨ b = P.north) → p.e = a → p.n = b →
      Tendsto (E a b) (𝓝[(P.singular .en)ᶜ] p) atTop := by
    intro a b ha hb h1 h2
    refine tendsto_edge o3 h1 h2 hu ?_
    rintro q hq ⟨e1, e2, e3, e4⟩
    refine hq ?_
    simp only [Box.singular, Box.edgesU, Set.mem_ofPred_eq]
    rw [e1, e2]
    exact ⟨ha, hb, e3, e4⟩
  have fin : ∀ (σ : ℝ) (E0 C : Pt → ℝ), |σ| = 1 → Tendsto E0 (𝓝[(P.singular .en)ᶜ] p) atTop →
      ContinuousAt C p → (∀ q, Vc .en q P = σ * E0 q + C q) →
      Tendsto (fun q => |Vc .en q P|) (𝓝[(P.singular .en)ᶜ] p) atTop := by
    intro σ E0 C hσ hE0 hC hq
    have hc : Tendsto (fun q => -|C q|) (𝓝[(P.singular .en)ᶜ] p) (𝓝 (-|C p|)) :=
      (hC.abs.neg.tendsto).mono_left nhdsWithin_le_nhds
    refine tendsto_atTop_mono (fun q => ?_) (hE0.atTop_add hc)
    rw [hq]
    have h1 := abs_sub_abs_le_abs_sub (σ * E0 q) (-C q)
    rw [abs_mul, hσ, one_mul, abs_neg, sub_neg_eq_add] at h1
    linarith [le_abs_self (E0 q)]
  have we : P.west ≠ P.east := o1.ne
  have sn : P.south ≠ P.north := o2.ne
  rcases he with he | he <;> rcases hn with hn | hn
  · refine fin 1 (E P.west P.south)
      (fun q => E P.east P.north q - E P.east P.south q - E P.west P.north q) (by norm_num)
      (top _ _ (.inl rfl) (.inl rfl) he hn)
      (((cont _ _ (by grind)).sub (cont _ _ (by grind))).sub (cont _ _ (by grind)))
      (fun q => by rw [hV]; ring)
  · refine fin (-1) (E P.west P.north)
      (fun q => E P.east P.north q - E P.east P.south q + E P.west P.south q) (by norm_num)
      (top _ _ (.inl rfl) (.inr rfl) he hn)
      (((cont _ _ (by grind)).sub (cont _ _ (by grind))).add (cont _ _ (by grind)))
      (fun q => by rw [hV]; ring)
  · refine fin (-1) (E P.east P.south)
      (fun q => E P.east P.north q - E P.west P.north q + E P.west P.south q) (by norm_num)
      (top _ _ (.inr rfl) (.inl rfl) he hn)
      (((cont _ _ (by grind)).sub (cont _ _ (by grind))).add (cont _ _ (by grind)))
      (fun q => by rw [hV]; ring)
  · refine fin 1 (E P.east P.north)
      (fun q => E P.west P.south q - E P.east P.south q - E P.west P.north q) (by norm_num)
      (top _ _ (.inr rfl) (.inr rfl) he hn)
      (((cont _ _ (by grind)).sub (cont _ _ (by grind))).sub (cont _ _ (by grind)))
      (fun q => by rw [hV]; ring)

theorem tendsto_swap_singular {c : GComp} (s : Swap)
    (h : Tendsto (fun q => |Vc (c.swap s) q (P.swap s)|) (𝓝[((P.swap s).singular (c.swap s))ᶜ] (p.swap s)) atTop) :
    Tendsto (fun q => |Vc c q P|) (𝓝[(P.singular c)ᶜ] p) atTop := by
  have hs : Tendsto (fun q : Pt => q.swap s) (𝓝[(P.singular c)ᶜ] p)
      (𝓝[((P.swap s).singular (c.swap s))ᶜ] (p.swap s)) := by
    apply tendsto_nhdsWithin_of_tendsto_nhds_of_eventually_within
    · exact (Pt.continuous_swap s).continuousAt.tendsto.mono_left nhdsWithin_le_nhds
    · filter_upwards [self_mem_nhdsWithin] with q hq
      exact fun h' => hq ((singular_swap _ _ c s).1 h')
  refine (h.comp hs).congr fun q => ?_
  simp only [Function.comp, Vc_swap]

/-- the off-diagonal components diverge at every point where they are undefined -/
theorem tendsto_abs_Voff (hP : P.Proper) {a b : Axis} (hab : a ≠ b) (h : p ∈ P.singular (tensor a b)) :
    Tendsto (fun q => |Vc (tensor a b) q P|) (𝓝[(P.singular (tensor a b))ᶜ] p) atTop := by
  have sw : ∀ {P : Box} (s : Swap), P.Proper → (P.swap s).Proper := by
    rintro P (_ | _ | _) ⟨h1, h2, h3⟩
    · exact ⟨h2, h1, h3⟩
    · exact ⟨h3, h2, h1⟩
    · exact ⟨h1, h3, h2⟩
  have eu : p ∈ P.singular .eu → Tendsto (fun q => |Vc .eu q P|) (𝓝[(P.singular .eu)ᶜ] p) atTop :=
    fun h => tendsto_swap_singular (c := .eu) .nu
      (tendsto_abs_Ven (sw .nu hP) (by rwa [← singular_swap p P GComp.eu .nu] at h))
  have nu : p ∈ P.singular .nu → Tendsto (fun q => |Vc .nu q P|) (𝓝[(P.singular .nu)ᶜ] p) atTop :=
    fun h => tendsto_swap_singular (c := .nu) .eu
      (tendsto_abs_Ven (sw .eu hP) (by rwa [← singular_swap p P GComp.nu .eu] at h))
  cases a <;> cases b
  · exact absurd rfl hab
  · exact tendsto_abs_Ven hP h
  · exact eu h
  · exact tendsto_abs_Ven hP h
  · exact absurd rfl hab
  · exact nu h
  · exact eu h
  · exact nu h
  · exact absurd rfl hab

/-! ### diagonal components -/

theorem tk_diff (x y z a b : ℝ) (ha : a ≠ 0) :
    Tendsto (fun t => Tk (x - a * t) (y - b * t) z - Tk (x - a * t) y z) (𝓝[>] 0)
      (𝓝 (if x = 0 ∧ y = 0 then Real.arctan (b / a * Real.sign z) else 0)) := by
  have ev : ∀ᶠ t in 𝓝[>] (0 : ℝ), t ≠ 0 := by
    filter_upwards [self_mem_nhdsWithin] with t ht using (ne_of_gt ht)
  by_cases hx : x = 0
  · subst hx
    by_cases hy : y = 0
    · subst hy
      rw [if_pos ⟨rfl, rfl⟩]
      have e : ∀ t : ℝ, t ≠ 0 → Tk (0 - a * t) (0 - b * t) z - Tk (0 - a * t) 0 z
          = Real.arctan (b / a * (z / rad (0 - a * t) (0 - b * t) z)) := by
        intro t ht
        have h0 : 0 - a * t ≠ 0 := by rw [zero_sub]; exact neg_ne_zero.2 (mul_ne_zero ha ht)
        have hr : rad (0 - a * t) (0 - b * t) z ≠ 0 := by rw [Ne, rad_eq_zero]; tauto
        unfold Tk
        rw [if_neg h0, if_neg h0, zero_mul, zero_div, Real.arctan_zero, sub_zero]
        congr 1
        field_simp
        ring
      rw [tendsto_congr' (ev.mono e)]
      by_cases hz : z = 0
      · subst hz
        simp
      · have hc : ContinuousAt (fun t : ℝ => Real.arctan (b / a * (z / rad (0 - a * t) (0 - b * t) z))) 0 := by
          have hr : rad (0 - a * 0) (0 - b * 0) z ≠ 0 := by rw [Ne, rad_eq_zero]; tauto
          have : ContinuousAt (fun t : ℝ => z / rad (0 - a * t) (0 - b * t) z) 0 :=
            ContinuousAt.div (by fun_prop) (by fun_prop) hr
          fun_prop
        have hl := hc.tendsto.mono_left (nhdsWithin_le_nhds (s := Ioi 0))
        have hr : rad (0 - a * 0) (0 - b * 0) z = |z| := by
          unfold rad; rw [← Real.sqrt_sq_eq_abs]; congr 1; ring
        rw [hr] at hl
        convert hl using 3
        rcases lt_or_gt_of_ne hz with h | h
        · rw [Real.sign_of_neg h, abs_of_neg h]; field_simp
        · rw [Real.sign_of_pos h, abs_of_pos h]; field_simp
    · rw [if_neg (by tauto)]
      by_cases hz : z = 0
      · subst hz
        have : ∀ u v : ℝ, Tk u v 0 = 0 := by intro u v; simp [Tk]
        simp only [this, sub_zero]
        exact tendsto_const_nhds
      · have hs : ∀ᶠ t in 𝓝[>] (0 : ℝ), Real.sign (y - b * t) = Real.sign y := by
          have hc : ContinuousAt (fun t : ℝ => y - b * t) 0 := by fun_prop
          rcases lt_or_gt_of_ne hy with h | h
          · have := hc.eventually (gt_mem_nhds (show y - b * 0 < 0 by simpa using h))
            filter_upwards [nhdsWithin_le_nhds this] with t ht
            rw [Real.sign_of_neg ht, Real.sign_of_neg h]
          · have := hc.eventually (lt_mem_nhds (show 0 < y - b * 0 by simpa using h))
            filter_upwards [nhdsWithin_le_nhds this] with t ht
            rw [Real.sign_of_pos ht, Real.sign_of_pos h]
        have hd : Tendsto (fun t => Sk (0 - a * t) (y - b * t) z - Sk (0 - a * t) y z) (𝓝[>] 0) (𝓝 0) := by
          have h1 : ContinuousAt (fun t : ℝ => Sk (0 - a * t) (y - b * t) z) 0 :=
            ContinuousAt.Sk (by fun_prop) (by fun_prop) (by fun_prop) (by simpa using ⟨hy, hz⟩)
          have h2 : ContinuousAt (fun t : ℝ => Sk (0 - a * t) y z) 0 :=
            ContinuousAt.Sk (by fun_prop) (by fun_prop) (by fun_prop) (by simpa using ⟨hy, hz⟩)
          have := (h1.tendsto.sub h2.tendsto).mono_left (nhdsWithin_le_nhds (s := Ioi 0))
          simpa using this
        refine hd.congr' ?_
        filter_upwards [hs] with t ht
        rw [Tk_eq, Tk_eq, ht]
        ring
  · rw [if_neg (by tauto)]
    have h1 : ContinuousAt (fun t : ℝ => Tk (x - a * t) (y - b * t) z) 0 :=
      ContinuousAt.Tk (by fun_prop) (by fun_prop) (by fun_prop) (by simpa using hx)
    have h2 : ContinuousAt (fun t : ℝ => Tk (x - a * t) y z) 0 :=
      ContinuousAt.Tk (by fun_prop) (by fun_prop) (by fun_prop) (by simpa using hx)
    have := (h1.tendsto.sub h2.tendsto).mono_left (nhdsWithin_le_nhds (s := Ioi 0))
    simpa using this

theorem sign_cases {z1 z2 : ℝ} (h : z1 < z2) (h1 : z1 ≤ 0) (h2 : 0 ≤ z2) {c : ℝ} (hc : c ≠ 0) :
    Real.arctan (c * Real.sign z2) - Real.arctan (c * Real.sign z1) ≠ 0 := by
  have ha : Real.arctan c ≠ 0 := by rwa [Ne, Real.arctan_eq_zero_iff]
  rcases eq_or_lt_of_le h1 with h1 | h1
  · subst h1
    rw [Real.sign_zero, Real.sign_of_pos h, mul_zero, Real.arctan_zero, mul_one, sub_zero]
    exact ha
  · rcases eq_or_lt_of_le h2 with h2 | h2
    · subst h2
      rw [Real.sign_zero, Real.sign_of_neg h1, mul_zero, Real.arctan_zero, mul_neg_one, Real.arctan_neg]
      simpa using ha
    · rw [Real.sign_of_neg h1, Real.sign_of_pos h2, mul_neg_one, Real.arctan_neg, mul_one]
      intro h0
      exact ha (by linarith)

theorem Dv_sub (K K' : ℝ → ℝ → ℝ → ℝ) (x1 x2 y1 y2 z1 z2 : ℝ) :
    D3 (fun x y z => K x y z - K' x y z) x1 x2 y1 y2 z1 z2 = D3 K x1 x2 y1 y2 z1 z2 - D3 K' x1 x2 y1 y2 z1 z2 := by
  simp only [D3]; ring

/-- at a vertical edge `gravity_ee` has no limit from outside -/
theorem no_limit_ee_U (hP : P.Proper) (h : p ∈ P.edgesU) (v : ℝ) :
    ¬Tendsto (fun q => Vc .ee q P) (𝓝[P.regionᶜ] p) (𝓝 v) := by
  intro hv
  obtain ⟨o1, o2, o3⟩ := hP
  simp only [Box.edgesU, Set.mem_ofPred_eq, Set.mem_Icc] at h
  obtain ⟨he, hn, hu1, hu2⟩ := h
  obtain ⟨a, ha, hout⟩ : ∃ a : ℝ, a ≠ 0 ∧ ∀ t > 0, ∀ y z : ℝ, ((p.e + a * t, y, z) : Pt) ∉ P.region := by
    rcases he with he | he
    · refine ⟨-1, by norm_num, fun t ht y z hr => ?_⟩
      have := hr.1.1
      simp only [he] at this
      linarith
    · refine ⟨1, by norm_num, fun t ht y z hr => ?_⟩
      have := hr.1.2
      simp only [he] at this
      linarith
  have path : ∀ b : ℝ, Tendsto (fun t : ℝ => ((p.e + a * t, p.n + b * t, p.u) : Pt)) (𝓝[>] 0) (𝓝[P.regionᶜ] p) := by
    intro b
    apply tendsto_nhdsWithin_of_tendsto_nhds_of_eventually_within
    · have hc : Continuous fun t : ℝ => ((p.e + a * t, p.n + b * t, p.u) : Pt) := by fun_prop
      have := hc.tendsto 0
      simp only [mul_zero, add_zero] at this
      exact this.mono_left nhdsWithin_le_nhds
    · filter_upwards [self_mem_nhdsWithin] with t ht using hout t ht _ _
  have hdiff := (hv.comp (path 1)).sub (hv.comp (path 0))
  rw [sub_self] at hdiff
  set δ : ℝ → ℝ → ℝ → ℝ := fun x y z => if x = 0 ∧ y = 0 then Real.arctan (1 / a * Real.sign z) else 0 with hδ
  have hlim : Tendsto (fun t => Vc .ee ((p.e + a * t, p.n + 1 * t, p.u) : Pt) P
        - Vc .ee ((p.e + a * t, p.n + 0 * t, p.u) : Pt) P) (𝓝[>] 0)
      (𝓝 (-D3 δ (P.west - p.e) (P.east - p.e) (P.south - p.n) (P.north - p.n) (P.bottom - p.u) (P.top - p.u))) := by
    have T : ∀ x y z, Tendsto (fun t => Tk (x - a * t) (y - 1 * t) z - Tk (x - a * t) y z) (𝓝[>] 0)
        (𝓝 (δ x y z)) := fun x y z => tk_diff x y z a 1 ha
    have hD : Tendsto (fun t => -D3 (fun x y z => Tk (x - a * t) (y - 1 * t) z - Tk (x - a * t) y z)
        (P.west - p.e) (P.east - p.e) (P.south - p.n) (P.north - p.n) (P.bottom - p.u) (P.top - p.u)) (𝓝[>] 0)
      (𝓝 (-D3 δ (P.west - p.e) (P.east - p.e) (P.south - p.n) (P.north - p.n) (P.bottom - p.u) (P.top - p.u))) := by
      unfold D3
      exact (((((T _ _ _).sub (T _ _ _)).sub ((T _ _ _).sub (T _ _ _)))).sub
        (((T _ _ _).sub (T _ _ _)).sub ((T _ _ _).sub (T _ _ _)))).neg
    refine hD.congr' ?_
    filter_upwards [self_mem_nhdsWithin] with t ht
    have c0 : ∀ y z : ℝ, corr .ee ((p.e + a * t, y, z) : Pt) P = 0 := fun y z => by
      have : ((p.e + a * t, y, z) : Pt) ∉ P.faceEast := fun hf => hout t ht y z (by
        refine ⟨?_, ⟨hf.2.1.1.le, hf.2.1.2.le⟩, ⟨hf.2.2.1.le, hf.2.2.2.le⟩⟩
        have := hf.1
        simp only [Pt.e] at this ⊢
        rw [this]
        exact ⟨o1.le, le_rfl⟩)
      simp only [corr, if_neg this]
    simp only [Vc, c0, add_zero, Dv, D3, Kc, Pt.e, Pt.n, Pt.u, zero_mul, one_mul]
    have r1 : ∀ w x s : ℝ, w - (x + s) = w - x - s := fun w x s => by ring
    simp only [r1]
    ring
  have huniq := tendsto_nhds_unique hdiff hlim
  have hne := sign_cases (z1 := P.bottom - p.u) (z2 := P.top - p.u) (by linarith) (by linarith) (by linarith)
    (c := 1 / a) (one_div_ne_zero ha)
  have we : P.west - P.east ≠ 0 := by linarith
  have we' : P.east - P.west ≠ 0 := by linarith
  have sn : P.south - P.north ≠ 0 := by linarith
  have sn' : P.north - P.south ≠ 0 := by linarith
  apply hne
  rcases he with he | he <;> rcases hn with hn | hn <;>
  · simp only [hδ, D3, he, hn, sub_self, we, we', sn, sn', and_self, if_true, and_false, if_false,
      and_true, sub_zero, zero_sub, neg_neg] at huniq
    linarith

theorem no_limit_swap {c : GComp} (s : Swap)
    (h : ∀ v, ¬Tendsto (fun q => Vc (c.swap s) q (P.swap s)) (𝓝[(P.swap s).regionᶜ] (p.swap s)) (𝓝 v)) (v : ℝ) :
    ¬Tendsto (fun q => Vc c q P) (𝓝[P.regionᶜ] p) (𝓝 v) := by
  intro hv
  refine h v ?_
  have ss : ∀ q : Pt, (q.swap s).swap s = q := fun q => by cases s <;> rfl
  have hs : Tendsto (fun q : Pt => q.swap s) (𝓝[(P.swap s).regionᶜ] (p.swap s)) (𝓝[P.regionᶜ] p) := by
    apply tendsto_nhdsWithin_of_tendsto_nhds_of_eventually_within
    · have := ((Pt.continuous_swap s).tendsto (p.swap s)).mono_left
        (nhdsWithin_le_nhds (s := (P.swap s).regionᶜ))
      rwa [ss] at this
    · filter_upwards [self_mem_nhdsWithin] with q hq
      intro h'
      apply hq
      have := (region_swap (p := q.swap s) (P := P) s).2 h'
      rwa [ss] at this
  refine (hv.comp hs).congr fun q => ?_
  simp only [Function.comp]
  rw [← Vc_swap _ _ c s, ss]

theorem no_limit_ee (hP : P.Proper) (h : p ∈ P.singular .ee) (v : ℝ) :
    ¬Tendsto (fun q => Vc .ee q P) (𝓝[P.regionᶜ] p) (𝓝 v) := by
  have hP' : (P.swap .nu).Proper := ⟨hP.1, hP.2.2, hP.2.1⟩
  simp only [Box.singular, Set.mem_union] at h
  have n : p ∈ P.edgesN → ¬Tendsto (fun q => Vc .ee q P) (𝓝[P.regionᶜ] p) (𝓝 v) := fun h =>
    no_limit_swap (c := .ee) .nu (fun v => no_limit_ee_U hP' ((edgesU_swap_nu p P).2 h) v) v
  rcases h with h | h
  · first | exact n h | exact no_limit_ee_U hP h v
  · first | exact n h | exact no_limit_ee_U hP h v

/-- the diagonal components have no limit from outside at the points where they are undefined -/
theorem no_limit_diag (hP : P.Proper) (a : Axis) (h : p ∈ P.singular (tensor a a)) (v : ℝ) :
    ¬Tendsto (fun q => Vc (tensor a a) q P) (𝓝[P.regionᶜ] p) (𝓝 v) := by
  have sw : ∀ {P : Box} (s : Swap), P.Proper → (P.swap s).Proper := by
    rintro P (_ | _ | _) ⟨h1, h2, h3⟩
    · exact ⟨h2, h1, h3⟩
    · exact ⟨h3, h2, h1⟩
    · exact ⟨h1, h3, h2⟩
  cases a
  · exact no_limit_ee hP h v
  · exact no_limit_swap (c := .nn) .en
      (fun v => no_limit_ee (sw .en hP) ((singular_swap p P GComp.nn .en).2 h) v) v
  · exact no_limit_swap (c := .uu) .eu
      (fun v => no_limit_ee (sw .eu hP) ((singular_swap p P GComp.uu .eu).2 h) v) v

end Choclo
