import Verif.Lemmas.TwoD

/-! # C130: the two-dimensional limit of long prisms -/

namespace Choclo

open Real Set MeasureTheory Filter Topology

variable {P : Box}

theorem measurable_lineAcc (a : Axis) (p : Pt) :
    Measurable fun w : ℝ × ℝ => lineAcc a (w.1 - p.e) (w.2 - p.u) := by
  cases a <;> unfold lineAcc <;> fun_prop

theorem measurable_lineTensor (a b : Axis) (p : Pt) :
    Measurable fun w : ℝ × ℝ => lineTensor a b (w.1 - p.e) (w.2 - p.u) := by
  cases a <;> cases b <;> unfold lineTensor <;> fun_prop

theorem section_off {p : Pt} {w : ℝ × ℝ} (h : w ≠ (p.e, p.u)) : 0 < (p.e - w.1) ^ 2 + (p.u - w.2) ^ 2 := by
  rcases eq_or_ne (p.e - w.1) 0 with h1 | h1
  · rcases eq_or_ne (p.u - w.2) 0 with h2 | h2
    · exact absurd (Prod.ext (by simp only; linarith) (by simp only; linarith)) h
    · positivity
  · positivity

theorem abs_le_reach {lo hi x q : ℝ} (h1 : lo ≤ x) (h2 : x ≤ hi) : |q - x| ≤ max |lo - q| |hi - q| := by
  rw [abs_le]
  have a1 := neg_abs_le (lo - q)
  have a2 := le_abs_self (hi - q)
  have m1 := le_max_left |lo - q| |hi - q|
  have m2 := le_max_right |lo - q| |hi - q|
  constructor <;> linarith

/-- the acceleration of the mass elements along the strike, against the infinite lines -/
theorem Vacc_twoD (hP : P.Ordered) {p : Pt} {L : ℝ} (hL : 0 < L) (hl : P.Long p L) :
    (∀ a, IntegrableOn (fun w : ℝ × ℝ => lineAcc a (w.1 - p.e) (w.2 - p.u)) P.section) ∧
    |Vc .e p P - ∫ w in P.section, lineAcc .e (w.1 - p.e) (w.2 - p.u)| ≤
      max |P.west - p.e| |P.east - p.e| / L ^ 2 * P.sectionArea ∧
    |Vc .u p P - ∫ w in P.section, lineAcc .u (w.1 - p.e) (w.2 - p.u)| ≤
      max |P.bottom - p.u| |P.top - p.u| / L ^ 2 * P.sectionArea ∧
    |Vc .n p P| ≤ 1 / L * P.sectionArea := by
  have ha : p.n - P.north ≤ -L := by linarith [hl.2]
  have hb : L ≤ p.n - P.south := hl.1
  have low := fun a : Axis => integral_low hP a.acc (by cases a <;> decide) p
  have e1 : ∀ w : ℝ × ℝ, w.1 - p.e = -(p.e - w.1) := fun w => by ring
  have e2 : ∀ w : ℝ × ℝ, w.2 - p.u = -(p.u - w.2) := fun w => by ring
  have he := strike_integral hP (low .e).1 (measurable_lineAcc .e p) (w0 := (p.e, p.u))
    (C := max |P.west - p.e| |P.east - p.e| / L ^ 2) (by
      intro w hw h0
      rw [strike_kpp, e1, e2]
      refine ((line_acc_err (section_off h0) hL ha hb).1).trans ?_
      gcongr
      exact abs_le_reach hw.1.1 hw.1.2)
  have hu := strike_integral hP (low .u).1 (measurable_lineAcc .u p) (w0 := (p.e, p.u))
    (C := max |P.bottom - p.u| |P.top - p.u| / L ^ 2) (by
      intro w hw h0
      rw [strike_kpp, e1, e2]
      refine ((line_acc_err (section_off h0) hL ha hb).2.1).trans ?_
      gcongr
      exact abs_le_reach hw.2.1 hw.2.2)
  have hn := strike_integral hP (low .n).1 (measurable_lineAcc .n p) (w0 := (p.e, p.u)) (C := 1 / L) (by
      intro w hw h0
      rw [strike_kpp]
      have := (line_acc_err (section_off h0) hL ha hb).2.2
      simp only [lineAcc, sub_zero]
      exact this)
  rw [(low .e).2] at he
  rw [(low .u).2] at hu
  rw [(low .n).2] at hn
  refine ⟨fun a => ?_, he.2, hu.2, ?_⟩
  · cases a
    · exact he.1
    · exact hn.1
    · exact hu.1
  · have := hn.2
    simp only [lineAcc, integral_zero, sub_zero] at this
    exact this

theorem not_mem_section {p : Pt} {L : ℝ} (hL : 0 < L) (hl : P.Long p L) (h : p ∉ P.region) :
    (p.e, p.u) ∉ P.section := by
  intro h'
  refine h ⟨h'.1, ⟨?_, ?_⟩, h'.2⟩
  · have := hl.1; show P.south ≤ p.n; linarith
  · have := hl.2; show p.n ≤ P.north; linarith

theorem Vtensor_twoD (hP : P.Ordered) {p : Pt} {L : ℝ} (hL : 0 < L) (hl : P.Long p L) (h : p ∉ P.region)
    (a b : Axis) :
    IntegrableOn (fun w : ℝ × ℝ => lineTensor a b (w.1 - p.e) (w.2 - p.u)) P.section ∧
    |Vc (tensor a b) p P - ∫ w in P.section, lineTensor a b (w.1 - p.e) (w.2 - p.u)| ≤
      2 / L ^ 2 * P.sectionArea := by
  have ha : p.n - P.north ≤ -L := by linarith [hl.2]
  have hb : L ≤ p.n - P.south := hl.1
  have e1 : ∀ w : ℝ × ℝ, w.1 - p.e = -(p.e - w.1) := fun w => by ring
  have e2 : ∀ w : ℝ × ℝ, w.2 - p.u = -(p.u - w.2) := fun w => by ring
  have t : Vc (tensor a b) p P = ∫ q in P.region, kpp (kern2 a b) p q := by
    rw [Vc_tensor_integral hP a b h, tensor_toK]
    congr 1; funext q; congr 1; cases a <;> cases b <;> rfl
  rw [t]
  refine strike_integral hP (integrableOn_kpp _ h) (measurable_lineTensor a b p) (w0 := (p.e, p.u)) ?_
  intro w hw h0
  rw [strike_kpp, e1, e2]
  exact line_tensor_err (section_off h0) hL ha hb a b

/-! ## C130 -/

/-- **Long prisms are two-dimensional.**  If a prism reaches at least `L` beyond the observation
point on both sides along northing, its acceleration across the strike is that of its cross-section
filled with infinite lines, up to `G |density| · area · reach / L²` (the reach being the largest
distance, along the component's axis, between the point and the section), and its acceleration along
the strike is at most `G |density| · area / L`.  The point may be anywhere, inside the prism or on its
boundary included. -/
theorem C130_gravity (hP : P.Ordered) (p : Pt) {L : ℝ} (hL : 0 < L) (hl : P.Long p L) (ρ : ℝ) :
    (∀ a, IntegrableOn (fun w : ℝ × ℝ => lineAcc a (w.1 - p.e) (w.2 - p.u)) P.section) ∧
    ∃ g : Axis → ℝ, (∀ a, Returns (onPrism (A := Exact) (prismGravity a.acc) p P ρ) (g a)) ∧
      |g .e - 6.6743e-11 * ρ * ∫ w in P.section, lineAcc .e (w.1 - p.e) (w.2 - p.u)| ≤
        6.6743e-11 * |ρ| * P.sectionArea * max |P.west - p.e| |P.east - p.e| / L ^ 2 ∧
      |g .u - 6.6743e-11 * ρ * ∫ w in P.section, lineAcc .u (w.1 - p.e) (w.2 - p.u)| ≤
        6.6743e-11 * |ρ| * P.sectionArea * max |P.bottom - p.u| |P.top - p.u| / L ^ 2 ∧
      |g .n| ≤ 6.6743e-11 * |ρ| * P.sectionArea / L := by
  obtain ⟨h0, h1, h2, h3⟩ := Vacc_twoD hP hL hl
  have n : 0 ≤ Gc * |ρ| := mul_nonneg Gc_pos.le (abs_nonneg ρ)
  have m : ∀ x y B : ℝ, |x - y| ≤ B → |Gc * ρ * x - Gc * ρ * y| ≤ Gc * |ρ| * B := by
    intro x y B h
    rw [← mul_sub, abs_mul, abs_mul, abs_of_pos Gc_pos]
    exact mul_le_mul_of_nonneg_left h n
  refine ⟨h0, fun a => Gc * ρ * Vc a.acc p P, fun a => acc_returns a p P ρ, ?_, ?_, ?_⟩
  · refine (m _ _ _ h1).trans (le_of_eq ?_)
    rw [Gc]; ring
  · refine (m _ _ _ h2).trans (le_of_eq ?_)
    rw [Gc]; ring
  · have := m (Vc .n p P) 0 _ (by simpa using h3)
    rw [mul_zero, sub_zero] at this
    refine this.trans (le_of_eq ?_)
    rw [Gc]; ring

/-- The gradient tensor outside the prism: within `2 G |density| · area / L²` of the tensor of the
cross-section filled with infinite lines, every component having the strike in it being that close to
zero. -/
theorem C130_tensor (hP : P.Ordered) (p : Pt) (h : p ∉ P.region) {L : ℝ} (hL : 0 < L) (hl : P.Long p L)
    (a b : Axis) (ρ : ℝ) :
    IntegrableOn (fun w : ℝ × ℝ => lineTensor a b (w.1 - p.e) (w.2 - p.u)) P.section ∧
    ∃ t, Returns (onPrism (A := Exact) (prismGravity (tensor a b)) p P ρ) t ∧
      |t - 6.6743e-11 * ρ * ∫ w in P.section, lineTensor a b (w.1 - p.e) (w.2 - p.u)| ≤
        2 * 6.6743e-11 * |ρ| * P.sectionArea / L ^ 2 := by
  obtain ⟨h0, h1⟩ := Vtensor_twoD hP hL hl h a b
  refine ⟨h0, _, Ex.gravity_returns hP (exterior_singular hP h _) ρ, ?_⟩
  rw [show (6.6743e-11 : ℝ) = Gc from rfl, ← mul_sub, abs_mul, abs_mul, abs_of_pos Gc_pos]
  refine (mul_le_mul_of_nonneg_left h1 (mul_nonneg Gc_pos.le (abs_nonneg ρ))).trans (le_of_eq ?_)
  ring

/-- The magnetic field outside the prism: the magnetization along the strike drops out, the rest is the
field of the cross-section filled with infinite lines of dipoles. -/
theorem C130_magnetic (hP : P.Ordered) (p : Pt) (h : p ∉ P.region) {L : ℝ} (hL : 0 < L) (hl : P.Long p L)
    (a : Axis) (M : Vec) :
    ∃ b, Returns (onPrism (A := Exact) (prismMagnetic a.field) p P M.e M.n M.u) b ∧
      |b - mu0 / 4 / π * ∫ w in P.section, (lineTensor a .e (w.1 - p.e) (w.2 - p.u) * M.e +
          lineTensor a .u (w.1 - p.e) (w.2 - p.u) * M.u)| ≤
        2 * (mu0 / 4 / π) * (|M.e| + |M.n| + |M.u|) * P.sectionArea / L ^ 2 := by
  refine ⟨_, Ex.magnetic_returns hP (exterior_edges hP h) (fun h' => h (inside_subset_region h')) _ _ _, ?_⟩
  have t := fun b => Vtensor_twoD hP hL hl h a b
  have kpos : 0 < mu0 / 4 / π := by have := mu0_pos; positivity
  have tn := (t .n).2
  have hz : (fun w : ℝ × ℝ => lineTensor a .n (w.1 - p.e) (w.2 - p.u)) = fun _ => 0 := by
    cases a <;> rfl
  rw [hz, integral_zero, sub_zero] at tn
  have hi : ∫ w in P.section, (lineTensor a .e (w.1 - p.e) (w.2 - p.u) * M.e +
      lineTensor a .u (w.1 - p.e) (w.2 - p.u) * M.u) =
      (∫ w in P.section, lineTensor a .e (w.1 - p.e) (w.2 - p.u)) * M.e +
      (∫ w in P.section, lineTensor a .u (w.1 - p.e) (w.2 - p.u)) * M.u := by
    rw [integral_add ((t .e).1.mul_const _) ((t .u).1.mul_const _), integral_mul_const, integral_mul_const]
  rw [hi, ← mul_sub, abs_mul, abs_of_pos kpos, Bc_field]
  have te := (t .e).2
  have tu := (t .u).2
  set Ie := ∫ w in P.section, lineTensor a .e (w.1 - p.e) (w.2 - p.u)
  set Iu := ∫ w in P.section, lineTensor a .u (w.1 - p.e) (w.2 - p.u)
  have b1 : |Vc (tensor a .e) p P * M.e - Ie * M.e| ≤ 2 / L ^ 2 * P.sectionArea * |M.e| := by
    rw [← sub_mul, abs_mul]; gcongr
  have b2 : |Vc (tensor a .u) p P * M.u - Iu * M.u| ≤ 2 / L ^ 2 * P.sectionArea * |M.u| := by
    rw [← sub_mul, abs_mul]; gcongr
  have b3 : |Vc (tensor a .n) p P * M.n| ≤ 2 / L ^ 2 * P.sectionArea * |M.n| := by
    rw [abs_mul]; gcongr
  refine (mul_le_mul_of_nonneg_left (c := 2 / L ^ 2 * P.sectionArea * (|M.e| + |M.n| + |M.u|)) ?_ kpos.le).trans
    (le_of_eq (by ring))
  rw [abs_le] at b1 b2 b3 ⊢
  constructor <;> linarith

/-- **The limit.**  Prisms with one and the same cross-section whose southern bounds go to `-∞` and
whose northern bounds go to `+∞`, in whatever way, have accelerations, and outside the section tensors
and magnetic fields, converging to those of the two-dimensional body. -/
theorem C130_limit {ι : Type*} {l : Filter ι} {w e b t : ℝ} (hwe : w ≤ e) (hbt : b ≤ t) {s n : ι → ℝ}
    (hs : Tendsto s l atBot) (hn : Tendsto n l atTop) (p : Pt) (ρ : ℝ) (M : Vec) :
    (∀ a, ∃ g : ι → ℝ,
      (∀ᶠ i in l, Returns (onPrism (A := Exact) (prismGravity (Axis.acc a)) p ⟨w, e, s i, n i, b, t⟩ ρ) (g i)) ∧
      Tendsto g l (𝓝 (6.6743e-11 * ρ * ∫ v in Icc w e ×ˢ Icc b t, lineAcc a (v.1 - p.e) (v.2 - p.u)))) ∧
    ((p.e, p.u) ∉ Icc w e ×ˢ Icc b t →
      (∀ a c, ∃ g : ι → ℝ,
        (∀ᶠ i in l, Returns (onPrism (A := Exact) (prismGravity (tensor a c)) p ⟨w, e, s i, n i, b, t⟩ ρ) (g i)) ∧
        Tendsto g l (𝓝 (6.6743e-11 * ρ * ∫ v in Icc w e ×ˢ Icc b t, lineTensor a c (v.1 - p.e) (v.2 - p.u)))) ∧
      (∀ a, ∃ g : ι → ℝ,
        (∀ᶠ i in l, Returns (onPrism (A := Exact) (prismMagnetic (Axis.field a)) p ⟨w, e, s i, n i, b, t⟩
          M.e M.n M.u) (g i)) ∧
        Tendsto g l (𝓝 (mu0 / 4 / π * ∫ v in Icc w e ×ˢ Icc b t,
          (lineTensor a .e (v.1 - p.e) (v.2 - p.u) * M.e + lineTensor a .u (v.1 - p.e) (v.2 - p.u) * M.u))))) := by
  -- the shorter of the two lengths
  set L : ι → ℝ := fun i => min (p.n - s i) (n i - p.n) with hLdef
  have hL : Tendsto L l atTop := by
    rw [tendsto_atTop]
    intro K
    filter_upwards [(tendsto_atBot.1 hs) (p.n - K), (tendsto_atTop.1 hn) (K + p.n)] with i h1 h2
    rw [hLdef]
    exact le_min (by linarith) (by linarith)
  have pos : ∀ᶠ i in l, 0 < L i := hL.eventually_gt_atTop 0
  have long : ∀ i, (⟨w, e, s i, n i, b, t⟩ : Box).Long p (L i) := fun i => ⟨min_le_left _ _, min_le_right _ _⟩
  have ord : ∀ᶠ i in l, (⟨w, e, s i, n i, b, t⟩ : Box).Ordered := by
    filter_upwards [pos] with i hi
    refine ⟨hwe, ?_, hbt⟩
    have h1 := (long i).1
    have h2 := (long i).2
    simp only at h1 h2 ⊢
    linarith
  have z1 : ∀ C : ℝ, Tendsto (fun i => C / L i) l (𝓝 0) := fun C => hL.const_div_atTop C
  have z2 : ∀ C : ℝ, Tendsto (fun i => C / L i ^ 2) l (𝓝 0) := fun C =>
    ((tendsto_pow_atTop (two_ne_zero)).comp hL).const_div_atTop C
  -- from a bound to the limit
  have fin : ∀ (F : ι → Py (Fl Exact)) (I : ℝ) (D : ι → ℝ), Tendsto D l (𝓝 0) →
      (∀ᶠ i in l, ∃ g, Returns (F i) g ∧ |g - I| ≤ D i) →
      ∃ g : ι → ℝ, (∀ᶠ i in l, Returns (F i) (g i)) ∧ Tendsto g l (𝓝 I) := by
    classical
    intro F I D hD h
    refine ⟨fun i => if hi : ∃ g, Returns (F i) g ∧ |g - I| ≤ D i then hi.choose else I, ?_, ?_⟩
    · filter_upwards [h] with i hi
      rw [dif_pos hi]; exact hi.choose_spec.1
    · rw [tendsto_iff_norm_sub_tendsto_zero]
      refine squeeze_zero' (Eventually.of_forall fun i => norm_nonneg _) ?_ hD
      filter_upwards [h] with i hi
      rw [dif_pos hi]; exact hi.choose_spec.2
  refine ⟨fun a => ?_, fun hp => ⟨fun a c => ?_, fun a => ?_⟩⟩
  · cases a
    · refine fin _ _ _ (z2 (6.6743e-11 * |ρ| * ((e - w) * (t - b)) * max |w - p.e| |e - p.e|)) ?_
      filter_upwards [pos, ord] with i h1 h2
      obtain ⟨-, g, hg, h3, -, -⟩ := C130_gravity h2 p h1 (long i) ρ
      exact ⟨g .e, hg .e, h3⟩
    · refine fin _ _ _ (z1 (6.6743e-11 * |ρ| * ((e - w) * (t - b)))) ?_
      filter_upwards [pos, ord] with i h1 h2
      obtain ⟨-, g, hg, -, -, h3⟩ := C130_gravity h2 p h1 (long i) ρ
      refine ⟨g .n, hg .n, ?_⟩
      simp only [lineAcc, integral_zero, mul_zero, sub_zero]
      exact h3
    · refine fin _ _ _ (z2 (6.6743e-11 * |ρ| * ((e - w) * (t - b)) * max |b - p.u| |t - p.u|)) ?_
      filter_upwards [pos, ord] with i h1 h2
      obtain ⟨-, g, hg, -, h3, -⟩ := C130_gravity h2 p h1 (long i) ρ
      exact ⟨g .u, hg .u, h3⟩
  · refine fin _ _ _ (z2 (2 * 6.6743e-11 * |ρ| * ((e - w) * (t - b)))) ?_
    filter_upwards [pos, ord] with i h1 h2
    exact (C130_tensor h2 p (fun h => hp ⟨h.1, h.2.2⟩) h1 (long i) a c ρ).2
  · refine fin _ _ _ (z2 (2 * (mu0 / 4 / π) * (|M.e| + |M.n| + |M.u|) * ((e - w) * (t - b)))) ?_
    filter_upwards [pos, ord] with i h1 h2
    exact C130_magnetic h2 p (fun h => hp ⟨h.1, h.2.2⟩) h1 (long i) a M

/-- the hypotheses are met: a prism 2 km long with a section of 2 m by 2 m, seen from 3 m above its
middle; the vertical attraction of the two-dimensional body is not zero there (every line pulls
downwards), and the families of the limit exist -/
example : (⟨-1, 1, -1000, 1000, -2, 0⟩ : Box).Ordered ∧ (⟨-1, 1, -1000, 1000, -2, 0⟩ : Box).Long (0, 0, 3) 1000 ∧
    ((0, 0, 3) : Pt) ∉ (⟨-1, 1, -1000, 1000, -2, 0⟩ : Box).region ∧
    (∀ w ∈ (⟨-1, 1, -1000, 1000, -2, 0⟩ : Box).section, lineAcc .u (w.1 - 0) (w.2 - 3) < 0) ∧
    Tendsto (fun i : ℝ => -i) atTop atBot ∧ Tendsto (fun i : ℝ => i) atTop atTop := by
  refine ⟨?_, ?_, ?_, ?_, tendsto_neg_atTop_atBot, tendsto_id⟩
  · norm_num [Box.Ordered]
  · norm_num [Box.Long, Pt.n]
  · norm_num [Box.region]
  · intro w hw
    have h := hw.2.2
    simp only at h
    unfold lineAcc
    have : w.2 - 3 < 0 := by linarith
    have h2 : 0 < (w.1 - 0) ^ 2 + (w.2 - 3) ^ 2 := by have := pow_pos (neg_pos.2 this) 2; nlinarith [sq_nonneg (w.1 - 0)]
    exact div_neg_of_neg_of_pos (by linarith) h2

end Choclo
