import Verif.Spec.Depth
import Verif.Props.HalfSpace

/-! # C141: bounds on depth and mass from values at one point -/

namespace Choclo

open Real Set MeasureTheory

variable {P : Box} {a : Axis} {h : ℝ} {p q : Pt}

theorem DepthRules.zero (a : Axis) (h : ℝ) : DepthRules a h 0 (fun _ => 0) := by
  constructor <;> simp

theorem DepthRules.add (hh : 0 ≤ h) {x y : ℝ} {F G : GComp → ℝ} (hF : DepthRules a h x F) (hG : DepthRules a h y G) :
    DepthRules a h (x + y) (fun c => F c + G c) := by
  have n : |F a.acc + G a.acc| = |F a.acc| + |G a.acc| := by
    rw [abs_of_nonpos (add_nonpos hF.attracts hG.attracts), abs_of_nonpos hF.attracts, abs_of_nonpos hG.attracts]; ring
  have t : ∀ c, |F c + G c| ≤ |F c| + |G c| := fun c => abs_add_le _ _
  refine ⟨add_nonpos hF.attracts hG.attracts, ?_, fun b hb => ?_, fun b c => ?_, fun b c hb => ?_, ?_, ?_⟩
  · rw [n]; linarith [hF.normal, hG.normal]
  · have := mul_le_mul_of_nonneg_left (t b.acc) (show 0 ≤ 2 * h by linarith)
    linarith [hF.sideways b hb, hG.sideways b hb]
  · have := mul_le_mul_of_nonneg_left (t (tensor b c)) hh
    rw [n]; linarith [hF.gradient b c, hG.gradient b c]
  · have := mul_le_mul_of_nonneg_left (t (tensor b c)) (show 0 ≤ 2 * h by linarith)
    rw [n]; linarith [hF.offDiagonal b c hb, hG.offDiagonal b c hb]
  · rw [n]; linarith [hF.mass, hG.mass]
  · linarith [hF.massPotential, hG.massPotential]

theorem DepthRules.sum {ι : Type*} (hh : 0 ≤ h) (s : Finset ι) {x : ι → ℝ} {F : ι → GComp → ℝ}
    (hF : ∀ i, DepthRules a h (x i) (F i)) : DepthRules a h (∑ i ∈ s, x i) (fun c => ∑ i ∈ s, F i c) := by
  classical
  induction s using Finset.induction_on with
  | empty => simpa using DepthRules.zero a h
  | insert i s hi ih => simpa only [Finset.sum_insert hi] using (hF i).add hh ih

theorem DepthRules.smul {x k : ℝ} (hk : 0 ≤ k) {F : GComp → ℝ} (hF : DepthRules a h x F) :
    DepthRules a h (k * x) (fun c => k * F c) := by
  have m : ∀ c, |k * F c| = k * |F c| := fun c => by rw [abs_mul, abs_of_nonneg hk]
  refine ⟨mul_nonpos_of_nonneg_of_nonpos hk hF.attracts, ?_, fun b hb => ?_, fun b c => ?_, fun b c hb => ?_, ?_, ?_⟩ <;>
    try simp only [m]
  · nlinarith [mul_le_mul_of_nonneg_left hF.normal hk]
  · nlinarith [mul_le_mul_of_nonneg_left (hF.sideways b hb) hk]
  · nlinarith [mul_le_mul_of_nonneg_left (hF.gradient b c) hk]
  · nlinarith [mul_le_mul_of_nonneg_left (hF.offDiagonal b c hb) hk]
  · nlinarith [mul_le_mul_of_nonneg_left hF.mass hk]
  · nlinarith [mul_le_mul_of_nonneg_left hF.massPotential hk]

theorem dist3_sum_sq (p q : Pt) : dist3 p q ^ 2 = (p.e - q.e) ^ 2 + (p.n - q.n) ^ 2 + (p.u - q.u) ^ 2 := by
  unfold dist3; rw [Real.sq_sqrt (by positivity)]

theorem two_coords {a b : Axis} (hab : b ≠ a) (p q : Pt) :
    (p.coord b - q.coord b) ^ 2 + (p.coord a - q.coord a) ^ 2 ≤ dist3 p q ^ 2 := by
  rw [dist3_sum_sq]
  cases a <;> cases b <;> simp only [Pt.coord] <;>
    first | exact absurd rfl hab | nlinarith [sq_nonneg (p.e - q.e), sq_nonneg (p.n - q.n), sq_nonneg (p.u - q.u)]

theorem kern2_off {b c : Axis} (hbc : b ≠ c) {p q : Pt} :
    kpp (kern2 b c) p q = 3 * ((p.coord b - q.coord b) * (p.coord c - q.coord c)) / dist3 p q ^ 5 := by
  cases b <;> cases c <;> first | exact absurd rfl hbc |
    (simp only [kern2, kpp, kp, dist3_eq_rad, Pt.coord]; ring)

/-- one unit source -/
theorem rules_unit (hh : 0 < h) (hd : q.coord a + h ≤ p.coord a) : DepthRules a h 1 (fun c => kpp c.toK p q) := by
  have hne : p ≠ q := by rintro rfl; linarith
  have d := dist3_pos hne
  have z : 0 < p.coord a - q.coord a := by linarith
  have zd : p.coord a - q.coord a ≤ dist3 p q := (le_abs_self _).trans (dist_ge p q a)
  have V : kpp GComp.pot.toK p q = 1 / dist3 p q := by
    simp only [GComp.toK, kpp, kp, dist3_eq_rad, pow_one]
  have g : ∀ b : Axis, |kpp b.acc.toK p q| = |p.coord b - q.coord b| / dist3 p q ^ 3 := fun b => by
    rw [kpp_acc_dist, abs_div, abs_of_pos (pow_pos d 3), abs_sub_comm]
  have ga : |kpp a.acc.toK p q| = (p.coord a - q.coord a) / dist3 p q ^ 3 := by rw [g, abs_of_pos z]
  have T : ∀ b c, |kpp (tensor b c).toK p q| ≤ 2 / dist3 p q ^ 3 := fun b c => by
    rw [tensor_toK]; exact abs_kern2_le c b hne
  constructor
  · show kpp a.acc.toK p q ≤ 0
    rw [kpp_acc_dist]
    exact div_nonpos_of_nonpos_of_nonneg (by linarith) (pow_pos d 3).le
  · show h * |kpp a.acc.toK p q| ≤ kpp GComp.pot.toK p q
    rw [ga, V, ← mul_div_assoc, div_le_div_iff₀ (pow_pos d 3) d]
    have : h * (p.coord a - q.coord a) ≤ dist3 p q ^ 2 := by nlinarith
    nlinarith
  · intro b hb
    show 2 * h * |kpp b.acc.toK p q| ≤ kpp GComp.pot.toK p q
    rw [g, V, ← mul_div_assoc, div_le_div_iff₀ (pow_pos d 3) d]
    have k := two_coords hb p q
    rw [← sq_abs (p.coord b - q.coord b)] at k
    have : 2 * h * |p.coord b - q.coord b| ≤ dist3 p q ^ 2 := by
      nlinarith [sq_nonneg (|p.coord b - q.coord b| - (p.coord a - q.coord a)),
        mul_le_mul_of_nonneg_right (show h ≤ p.coord a - q.coord a by linarith) (abs_nonneg (p.coord b - q.coord b))]
    nlinarith
  · intro b c
    show h * |kpp (tensor b c).toK p q| ≤ 2 * |kpp a.acc.toK p q|
    rw [ga]
    refine (mul_le_mul_of_nonneg_left (T b c) hh.le).trans ?_
    rw [← mul_div_assoc, ← mul_div_assoc]
    gcongr ?_ / _
    linarith
  · intro b c hbc
    show 2 * h * |kpp (tensor b c).toK p q| ≤ 3 * |kpp a.acc.toK p q|
    rw [ga, tensor_toK, kern2_off hbc.symm, abs_div, abs_of_pos (pow_pos d 5), abs_mul, abs_of_pos (by norm_num : (0:ℝ) < 3), abs_mul,
      ← mul_div_assoc, ← mul_div_assoc, div_le_div_iff₀ (pow_pos d 5) (pow_pos d 3)]
    have k := two_coords hbc p q
    rw [← sq_abs (p.coord b - q.coord b), ← sq_abs (p.coord c - q.coord c)] at k
    have k2 : 2 * (|p.coord c - q.coord c| * |p.coord b - q.coord b|) ≤ dist3 p q ^ 2 := by
      nlinarith [sq_nonneg (|p.coord b - q.coord b| - |p.coord c - q.coord c|)]
    have k3 : 2 * h * (|p.coord c - q.coord c| * |p.coord b - q.coord b|) ≤ (p.coord a - q.coord a) * dist3 p q ^ 2 := by
      have := mul_le_mul (show h ≤ p.coord a - q.coord a by linarith) k2 (by positivity) z.le
      linarith
    have := mul_le_mul_of_nonneg_left k3 (show 0 ≤ 3 * dist3 p q ^ 3 by positivity)
    linarith
  · show h ^ 2 * |kpp a.acc.toK p q| ≤ 1
    rw [ga, ← mul_div_assoc, div_le_one (pow_pos d 3)]
    have : h ^ 2 ≤ dist3 p q ^ 2 := pow_le_pow_left₀ hh.le (by linarith) 2
    calc h ^ 2 * (p.coord a - q.coord a) ≤ dist3 p q ^ 2 * dist3 p q := mul_le_mul this zd z.le (by positivity)
      _ = dist3 p q ^ 3 := by ring
  · show h * kpp GComp.pot.toK p q ≤ 1
    rw [V, mul_one_div, div_le_one d]
    linarith

theorem lower_off_region (hh : 0 < h) (hd : P.hi a + h ≤ p.coord a) : p ∉ P.region := fun hm => by
  have := (coord_mem_region hm a).2
  linarith

/-- a prism of unit density -/
theorem rules_prism (hP : P.Ordered) (hh : 0 < h) (hd : P.hi a + h ≤ p.coord a) :
    DepthRules a h P.volume (fun c => Vc c p P) := by
  have off := lower_off_region hh hd
  have r : ∀ q ∈ P.region, DepthRules a h 1 (fun c => kpp c.toK p q) := fun q hq =>
    rules_unit hh (by linarith [(coord_mem_region hq a).2])
  have i := fun c : GComp => integrableOn_kpp (P := P) c.toK off
  have ms := (isCompact_region P).measurableSet
  have e := fun c : GComp => Vc_outside hP c off
  have fin : IsFiniteMeasure (volume.restrict P.region : Measure Pt) :=
    ⟨by rw [Measure.restrict_apply_univ]; exact (isCompact_region P).measure_lt_top⟩
  have vol : ∫ _q in P.region, (1:ℝ) = P.volume := by
    rw [setIntegral_const, volume_region hP, smul_eq_mul, mul_one]
  have ab : ∀ c, |Vc c p P| ≤ ∫ q in P.region, |kpp c.toK p q| := fun c => by rw [e]; exact abs_integral_le_integral_abs
  have na : |Vc a.acc p P| = ∫ q in P.region, |kpp a.acc.toK p q| := by
    rw [e, setIntegral_congr_fun (g := fun q => -kpp a.acc.toK p q) ms (fun q hq => abs_of_nonpos (r q hq).attracts), integral_neg,
      abs_of_nonpos]
    exact setIntegral_nonpos ms fun q hq => (r q hq).attracts
  constructor
  · show Vc a.acc p P ≤ 0
    rw [e]; exact setIntegral_nonpos ms fun q hq => (r q hq).attracts
  · show h * |Vc a.acc p P| ≤ Vc .pot p P
    rw [na, e, ← integral_const_mul]
    exact setIntegral_mono_on ((i _).abs.const_mul _) (i _) ms fun q hq => (r q hq).normal
  · intro b hb
    show 2 * h * |Vc b.acc p P| ≤ Vc .pot p P
    refine (mul_le_mul_of_nonneg_left (ab _) (by linarith)).trans ?_
    rw [e, ← integral_const_mul]
    exact setIntegral_mono_on ((i _).abs.const_mul _) (i _) ms fun q hq => (r q hq).sideways b hb
  · intro b c
    show h * |Vc (tensor b c) p P| ≤ 2 * |Vc a.acc p P|
    refine (mul_le_mul_of_nonneg_left (ab _) hh.le).trans ?_
    rw [na, ← integral_const_mul, ← integral_const_mul]
    exact setIntegral_mono_on ((i _).abs.const_mul _) ((i _).abs.const_mul _) ms fun q hq => (r q hq).gradient b c
  · intro b c hbc
    show 2 * h * |Vc (tensor b c) p P| ≤ 3 * |Vc a.acc p P|
    refine (mul_le_mul_of_nonneg_left (ab _) (by linarith)).trans ?_
    rw [na, ← integral_const_mul, ← integral_const_mul]
    exact setIntegral_mono_on ((i _).abs.const_mul _) ((i _).abs.const_mul _) ms fun q hq => (r q hq).offDiagonal b c hbc
  · show h ^ 2 * |Vc a.acc p P| ≤ P.volume
    rw [na, ← integral_const_mul, ← vol]
    exact setIntegral_mono_on ((i _).abs.const_mul _) (integrable_const _) ms fun q hq => (r q hq).mass
  · show h * Vc .pot p P ≤ P.volume
    rw [e, ← integral_const_mul, ← vol]
    exact setIntegral_mono_on ((i _).const_mul _) (integrable_const _) ms fun q hq => (r q hq).massPotential

/-! ## C141 -/

/-- **Depth and mass from values at one point, prisms.**  For every model made of prisms of non-negative densities, all of them at
least `h` below an observation point in the direction of an axis, the sums of the returned values satisfy the depth and mass
rules. -/
theorem C141_prisms {ι : Type*} [Fintype ι] {P : ι → Box} {ρ : ι → ℝ} (hP : ∀ i, (P i).Ordered) (hρ : ∀ i, 0 ≤ ρ i)
    (hh : 0 < h) (hd : ∀ i, (P i).hi a + h ≤ p.coord a) :
    ∃ f : GComp → ι → ℝ, (∀ c i, Returns (onPrism (A := Exact) (prismGravity c) p (P i) (ρ i)) (f c i)) ∧
      DepthRules a h (6.6743e-11 * ∑ i, ρ i * (P i).volume) (fun c => ∑ i, f c i) := by
  refine ⟨fun c i => Gc * ρ i * Vc c p (P i),
    fun c i => Ex.gravity_returns (hP i) (exterior_singular (hP i) (lower_off_region hh (hd i)) c) (ρ i), ?_⟩
  have := DepthRules.sum hh.le Finset.univ fun i =>
    (rules_prism (hP i) hh (hd i)).smul (k := Gc * ρ i) (mul_nonneg Gc_pos.le (hρ i))
  have e : 6.6743e-11 * ∑ i, ρ i * (P i).volume = ∑ i, Gc * ρ i * (P i).volume := by
    rw [Finset.mul_sum]; refine Finset.sum_congr rfl fun i _ => ?_
    rw [Gc]; ring
  rw [e]
  exact this

/-- **Depth and mass from values at one point, point masses.** -/
theorem C141_points {ι : Type*} [Fintype ι] {q : ι → Pt} {m : ι → ℝ} (hm : ∀ i, 0 ≤ m i)
    (hh : 0 < h) (hd : ∀ i, (q i).coord a + h ≤ p.coord a) :
    ∃ f : GComp → ι → ℝ, (∀ c i, Returns (onPair (A := Exact) (pointGravity c) p (q i) (m i)) (f c i)) ∧
      DepthRules a h (6.6743e-11 * ∑ i, m i) (fun c => ∑ i, f c i) := by
  refine ⟨fun c i => Gc * m i * kpp c.toK p (q i), fun c i => Ex.pointGravity_fin c (fun e => ?_) (m i), ?_⟩
  · have := hd i; rw [e] at this; linarith
  have := DepthRules.sum hh.le Finset.univ fun i =>
    (rules_unit hh (hd i)).smul (k := Gc * m i) (mul_nonneg Gc_pos.le (hm i))
  have e : 6.6743e-11 * ∑ i, m i = ∑ i, Gc * m i * 1 := by
    rw [Finset.mul_sum]; refine Finset.sum_congr rfl fun i _ => ?_
    rw [Gc]; ring
  rw [e]
  exact this

/-- **The depth of the shallowest source.**  Whatever the model, its top is no deeper than twice the ratio of the normal
acceleration to any gradient component (1.5 times for off-diagonal ones) at any point above it. -/
theorem C141_depth {ι : Type*} [Fintype ι] {P : ι → Box} {ρ : ι → ℝ} (hP : ∀ i, (P i).Ordered) (hρ : ∀ i, 0 ≤ ρ i)
    (habove : ∀ i, (P i).hi a < p.coord a) {b c : Axis} {g T : ι → ℝ}
    (hg : ∀ i, Returns (onPrism (A := Exact) (prismGravity a.acc) p (P i) (ρ i)) (g i))
    (hT : ∀ i, Returns (onPrism (A := Exact) (prismGravity (tensor b c)) p (P i) (ρ i)) (T i)) (hne : ∑ i, T i ≠ 0) :
    ∃ i, p.coord a - (P i).hi a ≤ 2 * |∑ i, g i| / |∑ i, T i| ∧
      (b ≠ c → p.coord a - (P i).hi a ≤ 3 / 2 * |∑ i, g i| / |∑ i, T i|) := by
  have ne : (Finset.univ : Finset ι).Nonempty := by
    rw [Finset.nonempty_iff_ne_empty]
    intro e
    exact hne (by rw [e, Finset.sum_empty])
  obtain ⟨j, -, hj⟩ := Finset.exists_min_image Finset.univ (fun i => p.coord a - (P i).hi a) ne
  have hh : 0 < p.coord a - (P j).hi a := by linarith [habove j]
  obtain ⟨f, hf, R⟩ := C141_prisms (h := p.coord a - (P j).hi a) hP hρ hh (fun i => by linarith [hj i (Finset.mem_univ i)])
  have e1 : g = f a.acc := funext fun i => (hg i).inj (hf _ i)
  have e2 : T = f (tensor b c) := funext fun i => (hT i).inj (hf _ i)
  have t0 : 0 < |∑ i, T i| := abs_pos.2 hne
  refine ⟨j, ?_, fun hbc => ?_⟩
  · rw [le_div_iff₀ t0, e1, e2]
    exact R.gradient b c
  · rw [le_div_iff₀ t0, e1, e2]
    have := R.offDiagonal b c hbc
    beta_reduce at this
    linarith

/-- **The rules are sharp.**  Straight above a point mass at depth `h`, four of them hold with equality. -/
theorem C141_sharp (hh : 0 < h) (q : Pt) (m : ℝ) :
    ∃ V g T : ℝ, Returns (onPair (A := Exact) (pointGravity .pot) (q.set a (q.coord a + h)) q m) V ∧
      Returns (onPair (A := Exact) (pointGravity a.acc) (q.set a (q.coord a + h)) q m) g ∧
      Returns (onPair (A := Exact) (pointGravity (tensor a a)) (q.set a (q.coord a + h)) q m) T ∧
      h * g = -V ∧ h * T = -(2 * g) ∧ h ^ 2 * g = -(6.6743e-11 * m) ∧ h * V = 6.6743e-11 * m := by
  have hne : q.set a (q.coord a + h) ≠ q := fun e => by
    have := congrArg (fun x => Pt.coord x a) e
    beta_reduce at this
    rw [show (q.set a (q.coord a + h)).coord a = q.coord a + h by cases a <;> rfl] at this
    linarith
  have hr : dist3 (q.set a (q.coord a + h)) q = h := by
    unfold dist3
    rw [show ((q.set a (q.coord a + h)).e - q.e) ^ 2 + ((q.set a (q.coord a + h)).n - q.n) ^ 2
      + ((q.set a (q.coord a + h)).u - q.u) ^ 2 = h ^ 2 by
        cases a <;> simp only [Pt.set, Pt.coord, Pt.e, Pt.n, Pt.u] <;> ring, Real.sqrt_sq hh.le]
  have k1 : kpp a.acc.toK (q.set a (q.coord a + h)) q = -(1 / h ^ 2) := by
    rw [kpp_acc_dist, hr, show (q.set a (q.coord a + h)).coord a = q.coord a + h by cases a <;> rfl]
    field_simp; ring
  have k0 : kpp GComp.pot.toK (q.set a (q.coord a + h)) q = 1 / h := by
    have : kpp GComp.pot.toK (q.set a (q.coord a + h)) q = 1 / dist3 (q.set a (q.coord a + h)) q := by
      simp only [GComp.toK, kpp, kp, dist3_eq_rad, pow_one]
    rw [this, hr]
  have k2 : kpp (tensor a a).toK (q.set a (q.coord a + h)) q = 2 / h ^ 3 := by
    have : kpp (tensor a a).toK (q.set a (q.coord a + h)) q =
        3 * ((q.set a (q.coord a + h)).coord a - q.coord a) ^ 2 / dist3 (q.set a (q.coord a + h)) q ^ 5
          - 1 / dist3 (q.set a (q.coord a + h)) q ^ 3 := by
      cases a <;> simp only [tensor, GComp.toK, kpp, kp, dist3_eq_rad, Pt.coord] <;> ring
    rw [this, hr, show (q.set a (q.coord a + h)).coord a = q.coord a + h by cases a <;> rfl]
    field_simp; ring
  refine ⟨Gc * m * (1 / h), Gc * m * -(1 / h ^ 2), Gc * m * (2 / h ^ 3), ?_, ?_, ?_, ?_, ?_, ?_, ?_⟩
  · rw [← k0]; exact Ex.pointGravity_fin .pot hne m
  · rw [← k1]; exact Ex.pointGravity_fin a.acc hne m
  · rw [← k2]; exact Ex.pointGravity_fin (tensor a a) hne m
  all_goals rw [Gc]; field_simp

/-- The other two are sharp too: at the depth `h` and the sideways distance `h` from a point mass. -/
theorem C141_sharp_sideways {b : Axis} (hab : b ≠ a) (hh : 0 < h) (q : Pt) (m : ℝ) :
    ∃ V ga gb T : ℝ,
      Returns (onPair (A := Exact) (pointGravity .pot) ((q.set a (q.coord a + h)).set b (q.coord b + h)) q m) V ∧
      Returns (onPair (A := Exact) (pointGravity a.acc) ((q.set a (q.coord a + h)).set b (q.coord b + h)) q m) ga ∧
      Returns (onPair (A := Exact) (pointGravity b.acc) ((q.set a (q.coord a + h)).set b (q.coord b + h)) q m) gb ∧
      Returns (onPair (A := Exact) (pointGravity (tensor b a)) ((q.set a (q.coord a + h)).set b (q.coord b + h)) q m) T ∧
      2 * h * gb = -V ∧ 2 * h * T = -(3 * ga) := by
  obtain ⟨p, hp⟩ : ∃ p, p = (q.set a (q.coord a + h)).set b (q.coord b + h) := ⟨_, rfl⟩
  have ca : p.coord a = q.coord a + h := by
    rw [hp]; cases a <;> cases b <;> first | exact absurd rfl hab | rfl
  have cb : p.coord b = q.coord b + h := by rw [hp]; cases b <;> rfl
  have hne : p ≠ q := fun e => by rw [e] at ca; linarith
  have d := dist3_pos hne
  have hr : dist3 p q ^ 2 = 2 * h ^ 2 := by
    rw [dist3_sum_sq, hp]
    cases a <;> cases b <;> first | exact absurd rfl hab |
      (simp only [Pt.set, Pt.coord, Pt.e, Pt.n, Pt.u]; ring)
  rw [← hp]
  have k0 : kpp GComp.pot.toK p q = 1 / dist3 p q := by simp only [GComp.toK, kpp, kp, dist3_eq_rad, pow_one]
  have ka : kpp a.acc.toK p q = -(h / dist3 p q ^ 3) := by rw [kpp_acc_dist, ca]; ring
  have kb : kpp b.acc.toK p q = -(h / dist3 p q ^ 3) := by rw [kpp_acc_dist, cb]; ring
  have kt : kpp (tensor b a).toK p q = 3 * (h * h) / dist3 p q ^ 5 := by
    rw [tensor_toK, kern2_off hab.symm, ca, cb]; ring
  refine ⟨Gc * m * (1 / dist3 p q), Gc * m * -(h / dist3 p q ^ 3), Gc * m * -(h / dist3 p q ^ 3),
    Gc * m * (3 * (h * h) / dist3 p q ^ 5), ?_, ?_, ?_, ?_, ?_, ?_⟩
  · rw [← k0]; exact Ex.pointGravity_fin .pot hne m
  · rw [← ka]; exact Ex.pointGravity_fin a.acc hne m
  · rw [← kb]; exact Ex.pointGravity_fin b.acc hne m
  · rw [← kt]; exact Ex.pointGravity_fin (tensor b a) hne m
  · field_simp
    linear_combination (Gc * m) * hr
  · field_simp
    linear_combination (-(Gc * m)) * hr

/-- non-vacuity: the example prism seen from three metres above it -/
example : exBox.hi .u + 3 ≤ Pt.coord (0, 0, 3) .u ∧ exBox.hi .u < Pt.coord (0, 0, 3) .u := by
  norm_num [exBox, Box.hi, Pt.coord, Pt.u]

end Choclo
