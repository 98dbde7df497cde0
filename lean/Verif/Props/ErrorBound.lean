import Verif.Lemmas.ErrorPoint
import Verif.Lemmas.PointEval
import Verif.Model.Binary64
import Verif.Lemmas.Mag
import Verif.Lemmas.ErrorDipole

/-! # C50, C51, C54: rounding errors -/

namespace Choclo

variable {A : Arith} {u lo hi : ℝ}

theorem nearOf (h : A.Accurate u lo hi) {k : ℕ} (hk : k ≤ 64) {call : Py (Fl A)} {x : ℝ}
    (hc : ∃ v, call = .ok v ∧ Approx u k v x) : ReturnsNear call x (gammaErr u k) := by
  obtain ⟨v, e, hv⟩ := hc
  obtain ⟨y, rfl, hy⟩ := h.bound hv (by
    have h1 : (k : ℝ) ≤ 64 := by exact_mod_cast hk
    have := h.u_small
    have := h.u_nonneg
    nlinarith)
  exact ⟨y, e, hy⟩

theorem gammaErr_mono (h : A.Accurate u lo hi) {k l : ℕ} (hkl : k ≤ l) (hl : l ≤ 64) :
    gammaErr u k ≤ gammaErr u l := by
  have h1 : (k : ℝ) ≤ l := by exact_mod_cast hkl
  have h2 : (l : ℝ) ≤ 64 := by exact_mod_cast hl
  have h3 := h.u_small
  have h4 := h.u_nonneg
  have h5 : (k : ℝ) * u ≤ l * u := mul_le_mul_of_nonneg_right h1 h4
  have h6 : (l : ℝ) * u < 1 := by nlinarith
  have h7 : (0 : ℝ) ≤ k * u := by positivity
  unfold gammaErr
  exact div_le_div₀ (by linarith) h5 (by linarith) (by linarith)

theorem ReturnsNear.weaken (h : A.Accurate u lo hi) {call : Py (Fl A)} {x : ℝ} {k l : ℕ} (hkl : k ≤ l)
    (hl : l ≤ 64) (hn : ReturnsNear call x (gammaErr u k)) : ReturnsNear call x (gammaErr u l) := by
  obtain ⟨y, e, hy⟩ := hn
  exact ⟨y, e, hy.trans (mul_le_mul_of_nonneg_right (gammaErr_mono h hkl hl) (abs_nonneg x))⟩

theorem withinOf (h : A.Accurate u lo hi) {k : ℕ} (hk : k ≤ 64) {call : Py (Fl A)} {x B : ℝ}
    (hc : ∃ v, call = .ok v ∧ AbsApprox u k v x B) : ReturnsWithin call x (gammaErr u k * B) := by
  obtain ⟨v, e, hv⟩ := hc
  obtain ⟨y, rfl, hy⟩ := h.absBound hv (by
    have h1 : (k : ℝ) ≤ 64 := by exact_mod_cast hk
    have := h.u_small
    have := h.u_nonneg
    nlinarith)
  exact ⟨y, e, hy⟩

/-- **C50.** `distance_cartesian` has relative error at most `γ₄ ≈ 4u` in any arithmetic with unit
roundoff `u`, if no intermediate result over- or underflows. -/
theorem C50_distance (h : A.Accurate u lo hi) (p q : Pt)
    (hs : ∀ t ∈ distanceSteps p q, InSafeRange lo hi t) :
    ReturnsNear (onPair (A := A) utils.distance_cartesian p q) (dist3 p q) (gammaErr u 4) :=
  nearOf h (by norm_num) (h.distance hs)

/-- run the distance first -/
theorem bindNear {f : Fl A → Py (Fl A)} {p q : Pt} {k : ℕ} {x : ℝ} (h : A.Accurate u lo hi)
    (hs : ∀ t ∈ distanceSteps p q, InSafeRange lo hi t)
    (hf : ∀ d, Approx u 4 d (dist3 p q) → ∃ v, f d = .ok v ∧ Approx u k v x) :
    ∃ v, (onPair (A := A) utils.distance_cartesian p q >>= f) = .ok v ∧ Approx u k v x := by
  obtain ⟨d, e, hd⟩ := h.distance hs
  obtain ⟨v, e', hv⟩ := hf d hd
  exact ⟨v, by rw [e]; exact e', hv⟩

theorem bindWithin {f : Fl A → Py (Fl A)} {p q : Pt} {k : ℕ} {x B : ℝ} (h : A.Accurate u lo hi)
    (hs : ∀ t ∈ distanceSteps p q, InSafeRange lo hi t)
    (hf : ∀ d, Approx u 4 d (dist3 p q) → ∃ v, f d = .ok v ∧ AbsApprox u k v x B) :
    ∃ v, (onPair (A := A) utils.distance_cartesian p q >>= f) = .ok v ∧ AbsApprox u k v x B := by
  obtain ⟨d, e, hd⟩ := h.distance hs
  obtain ⟨v, e', hv⟩ := hf d hd
  exact ⟨v, by rw [e]; exact e', hv⟩

/-- **C50.** `point.gravity_pot` has relative error at most `γ₈ ≈ 8u`. -/
theorem C50_potential (h : A.Accurate u lo hi) (p q : Pt) (hpq : p ≠ q) (m : ℝ)
    (hs : ∀ t ∈ distanceSteps p q ++ potSteps p q m, InSafeRange lo hi t) :
    ReturnsNear (onPair (A := A) point.gravity_pot p q m) (6.6743e-11 * m / dist3 p q)
      (gammaErr u 8) := by
  have hd : dist3 p q ≠ 0 := fun h' => hpq (dist3_eq_zero.mp h')
  rw [List.forall_mem_append] at hs
  obtain ⟨hs, hs'⟩ := hs
  simp only [potSteps, List.mem_cons, List.not_mem_nil, or_false, forall_eq_or_imp, forall_eq] at hs'
  obtain ⟨s1, s2, s3, s4⟩ := hs'
  refine nearOf h (by norm_num) ?_
  rw [show (6.6743e-11 * m / dist3 p q : ℝ) = Gc * m * (1 / dist3 p q) by unfold Gc; ring]
  refine bindNear h hs fun d hdv => ?_
  obtain ⟨v, e, hv⟩ := h.inv_distance hd hdv s3
  exact h.finish (k := 5) (by norm_num) s1 s2 s4 ⟨v, by rw [← e]; rfl, hv⟩

/-- **C50.** `point.gravity_e`, `gravity_n` and `gravity_u` have relative error at most `γ₁₉ ≈ 19u`:
the sign and the leading digits of the acceleration are always right. -/
theorem C50_acceleration (h : A.Accurate u lo hi) (a : Axis) (p q : Pt) (hpq : p ≠ q) (m : ℝ)
    (hs : ∀ t ∈ distanceSteps p q ++ accSteps p q (p.coord a - q.coord a) m, InSafeRange lo hi t) :
    ReturnsNear (onPair (A := A) (pointGravity a.acc) p q m)
      (-(6.6743e-11 * m * (p.coord a - q.coord a)) / dist3 p q ^ 3) (gammaErr u 19) := by
  have hd : dist3 p q ≠ 0 := fun h' => hpq (dist3_eq_zero.mp h')
  rw [List.forall_mem_append] at hs
  obtain ⟨hs, hs'⟩ := hs
  simp only [accSteps, List.mem_cons, List.not_mem_nil, or_false, forall_eq_or_imp, forall_eq] at hs'
  obtain ⟨s1, s2, s3, s4, s5⟩ := hs'
  refine nearOf h (by norm_num) ?_
  rw [show (-(6.6743e-11 * m * (p.coord a - q.coord a)) / dist3 p q ^ 3 : ℝ)
    = Gc * m * (-(p.coord a - q.coord a) / dist3 p q ^ 3) by unfold Gc; ring]
  have hdiff : InSafeRange lo hi (p.coord a - q.coord a) := by
    cases a <;> apply hs <;> simp [distanceSteps, Pt.coord]
  cases a <;>
  · refine bindNear h hs fun d hdv => ?_
    obtain ⟨v, e, hv⟩ := h.acc_kernel hd hdv hdiff s3 s4
    exact h.finish (k := 16) (by norm_num) s1 s2 s5 ⟨v, by rw [← e]; rfl, hv⟩

/-- **C50.** The off-diagonal components `point.gravity_en/eu/nu` have relative error at most
`γ₃₂ ≈ 32u`. -/
theorem C50_off_diagonal (h : A.Accurate u lo hi) (c : GComp) (a b : Axis)
    (hc : (c, a, b) ∈ [(GComp.en, Axis.e, Axis.n), (.eu, .e, .u), (.nu, .n, .u)])
    (p q : Pt) (hpq : p ≠ q) (m : ℝ)
    (hs : ∀ t ∈ distanceSteps p q ++
      offDiagSteps p q (p.coord a - q.coord a) (p.coord b - q.coord b) m, InSafeRange lo hi t) :
    ReturnsNear (onPair (A := A) (pointGravity c) p q m)
      (6.6743e-11 * m * (3 * (p.coord a - q.coord a) * (p.coord b - q.coord b)) / dist3 p q ^ 5)
      (gammaErr u 32) := by
  have hd : dist3 p q ≠ 0 := fun h' => hpq (dist3_eq_zero.mp h')
  rw [List.forall_mem_append] at hs
  obtain ⟨hs, hs'⟩ := hs
  simp only [offDiagSteps, List.mem_cons, List.not_mem_nil, or_false, forall_eq_or_imp, forall_eq] at hs'
  obtain ⟨s1, s2, s3, s4, s5, s6, s7⟩ := hs'
  refine nearOf h (by norm_num) ?_
  rw [show (6.6743e-11 * m * (3 * (p.coord a - q.coord a) * (p.coord b - q.coord b)) / dist3 p q ^ 5 : ℝ)
    = Gc * m * (3 * (p.coord a - q.coord a) * (p.coord b - q.coord b) / dist3 p q ^ 5) by unfold Gc; ring]
  have hdiff : ∀ a : Axis, InSafeRange lo hi (p.coord a - q.coord a) := by
    intro a; cases a <;> apply hs <;> simp [distanceSteps, Pt.coord]
  have ha := hdiff a
  have hb := hdiff b
  simp only [List.mem_cons, Prod.mk.injEq, List.not_mem_nil, or_false] at hc
  rcases hc with ⟨rfl, rfl, rfl⟩ | ⟨rfl, rfl, rfl⟩ | ⟨rfl, rfl, rfl⟩ <;>
  · refine bindNear h hs fun d hdv => ?_
    obtain ⟨v, e, hv⟩ := h.off_kernel hd hdv ha hb s3 s4 s5 s6
    exact h.finish (k := 29) (by norm_num) s1 s2 s7 ⟨v, by rw [← e]; rfl, hv⟩

/-- **C54.** The diagonal components `point.gravity_ee/nn/uu` have an absolute error of at most
`4 γ₃₃ G |m| / d³` (their two terms can cancel, so there is no relative bound). -/
theorem C54_diagonal (h : A.Accurate u lo hi) (a : Axis) (p q : Pt) (hpq : p ≠ q) (m : ℝ)
    (hs : ∀ t ∈ distanceSteps p q ++ diagSteps p q (p.coord a - q.coord a) m, InSafeRange lo hi t) :
    ReturnsWithin (onPair (A := A) (pointGravity a.diag) p q m)
      (6.6743e-11 * m * (3 * (p.coord a - q.coord a) ^ 2 / dist3 p q ^ 5 - 1 / dist3 p q ^ 3))
      (gammaErr u 33 * (4 * (6.6743e-11 * |m| / dist3 p q ^ 3))) := by
  have hd0 : dist3 p q ≠ 0 := fun h' => hpq (dist3_eq_zero.mp h')
  have hd : 0 < dist3 p q := lt_of_le_of_ne (Real.sqrt_nonneg _) (Ne.symm hd0)
  rw [List.forall_mem_append] at hs
  obtain ⟨hs, hs'⟩ := hs
  simp only [diagSteps, List.mem_cons, List.not_mem_nil, or_false, forall_eq_or_imp, forall_eq] at hs'
  obtain ⟨s1, s2, s3, s4, s5, s6, s7, s8, s9, s10⟩ := hs'
  have hdiff : InSafeRange lo hi (p.coord a - q.coord a) := by
    cases a <;> apply hs <;> simp [distanceSteps, Pt.coord]
  have hle : (p.coord a - q.coord a) ^ 2 ≤ dist3 p q ^ 2 := by
    unfold dist3
    rw [Real.sq_sqrt (by positivity)]
    have := sq_nonneg (p.e - q.e)
    have := sq_nonneg (p.n - q.n)
    have := sq_nonneg (p.u - q.u)
    cases a <;> simp only [Pt.coord] <;> linarith
  have hB : |Gc * m| * (3 * (p.coord a - q.coord a) ^ 2 / dist3 p q ^ 5 + 1 / dist3 p q ^ 3)
      ≤ 4 * (6.6743e-11 * |m| / dist3 p q ^ 3) := by
    have h1 : 3 * (p.coord a - q.coord a) ^ 2 / dist3 p q ^ 5 ≤ 3 / dist3 p q ^ 3 := by
      rw [div_le_div_iff₀ (by positivity) (by positivity)]
      have : dist3 p q ^ 5 = dist3 p q ^ 2 * dist3 p q ^ 3 := by ring
      rw [this]
      have h3 : 0 < dist3 p q ^ 3 := by positivity
      nlinarith
    rw [abs_mul, show |Gc| = 6.6743e-11 by unfold Gc; exact abs_of_pos (by norm_num)]
    calc _ ≤ 6.6743e-11 * |m| * (3 / dist3 p q ^ 3 + 1 / dist3 p q ^ 3) := by gcongr
      _ = _ := by ring
  refine withinOf h (by norm_num) ?_
  rw [show (6.6743e-11 : ℝ) = Gc from rfl]
  rw [show (6.6743e-11 : ℝ) = Gc from rfl] at hB
  cases a <;>
  · refine bindWithin h hs fun d hdv => ?_
    obtain ⟨v, e, hv⟩ := h.diag_kernel hd hdv hdiff s3 s4 s5 s6 s7 s8 s9
    obtain ⟨w, e', hw⟩ := h.absFinish (k := 30) (by norm_num) s1 s2 s10 ⟨v, e, hv⟩
    exact ⟨w, by rw [← e']; rfl, h.absMono le_rfl hB hw⟩

/-! ## Dipole -/

theorem cauchy_schwarz_abs (a b c x y z : ℝ) :
    |a * x| + |b * y| + |c * z| ≤ Real.sqrt (a ^ 2 + b ^ 2 + c ^ 2) * Real.sqrt (x ^ 2 + y ^ 2 + z ^ 2) := by
  rw [← Real.sqrt_mul (by positivity)]
  apply Real.le_sqrt_of_sq_le
  rw [abs_mul, abs_mul, abs_mul, ← sq_abs a, ← sq_abs b, ← sq_abs c, ← sq_abs x, ← sq_abs y, ← sq_abs z]
  nlinarith [sq_nonneg (|a| * |y| - |b| * |x|), sq_nonneg (|a| * |z| - |c| * |x|),
    sq_nonneg (|b| * |z| - |c| * |y|)]

theorem coord_le_norm (p : Pt) (a : Axis) :
    |p.coord a| ≤ Real.sqrt (p.e ^ 2 + p.n ^ 2 + p.u ^ 2) := by
  apply Real.abs_le_sqrt
  have := sq_nonneg p.e
  have := sq_nonneg p.n
  have := sq_nonneg p.u
  cases a <;> simp only [Pt.coord] <;> linarith

/-- **C55.** Every component of the dipole field (`dipole.magnetic_e/n/u`) has an absolute error of
at most `4 γ₃₈ (μ₀/4π) |m| / d³`. -/
theorem C55_dipole (h : A.Accurate u lo hi) (hp : A.PiAccurate u) (a : Axis) (p q : Pt) (hpq : p ≠ q)
    (m : Pt) (hs : ∀ t ∈ distanceSteps p q ++ dipoleSteps p q m (p.coord a - q.coord a) (m.coord a),
      InSafeRange lo hi t) :
    ReturnsWithin (onPair (A := A) (dipoleMagnetic a) p q m.e m.n m.u)
      (1.25663706212e-06 / 4 / Real.pi *
        (3 * (m.e * (p.e - q.e) + m.n * (p.n - q.n) + m.u * (p.u - q.u)) * (p.coord a - q.coord a)
          / dist3 p q ^ 5 - m.coord a / dist3 p q ^ 3))
      (gammaErr u 38 * (4 * (1.25663706212e-06 / 4 / Real.pi * dist3 m (0, 0, 0) / dist3 p q ^ 3))) := by
  have hd0 : dist3 p q ≠ 0 := fun h' => hpq (dist3_eq_zero.mp h')
  have hd : 0 < dist3 p q := lt_of_le_of_ne (Real.sqrt_nonneg _) (Ne.symm hd0)
  rw [List.forall_mem_append] at hs
  obtain ⟨hs, hs'⟩ := hs
  have hdiff : InSafeRange lo hi (p.coord a - q.coord a) := by
    cases a <;> apply hs <;> simp [distanceSteps, Pt.coord]
  refine withinOf h (by norm_num) ?_
  rw [show (1.25663706212e-06 : ℝ) = mu0 from rfl]
  have hm : dist3 m (0, 0, 0) = Real.sqrt (m.e ^ 2 + m.n ^ 2 + m.u ^ 2) := by
    unfold dist3; simp only [Pt.e, Pt.n, Pt.u, sub_zero]
  have hcs : |m.e * (p.e - q.e)| + |m.n * (p.n - q.n)| + |m.u * (p.u - q.u)|
      ≤ dist3 m (0, 0, 0) * dist3 p q := by
    rw [hm]; exact cauchy_schwarz_abs _ _ _ _ _ _
  have hca : |p.coord a - q.coord a| ≤ dist3 p q := by
    have := coord_le_norm (p - q) a
    cases a <;> exact this
  have hma : |m.coord a| ≤ dist3 m (0, 0, 0) := by rw [hm]; exact coord_le_norm m a
  have hmu : 0 < mu0 / 4 / Real.pi := by
    have := Real.pi_pos
    unfold mu0
    positivity
  have hB : mu0 / 4 / Real.pi * (3 * (|m.e * (p.e - q.e)| + |m.n * (p.n - q.n)| + |m.u * (p.u - q.u)|)
          * |p.coord a - q.coord a| / dist3 p q ^ 5 + |m.coord a / dist3 p q ^ 3|)
      ≤ 4 * (mu0 / 4 / Real.pi * dist3 m (0, 0, 0) / dist3 p q ^ 3) := by
    have hM : 0 ≤ dist3 m (0, 0, 0) := Real.sqrt_nonneg _
    rw [abs_div, abs_of_pos (by positivity : 0 < dist3 p q ^ 3)]
    calc _ ≤ mu0 / 4 / Real.pi * (3 * (dist3 m (0, 0, 0) * dist3 p q) * dist3 p q / dist3 p q ^ 5
            + dist3 m (0, 0, 0) / dist3 p q ^ 3) := by gcongr
      _ = _ := by field_simp; ring
  cases a <;>
  · obtain ⟨v, e, hv⟩ := h.dipole_comp hp hd hdiff hs hs'
    exact ⟨v, by rw [← e]; rfl, h.absMono le_rfl hB hv⟩

/-! ## Prism kernels -/

theorem docIII_swap (x y z r : ℝ) : docIII x y z r = docIII x z y r := by
  unfold docIII
  rw [mul_comm (x ^ 2 + y ^ 2)]
  congr 2
  ring

theorem third_order (h : A.Accurate u lo hi) {k : ℕ} (hk : k ≤ 4) (c : PKComp) (hc : c.thirdOrder)
    (x y z r : ℝ) (hr : r ≠ 0) {rv : Fl A} (hrv : Approx u k rv r)
    (hs : ∀ t ∈ thirdOrderSteps c x y z r, InSafeRange lo hi t) :
    ∃ v, prismKernel (A := A) c x y z rv = .ok v ∧ Approx u (13 + k) v (docKernel c x y z r) := by
  have up : ∀ {call : Py (Fl A)} {X : ℝ} {j : ℕ}, j ≤ 13 →
      (∃ v, call = .ok v ∧ Approx u (j + k) v X) → ∃ v, call = .ok v ∧ Approx u (13 + k) v X := by
    rintro call X j hj ⟨v, e, hv⟩
    exact ⟨v, e, h.mono (by omega) hv⟩
  cases c <;> try exact hc.elim
  case eee => exact h.iii hk hr hrv hs
  case nnn => exact h.iii hk hr hrv hs
  case uuu =>
    simp only [docKernel]
    rw [docIII_swap]
    exact h.iii hk hr hrv hs
  case enu => exact up (by norm_num) (h.enu hk hr hrv (hs _ (by simp [thirdOrderSteps])) (x : Fl A) (y : Fl A) (z : Fl A))
  all_goals exact up (j := 5) (by norm_num) (h.iij hk hr hrv hs)

/-- **C51.** The ten third-order prism kernels have relative error at most `γ₁₃ ≈ 13u` with respect
to their documented closed forms, for all shifted coordinates and every non-zero radius argument:
no cancellation, however close to an edge the point is. -/
theorem C51_third_order (h : A.Accurate u lo hi) (c : PKComp) (hc : c.thirdOrder)
    (x y z r : ℝ) (hr : r ≠ 0) (hs : ∀ t ∈ thirdOrderSteps c x y z r, InSafeRange lo hi t) :
    ReturnsNear (prismKernel (A := A) c x y z r) (docKernel c x y z r) (gammaErr u 13) :=
  nearOf h (by norm_num) (third_order h (k := 0) (by norm_num) c hc x y z r hr (h.exact r) hs)

/-- **C51.** The same with the radius computed in the same arithmetic, as the callers of the
kernels do: relative error at most `γ₁₆` with respect to the exact radius. -/
theorem C51_third_order_radius (h : A.Accurate u lo hi) (c : PKComp) (hc : c.thirdOrder)
    (x y z r : ℝ) (hr : r = Real.sqrt (x ^ 2 + y ^ 2 + z ^ 2)) (hr0 : r ≠ 0)
    (hs : ∀ t ∈ [x ^ 2, y ^ 2, z ^ 2, x ^ 2 + y ^ 2, x ^ 2 + y ^ 2 + z ^ 2, r] ++
      thirdOrderSteps c x y z r, InSafeRange lo hi t) :
    ReturnsNear
      (prismKernel (A := A) c x y z (Fl.sqrt ((x : Fl A) ^ 2 + (y : Fl A) ^ 2 + (z : Fl A) ^ 2)))
      (docKernel c x y z r) (gammaErr u 16) := by
  rw [List.forall_mem_append] at hs
  obtain ⟨hs, hs'⟩ := hs
  refine nearOf h (by norm_num) (third_order h (k := 3) (by norm_num) c hc x y z r hr0 ?_ hs')
  rw [hr] at hs ⊢
  exact h.radius hs

/-! ## IEEE double precision -/

theorem gamma_double {k : ℕ} {e : ℤ} (hk : k ≤ 64) (hke : (k : ℝ) * 2 ^ (-52 : ℤ) ≤ 2 ^ e) :
    gammaErr (2 ^ (-53 : ℤ)) k ≤ 2 ^ e := by
  refine le_trans ?_ hke
  unfold gammaErr
  have h1 : (k : ℝ) ≤ 64 := by exact_mod_cast hk
  have e2 : (2 : ℝ) ^ (-52 : ℤ) = 2 * 2 ^ (-53 : ℤ) := by norm_num
  have h3 : (2 : ℝ) ^ (-53 : ℤ) ≤ 1 / 128 := by norm_num
  have h0 := Mag.zp (-53)
  rw [e2]
  generalize (2 : ℝ) ^ (-53 : ℤ) = u at *
  have h4 : (k : ℝ) * u ≤ 1 / 2 := by nlinarith
  have hk0 : (0 : ℝ) ≤ k := Nat.cast_nonneg k
  rw [div_le_iff₀ (by linarith)]
  nlinarith [mul_nonneg hk0 h0.le]

theorem near_double {k : ℕ} {e : ℤ} (hk : k ≤ 64) (hke : (k : ℝ) * 2 ^ (-52 : ℤ) ≤ 2 ^ e)
    {call : Py (Fl A)} {x : ℝ} (h : ReturnsNear call x (gammaErr (2 ^ (-53 : ℤ)) k)) :
    ReturnsNear call x (2 ^ e) := by
  obtain ⟨y, e, hy⟩ := h
  exact ⟨y, e, hy.trans (mul_le_mul_of_nonneg_right (gamma_double hk hke) (abs_nonneg x))⟩

theorem mag_dist {p q : Pt} (hΔ : ∀ a : Axis, ModerateSize (p.coord a - q.coord a)) :
    Mag (-80) 81 (dist3 p q) := by
  have he : Mag (-80) 80 (p.e - q.e) := hΔ .e
  have hn : Mag (-80) 80 (p.n - q.n) := hΔ .n
  have hu : Mag (-80) 80 (p.u - q.u) := hΔ .u
  unfold dist3
  apply Mag.sqrt
  have h1 := (he.pow two_ne_zero).add (hn.pow two_ne_zero) (sq_nonneg _) (sq_nonneg _)
  exact (h1.add ((hu.pow two_ne_zero).weaken le_rfl (by norm_num)) (by positivity) (sq_nonneg _)).weaken
    (by norm_num) (by norm_num)

theorem safe_distance {p q : Pt} (hΔ : ∀ a : Axis, ModerateSize (p.coord a - q.coord a)) :
    ∀ t ∈ distanceSteps p q, InSafeRange (2 ^ (-1022 : ℤ)) (2 ^ (1023 : ℤ)) t := by
  have he : Mag (-80) 80 (p.e - q.e) := hΔ .e
  have hn : Mag (-80) 80 (p.n - q.n) := hΔ .n
  have hu : Mag (-80) 80 (p.u - q.u) := hΔ .u
  have h1 := (he.pow two_ne_zero).add (hn.pow two_ne_zero) (sq_nonneg _) (sq_nonneg _)
  have h2 := h1.add ((hu.pow two_ne_zero).weaken le_rfl (by norm_num)) (by positivity) (sq_nonneg _)
  simp only [distanceSteps, List.mem_cons, List.not_mem_nil, or_false, forall_eq_or_imp, forall_eq]
  exact ⟨he.safe (by norm_num) (by norm_num), hn.safe (by norm_num) (by norm_num),
    hu.safe (by norm_num) (by norm_num), (he.pow two_ne_zero).safe (by norm_num) (by norm_num),
    (hn.pow two_ne_zero).safe (by norm_num) (by norm_num),
    (hu.pow two_ne_zero).safe (by norm_num) (by norm_num),
    h1.safe (by norm_num) (by norm_num), h2.safe (by norm_num) (by norm_num),
    (mag_dist hΔ).safe (by norm_num) (by norm_num)⟩

/-- **C50, in IEEE double precision.** For points whose coordinate differences, and masses, have
moderate size, distance, potential, acceleration and off-diagonal tensor are accurate to about 15
decimal digits. -/
theorem C50_double (p q : Pt) (hpq : p ≠ q) (m : ℝ)
    (hΔ : ∀ a : Axis, ModerateSize (p.coord a - q.coord a)) (hm : ModerateSize m) :
    ReturnsNear (onPair (A := Binary64) utils.distance_cartesian p q) (dist3 p q) (2 ^ (-50 : ℤ)) ∧
    ReturnsNear (onPair (A := Binary64) point.gravity_pot p q m) (6.6743e-11 * m / dist3 p q)
      (2 ^ (-49 : ℤ)) ∧
    (∀ a : Axis, ReturnsNear (onPair (A := Binary64) (pointGravity a.acc) p q m)
      (-(6.6743e-11 * m * (p.coord a - q.coord a)) / dist3 p q ^ 3) (2 ^ (-47 : ℤ))) ∧
    (∀ c a b, (c, a, b) ∈ [(GComp.en, Axis.e, Axis.n), (.eu, .e, .u), (.nu, .n, .u)] →
      ReturnsNear (onPair (A := Binary64) (pointGravity c) p q m)
        (6.6743e-11 * m * (3 * (p.coord a - q.coord a) * (p.coord b - q.coord b)) / dist3 p q ^ 5)
        (2 ^ (-47 : ℤ))) := by
  have hd := mag_dist hΔ
  have hs := safe_distance hΔ
  have hm' : Mag (-80) 80 m := hm
  have hgm := Mag.gc.mul hm'
  have hinv := Mag.one.div hd
  refine ⟨?_, ?_, fun a => ?_, fun c a b hc => ?_⟩
  · exact near_double (by norm_num) (by norm_num) (C50_distance Binary64_accurate p q hs)
  · refine near_double (k := 8) (by norm_num) (by norm_num) (C50_potential Binary64_accurate p q hpq m ?_)
    rw [List.forall_mem_append]
    refine ⟨hs, ?_⟩
    simp only [potSteps, List.mem_cons, List.not_mem_nil, or_false, forall_eq_or_imp, forall_eq]
    exact ⟨Mag.gc.safe (by norm_num) (by norm_num), hgm.safe (by norm_num) (by norm_num),
      hinv.safe (by norm_num) (by norm_num), (hgm.mul hinv).safe (by norm_num) (by norm_num)⟩
  · have hda : Mag (-80) 80 (p.coord a - q.coord a) := hΔ a
    have hd3 := hd.pow three_ne_zero
    refine near_double (k := 19) (by norm_num) (by norm_num)
      (C50_acceleration Binary64_accurate a p q hpq m ?_)
    rw [List.forall_mem_append]
    refine ⟨hs, ?_⟩
    simp only [accSteps, List.mem_cons, List.not_mem_nil, or_false, forall_eq_or_imp, forall_eq]
    exact ⟨Mag.gc.safe (by norm_num) (by norm_num), hgm.safe (by norm_num) (by norm_num),
      hd3.safe (by norm_num) (by norm_num), (hda.neg.div hd3).safe (by norm_num) (by norm_num),
      (hgm.mul (hda.neg.div hd3)).safe (by norm_num) (by norm_num)⟩
  · have hda : Mag (-80) 80 (p.coord a - q.coord a) := hΔ a
    have hdb : Mag (-80) 80 (p.coord b - q.coord b) := hΔ b
    have hd5 := hd.pow (n := 5) (by norm_num)
    have h3 := Mag.three.mul hda
    refine near_double (k := 32) (by norm_num) (by norm_num)
      (C50_off_diagonal Binary64_accurate c a b hc p q hpq m ?_)
    rw [List.forall_mem_append]
    refine ⟨hs, ?_⟩
    simp only [offDiagSteps, List.mem_cons, List.not_mem_nil, or_false, forall_eq_or_imp, forall_eq]
    exact ⟨Mag.gc.safe (by norm_num) (by norm_num), hgm.safe (by norm_num) (by norm_num),
      h3.safe (by norm_num) (by norm_num), (h3.mul hdb).safe (by norm_num) (by norm_num),
      hd5.safe (by norm_num) (by norm_num), ((h3.mul hdb).div hd5).safe (by norm_num) (by norm_num),
      (hgm.mul ((h3.mul hdb).div hd5)).safe (by norm_num) (by norm_num)⟩

/-- **C54, in IEEE double precision.** -/
theorem C54_double (a : Axis) (p q : Pt) (hpq : p ≠ q) (m : ℝ)
    (hΔ : ∀ a : Axis, ModerateSize (p.coord a - q.coord a)) (hm : ModerateSize m) :
    ReturnsWithin (onPair (A := Binary64) (pointGravity a.diag) p q m)
      (6.6743e-11 * m * (3 * (p.coord a - q.coord a) ^ 2 / dist3 p q ^ 5 - 1 / dist3 p q ^ 3))
      (2 ^ (-44 : ℤ) * (6.6743e-11 * |m| / dist3 p q ^ 3)) := by
  have hd := mag_dist hΔ
  have hs := safe_distance hΔ
  have hm' : Mag (-80) 80 m := hm
  have hgm := Mag.gc.mul hm'
  have hda : Mag (-80) 80 (p.coord a - q.coord a) := hΔ a
  have hd5 := hd.pow (n := 5) (by norm_num)
  have hd3 := hd.pow (n := 3) (by norm_num)
  have hd0 : 0 ≤ dist3 p q := Real.sqrt_nonneg _
  have h3 := Mag.three.mul (hda.pow two_ne_zero)
  have hq := h3.div hd5
  have hi := Mag.one.div hd3
  have hsum := (hq.weaken (a' := -800) (b' := 800) (by norm_num) (by norm_num)).add
    (hi.weaken (a' := -800) (b' := 800) (by norm_num) (by norm_num)) (by positivity) (by positivity)
  obtain ⟨y, e, hy⟩ := C54_diagonal Binary64_accurate a p q hpq m (by
    rw [List.forall_mem_append]
    refine ⟨hs, ?_⟩
    simp only [diagSteps, List.mem_cons, List.not_mem_nil, or_false, forall_eq_or_imp, forall_eq]
    exact ⟨Mag.gc.safe (by norm_num) (by norm_num), hgm.safe (by norm_num) (by norm_num),
      (hda.pow two_ne_zero).safe (by norm_num) (by norm_num), h3.safe (by norm_num) (by norm_num),
      hd5.safe (by norm_num) (by norm_num), hq.safe (by norm_num) (by norm_num),
      hd3.safe (by norm_num) (by norm_num), hi.safe (by norm_num) (by norm_num),
      hsum.safe (by norm_num) (by norm_num), (hgm.abs.mul hsum).safe (by norm_num) (by norm_num)⟩)
  refine ⟨y, e, hy.trans ?_⟩
  have := gamma_double (k := 33) (e := -46) (by norm_num) (by norm_num)
  have e4 : (2 : ℝ) ^ (-44 : ℤ) = 2 ^ (-46 : ℤ) * 4 := by norm_num
  rw [e4, mul_assoc]
  exact mul_le_mul_of_nonneg_right this (by positivity)

/-- **C55, in IEEE double precision.** -/
theorem C55_double (a : Axis) (p q : Pt) (hpq : p ≠ q) (m : Pt)
    (hΔ : ∀ a : Axis, ModerateSize (p.coord a - q.coord a)) (hm : ∀ a : Axis, ModerateSize (m.coord a)) :
    ReturnsWithin (onPair (A := Binary64) (dipoleMagnetic a) p q m.e m.n m.u)
      (1.25663706212e-06 / 4 / Real.pi *
        (3 * (m.e * (p.e - q.e) + m.n * (p.n - q.n) + m.u * (p.u - q.u)) * (p.coord a - q.coord a)
          / dist3 p q ^ 5 - m.coord a / dist3 p q ^ 3))
      (2 ^ (-44 : ℤ) * (1.25663706212e-06 / 4 / Real.pi * dist3 m (0, 0, 0) / dist3 p q ^ 3)) := by
  have hd := mag_dist hΔ
  have hs := safe_distance hΔ
  have he : Mag (-80) 80 (p.e - q.e) := hΔ .e
  have hn : Mag (-80) 80 (p.n - q.n) := hΔ .n
  have hu : Mag (-80) 80 (p.u - q.u) := hΔ .u
  have hme : Mag (-80) 80 m.e := hm .e
  have hmn : Mag (-80) 80 m.n := hm .n
  have hmu : Mag (-80) 80 m.u := hm .u
  have hda : Mag (-80) 80 (p.coord a - q.coord a) := hΔ a
  have hma : Mag (-80) 80 (m.coord a) := hm a
  have hd5 := hd.pow (n := 5) (by norm_num)
  have hd3 := hd.pow (n := 3) (by norm_num)
  have hd0 : 0 ≤ dist3 p q := Real.sqrt_nonneg _
  have m1 := hme.mul he
  have m2 := hmn.mul hn
  have m3 := hmu.mul hu
  have s2 := m1.abs.add m2.abs (abs_nonneg _) (abs_nonneg _)
  have s3 := s2.add (m3.abs.weaken le_rfl (by norm_num)) (by positivity) (abs_nonneg _)
  have t1 := Mag.three.mul s3
  have t2 := t1.mul hda.abs
  have t3 := t2.div hd5
  have t4 := hma.div hd3
  have t5 := (t3.weaken (a' := -830) (b' := 830) (by norm_num) (by norm_num)).add
    (t4.abs.weaken (a' := -830) (b' := 830) (by norm_num) (by norm_num)) (by positivity) (abs_nonneg _)
  have c1 : Mag (-20) (-19) mu0 := by right; unfold mu0; norm_num [abs_of_pos]
  have c2 := c1.div (show Mag 2 2 4 by right; norm_num)
  have c3 := c2.div (show Mag 1 2 Real.pi by
    right
    rw [abs_of_pos Real.pi_pos]
    have := Real.pi_gt_three
    have := Real.pi_le_four
    norm_num
    constructor <;> linarith)
  obtain ⟨y, e, hy⟩ := C55_dipole Binary64_accurate Binary64_piAccurate a p q hpq m (by
    rw [List.forall_mem_append]
    refine ⟨hs, ?_⟩
    simp only [dipoleSteps, List.mem_cons, List.not_mem_nil, or_false, forall_eq_or_imp, forall_eq]
    refine ⟨m1.safe ?_ ?_, m2.safe ?_ ?_, m3.safe ?_ ?_, s2.safe ?_ ?_, s3.safe ?_ ?_, t1.safe ?_ ?_,
      t2.safe ?_ ?_, hd5.safe ?_ ?_, t3.safe ?_ ?_, hd3.safe ?_ ?_, t4.safe ?_ ?_, t5.safe ?_ ?_,
      c1.safe ?_ ?_, c2.safe ?_ ?_, c3.safe ?_ ?_, (c3.mul t5).safe ?_ ?_⟩ <;> norm_num)
  refine ⟨y, e, hy.trans ?_⟩
  have := gamma_double (k := 38) (e := -46) (by norm_num) (by norm_num)
  have e4 : (2 : ℝ) ^ (-44 : ℤ) = 2 ^ (-46 : ℤ) * 4 := by norm_num
  rw [e4, mul_assoc]
  have hM : 0 ≤ dist3 m (0, 0, 0) := Real.sqrt_nonneg _
  have hpi := Real.pi_pos
  exact mul_le_mul_of_nonneg_right this (by positivity)

theorem safe_iij {x y z r : ℝ} (hx : Mag (-80) 80 x) (hy : Mag (-80) 80 y) (hz : Mag (-80) 80 z)
    (hr : Mag (-80) 81 r) :
    ∀ t ∈ iijSteps x y z r, InSafeRange (2 ^ (-1022 : ℤ)) (2 ^ (1023 : ℤ)) t := by
  have h1 := hx.mul hz
  have h2 := hx.pow two_ne_zero
  have h3 := hy.pow two_ne_zero
  have h4 := h2.add h3 (sq_nonneg _) (sq_nonneg _)
  have h5 := h4.mul hr
  have h6 := h1.div h5
  simp only [iijSteps, List.mem_cons, List.not_mem_nil, or_false, forall_eq_or_imp, forall_eq]
  exact ⟨h1.safe (by norm_num) (by norm_num), h2.safe (by norm_num) (by norm_num),
    h3.safe (by norm_num) (by norm_num), h4.safe (by norm_num) (by norm_num),
    h5.safe (by norm_num) (by norm_num), h6.safe (by norm_num) (by norm_num)⟩

theorem safe_iii {x y z r : ℝ} (hx : Mag (-80) 80 x) (hy : Mag (-80) 80 y) (hz : Mag (-80) 80 z)
    (hr : Mag (-80) 81 r) :
    ∀ t ∈ iiiSteps x y z r, InSafeRange (2 ^ (-1022 : ℤ)) (2 ^ (1023 : ℤ)) t := by
  have hx2 := hx.pow two_ne_zero
  have hy2 := hy.pow two_ne_zero
  have hz2 := hz.pow two_ne_zero
  have h1 := hy.neg.mul hz
  have h2 := Mag.two.mul hx2
  have h3 := (h2.weaken (a' := -200) (b' := 210) (by norm_num) (by norm_num)).add
    (hy2.weaken (a' := -200) (b' := 210) (by norm_num) (by norm_num)) (by positivity) (by positivity)
  have h4 := h3.add (hz2.weaken (by norm_num) (by norm_num)) (by positivity) (by positivity)
  have h5 := h1.mul h4
  have h6 := hx2.add hy2 (sq_nonneg _) (sq_nonneg _)
  have h7 := hx2.add hz2 (sq_nonneg _) (sq_nonneg _)
  have h8 := h6.mul h7
  have h9 := h8.mul hr
  have h10 := h5.div h9
  simp only [iiiSteps, List.mem_cons, List.not_mem_nil, or_false, forall_eq_or_imp, forall_eq]
  exact ⟨hx2.safe (by norm_num) (by norm_num), hy2.safe (by norm_num) (by norm_num),
    hz2.safe (by norm_num) (by norm_num), h1.safe (by norm_num) (by norm_num),
    h2.safe (by norm_num) (by norm_num), h3.safe (by norm_num) (by norm_num),
    h4.safe (by norm_num) (by norm_num), h5.safe (by norm_num) (by norm_num),
    h6.safe (by norm_num) (by norm_num), h7.safe (by norm_num) (by norm_num),
    h8.safe (by norm_num) (by norm_num), h9.safe (by norm_num) (by norm_num),
    h10.safe (by norm_num) (by norm_num)⟩

theorem mag_radius {x y z : ℝ} (hx : Mag (-80) 80 x) (hy : Mag (-80) 80 y) (hz : Mag (-80) 80 z) :
    Mag (-80) 81 (Real.sqrt (x ^ 2 + y ^ 2 + z ^ 2)) := by
  apply Mag.sqrt
  have h1 := (hx.pow two_ne_zero).add (hy.pow two_ne_zero) (sq_nonneg _) (sq_nonneg _)
  exact (h1.add ((hz.pow two_ne_zero).weaken le_rfl (by norm_num)) (by positivity) (sq_nonneg _)).weaken
    (by norm_num) (by norm_num)

/-- **C51, in IEEE double precision.** For shifted coordinates of moderate size the third-order
kernels are accurate to about 15 decimal digits. -/
theorem C51_double (c : PKComp) (hc : c.thirdOrder) (x y z r : ℝ)
    (hr : r = Real.sqrt (x ^ 2 + y ^ 2 + z ^ 2)) (hr0 : r ≠ 0)
    (hx : ModerateSize x) (hy : ModerateSize y) (hz : ModerateSize z) :
    ReturnsNear
      (prismKernel (A := Binary64) c x y z
        (Fl.sqrt ((x : Fl Binary64) ^ 2 + (y : Fl Binary64) ^ 2 + (z : Fl Binary64) ^ 2)))
      (docKernel c x y z r) (2 ^ (-48 : ℤ)) := by
  have hx' : Mag (-80) 80 x := hx
  have hy' : Mag (-80) 80 y := hy
  have hz' : Mag (-80) 80 z := hz
  have hmr : Mag (-80) 81 r := hr ▸ mag_radius hx' hy' hz'
  refine near_double (k := 16) (by norm_num) (by norm_num)
    (C51_third_order_radius Binary64_accurate c hc x y z r hr hr0 ?_)
  rw [List.forall_mem_append]
  constructor
  · have h1 := (hx'.pow two_ne_zero).add (hy'.pow two_ne_zero) (sq_nonneg _) (sq_nonneg _)
    have h2 := h1.add ((hz'.pow two_ne_zero).weaken le_rfl (by norm_num)) (by positivity) (sq_nonneg _)
    simp only [List.mem_cons, List.not_mem_nil, or_false, forall_eq_or_imp, forall_eq]
    exact ⟨(hx'.pow two_ne_zero).safe (by norm_num) (by norm_num),
      (hy'.pow two_ne_zero).safe (by norm_num) (by norm_num),
      (hz'.pow two_ne_zero).safe (by norm_num) (by norm_num),
      h1.safe (by norm_num) (by norm_num), h2.safe (by norm_num) (by norm_num),
      hmr.safe (by norm_num) (by norm_num)⟩
  · cases c <;> try exact hc.elim
    case eee => exact safe_iii hx' hy' hz' hmr
    case nnn => exact safe_iii hy' hz' hx' hmr
    case uuu => exact safe_iii hz' hy' hx' hmr
    case een => exact safe_iij hx' hy' hz' hmr
    case eeu => exact safe_iij hx' hz' hy' hmr
    case enn => exact safe_iij hy' hx' hz' hmr
    case nnu => exact safe_iij hy' hz' hx' hmr
    case euu => exact safe_iij hz' hx' hy' hmr
    case nuu => exact safe_iij hz' hy' hx' hmr
    case enu =>
      simp only [thirdOrderSteps, List.mem_cons, List.not_mem_nil, or_false, forall_eq]
      exact (Mag.one.neg.div hmr).safe (by norm_num) (by norm_num)

/-! ### The hypotheses can be met -/

theorem moderate_of {x : ℝ} (h1 : 1 / 1000 ≤ |x|) (h2 : |x| ≤ 1000000) : ModerateSize x :=
  .inr ⟨le_trans (by norm_num) h1, h2.trans (by norm_num)⟩

/-- A mass of 1000 kg at (0, 0, -100), seen from (3, 4, 0). -/
example : ReturnsNear (onPair (A := Binary64) point.gravity_pot (3, 4, 0) (0, 0, -100) (1000 : ℝ))
    (6.6743e-11 * 1000 / dist3 (3, 4, 0) (0, 0, -100)) (2 ^ (-49 : ℤ)) :=
  (C50_double (3, 4, 0) (0, 0, -100) (by norm_num [Prod.ext_iff]) 1000
    (by
      intro a
      cases a <;> simp only [Pt.coord, Pt.e, Pt.n, Pt.u] <;> apply moderate_of <;>
        norm_num [abs_of_pos])
    (moderate_of (by norm_num [abs_of_pos]) (by norm_num [abs_of_pos]))).2.1

/-- `kernel_een` a micrometre away from an edge ten metres from the vertex. -/
example : ReturnsNear (prismKernel (A := Binary64) .een ((1e-6 : ℝ) : Fl Binary64) ((0 : ℝ) : Fl Binary64)
      ((10 : ℝ) : Fl Binary64)
      (Fl.sqrt (((1e-6 : ℝ) : Fl Binary64) ^ 2 + ((0 : ℝ) : Fl Binary64) ^ 2
        + ((10 : ℝ) : Fl Binary64) ^ 2)))
    (docKernel .een 1e-6 0 10 (Real.sqrt (1e-6 ^ 2 + 0 ^ 2 + 10 ^ 2))) (2 ^ (-48 : ℤ)) :=
  C51_double .een trivial _ _ _ _ rfl (by positivity)
    (.inr ⟨by norm_num [abs_of_pos], by norm_num [abs_of_pos]⟩) (.inl rfl)
    (.inr ⟨by norm_num [abs_of_pos], by norm_num [abs_of_pos]⟩)

/-- `gravity_uu` of the same mass, and the vertical field of a dipole there. -/
example : ReturnsWithin (onPair (A := Binary64) (pointGravity Axis.u.diag) (3, 4, 0) (0, 0, -100) (1000 : ℝ))
    (6.6743e-11 * 1000 * (3 * (Pt.coord (3, 4, 0) .u - Pt.coord (0, 0, -100) .u) ^ 2
      / dist3 (3, 4, 0) (0, 0, -100) ^ 5 - 1 / dist3 (3, 4, 0) (0, 0, -100) ^ 3))
    (2 ^ (-44 : ℤ) * (6.6743e-11 * |1000| / dist3 (3, 4, 0) (0, 0, -100) ^ 3)) :=
  C54_double .u (3, 4, 0) (0, 0, -100) (by norm_num [Prod.ext_iff]) 1000
    (by
      intro a
      cases a <;> simp only [Pt.coord, Pt.e, Pt.n, Pt.u] <;> apply moderate_of <;>
        norm_num [abs_of_pos])
    (moderate_of (by norm_num [abs_of_pos]) (by norm_num [abs_of_pos]))

example : ∃ x δ : ℝ, 0 ≤ δ ∧ ReturnsWithin (onPair (A := Binary64) (dipoleMagnetic .u) (3, 4, 0) (0, 0, -100)
    ((1 : ℝ) : Fl Binary64) ((2 : ℝ) : Fl Binary64) ((30 : ℝ) : Fl Binary64)) x δ :=
  ⟨_, _, by have := Real.pi_pos; have : 0 ≤ dist3 (1, 2, 30) (0, 0, 0) := Real.sqrt_nonneg _
            have : 0 ≤ dist3 (3, 4, 0) (0, 0, -100) := Real.sqrt_nonneg _
            positivity,
    C55_double .u (3, 4, 0) (0, 0, -100) (by norm_num [Prod.ext_iff]) (1, 2, 30)
    (by
      intro a
      cases a <;> simp only [Pt.coord, Pt.e, Pt.n, Pt.u] <;> apply moderate_of <;>
        norm_num [abs_of_pos])
    (by
      intro a
      cases a <;> simp only [Pt.coord, Pt.e, Pt.n, Pt.u] <;> apply moderate_of <;>
        norm_num [abs_of_pos])⟩

end Choclo
