import Verif.Lemmas.Spectrum2
import Mathlib.Analysis.SpecialFunctions.Integrals.Basic
import Verif.Props.Uniqueness

/-! # C136: the fields in the wavenumber domain

`spectrum g k` (Spec/Spectrum.lean) is the two-dimensional Fourier transform `∫∫ g(s) exp(-i k·s) ds`
of data on a plane `coordinate a = t`; `derivFactor a b k` is what the derivative along `b` does to a
spectrum: `i k_b` along the plane, `-|k|` across it. -/

namespace Choclo

open Real Set MeasureTheory Filter Topology

variable {P : Box} {a : Axis} {t : ℝ} {k : ℝ × ℝ}

theorem spectrum_const_mul (C : ℝ) (g : ℝ × ℝ → ℝ) (k : ℝ × ℝ) : spectrum (fun s => C * g s) k = C * spectrum g k := by
  unfold spectrum
  rw [← integral_const_mul]
  congr 1; funext s
  push_cast; ring

theorem spectrum_integrable {g : ℝ × ℝ → ℝ} (hg : Integrable g) (k : ℝ × ℝ) : Integrable fun s => (g s : ℂ) * wave k s := by
  have : Integrable fun s => (g s : ℂ) := hg.ofReal
  exact this.mul_bdd (c := 1) (continuous_wave k).aestronglyMeasurable (Eventually.of_forall fun s => (norm_wave k s).le)

theorem spectrum_add {g h : ℝ × ℝ → ℝ} (hg : Integrable g) (hh : Integrable h) (k : ℝ × ℝ) :
    spectrum (fun s => g s + h s) k = spectrum g k + spectrum h k := by
  unfold spectrum
  rw [← integral_add (spectrum_integrable hg k) (spectrum_integrable hh k)]
  congr 1; funext s
  push_cast; ring

/-- the spectrum of a prism is the integral of those of its points -/
theorem spectrum_prism {c : KComp} (F : Integrable (fun w : (ℝ × ℝ) × Pt => kpp c (Pt.onPlane a t w.1) w.2)
      (volume.prod (volume.restrict P.region))) (k : ℝ × ℝ) :
    spectrum (fun s => ∫ q in P.region, kpp c (Pt.onPlane a t s) q) k =
      ∫ q in P.region, spectrum (fun s => kpp c (Pt.onPlane a t s) q) k := by
  have FC : Integrable (fun w : (ℝ × ℝ) × Pt => ((kpp c (Pt.onPlane a t w.1) w.2 : ℝ) : ℂ))
      (volume.prod (volume.restrict P.region)) := F.ofReal
  have FW : Integrable (fun w : (ℝ × ℝ) × Pt => ((kpp c (Pt.onPlane a t w.1) w.2 : ℝ) : ℂ) * wave k w.1)
      (volume.prod (volume.restrict P.region)) :=
    FC.mul_bdd (c := 1) ((continuous_wave k).comp continuous_fst).aestronglyMeasurable
      (Eventually.of_forall fun s => (norm_wave k s.1).le)
  unfold spectrum
  rw [← integral_integral_swap (f := fun s q => ((kpp c (Pt.onPlane a t s) q : ℝ) : ℂ) * wave k s) FW]
  congr 1; funext s
  rw [← integral_complex_ofReal, ← integral_mul_const]

theorem spectrum_prism_acc (hP : P.Ordered) (h : P.hi a ≤ t) (k : ℝ × ℝ) :
    spectrum (fun s => Vc a.acc (Pt.onPlane a t s) P) k = -(2 * π) * ∫ q in P.region, srcWave a t k q := by
  have low : a.acc.letters ≤ 1 := by cases a <;> decide
  simp only [← (integral_low hP a.acc low _).2, acc_toK]
  rw [spectrum_prism (plane_prism_acc_integrable a t), ← integral_const_mul]
  refine integral_congr_ae ?_
  filter_upwards [ae_restrict_mem (isCompact_region P).measurableSet, ae_restrict_of_ae (ae_coord_ne a t)] with q h1 h2
  have := (coord_mem_region h1 a).2
  exact spectrum_kern1 (lt_of_le_of_ne (by linarith) h2)

theorem plane_prism_fubini2 {t : ℝ} (h : P.hi a < t) (i j : Axis) :
    Integrable (fun w : (ℝ × ℝ) × Pt => kpp (kern2 i j) (Pt.onPlane a t w.1) w.2) (volume.prod (volume.restrict P.region)) := by
  have h0 : 0 < t - P.hi a := by linarith
  refine plane_fubini a t (K := 2 * (2 * π / (t - P.hi a))) fun q hq hne => ?_
  have b : ∀ p : Pt, p ≠ q → p.coord a = t → |kpp (kern2 i j) p q| ≤ 2 / dist3 p q ^ 3 := fun p hp _ => abs_kern2_le i j hp
  refine ⟨plane_integrable a hne b, (norm_plane_le a hne b).trans ?_⟩
  have := (coord_mem_region hq a).2
  have := Real.pi_pos
  rw [abs_of_pos (by linarith : 0 < t - q.coord a)]
  gcongr

theorem spectrum_prism_kern2 (hk : 0 < wavenumber k) (h : P.hi a < t) (i j : Axis) :
    spectrum (fun s => ∫ q in P.region, kpp (kern2 i j) (Pt.onPlane a t s) q) k =
      derivFactor a i k * derivFactor a j k * (2 * π / wavenumber k) * ∫ q in P.region, srcWave a t k q := by
  rw [spectrum_prism (plane_prism_fubini2 h i j), ← integral_const_mul]
  refine setIntegral_congr_fun (isCompact_region P).measurableSet fun q hq => ?_
  have := (coord_mem_region hq a).2
  exact spectrum_kern2 hk (by linarith) i j

theorem factor_zero (hk : ¬ 0 < wavenumber k) (b : Axis) : wavenumber k = 0 ∧ derivFactor a b k = 0 := by
  have h0 : wavenumber k = 0 := le_antisymm (not_lt.1 hk) (Real.sqrt_nonneg _)
  have hs : k.1 ^ 2 + k.2 ^ 2 = 0 := (Real.sqrt_eq_zero (by positivity)).1 h0
  have k1 : k.1 = 0 := by nlinarith [sq_nonneg k.1, sq_nonneg k.2]
  have k2 : k.2 = 0 := by nlinarith [sq_nonneg k.1, sq_nonneg k.2]
  refine ⟨h0, ?_⟩
  unfold derivFactor
  cases a <;> cases b <;> simp [h0, kAlong, k1, k2]

/-! ## C136 -/

/-- **Spectrum of a point mass.**  The Fourier transform of the acceleration normal to a plane above a
point mass is `-2 π G m exp(-|k| depth) exp(-i k·position)`; its amplitude decays with the depth and
does not depend on the horizontal position. -/
theorem C136_point {q : Pt} (h : q.coord a < t) (m : ℝ) :
    ∃ g : ℝ × ℝ → ℝ, (∀ s, Returns (onPair (A := Exact) (pointGravity a.acc) (Pt.onPlane a t s) q m) (g s)) ∧
      Integrable g ∧ ∀ k : ℝ × ℝ,
        spectrum g k = -(2 * π * Gc * m) * (Real.exp (-(wavenumber k * (t - q.coord a))) : ℂ) * wave k (q.along a) ∧
        ‖spectrum g k‖ = 2 * π * Gc * |m| * Real.exp (-(wavenumber k * (t - q.coord a))) := by
  obtain ⟨h1, -⟩ := plane_kern1 a h.ne'
  have e : ∀ k, spectrum (fun s => Gc * m * kpp (kern1 a) (Pt.onPlane a t s) q) k =
      -(2 * π * Gc * m) * (Real.exp (-(wavenumber k * (t - q.coord a))) : ℂ) * wave k (q.along a) := fun k => by
    rw [spectrum_const_mul, spectrum_kern1 h]
    unfold srcWave
    push_cast; ring
  refine ⟨fun s => Gc * m * kpp (kern1 a) (Pt.onPlane a t s) q, fun s => ?_, h1.const_mul _, fun k => ⟨e k, ?_⟩⟩
  · rw [← acc_toK]; exact Ex.pointGravity_fin a.acc (off_plane h.ne' s) m
  · rw [e, norm_mul, norm_wave, mul_one, norm_mul, Complex.norm_real, Real.norm_of_nonneg (exp_pos _).le]
    congr 1
    have : (-(2 * π * Gc * m) : ℂ) = ((-(2 * π * Gc * m) : ℝ) : ℂ) := by push_cast; ring
    rw [this, Complex.norm_real, Real.norm_eq_abs, abs_neg, abs_mul, abs_of_pos (by have := Gc_pos; positivity)]

/-- **Spectrum of a prism.**  For a prism that does not reach above the plane. -/
theorem C136_prism (hP : P.Ordered) (h : P.hi a ≤ t) (ρ : ℝ) :
    ∃ g : ℝ × ℝ → ℝ, (∀ s, Returns (onPrism (A := Exact) (prismGravity a.acc) (Pt.onPlane a t s) P ρ) (g s)) ∧
      Integrable g ∧ ∀ k : ℝ × ℝ, spectrum g k = -(2 * π * Gc * ρ) *
        ∫ q in P.region, (Real.exp (-(wavenumber k * (t - q.coord a))) : ℂ) * wave k (q.along a) := by
  obtain ⟨i1, -, -, -⟩ := plane_prism_Vacc hP a t
  refine ⟨fun s => Gc * ρ * Vc a.acc (Pt.onPlane a t s) P, fun s => acc_returns a _ P ρ, i1.const_mul _, fun k => ?_⟩
  rw [spectrum_const_mul, spectrum_prism_acc hP h]
  unfold srcWave
  push_cast; ring

theorem srcWave_prod (q : Pt) : srcWave a t k q = (Real.exp (-(wavenumber k * t)) : ℂ) *
    (Complex.exp (-derivFactor a .e k * q.1) * (Complex.exp (-derivFactor a .n k * q.2.1) * Complex.exp (-derivFactor a .u k * q.2.2))) := by
  unfold srcWave wave
  rw [Complex.ofReal_exp, Complex.ofReal_exp, ← Complex.exp_add, ← Complex.exp_add, ← Complex.exp_add, ← Complex.exp_add]
  congr 1
  cases a <;> simp [derivFactor, kAlong, Pt.along, Pt.coord, Pt.e, Pt.n, Pt.u] <;> ring

theorem integral_Icc_exp {x y : ℝ} (h : x ≤ y) {c : ℂ} (hc : c ≠ 0) :
    ∫ z in Icc x y, Complex.exp (c * z) = (Complex.exp (c * y) - Complex.exp (c * x)) / c := by
  rw [integral_Icc_eq_integral_Ioc, ← intervalIntegral.integral_of_le h, integral_exp_mul_complex hc]

/-- **The spectrum of a prism in closed form.**  Where no factor vanishes, the spectrum is
`-2 π G ρ exp(-|k| t)` times one difference of exponentials for each axis. -/
theorem C136_closed (hP : P.Ordered) (h : P.hi a ≤ t) (ρ : ℝ) :
    ∃ g : ℝ × ℝ → ℝ, (∀ s, Returns (onPrism (A := Exact) (prismGravity a.acc) (Pt.onPlane a t s) P ρ) (g s)) ∧
      Integrable g ∧ ∀ k : ℝ × ℝ, (∀ b, derivFactor a b k ≠ 0) →
        spectrum g k = -(2 * π * Gc * ρ) * (Real.exp (-(wavenumber k * t)) : ℂ) *
          ((Complex.exp (-derivFactor a .e k * P.east) - Complex.exp (-derivFactor a .e k * P.west)) / (-derivFactor a .e k)) *
          ((Complex.exp (-derivFactor a .n k * P.north) - Complex.exp (-derivFactor a .n k * P.south)) / (-derivFactor a .n k)) *
          ((Complex.exp (-derivFactor a .u k * P.top) - Complex.exp (-derivFactor a .u k * P.bottom)) / (-derivFactor a .u k)) := by
  obtain ⟨i1, -, -, -⟩ := plane_prism_Vacc hP a t
  refine ⟨fun s => Gc * ρ * Vc a.acc (Pt.onPlane a t s) P, fun s => acc_returns a _ P ρ, i1.const_mul _, fun k hk => ?_⟩
  rw [spectrum_const_mul, spectrum_prism_acc hP h]
  simp only [srcWave_prod]
  rw [integral_const_mul]
  have e : ∫ q in P.region, (Complex.exp (-derivFactor a .e k * (q.1 : ℝ)) *
      (Complex.exp (-derivFactor a .n k * (q.2.1 : ℝ)) * Complex.exp (-derivFactor a .u k * (q.2.2 : ℝ)))) =
      (∫ x in Icc P.west P.east, Complex.exp (-derivFactor a .e k * (x : ℝ))) *
      ((∫ x in Icc P.south P.north, Complex.exp (-derivFactor a .n k * (x : ℝ))) *
        ∫ x in Icc P.bottom P.top, Complex.exp (-derivFactor a .u k * (x : ℝ))) := by
    have e1 := setIntegral_prod_mul (μ := (volume : Measure ℝ)) (ν := (volume : Measure (ℝ × ℝ)))
      (fun x : ℝ => Complex.exp (-derivFactor a .e k * (x : ℝ)))
      (fun y : ℝ × ℝ => Complex.exp (-derivFactor a .n k * (y.1 : ℝ)) * Complex.exp (-derivFactor a .u k * (y.2 : ℝ)))
      (Icc P.west P.east) (Icc P.south P.north ×ˢ Icc P.bottom P.top)
    have e2 := setIntegral_prod_mul (μ := (volume : Measure ℝ)) (ν := (volume : Measure ℝ))
      (fun x : ℝ => Complex.exp (-derivFactor a .n k * (x : ℝ)))
      (fun y : ℝ => Complex.exp (-derivFactor a .u k * (y : ℝ))) (Icc P.south P.north) (Icc P.bottom P.top)
    rw [← Measure.volume_eq_prod] at e1 e2
    rw [e2] at e1
    exact e1
  rw [e, integral_Icc_exp hP.1 (neg_ne_zero.2 (hk .e)), integral_Icc_exp hP.2.1 (neg_ne_zero.2 (hk .n)),
    integral_Icc_exp hP.2.2 (neg_ne_zero.2 (hk .u))]
  push_cast; ring

/-- **Upward continuation in the wavenumber domain.**  The spectrum on a higher plane is the spectrum on
the lower one times `exp(-|k| (difference in height))`. -/
theorem C136_continuation (hP : P.Ordered) (h : P.hi a ≤ t) {t' : ℝ} (ht : t ≤ t') (ρ : ℝ) :
    ∃ g g' : ℝ × ℝ → ℝ, (∀ s, Returns (onPrism (A := Exact) (prismGravity a.acc) (Pt.onPlane a t s) P ρ) (g s)) ∧
      (∀ s, Returns (onPrism (A := Exact) (prismGravity a.acc) (Pt.onPlane a t' s) P ρ) (g' s)) ∧
      ∀ k : ℝ × ℝ, spectrum g' k = (Real.exp (-(wavenumber k * (t' - t))) : ℂ) * spectrum g k := by
  refine ⟨fun s => Gc * ρ * Vc a.acc (Pt.onPlane a t s) P, fun s => Gc * ρ * Vc a.acc (Pt.onPlane a t' s) P,
    fun s => acc_returns a _ P ρ, fun s => acc_returns a _ P ρ, fun k => ?_⟩
  rw [spectrum_const_mul, spectrum_const_mul, spectrum_prism_acc hP h, spectrum_prism_acc hP (h.trans ht)]
  simp only [srcWave_prod]
  rw [integral_const_mul, integral_const_mul]
  have : (Real.exp (-(wavenumber k * t')) : ℂ) = (Real.exp (-(wavenumber k * (t' - t))) : ℂ) * (Real.exp (-(wavenumber k * t)) : ℂ) := by
    rw [← Complex.ofReal_mul, ← Real.exp_add]; congr 2; ring
  rw [this]; ring

/-- **Derivatives in the wavenumber domain.**  The spectrum of every component of the gravity gradient
tensor, of a point mass or of a prism below the plane, is that of the normal acceleration times the
factors of the two derivatives, divided by the factor `-|k|` of the one already taken. -/
theorem C136_tensor (i j : Axis) :
    (∀ (q : Pt) (m : ℝ), q.coord a < t →
      ∃ g T : ℝ × ℝ → ℝ, (∀ s, Returns (onPair (A := Exact) (pointGravity a.acc) (Pt.onPlane a t s) q m) (g s)) ∧
        (∀ s, Returns (onPair (A := Exact) (pointGravity (tensor i j)) (Pt.onPlane a t s) q m) (T s)) ∧
        ∀ k : ℝ × ℝ, -(wavenumber k : ℂ) * spectrum T k = derivFactor a i k * derivFactor a j k * spectrum g k) ∧
    (∀ (P : Box) (ρ : ℝ), P.Ordered → P.hi a < t →
      ∃ g T : ℝ × ℝ → ℝ, (∀ s, Returns (onPrism (A := Exact) (prismGravity a.acc) (Pt.onPlane a t s) P ρ) (g s)) ∧
        (∀ s, Returns (onPrism (A := Exact) (prismGravity (tensor i j)) (Pt.onPlane a t s) P ρ) (T s)) ∧
        ∀ k : ℝ × ℝ, -(wavenumber k : ℂ) * spectrum T k = derivFactor a i k * derivFactor a j k * spectrum g k) := by
  constructor
  · intro q m h
    refine ⟨fun s => Gc * m * kpp (kern1 a) (Pt.onPlane a t s) q, fun s => Gc * m * kpp (kern2 j i) (Pt.onPlane a t s) q,
      fun s => ?_, fun s => ?_, fun k => ?_⟩
    · rw [← acc_toK]; exact Ex.pointGravity_fin _ (off_plane h.ne' s) m
    · rw [← tensor_toK]; exact Ex.pointGravity_fin _ (off_plane h.ne' s) m
    · rw [spectrum_const_mul, spectrum_const_mul, spectrum_kern1 h]
      by_cases hk : 0 < wavenumber k
      · have hk' : (wavenumber k : ℂ) ≠ 0 := by exact_mod_cast hk.ne'
        rw [spectrum_kern2 hk h]
        field_simp
      · rw [(factor_zero (a := a) hk i).1, (factor_zero (a := a) hk i).2]; simp
  · intro P ρ hP h
    refine ⟨fun s => Gc * ρ * Vc a.acc (Pt.onPlane a t s) P, fun s => Gc * ρ * ∫ q in P.region, kpp (kern2 j i) (Pt.onPlane a t s) q,
      fun s => acc_returns a _ P ρ, fun s => ?_, fun k => ?_⟩
    · have hx := plane_off_region (a := a) (.inr h) s
      simp only [← tensor_toK, ← Vc_tensor_integral hP i j hx]
      exact Ex.gravity_returns hP (exterior_singular hP hx _) ρ
    · rw [spectrum_const_mul, spectrum_const_mul, spectrum_prism_acc hP h.le]
      by_cases hk : 0 < wavenumber k
      · have hk' : (wavenumber k : ℂ) ≠ 0 := by exact_mod_cast hk.ne'
        rw [spectrum_prism_kern2 hk h]
        field_simp
      · rw [(factor_zero (a := a) hk i).1, (factor_zero (a := a) hk i).2]; simp

/-- **Magnetic data in the wavenumber domain** (pseudo-gravity and reduction to the pole).  The spectrum
of every component of the magnetic field of a prism is that of the normal acceleration of the same prism
with unit density, times the factor of the component and that of the derivative along the
magnetization; the same for a dipole and a unit mass. -/
theorem C136_magnetic (i : Axis) (M : Vec) :
    (∀ q : Pt, q.coord a < t →
      ∃ g B : ℝ × ℝ → ℝ, (∀ s, Returns (onPair (A := Exact) (pointGravity a.acc) (Pt.onPlane a t s) q (1 : ℝ)) (g s)) ∧
        (∀ s, Returns (onPair (A := Exact) (dipoleMagnetic i) (Pt.onPlane a t s) q M.e M.n M.u) (B s)) ∧
        ∀ k : ℝ × ℝ, Gc * (-(wavenumber k : ℂ) * spectrum B k) = mu0 / (4 * π) * (derivFactor a i k *
          (derivFactor a .e k * M.e + derivFactor a .n k * M.n + derivFactor a .u k * M.u) * spectrum g k)) ∧
    (∀ P : Box, P.Ordered → P.hi a < t →
      ∃ g B : ℝ × ℝ → ℝ, (∀ s, Returns (onPrism (A := Exact) (prismGravity a.acc) (Pt.onPlane a t s) P (1 : ℝ)) (g s)) ∧
        (∀ s, Returns (onPrism (A := Exact) (prismMagnetic i.field) (Pt.onPlane a t s) P M.e M.n M.u) (B s)) ∧
        ∀ k : ℝ × ℝ, Gc * (-(wavenumber k : ℂ) * spectrum B k) = mu0 / (4 * π) * (derivFactor a i k *
          (derivFactor a .e k * M.e + derivFactor a .n k * M.n + derivFactor a .u k * M.u) * spectrum g k)) := by
  have lin : ∀ {f g h : ℝ × ℝ → ℝ} (C x y z : ℝ) (k : ℝ × ℝ), Integrable f → Integrable g → Integrable h →
      spectrum (fun s => C * (f s * x + g s * y + h s * z)) k =
        C * (spectrum f k * x + spectrum g k * y + spectrum h k * z) := by
    intro f g h C x y z k hf hg hh
    have e : ∀ s, f s * x + g s * y + h s * z = (x * f s + y * g s) + z * h s := fun s => by ring
    simp only [e]
    rw [spectrum_const_mul, spectrum_add (g := fun s => x * f s + y * g s) ((hf.const_mul x).add (hg.const_mul y)) (hh.const_mul z),
      spectrum_add (hf.const_mul x) (hg.const_mul y), spectrum_const_mul, spectrum_const_mul, spectrum_const_mul]
    ring
  have pi0 : (π : ℂ) ≠ 0 := by exact_mod_cast Real.pi_ne_zero
  constructor
  · intro q h
    refine ⟨fun s => Gc * 1 * kpp (kern1 a) (Pt.onPlane a t s) q, fun s => Bd i (Pt.onPlane a t s) q M, fun s => ?_,
      fun s => dipole_fin i (off_plane h.ne' s) M, fun k => ?_⟩
    · rw [← acc_toK]; exact Ex.pointGravity_fin _ (off_plane h.ne' s) 1
    · have e : spectrum (fun s => Bd i (Pt.onPlane a t s) q M) k = _ :=
        lin (mu0 / 4 / π) M.e M.n M.u k (plane_kern2 a i .e h.ne').1 (plane_kern2 a i .n h.ne').1 (plane_kern2 a i .u h.ne').1
      rw [e, spectrum_const_mul, spectrum_kern1 h]
      by_cases hk : 0 < wavenumber k
      · have hk' : (wavenumber k : ℂ) ≠ 0 := by exact_mod_cast hk.ne'
        have s2 := fun j => spectrum_kern2 hk h i j
        simp only [kpp] at s2
        rw [s2, s2, s2]
        push_cast
        field_simp
      · rw [(factor_zero (a := a) hk i).1, (factor_zero (a := a) hk i).2]; simp
  · intro P hP h
    refine ⟨fun s => Gc * 1 * Vc a.acc (Pt.onPlane a t s) P, fun s => mu0 / 4 / π * Bc i.field (Pt.onPlane a t s) P M.e M.n M.u,
      fun s => acc_returns a _ P 1, fun s => ?_, fun k => ?_⟩
    · have hx := plane_off_region (a := a) (.inr h) s
      exact Ex.magnetic_returns hP (exterior_edges hP hx) (fun h' => hx (inside_subset_region h')) M.e M.n M.u
    · have e0 : ∀ s, mu0 / 4 / π * Bc i.field (Pt.onPlane a t s) P M.e M.n M.u = mu0 / 4 / π *
          ((∫ q in P.region, kpp (kern2 i .e) (Pt.onPlane a t s) q) * M.e +
            (∫ q in P.region, kpp (kern2 i .n) (Pt.onPlane a t s) q) * M.n +
            (∫ q in P.region, kpp (kern2 i .u) (Pt.onPlane a t s) q) * M.u) := fun s => by
        have kk := fun c => integrableOn_kpp (P := P) c (plane_off_region (a := a) (.inr h) s)
        rw [Bc_field_integral hP i (plane_off_region (.inr h) s) M, integral_const_mul, integral_lin3 (kk _) (kk _) (kk _)]
      simp only [e0]
      have ii := fun j => (plane_prism_kern2 (P := P) (a := a) (.inr h) i j).1
      rw [lin (mu0 / 4 / π) M.e M.n M.u k (ii .e) (ii .n) (ii .u), spectrum_const_mul, spectrum_prism_acc hP h.le]
      by_cases hk : 0 < wavenumber k
      · have hk' : (wavenumber k : ℂ) ≠ 0 := by exact_mod_cast hk.ne'
        rw [spectrum_prism_kern2 hk h, spectrum_prism_kern2 hk h, spectrum_prism_kern2 hk h]
        push_cast
        field_simp
      · rw [(factor_zero (a := a) hk i).1, (factor_zero (a := a) hk i).2]; simp

/-- non-vacuity: the example prism under the planes `upward = 0` and `upward = 1`; a wave vector for
which no factor vanishes; a point under the plane -/
example : exBox.Ordered ∧ exBox.hi .u ≤ 0 ∧ exBox.hi .u < 1 ∧ (∀ b, derivFactor .u b (3, 4) ≠ 0) ∧ wavenumber (3, 4) = 5 ∧
    Pt.coord (0, 0, -3) .u < 0 := by
  have w : wavenumber (3, 4) = 5 := by
    unfold wavenumber
    rw [show ((3, 4) : ℝ × ℝ).1 ^ 2 + ((3, 4) : ℝ × ℝ).2 ^ 2 = 5 ^ 2 by norm_num]
    exact Real.sqrt_sq (by norm_num)
  refine ⟨exBox_ordered, ?_, ?_, fun b => ?_, w, ?_⟩
  · norm_num [exBox, Box.hi]
  · norm_num [exBox, Box.hi]
  · cases b <;> simp [derivFactor, kAlong, w]
  · norm_num [Pt.coord, Pt.u]

end Choclo
