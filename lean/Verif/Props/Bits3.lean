import Verif.Props.Bits2
import Verif.Model.Binary64
import Verif.Lemmas.NaN

/-! # C80: exchanging easting and northing, bit for bit. C81: order in floating point -/

namespace Choclo

variable {A : Arith}

/-! ## C80 -/

/-- Rename the two horizontal axes in the name of a point kernel. -/
def KComp.exchangeEN : KComp → KComp
  | .e => .n | .n => .e | .ee => .nn | .nn => .ee | .eu => .nu | .nu => .eu
  | .eee => .nnn | .nnn => .eee | .een => .nne | .nne => .een | .eeu => .nnu | .nnu => .eeu
  | .uue => .uun | .uun => .uue
  | c => c

/-- **C80.** In every floating-point arithmetic the distance is bit-for-bit unchanged when easting
and northing exchange their roles, -/
theorem C80_distance (e n u e' n' u' : Fl A) :
    utils.distance_cartesian n e u n' e' u' = utils.distance_cartesian e n u e' n' u' := by
  unfold utils.distance_cartesian
  rw [Fl.add_comm' ((n - n') ^ 2)]

/-- every kernel but `kernel_en` and `kernel_enu` becomes the renamed one, -/
theorem C80_kernel (k : KComp) (hk : k ≠ .en ∧ k ≠ .enu) (e n u e' n' u' d : Fl A) :
    pointKernel k.exchangeEN n e u n' e' u' d = pointKernel k e n u e' n' u' d := by
  cases k <;> first | rfl | (exfalso; simp at hk)

/-- every gravity component but `gravity_en` becomes the renamed one (values and exceptions), -/
theorem C80_gravity (c : GComp) (hc : c ≠ .en) (e n u e' n' u' m : Fl A) :
    pointGravity (c.swap .en) n e u n' e' u' m = pointGravity c e n u e' n' u' m := by
  cases c <;> first
    | (exfalso; exact hc rfl)
    | (simp only [GComp.swap, pointGravity, point.gravity_pot, point.gravity_e, point.gravity_n, point.gravity_u,
        point.gravity_ee, point.gravity_nn, point.gravity_uu, point.gravity_eu, point.gravity_nu,
        C80_distance e n u e' n' u']; rfl)

/-- Rename an axis under the exchange of easting and northing. -/
def Axis.exchangeEN : Axis → Axis
  | .e => .n | .n => .e | .u => .u

/-- and every component of the dipole field becomes the renamed one. -/
theorem C80_dipole (a : Axis) (e n u e' n' u' me mn mu : Fl A) :
    dipoleMagnetic a.exchangeEN n e u n' e' u' mn me mu = dipoleMagnetic a e n u e' n' u' me mn mu := by
  cases a <;> simp only [Axis.exchangeEN, dipoleMagnetic, dipole.magnetic_e, dipole.magnetic_n, dipole.magnetic_u] <;>
    rw [Fl.add_comm' ((n - n') ^ 2), Fl.add_comm' (mn * (n - n'))]

/-- Each of the renamed components is a different function. -/
example : GComp.swap .e .en = .n ∧ GComp.swap .ee .en = .nn ∧ GComp.swap .eu .en = .nu ∧
    KComp.exchangeEN .een = .nne := ⟨rfl, rfl, rfl, rfl⟩

/-! ## C81 -/

/-- Squares are correctly rounded (Numba computes `x ** 2` as one multiplication). -/
def Arith.SquareRounded (A : Arith) : Prop := ∀ x : ℝ, A.pow x 2 = A.rnd (x ^ 2)

theorem Binary64_squareRounded : Binary64.SquareRounded := fun _ => rfl

theorem Fl.mul_eq_fin {a b : Fl A} {y : ℝ} (h : a * b = (y : Fl A)) :
    ∃ x z : ℝ, a = (x : Fl A) ∧ b = (z : Fl A) ∧ A.rnd (x * z) = .fin y := by
  change Fl.mul a b = Raw.fin y at h
  cases a with
  | nan => exact absurd h (by simp [Fl.mul, Fl.nan])
  | inf s =>
    cases b with
    | nan => exact absurd h (by simp [Fl.mul, Fl.nan])
    | inf t => exact absurd h (by simp [Fl.mul, Fl.inf])
    | fin z =>
      simp only [Fl.mul, Fl.mulInf] at h
      split at h
      · exact absurd h (by simp [Fl.nan])
      · split at h <;> exact absurd h (by simp [Fl.inf])
  | fin x =>
    cases b with
    | nan => exact absurd h (by simp [Fl.mul, Fl.nan])
    | inf t =>
      simp only [Fl.mul, Fl.mulInf] at h
      split at h
      · exact absurd h (by simp [Fl.nan])
      · split at h <;> exact absurd h (by simp [Fl.inf])
    | fin z => exact ⟨x, z, rfl, rfl, h⟩

theorem Arith.Monotone.fin_le (hA : A.Monotone) {x y x' y' : ℝ} (h : x ≤ y) (hx : A.rnd x = .fin x')
    (hy : A.rnd y = .fin y') : x' ≤ y' := by
  have := hA.rnd_mono x y h
  rw [hx, hy] at this
  exact this

theorem Arith.Monotone.fin_nonneg (hA : A.Monotone) {x x' : ℝ} (h : 0 ≤ x) (hx : A.rnd x = .fin x') : 0 ≤ x' :=
  hA.fin_le h hA.rnd_zero hx

/-- the source strength enters only in the last two multiplications -/
def Factored (f : Fl A → Py (Fl A)) (K : Py (Fl A)) : Prop :=
  ∀ ρ, f ρ = K >>= fun k => pure (GRAVITATIONAL_CONST * ρ * k)

theorem Factored.spec {f : Fl A → Py (Fl A)} {K : Py (Fl A)} (h : Factored f K) {ρ y : ℝ}
    (hy : Returns (f ρ) y) : ∃ G0 g k : ℝ, A.rnd 6.6743e-11 = .fin G0 ∧ A.rnd (G0 * ρ) = .fin g ∧
      K = .ok (k : Fl A) ∧ A.rnd (g * k) = .fin y := by
  unfold Returns at hy
  rw [h ρ] at hy
  obtain ⟨k, hk, hk2⟩ := Py.bind_ok.1 hy
  have h2 := Py.pure_ok.1 hk2
  obtain ⟨g, k', h3, h4, h5⟩ := Fl.mul_eq_fin h2
  obtain ⟨G0, ρ', h6, h7, h8⟩ := Fl.mul_eq_fin h3
  have e : ρ = ρ' := Raw.fin.inj h7
  subst e
  exact ⟨G0, g, k', h6, h8, by rw [hk, h4], h5⟩

theorem Factored.le_or_le (hA : A.Monotone) {f : Fl A → Py (Fl A)} {K : Py (Fl A)} (h : Factored f K)
    {ρ₁ ρ₂ ρ₃ y₁ y₂ y₃ : ℝ} (h12 : ρ₁ ≤ ρ₂) (h23 : ρ₂ ≤ ρ₃) (h1 : Returns (f ρ₁) y₁) (h2 : Returns (f ρ₂) y₂)
    (h3 : Returns (f ρ₃) y₃) : (y₁ ≤ y₂ ∧ y₂ ≤ y₃) ∨ (y₃ ≤ y₂ ∧ y₂ ≤ y₁) := by
  obtain ⟨G1, g1, k1, a1, b1, c1, d1⟩ := h.spec h1
  obtain ⟨G2, g2, k2, a2, b2, c2, d2⟩ := h.spec h2
  obtain ⟨G3, g3, k3, a3, b3, c3, d3⟩ := h.spec h3
  obtain rfl : G1 = G2 := Raw.fin.inj (a1.symm.trans a2)
  obtain rfl : G1 = G3 := Raw.fin.inj (a1.symm.trans a3)
  obtain rfl : k1 = k2 := Raw.fin.inj (Except.ok.inj (c1.symm.trans c2))
  obtain rfl : k1 = k3 := Raw.fin.inj (Except.ok.inj (c1.symm.trans c3))
  have hG : 0 ≤ G1 := hA.fin_nonneg (by norm_num) a1
  have e12 : g1 ≤ g2 := hA.fin_le (mul_le_mul_of_nonneg_left h12 hG) b1 b2
  have e23 : g2 ≤ g3 := hA.fin_le (mul_le_mul_of_nonneg_left h23 hG) b2 b3
  rcases le_total 0 k1 with hk | hk
  · exact .inl ⟨hA.fin_le (mul_le_mul_of_nonneg_right e12 hk) d1 d2,
      hA.fin_le (mul_le_mul_of_nonneg_right e23 hk) d2 d3⟩
  · exact .inr ⟨hA.fin_le (mul_le_mul_of_nonpos_right e23 hk) d3 d2,
      hA.fin_le (mul_le_mul_of_nonpos_right e12 hk) d2 d1⟩

theorem Factored.zero (hA : A.Monotone) {f : Fl A → Py (Fl A)} {K : Py (Fl A)} (h : Factored f K) {ρ y : ℝ}
    (hy : Returns (f ρ) y) : Returns (f (0 : ℝ)) 0 := by
  obtain ⟨G0, g, k, a, b, c, d⟩ := h.spec hy
  unfold Returns
  rw [h, c]
  show Except.ok _ = Except.ok _
  congr 1
  have e : (GRAVITATIONAL_CONST : Fl A) = (G0 : Fl A) := a
  rw [e]
  show Fl.mul (Fl.ofRaw (A.rnd (G0 * 0))) (Fl.fin k) = Fl.fin 0
  rw [mul_zero, hA.rnd_zero]
  show Fl.ofRaw (A.rnd (0 * k)) = Fl.fin 0
  rw [zero_mul, hA.rnd_zero]; rfl

theorem factored_point (c : GComp) (e n u e' n' u' : Fl A) :
    Factored (pointGravity c e n u e' n' u') (do
      let d ← utils.distance_cartesian e n u e' n' u'
      match c with
      | .pot => point.kernel_pot e n u e' n' u' d
      | .e => point.kernel_e e n u e' n' u' d
      | .n => point.kernel_n e n u e' n' u' d
      | .u => point.kernel_u e n u e' n' u' d
      | .ee => point.kernel_ee e n u e' n' u' d
      | .nn => point.kernel_nn e n u e' n' u' d
      | .uu => point.kernel_uu e n u e' n' u' d
      | .en => point.kernel_en e n u e' n' u' d
      | .eu => point.kernel_eu e n u e' n' u' d
      | .nu => point.kernel_nu e n u e' n' u' d) := by
  intro m
  cases c <;> rfl

theorem Py.ite_bind {α β : Type} (b : Bool) (x y : Py α) (f : α → Py β) :
    (if b then x else y) >>= f = if b then x >>= f else y >>= f := by cases b <;> rfl

theorem factored_prism (c : GComp) (e n u w E s N b t : Fl A) :
    ∃ K, Factored (prismGravity c e n u w E s N b t) K := by
  have hn : ∀ (cond : Bool) (X : Py (Fl A)), Factored (fun ρ => if cond then (pure Fl.nan : Py (Fl A))
      else X >>= fun k => pure (GRAVITATIONAL_CONST * ρ * k)) (if cond then pure Fl.nan else X) := by
    intro cond X ρ
    cases cond
    · rfl
    · simp [Fl.mul_nan]
  have hd : ∀ (cond face : Bool) (X : Py (Fl A)), Factored (fun ρ => if cond then (pure Fl.nan : Py (Fl A))
      else X >>= fun k => if face then pure (GRAVITATIONAL_CONST * ρ * (k + 4 * Fl.pi))
        else pure (GRAVITATIONAL_CONST * ρ * k))
      (if cond then pure Fl.nan else X >>= fun k => if face then pure (k + 4 * Fl.pi) else pure k) := by
    intro cond face X ρ
    cases cond
    · cases X with
      | error e => rfl
      | ok k => cases face <;> rfl
    · simp [Fl.mul_nan]
  cases c
  · exact ⟨_, fun ρ => rfl⟩
  · exact ⟨_, fun ρ => rfl⟩
  · exact ⟨_, fun ρ => rfl⟩
  · exact ⟨_, fun ρ => rfl⟩
  · refine ⟨_, fun ρ => Eq.trans ?_ (hd (prism.is_point_on_northing_edge e n u w E s N b t ||
      prism.is_point_on_upward_edge e n u w E s N b t) (prism.is_point_on_east_face e n u w E s N b t)
      (prism._evaluate_kernel e n u w E s N b t prism.kernel_ee) ρ)⟩
    simp only [prismGravity, prism.gravity_ee]
  · refine ⟨_, fun ρ => Eq.trans ?_ (hd (prism.is_point_on_easting_edge e n u w E s N b t ||
      prism.is_point_on_upward_edge e n u w E s N b t) (prism.is_point_on_north_face e n u w E s N b t)
      (prism._evaluate_kernel e n u w E s N b t prism.kernel_nn) ρ)⟩
    simp only [prismGravity, prism.gravity_nn]
  · refine ⟨_, fun ρ => Eq.trans ?_ (hd (prism.is_point_on_easting_edge e n u w E s N b t ||
      prism.is_point_on_northing_edge e n u w E s N b t) (prism.is_point_on_top_face e n u w E s N b t)
      (prism._evaluate_kernel e n u w E s N b t prism.kernel_uu) ρ)⟩
    simp only [prismGravity, prism.gravity_uu]
  · exact ⟨_, hn (prism.is_point_on_upward_edge e n u w E s N b t)
      (prism._evaluate_kernel e n u w E s N b t prism.kernel_en)⟩
  · exact ⟨_, hn (prism.is_point_on_northing_edge e n u w E s N b t)
      (prism._evaluate_kernel e n u w E s N b t prism.kernel_eu)⟩
  · exact ⟨_, hn (prism.is_point_on_easting_edge e n u w E s N b t)
      (prism._evaluate_kernel e n u w E s N b t prism.kernel_nu)⟩

/-- **C81.** In every monotone arithmetic the computed value of a `prism.gravity_*` is a monotone
function of the density: rounding errors never make it go up and down. -/
theorem C81_density (hA : A.Monotone) (c : GComp) (e n u w E s N b t : Fl A) {ρ₁ ρ₂ ρ₃ y₁ y₂ y₃ : ℝ}
    (h12 : ρ₁ ≤ ρ₂) (h23 : ρ₂ ≤ ρ₃) (h1 : Returns (prismGravity c e n u w E s N b t ρ₁) y₁)
    (h2 : Returns (prismGravity c e n u w E s N b t ρ₂) y₂)
    (h3 : Returns (prismGravity c e n u w E s N b t ρ₃) y₃) :
    (y₁ ≤ y₂ ∧ y₂ ≤ y₃) ∨ (y₃ ≤ y₂ ∧ y₂ ≤ y₁) := by
  obtain ⟨K, hK⟩ := factored_prism c e n u w E s N b t
  exact hK.le_or_le hA h12 h23 h1 h2 h3

/-- **C81.** The same for `point.gravity_*` and the mass. -/
theorem C81_mass (hA : A.Monotone) (c : GComp) (e n u e' n' u' : Fl A) {m₁ m₂ m₃ y₁ y₂ y₃ : ℝ}
    (h12 : m₁ ≤ m₂) (h23 : m₂ ≤ m₃) (h1 : Returns (pointGravity c e n u e' n' u' m₁) y₁)
    (h2 : Returns (pointGravity c e n u e' n' u' m₂) y₂)
    (h3 : Returns (pointGravity c e n u e' n' u' m₃) y₃) :
    (y₁ ≤ y₂ ∧ y₂ ≤ y₃) ∨ (y₃ ≤ y₂ ∧ y₂ ≤ y₁) :=
  (factored_point c e n u e' n' u').le_or_le hA h12 h23 h1 h2 h3

/-- **C81.** Zero density gives exactly zero wherever some density gives a number; so does zero mass. -/
theorem C81_zero (hA : A.Monotone) (c : GComp) :
    (∀ (e n u w E s N b t : Fl A) (ρ y : ℝ), Returns (prismGravity c e n u w E s N b t ρ) y →
      Returns (prismGravity c e n u w E s N b t (0 : ℝ)) 0) ∧
    ∀ (e n u e' n' u' : Fl A) (m y : ℝ), Returns (pointGravity c e n u e' n' u' m) y →
      Returns (pointGravity c e n u e' n' u' (0 : ℝ)) 0 := by
  refine ⟨fun e n u w E s N b t ρ y h => ?_, fun e n u e' n' u' m y h => (factored_point c e n u e' n' u').zero hA h⟩
  obtain ⟨K, hK⟩ := factored_prism c e n u w E s N b t
  exact hK.zero hA h

/-! ### distances and potentials are ordered -/

theorem Fl.add_eq_fin {a b : Fl A} {y : ℝ} (h : a + b = (y : Fl A)) :
    ∃ x z : ℝ, a = (x : Fl A) ∧ b = (z : Fl A) ∧ A.rnd (x + z) = .fin y := by
  change Fl.add a b = Raw.fin y at h
  cases a with
  | nan => exact absurd h (by simp [Fl.add, Fl.nan])
  | inf s =>
    cases b with
    | nan => exact absurd h (by simp [Fl.add, Fl.nan])
    | inf t =>
      simp only [Fl.add] at h
      split at h
      · exact absurd h (by simp [Fl.inf])
      · exact absurd h (by simp [Fl.nan])
    | fin z => exact absurd h (by simp [Fl.add, Fl.inf])
  | fin x =>
    cases b with
    | nan => exact absurd h (by simp [Fl.add, Fl.nan])
    | inf t => exact absurd h (by simp [Fl.add, Fl.inf])
    | fin z => exact ⟨x, z, rfl, rfl, h⟩

theorem Fl.sqrt_eq_fin {a : Fl A} {y : ℝ} (h : Fl.sqrt a = (y : Fl A)) :
    ∃ x : ℝ, a = (x : Fl A) ∧ 0 ≤ x ∧ A.rnd (Real.sqrt x) = .fin y := by
  cases a with
  | nan => exact absurd h (by simp [Fl.sqrt, Fl.nan, Fl.fin])
  | inf s =>
    simp only [Fl.sqrt] at h
    split at h
    · exact absurd h (by simp [Fl.nan, Fl.fin])
    · exact absurd h (by simp [Fl.inf, Fl.fin])
  | fin x =>
    simp only [Fl.sqrt] at h
    split at h
    · exact absurd h (by simp [Fl.nan, Fl.fin])
    · exact ⟨x, rfl, by linarith, h⟩

/-- the squared rounded difference, as the code computes it -/
theorem square_spec (hsq : A.SquareRounded) {x y s : ℝ} (h : ((x : Fl A) - (y : Fl A)) ^ 2 = (s : Fl A)) :
    ∃ a : ℝ, A.rnd (x - y) = .fin a ∧ A.rnd (a ^ 2) = .fin s := by
  have e : (x : Fl A) - (y : Fl A) = Fl.ofRaw (A.rnd (x - y)) := by
    show Fl.ofRaw (A.rnd (x + -y)) = _
    rw [sub_eq_add_neg]
  rw [e] at h
  change Fl.pow (A.rnd (x - y)) 2 = Raw.fin s at h
  cases hr : A.rnd (x - y) with
  | nan => rw [hr] at h; exact absurd h (by simp [Fl.pow, Fl.nan])
  | inf t => rw [hr] at h; exact absurd h (by simp [Fl.pow, Fl.inf])
  | fin a =>
    rw [hr] at h
    exact ⟨a, rfl, by rw [← hsq a]; exact h⟩

theorem rnd_abs_fin (hS : A.SignSymmetric) {x a : ℝ} (h : A.rnd x = .fin a) (hA : A.Monotone) :
    A.rnd |x| = .fin |a| := by
  rcases le_total 0 x with hx | hx
  · rw [abs_of_nonneg hx, abs_of_nonneg (hA.fin_nonneg hx h), h]
  · have ha : a ≤ 0 := hA.fin_le hx h hA.rnd_zero
    rw [abs_of_nonpos hx, abs_of_nonpos ha]
    have := hS.rnd_neg x
    rw [h] at this
    exact this

theorem square_mono (hA : A.Monotone) (hS : A.SignSymmetric) (hsq : A.SquareRounded) {x y x' y' s s' : ℝ}
    (hle : |x - y| ≤ |x' - y'|) (h : ((x : Fl A) - (y : Fl A)) ^ 2 = (s : Fl A))
    (h' : ((x' : Fl A) - (y' : Fl A)) ^ 2 = (s' : Fl A)) : s ≤ s' := by
  obtain ⟨a, h1, h2⟩ := square_spec hsq h
  obtain ⟨a', h1', h2'⟩ := square_spec hsq h'
  have ha : |a| ≤ |a'| := hA.fin_le hle (rnd_abs_fin hS h1 hA) (rnd_abs_fin hS h1' hA)
  exact hA.fin_le (sq_le_sq.2 ha) h2 h2'

/-- **C81.** Computed distances are ordered: if the offsets of a second pair of points are at least as
long along each axis, the computed distance is at least as large. -/
theorem C81_distance (hA : A.Monotone) (hS : A.SignSymmetric) (hsq : A.SquareRounded) (p q p' q' : Pt)
    (he : |p.e - q.e| ≤ |p'.e - q'.e|) (hn : |p.n - q.n| ≤ |p'.n - q'.n|) (hu : |p.u - q.u| ≤ |p'.u - q'.u|)
    {d d' : ℝ} (h : Returns (onPair (A := A) utils.distance_cartesian p q) d)
    (h' : Returns (onPair (A := A) utils.distance_cartesian p' q') d') : 0 ≤ d ∧ d ≤ d' := by
  obtain ⟨S, hS1, hS0, hd⟩ := Fl.sqrt_eq_fin (Py.pure_ok.1 h)
  obtain ⟨S', hS1', hS0', hd'⟩ := Fl.sqrt_eq_fin (Py.pure_ok.1 h')
  obtain ⟨T, c, hT, hc, hTc⟩ := Fl.add_eq_fin hS1
  obtain ⟨T', c', hT', hc', hTc'⟩ := Fl.add_eq_fin hS1'
  obtain ⟨a, b, ha, hb, hab⟩ := Fl.add_eq_fin hT
  obtain ⟨a', b', ha', hb', hab'⟩ := Fl.add_eq_fin hT'
  have e1 := square_mono hA hS hsq he ha ha'
  have e2 := square_mono hA hS hsq hn hb hb'
  have e3 := square_mono hA hS hsq hu hc hc'
  have e4 : T ≤ T' := hA.fin_le (add_le_add e1 e2) hab hab'
  have e5 : S ≤ S' := hA.fin_le (add_le_add e4 e3) hTc hTc'
  exact ⟨hA.fin_nonneg (Real.sqrt_nonneg _) hd, hA.fin_le (Real.sqrt_le_sqrt e5) hd hd'⟩

/-- **C81.** Computed potentials are ordered and not negative: a farther pair of points (along each
axis) and a smaller, nonnegative mass never give a larger computed potential (as long as the computed
distances do not overflow). -/
theorem C81_potential (hA : A.Monotone) (hS : A.SignSymmetric) (hsq : A.SquareRounded) (p q p' q' : Pt)
    (he : |p.e - q.e| ≤ |p'.e - q'.e|) (hn : |p.n - q.n| ≤ |p'.n - q'.n|) (hu : |p.u - q.u| ≤ |p'.u - q'.u|)
    {m m' y y' d d' : ℝ} (hm' : 0 ≤ m') (hm : m' ≤ m)
    (hd : Returns (onPair (A := A) utils.distance_cartesian p q) d)
    (hd' : Returns (onPair (A := A) utils.distance_cartesian p' q') d')
    (h : Returns (onPair (A := A) point.gravity_pot p q m) y)
    (h' : Returns (onPair (A := A) point.gravity_pot p' q' m') y') : 0 ≤ y' ∧ y' ≤ y := by
  have key : ∀ {p q : Pt} {m y d : ℝ}, Returns (onPair (A := A) utils.distance_cartesian p q) d →
      Returns (onPair (A := A) point.gravity_pot p q m) y →
      ∃ G0 g k : ℝ, d ≠ 0 ∧ A.rnd 6.6743e-11 = .fin G0 ∧ A.rnd (G0 * m) = .fin g ∧ A.rnd (1 / d) = .fin k ∧
        A.rnd (g * k) = .fin y := by
    intro p q m y d hd h
    obtain ⟨G0, g, k, a, b, c, e⟩ := (factored_point .pot (p.e : Fl A) p.n p.u q.e q.n q.u).spec h
    obtain ⟨D, hD, hk⟩ := Py.bind_ok.1 c
    have hDd : (Except.ok D : Py (Fl A)) = .ok (d : Fl A) := hD.symm.trans hd
    obtain rfl : D = (d : Fl A) := Except.ok.inj hDd
    have hv : (1 : Fl A) /. (d : Fl A) = .ok (k : Fl A) := by
      simpa only [point.kernel_pot, bind_pure] using hk
    have hv' : (if d = 0 then (.error .zeroDivision : Py (Fl A)) else .ok (Fl.ofRaw (A.rnd ((1 : ℕ) / d)))) =
        .ok (k : Fl A) := hv
    by_cases h0 : d = 0
    · rw [if_pos h0] at hv'; exact absurd hv' (by simp)
    · rw [if_neg h0, Nat.cast_one] at hv'
      exact ⟨G0, g, k, h0, a, b, Except.ok.inj hv', e⟩
  obtain ⟨G0, g, k, h2, h3, h4, h5, h6⟩ := key hd h
  obtain ⟨G0', g', k', h2', h3', h4', h5', h6'⟩ := key hd' h'
  obtain rfl : G0 = G0' := Raw.fin.inj (h3.symm.trans h3')
  obtain ⟨hd0, hdd⟩ := C81_distance hA hS hsq p q p' q' he hn hu hd hd'
  have hdpos : 0 < d := lt_of_le_of_ne hd0 (Ne.symm h2)
  have hG : 0 ≤ G0 := hA.fin_nonneg (by norm_num) h3
  have e1 : g' ≤ g := hA.fin_le (mul_le_mul_of_nonneg_left hm hG) h4' h4
  have e2 : 0 ≤ g' := hA.fin_nonneg (mul_nonneg hG hm') h4'
  have e3 : k' ≤ k := hA.fin_le (one_div_le_one_div_of_le hdpos hdd) h5' h5
  have e4 : 0 ≤ k' := hA.fin_nonneg (one_div_nonneg.2 (hdpos.le.trans hdd)) h5'
  exact ⟨hA.fin_nonneg (mul_nonneg e2 e4) h6', hA.fin_le (mul_le_mul e1 e3 e4 (e2.trans e1)) h6' h6⟩

/-- IEEE binary64 satisfies the laws, and so does exact arithmetic, where every call returns a number. -/
example : Binary64.Monotone ∧ Binary64.SignSymmetric ∧ Binary64.SquareRounded :=
  ⟨Binary64_monotone, Binary64_signSymmetric, Binary64_squareRounded⟩

end Choclo
