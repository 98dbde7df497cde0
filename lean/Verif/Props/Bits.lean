import Verif.Lemmas.Signs
import Verif.Model.Binary64

/-! # Bit-level symmetries in every sign-symmetric floating-point arithmetic: C04, C10, C29 -/

namespace Choclo

variable {A : Arith}

/-- Exact arithmetic is sign symmetric (so the hypothesis below can be met; binary64 is treated in
`Verif/Model/Binary64.lean`). -/
theorem Exact_signSymmetric : Exact.SignSymmetric where
  rnd_neg _ := rfl
  pow_even x n hn := by show Raw.fin ((-x) ^ n) = Raw.fin (x ^ n); rw [hn.neg_pow]
  cos_neg x := by show Raw.fin _ = Raw.fin _; rw [Real.cos_neg]

/-! ## C04 -/

/-- **C04.** `distance_cartesian(p, q)` and `distance_cartesian(q, p)` are the identical number,
for all arguments including NaN and infinities. -/
theorem C04_distance_cartesian (h : A.SignSymmetric) (e n u e' n' u' : Fl A) :
    utils.distance_cartesian e n u e' n' u' = utils.distance_cartesian e' n' u' e n u := by
  unfold utils.distance_cartesian
  rw [Fl.sub_sq_swap h e e', Fl.sub_sq_swap h n n', Fl.sub_sq_swap h u u']

/-- Doubling the number is exact (no overflow), or the number is NaN or infinite. -/
def DoublesExactly (r : Fl A) : Prop := ∀ x : ℝ, r = Fl.fin x → A.rnd (2 * x) = .fin (2 * x)

theorem two_mul_mul_swap {r s : Fl A} (hr : DoublesExactly r) (hs : DoublesExactly s) :
    2 * r * s = 2 * s * r := by
  have key : ∀ r : Fl A, DoublesExactly r → (∃ x, r = Fl.fin x ∧ 2 * r = Fl.fin (2 * x)) ∨
      (2 * r = r ∧ ¬ ∃ x, r = Fl.fin x) := by
    intro r hr
    cases r with
    | nan => right; exact ⟨rfl, by rintro ⟨x, hx⟩; cases hx⟩
    | inf b =>
      right
      refine ⟨?_, by rintro ⟨x, hx⟩; cases hx⟩
      show Fl.mulInf b ((2 : ℕ) : ℝ) = _
      unfold Fl.mulInf
      rw [if_neg (by norm_num), if_pos (by norm_num)]
      rfl
    | fin x => left; exact ⟨x, rfl, by
        show (Fl.ofRaw (A.rnd (((2 : ℕ) : ℝ) * x)) : Fl A) = _
        rw [Nat.cast_ofNat, hr x rfl]; rfl⟩
  rcases key r hr with ⟨x, rfl, hx⟩ | ⟨hx, hx'⟩ <;> rcases key s hs with ⟨y, rfl, hy⟩ | ⟨hy, hy'⟩
  · rw [hx, hy]
    show (Fl.ofRaw (A.rnd (2 * x * y)) : Fl A) = Fl.ofRaw (A.rnd (2 * y * x))
    rw [show 2 * x * y = 2 * y * x by ring]
  · rw [hx, hy]
    cases s with
    | nan => rfl
    | fin y => exact absurd ⟨y, rfl⟩ hy'
    | inf b =>
      show (Fl.mulInf b (2 * x) : Fl A) = Fl.mulInf b x
      unfold Fl.mulInf
      simp
  · rw [hx, hy]
    cases r with
    | nan => rfl
    | fin y => exact absurd ⟨y, rfl⟩ hx'
    | inf b =>
      show (Fl.mulInf b y : Fl A) = Fl.mulInf b (2 * y)
      unfold Fl.mulInf
      simp
  · rw [hx, hy, Fl.mul_comm']

/-- **C04.** `distance_spherical(p, q)` and `distance_spherical(q, p)` are the identical number
whenever doubling the two radii is exact (i.e. does not overflow, in binary64). -/
theorem C04_distance_spherical (h : A.SignSymmetric) (lon lat r lon' lat' r' : Fl A)
    (hr : DoublesExactly r) (hr' : DoublesExactly r') :
    utils.distance_spherical lon lat r lon' lat' r' =
      utils.distance_spherical lon' lat' r' lon lat r := by
  unfold utils.distance_spherical utils.distance_spherical_core
  simp only [pure_bind]
  rw [Fl.sub_sq_swap h r r', two_mul_mul_swap hr hr', Fl.sub_swap h (Fl.radians lon), Fl.cos_neg' h,
    Fl.mul_comm' (Fl.sin (Fl.radians lat')), Fl.mul_comm' (Fl.cos (Fl.radians lat'))]

/-- non-vacuity: the hypotheses hold in exact arithmetic for two points on the Earth -/
example : utils.distance_spherical (A := Exact) (Fl.fin 10) (Fl.fin 20) (Fl.fin 6371000)
    (Fl.fin (-70)) (Fl.fin 45) (Fl.fin 6371220) =
    utils.distance_spherical (Fl.fin (-70)) (Fl.fin 45) (Fl.fin 6371220)
      (Fl.fin 10) (Fl.fin 20) (Fl.fin 6371000) :=
  C04_distance_spherical Exact_signSymmetric _ _ _ _ _ _ (fun _ _ => rfl) (fun _ _ => rfl)

/-! ## C10 at the bit level -/

/-- **C10.** Exchanging observation and source point negates the acceleration components and leaves
potential and tensor unchanged, to the last bit and with the same exceptions. -/
theorem C10_exchange_bits (h : A.SignSymmetric) (c : GComp) (e n u e' n' u' m : Fl A) :
    (c.odd → pointGravity c e' n' u' e n u m = Py.negated (pointGravity c e n u e' n' u' m)) ∧
    (¬c.odd → pointGravity c e' n' u' e n u m = pointGravity c e n u e' n' u' m) := by
  have key : ∀ (a b d : Fl A), (do
      let k ← -(b - a) /. d
      return GRAVITATIONAL_CONST * m * k) = Py.negated (do
      let k ← -(a - b) /. d
      return GRAVITATIONAL_CONST * m * k) := by
    intro a b d
    rw [Fl.neg_div' h, Fl.neg_div' h, Fl.sub_swap h, Fl.neg_div' h]
    cases (a - b) /. d with
    | error err => rfl
    | ok v =>
      show Except.ok (GRAVITATIONAL_CONST * m * - -v) = Except.ok (-(GRAVITATIONAL_CONST * m * -v))
      rw [Fl.neg_neg', Fl.mul_neg' h, Fl.neg_neg']
  constructor
  · intro hc
    cases c <;> first | exact hc.elim | skip
    all_goals
      simp only [pointGravity, point.gravity_e, point.gravity_n, point.gravity_u, point.kernel_e,
        point.kernel_n, point.kernel_u, C04_distance_cartesian h e' n' u' e n u, bind_pure]
      rw [utils.distance_cartesian]
      simp only [pure_bind]
      exact key _ _ _
  · intro hc
    cases c <;> first | exact absurd trivial hc | skip
    all_goals
      simp only [pointGravity, point.gravity_pot, point.gravity_ee, point.gravity_nn,
        point.gravity_uu, point.gravity_en, point.gravity_eu, point.gravity_nu, point.kernel_pot,
        point.kernel_ee, point.kernel_nn, point.kernel_uu, point.kernel_en, point.kernel_eu,
        point.kernel_nu, C04_distance_cartesian h e' n' u' e n u, Fl.sub_sq_swap h e e',
        Fl.sub_sq_swap h n n', Fl.sub_sq_swap h u u', Fl.sub_swap h e e', Fl.sub_swap h n n',
        Fl.sub_swap h u u', Fl.mul_neg' h, Fl.neg_mul' h, Fl.neg_neg', Fl.pow_neg_even h _ even_two]

/-- **C10.** Negating the mass negates every result, to the last bit and with the same exceptions. -/
theorem C10_negate_mass_bits (h : A.SignSymmetric) (c : GComp) (e n u e' n' u' m : Fl A) :
    pointGravity c e n u e' n' u' (-m) = Py.negated (pointGravity c e n u e' n' u' m) := by
  have key : ∀ (k : Py (Fl A)), (do return GRAVITATIONAL_CONST * -m * (← k)) =
      Py.negated (do return GRAVITATIONAL_CONST * m * (← k)) := by
    intro k
    cases k with
    | error err => rfl
    | ok v =>
      show Except.ok (GRAVITATIONAL_CONST * -m * v) = Except.ok (-(GRAVITATIONAL_CONST * m * v))
      rw [Fl.mul_neg' h, Fl.neg_mul' h]
  cases c <;> exact key _

/-! ## C29 at the bit level -/

/-- **C29.** Negating the density negates every prism gravity component, to the last bit and with
the same exceptions, for all arguments. -/
theorem C29_negate_density_bits (h : A.SignSymmetric) (c : GComp) (e n u w E s N b t ρ : Fl A) :
    prismGravity c e n u w E s N b t (-ρ) = Py.negated (prismGravity c e n u w E s N b t ρ) := by
  have key : ∀ (k : Py (Fl A)), (do return GRAVITATIONAL_CONST * -ρ * (← k)) =
      Py.negated (do return GRAVITATIONAL_CONST * ρ * (← k)) := by
    intro k
    cases k with
    | error err => rfl
    | ok v =>
      show Except.ok (GRAVITATIONAL_CONST * -ρ * v) = Except.ok (-(GRAVITATIONAL_CONST * ρ * v))
      rw [Fl.mul_neg' h, Fl.neg_mul' h]
  have key2 : ∀ (b : Prop) [Decidable b] (k k' : Py (Fl A)), k = Py.negated k' →
      (if b then (.ok Fl.nan : Py (Fl A)) else k) = Py.negated (if b then .ok Fl.nan else k') := by
    intro b _ k k' hk
    split
    · rfl
    · exact hk
  cases c
  case pot => exact key _
  case e => exact key _
  case n => exact key _
  case u => exact key _
  case en => exact key2 _ _ _ (key _)
  case eu => exact key2 _ _ _ (key _)
  case nu => exact key2 _ _ _ (key _)
  all_goals
    simp only [prismGravity, prism.gravity_ee, prism.gravity_nn, prism.gravity_uu]
    refine key2 _ _ _ ?_
    split
    · have key3 : ∀ k : Py (Fl A), (do
            let r ← k
            return GRAVITATIONAL_CONST * -ρ * (r + 4 * Fl.pi)) = Py.negated (do
            let r ← k
            return GRAVITATIONAL_CONST * ρ * (r + 4 * Fl.pi)) := by
        intro k
        simpa using key (do let r ← k; return r + 4 * Fl.pi)
      exact key3 _
    · exact key _

/-- non-vacuity: all of the above holds in IEEE binary64 -/
example (c : GComp) (e n u w E s N b t ρ : Fl Binary64) :
    prismGravity c e n u w E s N b t (-ρ) = Py.negated (prismGravity c e n u w E s N b t ρ) :=
  C29_negate_density_bits Binary64_signSymmetric c _ _ _ _ _ _ _ _ _ _

end Choclo
