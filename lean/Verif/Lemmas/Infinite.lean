import Verif.Lemmas.NoRaise

/-! # Infinite arguments (in every arithmetic) -/

namespace Choclo

variable {A : Arith}

namespace Fl

/-- The argument is an infinity. -/
def IsInf (a : Fl A) : Prop := ∃ s, a = inf s

/-- NaN, or the infinity with the given sign. -/
def Toward (s : Bool) (a : Fl A) : Prop := a = nan ∨ a = inf s

theorem inf_add_same (s : Bool) : (inf s : Fl A) + inf s = inf s := if_pos rfl
theorem inf_add_opp {s t : Bool} (h : s ≠ t) : (inf s : Fl A) + inf t = nan := if_neg h
theorem inf_add_fin (s : Bool) (x : ℝ) : (inf s : Fl A) + fin x = inf s := rfl
theorem fin_add_inf (s : Bool) (x : ℝ) : (fin x : Fl A) + inf s = inf s := rfl

theorem Toward.add_left {s : Bool} {a : Fl A} (h : Toward s a) (b : Fl A) : Toward s (a + b) := by
  rcases h with rfl | rfl
  · exact .inl (nan_add b)
  · cases b with
    | nan => exact .inl rfl
    | fin x => exact .inr rfl
    | inf t =>
      by_cases hs : s = t
      · exact .inr (if_pos hs)
      · exact .inl (if_neg hs)

theorem Toward.add_right {s : Bool} {b : Fl A} (h : Toward s b) (a : Fl A) : Toward s (a + b) := by
  rcases h with rfl | rfl
  · exact .inl (add_nan a)
  · cases a with
    | nan => exact .inl rfl
    | fin x => exact .inr rfl
    | inf t =>
      by_cases hs : t = s
      · exact .inr ((if_pos hs).trans (by rw [hs]))
      · exact .inl (if_neg hs)

theorem Toward.neg {s : Bool} {a : Fl A} (h : Toward s a) : Toward (!s) (-a) := by
  rcases h with rfl | rfl
  · exact .inl rfl
  · exact .inr rfl

theorem Toward.both {a : Fl A} (h : Toward true a) (h' : Toward false a) : a = nan := by
  rcases h with h | h
  · exact h
  · rcases h' with h' | h'
    · exact h'
    · rw [h] at h'; cases h'

theorem Toward.clash {s : Bool} {a : Fl A} (h : Toward s a) (h' : Toward (!s) a) : a = nan := by
  cases s
  · exact Toward.both h' h
  · exact Toward.both h h'

/-- a number times something heading for an infinity heads for an infinity of a sign that depends on the number
and the sign of that infinity only -/
theorem Toward.mul (m : Fl A) (s : Bool) : ∃ t, ∀ a : Fl A, Toward s a → Toward t (m * a) := by
  cases m with
  | nan => exact ⟨s, fun a _ => .inl (nan_mul a)⟩
  | inf r =>
    refine ⟨xor r s, fun a h => ?_⟩
    rcases h with rfl | rfl
    · exact .inl (mul_nan _)
    · exact .inr rfl
  | fin x =>
    by_cases h0 : x = 0
    · refine ⟨s, fun a h => .inl ?_⟩
      rcases h with rfl | rfl
      · exact mul_nan _
      · exact if_pos h0
    · by_cases h1 : 0 < x
      · refine ⟨s, fun a h => ?_⟩
        rcases h with rfl | rfl
        · exact .inl (mul_nan _)
        · exact .inr ((if_neg h0).trans (if_pos h1))
      · refine ⟨!s, fun a h => ?_⟩
        rcases h with rfl | rfl
        · exact .inl (mul_nan _)
        · exact .inr ((if_neg h0).trans (if_neg h1))

/-- NaN or an infinity -/
def Wild (a : Fl A) : Prop := a = nan ∨ IsInf a

theorem Wild.cases {a : Fl A} (h : a.Wild) : a = nan ∨ ∃ s, a = inf s := h

theorem IsInf.sub_left {a : Fl A} (h : a.IsInf) (b : Fl A) : (a - b).Wild := by
  obtain ⟨s, rfl⟩ := h
  cases b with
  | nan => exact .inl rfl
  | fin x => exact .inr ⟨s, rfl⟩
  | inf t =>
    by_cases hs : s = !t
    · exact .inr ⟨s, if_pos hs⟩
    · exact .inl (if_neg hs)

theorem IsInf.sub_right {b : Fl A} (h : b.IsInf) (a : Fl A) : (a - b).Wild := by
  obtain ⟨s, rfl⟩ := h
  cases a with
  | nan => exact .inl rfl
  | fin x => exact .inr ⟨!s, rfl⟩
  | inf t =>
    by_cases hs : t = !s
    · exact .inr ⟨t, if_pos hs⟩
    · exact .inl (if_neg hs)

/-- an infinity times anything is an infinity or NaN -/
theorem wild_mul {a : Fl A} (h : a.Wild) (b : Fl A) : (a * b).Wild := by
  rcases h with rfl | ⟨s, rfl⟩
  · exact .inl (nan_mul b)
  · cases b with
    | nan => exact .inl rfl
    | inf t => exact .inr ⟨_, rfl⟩
    | fin x =>
      by_cases h0 : x = 0
      · exact .inl (if_pos h0)
      · by_cases h1 : 0 < x
        · exact .inr ⟨s, (if_neg h0).trans (if_pos h1)⟩
        · exact .inr ⟨!s, (if_neg h0).trans (if_neg h1)⟩

theorem mul_wild {b : Fl A} (h : b.Wild) (a : Fl A) : (a * b).Wild := by
  rw [mul_comm']; exact wild_mul h a

/-- a wild numerator over a wild denominator is NaN -/
theorem wild_div {a b : Fl A} (ha : a.Wild) (hb : b.Wild) : a /. b = .ok nan := by
  rcases hb with rfl | ⟨s, rfl⟩
  · exact div_nan a
  · rcases ha with rfl | ⟨t, rfl⟩ <;> rfl

/-- anything over a wild denominator is zero or NaN -/
theorem div_wild (a : Fl A) {b : Fl A} (hb : b.Wild) : a /. b = .ok nan ∨ a /. b = .ok (fin 0) := by
  rcases hb with rfl | ⟨s, rfl⟩
  · exact .inl (div_nan a)
  · cases a with
    | nan => exact .inl rfl
    | inf t => exact .inl rfl
    | fin x => exact .inr rfl

theorem wild_eq_zero {a : Fl A} (h : a.Wild) : eq a 0 = false := by
  rcases h with rfl | ⟨s, rfl⟩ <;> rfl

theorem wild_mul_zero {a : Fl A} (h : a.Wild) : a * fin 0 = nan := by
  rcases h with rfl | ⟨s, rfl⟩
  · rfl
  · exact if_pos rfl

theorem half_mul_wild {a : Fl A} (h : a.Wild) : (half * a).Wild := mul_wild h _

theorem wild_sq {a : Fl A} (h : a.Wild) : (a ^ 2 : Fl A).Wild := by
  rcases h with rfl | ⟨s, rfl⟩
  · exact .inl rfl
  · exact .inr ⟨_, rfl⟩

theorem wild_pow {a : Fl A} (h : a.Wild) (n : ℕ) [NeZero n] : (a ^ n : Fl A).Wild := by
  rcases h with rfl | ⟨s, rfl⟩
  · exact .inl (nan_pow n)
  · exact .inr ⟨_, if_neg (NeZero.ne n)⟩

end Fl

namespace prism

open Fl

theorem inf_sq (s : Bool) : (inf s ^ 2 : Fl A) = inf false := by
  show inf (s && decide (2 % 2 = 1)) = _
  cases s <;> rfl

/-- the radius at a vertex at infinity -/
theorem vrad_inf {x y z : Fl A} (h : x.IsInf ∨ y.IsInf ∨ z.IsInf) : Toward false (vrad x y z) := by
  have hs : Toward false (x ^ 2 + y ^ 2 + z ^ 2 : Fl A) := by
    rcases h with ⟨s, rfl⟩ | ⟨s, rfl⟩ | ⟨s, rfl⟩
    · exact Toward.add_left (Toward.add_left (.inr (inf_sq s)) _) _
    · exact Toward.add_left (Toward.add_right (.inr (inf_sq s)) _) _
    · exact Toward.add_right (.inr (inf_sq s)) _
  unfold vrad
  rcases hs with hs | hs <;> rw [hs]
  · exact .inl rfl
  · exact .inr rfl

theorem vrad_wild {x y z : Fl A} (h : x.IsInf ∨ y.IsInf ∨ z.IsInf) : (vrad x y z).Wild := by
  rcases vrad_inf h with h | h
  · exact .inl h
  · exact .inr ⟨_, h⟩

/-- the logarithms of a vertex at infinity -/
theorem safe_log_inf {x y z r : Fl A} (h : x.IsInf ∨ y.IsInf ∨ z.IsInf) (hr : Toward false r)
    {v : Fl A} (hv : _safe_log x y z r = .ok v) : Toward (lt x 0) v := by
  have hrw : r.Wild := by
    rcases hr with h | h
    · exact .inl h
    · exact .inr ⟨_, h⟩
  unfold _safe_log at hv
  rw [if_neg (by rw [wild_eq_zero hrw]; simp)] at hv
  split at hv
  · rename_i hx
    rw [hx]
    have hrx : Toward false (r - x) := by
      show Toward false (r + (-x))
      exact hr.add_left _
    split at hv
    · rename_i hyz
      rw [Bool.and_eq_true] at hyz
      have hxi : x.IsInf := by
        rcases h with h | ⟨s, rfl⟩ | ⟨s, rfl⟩
        · exact h
        · exact absurd hyz.1 (by simp [wild_eq_zero (.inr ⟨s, rfl⟩ : (inf s : Fl A).Wild)])
        · exact absurd hyz.2 (by simp [wild_eq_zero (.inr ⟨s, rfl⟩ : (inf s : Fl A).Wild)])
      obtain ⟨s, rfl⟩ := hxi
      cases s
      · cases hx
      · cases hv
        refine .inr ?_
        have h2 : (-2 : Fl A) * inf true = inf false := by
          show (if (-((2 : ℕ) : ℝ)) = 0 then _ else if 0 < -((2 : ℕ) : ℝ) then _ else _) = _
          rw [if_neg (by norm_num), if_neg (by norm_num)]
          rfl
        rw [h2]; rfl
    · simp only [Py.bind_ok, Py.pure_ok] at hv
      obtain ⟨q, hq, rfl⟩ := hv
      have hrxw : (r - x).Wild := by
        rcases hrx with h | h
        · exact .inl h
        · exact .inr ⟨_, h⟩
      rcases div_wild (y ^ 2 + z ^ 2 : Fl A) hrxw with h' | h' <;> rw [h'] at hq <;> cases hq
      · exact .inl rfl
      · refine .inr ?_
        show (if (0 : ℝ) < 0 then _ else if (0 : ℝ) = 0 then _ else _) = _
        rw [if_neg (lt_irrefl _), if_pos rfl]
  · rename_i hx
    have hx' : lt x 0 = false := by simpa using hx
    rw [hx']
    cases hv
    rcases (hr.add_right x) with h | h <;> rw [h]
    · exact .inl rfl
    · exact .inr rfl

/-- the arctangent with a wild denominator is zero or NaN -/
theorem safe_atan2_wild (hA : A.atan 0 = .fin 0) (y : Fl A) {x : Fl A} (hx : x.Wild) {v : Fl A}
    (hv : _safe_atan2 y x = .ok v) : v = nan ∨ v = fin 0 := by
  unfold _safe_atan2 at hv
  rw [if_neg (by rw [wild_eq_zero hx]; simp)] at hv
  simp only [Py.bind_ok, Py.pure_ok] at hv
  obtain ⟨q, hq, rfl⟩ := hv
  rcases div_wild y hx with h | h <;> rw [h] at hq <;> cases hq
  · exact .inl rfl
  · exact .inr hA

theorem safe_atan2_wild_wild {y x : Fl A} (hy : y.Wild) (hx : x.Wild) : _safe_atan2 y x = .ok nan := by
  unfold _safe_atan2
  rw [if_neg (by rw [wild_eq_zero hx]; simp), wild_div hy hx]
  rfl

/-- `x_i * arctan(x_j x_k / (x_i r))` at a vertex at infinity -/
theorem mul_atan_inf (hA : A.atan 0 = .fin 0) {x a b r : Fl A} (h : x.IsInf ∨ a.IsInf ∨ b.IsInf) (hr : r.Wild) {v : Fl A}
    (hv : _safe_atan2 (a * b) (x * r) = .ok v) : x * v = nan := by
  have hxr : (x * r).Wild := mul_wild hr x
  rcases h with h | h | h
  · rcases safe_atan2_wild hA _ hxr hv with rfl | rfl
    · exact mul_nan x
    · exact wild_mul_zero (.inr h)
  · rw [safe_atan2_wild_wild (wild_mul (.inr h) b) hxr] at hv
    cases hv; exact mul_nan x
  · rw [safe_atan2_wild_wild (mul_wild (.inr h) a) hxr] at hv
    cases hv; exact mul_nan x

/-- every vertex at infinity makes the kernel NaN -/
def InfTaints (K : Kernel A) : Prop :=
  ∀ x y z v : Fl A, (x.IsInf ∨ y.IsInf ∨ z.IsInf) → vker K x y z = .ok v → v = nan

theorem infTaints_e (hA : A.atan 0 = .fin 0) : InfTaints (kernel_e (A := A)) := by
  intro x y z v h hv
  unfold vker kernel_e at hv
  simp only [Py.bind_ok, Py.pure_ok] at hv
  obtain ⟨a, ha, b, hb, c, hc, rfl⟩ := hv
  rw [mul_atan_inf hA h (vrad_wild h) hc]
  simp

theorem infTaints_n (hA : A.atan 0 = .fin 0) : InfTaints (kernel_n (A := A)) := by
  intro x y z v h hv
  unfold vker kernel_n at hv
  simp only [Py.bind_ok, Py.pure_ok] at hv
  obtain ⟨a, ha, b, hb, c, hc, rfl⟩ := hv
  rw [mul_atan_inf hA (by tauto) (vrad_wild h) hc]
  simp

theorem infTaints_u (hA : A.atan 0 = .fin 0) : InfTaints (kernel_u (A := A)) := by
  intro x y z v h hv
  unfold vker kernel_u at hv
  simp only [Py.bind_ok, Py.pure_ok] at hv
  obtain ⟨a, ha, b, hb, c, hc, rfl⟩ := hv
  rw [mul_atan_inf hA (by tauto) (vrad_wild h) hc]
  simp

theorem half_sq_atan (hA : A.atan 0 = .fin 0) {x y r v : Fl A} (hx : x.IsInf) (hr : r.Wild)
    (hv : _safe_atan2 y (x * r) = .ok v) : Fl.half * x ^ 2 * v = nan := by
  rcases safe_atan2_wild hA _ (mul_wild hr x) hv with rfl | rfl
  · exact mul_nan _
  · exact wild_mul_zero (mul_wild (wild_sq (.inr hx)) _)

theorem infTaints_pot (hA : A.atan 0 = .fin 0) : InfTaints (kernel_pot (A := A)) := by
  intro x y z v h hv
  have hr := vrad_wild h
  unfold vker kernel_pot at hv
  simp only [Py.bind_ok, Py.pure_ok] at hv
  obtain ⟨a, ha, b, hb, c, hc, d, hd, e, he, f, hf, rfl⟩ := hv
  rcases h with h | h | h
  · rw [half_sq_atan hA h hr hd]; simp
  · rw [half_sq_atan hA h hr he]; simp
  · rw [half_sq_atan hA h hr hf]; simp

/-- the diagonal kernel of an axis is NaN when another coordinate is infinite, and zero or NaN when its own is -/
theorem kernel_ee_inf (hA : A.atan 0 = .fin 0) {x y z v : Fl A} (hv : vker kernel_ee x y z = .ok v) :
    ((y.IsInf ∨ z.IsInf) → v = nan) ∧ (x.IsInf → v = nan ∨ v = fin 0) := by
  unfold vker kernel_ee at hv
  have key : ∀ h : x.IsInf ∨ y.IsInf ∨ z.IsInf, ∃ a, _safe_atan2 (y * z) (x * vrad x y z) = .ok a ∧ -a = v := by
    intro h
    rw [if_neg (by rw [wild_eq_zero (vrad_wild h)]; simp)] at hv
    simpa only [Py.bind_ok, Py.pure_ok] using hv
  constructor
  · intro h
    obtain ⟨a, ha, rfl⟩ := key (.inr h)
    rw [safe_atan2_wild_wild ?_ (mul_wild (vrad_wild (.inr h)) x)] at ha
    · cases ha; rfl
    · rcases h with h | h
      · exact wild_mul (.inr h) z
      · exact mul_wild (.inr h) y
  · intro h
    obtain ⟨a, ha, rfl⟩ := key (.inl h)
    rcases safe_atan2_wild hA _ (mul_wild (vrad_wild (.inl h)) x) ha with rfl | rfl
    · exact .inl rfl
    · refine .inr ?_
      show fin (-0) = _
      rw [neg_zero]

theorem kernel_nn_inf (hA : A.atan 0 = .fin 0) {x y z v : Fl A} (hv : vker kernel_nn x y z = .ok v) :
    ((x.IsInf ∨ z.IsInf) → v = nan) ∧ (y.IsInf → v = nan ∨ v = fin 0) := by
  unfold vker kernel_nn at hv
  have key : ∀ h : x.IsInf ∨ y.IsInf ∨ z.IsInf, ∃ a, _safe_atan2 (x * z) (y * vrad x y z) = .ok a ∧ -a = v := by
    intro h
    rw [if_neg (by rw [wild_eq_zero (vrad_wild h)]; simp)] at hv
    simpa only [Py.bind_ok, Py.pure_ok] using hv
  constructor
  · intro h
    obtain ⟨a, ha, rfl⟩ := key (by tauto)
    rw [safe_atan2_wild_wild ?_ (mul_wild (vrad_wild (by tauto)) y)] at ha
    · cases ha; rfl
    · rcases h with h | h
      · exact wild_mul (.inr h) z
      · exact mul_wild (.inr h) x
  · intro h
    obtain ⟨a, ha, rfl⟩ := key (by tauto)
    rcases safe_atan2_wild hA _ (mul_wild (vrad_wild (by tauto)) y) ha with rfl | rfl
    · exact .inl rfl
    · refine .inr ?_
      show fin (-0) = _
      rw [neg_zero]

theorem kernel_uu_inf (hA : A.atan 0 = .fin 0) {x y z v : Fl A} (hv : vker kernel_uu x y z = .ok v) :
    ((x.IsInf ∨ y.IsInf) → v = nan) ∧ (z.IsInf → v = nan ∨ v = fin 0) := by
  unfold vker kernel_uu at hv
  have key : ∀ h : x.IsInf ∨ y.IsInf ∨ z.IsInf, ∃ a, _safe_atan2 (x * y) (z * vrad x y z) = .ok a ∧ -a = v := by
    intro h
    rw [if_neg (by rw [wild_eq_zero (vrad_wild h)]; simp)] at hv
    simpa only [Py.bind_ok, Py.pure_ok] using hv
  constructor
  · intro h
    obtain ⟨a, ha, rfl⟩ := key (by tauto)
    rw [safe_atan2_wild_wild ?_ (mul_wild (vrad_wild (by tauto)) z)] at ha
    · cases ha; rfl
    · rcases h with h | h
      · exact wild_mul (.inr h) y
      · exact mul_wild (.inr h) x
  · intro h
    obtain ⟨a, ha, rfl⟩ := key (by tauto)
    rcases safe_atan2_wild hA _ (mul_wild (vrad_wild (by tauto)) z) ha with rfl | rfl
    · exact .inl rfl
    · refine .inr ?_
      show fin (-0) = _
      rw [neg_zero]

/-- the off-diagonal kernels at a vertex at infinity head for an infinity whose sign is decided by one coordinate -/
theorem kernel_en_inf {x y z v : Fl A} (h : x.IsInf ∨ y.IsInf ∨ z.IsInf)
    (hv : vker kernel_en x y z = .ok v) : Toward (lt z 0) v := by
  unfold vker kernel_en at hv
  rw [if_neg (by rw [wild_eq_zero (vrad_wild h)]; simp)] at hv
  change _safe_log _ _ _ _ = _ at hv
  exact safe_log_inf (by tauto) (vrad_inf h) hv

theorem kernel_eu_inf {x y z v : Fl A} (h : x.IsInf ∨ y.IsInf ∨ z.IsInf)
    (hv : vker kernel_eu x y z = .ok v) : Toward (lt y 0) v := by
  unfold vker kernel_eu at hv
  rw [if_neg (by rw [wild_eq_zero (vrad_wild h)]; simp)] at hv
  change _safe_log _ _ _ _ = _ at hv
  exact safe_log_inf (by tauto) (vrad_inf h) hv

theorem kernel_nu_inf {x y z v : Fl A} (h : x.IsInf ∨ y.IsInf ∨ z.IsInf)
    (hv : vker kernel_nu x y z = .ok v) : Toward (lt x 0) v := by
  unfold vker kernel_nu at hv
  rw [if_neg (by rw [wild_eq_zero (vrad_wild h)]; simp)] at hv
  change _safe_log _ _ _ _ = _ at hv
  exact safe_log_inf h (vrad_inf h) hv

end prism
end Choclo
