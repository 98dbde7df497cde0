import Verif.Lemmas.NaN
import Verif.Lemmas.MixedField

/-! # NaN propagation through the operations and the prism kernels, for float32 and float64 arguments -/

namespace Choclo

variable {S D : Arith}

/-- The number, a float32 or a float64, is NaN. -/
def MFl.IsNaN (a : MFl S D) : Prop := a.toD = Fl.nan

/-- The call never returns a number that is not NaN (it returns NaN or raises). -/
def Mixed.OnlyNaN (call : Py (MFl S D)) : Prop := ∀ v, call = .ok v → v.IsNaN

namespace MFl

theorem isNaN_f32 {x : Fl S} : (f32 x : MFl S D).IsNaN ↔ x = Fl.nan := Iff.rfl
theorem isNaN_f64 {x : Fl D} : (f64 x : MFl S D).IsNaN ↔ x = Fl.nan := Iff.rfl

theorem isNaN_nan : (MFl.nan : MFl S D).IsNaN := rfl

theorem isNaN_widen {a : MFl S D} (h : a.IsNaN) : a.widen.IsNaN := h

theorem isNaN_neg {a : MFl S D} (h : a.IsNaN) : (-a).IsNaN := by
  cases a with
  | f32 x => cases isNaN_f32.1 h; rfl
  | f64 x => cases isNaN_f64.1 h; rfl

theorem isNaN_add_left {a b : MFl S D} (h : a.IsNaN) : (a + b).IsNaN := by
  cases a with
  | f32 x =>
    cases isNaN_f32.1 h
    cases b with
    | f32 y => exact Fl.nan_add y
    | f64 y => exact Fl.nan_add (A := D) y
  | f64 x =>
    cases isNaN_f64.1 h
    cases b with
    | f32 y => exact Fl.nan_add (A := D) y.up
    | f64 y => exact Fl.nan_add y

theorem isNaN_add_right {a b : MFl S D} (h : b.IsNaN) : (a + b).IsNaN := by
  cases b with
  | f32 x =>
    cases isNaN_f32.1 h
    cases a with
    | f32 y => exact Fl.add_nan y
    | f64 y => exact Fl.add_nan (A := D) y
  | f64 x =>
    cases isNaN_f64.1 h
    cases a with
    | f32 y => exact Fl.add_nan (A := D) y.up
    | f64 y => exact Fl.add_nan y

theorem isNaN_sub_left {a b : MFl S D} (h : a.IsNaN) : (a - b).IsNaN := by
  cases a with
  | f32 x =>
    cases isNaN_f32.1 h
    cases b with
    | f32 y => exact Fl.nan_sub y
    | f64 y => exact Fl.nan_sub (A := D) y
  | f64 x =>
    cases isNaN_f64.1 h
    cases b with
    | f32 y => exact Fl.nan_sub (A := D) y.up
    | f64 y => exact Fl.nan_sub y

theorem isNaN_sub_right {a b : MFl S D} (h : b.IsNaN) : (a - b).IsNaN := by
  cases b with
  | f32 x =>
    cases isNaN_f32.1 h
    cases a with
    | f32 y => exact Fl.sub_nan y
    | f64 y => exact Fl.sub_nan (A := D) y
  | f64 x =>
    cases isNaN_f64.1 h
    cases a with
    | f32 y => exact Fl.sub_nan (A := D) y.up
    | f64 y => exact Fl.sub_nan y

theorem isNaN_mul_left {a b : MFl S D} (h : a.IsNaN) : (a * b).IsNaN := by
  cases a with
  | f32 x =>
    cases isNaN_f32.1 h
    cases b with
    | f32 y => exact Fl.nan_mul y
    | f64 y => exact Fl.nan_mul (A := D) y
  | f64 x =>
    cases isNaN_f64.1 h
    cases b with
    | f32 y => exact Fl.nan_mul (A := D) y.up
    | f64 y => exact Fl.nan_mul y

theorem isNaN_mul_right {a b : MFl S D} (h : b.IsNaN) : (a * b).IsNaN := by
  rw [mul_comm']; exact isNaN_mul_left h

theorem isNaN_pow {a : MFl S D} (h : a.IsNaN) (n : ℕ) [NeZero n] : (a ^ n).IsNaN := by
  cases a with
  | f32 x => cases isNaN_f32.1 h; exact Fl.nan_pow (A := S) n
  | f64 x => cases isNaN_f64.1 h; exact Fl.nan_pow (A := D) n

theorem isNaN_sqrt {a : MFl S D} (h : a.IsNaN) : (MFl.sqrt a).IsNaN := by
  cases a with
  | f32 x => cases isNaN_f32.1 h; rfl
  | f64 x => cases isNaN_f64.1 h; rfl

theorem isNaN_log {a : MFl S D} (h : a.IsNaN) : (MFl.log a).IsNaN := by
  cases a with
  | f32 x => cases isNaN_f32.1 h; rfl
  | f64 x => cases isNaN_f64.1 h; rfl

theorem isNaN_arctan {a : MFl S D} (h : a.IsNaN) : (MFl.arctan a).IsNaN := by
  cases a with
  | f32 x => cases isNaN_f32.1 h; rfl
  | f64 x => cases isNaN_f64.1 h; rfl

theorem isNaN_cos {a : MFl S D} (h : a.IsNaN) : (MFl.cos a).IsNaN := by
  cases a with
  | f32 x => cases isNaN_f32.1 h; rfl
  | f64 x => cases isNaN_f64.1 h; rfl

theorem isNaN_sin {a : MFl S D} (h : a.IsNaN) : (MFl.sin a).IsNaN := by
  cases a with
  | f32 x => cases isNaN_f32.1 h; rfl
  | f64 x => cases isNaN_f64.1 h; rfl

theorem isNaN_radians {a : MFl S D} (h : a.IsNaN) : (MFl.radians a).IsNaN := by
  cases a with
  | f32 x => cases isNaN_f32.1 h; rfl
  | f64 x => cases isNaN_f64.1 h; rfl

theorem isNaN_div_right {a b : MFl S D} (h : b.IsNaN) : ∃ v, a /ₘ b = .ok v ∧ v.IsNaN := by
  cases b with
  | f32 x =>
    cases isNaN_f32.1 h
    cases a with
    | f32 y => exact ⟨.f32 Fl.nan, congrArg (Except.map MFl.f32) (Fl.div_nan y), rfl⟩
    | f64 y => exact ⟨.f64 Fl.nan, congrArg (Except.map MFl.f64) (Fl.div_nan (A := D) y), rfl⟩
  | f64 x =>
    cases isNaN_f64.1 h
    cases a with
    | f32 y => exact ⟨.f64 Fl.nan, congrArg (Except.map MFl.f64) (Fl.div_nan (A := D) y.up), rfl⟩
    | f64 y => exact ⟨.f64 Fl.nan, congrArg (Except.map MFl.f64) (Fl.div_nan y), rfl⟩

theorem isNaN_of_div_right {a b v : MFl S D} (h : b.IsNaN) (hv : a /ₘ b = .ok v) : v.IsNaN := by
  obtain ⟨w, hw, hn⟩ := isNaN_div_right (a := a) h
  rw [hw] at hv
  cases hv
  exact hn

theorem map_f32_ok {r : Py (Fl S)} {v : MFl S D} (h : r.map MFl.f32 = .ok v) : ∃ w, r = .ok w ∧ v = .f32 w := by
  cases r with
  | error e => cases h
  | ok w => cases h; exact ⟨w, rfl, rfl⟩

theorem map_f64_ok {r : Py (Fl D)} {v : MFl S D} (h : r.map MFl.f64 = .ok v) : ∃ w, r = .ok w ∧ v = .f64 w := by
  cases r with
  | error e => cases h
  | ok w => cases h; exact ⟨w, rfl, rfl⟩

theorem isNaN_of_div_left {a b v : MFl S D} (h : a.IsNaN) (hv : a /ₘ b = .ok v) : v.IsNaN := by
  cases a with
  | f32 x =>
    cases isNaN_f32.1 h
    cases b with
    | f32 y => obtain ⟨w, hw, rfl⟩ := map_f32_ok hv; exact isNaN_f32.2 (Fl.nan_div_ok hw)
    | f64 y => obtain ⟨w, hw, rfl⟩ := map_f64_ok hv; exact Fl.nan_div_ok (A := D) (a := y) hw
  | f64 x =>
    cases isNaN_f64.1 h
    cases b with
    | f32 y => obtain ⟨w, hw, rfl⟩ := map_f64_ok hv; exact Fl.nan_div_ok (A := D) (a := y.up) hw
    | f64 y => obtain ⟨w, hw, rfl⟩ := map_f64_ok hv; exact Fl.nan_div_ok hw

theorem eq_left_nan {a b : MFl S D} (h : a.IsNaN) : MFl.eq a b = false := by
  unfold MFl.eq; rw [h, Fl.nan_eq]
theorem eq_right_nan {a b : MFl S D} (h : b.IsNaN) : MFl.eq a b = false := by
  unfold MFl.eq; rw [h, Fl.eq_nan]
theorem lt_left_nan {a b : MFl S D} (h : a.IsNaN) : MFl.lt a b = false := by
  unfold MFl.lt; rw [h, Fl.nan_lt]
theorem lt_right_nan {a b : MFl S D} (h : b.IsNaN) : MFl.lt a b = false := by
  unfold MFl.lt; rw [h, Fl.lt_nan]

end MFl

open MFl

namespace Mixed.prism

theorem vrad_nan {x y z : MFl S D} (h : x.IsNaN ∨ y.IsNaN ∨ z.IsNaN) : (vrad x y z).IsNaN := by
  unfold vrad
  rcases h with h | h | h
  · exact isNaN_sqrt (isNaN_add_left (isNaN_add_left (isNaN_pow h 2)))
  · exact isNaN_sqrt (isNaN_add_left (isNaN_add_right (isNaN_pow h 2)))
  · exact isNaN_sqrt (isNaN_add_right (isNaN_pow h 2))

theorem safe_log_nan {x y z r : MFl S D} (hr : r.IsNaN) (h : x.IsNaN ∨ y.IsNaN ∨ z.IsNaN) :
    OnlyNaN (_safe_log x y z r) := by
  intro v hv
  unfold _safe_log at hv
  rw [if_neg (by rw [eq_left_nan hr]; simp)] at hv
  split at hv
  · rename_i hx
    split at hv
    · rename_i hyz
      rw [Bool.and_eq_true] at hyz
      rcases h with h | h | h
      · rw [lt_left_nan h] at hx; cases hx
      · rw [eq_left_nan h] at hyz; cases hyz.1
      · rw [eq_left_nan h] at hyz; cases hyz.2
    · obtain ⟨q, hq, hv⟩ := Py.bind_ok.1 hv
      cases Py.pure_ok.1 hv
      exact isNaN_widen (isNaN_log (isNaN_of_div_right (isNaN_sub_left hr) hq))
  · cases Py.pure_ok.1 hv
    exact isNaN_widen (isNaN_log (isNaN_add_right hr))

theorem safe_atan2_nan {y x : MFl S D} (h : x.IsNaN) : OnlyNaN (_safe_atan2 y x) := by
  intro v hv
  unfold _safe_atan2 at hv
  rw [if_neg (by rw [eq_left_nan h]; simp)] at hv
  obtain ⟨q, hq, hv⟩ := Py.bind_ok.1 hv
  cases Py.pure_ok.1 hv
  exact isNaN_widen (isNaN_arctan (isNaN_of_div_right h hq))

/-- the kernel is NaN as soon as one of the shifted coordinates is -/
def Taints (K : Kernel S D) : Prop :=
  ∀ x y z : MFl S D, (x.IsNaN ∨ y.IsNaN ∨ z.IsNaN) → OnlyNaN (vker K x y z)

theorem taints_pot : Taints (kernel_pot (S := S) (D := D)) := by
  intro x y z h v hv
  have hr := vrad_nan h
  unfold vker kernel_pot at hv
  simp only [Py.bind_ok, Py.pure_ok] at hv
  obtain ⟨l1, h1, l2, h2, l3, h3, a1, g1, a2, g2, a3, g3, rfl⟩ := hv
  have := safe_atan2_nan (isNaN_mul_right hr) _ g3
  exact isNaN_widen (isNaN_sub_right (isNaN_mul_right this))

theorem taints_e : Taints (kernel_e (S := S) (D := D)) := by
  intro x y z h v hv
  have hr := vrad_nan h
  unfold vker kernel_e at hv
  simp only [Py.bind_ok, Py.pure_ok] at hv
  obtain ⟨l1, h1, l2, h2, a3, g3, rfl⟩ := hv
  have := safe_atan2_nan (isNaN_mul_right hr) _ g3
  exact isNaN_widen (isNaN_neg (isNaN_sub_right (isNaN_mul_right this)))

theorem taints_n : Taints (kernel_n (S := S) (D := D)) := by
  intro x y z h v hv
  have hr := vrad_nan h
  unfold vker kernel_n at hv
  simp only [Py.bind_ok, Py.pure_ok] at hv
  obtain ⟨l1, h1, l2, h2, a3, g3, rfl⟩ := hv
  have := safe_atan2_nan (isNaN_mul_right hr) _ g3
  exact isNaN_widen (isNaN_neg (isNaN_sub_right (isNaN_mul_right this)))

theorem taints_u : Taints (kernel_u (S := S) (D := D)) := by
  intro x y z h v hv
  have hr := vrad_nan h
  unfold vker kernel_u at hv
  simp only [Py.bind_ok, Py.pure_ok] at hv
  obtain ⟨l1, h1, l2, h2, a3, g3, rfl⟩ := hv
  have := safe_atan2_nan (isNaN_mul_right hr) _ g3
  exact isNaN_widen (isNaN_neg (isNaN_sub_right (isNaN_mul_right this)))

theorem taints_ee : Taints (kernel_ee (S := S) (D := D)) := by
  intro x y z h v hv
  have hr := vrad_nan h
  unfold vker kernel_ee at hv
  rw [if_neg (by rw [eq_left_nan hr]; simp)] at hv
  simp only [Py.bind_ok, Py.pure_ok] at hv
  obtain ⟨a, g, rfl⟩ := hv
  exact isNaN_widen (isNaN_neg (safe_atan2_nan (isNaN_mul_right hr) _ g))

theorem taints_nn : Taints (kernel_nn (S := S) (D := D)) := by
  intro x y z h v hv
  have hr := vrad_nan h
  unfold vker kernel_nn at hv
  rw [if_neg (by rw [eq_left_nan hr]; simp)] at hv
  simp only [Py.bind_ok, Py.pure_ok] at hv
  obtain ⟨a, g, rfl⟩ := hv
  exact isNaN_widen (isNaN_neg (safe_atan2_nan (isNaN_mul_right hr) _ g))

theorem taints_uu : Taints (kernel_uu (S := S) (D := D)) := by
  intro x y z h v hv
  have hr := vrad_nan h
  unfold vker kernel_uu at hv
  rw [if_neg (by rw [eq_left_nan hr]; simp)] at hv
  simp only [Py.bind_ok, Py.pure_ok] at hv
  obtain ⟨a, g, rfl⟩ := hv
  exact isNaN_widen (isNaN_neg (safe_atan2_nan (isNaN_mul_right hr) _ g))

theorem taints_en : Taints (kernel_en (S := S) (D := D)) := by
  intro x y z h v hv
  have hr := vrad_nan h
  unfold vker kernel_en at hv
  rw [if_neg (by rw [eq_left_nan hr]; simp)] at hv
  simp only [Py.bind_ok, Py.pure_ok] at hv
  obtain ⟨a, g, rfl⟩ := hv
  exact isNaN_widen (safe_log_nan hr (by tauto) _ g)

theorem taints_eu : Taints (kernel_eu (S := S) (D := D)) := by
  intro x y z h v hv
  have hr := vrad_nan h
  unfold vker kernel_eu at hv
  rw [if_neg (by rw [eq_left_nan hr]; simp)] at hv
  simp only [Py.bind_ok, Py.pure_ok] at hv
  obtain ⟨a, g, rfl⟩ := hv
  exact isNaN_widen (safe_log_nan hr (by tauto) _ g)

theorem taints_nu : Taints (kernel_nu (S := S) (D := D)) := by
  intro x y z h v hv
  have hr := vrad_nan h
  unfold vker kernel_nu at hv
  rw [if_neg (by rw [eq_left_nan hr]; simp)] at hv
  simp only [Py.bind_ok, Py.pure_ok] at hv
  obtain ⟨a, g, rfl⟩ := hv
  exact isNaN_widen (safe_log_nan hr (by tauto) _ g)

theorem taints_enu : Taints (kernel_enu (S := S) (D := D)) := by
  intro x y z h v hv
  have hr := vrad_nan h
  unfold vker kernel_enu at hv
  rw [if_neg (by rw [eq_left_nan hr]; simp)] at hv
  simp only [Py.bind_ok, Py.pure_ok] at hv
  obtain ⟨a, g, rfl⟩ := hv
  exact isNaN_widen (isNaN_of_div_right hr g)

/-- `_kernel_iij` with NaN in its first or second coordinate -/
theorem kernel_iij_nan {x y z r : MFl S D} (hr : r.IsNaN) (h : x.IsNaN ∨ y.IsNaN) :
    OnlyNaN (_kernel_iij x y z r) := by
  intro v hv
  unfold _kernel_iij at hv
  rw [if_neg (by rw [eq_left_nan hr]; simp),
    if_neg (by rcases h with h | h <;> rw [eq_left_nan h] <;> simp)] at hv
  simp only [Py.bind_ok, Py.pure_ok] at hv
  obtain ⟨a, g, rfl⟩ := hv
  exact isNaN_widen (isNaN_of_div_right (isNaN_mul_right hr) g)

/-- `_kernel_iii` with NaN in its first coordinate -/
theorem kernel_iii_nan {x y z r : MFl S D} (hr : r.IsNaN) (h : x.IsNaN) : OnlyNaN (_kernel_iii x y z r) := by
  intro v hv
  unfold _kernel_iii at hv
  rw [if_neg (by rw [eq_left_nan hr]; simp), if_neg (by rw [eq_left_nan h]; simp)] at hv
  simp only [Py.bind_ok, Py.pure_ok] at hv
  obtain ⟨a, g, rfl⟩ := hv
  exact isNaN_widen (isNaN_of_div_right (isNaN_mul_right hr) g)

/-- at least one of three kernels is NaN as soon as one of the shifted coordinates is -/
def Taints3 (K1 K2 K3 : Kernel S D) : Prop :=
  ∀ x y z : MFl S D, (x.IsNaN ∨ y.IsNaN ∨ z.IsNaN) →
    OnlyNaN (vker K1 x y z) ∨ OnlyNaN (vker K2 x y z) ∨ OnlyNaN (vker K3 x y z)

theorem taints3_ee : Taints3 (kernel_eee (S := S) (D := D)) kernel_een kernel_eeu := by
  intro x y z h
  have hr := vrad_nan h
  unfold vker kernel_eee kernel_een kernel_eeu
  rcases h with h | h | h
  · exact .inl (kernel_iii_nan hr h)
  · exact .inr (.inl (kernel_iij_nan hr (.inr h)))
  · exact .inr (.inr (kernel_iij_nan hr (.inr h)))

theorem taints3_nn : Taints3 (kernel_enn (S := S) (D := D)) kernel_nnn kernel_nnu := by
  intro x y z h
  have hr := vrad_nan h
  unfold vker kernel_enn kernel_nnn kernel_nnu
  rcases h with h | h | h
  · exact .inl (kernel_iij_nan hr (.inr h))
  · exact .inr (.inl (kernel_iii_nan hr h))
  · exact .inr (.inr (kernel_iij_nan hr (.inr h)))

theorem taints3_uu : Taints3 (kernel_euu (S := S) (D := D)) kernel_nuu kernel_uuu := by
  intro x y z h
  have hr := vrad_nan h
  unfold vker kernel_euu kernel_nuu kernel_uuu
  rcases h with h | h | h
  · exact .inl (kernel_iij_nan hr (.inr h))
  · exact .inr (.inl (kernel_iij_nan hr (.inr h)))
  · exact .inr (.inr (kernel_iii_nan hr h))

theorem evaluate_nan {K : Kernel S D} (hK : Taints K) {e n u w E s N b t : MFl S D}
    (h : ∃ a ∈ [e, n, u, w, E, s, N, b, t], a.IsNaN) {v : MFl S D}
    (hv : _evaluate_kernel e n u w E s N b t K = .ok v) : v.IsNaN := by
  rw [evaluate_kernel_unroll] at hv
  simp only [Py.bind_ok, Py.pure_ok] at hv
  obtain ⟨k1, h1, k2, h2, k3, h3, k4, h4, k5, h5, k6, h6, k7, h7, k8, h8, rfl⟩ := hv
  have one : (E - e).IsNaN ∨ (N - n).IsNaN ∨ (t - u).IsNaN →
      (0 + sgn 0 * k1 + sgn 1 * k2 + sgn 1 * k3 + sgn 2 * k4 + sgn 1 * k5 + sgn 2 * k6 + sgn 2 * k7
        + sgn 3 * k8 : MFl S D).IsNaN := fun hx =>
    isNaN_add_left (isNaN_add_left (isNaN_add_left (isNaN_add_left (isNaN_add_left (isNaN_add_left (isNaN_add_left
      (isNaN_add_right (isNaN_mul_right (hK _ _ _ hx _ h1)))))))))
  have eight : (w - e).IsNaN ∨ (s - n).IsNaN ∨ (b - u).IsNaN →
      (0 + sgn 0 * k1 + sgn 1 * k2 + sgn 1 * k3 + sgn 2 * k4 + sgn 1 * k5 + sgn 2 * k6 + sgn 2 * k7
        + sgn 3 * k8 : MFl S D).IsNaN := fun hx =>
    isNaN_add_right (isNaN_mul_right (hK _ _ _ hx _ h8))
  simp only [List.mem_cons, List.not_mem_nil, or_false, exists_eq_or_imp, exists_eq_left] at h
  rcases h with h | h | h | h | h | h | h | h | h
  · exact one (.inl (isNaN_sub_right h))
  · exact one (.inr (.inl (isNaN_sub_right h)))
  · exact one (.inr (.inr (isNaN_sub_right h)))
  · exact eight (.inl (isNaN_sub_left h))
  · exact one (.inl (isNaN_sub_left h))
  · exact eight (.inr (.inl (isNaN_sub_left h)))
  · exact one (.inr (.inl (isNaN_sub_left h)))
  · exact eight (.inr (.inr (isNaN_sub_left h)))
  · exact one (.inr (.inr (isNaN_sub_left h)))

theorem component_nan {K1 K2 K3 : Kernel S D} (hK : Taints3 K1 K2 K3)
    {e n u w E s N b t Me Mn Mu : MFl S D}
    (h : ∃ a ∈ [e, n, u, w, E, s, N, b, t, Me, Mn, Mu], a.IsNaN) {v : MFl S D}
    (hv : _calculate_component e n u w E s N b t Me Mn Mu K1 K2 K3 = .ok v) : v.IsNaN := by
  rw [calculate_component_steps] at hv
  simp only [Py.bind_ok] at hv
  obtain ⟨a1, h1, a2, h2, a3, h3, a4, h4, a5, h5, a6, h6, a7, h7, h8⟩ := hv
  have hacc : ∀ {m : ℕ} {x y z a k : MFl S D}, compStep m x y z Me Mn Mu K1 K2 K3 a = .ok k →
      a.IsNaN → k.IsNaN := by
    intro m x y z a k hk ha
    unfold compStep at hk
    simp only [Py.bind_ok, Py.pure_ok] at hk
    obtain ⟨k1, _, k2, _, k3, _, rfl⟩ := hk
    exact isNaN_add_left ha
  have hf : ∀ {m : ℕ} {x y z a k : MFl S D}, compStep m x y z Me Mn Mu K1 K2 K3 a = .ok k →
      ((x.IsNaN ∨ y.IsNaN ∨ z.IsNaN) ∨ Me.IsNaN ∨ Mn.IsNaN ∨ Mu.IsNaN) → k.IsNaN := by
    intro m x y z a k hk hx
    unfold compStep at hk
    simp only [Py.bind_ok, Py.pure_ok] at hk
    obtain ⟨k1, hk1, k2, hk2, k3, hk3, rfl⟩ := hk
    refine isNaN_add_right (isNaN_mul_right ?_)
    rcases hx with hxyz | h | h | h
    · rcases hK x y z hxyz with h | h | h
      · exact isNaN_add_left (isNaN_add_left (isNaN_mul_right (h _ hk1)))
      · exact isNaN_add_left (isNaN_add_right (isNaN_mul_right (h _ hk2)))
      · exact isNaN_add_right (isNaN_mul_right (h _ hk3))
    · exact isNaN_add_left (isNaN_add_left (isNaN_mul_left h))
    · exact isNaN_add_left (isNaN_add_right (isNaN_mul_left h))
    · exact isNaN_add_right (isNaN_mul_left h)
  have hend : a1.IsNaN → v.IsNaN := fun h =>
    hacc h8 (hacc h7 (hacc h6 (hacc h5 (hacc h4 (hacc h3 (hacc h2 h))))))
  simp only [List.mem_cons, List.not_mem_nil, or_false, exists_eq_or_imp, exists_eq_left] at h
  rcases h with h | h | h | h | h | h | h | h | h | h | h | h
  · exact hend (hf h1 (.inl (.inl (isNaN_sub_right h))))
  · exact hend (hf h1 (.inl (.inr (.inl (isNaN_sub_right h)))))
  · exact hend (hf h1 (.inl (.inr (.inr (isNaN_sub_right h)))))
  · exact hf h8 (.inl (.inl (isNaN_sub_left h)))
  · exact hend (hf h1 (.inl (.inl (isNaN_sub_left h))))
  · exact hf h8 (.inl (.inr (.inl (isNaN_sub_left h))))
  · exact hend (hf h1 (.inl (.inr (.inl (isNaN_sub_left h)))))
  · exact hf h8 (.inl (.inr (.inr (isNaN_sub_left h))))
  · exact hend (hf h1 (.inl (.inr (.inr (isNaN_sub_left h)))))
  · exact hend (hf h1 (.inr (.inl h)))
  · exact hend (hf h1 (.inr (.inr (.inl h))))
  · exact hend (hf h1 (.inr (.inr (.inr h))))

end Mixed.prism
end Choclo
