import Verif.Props.Infinite2
import Verif.Lemmas.Absorb

/-! # C103: infinite coordinates and the magnetic gradient functions -/

namespace Choclo

variable {A : Arith}

namespace prism
open Fl

theorem wild_add {a : Fl A} (h : a.Wild) (b : Fl A) : (a + b).Wild := by
  rcases h with rfl | ⟨s, rfl⟩
  · exact .inl (nan_add b)
  · rcases Toward.add_left (s := s) (a := (inf s : Fl A)) (.inr rfl) b with h | h
    · exact .inl h
    · exact .inr ⟨s, h⟩

theorem wild_neg {a : Fl A} (h : a.Wild) : (-a).Wild := by
  rcases h with rfl | ⟨s, rfl⟩
  · exact .inl rfl
  · exact .inr ⟨!s, rfl⟩

theorem vrad_wild' {x y z : Fl A} (h : x.Wild ∨ y.Wild ∨ z.Wild) : (vrad x y z).Wild := by
  by_cases hn : x = nan ∨ y = nan ∨ z = nan
  · exact .inl (vrad_nan hn)
  · refine vrad_wild ?_
    unfold Wild at h
    tauto

theorem iii_wild {x y z r v : Fl A} (hx : eq x 0 = false) (hr : r.Wild)
    (h : x.Wild ∨ y.Wild ∨ z.Wild) (hv : _kernel_iii x y z r = .ok v) : v = nan := by
  unfold _kernel_iii at hv
  rw [wild_eq_zero hr, hx] at hv
  have hs : (2 * x ^ 2 + y ^ 2 + z ^ 2 : Fl A).Wild ∨ ((-y) * z : Fl A).Wild := by
    rcases h with h | h | h
    · exact .inl (wild_add (wild_add (mul_wild (wild_sq h) _) _) _)
    · exact .inr (wild_mul (wild_neg h) _)
    · exact .inr (mul_wild h _)
  have hnum : ((-y) * z * (2 * x ^ 2 + y ^ 2 + z ^ 2) : Fl A).Wild := by
    rcases hs with h | h
    · exact mul_wild h _
    · exact wild_mul h _
  have := wild_div hnum (mul_wild hr ((x ^ 2 + y ^ 2) * (x ^ 2 + z ^ 2)))
  simp [this] at hv
  exact hv.symm

theorem iij_wild {x y z r v : Fl A} (hx : eq x 0 = false) (hr : r.Wild)
    (h : x.Wild ∨ z.Wild) (hv : _kernel_iij x y z r = .ok v) : v = nan := by
  unfold _kernel_iij at hv
  rw [wild_eq_zero hr, hx] at hv
  have hnum : (x * z : Fl A).Wild := by
    rcases h with h | h
    · exact wild_mul h _
    · exact mul_wild h _
  have := wild_div hnum (mul_wild hr (x ^ 2 + y ^ 2))
  simp [this] at hv
  exact hv.symm

/-- one vertex with a NaN among the three kernels is enough -/
theorem component_vertex {K1 K2 K3 : Kernel A} {e n u w E s N b t Me Mn Mu v x y z : Fl A}
    (hx : x = E - e ∨ x = w - e) (hy : y = N - n ∨ y = s - n) (hz : z = t - u ∨ z = b - u)
    (h : ∀ v1 v2 v3, vker K1 x y z = .ok v1 → vker K2 x y z = .ok v2 → vker K3 x y z = .ok v3 →
      v1 = nan ∨ v2 = nan ∨ v3 = nan)
    (hv : _calculate_component e n u w E s N b t Me Mn Mu K1 K2 K3 = .ok v) : v = nan := by
  have h' : ∀ v1 v2 v3, vker K1 x y z = .ok v1 → vker K2 x y z = .ok v2 → vker K3 x y z = .ok v3 →
      Me * v1 + Mn * v2 + Mu * v3 = nan := by
    intro v1 v2 v3 a1 a2 a3
    rcases h v1 v2 v3 a1 a2 a3 with rfl | rfl | rfl <;> simp
  clear h
  rw [calculate_component_unroll] at hv
  simp only [Py.bind_ok, Py.pure_ok] at hv
  obtain ⟨k11, a11, k12, a12, k13, a13, k21, a21, k22, a22, k23, a23, k31, a31, k32, a32, k33, a33, k41, a41, k42, a42,
    k43, a43, k51, a51, k52, a52, k53, a53, k61, a61, k62, a62, k63, a63, k71, a71, k72, a72, k73, a73, k81, a81, k82,
    a82, k83, a83, rfl⟩ := hv
  rcases hx with rfl | rfl <;> rcases hy with rfl | rfl <;> rcases hz with rfl | rfl
  · rw [h' _ _ _ a11 a12 a13]; simp
  · rw [h' _ _ _ a21 a22 a23]; simp
  · rw [h' _ _ _ a31 a32 a33]; simp
  · rw [h' _ _ _ a41 a42 a43]; simp
  · rw [h' _ _ _ a51 a52 a53]; simp
  · rw [h' _ _ _ a61 a62 a63]; simp
  · rw [h' _ _ _ a71 a72 a73]; simp
  · rw [h' _ _ _ a81 a82 a83]; simp

end prism

open Fl prism in
/-- **C103.** The six magnetic gradient functions: an infinite coordinate or boundary makes them return NaN (if they do not
raise because of the finite vertices), for every prism whose two shifted boundaries are not both zero on any axis - true in
IEEE double of every prism with three non-zero dimensions. -/
theorem C103_gradient (c : MComp) (hc : c.letters = 2) (i : Bool) (e n u w E s N b t Me Mn Mu v : Fl A)
    (h : Fl.inf i ∈ [e, n, u, w, E, s, N, b, t])
    (h1 : ¬(E - e = Fl.fin 0 ∧ w - e = Fl.fin 0)) (h2 : ¬(N - n = Fl.fin 0 ∧ s - n = Fl.fin 0))
    (h3 : ¬(t - u = Fl.fin 0 ∧ b - u = Fl.fin 0))
    (hv : prismMagnetic c e n u w E s N b t Me Mn Mu = .ok v) : v = Fl.nan := by
  have ez : ∀ x : Fl A, x ≠ Fl.fin 0 → eq x 0 = false := by
    intro x hx
    rw [zero_eq]
    cases x with
    | nan => rfl
    | inf s => rfl
    | fin x =>
      show decide (x = 0) = false
      rw [decide_eq_false_iff_not]
      rintro rfl
      exact hx rfl
  have pick : ∀ x y : Fl A, ¬(x = Fl.fin 0 ∧ y = Fl.fin 0) → ∃ z, (z = x ∨ z = y) ∧ eq z 0 = false := by
    intro x y h
    by_cases hx : x = Fl.fin 0
    · exact ⟨y, .inr rfl, ez y fun hy => h ⟨hx, hy⟩⟩
    · exact ⟨x, .inl rfl, ez x hx⟩
  -- a vertex with a wild shift and no zero shift
  obtain ⟨x, y, z, hx, hy, hz, gx, gy, gz, hw⟩ : ∃ x y z : Fl A, (x = E - e ∨ x = w - e) ∧ (y = N - n ∨ y = s - n) ∧
      (z = t - u ∨ z = b - u) ∧ eq x 0 = false ∧ eq y 0 = false ∧ eq z 0 = false ∧ (x.Wild ∨ y.Wild ∨ z.Wild) := by
    obtain ⟨x, hx, gx⟩ := pick _ _ h1
    obtain ⟨y, hy, gy⟩ := pick _ _ h2
    obtain ⟨z, hz, gz⟩ := pick _ _ h3
    rcases shifts_wild h with h | h | h | h | h | h
    · exact ⟨_, y, z, .inl rfl, hy, hz, wild_eq_zero h, gy, gz, .inl h⟩
    · exact ⟨_, y, z, .inr rfl, hy, hz, wild_eq_zero h, gy, gz, .inl h⟩
    · exact ⟨x, _, z, hx, .inl rfl, hz, gx, wild_eq_zero h, gz, .inr (.inl h)⟩
    · exact ⟨x, _, z, hx, .inr rfl, hz, gx, wild_eq_zero h, gz, .inr (.inl h)⟩
    · exact ⟨x, y, _, hx, hy, .inl rfl, gx, gy, wild_eq_zero h, .inr (.inr h)⟩
    · exact ⟨x, y, _, hx, hy, .inr rfl, gx, gy, wild_eq_zero h, .inr (.inr h)⟩
  have hr := vrad_wild' hw
  cases c
  case e | n | u => exact absurd hc (by decide)
  all_goals
    simp only [prismMagnetic, magnetic_ee, magnetic_nn, magnetic_uu, magnetic_en, magnetic_eu, magnetic_nu] at hv
    split at hv
    · exact (Py.pure_ok.1 hv).symm
    simp only [Py.bind_ok, Py.pure_ok] at hv
    obtain ⟨r, hr', c1, -, c2, -, rfl⟩ := hv
    rw [component_vertex hx hy hz ?_ hr']
    · simp
    intro v1 v2 v3 a1 a2 a3
  · exact .inl (iii_wild gx hr hw a1)
  · exact .inr (.inl (iii_wild gy hr (by rcases hw with h | h | h; exacts [.inr (.inr h), .inl h, .inr (.inl h)]) a2))
  · exact .inr (.inr (iii_wild gz hr (by rcases hw with h | h | h; exacts [.inr (.inr h), .inr (.inl h), .inl h]) a3))
  · rcases hw with hw | hw | hw
    · exact .inl (iij_wild gx hr (.inl hw) a1)
    · exact .inr (.inl (iij_wild gy hr (.inl hw) a2))
    · exact .inl (iij_wild gx hr (.inr hw) a1)
  · rcases hw with hw | hw | hw
    · exact .inl (iij_wild gx hr (.inl hw) a1)
    · exact .inl (iij_wild gx hr (.inr hw) a1)
    · exact .inr (.inr (iij_wild gz hr (.inl hw) a3))
  · rcases hw with hw | hw | hw
    · exact .inr (.inl (iij_wild gy hr (.inr hw) a2))
    · exact .inr (.inl (iij_wild gy hr (.inl hw) a2))
    · exact .inr (.inr (iij_wild gz hr (.inl hw) a3))

/-- A half-infinite prism in exact arithmetic: the gradient is NaN. -/
example (v : Fl Exact) (hv : prism.magnetic_uu (A := Exact) (0 : ℝ) (0 : ℝ) (5 : ℝ) (Fl.inf true) (1 : ℝ) (-1 : ℝ) (1 : ℝ) (-2 : ℝ) (0 : ℝ)
    (1 : ℝ) (1 : ℝ) (1 : ℝ) = .ok v) : v = Fl.nan := by
  refine C103_gradient .uu rfl true _ _ _ _ _ _ _ _ _ _ _ _ v (by simp) ?_ ?_ ?_ hv <;> rintro ⟨h1, h2⟩
  · have := Raw.fin.inj h1; norm_num at this
  · have := Raw.fin.inj h1; norm_num at this
  · have := Raw.fin.inj h1; norm_num at this

end Choclo
