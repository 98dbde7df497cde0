import Verif.Lemmas.Infinite
import Verif.Props.NaN2

/-! # C103: infinite coordinates and boundaries -/

namespace Choclo

variable {A : Arith}

namespace prism

open Fl

/-- a vertex with an infinite or NaN shift makes the kernel NaN -/
theorem wild_taints {K : Kernel A} (h1 : Taints K) (h2 : InfTaints K) {x y z v : Fl A}
    (h : x.Wild ∨ y.Wild ∨ z.Wild) (hv : vker K x y z = .ok v) : v = nan := by
  by_cases hn : x = nan ∨ y = nan ∨ z = nan
  · rw [h1 x y z hn] at hv; cases hv; rfl
  · refine h2 x y z v ?_ hv
    unfold Wild at h
    tauto

/-- the kernel at a vertex with an infinite or NaN shift heads for an infinity decided by one coordinate -/
def Heads (K : Kernel A) (f : Fl A → Fl A → Fl A → Bool) : Prop :=
  ∀ x y z v : Fl A, (x.Wild ∨ y.Wild ∨ z.Wild) → vker K x y z = .ok v → Toward (f x y z) v

theorem heads_of {K : Kernel A} {f : Fl A → Fl A → Fl A → Bool} (h1 : Taints K)
    (h2 : ∀ x y z v : Fl A, (x.IsInf ∨ y.IsInf ∨ z.IsInf) → vker K x y z = .ok v → Toward (f x y z) v) :
    Heads K f := by
  intro x y z v h hv
  by_cases hn : x = nan ∨ y = nan ∨ z = nan
  · rw [h1 x y z hn] at hv; cases hv; exact .inl rfl
  · refine h2 x y z v ?_ hv
    unfold Wild at h
    tauto

theorem heads_en : Heads (kernel_en (A := A)) fun _ _ z => lt z 0 :=
  heads_of taints_en fun _ _ _ _ => kernel_en_inf
theorem heads_eu : Heads (kernel_eu (A := A)) fun _ y _ => lt y 0 :=
  heads_of taints_eu fun _ _ _ _ => kernel_eu_inf
theorem heads_nu : Heads (kernel_nu (A := A)) fun x _ _ => lt x 0 :=
  heads_of taints_nu fun _ _ _ _ => kernel_nu_inf

theorem sgn_even_toward {m : ℕ} (hm : Even m) {s : Bool} {a : Fl A} (h : Toward s a) : Toward s (sgn m * a) := by
  have e1 : (sgn m : Fl A) = fin 1 := by
    show fin (((-1 : ℤ) ^ m : ℤ) : ℝ) = _
    rw [hm.neg_one_pow]; norm_num
  rw [e1]
  rcases h with rfl | rfl
  · exact .inl rfl
  · refine .inr ?_
    show (if (1 : ℝ) = 0 then _ else if (0 : ℝ) < 1 then _ else _) = _
    rw [if_neg one_ne_zero, if_pos one_pos]

theorem sgn_odd_toward {m : ℕ} (hm : Odd m) {s : Bool} {a : Fl A} (h : Toward s a) : Toward (!s) (sgn m * a) := by
  have e1 : (sgn m : Fl A) = fin (-1) := by
    show fin (((-1 : ℤ) ^ m : ℤ) : ℝ) = _
    rw [hm.neg_one_pow]; norm_num
  rw [e1]
  rcases h with rfl | rfl
  · exact .inl rfl
  · refine .inr ?_
    show (if (-1 : ℝ) = 0 then _ else if (0 : ℝ) < -1 then _ else _) = _
    rw [if_neg (by norm_num), if_neg (by norm_num)]

/-- the alternating sum of eight terms, two of which head for the same infinity and have opposite signs -/
theorem clash8 {k1 k2 k3 k4 k5 k6 k7 k8 : Fl A} {s : Bool}
    (h : (Toward s k1 ∧ Toward s k2) ∨ (Toward s k1 ∧ Toward s k3) ∨ (Toward s k2 ∧ Toward s k4) ∨
      (Toward s k3 ∧ Toward s k4) ∨ (Toward s k5 ∧ Toward s k6) ∨ (Toward s k1 ∧ Toward s k5) ∨
      (Toward s k2 ∧ Toward s k6) ∨ (Toward s k5 ∧ Toward s k7) ∨ (Toward s k3 ∧ Toward s k7)) :
    0 + sgn 0 * k1 + sgn 1 * k2 + sgn 1 * k3 + sgn 2 * k4 + sgn 1 * k5 + sgn 2 * k6 + sgn 2 * k7 + sgn 3 * k8
      = (nan : Fl A) := by
  have e0 : Even 0 := by decide
  have o1 : Odd 1 := by decide
  have e2 : Even 2 := by decide
  rcases h with ⟨ha, hb⟩ | ⟨ha, hb⟩ | ⟨ha, hb⟩ | ⟨ha, hb⟩ | ⟨ha, hb⟩ | ⟨ha, hb⟩ | ⟨ha, hb⟩ | ⟨ha, hb⟩ | ⟨ha, hb⟩
  all_goals
    refine Toward.clash (s := s) ?_ ?_
    · first
      | (replace ha := sgn_even_toward e0 ha
         clear hb
         repeat first | exact ha.add_right _ | apply Toward.add_left
         done)
      | (replace ha := sgn_even_toward e2 ha
         clear hb
         repeat first | exact ha.add_right _ | apply Toward.add_left
         done)
      | (replace hb := sgn_even_toward e2 hb
         clear ha
         repeat first | exact hb.add_right _ | apply Toward.add_left)
    · first
      | (replace ha := sgn_odd_toward o1 ha
         clear hb
         repeat first | exact ha.add_right _ | apply Toward.add_left
         done)
      | (replace hb := sgn_odd_toward o1 hb
         clear ha
         repeat first | exact hb.add_right _ | apply Toward.add_left)

/-- Some coordinate or boundary is infinite: then some shift is, for the vertices of a whole face. -/
theorem shifts_wild {i : Bool} {e n u w E s N b t : Fl A} (h : Fl.inf i ∈ [e, n, u, w, E, s, N, b, t]) :
    (E - e).Wild ∨ (w - e).Wild ∨ (N - n).Wild ∨ (s - n).Wild ∨ (t - u).Wild ∨ (b - u).Wild := by
  have hi : ∀ x : Fl A, Fl.inf i = x → x.IsInf := fun x hx => ⟨i, hx.symm⟩
  simp only [List.mem_cons, List.not_mem_nil, or_false] at h
  rcases h with h | h | h | h | h | h | h | h | h
  · exact .inl ((hi _ h).sub_right _)
  · exact .inr (.inr (.inl ((hi _ h).sub_right _)))
  · exact .inr (.inr (.inr (.inr (.inl ((hi _ h).sub_right _)))))
  · exact .inr (.inl ((hi _ h).sub_left _))
  · exact .inl ((hi _ h).sub_left _)
  · exact .inr (.inr (.inr (.inl ((hi _ h).sub_left _))))
  · exact .inr (.inr (.inl ((hi _ h).sub_left _)))
  · exact .inr (.inr (.inr (.inr (.inr ((hi _ h).sub_left _)))))
  · exact .inr (.inr (.inr (.inr (.inl ((hi _ h).sub_left _)))))

theorem evaluate_inf {K : Kernel A} (h1 : Taints K) (h2 : InfTaints K) {i : Bool} {e n u w E s N b t v : Fl A}
    (h : Fl.inf i ∈ [e, n, u, w, E, s, N, b, t])
    (hv : _evaluate_kernel e n u w E s N b t K = .ok v) : v = nan := by
  rw [evaluate_kernel_unroll] at hv
  simp only [Py.bind_ok, Py.pure_ok] at hv
  obtain ⟨k1, h1', k2, h2', k3, h3', k4, h4', k5, h5', k6, h6', k7, h7', k8, h8', rfl⟩ := hv
  rcases shifts_wild h with h | h | h | h | h | h
  · rw [wild_taints h1 h2 (by tauto) h1']; simp
  · rw [wild_taints h1 h2 (by tauto) h5']; simp
  · rw [wild_taints h1 h2 (by tauto) h1']; simp
  · rw [wild_taints h1 h2 (by tauto) h3']; simp
  · rw [wild_taints h1 h2 (by tauto) h1']; simp
  · rw [wild_taints h1 h2 (by tauto) h2']; simp

theorem evaluate_heads_z {K : Kernel A} {f : Fl A → Bool} (h1 : Heads K fun _ _ z => f z) {i : Bool}
    {e n u w E s N b t v : Fl A} (h : Fl.inf i ∈ [e, n, u, w, E, s, N, b, t])
    (hv : _evaluate_kernel e n u w E s N b t K = .ok v) : v = nan := by
  rw [evaluate_kernel_unroll] at hv
  simp only [Py.bind_ok, Py.pure_ok] at hv
  obtain ⟨k1, h1', k2, h2', k3, h3', k4, h4', k5, h5', k6, h6', k7, h7', k8, h8', rfl⟩ := hv
  have g1 := fun h => h1 _ _ _ _ h h1'
  have g2 := fun h => h1 _ _ _ _ h h2'
  have g3 := fun h => h1 _ _ _ _ h h3'
  have g4 := fun h => h1 _ _ _ _ h h4'
  have g5 := fun h => h1 _ _ _ _ h h5'
  have g6 := fun h => h1 _ _ _ _ h h6'
  have g7 := fun h => h1 _ _ _ _ h h7'
  rcases shifts_wild h with h | h | h | h | h | h
  · exact clash8 (s := f (t - u)) (.inr (.inl ⟨g1 (.inl h), g3 (.inl h)⟩))
  · exact clash8 (s := f (t - u)) (.inr (.inr (.inr (.inr (.inr (.inr (.inr (.inl ⟨g5 (.inl h), g7 (.inl h)⟩))))))))
  · exact clash8 (s := f (t - u)) (.inr (.inr (.inr (.inr (.inr (.inl ⟨g1 (.inr (.inl h)), g5 (.inr (.inl h))⟩))))))
  · exact clash8 (s := f (t - u)) (.inr (.inr (.inr (.inr (.inr (.inr (.inr (.inr ⟨g3 (.inr (.inl h)), g7 (.inr (.inl h))⟩))))))))
  · exact clash8 (s := f (t - u)) (.inr (.inl ⟨g1 (.inr (.inr h)), g3 (.inr (.inr h))⟩))
  · exact clash8 (s := f (b - u)) (.inr (.inr (.inl ⟨g2 (.inr (.inr h)), g4 (.inr (.inr h))⟩)))

theorem evaluate_heads_y {K : Kernel A} {f : Fl A → Bool} (h1 : Heads K fun _ y _ => f y) {i : Bool}
    {e n u w E s N b t v : Fl A} (h : Fl.inf i ∈ [e, n, u, w, E, s, N, b, t])
    (hv : _evaluate_kernel e n u w E s N b t K = .ok v) : v = nan := by
  rw [evaluate_kernel_unroll] at hv
  simp only [Py.bind_ok, Py.pure_ok] at hv
  obtain ⟨k1, h1', k2, h2', k3, h3', k4, h4', k5, h5', k6, h6', k7, h7', k8, h8', rfl⟩ := hv
  have g1 := fun h => h1 _ _ _ _ h h1'
  have g2 := fun h => h1 _ _ _ _ h h2'
  have g3 := fun h => h1 _ _ _ _ h h3'
  have g4 := fun h => h1 _ _ _ _ h h4'
  have g5 := fun h => h1 _ _ _ _ h h5'
  have g6 := fun h => h1 _ _ _ _ h h6'
  have g7 := fun h => h1 _ _ _ _ h h7'
  rcases shifts_wild h with h | h | h | h | h | h
  · exact clash8 (s := f (N - n)) (.inl ⟨g1 (.inl h), g2 (.inl h)⟩)
  · exact clash8 (s := f (N - n)) (.inr (.inr (.inr (.inr (.inl ⟨g5 (.inl h), g6 (.inl h)⟩)))))
  · exact clash8 (s := f (N - n)) (.inl ⟨g1 (.inr (.inl h)), g2 (.inr (.inl h))⟩)
  · exact clash8 (s := f (s - n)) (.inr (.inr (.inr (.inl ⟨g3 (.inr (.inl h)), g4 (.inr (.inl h))⟩))))
  · exact clash8 (s := f (N - n)) (.inr (.inr (.inr (.inr (.inr (.inl ⟨g1 (.inr (.inr h)), g5 (.inr (.inr h))⟩))))))
  · exact clash8 (s := f (N - n)) (.inr (.inr (.inr (.inr (.inr (.inr (.inl ⟨g2 (.inr (.inr h)), g6 (.inr (.inr h))⟩)))))))

theorem evaluate_heads_x {K : Kernel A} {f : Fl A → Bool} (h1 : Heads K fun x _ _ => f x) {i : Bool}
    {e n u w E s N b t v : Fl A} (h : Fl.inf i ∈ [e, n, u, w, E, s, N, b, t])
    (hv : _evaluate_kernel e n u w E s N b t K = .ok v) : v = nan := by
  rw [evaluate_kernel_unroll] at hv
  simp only [Py.bind_ok, Py.pure_ok] at hv
  obtain ⟨k1, h1', k2, h2', k3, h3', k4, h4', k5, h5', k6, h6', k7, h7', k8, h8', rfl⟩ := hv
  have g1 := fun h => h1 _ _ _ _ h h1'
  have g2 := fun h => h1 _ _ _ _ h h2'
  have g3 := fun h => h1 _ _ _ _ h h3'
  have g4 := fun h => h1 _ _ _ _ h h4'
  have g5 := fun h => h1 _ _ _ _ h h5'
  have g6 := fun h => h1 _ _ _ _ h h6'
  have g7 := fun h => h1 _ _ _ _ h h7'
  rcases shifts_wild h with h | h | h | h | h | h
  · exact clash8 (s := f (E - e)) (.inl ⟨g1 (.inl h), g2 (.inl h)⟩)
  · exact clash8 (s := f (w - e)) (.inr (.inr (.inr (.inr (.inl ⟨g5 (.inl h), g6 (.inl h)⟩)))))
  · exact clash8 (s := f (E - e)) (.inl ⟨g1 (.inr (.inl h)), g2 (.inr (.inl h))⟩)
  · exact clash8 (s := f (E - e)) (.inr (.inr (.inr (.inl ⟨g3 (.inr (.inl h)), g4 (.inr (.inl h))⟩))))
  · exact clash8 (s := f (E - e)) (.inr (.inl ⟨g1 (.inr (.inr h)), g3 (.inr (.inr h))⟩))
  · exact clash8 (s := f (E - e)) (.inr (.inr (.inl ⟨g2 (.inr (.inr h)), g4 (.inr (.inr h))⟩)))

end prism

/-- The functions whose kernels contain a logarithm or a length times an arctangent. -/
def GComp.notDiag : GComp → Prop
  | .ee | .nn | .uu => False
  | _ => True

/-- **C103.** An infinite coordinate or boundary makes `prism.gravity_pot`, the three acceleration functions and the
three off-diagonal tensor functions return NaN: an infinitely extended prism is never given a finite, wrong field. -/
theorem C103_gravity (hA : A.Monotone) (h0 : A.atan 0 = .fin 0) (c : GComp) (hc : c.notDiag) (i : Bool)
    (e n u w E s N b t ρ : Fl A) (h : Fl.inf i ∈ [e, n, u, w, E, s, N, b, t]) :
    ReturnsNaN (prismGravity c e n u w E s N b t ρ) := by
  refine OnlyNaN.returns ?_ (C52_gravity hA c e n u w E s N b t ρ)
  intro v hv
  cases c
  case ee | nn | uu => exact hc.elim
  case pot =>
    simp only [prismGravity, prism.gravity_pot, Py.bind_ok, Py.pure_ok] at hv
    obtain ⟨r, hr, rfl⟩ := hv
    rw [prism.evaluate_inf prism.taints_pot (prism.infTaints_pot h0) h hr]; simp
  case e =>
    simp only [prismGravity, prism.gravity_e, Py.bind_ok, Py.pure_ok] at hv
    obtain ⟨r, hr, rfl⟩ := hv
    rw [prism.evaluate_inf prism.taints_e (prism.infTaints_e h0) h hr]; simp
  case n =>
    simp only [prismGravity, prism.gravity_n, Py.bind_ok, Py.pure_ok] at hv
    obtain ⟨r, hr, rfl⟩ := hv
    rw [prism.evaluate_inf prism.taints_n (prism.infTaints_n h0) h hr]; simp
  case u =>
    simp only [prismGravity, prism.gravity_u, Py.bind_ok, Py.pure_ok] at hv
    obtain ⟨r, hr, rfl⟩ := hv
    rw [prism.evaluate_inf prism.taints_u (prism.infTaints_u h0) h hr]; simp
  case en =>
    simp only [prismGravity, prism.gravity_en] at hv
    split at hv
    · exact (Py.pure_ok.1 hv).symm
    · simp only [Py.bind_ok, Py.pure_ok] at hv
      obtain ⟨r, hr, rfl⟩ := hv
      rw [prism.evaluate_heads_z prism.heads_en h hr]; simp
  case eu =>
    simp only [prismGravity, prism.gravity_eu] at hv
    split at hv
    · exact (Py.pure_ok.1 hv).symm
    · simp only [Py.bind_ok, Py.pure_ok] at hv
      obtain ⟨r, hr, rfl⟩ := hv
      rw [prism.evaluate_heads_y prism.heads_eu h hr]; simp
  case nu =>
    simp only [prismGravity, prism.gravity_nu] at hv
    split at hv
    · exact (Py.pure_ok.1 hv).symm
    · simp only [Py.bind_ok, Py.pure_ok] at hv
      obtain ⟨r, hr, rfl⟩ := hv
      rw [prism.evaluate_heads_x prism.heads_nu h hr]; simp

namespace prism

open Fl

/-- the sum over the magnetization components heads for an infinity if one of its terms does -/
theorem heads_sum {K1 K2 K3 : Kernel A} {f : Fl A → Fl A → Fl A → Bool} (h : Heads K1 f ∨ Heads K2 f ∨ Heads K3 f)
    (Me Mn Mu : Fl A) : ∃ g : Bool → Bool, ∀ x y z v1 v2 v3 : Fl A, (x.Wild ∨ y.Wild ∨ z.Wild) →
      vker K1 x y z = .ok v1 → vker K2 x y z = .ok v2 → vker K3 x y z = .ok v3 →
      Toward (g (f x y z)) (Me * v1 + Mn * v2 + Mu * v3) := by
  have hm : ∀ M : Fl A, ∃ g : Bool → Bool, ∀ s a, Toward s a → Toward (g s) (M * a) := fun M => by
    choose g hg using Toward.mul M
    exact ⟨g, fun s a h => hg s a h⟩
  rcases h with h | h | h
  · obtain ⟨g, hg⟩ := hm Me
    exact ⟨g, fun x y z v1 v2 v3 hw h1 h2 h3 => ((hg _ _ (h x y z v1 hw h1)).add_left _).add_left _⟩
  · obtain ⟨g, hg⟩ := hm Mn
    exact ⟨g, fun x y z v1 v2 v3 hw h1 h2 h3 => ((hg _ _ (h x y z v2 hw h2)).add_right _).add_left _⟩
  · obtain ⟨g, hg⟩ := hm Mu
    exact ⟨g, fun x y z v1 v2 v3 hw h1 h2 h3 => (hg _ _ (h x y z v3 hw h3)).add_right _⟩

theorem component_heads_z {K1 K2 K3 : Kernel A} {f : Fl A → Bool}
    (hK : Heads K1 (fun _ _ z => f z) ∨ Heads K2 (fun _ _ z => f z) ∨ Heads K3 (fun _ _ z => f z)) {i : Bool}
    {e n u w E s N b t Me Mn Mu v : Fl A} (h : Fl.inf i ∈ [e, n, u, w, E, s, N, b, t])
    (hv : _calculate_component e n u w E s N b t Me Mn Mu K1 K2 K3 = .ok v) : v = nan := by
  obtain ⟨g, hg⟩ := heads_sum hK Me Mn Mu
  rw [calculate_component_unroll] at hv
  simp only [Py.bind_ok, Py.pure_ok] at hv
  obtain ⟨k11, a11, k12, a12, k13, a13, k21, a21, k22, a22, k23, a23, k31, a31, k32, a32, k33, a33, k41, a41, k42, a42,
    k43, a43, k51, a51, k52, a52, k53, a53, k61, a61, k62, a62, k63, a63, k71, a71, k72, a72, k73, a73, k81, a81, k82,
    a82, k83, a83, rfl⟩ := hv
  have g1 := fun h => hg _ _ _ _ _ _ h a11 a12 a13
  have g2 := fun h => hg _ _ _ _ _ _ h a21 a22 a23
  have g3 := fun h => hg _ _ _ _ _ _ h a31 a32 a33
  have g4 := fun h => hg _ _ _ _ _ _ h a41 a42 a43
  have g5 := fun h => hg _ _ _ _ _ _ h a51 a52 a53
  have g7 := fun h => hg _ _ _ _ _ _ h a71 a72 a73
  clear a11 a12 a13 a21 a22 a23 a31 a32 a33 a41 a42 a43 a51 a52 a53 a61 a62 a63 a71 a72 a73 a81 a82 a83 hK hg
  rcases shifts_wild h with h | h | h | h | h | h
  · exact clash8 (s := g (f (t - u))) (.inr (.inl ⟨g1 (.inl h), g3 (.inl h)⟩))
  · exact clash8 (s := g (f (t - u))) (.inr (.inr (.inr (.inr (.inr (.inr (.inr (.inl ⟨g5 (.inl h), g7 (.inl h)⟩))))))))
  · exact clash8 (s := g (f (t - u))) (.inr (.inr (.inr (.inr (.inr (.inl ⟨g1 (.inr (.inl h)), g5 (.inr (.inl h))⟩))))))
  · exact clash8 (s := g (f (t - u))) (.inr (.inr (.inr (.inr (.inr (.inr (.inr (.inr
      ⟨g3 (.inr (.inl h)), g7 (.inr (.inl h))⟩))))))))
  · exact clash8 (s := g (f (t - u))) (.inr (.inl ⟨g1 (.inr (.inr h)), g3 (.inr (.inr h))⟩))
  · exact clash8 (s := g (f (b - u))) (.inr (.inr (.inl ⟨g2 (.inr (.inr h)), g4 (.inr (.inr h))⟩)))

theorem component_heads_y {K1 K2 K3 : Kernel A} {f : Fl A → Bool}
    (hK : Heads K1 (fun _ y _ => f y) ∨ Heads K2 (fun _ y _ => f y) ∨ Heads K3 (fun _ y _ => f y)) {i : Bool}
    {e n u w E s N b t Me Mn Mu v : Fl A} (h : Fl.inf i ∈ [e, n, u, w, E, s, N, b, t])
    (hv : _calculate_component e n u w E s N b t Me Mn Mu K1 K2 K3 = .ok v) : v = nan := by
  obtain ⟨g, hg⟩ := heads_sum hK Me Mn Mu
  rw [calculate_component_unroll] at hv
  simp only [Py.bind_ok, Py.pure_ok] at hv
  obtain ⟨k11, a11, k12, a12, k13, a13, k21, a21, k22, a22, k23, a23, k31, a31, k32, a32, k33, a33, k41, a41, k42, a42,
    k43, a43, k51, a51, k52, a52, k53, a53, k61, a61, k62, a62, k63, a63, k71, a71, k72, a72, k73, a73, k81, a81, k82,
    a82, k83, a83, rfl⟩ := hv
  have g1 := fun h => hg _ _ _ _ _ _ h a11 a12 a13
  have g2 := fun h => hg _ _ _ _ _ _ h a21 a22 a23
  have g3 := fun h => hg _ _ _ _ _ _ h a31 a32 a33
  have g4 := fun h => hg _ _ _ _ _ _ h a41 a42 a43
  have g5 := fun h => hg _ _ _ _ _ _ h a51 a52 a53
  have g6 := fun h => hg _ _ _ _ _ _ h a61 a62 a63
  clear a11 a12 a13 a21 a22 a23 a31 a32 a33 a41 a42 a43 a51 a52 a53 a61 a62 a63 a71 a72 a73 a81 a82 a83 hK hg
  rcases shifts_wild h with h | h | h | h | h | h
  · exact clash8 (s := g (f (N - n))) (.inl ⟨g1 (.inl h), g2 (.inl h)⟩)
  · exact clash8 (s := g (f (N - n))) (.inr (.inr (.inr (.inr (.inl ⟨g5 (.inl h), g6 (.inl h)⟩)))))
  · exact clash8 (s := g (f (N - n))) (.inl ⟨g1 (.inr (.inl h)), g2 (.inr (.inl h))⟩)
  · exact clash8 (s := g (f (s - n))) (.inr (.inr (.inr (.inl ⟨g3 (.inr (.inl h)), g4 (.inr (.inl h))⟩))))
  · exact clash8 (s := g (f (N - n))) (.inr (.inr (.inr (.inr (.inr (.inl ⟨g1 (.inr (.inr h)), g5 (.inr (.inr h))⟩))))))
  · exact clash8 (s := g (f (N - n))) (.inr (.inr (.inr (.inr (.inr (.inr (.inl
      ⟨g2 (.inr (.inr h)), g6 (.inr (.inr h))⟩)))))))

end prism

/-- **C103.** An infinite coordinate or boundary makes `prism.magnetic_e`, `magnetic_n`, `magnetic_u` and all components of
`prism.magnetic_field` NaN, whatever the magnetization. -/
theorem C103_magnetic (hA : A.Monotone) (hpi : A.pi ≠ 0) (i : Bool)
    (e n u w E s N b t Me Mn Mu : Fl A) (h : Fl.inf i ∈ [e, n, u, w, E, s, N, b, t]) :
    ReturnsNaN (prism.magnetic_e e n u w E s N b t Me Mn Mu) ∧
    ReturnsNaN (prism.magnetic_n e n u w E s N b t Me Mn Mu) ∧
    ReturnsNaN (prism.magnetic_u e n u w E s N b t Me Mn Mu) ∧
    prism.magnetic_field e n u w E s N b t Me Mn Mu = .ok (Fl.nan, Fl.nan, Fl.nan) := by
  obtain ⟨r1, r2, r3, -⟩ := C52_magnetic_field hA hpi e n u w E s N b t Me Mn Mu
  have h1 : ReturnsNaN (prism.magnetic_e e n u w E s N b t Me Mn Mu) := by
    refine OnlyNaN.returns ?_ r1
    intro v hv
    simp only [prism.magnetic_e] at hv
    split at hv
    · exact (Py.pure_ok.1 hv).symm
    · simp only [Py.bind_ok] at hv
      obtain ⟨r, hr, hv⟩ := hv
      rw [prism.component_heads_z (.inr (.inl prism.heads_en)) h hr] at hv
      split at hv <;> simp [Py.bind_ok] at hv <;> grind
  have h2 : ReturnsNaN (prism.magnetic_n e n u w E s N b t Me Mn Mu) := by
    refine OnlyNaN.returns ?_ r2
    intro v hv
    simp only [prism.magnetic_n] at hv
    split at hv
    · exact (Py.pure_ok.1 hv).symm
    · simp only [Py.bind_ok] at hv
      obtain ⟨r, hr, hv⟩ := hv
      rw [prism.component_heads_z (.inl prism.heads_en) h hr] at hv
      split at hv <;> simp [Py.bind_ok] at hv <;> grind
  have h3 : ReturnsNaN (prism.magnetic_u e n u w E s N b t Me Mn Mu) := by
    refine OnlyNaN.returns ?_ r3
    intro v hv
    simp only [prism.magnetic_u] at hv
    split at hv
    · exact (Py.pure_ok.1 hv).symm
    · simp only [Py.bind_ok] at hv
      obtain ⟨r, hr, hv⟩ := hv
      rw [prism.component_heads_y (.inl prism.heads_eu) h hr] at hv
      split at hv <;> simp [Py.bind_ok] at hv <;> grind
  refine ⟨h1, h2, h3, ?_⟩
  rw [ReturnsNaN] at h1 h2 h3
  rw [C39_field_is_components, h1, h2, h3]
  rfl

/-- NaN or zero -/
def Fl.ZeroOrNaN (a : Fl A) : Prop := a = Fl.nan ∨ a = Fl.fin 0

namespace Fl

theorem ZeroOrNaN.add (h0 : A.rnd 0 = .fin 0) {a b : Fl A} (ha : a.ZeroOrNaN) (hb : b.ZeroOrNaN) :
    (a + b).ZeroOrNaN := by
  rcases ha with rfl | rfl
  · exact .inl (nan_add b)
  · rcases hb with rfl | rfl
    · exact .inl rfl
    · refine .inr ?_
      show ofRaw (A.rnd (0 + 0)) = _
      rw [add_zero, h0]; rfl

theorem ZeroOrNaN.neg {a : Fl A} (ha : a.ZeroOrNaN) : (-a).ZeroOrNaN := by
  rcases ha with rfl | rfl
  · exact .inl rfl
  · refine .inr ?_
    show fin (-0) = _
    rw [neg_zero]

theorem ZeroOrNaN.sub (h0 : A.rnd 0 = .fin 0) {a b : Fl A} (ha : a.ZeroOrNaN) (hb : b.ZeroOrNaN) :
    (a - b).ZeroOrNaN := ha.add h0 hb.neg

theorem ZeroOrNaN.mul (h0 : A.rnd 0 = .fin 0) (a : Fl A) {b : Fl A} (hb : b.ZeroOrNaN) : (a * b).ZeroOrNaN := by
  rcases hb with rfl | rfl
  · exact .inl (mul_nan a)
  · cases a with
    | nan => exact .inl rfl
    | inf s => exact .inl (if_pos rfl)
    | fin x =>
      refine .inr ?_
      show ofRaw (A.rnd (x * 0)) = _
      rw [mul_zero, h0]; rfl

theorem div_wild_zn (a : Fl A) {b : Fl A} (hb : b.Wild) : ∃ v, a /. b = .ok v ∧ v.ZeroOrNaN := by
  rcases div_wild a hb with h | h
  · exact ⟨_, h, .inl rfl⟩
  · exact ⟨_, h, .inr rfl⟩

end Fl

/-- The call returns NaN or zero. -/
def ReturnsZeroOrNaN (call : Py (Fl A)) : Prop := ReturnsNaN call ∨ Returns call 0

theorem distance_wild {i : Bool} {e n u e' n' u' : Fl A} (h : Fl.inf i ∈ [e, n, u, e', n', u']) :
    ∃ d : Fl A, utils.distance_cartesian e n u e' n' u' = .ok d ∧ Fl.Toward false d := by
  refine ⟨_, rfl, ?_⟩
  have hi : ∀ x : Fl A, Fl.inf i = x → x.IsInf := fun x hx => ⟨i, hx.symm⟩
  have hs : (e - e').Wild ∨ (n - n').Wild ∨ (u - u').Wild := by
    simp only [List.mem_cons, List.not_mem_nil, or_false] at h
    rcases h with h | h | h | h | h | h
    · exact .inl ((hi _ h).sub_left _)
    · exact .inr (.inl ((hi _ h).sub_left _))
    · exact .inr (.inr ((hi _ h).sub_left _))
    · exact .inl ((hi _ h).sub_right _)
    · exact .inr (.inl ((hi _ h).sub_right _))
    · exact .inr (.inr ((hi _ h).sub_right _))
  show Fl.Toward false (prism.vrad (e - e') (n - n') (u - u'))
  by_cases hn : e - e' = Fl.nan ∨ n - n' = Fl.nan ∨ u - u' = Fl.nan
  · exact .inl (prism.vrad_nan hn)
  · refine prism.vrad_inf ?_
    unfold Fl.Wild at hs
    tauto

/-- **C103.** Infinitely distant points: with an infinite coordinate `distance_cartesian` returns plus infinity or NaN,
never a number, and every `point.gravity_*` returns zero (its limit) or NaN, without an exception. -/
theorem C103_point (h0 : A.rnd 0 = .fin 0) (c : GComp) (i : Bool) (e n u e' n' u' m : Fl A)
    (h : Fl.inf i ∈ [e, n, u, e', n', u']) :
    (utils.distance_cartesian e n u e' n' u' = .ok Fl.nan ∨ utils.distance_cartesian e n u e' n' u' = .ok (Fl.inf false)) ∧
    ReturnsZeroOrNaN (pointGravity c e n u e' n' u' m) := by
  obtain ⟨d, hd, ht⟩ := distance_wild h
  have hw : d.Wild := ht.imp id fun h => ⟨_, h⟩
  constructor
  · rw [hd]
    exact ht.imp (congrArg _) (congrArg _)
  · have key : ∀ call : Py (Fl A), (∃ v, call = .ok v ∧ v.ZeroOrNaN) → ReturnsZeroOrNaN call := by
      rintro call ⟨v, hv, rfl | rfl⟩
      · exact .inl hv
      · exact .inr hv
    have d1 := fun a => Fl.div_wild_zn a hw
    have d3 := fun a => Fl.div_wild_zn a (Fl.wild_pow hw 3)
    have d5 := fun a => Fl.div_wild_zn a (Fl.wild_pow hw 5)
    refine key _ ?_
    cases c <;>
      simp only [pointGravity, point.gravity_pot, point.gravity_e, point.gravity_n, point.gravity_u,
        point.gravity_ee, point.gravity_nn, point.gravity_uu, point.gravity_en, point.gravity_eu,
        point.gravity_nu, point.kernel_pot, point.kernel_e, point.kernel_n, point.kernel_u,
        point.kernel_ee, point.kernel_nn, point.kernel_uu, point.kernel_en, point.kernel_eu,
        point.kernel_nu, hd]
    case pot =>
      obtain ⟨v, hv, hz⟩ := d1 1
      exact ⟨_, by simp only [prism.ok_bind, hv]; rfl, hz.mul h0 _⟩
    case e =>
      obtain ⟨v, hv, hz⟩ := d3 (-(e - e'))
      exact ⟨_, by simp only [prism.ok_bind, hv]; rfl, hz.mul h0 _⟩
    case n =>
      obtain ⟨v, hv, hz⟩ := d3 (-(n - n'))
      exact ⟨_, by simp only [prism.ok_bind, hv]; rfl, hz.mul h0 _⟩
    case u =>
      obtain ⟨v, hv, hz⟩ := d3 (-(u - u'))
      exact ⟨_, by simp only [prism.ok_bind, hv]; rfl, hz.mul h0 _⟩
    case ee =>
      obtain ⟨v, hv, hz⟩ := d5 (3 * (e - e') ^ 2)
      obtain ⟨w, hv', hz'⟩ := d3 1
      exact ⟨_, by simp only [prism.ok_bind, hv, hv']; rfl, (hz.sub h0 hz').mul h0 _⟩
    case nn =>
      obtain ⟨v, hv, hz⟩ := d5 (3 * (n - n') ^ 2)
      obtain ⟨w, hv', hz'⟩ := d3 1
      exact ⟨_, by simp only [prism.ok_bind, hv, hv']; rfl, (hz.sub h0 hz').mul h0 _⟩
    case uu =>
      obtain ⟨v, hv, hz⟩ := d5 (3 * (u - u') ^ 2)
      obtain ⟨w, hv', hz'⟩ := d3 1
      exact ⟨_, by simp only [prism.ok_bind, hv, hv']; rfl, (hz.sub h0 hz').mul h0 _⟩
    case en =>
      obtain ⟨v, hv, hz⟩ := d5 (3 * (e - e') * (n - n'))
      exact ⟨_, by simp only [prism.ok_bind, hv]; rfl, hz.mul h0 _⟩
    case eu =>
      obtain ⟨v, hv, hz⟩ := d5 (3 * (e - e') * (u - u'))
      exact ⟨_, by simp only [prism.ok_bind, hv]; rfl, hz.mul h0 _⟩
    case nu =>
      obtain ⟨v, hv, hz⟩ := d5 (3 * (n - n') * (u - u'))
      exact ⟨_, by simp only [prism.ok_bind, hv]; rfl, hz.mul h0 _⟩

/-- **C103.** With an infinite coordinate every `dipole.magnetic_*` returns zero (its limit) or NaN, without an
exception. -/
theorem C103_dipole (h0 : A.rnd 0 = .fin 0) (hpi : A.pi ≠ 0) (a : Axis) (i : Bool) (e n u e' n' u' me mn mu : Fl A)
    (h : Fl.inf i ∈ [e, n, u, e', n', u']) : ReturnsZeroOrNaN (dipoleMagnetic a e n u e' n' u' me mn mu) := by
  obtain ⟨d, hd, ht⟩ := distance_wild h
  have hw : d.Wild := ht.imp id fun h => ⟨_, h⟩
  replace hd : Fl.sqrt ((e - e') ^ 2 + (n - n') ^ 2 + (u - u') ^ 2) = d := Except.ok.inj hd
  have key : ∀ call : Py (Fl A), (∃ v, call = .ok v ∧ v.ZeroOrNaN) → ReturnsZeroOrNaN call := by
    rintro call ⟨v, hv, rfl | rfl⟩
    · exact .inl hv
    · exact .inr hv
  have d3 := fun a => Fl.div_wild_zn a (Fl.wild_pow hw 3)
  have d5 := fun a => Fl.div_wild_zn a (Fl.wild_pow hw 5)
  obtain ⟨cm, hcm⟩ := cm_ok (A := A) hpi (f := fun v => (.ok v : Py (Fl A))) fun v => ⟨v, rfl⟩
  simp only [Py.bind_ok] at hcm
  obtain ⟨c4, hc4, c5, hc, -⟩ := hcm
  refine key _ ?_
  cases a <;>
    simp only [dipoleMagnetic, dipole.magnetic_e, dipole.magnetic_n, dipole.magnetic_u, hd]
  case e =>
    obtain ⟨v, hv, hz⟩ := d5 (3 * (me * (e - e') + mn * (n - n') + mu * (u - u')) * (e - e'))
    obtain ⟨w, hv', hz'⟩ := d3 me
    exact ⟨_, by simp only [prism.ok_bind, hv, hv', hc4, hc]; rfl, (hz.sub h0 hz').mul h0 _⟩
  case n =>
    obtain ⟨v, hv, hz⟩ := d5 (3 * (me * (e - e') + mn * (n - n') + mu * (u - u')) * (n - n'))
    obtain ⟨w, hv', hz'⟩ := d3 mn
    exact ⟨_, by simp only [prism.ok_bind, hv, hv', hc4, hc]; rfl, (hz.sub h0 hz').mul h0 _⟩
  case u =>
    obtain ⟨v, hv, hz⟩ := d5 (3 * (me * (e - e') + mn * (n - n') + mu * (u - u')) * (u - u'))
    obtain ⟨w, hv', hz'⟩ := d3 mu
    exact ⟨_, by simp only [prism.ok_bind, hv, hv', hc4, hc]; rfl, (hz.sub h0 hz').mul h0 _⟩

namespace prism

open Fl

/-- some shift along one of two axes is infinite or NaN -/
theorem evaluate_diag {K : Kernel A} {F : Fl A → Fl A → Fl A → Prop} {e n u w E s N b t v : Fl A}
    (hF : ∀ x y z v, F x y z → vker K x y z = .ok v → v = nan)
    (h : F (E - e) (N - n) (t - u) ∨ F (E - e) (N - n) (b - u) ∨ F (E - e) (s - n) (t - u) ∨
      F (w - e) (N - n) (t - u))
    (hv : _evaluate_kernel e n u w E s N b t K = .ok v) : v = nan := by
  rw [evaluate_kernel_unroll] at hv
  simp only [Py.bind_ok, Py.pure_ok] at hv
  obtain ⟨k1, h1', k2, h2', k3, h3', k4, h4', k5, h5', k6, h6', k7, h7', k8, h8', rfl⟩ := hv
  rcases h with h | h | h | h
  · rw [hF _ _ _ _ h h1']; simp
  · rw [hF _ _ _ _ h h2']; simp
  · rw [hF _ _ _ _ h h3']; simp
  · rw [hF _ _ _ _ h h5']; simp

end prism

open Fl prism in
/-- **C103.** The diagonal tensor functions return NaN when an infinite coordinate or boundary belongs to one of the two
other axes. -/
theorem C103_diag (hA : A.Monotone) (h0 : A.atan 0 = .fin 0) (i : Bool) (e n u w E s N b t ρ : Fl A) :
    (Fl.inf i ∈ [n, u, s, N, b, t] → ReturnsNaN (prism.gravity_ee e n u w E s N b t ρ)) ∧
    (Fl.inf i ∈ [e, u, w, E, b, t] → ReturnsNaN (prism.gravity_nn e n u w E s N b t ρ)) ∧
    (Fl.inf i ∈ [e, n, w, E, s, N] → ReturnsNaN (prism.gravity_uu e n u w E s N b t ρ)) := by
  have hi : ∀ x : Fl A, Fl.inf i = x → x.IsInf := fun x hx => ⟨i, hx.symm⟩
  refine ⟨fun h => ?_, fun h => ?_, fun h => ?_⟩
  · refine OnlyNaN.returns ?_ (C52_gravity hA .ee e n u w E s N b t ρ)
    intro v hv
    simp only [prism.gravity_ee] at hv
    split at hv
    · exact (Py.pure_ok.1 hv).symm
    · simp only [Py.bind_ok] at hv
      obtain ⟨r, hr, hv⟩ := hv
      have hr' : r = Fl.nan := by
        refine evaluate_diag (F := fun _ y z => y.Wild ∨ z.Wild) ?_ ?_ hr
        · intro x y z v hw hv
          by_cases hn : y = nan ∨ z = nan
          · rw [taints_ee x y z (.inr hn)] at hv; cases hv; rfl
          · exact (kernel_ee_inf h0 hv).1 (by unfold Wild at hw; tauto)
        · simp only [List.mem_cons, List.not_mem_nil, or_false] at h
          rcases h with h | h | h | h | h | h
          · exact .inl (.inl ((hi _ h).sub_right _))
          · exact .inl (.inr ((hi _ h).sub_right _))
          · exact .inr (.inr (.inl (.inl ((hi _ h).sub_left _))))
          · exact .inl (.inl ((hi _ h).sub_left _))
          · exact .inr (.inl (.inr ((hi _ h).sub_left _)))
          · exact .inl (.inr ((hi _ h).sub_left _))
      subst hr'
      split at hv <;> simp at hv <;> exact hv.symm
  · refine OnlyNaN.returns ?_ (C52_gravity hA .nn e n u w E s N b t ρ)
    intro v hv
    simp only [prism.gravity_nn] at hv
    split at hv
    · exact (Py.pure_ok.1 hv).symm
    · simp only [Py.bind_ok] at hv
      obtain ⟨r, hr, hv⟩ := hv
      have hr' : r = Fl.nan := by
        refine evaluate_diag (F := fun x _ z => x.Wild ∨ z.Wild) ?_ ?_ hr
        · intro x y z v hw hv
          by_cases hn : x = nan ∨ z = nan
          · rw [taints_nn x y z (by tauto)] at hv; cases hv; rfl
          · exact (kernel_nn_inf h0 hv).1 (by unfold Wild at hw; tauto)
        · simp only [List.mem_cons, List.not_mem_nil, or_false] at h
          rcases h with h | h | h | h | h | h
          · exact .inl (.inl ((hi _ h).sub_right _))
          · exact .inl (.inr ((hi _ h).sub_right _))
          · exact .inr (.inr (.inr (.inl ((hi _ h).sub_left _))))
          · exact .inl (.inl ((hi _ h).sub_left _))
          · exact .inr (.inl (.inr ((hi _ h).sub_left _)))
          · exact .inl (.inr ((hi _ h).sub_left _))
      subst hr'
      split at hv <;> simp at hv <;> exact hv.symm
  · refine OnlyNaN.returns ?_ (C52_gravity hA .uu e n u w E s N b t ρ)
    intro v hv
    simp only [prism.gravity_uu] at hv
    split at hv
    · exact (Py.pure_ok.1 hv).symm
    · simp only [Py.bind_ok] at hv
      obtain ⟨r, hr, hv⟩ := hv
      have hr' : r = Fl.nan := by
        refine evaluate_diag (F := fun x y _ => x.Wild ∨ y.Wild) ?_ ?_ hr
        · intro x y z v hw hv
          by_cases hn : x = nan ∨ y = nan
          · rw [taints_uu x y z (by tauto)] at hv; cases hv; rfl
          · exact (kernel_uu_inf h0 hv).1 (by unfold Wild at hw; tauto)
        · simp only [List.mem_cons, List.not_mem_nil, or_false] at h
          rcases h with h | h | h | h | h | h
          · exact .inl (.inl ((hi _ h).sub_right _))
          · exact .inl (.inr ((hi _ h).sub_right _))
          · exact .inr (.inr (.inr (.inl ((hi _ h).sub_left _))))
          · exact .inl (.inl ((hi _ h).sub_left _))
          · exact .inr (.inr (.inl (.inr ((hi _ h).sub_left _))))
          · exact .inl (.inr ((hi _ h).sub_left _))
      subst hr'
      split at hv <;> simp at hv <;> exact hv.symm

/-- non-vacuity: double precision satisfies the hypotheses; a prism that extends to the east without end -/
example (p : Pt) : ReturnsNaN (prism.gravity_u (A := Binary64) (p.e : Fl Binary64) (p.n : Fl Binary64) (p.u : Fl Binary64)
    ((0 : ℝ) : Fl Binary64) (Fl.inf false) ((0 : ℝ) : Fl Binary64) ((1 : ℝ) : Fl Binary64) ((-1 : ℝ) : Fl Binary64)
    ((0 : ℝ) : Fl Binary64) ((1 : ℝ) : Fl Binary64)) :=
  C103_gravity Binary64_monotone (by show B64.rnd (Real.arctan 0) = _; rw [Real.arctan_zero]; exact Binary64_monotone.rnd_zero)
    .u trivial false _ _ _ _ _ _ _ _ _ _ (by simp)

end Choclo
