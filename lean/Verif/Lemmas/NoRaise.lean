import Verif.Lemmas.NaN
import Verif.Spec.Rounding

/-! # No division by zero in the low-order prism kernels, for monotone roundings -/

namespace Choclo

variable {A : Arith}

/-- a number in the range of the rounding function (or NaN, or an infinity) -/
def Fl.Rep (a : Fl A) : Prop := ∀ x : ℝ, a = Fl.fin x → A.rnd x = .fin x ∧ A.rnd (-x) = .fin (-x)

theorem Fl.Rep.sub (h : A.Monotone) (a b : Fl A) : (a - b).Rep := by
  intro x hx
  change Fl.add a (Fl.neg b) = _ at hx
  cases a <;> cases b
  case fin.fin y z =>
    change Fl.ofRaw (A.rnd (y + -z)) = Fl.fin x at hx
    exact h.rnd_idem _ _ hx
  case inf.inf s t =>
    change (if s = !t then _ else _) = _ at hx
    split at hx <;> cases hx
  all_goals cases hx

theorem Fl.div_ok (a : Fl A) {b : Fl A} (hb : b ≠ Fl.fin 0) : ∃ v, a /. b = .ok v := by
  cases b with
  | nan => exact ⟨_, Fl.div_nan a⟩
  | inf s => cases a <;> exact ⟨_, rfl⟩
  | fin y =>
    have hy : y ≠ 0 := fun h => hb (by rw [h]; rfl)
    cases a with
    | nan => exact ⟨_, if_neg hy⟩
    | inf s =>
      by_cases h0 : 0 < y
      · exact ⟨_, (if_neg hy).trans (if_pos h0)⟩
      · exact ⟨_, (if_neg hy).trans (if_neg h0)⟩
    | fin x => exact ⟨_, if_neg hy⟩

theorem Fl.ne_zero_of_eq {a : Fl A} (h : Fl.eq a 0 = false) : a ≠ Fl.fin 0 := by
  rintro rfl
  have : Fl.eq (Fl.fin 0 : Fl A) 0 = true := by
    show @decide ((0 : ℝ) = ((0 : ℕ) : ℝ)) (Classical.propDecidable _) = true
    rw [decide_eq_true_eq, Nat.cast_zero]
  rw [this] at h
  cases h

theorem Fl.two_ne : (2 : Fl A) ≠ Fl.fin 0 := by
  intro h
  have h' : (Raw.fin ((2 : ℕ) : ℝ)) = Raw.fin 0 := h
  simp at h'

namespace prism

/-- NaN, plus infinity or a non-negative number -/
def NonNeg (a : Fl A) : Prop := a = Fl.nan ∨ a = Fl.inf false ∨ ∃ x : ℝ, a = Fl.fin x ∧ 0 ≤ x

theorem vrad_nonneg (h : A.Monotone) (x y z : Fl A) : NonNeg (vrad x y z) := by
  unfold vrad
  generalize x ^ 2 + y ^ 2 + z ^ 2 = a
  cases a with
  | nan => exact .inl rfl
  | inf s => cases s
             · exact .inr (.inl rfl)
             · exact .inl rfl
  | fin x =>
    by_cases hx : x < 0
    · exact .inl (if_pos hx)
    · have e : Fl.sqrt (Fl.fin x : Fl A) = Fl.ofRaw (A.rnd (Real.sqrt x)) := if_neg hx
      have hm := h.rnd_mono 0 (Real.sqrt x) (Real.sqrt_nonneg x)
      rw [h.rnd_zero] at hm
      change NonNeg (Fl.sqrt (Fl.fin x : Fl A))
      rw [e]
      generalize A.rnd (Real.sqrt x) = r at hm
      cases r with
      | nan => exact hm.elim
      | inf s => cases s
                 · exact .inr (.inl rfl)
                 · exact hm.elim
      | fin y => exact .inr (.inr ⟨y, rfl, hm⟩)

theorem sub_ne_zero (h : A.Monotone) {x r : Fl A} (hx : x.Rep) (hr : NonNeg r)
    (hneg : Fl.lt x 0 = true) : r - x ≠ Fl.fin 0 := by
  cases x with
  | nan => cases hneg
  | inf s =>
    cases s
    · cases hneg
    · rcases hr with rfl | rfl | ⟨r, rfl, _⟩ <;> intro hh <;> cases hh
  | fin x =>
    have hx0 : x < 0 := by
      change @decide (x < ((0 : ℕ) : ℝ)) (Classical.propDecidable _) = true at hneg
      rw [decide_eq_true_eq, Nat.cast_zero] at hneg
      exact hneg
    rcases hr with rfl | rfl | ⟨r, rfl, hr⟩
    · intro hh; cases hh
    · intro hh; cases hh
    · intro hh
      change Fl.ofRaw (A.rnd (r + -x)) = Fl.fin 0 at hh
      have hm := h.rnd_mono (-x) (r + -x) (by linarith)
      have hh' : A.rnd (r + -x) = .fin 0 := hh
      rw [(hx x rfl).2, hh'] at hm
      have : -x ≤ 0 := hm
      linarith

theorem safe_log_ok (h : A.Monotone) {x y z r : Fl A} (hx : x.Rep) (hr : NonNeg r) :
    ∃ v, _safe_log x y z r = .ok v := by
  unfold _safe_log
  split
  · exact ⟨_, rfl⟩
  · split
    · rename_i hneg
      split
      · exact ⟨_, rfl⟩
      · obtain ⟨v, hv⟩ := Fl.div_ok (y ^ 2 + z ^ 2) (sub_ne_zero h hx hr hneg)
        rw [hv]
        exact ⟨_, rfl⟩
    · exact ⟨_, rfl⟩

theorem safe_atan2_ok (y x : Fl A) : ∃ v, _safe_atan2 y x = .ok v := by
  unfold _safe_atan2
  split
  · split
    · obtain ⟨v, hv⟩ := Fl.div_ok (Fl.pi : Fl A) Fl.two_ne
      exact ⟨v, hv⟩
    · split
      · obtain ⟨v, hv⟩ := Fl.div_ok (-Fl.pi : Fl A) Fl.two_ne
        exact ⟨v, hv⟩
      · exact ⟨_, rfl⟩
  · rename_i hx
    obtain ⟨v, hv⟩ := Fl.div_ok y (Fl.ne_zero_of_eq (by simpa using hx))
    exact ⟨_, by rw [hv]; rfl⟩

/-- the kernel does not raise at shifted vertices -/
def Safe (K : Kernel A) : Prop := ∀ x y z : Fl A, x.Rep → y.Rep → z.Rep → ∃ v, vker K x y z = .ok v

theorem bind_ok_ok {α β : Type} {x : Py α} {f : α → Py β} (hx : ∃ v, x = .ok v)
    (hf : ∀ v, ∃ w, f v = .ok w) : ∃ w, (x >>= f) = .ok w := by
  obtain ⟨v, rfl⟩ := hx
  exact hf v

theorem safe_pot (h : A.Monotone) : Safe (kernel_pot (A := A)) := by
  intro x y z hx hy hz
  have hr := vrad_nonneg h x y z
  unfold vker kernel_pot
  generalize vrad x y z = r at hr
  exact bind_ok_ok (safe_log_ok h hz hr) fun _ => bind_ok_ok (safe_log_ok h hx hr) fun _ =>
    bind_ok_ok (safe_log_ok h hy hr) fun _ => bind_ok_ok (safe_atan2_ok _ _) fun _ =>
    bind_ok_ok (safe_atan2_ok _ _) fun _ => bind_ok_ok (safe_atan2_ok _ _) fun _ => ⟨_, rfl⟩

theorem safe_e (h : A.Monotone) : Safe (kernel_e (A := A)) := by
  intro x y z hx hy hz
  have hr := vrad_nonneg h x y z
  unfold vker kernel_e
  generalize vrad x y z = r at hr
  exact bind_ok_ok (safe_log_ok h hz hr) fun _ => bind_ok_ok (safe_log_ok h hy hr) fun _ =>
    bind_ok_ok (safe_atan2_ok _ _) fun _ => ⟨_, rfl⟩

theorem safe_n (h : A.Monotone) : Safe (kernel_n (A := A)) := by
  intro x y z hx hy hz
  have hr := vrad_nonneg h x y z
  unfold vker kernel_n
  generalize vrad x y z = r at hr
  exact bind_ok_ok (safe_log_ok h hx hr) fun _ => bind_ok_ok (safe_log_ok h hz hr) fun _ =>
    bind_ok_ok (safe_atan2_ok _ _) fun _ => ⟨_, rfl⟩

theorem safe_u (h : A.Monotone) : Safe (kernel_u (A := A)) := by
  intro x y z hx hy hz
  have hr := vrad_nonneg h x y z
  unfold vker kernel_u
  generalize vrad x y z = r at hr
  exact bind_ok_ok (safe_log_ok h hy hr) fun _ => bind_ok_ok (safe_log_ok h hx hr) fun _ =>
    bind_ok_ok (safe_atan2_ok _ _) fun _ => ⟨_, rfl⟩

theorem safe_ee : Safe (kernel_ee (A := A)) := by
  intro x y z _ _ _
  unfold vker kernel_ee
  split
  · exact ⟨_, rfl⟩
  · exact bind_ok_ok (safe_atan2_ok _ _) fun _ => ⟨_, rfl⟩

theorem safe_nn : Safe (kernel_nn (A := A)) := by
  intro x y z _ _ _
  unfold vker kernel_nn
  split
  · exact ⟨_, rfl⟩
  · exact bind_ok_ok (safe_atan2_ok _ _) fun _ => ⟨_, rfl⟩

theorem safe_uu : Safe (kernel_uu (A := A)) := by
  intro x y z _ _ _
  unfold vker kernel_uu
  split
  · exact ⟨_, rfl⟩
  · exact bind_ok_ok (safe_atan2_ok _ _) fun _ => ⟨_, rfl⟩

theorem safe_en (h : A.Monotone) : Safe (kernel_en (A := A)) := by
  intro x y z hx hy hz
  unfold vker kernel_en
  split
  · exact ⟨_, rfl⟩
  · exact safe_log_ok h hz (vrad_nonneg h x y z)

theorem safe_eu (h : A.Monotone) : Safe (kernel_eu (A := A)) := by
  intro x y z hx hy hz
  unfold vker kernel_eu
  split
  · exact ⟨_, rfl⟩
  · exact safe_log_ok h hy (vrad_nonneg h x y z)

theorem safe_nu (h : A.Monotone) : Safe (kernel_nu (A := A)) := by
  intro x y z hx hy hz
  unfold vker kernel_nu
  split
  · exact ⟨_, rfl⟩
  · exact safe_log_ok h hx (vrad_nonneg h x y z)

theorem evaluate_ok (h : A.Monotone) {K : Kernel A} (hK : Safe K) (e n u w E s N b t : Fl A) :
    ∃ v, _evaluate_kernel e n u w E s N b t K = .ok v := by
  rw [evaluate_kernel_unroll]
  have k : ∀ a b c d e f : Fl A, ∃ v, vker K (a - b) (c - d) (e - f) = .ok v := fun a b c d e f =>
    hK _ _ _ (Fl.Rep.sub h a b) (Fl.Rep.sub h c d) (Fl.Rep.sub h e f)
  exact bind_ok_ok (k _ _ _ _ _ _) fun _ => bind_ok_ok (k _ _ _ _ _ _) fun _ =>
    bind_ok_ok (k _ _ _ _ _ _) fun _ => bind_ok_ok (k _ _ _ _ _ _) fun _ =>
    bind_ok_ok (k _ _ _ _ _ _) fun _ => bind_ok_ok (k _ _ _ _ _ _) fun _ =>
    bind_ok_ok (k _ _ _ _ _ _) fun _ => bind_ok_ok (k _ _ _ _ _ _) fun _ => ⟨_, rfl⟩

theorem component_ok (h : A.Monotone) {K1 K2 K3 : Kernel A} (h1 : Safe K1) (h2 : Safe K2)
    (h3 : Safe K3) (e n u w E s N b t Me Mn Mu : Fl A) :
    ∃ v, _calculate_component e n u w E s N b t Me Mn Mu K1 K2 K3 = .ok v := by
  rw [calculate_component_steps]
  have k : ∀ (m : ℕ) (a b c d e f acc : Fl A), ∃ v,
      compStep m (a - b) (c - d) (e - f) Me Mn Mu K1 K2 K3 acc = .ok v := by
    intro m a b c d e f acc
    have r1 := Fl.Rep.sub h a b
    have r2 := Fl.Rep.sub h c d
    have r3 := Fl.Rep.sub h e f
    exact bind_ok_ok (h1 _ _ _ r1 r2 r3) fun _ => bind_ok_ok (h2 _ _ _ r1 r2 r3) fun _ =>
      bind_ok_ok (h3 _ _ _ r1 r2 r3) fun _ => ⟨_, rfl⟩
  exact bind_ok_ok (k _ _ _ _ _ _ _ _) fun _ => bind_ok_ok (k _ _ _ _ _ _ _ _) fun _ =>
    bind_ok_ok (k _ _ _ _ _ _ _ _) fun _ => bind_ok_ok (k _ _ _ _ _ _ _ _) fun _ =>
    bind_ok_ok (k _ _ _ _ _ _ _ _) fun _ => bind_ok_ok (k _ _ _ _ _ _ _ _) fun _ =>
    bind_ok_ok (k _ _ _ _ _ _ _ _) fun _ => k _ _ _ _ _ _ _ _

end prism
end Choclo
