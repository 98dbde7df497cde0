import Verif.Lemmas.NoRaise
import Verif.Lemmas.MixedField

/-! # No division by zero in the low-order prism kernels, for float32 and float64 arguments -/

namespace Choclo

variable {S D : Arith}

/-- every float32 is a float64 -/
def Arith.Embeds (S D : Arith) : Prop := ∀ x : ℝ, S.rnd x = .fin x → D.rnd x = .fin x

/-- a float32 or a float64 (or NaN, or an infinity) -/
def MFl.Rep : MFl S D → Prop
  | .f32 x => x.Rep
  | .f64 x => x.Rep

theorem MFl.Rep.toD (hSD : Arith.Embeds S D) {a : MFl S D} (h : a.Rep) : a.toD.Rep := by
  cases a with
  | f32 a => exact fun x hx => ⟨hSD _ (h x hx).1, hSD _ (h x hx).2⟩
  | f64 a => exact h

theorem MFl.Rep.sub (hS : S.Monotone) (hD : D.Monotone) (a b : MFl S D) : (a - b).Rep := by
  cases a <;> cases b
  · exact Fl.Rep.sub hS _ _
  all_goals exact Fl.Rep.sub hD _ _

theorem MFl.div_ok (a : MFl S D) {b : MFl S D} (hb : b.toD ≠ Fl.fin 0) : ∃ v, MFl.div a b = .ok v := by
  cases a with
  | f32 a =>
    cases b with
    | f32 b =>
      obtain ⟨v, hv⟩ := Fl.div_ok a (b := b) (fun h => hb h)
      exact ⟨.f32 v, by show (a /. b).map _ = _; rw [hv]; rfl⟩
    | f64 b =>
      obtain ⟨v, hv⟩ := Fl.div_ok (a.up : Fl D) (b := b) (fun h => hb h)
      exact ⟨.f64 v, by show ((a.up : Fl D) /. b).map _ = _; rw [hv]; rfl⟩
  | f64 a =>
    obtain ⟨v, hv⟩ := Fl.div_ok a hb
    exact ⟨.f64 v, by show (a /. b.toD).map _ = _; rw [hv]; rfl⟩

namespace Mixed.prism

open Choclo.prism (NonNeg bind_ok_ok)

theorem nonneg_up {a : Fl S} (h : NonNeg a) : NonNeg (a.up : Fl D) := by
  rcases h with rfl | rfl | ⟨x, rfl, hx⟩
  · exact .inl rfl
  · exact .inr (.inl rfl)
  · exact .inr (.inr ⟨x, rfl, hx⟩)

/-- the value is not a negative number -/
def MNonNeg : MFl S D → Prop
  | .f32 x => NonNeg x
  | .f64 x => NonNeg x

theorem MNonNeg.toD {a : MFl S D} (h : MNonNeg a) : NonNeg a.toD := by
  cases a with
  | f32 a => exact nonneg_up h
  | f64 a => exact h

theorem nonneg_sqrt {A : Arith} (h : A.Monotone) (a : Fl A) : NonNeg (Fl.sqrt a) := by
  cases a with
  | nan => exact .inl rfl
  | inf s => cases s
             · exact .inr (.inl rfl)
             · exact .inl rfl
  | fin x =>
    by_cases hx : x < 0
    · exact .inl (if_pos hx)
    · have e : Fl.sqrt (Fl.fin x : Fl A) = Fl.ofRaw (A.rnd (Real.sqrt x)) := if_neg hx
      have hm := h.rnd_mono 0 (Real.sqrt x) (Real.sqrt_nonneg x)
      rw [h.rnd_zero] at hm
      change NonNeg (Fl.sqrt (Fl.fin x : Fl A))
      rw [e]
      generalize A.rnd (Real.sqrt x) = r at hm
      cases r with
      | nan => exact hm.elim
      | inf s => cases s
                 · exact .inr (.inl rfl)
                 · exact hm.elim
      | fin y => exact .inr (.inr ⟨y, rfl, hm⟩)

theorem mvrad_nonneg (hS : S.Monotone) (hD : D.Monotone) (x y z : MFl S D) : MNonNeg (vrad x y z) := by
  unfold vrad
  generalize x ^ 2 + y ^ 2 + z ^ 2 = a
  cases a with
  | f32 a => exact nonneg_sqrt hS a
  | f64 a => exact nonneg_sqrt hD a

theorem msub_ne_zero (hS : S.Monotone) (hD : D.Monotone) (hSD : Arith.Embeds S D) {x r : MFl S D} (hx : x.Rep)
    (hr : MNonNeg r) (hneg : MFl.lt x 0 = true) : (r - x).toD ≠ Fl.fin 0 := by
  cases r with
  | f32 r =>
    cases x with
    | f32 x => exact fun h => Choclo.prism.sub_ne_zero hS (x := x) (r := r) hx hr (by cases x <;> exact hneg) h
    | f64 x => exact Choclo.prism.sub_ne_zero hD (x := x) (r := r.up) hx (nonneg_up hr) hneg
  | f64 r => exact Choclo.prism.sub_ne_zero hD (x := x.toD) (r := r) (hx.toD hSD) hr hneg

theorem msafe_log_ok (hS : S.Monotone) (hD : D.Monotone) (hSD : Arith.Embeds S D) {x y z r : MFl S D} (hx : x.Rep)
    (hr : MNonNeg r) : ∃ v, _safe_log x y z r = .ok v := by
  unfold _safe_log
  split
  · exact ⟨_, rfl⟩
  · split
    · rename_i hneg
      split
      · exact ⟨_, rfl⟩
      · obtain ⟨v, hv⟩ := MFl.div_ok (y ^ 2 + z ^ 2) (msub_ne_zero hS hD hSD hx hr hneg)
        rw [hv]
        exact ⟨_, rfl⟩
    · exact ⟨_, rfl⟩

theorem mtwo_ne : (2 : MFl S D).toD ≠ Fl.fin 0 := Fl.two_ne

theorem msafe_atan2_ok (y x : MFl S D) : ∃ v, _safe_atan2 y x = .ok v := by
  unfold _safe_atan2
  split
  · split
    · exact bind_ok_ok (MFl.div_ok (MFl.pi : MFl S D) mtwo_ne) fun _ => ⟨_, rfl⟩
    · split
      · exact bind_ok_ok (MFl.div_ok (-MFl.pi : MFl S D) mtwo_ne) fun _ => ⟨_, rfl⟩
      · exact ⟨_, rfl⟩
  · rename_i hx
    exact bind_ok_ok (MFl.div_ok y (Fl.ne_zero_of_eq (by simpa using hx))) fun _ => ⟨_, rfl⟩

/-- the kernel does not raise at shifted vertices -/
def MSafe (K : Kernel S D) : Prop := ∀ x y z : MFl S D, x.Rep → y.Rep → z.Rep → ∃ v, vker K x y z = .ok v

section
variable (hS : S.Monotone) (hD : D.Monotone) (hSD : Arith.Embeds S D)
include hS hD hSD

theorem msafe_pot : MSafe (kernel_pot (S := S) (D := D)) := by
  intro x y z hx hy hz
  have hr := mvrad_nonneg hS hD x y z
  unfold vker kernel_pot
  generalize vrad x y z = r at hr
  exact bind_ok_ok (msafe_log_ok hS hD hSD hz hr) fun _ => bind_ok_ok (msafe_log_ok hS hD hSD hx hr) fun _ =>
    bind_ok_ok (msafe_log_ok hS hD hSD hy hr) fun _ => bind_ok_ok (msafe_atan2_ok _ _) fun _ =>
    bind_ok_ok (msafe_atan2_ok _ _) fun _ => bind_ok_ok (msafe_atan2_ok _ _) fun _ => ⟨_, rfl⟩

theorem msafe_e : MSafe (kernel_e (S := S) (D := D)) := by
  intro x y z hx hy hz
  have hr := mvrad_nonneg hS hD x y z
  unfold vker kernel_e
  generalize vrad x y z = r at hr
  exact bind_ok_ok (msafe_log_ok hS hD hSD hz hr) fun _ => bind_ok_ok (msafe_log_ok hS hD hSD hy hr) fun _ =>
    bind_ok_ok (msafe_atan2_ok _ _) fun _ => ⟨_, rfl⟩

theorem msafe_n : MSafe (kernel_n (S := S) (D := D)) := by
  intro x y z hx hy hz
  have hr := mvrad_nonneg hS hD x y z
  unfold vker kernel_n
  generalize vrad x y z = r at hr
  exact bind_ok_ok (msafe_log_ok hS hD hSD hx hr) fun _ => bind_ok_ok (msafe_log_ok hS hD hSD hz hr) fun _ =>
    bind_ok_ok (msafe_atan2_ok _ _) fun _ => ⟨_, rfl⟩

theorem msafe_u : MSafe (kernel_u (S := S) (D := D)) := by
  intro x y z hx hy hz
  have hr := mvrad_nonneg hS hD x y z
  unfold vker kernel_u
  generalize vrad x y z = r at hr
  exact bind_ok_ok (msafe_log_ok hS hD hSD hy hr) fun _ => bind_ok_ok (msafe_log_ok hS hD hSD hx hr) fun _ =>
    bind_ok_ok (msafe_atan2_ok _ _) fun _ => ⟨_, rfl⟩

theorem msafe_en : MSafe (kernel_en (S := S) (D := D)) := by
  intro x y z hx hy hz
  unfold vker kernel_en
  split
  · exact ⟨_, rfl⟩
  · exact bind_ok_ok (msafe_log_ok hS hD hSD hz (mvrad_nonneg hS hD x y z)) fun _ => ⟨_, rfl⟩

theorem msafe_eu : MSafe (kernel_eu (S := S) (D := D)) := by
  intro x y z hx hy hz
  unfold vker kernel_eu
  split
  · exact ⟨_, rfl⟩
  · exact bind_ok_ok (msafe_log_ok hS hD hSD hy (mvrad_nonneg hS hD x y z)) fun _ => ⟨_, rfl⟩

theorem msafe_nu : MSafe (kernel_nu (S := S) (D := D)) := by
  intro x y z hx hy hz
  unfold vker kernel_nu
  split
  · exact ⟨_, rfl⟩
  · exact bind_ok_ok (msafe_log_ok hS hD hSD hx (mvrad_nonneg hS hD x y z)) fun _ => ⟨_, rfl⟩

end

theorem msafe_ee : MSafe (kernel_ee (S := S) (D := D)) := by
  intro x y z _ _ _
  unfold vker kernel_ee
  split
  · exact ⟨_, rfl⟩
  · exact bind_ok_ok (msafe_atan2_ok _ _) fun _ => ⟨_, rfl⟩

theorem msafe_nn : MSafe (kernel_nn (S := S) (D := D)) := by
  intro x y z _ _ _
  unfold vker kernel_nn
  split
  · exact ⟨_, rfl⟩
  · exact bind_ok_ok (msafe_atan2_ok _ _) fun _ => ⟨_, rfl⟩

theorem msafe_uu : MSafe (kernel_uu (S := S) (D := D)) := by
  intro x y z _ _ _
  unfold vker kernel_uu
  split
  · exact ⟨_, rfl⟩
  · exact bind_ok_ok (msafe_atan2_ok _ _) fun _ => ⟨_, rfl⟩

theorem mevaluate_ok (hS : S.Monotone) (hD : D.Monotone) {K : Kernel S D} (hK : MSafe K)
    (e n u w E s N b t : MFl S D) : ∃ v, _evaluate_kernel e n u w E s N b t K = .ok v := by
  rw [evaluate_kernel_unroll]
  have k : ∀ a b c d e f : MFl S D, ∃ v, vker K (a - b) (c - d) (e - f) = .ok v := fun a b c d e f =>
    hK _ _ _ (MFl.Rep.sub hS hD a b) (MFl.Rep.sub hS hD c d) (MFl.Rep.sub hS hD e f)
  exact bind_ok_ok (k _ _ _ _ _ _) fun _ => bind_ok_ok (k _ _ _ _ _ _) fun _ =>
    bind_ok_ok (k _ _ _ _ _ _) fun _ => bind_ok_ok (k _ _ _ _ _ _) fun _ =>
    bind_ok_ok (k _ _ _ _ _ _) fun _ => bind_ok_ok (k _ _ _ _ _ _) fun _ =>
    bind_ok_ok (k _ _ _ _ _ _) fun _ => bind_ok_ok (k _ _ _ _ _ _) fun _ => ⟨_, rfl⟩

theorem mcomponent_ok (hS : S.Monotone) (hD : D.Monotone) {K1 K2 K3 : Kernel S D} (h1 : MSafe K1) (h2 : MSafe K2)
    (h3 : MSafe K3) (e n u w E s N b t Me Mn Mu : MFl S D) :
    ∃ v, _calculate_component e n u w E s N b t Me Mn Mu K1 K2 K3 = .ok v := by
  rw [calculate_component_steps]
  have k : ∀ (m : ℕ) (a b c d e f acc : MFl S D), ∃ v,
      compStep m (a - b) (c - d) (e - f) Me Mn Mu K1 K2 K3 acc = .ok v := by
    intro m a b c d e f acc
    have r1 := MFl.Rep.sub hS hD a b
    have r2 := MFl.Rep.sub hS hD c d
    have r3 := MFl.Rep.sub hS hD e f
    exact bind_ok_ok (h1 _ _ _ r1 r2 r3) fun _ => bind_ok_ok (h2 _ _ _ r1 r2 r3) fun _ =>
      bind_ok_ok (h3 _ _ _ r1 r2 r3) fun _ => ⟨_, rfl⟩
  exact bind_ok_ok (k _ _ _ _ _ _ _ _) fun _ => bind_ok_ok (k _ _ _ _ _ _ _ _) fun _ =>
    bind_ok_ok (k _ _ _ _ _ _ _ _) fun _ => bind_ok_ok (k _ _ _ _ _ _ _ _) fun _ =>
    bind_ok_ok (k _ _ _ _ _ _ _ _) fun _ => bind_ok_ok (k _ _ _ _ _ _ _ _) fun _ =>
    bind_ok_ok (k _ _ _ _ _ _ _ _) fun _ => k _ _ _ _ _ _ _ _

end Mixed.prism
end Choclo
