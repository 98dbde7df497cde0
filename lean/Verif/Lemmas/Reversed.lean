import Verif.Spec.Reversed
import Verif.Lemmas.MagEval
import Verif.Lemmas.Integral3

/-! # Evaluation of the prism functions without an assumption on the order of the boundaries -/

namespace Choclo

open Real Set Classical

/-- not a vertex -/
def OffVertices (p : Pt) (P : Box) : Prop :=
  ∀ x y z, (x = P.west - p.e ∨ x = P.east - p.e) → (y = P.south - p.n ∨ y = P.north - p.n) →
    (z = P.bottom - p.u ∨ z = P.top - p.u) → rad x y z ≠ 0

namespace Ex
open prism

variable {P : Box} {p : Pt}

theorem gravity_any (hv : OffVertices p P) (c : GComp) (hs : p ∉ P.singular c) (ρ : ℝ) :
    onPrism (A := Exact) (prismGravity c) p P ρ = .ok (xf (Gc * ρ * Vc c p P)) := by
  have e1 := easting_edge_iff p P
  have e2 := northing_edge_iff p P
  have e3 := upward_edge_iff p P
  have e4 := east_face_iff p P
  have e5 := north_face_iff p P
  have e6 := top_face_iff p P
  cases c
  · exact gravity_pot_eval p P ρ
  · exact gravity_e_eval p P ρ
  · exact gravity_n_eval p P ρ
  · exact gravity_u_eval p P ρ
  case ee =>
    have h := evaluate_kernel_fin kernel_ee (Kc .ee) p P (fun x y z hx hy hz => kernel_ee_fin (hv x y z hx hy hz))
    simp only [Box.singular, mem_union, not_or] at hs
    simp only [prismGravity]
    unfold onPrism at e1 e2 e3 e4 e5 e6 h ⊢
    unfold gravity_ee
    simp only [Bool.or_eq_true, e2, e3, e4, hs.1, hs.2, or_self, if_false]
    rw [h]
    by_cases h2 : p ∈ P.faceEast <;> simp [Vc, corr, G_fin, h2]
  case nn =>
    have h := evaluate_kernel_fin kernel_nn (Kc .nn) p P (fun x y z hx hy hz => kernel_nn_fin (hv x y z hx hy hz))
    simp only [Box.singular, mem_union, not_or] at hs
    simp only [prismGravity]
    unfold onPrism at e1 e2 e3 e4 e5 e6 h ⊢
    unfold gravity_nn
    simp only [Bool.or_eq_true, e1, e3, e5, hs.1, hs.2, or_self, if_false]
    rw [h]
    by_cases h2 : p ∈ P.faceNorth <;> simp [Vc, corr, G_fin, h2]
  case uu =>
    have h := evaluate_kernel_fin kernel_uu (Kc .uu) p P (fun x y z hx hy hz => kernel_uu_fin (hv x y z hx hy hz))
    simp only [Box.singular, mem_union, not_or] at hs
    simp only [prismGravity]
    unfold onPrism at e1 e2 e3 e4 e5 e6 h ⊢
    unfold gravity_uu
    simp only [Bool.or_eq_true, e1, e2, e6, hs.1, hs.2, or_self, if_false]
    rw [h]
    by_cases h2 : p ∈ P.faceTop <;> simp [Vc, corr, G_fin, h2]
  case en =>
    have h := evaluate_kernel_fin kernel_en (Kc .en) p P (fun x y z hx hy hz => kernel_en_fin (hv x y z hx hy hz))
    simp only [Box.singular] at hs
    simp only [prismGravity]
    unfold onPrism at e1 e2 e3 h ⊢
    unfold gravity_en
    simp only [e3, hs, if_false]
    rw [h]; simp [Vc, corr, G_fin]
  case eu =>
    have h := evaluate_kernel_fin kernel_eu (Kc .eu) p P (fun x y z hx hy hz => kernel_eu_fin (hv x y z hx hy hz))
    simp only [Box.singular] at hs
    simp only [prismGravity]
    unfold onPrism at e1 e2 e3 h ⊢
    unfold gravity_eu
    simp only [e2, hs, if_false]
    rw [h]; simp [Vc, corr, G_fin]
  case nu =>
    have h := evaluate_kernel_fin kernel_nu (Kc .nu) p P (fun x y z hx hy hz => kernel_nu_fin (hv x y z hx hy hz))
    simp only [Box.singular] at hs
    simp only [prismGravity]
    unfold onPrism at e1 e2 e3 h ⊢
    unfold gravity_nu
    simp only [e1, hs, if_false]
    rw [h]; simp [Vc, corr, G_fin]

theorem magnetic_any (hv : OffVertices p P) (c : MComp) (h1 : p ∉ P.edges) (h2 : p ∉ P.inside) (Me Mn Mu : ℝ) :
    onPrism (A := Exact) (prismMagnetic c) p P Me Mn Mu = .ok (xf (mu0 / 4 / π * Bc c p P Me Mn Mu)) := by
  have e1 := edge_iff p P
  have e2 := interior_iff p P
  have e4 := east_face_iff p P
  have e5 := north_face_iff p P
  have e6 := top_face_iff p P
  cases c
  case e =>
    have h := calculate_component_fin kernel_ee kernel_en kernel_eu (Kc .ee) (Kc .en) (Kc .eu) p P Me Mn Mu
      (fun x y z hx hy hz => ⟨kernel_ee_fin (hv x y z hx hy hz), kernel_en_fin (hv x y z hx hy hz), kernel_eu_fin (hv x y z hx hy hz)⟩)
    simp only [prismMagnetic]
    unfold onPrism at e1 e2 e4 h ⊢
    unfold magnetic_e
    simp only [Bool.or_eq_true, e1, e2, e4, h1, h2, or_self, if_false]
    rw [h]
    by_cases h3 : p ∈ P.faceEast <;>
      simp only [h3, if_true, if_false, ok_bind, ofNat_fin, pi_fin, cm1_fin, cm2_fin, mul_fin, add_fin, pure_ok, Bc, Wc, Vc, corr] <;>
      congr 2 <;> ring
  case n =>
    have h := calculate_component_fin kernel_en kernel_nn kernel_nu (Kc .en) (Kc .nn) (Kc .nu) p P Me Mn Mu
      (fun x y z hx hy hz => ⟨kernel_en_fin (hv x y z hx hy hz), kernel_nn_fin (hv x y z hx hy hz), kernel_nu_fin (hv x y z hx hy hz)⟩)
    simp only [prismMagnetic]
    unfold onPrism at e1 e2 e5 h ⊢
    unfold magnetic_n
    simp only [Bool.or_eq_true, e1, e2, e5, h1, h2, or_self, if_false]
    rw [h]
    by_cases h3 : p ∈ P.faceNorth <;>
      simp only [h3, if_true, if_false, ok_bind, ofNat_fin, pi_fin, cm1_fin, cm2_fin, mul_fin, add_fin, pure_ok, Bc, Wc, Vc, corr] <;>
      congr 2 <;> ring
  case u =>
    have h := calculate_component_fin kernel_eu kernel_nu kernel_uu (Kc .eu) (Kc .nu) (Kc .uu) p P Me Mn Mu
      (fun x y z hx hy hz => ⟨kernel_eu_fin (hv x y z hx hy hz), kernel_nu_fin (hv x y z hx hy hz), kernel_uu_fin (hv x y z hx hy hz)⟩)
    simp only [prismMagnetic]
    unfold onPrism at e1 e2 e6 h ⊢
    unfold magnetic_u
    simp only [Bool.or_eq_true, e1, e2, e6, h1, h2, or_self, if_false]
    rw [h]
    by_cases h3 : p ∈ P.faceTop <;>
      simp only [h3, if_true, if_false, ok_bind, ofNat_fin, pi_fin, cm1_fin, cm2_fin, mul_fin, add_fin, pure_ok, Bc, Wc, Vc, corr] <;>
      congr 2 <;> ring
  case ee =>
    have h := calculate_component_fin kernel_eee kernel_een kernel_eeu (K3 .eee) (K3 .een) (K3 .eeu) p P Me Mn Mu
      (fun x y z hx hy hz => ⟨kernel_eee_fin (hv x y z hx hy hz), kernel_een_fin (hv x y z hx hy hz), kernel_eeu_fin (hv x y z hx hy hz)⟩)
    simp only [prismMagnetic]
    unfold onPrism at e1 e2 h ⊢
    unfold magnetic_ee
    simp only [Bool.or_eq_true, e1, e2, h1, h2, or_self, if_false]
    rw [h]
    simp only [ok_bind, ofNat_fin, pi_fin, cm1_fin, cm2_fin, mul_fin, pure_ok, Bc, Wc]
  case nn =>
    have h := calculate_component_fin kernel_enn kernel_nnn kernel_nnu (K3 .enn) (K3 .nnn) (K3 .nnu) p P Me Mn Mu
      (fun x y z hx hy hz => ⟨kernel_enn_fin (hv x y z hx hy hz), kernel_nnn_fin (hv x y z hx hy hz), kernel_nnu_fin (hv x y z hx hy hz)⟩)
    simp only [prismMagnetic]
    unfold onPrism at e1 e2 h ⊢
    unfold magnetic_nn
    simp only [Bool.or_eq_true, e1, e2, h1, h2, or_self, if_false]
    rw [h]
    simp only [ok_bind, ofNat_fin, pi_fin, cm1_fin, cm2_fin, mul_fin, pure_ok, Bc, Wc]
  case uu =>
    have h := calculate_component_fin kernel_euu kernel_nuu kernel_uuu (K3 .euu) (K3 .nuu) (K3 .uuu) p P Me Mn Mu
      (fun x y z hx hy hz => ⟨kernel_euu_fin (hv x y z hx hy hz), kernel_nuu_fin (hv x y z hx hy hz), kernel_uuu_fin (hv x y z hx hy hz)⟩)
    simp only [prismMagnetic]
    unfold onPrism at e1 e2 h ⊢
    unfold magnetic_uu
    simp only [Bool.or_eq_true, e1, e2, h1, h2, or_self, if_false]
    rw [h]
    simp only [ok_bind, ofNat_fin, pi_fin, cm1_fin, cm2_fin, mul_fin, pure_ok, Bc, Wc]
  case en =>
    have h := calculate_component_fin kernel_een kernel_enn kernel_enu (K3 .een) (K3 .enn) (K3 .enu) p P Me Mn Mu
      (fun x y z hx hy hz => ⟨kernel_een_fin (hv x y z hx hy hz), kernel_enn_fin (hv x y z hx hy hz), kernel_enu_fin (hv x y z hx hy hz)⟩)
    simp only [prismMagnetic]
    unfold onPrism at e1 e2 h ⊢
    unfold magnetic_en
    simp only [Bool.or_eq_true, e1, e2, h1, h2, or_self, if_false]
    rw [h]
    simp only [ok_bind, ofNat_fin, pi_fin, cm1_fin, cm2_fin, mul_fin, pure_ok, Bc, Wc]
  case eu =>
    have h := calculate_component_fin kernel_eeu kernel_enu kernel_euu (K3 .eeu) (K3 .enu) (K3 .euu) p P Me Mn Mu
      (fun x y z hx hy hz => ⟨kernel_eeu_fin (hv x y z hx hy hz), kernel_enu_fin (hv x y z hx hy hz), kernel_euu_fin (hv x y z hx hy hz)⟩)
    simp only [prismMagnetic]
    unfold onPrism at e1 e2 h ⊢
    unfold magnetic_eu
    simp only [Bool.or_eq_true, e1, e2, h1, h2, or_self, if_false]
    rw [h]
    simp only [ok_bind, ofNat_fin, pi_fin, cm1_fin, cm2_fin, mul_fin, pure_ok, Bc, Wc]
  case nu =>
    have h := calculate_component_fin kernel_enu kernel_nnu kernel_nuu (K3 .enu) (K3 .nnu) (K3 .nuu) p P Me Mn Mu
      (fun x y z hx hy hz => ⟨kernel_enu_fin (hv x y z hx hy hz), kernel_nnu_fin (hv x y z hx hy hz), kernel_nuu_fin (hv x y z hx hy hz)⟩)
    simp only [prismMagnetic]
    unfold onPrism at e1 e2 h ⊢
    unfold magnetic_nu
    simp only [Bool.or_eq_true, e1, e2, h1, h2, or_self, if_false]
    rw [h]
    simp only [ok_bind, ofNat_fin, pi_fin, cm1_fin, cm2_fin, mul_fin, pure_ok, Bc, Wc]

end Ex

variable {P : Box} {p : Pt}

theorem Box.sorted_ordered (P : Box) : P.sorted.Ordered := ⟨min_le_max, min_le_max, min_le_max⟩

theorem Dv_sorted (K : ℝ → ℝ → ℝ → ℝ) (p : Pt) (P : Box) : Dv K p P = P.orientation * Dv K p P.sorted := by
  have ax : ∀ a b : ℝ, (min a b = a ∧ max a b = b ∧ (if b < a then (-1 : ℝ) else 1) = 1) ∨
      (min a b = b ∧ max a b = a ∧ (if b < a then (-1 : ℝ) else 1) = -1) := by
    intro a b
    rcases lt_or_ge b a with h | h
    · exact .inr ⟨min_eq_right h.le, max_eq_left h.le, if_pos h⟩
    · exact .inl ⟨min_eq_left h, max_eq_right h, if_neg (not_lt.2 h)⟩
  obtain ⟨w, e, s, n, b, t⟩ := P
  simp only [Dv, D3, Box.sorted, Box.orientation]
  rcases ax w e with ⟨h1, h2, h3⟩ | ⟨h1, h2, h3⟩ <;> rcases ax s n with ⟨h4, h5, h6⟩ | ⟨h4, h5, h6⟩ <;>
    rcases ax b t with ⟨h7, h8, h9⟩ | ⟨h7, h8, h9⟩ <;>
    rw [h1, h2, h3, h4, h5, h6, h7, h8, h9] <;> ring

/-- not on the surface, whatever the order of the boundaries -/
structure OffSurface (p : Pt) (P : Box) : Prop where
  e : ¬((p.e = P.west ∨ p.e = P.east) ∧ p.n ∈ uIcc P.south P.north ∧ p.u ∈ uIcc P.bottom P.top)
  n : ¬(p.e ∈ uIcc P.west P.east ∧ (p.n = P.south ∨ p.n = P.north) ∧ p.u ∈ uIcc P.bottom P.top)
  u : ¬(p.e ∈ uIcc P.west P.east ∧ p.n ∈ uIcc P.south P.north ∧ (p.u = P.bottom ∨ p.u = P.top))

theorem mem_sorted_region : p ∈ P.sorted.region ↔
    p.e ∈ uIcc P.west P.east ∧ p.n ∈ uIcc P.south P.north ∧ p.u ∈ uIcc P.bottom P.top := Iff.rfl

theorem endpoint_uIcc {x a b : ℝ} (h : x = a ∨ x = b) : x ∈ uIcc a b := by
  rcases h with rfl | rfl
  · exact left_mem_uIcc
  · exact right_mem_uIcc

theorem endpoint_not_Ioo {x a b : ℝ} (h : x = a ∨ x = b) : ¬(min a b < x ∧ x < max a b) := by
  rintro ⟨h1, h2⟩
  rcases h with rfl | rfl
  · rcases le_total x b with h | h
    · rw [min_eq_left h] at h1; exact lt_irrefl _ h1
    · rw [max_eq_left h] at h2; exact lt_irrefl _ h2
  · rcases le_total a x with h | h
    · rw [max_eq_right h] at h2; exact lt_irrefl _ h2
    · rw [min_eq_right h] at h1; exact lt_irrefl _ h1

theorem offSurface_exterior (h : p ∉ P.sorted.region) : OffSurface p P := by
  rw [mem_sorted_region] at h
  exact ⟨fun ⟨a, b, c⟩ => h ⟨endpoint_uIcc a, b, c⟩, fun ⟨a, b, c⟩ => h ⟨a, endpoint_uIcc b, c⟩,
    fun ⟨a, b, c⟩ => h ⟨a, b, endpoint_uIcc c⟩⟩

theorem offSurface_inside (h : p ∈ P.sorted.inside) : OffSurface p P := by
  obtain ⟨h1, h2, h3⟩ := h
  exact ⟨fun ⟨a, _, _⟩ => endpoint_not_Ioo a h1, fun ⟨_, b, _⟩ => endpoint_not_Ioo b h2,
    fun ⟨_, _, c⟩ => endpoint_not_Ioo c h3⟩

theorem offSurface_frontier (h : p ∉ frontier P.sorted.region) : OffSurface p P := by
  by_cases hp : p ∈ P.sorted.region
  · apply offSurface_inside
    rw [(isCompact_region _).isClosed.frontier_eq] at h
    have : p ∈ interior P.sorted.region := by by_contra h'; exact h ⟨hp, h'⟩
    simpa only [Box.region, Box.inside, interior_prod_eq, interior_Icc] using this
  · exact offSurface_exterior hp

theorem OffSurface.sorted (h : OffSurface p P) : OffSurface p P.sorted := by
  have u : ∀ a b : ℝ, uIcc (min a b) (max a b) = uIcc a b := fun a b => by
    rcases le_total a b with h | h
    · rw [min_eq_left h, max_eq_right h]
    · rw [min_eq_right h, max_eq_left h, uIcc_comm]
  have v : ∀ x a b : ℝ, (x = min a b ∨ x = max a b) ↔ (x = a ∨ x = b) := fun x a b => by
    rcases le_total a b with h | h
    · rw [min_eq_left h, max_eq_right h]
    · rw [min_eq_right h, max_eq_left h, or_comm]
  obtain ⟨h1, h2, h3⟩ := h
  constructor <;> simp only [Box.sorted, u, v] <;> assumption

theorem OffSurface.vertices (h : OffSurface p P) : OffVertices p P := by
  intro x y z hx hy hz h0
  rw [rad_eq_zero] at h0
  obtain ⟨rfl, rfl, rfl⟩ := h0
  have s : ∀ a b t : ℝ, (0 = a - t ∨ 0 = b - t) → (t = a ∨ t = b) := fun a b t h => by
    rcases h with h | h
    · left; linarith
    · right; linarith
  exact h.e ⟨s _ _ _ hx, endpoint_uIcc (s _ _ _ hy), endpoint_uIcc (s _ _ _ hz)⟩

theorem OffSurface.edges (h : OffSurface p P) : p ∉ P.edges := by
  intro h'
  rcases h' with (⟨a, b, c⟩ | ⟨a, b, c⟩) | ⟨a, b, c⟩
  · exact h.n ⟨Icc_subset_uIcc a, b, endpoint_uIcc c⟩
  · exact h.e ⟨a, Icc_subset_uIcc b, endpoint_uIcc c⟩
  · exact h.e ⟨a, endpoint_uIcc b, Icc_subset_uIcc c⟩

theorem OffSurface.singular (h : OffSurface p P) (c : GComp) : p ∉ P.singular c := by
  have h' := h.edges
  simp only [Box.edges, mem_union, not_or] at h'
  cases c <;> simp only [Box.singular, mem_union, mem_empty_iff_false, not_false_eq_true, not_or] <;> tauto

theorem OffSurface.corr (h : OffSurface p P) (c : GComp) : Choclo.corr c p P = 0 := by
  have i : ∀ {x a b : ℝ}, x ∈ Ioo a b → x ∈ uIcc a b := fun hx => Icc_subset_uIcc (Ioo_subset_Icc_self hx)
  cases c <;> simp only [Choclo.corr] <;> rw [if_neg]
  · rintro ⟨a, b, c⟩; exact h.e ⟨.inr a, i b, i c⟩
  · rintro ⟨a, b, c⟩; exact h.n ⟨i a, .inr b, i c⟩
  · rintro ⟨a, b, c⟩; exact h.u ⟨i a, i b, .inr c⟩

theorem Vc_sorted (h : OffSurface p P) (c : GComp) : Vc c p P = P.orientation * Vc c p P.sorted := by
  simp only [Vc, h.corr, h.sorted.corr, add_zero]
  exact Dv_sorted _ p P

theorem Wc_sorted (h : OffSurface p P) (c : MComp) (j : Fin 3) : Wc c j p P = P.orientation * Wc c j p P.sorted := by
  have v := fun c => Vc_sorted h c
  have d := fun K => Dv_sorted K p P
  match c, j with
  | .e, 0 => exact v _
  | .e, 1 => exact v _
  | .e, 2 => exact v _
  | .n, 0 => exact v _
  | .n, 1 => exact v _
  | .n, 2 => exact v _
  | .u, 0 => exact v _
  | .u, 1 => exact v _
  | .u, 2 => exact v _
  | .ee, 0 => exact d _
  | .ee, 1 => exact d _
  | .ee, 2 => exact d _
  | .nn, 0 => exact d _
  | .nn, 1 => exact d _
  | .nn, 2 => exact d _
  | .uu, 0 => exact d _
  | .uu, 1 => exact d _
  | .uu, 2 => exact d _
  | .en, 0 => exact d _
  | .en, 1 => exact d _
  | .en, 2 => exact d _
  | .eu, 0 => exact d _
  | .eu, 1 => exact d _
  | .eu, 2 => exact d _
  | .nu, 0 => exact d _
  | .nu, 1 => exact d _
  | .nu, 2 => exact d _

theorem Bc_sorted (h : OffSurface p P) (c : MComp) (Me Mn Mu : ℝ) :
    Bc c p P Me Mn Mu = P.orientation * Bc c p P.sorted Me Mn Mu := by
  simp only [Bc, Wc_sorted h]; ring

end Choclo
