import Verif.Lemmas.PrismEval

/-! # Evaluation of the prism magnetic functions in exact arithmetic -/

namespace Choclo

open Real Classical

/-- names of the third-order kernels -/
inductive TComp where
  | eee | nnn | uuu | een | eeu | enn | nnu | euu | nuu | enu

/-- real-valued third-order kernels -/
noncomputable def K3 : TComp → ℝ → ℝ → ℝ → ℝ
  | .eee => fun x y z => Kiii x y z
  | .nnn => fun x y z => Kiii y z x
  | .uuu => fun x y z => Kiii z y x
  | .een => fun x y z => Kiij x y z
  | .eeu => fun x y z => Kiij x z y
  | .enn => fun x y z => Kiij y x z
  | .nnu => fun x y z => Kiij y z x
  | .euu => fun x y z => Kiij z x y
  | .nuu => fun x y z => Kiij z y x
  | .enu => fun x y z => -1 / rad x y z

/-- the entry of the (field or gradient) matrix multiplying a magnetization component,
without the factor `mu0 / 4 pi` -/
noncomputable def Wc (c : MComp) (j : Fin 3) (p : Pt) (P : Box) : ℝ :=
  match c, j with
  | .e, 0 => Vc .ee p P
  | .e, 1 => Vc .en p P
  | .e, 2 => Vc .eu p P
  | .n, 0 => Vc .en p P
  | .n, 1 => Vc .nn p P
  | .n, 2 => Vc .nu p P
  | .u, 0 => Vc .eu p P
  | .u, 1 => Vc .nu p P
  | .u, 2 => Vc .uu p P
  | .ee, 0 => Dv (K3 .eee) p P
  | .ee, 1 => Dv (K3 .een) p P
  | .ee, 2 => Dv (K3 .eeu) p P
  | .nn, 0 => Dv (K3 .enn) p P
  | .nn, 1 => Dv (K3 .nnn) p P
  | .nn, 2 => Dv (K3 .nnu) p P
  | .uu, 0 => Dv (K3 .euu) p P
  | .uu, 1 => Dv (K3 .nuu) p P
  | .uu, 2 => Dv (K3 .uuu) p P
  | .en, 0 => Dv (K3 .een) p P
  | .en, 1 => Dv (K3 .enn) p P
  | .en, 2 => Dv (K3 .enu) p P
  | .eu, 0 => Dv (K3 .eeu) p P
  | .eu, 1 => Dv (K3 .enu) p P
  | .eu, 2 => Dv (K3 .euu) p P
  | .nu, 0 => Dv (K3 .enu) p P
  | .nu, 1 => Dv (K3 .nnu) p P
  | .nu, 2 => Dv (K3 .nuu) p P

/-- what the prism magnetic functions return, without the factor `mu0 / 4 pi` -/
noncomputable def Bc (c : MComp) (p : Pt) (P : Box) (Me Mn Mu : ℝ) : ℝ :=
  Me * Wc c 0 p P + Mn * Wc c 1 p P + Mu * Wc c 2 p P

namespace Ex
open prism

theorem cm1_fin : ((VACUUM_MAGNETIC_PERMEABILITY : Fl Exact) /. xf 4) = .ok (xf (mu0 / 4)) := by
  rw [mu0_fin, div_fin (by norm_num)]
theorem cm2_fin : (xf (mu0 / 4) /. xf π) = .ok (xf (mu0 / 4 / π)) := div_fin Real.pi_ne_zero

theorem calculate_component_fin (K1 K2 K3 : Kernel Exact) (k1 k2 k3 : ℝ → ℝ → ℝ → ℝ) (p : Pt) (P : Box)
    (Me Mn Mu : ℝ)
    (h : ∀ x y z, (x = P.west - p.e ∨ x = P.east - p.e) → (y = P.south - p.n ∨ y = P.north - p.n) →
      (z = P.bottom - p.u ∨ z = P.top - p.u) →
      vker K1 (xf x) (xf y) (xf z) = .ok (xf (k1 x y z)) ∧
      vker K2 (xf x) (xf y) (xf z) = .ok (xf (k2 x y z)) ∧
      vker K3 (xf x) (xf y) (xf z) = .ok (xf (k3 x y z))) :
    onPrism (A := Exact) _calculate_component p P (xf Me) (xf Mn) (xf Mu) K1 K2 K3 =
      .ok (xf (Me * Dv k1 p P + Mn * Dv k2 p P + Mu * Dv k3 p P)) := by
  unfold onPrism
  rw [calculate_component_unroll]
  simp only [sub_fin]
  have h111 := h _ _ _ (Or.inl rfl) (Or.inl rfl) (Or.inl rfl)
  have h112 := h _ _ _ (Or.inl rfl) (Or.inl rfl) (Or.inr rfl)
  have h121 := h _ _ _ (Or.inl rfl) (Or.inr rfl) (Or.inl rfl)
  have h122 := h _ _ _ (Or.inl rfl) (Or.inr rfl) (Or.inr rfl)
  have h211 := h _ _ _ (Or.inr rfl) (Or.inl rfl) (Or.inl rfl)
  have h212 := h _ _ _ (Or.inr rfl) (Or.inl rfl) (Or.inr rfl)
  have h221 := h _ _ _ (Or.inr rfl) (Or.inr rfl) (Or.inl rfl)
  have h222 := h _ _ _ (Or.inr rfl) (Or.inr rfl) (Or.inr rfl)
  simp only [h111.1, h111.2.1, h111.2.2, h112.1, h112.2.1, h112.2.2, h121.1, h121.2.1, h121.2.2,
    h122.1, h122.2.1, h122.2.2, h211.1, h211.2.1, h211.2.2, h212.1, h212.2.1, h212.2.2,
    h221.1, h221.2.1, h221.2.2, h222.1, h222.2.1, h222.2.2,
    ok_bind, sgn, intCast_fin, mul_fin, add_fin, zero_fin, pure_ok]
  congr 2
  unfold Dv D3
  push_cast
  ring

theorem rad_ne_zero' {p : Pt} {P : Box} (hP : P.Ordered) (hp : ¬(p ∈ P.edges ∨ p ∈ P.inside))
    {x y z : ℝ}
    (hx : x = P.west - p.e ∨ x = P.east - p.e) (hy : y = P.south - p.n ∨ y = P.north - p.n)
    (hz : z = P.bottom - p.u ∨ z = P.top - p.u) : rad x y z ≠ 0 := by
  apply rad_ne_zero hP _ hx hy hz
  simp only [Box.edges, Set.mem_union, not_or] at hp
  tauto

variable {P : Box}

theorem magnetic_e_eval (hP : P.Ordered) (p : Pt) (Me Mn Mu : ℝ) :
    onPrism (A := Exact) magnetic_e p P Me Mn Mu =
      .ok (if p ∈ P.edges ∨ p ∈ P.inside then Fl.nan else xf (mu0 / 4 / π * Bc .e p P Me Mn Mu)) := by
  have e1 := edge_iff p P
  have e2 := interior_iff p P
  have e3 := east_face_iff p P
  have h : ¬(p ∈ P.edges ∨ p ∈ P.inside) → _ := fun hp =>
    calculate_component_fin kernel_ee kernel_en kernel_eu (Kc .ee) (Kc .en) (Kc .eu) p P Me Mn Mu
    (fun x y z hx hy hz => ⟨kernel_ee_fin (rad_ne_zero' hP hp hx hy hz),
      kernel_en_fin (rad_ne_zero' hP hp hx hy hz), kernel_eu_fin (rad_ne_zero' hP hp hx hy hz)⟩)
  unfold onPrism at e1 e2 e3 h ⊢
  unfold magnetic_e
  simp only [Bool.or_eq_true, e1, e2, e3]
  split_ifs with h1 h2
  · rfl
  · rw [h h1]
    simp only [ok_bind, pi_fin, ofNat_fin, cm1_fin, cm2_fin, mul_fin, add_fin, pure_ok]
    simp [Bc, Wc, Vc, corr, h2]
    congr 2; ring
  · rw [h h1]
    simp only [ok_bind, ofNat_fin, pi_fin, cm1_fin, cm2_fin, mul_fin, pure_ok]
    simp [Bc, Wc, Vc, corr, h2]

theorem magnetic_n_eval (hP : P.Ordered) (p : Pt) (Me Mn Mu : ℝ) :
    onPrism (A := Exact) magnetic_n p P Me Mn Mu =
      .ok (if p ∈ P.edges ∨ p ∈ P.inside then Fl.nan else xf (mu0 / 4 / π * Bc .n p P Me Mn Mu)) := by
  have e1 := edge_iff p P
  have e2 := interior_iff p P
  have e3 := north_face_iff p P
  have h : ¬(p ∈ P.edges ∨ p ∈ P.inside) → _ := fun hp =>
    calculate_component_fin kernel_en kernel_nn kernel_nu (Kc .en) (Kc .nn) (Kc .nu) p P Me Mn Mu
    (fun x y z hx hy hz => ⟨kernel_en_fin (rad_ne_zero' hP hp hx hy hz),
      kernel_nn_fin (rad_ne_zero' hP hp hx hy hz), kernel_nu_fin (rad_ne_zero' hP hp hx hy hz)⟩)
  unfold onPrism at e1 e2 e3 h ⊢
  unfold magnetic_n
  simp only [Bool.or_eq_true, e1, e2, e3]
  split_ifs with h1 h2
  · rfl
  · rw [h h1]
    simp only [ok_bind, pi_fin, ofNat_fin, cm1_fin, cm2_fin, mul_fin, add_fin, pure_ok]
    simp [Bc, Wc, Vc, corr, h2]
    congr 2; ring
  · rw [h h1]
    simp only [ok_bind, ofNat_fin, pi_fin, cm1_fin, cm2_fin, mul_fin, pure_ok]
    simp [Bc, Wc, Vc, corr, h2]

theorem magnetic_u_eval (hP : P.Ordered) (p : Pt) (Me Mn Mu : ℝ) :
    onPrism (A := Exact) magnetic_u p P Me Mn Mu =
      .ok (if p ∈ P.edges ∨ p ∈ P.inside then Fl.nan else xf (mu0 / 4 / π * Bc .u p P Me Mn Mu)) := by
  have e1 := edge_iff p P
  have e2 := interior_iff p P
  have e3 := top_face_iff p P
  have h : ¬(p ∈ P.edges ∨ p ∈ P.inside) → _ := fun hp =>
    calculate_component_fin kernel_eu kernel_nu kernel_uu (Kc .eu) (Kc .nu) (Kc .uu) p P Me Mn Mu
    (fun x y z hx hy hz => ⟨kernel_eu_fin (rad_ne_zero' hP hp hx hy hz),
      kernel_nu_fin (rad_ne_zero' hP hp hx hy hz), kernel_uu_fin (rad_ne_zero' hP hp hx hy hz)⟩)
  unfold onPrism at e1 e2 e3 h ⊢
  unfold magnetic_u
  simp only [Bool.or_eq_true, e1, e2, e3]
  split_ifs with h1 h2
  · rfl
  · rw [h h1]
    simp only [ok_bind, pi_fin, ofNat_fin, cm1_fin, cm2_fin, mul_fin, add_fin, pure_ok]
    simp [Bc, Wc, Vc, corr, h2]
    congr 2; ring
  · rw [h h1]
    simp only [ok_bind, ofNat_fin, pi_fin, cm1_fin, cm2_fin, mul_fin, pure_ok]
    simp [Bc, Wc, Vc, corr, h2]

theorem magnetic_ee_eval (hP : P.Ordered) (p : Pt) (Me Mn Mu : ℝ) :
    onPrism (A := Exact) magnetic_ee p P Me Mn Mu =
      .ok (if p ∈ P.edges ∨ p ∈ P.inside then Fl.nan else xf (mu0 / 4 / π * Bc .ee p P Me Mn Mu)) := by
  have e1 := edge_iff p P
  have e2 := interior_iff p P
  have h : ¬(p ∈ P.edges ∨ p ∈ P.inside) → _ := fun hp =>
    calculate_component_fin kernel_eee kernel_een kernel_eeu (K3 .eee) (K3 .een) (K3 .eeu) p P Me Mn Mu
    (fun x y z hx hy hz => ⟨kernel_eee_fin (rad_ne_zero' hP hp hx hy hz),
      kernel_een_fin (rad_ne_zero' hP hp hx hy hz), kernel_eeu_fin (rad_ne_zero' hP hp hx hy hz)⟩)
  unfold onPrism at e1 e2 h ⊢
  unfold magnetic_ee
  simp only [Bool.or_eq_true, e1, e2]
  split_ifs with h1
  · rfl
  · rw [h h1]
    simp only [ok_bind, ofNat_fin, pi_fin, cm1_fin, cm2_fin, mul_fin, pure_ok]
    simp [Bc, Wc]

theorem magnetic_nn_eval (hP : P.Ordered) (p : Pt) (Me Mn Mu : ℝ) :
    onPrism (A := Exact) magnetic_nn p P Me Mn Mu =
      .ok (if p ∈ P.edges ∨ p ∈ P.inside then Fl.nan else xf (mu0 / 4 / π * Bc .nn p P Me Mn Mu)) := by
  have e1 := edge_iff p P
  have e2 := interior_iff p P
  have h : ¬(p ∈ P.edges ∨ p ∈ P.inside) → _ := fun hp =>
    calculate_component_fin kernel_enn kernel_nnn kernel_nnu (K3 .enn) (K3 .nnn) (K3 .nnu) p P Me Mn Mu
    (fun x y z hx hy hz => ⟨kernel_enn_fin (rad_ne_zero' hP hp hx hy hz),
      kernel_nnn_fin (rad_ne_zero' hP hp hx hy hz), kernel_nnu_fin (rad_ne_zero' hP hp hx hy hz)⟩)
  unfold onPrism at e1 e2 h ⊢
  unfold magnetic_nn
  simp only [Bool.or_eq_true, e1, e2]
  split_ifs with h1
  · rfl
  · rw [h h1]
    simp only [ok_bind, ofNat_fin, pi_fin, cm1_fin, cm2_fin, mul_fin, pure_ok]
    simp [Bc, Wc]

theorem magnetic_uu_eval (hP : P.Ordered) (p : Pt) (Me Mn Mu : ℝ) :
    onPrism (A := Exact) magnetic_uu p P Me Mn Mu =
      .ok (if p ∈ P.edges ∨ p ∈ P.inside then Fl.nan else xf (mu0 / 4 / π * Bc .uu p P Me Mn Mu)) := by
  have e1 := edge_iff p P
  have e2 := interior_iff p P
  have h : ¬(p ∈ P.edges ∨ p ∈ P.inside) → _ := fun hp =>
    calculate_component_fin kernel_euu kernel_nuu kernel_uuu (K3 .euu) (K3 .nuu) (K3 .uuu) p P Me Mn Mu
    (fun x y z hx hy hz => ⟨kernel_euu_fin (rad_ne_zero' hP hp hx hy hz),
      kernel_nuu_fin (rad_ne_zero' hP hp hx hy hz), kernel_uuu_fin (rad_ne_zero' hP hp hx hy hz)⟩)
  unfold onPrism at e1 e2 h ⊢
  unfold magnetic_uu
  simp only [Bool.or_eq_true, e1, e2]
  split_ifs with h1
  · rfl
  · rw [h h1]
    simp only [ok_bind, ofNat_fin, pi_fin, cm1_fin, cm2_fin, mul_fin, pure_ok]
    simp [Bc, Wc]

theorem magnetic_en_eval (hP : P.Ordered) (p : Pt) (Me Mn Mu : ℝ) :
    onPrism (A := Exact) magnetic_en p P Me Mn Mu =
      .ok (if p ∈ P.edges ∨ p ∈ P.inside then Fl.nan else xf (mu0 / 4 / π * Bc .en p P Me Mn Mu)) := by
  have e1 := edge_iff p P
  have e2 := interior_iff p P
  have h : ¬(p ∈ P.edges ∨ p ∈ P.inside) → _ := fun hp =>
    calculate_component_fin kernel_een kernel_enn kernel_enu (K3 .een) (K3 .enn) (K3 .enu) p P Me Mn Mu
    (fun x y z hx hy hz => ⟨kernel_een_fin (rad_ne_zero' hP hp hx hy hz),
      kernel_enn_fin (rad_ne_zero' hP hp hx hy hz), kernel_enu_fin (rad_ne_zero' hP hp hx hy hz)⟩)
  unfold onPrism at e1 e2 h ⊢
  unfold magnetic_en
  simp only [Bool.or_eq_true, e1, e2]
  split_ifs with h1
  · rfl
  · rw [h h1]
    simp only [ok_bind, ofNat_fin, pi_fin, cm1_fin, cm2_fin, mul_fin, pure_ok]
    simp [Bc, Wc]

theorem magnetic_eu_eval (hP : P.Ordered) (p : Pt) (Me Mn Mu : ℝ) :
    onPrism (A := Exact) magnetic_eu p P Me Mn Mu =
      .ok (if p ∈ P.edges ∨ p ∈ P.inside then Fl.nan else xf (mu0 / 4 / π * Bc .eu p P Me Mn Mu)) := by
  have e1 := edge_iff p P
  have e2 := interior_iff p P
  have h : ¬(p ∈ P.edges ∨ p ∈ P.inside) → _ := fun hp =>
    calculate_component_fin kernel_eeu kernel_enu kernel_euu (K3 .eeu) (K3 .enu) (K3 .euu) p P Me Mn Mu
    (fun x y z hx hy hz => ⟨kernel_eeu_fin (rad_ne_zero' hP hp hx hy hz),
      kernel_enu_fin (rad_ne_zero' hP hp hx hy hz), kernel_euu_fin (rad_ne_zero' hP hp hx hy hz)⟩)
  unfold onPrism at e1 e2 h ⊢
  unfold magnetic_eu
  simp only [Bool.or_eq_true, e1, e2]
  split_ifs with h1
  · rfl
  · rw [h h1]
    simp only [ok_bind, ofNat_fin, pi_fin, cm1_fin, cm2_fin, mul_fin, pure_ok]
    simp [Bc, Wc]

theorem magnetic_nu_eval (hP : P.Ordered) (p : Pt) (Me Mn Mu : ℝ) :
    onPrism (A := Exact) magnetic_nu p P Me Mn Mu =
      .ok (if p ∈ P.edges ∨ p ∈ P.inside then Fl.nan else xf (mu0 / 4 / π * Bc .nu p P Me Mn Mu)) := by
  have e1 := edge_iff p P
  have e2 := interior_iff p P
  have h : ¬(p ∈ P.edges ∨ p ∈ P.inside) → _ := fun hp =>
    calculate_component_fin kernel_enu kernel_nnu kernel_nuu (K3 .enu) (K3 .nnu) (K3 .nuu) p P Me Mn Mu
    (fun x y z hx hy hz => ⟨kernel_enu_fin (rad_ne_zero' hP hp hx hy hz),
      kernel_nnu_fin (rad_ne_zero' hP hp hx hy hz), kernel_nuu_fin (rad_ne_zero' hP hp hx hy hz)⟩)
  unfold onPrism at e1 e2 h ⊢
  unfold magnetic_nu
  simp only [Bool.or_eq_true, e1, e2]
  split_ifs with h1
  · rfl
  · rw [h h1]
    simp only [ok_bind, ofNat_fin, pi_fin, cm1_fin, cm2_fin, mul_fin, pure_ok]
    simp [Bc, Wc]

/-- What every scalar prism magnetic function returns, in exact arithmetic. -/
theorem magnetic_eval (hP : P.Ordered) (c : MComp) (p : Pt) (Me Mn Mu : ℝ) :
    onPrism (A := Exact) (prismMagnetic c) p P Me Mn Mu =
      .ok (if p ∈ P.edges ∨ p ∈ P.inside then Fl.nan else xf (mu0 / 4 / π * Bc c p P Me Mn Mu)) := by
  cases c
  · exact magnetic_e_eval hP p Me Mn Mu
  · exact magnetic_n_eval hP p Me Mn Mu
  · exact magnetic_u_eval hP p Me Mn Mu
  · exact magnetic_ee_eval hP p Me Mn Mu
  · exact magnetic_nn_eval hP p Me Mn Mu
  · exact magnetic_uu_eval hP p Me Mn Mu
  · exact magnetic_en_eval hP p Me Mn Mu
  · exact magnetic_eu_eval hP p Me Mn Mu
  · exact magnetic_nu_eval hP p Me Mn Mu

theorem magnetic_returns (hP : P.Ordered) {c : MComp} {p : Pt}
    (h : p ∉ P.edges) (h' : p ∉ P.inside) (Me Mn Mu : ℝ) :
    Returns (onPrism (A := Exact) (prismMagnetic c) p P Me Mn Mu) (mu0 / 4 / π * Bc c p P Me Mn Mu) := by
  unfold Returns
  rw [magnetic_eval hP, if_neg (by tauto)]

theorem magnetic_returns_nan (hP : P.Ordered) {c : MComp} {p : Pt}
    (h : p ∈ P.edges ∨ p ∈ P.inside) (Me Mn Mu : ℝ) :
    ReturnsNaN (onPrism (A := Exact) (prismMagnetic c) p P Me Mn Mu) := by
  unfold ReturnsNaN
  rw [magnetic_eval hP, if_pos h]

end Ex

end Choclo
