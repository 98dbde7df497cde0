import Verif.Lemmas.Kernels
import Verif.Spec.Prism

/-! # Evaluation of the prism functions in exact arithmetic -/

namespace Choclo

open Real Classical

/-- alternating sum over the vertices of a box -/
def D3 (K : ℝ → ℝ → ℝ → ℝ) (x1 x2 y1 y2 z1 z2 : ℝ) : ℝ :=
  ((K x2 y2 z2 - K x2 y2 z1) - (K x2 y1 z2 - K x2 y1 z1))
    - ((K x1 y2 z2 - K x1 y2 z1) - (K x1 y1 z2 - K x1 y1 z1))

/-- alternating sum over the vertices of the prism as seen from the observation point -/
def Dv (K : ℝ → ℝ → ℝ → ℝ) (p : Pt) (P : Box) : ℝ :=
  D3 K (P.west - p.e) (P.east - p.e) (P.south - p.n) (P.north - p.n) (P.bottom - p.u) (P.top - p.u)

/-- real-valued kernel of each gravity component -/
noncomputable def Kc : GComp → ℝ → ℝ → ℝ → ℝ
  | .pot => Pk
  | .e => fun x y z => -Fk x y z
  | .n => fun x y z => -Fk y x z
  | .u => fun x y z => -Fk z x y
  | .ee => fun x y z => -Tk x y z
  | .nn => fun x y z => -Tk y x z
  | .uu => fun x y z => -Tk z x y
  | .en => fun x y z => Lk z x y
  | .eu => fun x y z => Lk y x z
  | .nu => fun x y z => Lk x y z

/-- the `4 π` correction on the east, north and top faces -/
noncomputable def corr (c : GComp) (p : Pt) (P : Box) : ℝ :=
  match c with
  | .ee => if p ∈ P.faceEast then 4 * π else 0
  | .nn => if p ∈ P.faceNorth then 4 * π else 0
  | .uu => if p ∈ P.faceTop then 4 * π else 0
  | _ => 0

/-- what the prism gravity functions return, without `G` and the density -/
noncomputable def Vc (c : GComp) (p : Pt) (P : Box) : ℝ := Dv (Kc c) p P + corr c p P

theorem Gc_pos : 0 < Gc := by unfold Gc; norm_num
theorem mu0_pos : 0 < mu0 := by unfold mu0; norm_num

namespace Ex
open prism

theorem G_fin : (GRAVITATIONAL_CONST : Fl Exact) = xf Gc := rfl
theorem mu0_fin : (VACUUM_MAGNETIC_PERMEABILITY : Fl Exact) = xf mu0 := rfl

theorem easting_edge_iff (p : Pt) (P : Box) :
    onPrism (A := Exact) is_point_on_easting_edge p P = true ↔ p ∈ P.edgesE := by
  simp [onPrism, is_point_on_easting_edge, Box.edgesE, and_assoc]
theorem northing_edge_iff (p : Pt) (P : Box) :
    onPrism (A := Exact) is_point_on_northing_edge p P = true ↔ p ∈ P.edgesN := by
  simp [onPrism, is_point_on_northing_edge, Box.edgesN, and_assoc]
theorem upward_edge_iff (p : Pt) (P : Box) :
    onPrism (A := Exact) is_point_on_upward_edge p P = true ↔ p ∈ P.edgesU := by
  simp [onPrism, is_point_on_upward_edge, Box.edgesU, and_assoc]
theorem edge_iff (p : Pt) (P : Box) :
    onPrism (A := Exact) is_point_on_edge p P = true ↔ p ∈ P.edges := by
  rw [Box.edges, Set.mem_union, Set.mem_union, ← easting_edge_iff, ← northing_edge_iff,
    ← upward_edge_iff]
  simp [onPrism, is_point_on_edge, or_assoc]
theorem interior_iff (p : Pt) (P : Box) :
    onPrism (A := Exact) is_interior_point p P = true ↔ p ∈ P.inside := by
  simp [onPrism, is_interior_point, Box.inside, and_assoc]
theorem east_face_iff (p : Pt) (P : Box) :
    onPrism (A := Exact) is_point_on_east_face p P = true ↔ p ∈ P.faceEast := by
  simp [onPrism, is_point_on_east_face, Box.faceEast, and_assoc]
theorem north_face_iff (p : Pt) (P : Box) :
    onPrism (A := Exact) is_point_on_north_face p P = true ↔ p ∈ P.faceNorth := by
  simp [onPrism, is_point_on_north_face, Box.faceNorth, and_assoc]
theorem top_face_iff (p : Pt) (P : Box) :
    onPrism (A := Exact) is_point_on_top_face p P = true ↔ p ∈ P.faceTop := by
  simp [onPrism, is_point_on_top_face, Box.faceTop, and_assoc]

theorem evaluate_kernel_fin (K : Kernel Exact) (k : ℝ → ℝ → ℝ → ℝ) (p : Pt) (P : Box)
    (h : ∀ x y z, (x = P.west - p.e ∨ x = P.east - p.e) → (y = P.south - p.n ∨ y = P.north - p.n) →
      (z = P.bottom - p.u ∨ z = P.top - p.u) →
      vker K (xf x) (xf y) (xf z) = .ok (xf (k x y z))) :
    onPrism (A := Exact) _evaluate_kernel p P K = .ok (xf (Dv k p P)) := by
  unfold onPrism
  rw [evaluate_kernel_unroll]
  simp only [sub_fin]
  simp only [h _ _ _ (Or.inl rfl) (Or.inl rfl) (Or.inl rfl), h _ _ _ (Or.inl rfl) (Or.inl rfl) (Or.inr rfl),
    h _ _ _ (Or.inl rfl) (Or.inr rfl) (Or.inl rfl), h _ _ _ (Or.inl rfl) (Or.inr rfl) (Or.inr rfl),
    h _ _ _ (Or.inr rfl) (Or.inl rfl) (Or.inl rfl), h _ _ _ (Or.inr rfl) (Or.inl rfl) (Or.inr rfl),
    h _ _ _ (Or.inr rfl) (Or.inr rfl) (Or.inl rfl), h _ _ _ (Or.inr rfl) (Or.inr rfl) (Or.inr rfl),
    ok_bind, sgn, intCast_fin, mul_fin, add_fin, zero_fin, pure_ok]
  congr 2
  unfold Dv D3
  push_cast
  ring

/-- a point from which a vertex of the prism is the origin lies on every kind of edge -/
theorem rad_ne_zero {p : Pt} {P : Box} (hP : P.Ordered)
    (hp : p ∉ P.edgesE ∨ p ∉ P.edgesN ∨ p ∉ P.edgesU) {x y z : ℝ}
    (hx : x = P.west - p.e ∨ x = P.east - p.e) (hy : y = P.south - p.n ∨ y = P.north - p.n)
    (hz : z = P.bottom - p.u ∨ z = P.top - p.u) : rad x y z ≠ 0 := by
  intro h
  rw [rad_eq_zero] at h
  obtain ⟨h1, h2, h3⟩ := h
  obtain ⟨o1, o2, o3⟩ := hP
  have e1 : p.e = P.west ∨ p.e = P.east := by
    rcases hx with h' | h'
    · left; linarith
    · right; linarith
  have e2 : p.n = P.south ∨ p.n = P.north := by
    rcases hy with h' | h'
    · left; linarith
    · right; linarith
  have e3 : p.u = P.bottom ∨ p.u = P.top := by
    rcases hz with h' | h'
    · left; linarith
    · right; linarith
  have i1 : p.e ∈ Set.Icc P.west P.east := by
    rcases e1 with h | h <;> rw [h] <;> constructor <;> linarith
  have i2 : p.n ∈ Set.Icc P.south P.north := by
    rcases e2 with h | h <;> rw [h] <;> constructor <;> linarith
  have i3 : p.u ∈ Set.Icc P.bottom P.top := by
    rcases e3 with h | h <;> rw [h] <;> constructor <;> linarith
  rcases hp with hp | hp | hp
  · exact hp ⟨i1, e2, e3⟩
  · exact hp ⟨e1, i2, e3⟩
  · exact hp ⟨e1, e2, i3⟩

theorem gravity_pot_eval (p : Pt) (P : Box) (ρ : ℝ) :
    onPrism (A := Exact) gravity_pot p P ρ = .ok (xf (Gc * ρ * Vc .pot p P)) := by
  have := evaluate_kernel_fin kernel_pot Pk p P (fun x y z _ _ _ => kernel_pot_fin x y z)
  unfold onPrism at this ⊢
  unfold gravity_pot
  rw [this]
  simp [Vc, corr, Kc, G_fin]

theorem gravity_e_eval (p : Pt) (P : Box) (ρ : ℝ) :
    onPrism (A := Exact) gravity_e p P ρ = .ok (xf (Gc * ρ * Vc .e p P)) := by
  have := evaluate_kernel_fin kernel_e (Kc .e) p P (fun x y z _ _ _ => kernel_e_fin x y z)
  unfold onPrism at this ⊢
  unfold gravity_e
  rw [this]
  simp [Vc, corr, G_fin]

theorem gravity_n_eval (p : Pt) (P : Box) (ρ : ℝ) :
    onPrism (A := Exact) gravity_n p P ρ = .ok (xf (Gc * ρ * Vc .n p P)) := by
  have := evaluate_kernel_fin kernel_n (Kc .n) p P (fun x y z _ _ _ => kernel_n_fin x y z)
  unfold onPrism at this ⊢
  unfold gravity_n
  rw [this]
  simp [Vc, corr, G_fin]

theorem gravity_u_eval (p : Pt) (P : Box) (ρ : ℝ) :
    onPrism (A := Exact) gravity_u p P ρ = .ok (xf (Gc * ρ * Vc .u p P)) := by
  have := evaluate_kernel_fin kernel_u (Kc .u) p P (fun x y z _ _ _ => kernel_u_fin x y z)
  unfold onPrism at this ⊢
  unfold gravity_u
  rw [this]
  simp [Vc, corr, G_fin]

variable {P : Box}

theorem gravity_ee_eval (hP : P.Ordered) (p : Pt) (ρ : ℝ) :
    onPrism (A := Exact) gravity_ee p P ρ =
      .ok (if p ∈ P.singular .ee then Fl.nan else xf (Gc * ρ * Vc .ee p P)) := by
  have e1 := northing_edge_iff p P
  have e2 := upward_edge_iff p P
  have e3 := east_face_iff p P
  have h : p ∉ P.singular .ee → _ := fun hp => evaluate_kernel_fin kernel_ee (Kc .ee) p P
    (fun x y z hx hy hz => kernel_ee_fin (rad_ne_zero hP
      (by simp only [Box.singular, Set.mem_union, not_or] at hp; tauto) hx hy hz))
  have hs : p ∈ P.singular .ee ↔ p ∈ P.edgesN ∨ p ∈ P.edgesU := Iff.rfl
  rw [hs] at h ⊢
  unfold onPrism at e1 e2 e3 h ⊢
  unfold gravity_ee
  simp only [Bool.or_eq_true, e1, e2, e3]
  split_ifs with h1 h2
  · rfl
  · rw [h h1]; simp [Vc, corr, G_fin, h2]
  · rw [h h1]; simp [Vc, corr, G_fin, h2]

theorem gravity_nn_eval (hP : P.Ordered) (p : Pt) (ρ : ℝ) :
    onPrism (A := Exact) gravity_nn p P ρ =
      .ok (if p ∈ P.singular .nn then Fl.nan else xf (Gc * ρ * Vc .nn p P)) := by
  have e1 := easting_edge_iff p P
  have e2 := upward_edge_iff p P
  have e3 := north_face_iff p P
  have h : p ∉ P.singular .nn → _ := fun hp => evaluate_kernel_fin kernel_nn (Kc .nn) p P
    (fun x y z hx hy hz => kernel_nn_fin (rad_ne_zero hP
      (by simp only [Box.singular, Set.mem_union, not_or] at hp; tauto) hx hy hz))
  have hs : p ∈ P.singular .nn ↔ p ∈ P.edgesE ∨ p ∈ P.edgesU := Iff.rfl
  rw [hs] at h ⊢
  unfold onPrism at e1 e2 e3 h ⊢
  unfold gravity_nn
  simp only [Bool.or_eq_true, e1, e2, e3]
  split_ifs with h1 h2
  · rfl
  · rw [h h1]; simp [Vc, corr, G_fin, h2]
  · rw [h h1]; simp [Vc, corr, G_fin, h2]

theorem gravity_uu_eval (hP : P.Ordered) (p : Pt) (ρ : ℝ) :
    onPrism (A := Exact) gravity_uu p P ρ =
      .ok (if p ∈ P.singular .uu then Fl.nan else xf (Gc * ρ * Vc .uu p P)) := by
  have e1 := easting_edge_iff p P
  have e2 := northing_edge_iff p P
  have e3 := top_face_iff p P
  have h : p ∉ P.singular .uu → _ := fun hp => evaluate_kernel_fin kernel_uu (Kc .uu) p P
    (fun x y z hx hy hz => kernel_uu_fin (rad_ne_zero hP
      (by simp only [Box.singular, Set.mem_union, not_or] at hp; tauto) hx hy hz))
  have hs : p ∈ P.singular .uu ↔ p ∈ P.edgesE ∨ p ∈ P.edgesN := Iff.rfl
  rw [hs] at h ⊢
  unfold onPrism at e1 e2 e3 h ⊢
  unfold gravity_uu
  simp only [Bool.or_eq_true, e1, e2, e3]
  split_ifs with h1 h2
  · rfl
  · rw [h h1]; simp [Vc, corr, G_fin, h2]
  · rw [h h1]; simp [Vc, corr, G_fin, h2]

theorem gravity_en_eval (hP : P.Ordered) (p : Pt) (ρ : ℝ) :
    onPrism (A := Exact) gravity_en p P ρ =
      .ok (if p ∈ P.singular .en then Fl.nan else xf (Gc * ρ * Vc .en p P)) := by
  have e1 := upward_edge_iff p P
  have h : p ∉ P.singular .en → _ := fun hp => evaluate_kernel_fin kernel_en (Kc .en) p P
    (fun x y z hx hy hz => kernel_en_fin (rad_ne_zero hP
      (by simp only [Box.singular] at hp; tauto) hx hy hz))
  have hs : p ∈ P.singular .en ↔ p ∈ P.edgesU := Iff.rfl
  rw [hs] at h ⊢
  unfold onPrism at e1 h ⊢
  unfold gravity_en
  simp only [e1]
  split_ifs with h1
  · rfl
  · rw [h h1]; simp [Vc, corr, G_fin]

theorem gravity_eu_eval (hP : P.Ordered) (p : Pt) (ρ : ℝ) :
    onPrism (A := Exact) gravity_eu p P ρ =
      .ok (if p ∈ P.singular .eu then Fl.nan else xf (Gc * ρ * Vc .eu p P)) := by
  have e1 := northing_edge_iff p P
  have h : p ∉ P.singular .eu → _ := fun hp => evaluate_kernel_fin kernel_eu (Kc .eu) p P
    (fun x y z hx hy hz => kernel_eu_fin (rad_ne_zero hP
      (by simp only [Box.singular] at hp; tauto) hx hy hz))
  have hs : p ∈ P.singular .eu ↔ p ∈ P.edgesN := Iff.rfl
  rw [hs] at h ⊢
  unfold onPrism at e1 h ⊢
  unfold gravity_eu
  simp only [e1]
  split_ifs with h1
  · rfl
  · rw [h h1]; simp [Vc, corr, G_fin]

theorem gravity_nu_eval (hP : P.Ordered) (p : Pt) (ρ : ℝ) :
    onPrism (A := Exact) gravity_nu p P ρ =
      .ok (if p ∈ P.singular .nu then Fl.nan else xf (Gc * ρ * Vc .nu p P)) := by
  have e1 := easting_edge_iff p P
  have h : p ∉ P.singular .nu → _ := fun hp => evaluate_kernel_fin kernel_nu (Kc .nu) p P
    (fun x y z hx hy hz => kernel_nu_fin (rad_ne_zero hP
      (by simp only [Box.singular] at hp; tauto) hx hy hz))
  have hs : p ∈ P.singular .nu ↔ p ∈ P.edgesE := Iff.rfl
  rw [hs] at h ⊢
  unfold onPrism at e1 h ⊢
  unfold gravity_nu
  simp only [e1]
  split_ifs with h1
  · rfl
  · rw [h h1]; simp [Vc, corr, G_fin]

/-- What every prism gravity function returns, in exact arithmetic. -/
theorem gravity_eval (hP : P.Ordered) (c : GComp) (p : Pt) (ρ : ℝ) :
    onPrism (A := Exact) (prismGravity c) p P ρ =
      .ok (if p ∈ P.singular c then Fl.nan else xf (Gc * ρ * Vc c p P)) := by
  cases c
  · simpa [Box.singular, prismGravity] using gravity_pot_eval p P ρ
  · simpa [Box.singular, prismGravity] using gravity_e_eval p P ρ
  · simpa [Box.singular, prismGravity] using gravity_n_eval p P ρ
  · simpa [Box.singular, prismGravity] using gravity_u_eval p P ρ
  · exact gravity_ee_eval hP p ρ
  · exact gravity_nn_eval hP p ρ
  · exact gravity_uu_eval hP p ρ
  · exact gravity_en_eval hP p ρ
  · exact gravity_eu_eval hP p ρ
  · exact gravity_nu_eval hP p ρ

theorem gravity_returns (hP : P.Ordered) {c : GComp} {p : Pt} (h : p ∉ P.singular c) (ρ : ℝ) :
    Returns (onPrism (A := Exact) (prismGravity c) p P ρ) (Gc * ρ * Vc c p P) := by
  unfold Returns
  rw [gravity_eval hP, if_neg h]

theorem gravity_returns_nan (hP : P.Ordered) {c : GComp} {p : Pt} (h : p ∈ P.singular c) (ρ : ℝ) :
    ReturnsNaN (onPrism (A := Exact) (prismGravity c) p P ρ) := by
  unfold ReturnsNaN
  rw [gravity_eval hP, if_pos h]

end Ex

end Choclo
