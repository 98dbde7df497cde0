import Verif.Lemmas.MagEval
import Verif.Lemmas.KernelAlg
import Verif.Spec.PrismSym

/-! # Symmetries of the real-valued denotations -/

namespace Choclo

open Real Classical

/-! ### calls and factors -/

@[simp] theorem times_fin (k x : ℝ) : times k (.ok (xf x)) = .ok (xf (k * x)) := rfl
@[simp] theorem times_nan (k : ℝ) : times k (.ok Fl.nan) = .ok Fl.nan := rfl

theorem gravity_transport {P Q : Box} (hP : P.Ordered) (hQ : Q.Ordered) {c d : GComp} {p q : Pt} {k : ℝ}
    (ρ : ℝ) (hs : q ∈ Q.singular d ↔ p ∈ P.singular c)
    (hv : p ∉ P.singular c → Vc d q Q = k * Vc c p P) :
    onPrism (A := Exact) (prismGravity d) q Q ρ =
      times k (onPrism (A := Exact) (prismGravity c) p P ρ) := by
  rw [Ex.gravity_eval hP, Ex.gravity_eval hQ]
  by_cases h : p ∈ P.singular c
  · rw [if_pos h, if_pos (hs.mpr h), times_nan]
  · rw [if_neg h, if_neg (fun h' => h (hs.mp h')), times_fin, hv h]
    congr 2; ring

theorem magnetic_transport {P Q : Box} (hP : P.Ordered) (hQ : Q.Ordered) {c d : MComp} {p q : Pt} {k : ℝ}
    {M N : Vec} (hs : q ∈ Q.edges ∨ q ∈ Q.inside ↔ p ∈ P.edges ∨ p ∈ P.inside)
    (hv : ¬(p ∈ P.edges ∨ p ∈ P.inside) → Bc d q Q N.e N.n N.u = k * Bc c p P M.e M.n M.u) :
    onPrism (A := Exact) (prismMagnetic d) q Q N.e N.n N.u =
      times k (onPrism (A := Exact) (prismMagnetic c) p P M.e M.n M.u) := by
  rw [Ex.magnetic_eval hP, Ex.magnetic_eval hQ]
  by_cases h : p ∈ P.edges ∨ p ∈ P.inside
  · rw [if_pos h, if_pos (hs.mpr h), times_nan]
  · rw [if_neg h, if_neg (fun h' => h (hs.mp h')), times_fin, hv h]
    congr 2; ring

theorem times_one (call : Py (Fl Exact)) (h : call = .ok Fl.nan ∨ ∃ x : ℝ, call = .ok (xf x)) :
    times 1 call = call := by
  rcases h with h | ⟨x, h⟩ <;> rw [h] <;> simp

theorem gravity_cases {P : Box} (hP : P.Ordered) (c : GComp) (p : Pt) (ρ : ℝ) :
    onPrism (A := Exact) (prismGravity c) p P ρ = .ok Fl.nan ∨
      ∃ x : ℝ, onPrism (A := Exact) (prismGravity c) p P ρ = .ok (xf x) := by
  rw [Ex.gravity_eval hP]; split_ifs
  · left; rfl
  · right; exact ⟨_, rfl⟩

theorem magnetic_cases {P : Box} (hP : P.Ordered) (c : MComp) (p : Pt) (Me Mn Mu : ℝ) :
    onPrism (A := Exact) (prismMagnetic c) p P Me Mn Mu = .ok Fl.nan ∨
      ∃ x : ℝ, onPrism (A := Exact) (prismMagnetic c) p P Me Mn Mu = .ok (xf x) := by
  rw [Ex.magnetic_eval hP]; split_ifs
  · left; rfl
  · right; exact ⟨_, rfl⟩

/-! ### algebra of alternating sums -/

theorem Dv_add (K L : ℝ → ℝ → ℝ → ℝ) (p : Pt) (P : Box) :
    Dv (fun x y z => K x y z + L x y z) p P = Dv K p P + Dv L p P := by
  unfold Dv D3; ring

theorem Dv_smul (a : ℝ) (K : ℝ → ℝ → ℝ → ℝ) (p : Pt) (P : Box) :
    Dv (fun x y z => a * K x y z) p P = a * Dv K p P := by
  unfold Dv D3; ring

theorem Dv_neg (K : ℝ → ℝ → ℝ → ℝ) (p : Pt) (P : Box) :
    Dv (fun x y z => -K x y z) p P = -Dv K p P := by
  unfold Dv D3; ring

/-- equality of kernels at the eight vertices suffices -/
theorem Dv_congr {K L : ℝ → ℝ → ℝ → ℝ} {p : Pt} {P : Box}
    (h : ∀ x y z, (x = P.west - p.e ∨ x = P.east - p.e) → (y = P.south - p.n ∨ y = P.north - p.n) →
      (z = P.bottom - p.u ∨ z = P.top - p.u) → K x y z = L x y z) : Dv K p P = Dv L p P := by
  unfold Dv D3
  rw [h _ _ _ (Or.inl rfl) (Or.inl rfl) (Or.inl rfl), h _ _ _ (Or.inl rfl) (Or.inl rfl) (Or.inr rfl),
    h _ _ _ (Or.inl rfl) (Or.inr rfl) (Or.inl rfl), h _ _ _ (Or.inl rfl) (Or.inr rfl) (Or.inr rfl),
    h _ _ _ (Or.inr rfl) (Or.inl rfl) (Or.inl rfl), h _ _ _ (Or.inr rfl) (Or.inl rfl) (Or.inr rfl),
    h _ _ _ (Or.inr rfl) (Or.inr rfl) (Or.inl rfl), h _ _ _ (Or.inr rfl) (Or.inr rfl) (Or.inr rfl)]

theorem Dv_zero_of {K : ℝ → ℝ → ℝ → ℝ} {p : Pt} {P : Box}
    (h : ∀ x y z, (x = P.west - p.e ∨ x = P.east - p.e) → (y = P.south - p.n ∨ y = P.north - p.n) →
      (z = P.bottom - p.u ∨ z = P.top - p.u) → K x y z = 0) : Dv K p P = 0 := by
  rw [Dv_congr (L := fun _ _ _ => 0) h]; unfold Dv D3; ring

/-- product kernels -/
theorem Dv_prod (f g h : ℝ → ℝ) (p : Pt) (P : Box) :
    Dv (fun x y z => f x * (g y * h z)) p P =
      (f (P.east - p.e) - f (P.west - p.e)) * ((g (P.north - p.n) - g (P.south - p.n)) *
        (h (P.top - p.u) - h (P.bottom - p.u))) := by
  unfold Dv D3; ring

/-! ### translations -/

theorem Box.Ordered.shift {P : Box} (h : P.Ordered) (t : Pt) : (P.shift t).Ordered := by
  obtain ⟨h1, h2, h3⟩ := h
  simp only [Box.Ordered, Box.shift]
  exact ⟨by linarith, by linarith, by linarith⟩

theorem Dv_shift (K : ℝ → ℝ → ℝ → ℝ) (p t : Pt) (P : Box) : Dv K (p.shift t) (P.shift t) = Dv K p P := by
  simp only [Dv, Pt.shift, Box.shift, Pt.e, Pt.n, Pt.u, add_sub_add_right_eq_sub]

section
variable (p t : Pt) (P : Box)
theorem edgesE_shift : p.shift t ∈ (P.shift t).edgesE ↔ p ∈ P.edgesE := by
  simp [Box.edgesE, Pt.shift, Box.shift, Pt.e, Pt.n, Pt.u]
theorem edgesN_shift : p.shift t ∈ (P.shift t).edgesN ↔ p ∈ P.edgesN := by
  simp [Box.edgesN, Pt.shift, Box.shift, Pt.e, Pt.n, Pt.u]
theorem edgesU_shift : p.shift t ∈ (P.shift t).edgesU ↔ p ∈ P.edgesU := by
  simp [Box.edgesU, Pt.shift, Box.shift, Pt.e, Pt.n, Pt.u]
theorem inside_shift : p.shift t ∈ (P.shift t).inside ↔ p ∈ P.inside := by
  simp [Box.inside, Pt.shift, Box.shift]
theorem faceEast_shift : p.shift t ∈ (P.shift t).faceEast ↔ p ∈ P.faceEast := by
  simp [Box.faceEast, Pt.shift, Box.shift]
theorem faceNorth_shift : p.shift t ∈ (P.shift t).faceNorth ↔ p ∈ P.faceNorth := by
  simp [Box.faceNorth, Pt.shift, Box.shift]
theorem faceTop_shift : p.shift t ∈ (P.shift t).faceTop ↔ p ∈ P.faceTop := by
  simp [Box.faceTop, Pt.shift, Box.shift]
theorem singular_shift (c : GComp) : p.shift t ∈ (P.shift t).singular c ↔ p ∈ P.singular c := by
  cases c <;> simp [Box.singular, edgesE_shift, edgesN_shift, edgesU_shift]
theorem mag_singular_shift : (p.shift t ∈ (P.shift t).edges ∨ p.shift t ∈ (P.shift t).inside) ↔
    (p ∈ P.edges ∨ p ∈ P.inside) := by
  simp [Box.edges, edgesE_shift, edgesN_shift, edgesU_shift, inside_shift]
theorem Vc_shift (c : GComp) : Vc c (p.shift t) (P.shift t) = Vc c p P := by
  unfold Vc
  rw [Dv_shift]
  cases c <;> simp [corr, faceEast_shift, faceNorth_shift, faceTop_shift]
theorem Bc_shift (c : MComp) (a b d : ℝ) : Bc c (p.shift t) (P.shift t) a b d = Bc c p P a b d := by
  cases c <;> simp [Bc, Wc, Vc_shift, Dv_shift]
end

/-! ### relabelling axes -/

section
variable (p : Pt) (P : Box)

theorem Box.Ordered.swap {P : Box} (h : P.Ordered) (s : Swap) : (P.swap s).Ordered := by
  obtain ⟨h1, h2, h3⟩ := h
  cases s
  · exact ⟨h2, h1, h3⟩
  · exact ⟨h3, h2, h1⟩
  · exact ⟨h1, h3, h2⟩
theorem Box.Proper.swap {P : Box} (h : P.Proper) (s : Swap) : (P.swap s).Proper := by
  obtain ⟨h1, h2, h3⟩ := h
  cases s
  · exact ⟨h2, h1, h3⟩
  · exact ⟨h3, h2, h1⟩
  · exact ⟨h1, h3, h2⟩

theorem Box.swap_swap (s : Swap) : (P.swap s).swap s = P := by cases s <;> rfl
theorem Pt.swap_swap (s : Swap) : (p.swap s).swap s = p := by cases s <;> rfl
theorem GComp.swap_swap (c : GComp) (s : Swap) : (c.swap s).swap s = c := by cases c <;> cases s <;> rfl

theorem edgesE_swap_en : p.swap .en ∈ (P.swap .en).edgesE ↔ p ∈ P.edgesN :=
  ⟨fun h => ⟨h.2.1, h.1, h.2.2⟩, fun h => ⟨h.2.1, h.1, h.2.2⟩⟩
theorem edgesN_swap_en : p.swap .en ∈ (P.swap .en).edgesN ↔ p ∈ P.edgesE :=
  ⟨fun h => ⟨h.2.1, h.1, h.2.2⟩, fun h => ⟨h.2.1, h.1, h.2.2⟩⟩
theorem edgesU_swap_en : p.swap .en ∈ (P.swap .en).edgesU ↔ p ∈ P.edgesU :=
  ⟨fun h => ⟨h.2.1, h.1, h.2.2⟩, fun h => ⟨h.2.1, h.1, h.2.2⟩⟩
theorem faceEast_swap_en : p.swap .en ∈ (P.swap .en).faceEast ↔ p ∈ P.faceNorth :=
  ⟨fun h => ⟨h.2.1, h.1, h.2.2⟩, fun h => ⟨h.2.1, h.1, h.2.2⟩⟩
theorem faceNorth_swap_en : p.swap .en ∈ (P.swap .en).faceNorth ↔ p ∈ P.faceEast :=
  ⟨fun h => ⟨h.2.1, h.1, h.2.2⟩, fun h => ⟨h.2.1, h.1, h.2.2⟩⟩
theorem faceTop_swap_en : p.swap .en ∈ (P.swap .en).faceTop ↔ p ∈ P.faceTop :=
  ⟨fun h => ⟨h.2.1, h.1, h.2.2⟩, fun h => ⟨h.2.1, h.1, h.2.2⟩⟩
theorem edgesE_swap_eu : p.swap .eu ∈ (P.swap .eu).edgesE ↔ p ∈ P.edgesU :=
  ⟨fun h => ⟨h.2.2, h.2.1, h.1⟩, fun h => ⟨h.2.2, h.2.1, h.1⟩⟩
theorem edgesN_swap_eu : p.swap .eu ∈ (P.swap .eu).edgesN ↔ p ∈ P.edgesN :=
  ⟨fun h => ⟨h.2.2, h.2.1, h.1⟩, fun h => ⟨h.2.2, h.2.1, h.1⟩⟩
theorem edgesU_swap_eu : p.swap .eu ∈ (P.swap .eu).edgesU ↔ p ∈ P.edgesE :=
  ⟨fun h => ⟨h.2.2, h.2.1, h.1⟩, fun h => ⟨h.2.2, h.2.1, h.1⟩⟩
theorem faceEast_swap_eu : p.swap .eu ∈ (P.swap .eu).faceEast ↔ p ∈ P.faceTop :=
  ⟨fun h => ⟨h.2.2, h.2.1, h.1⟩, fun h => ⟨h.2.2, h.2.1, h.1⟩⟩
theorem faceNorth_swap_eu : p.swap .eu ∈ (P.swap .eu).faceNorth ↔ p ∈ P.faceNorth :=
  ⟨fun h => ⟨h.2.2, h.2.1, h.1⟩, fun h => ⟨h.2.2, h.2.1, h.1⟩⟩
theorem faceTop_swap_eu : p.swap .eu ∈ (P.swap .eu).faceTop ↔ p ∈ P.faceEast :=
  ⟨fun h => ⟨h.2.2, h.2.1, h.1⟩, fun h => ⟨h.2.2, h.2.1, h.1⟩⟩
theorem edgesE_swap_nu : p.swap .nu ∈ (P.swap .nu).edgesE ↔ p ∈ P.edgesE :=
  ⟨fun h => ⟨h.1, h.2.2, h.2.1⟩, fun h => ⟨h.1, h.2.2, h.2.1⟩⟩
theorem edgesN_swap_nu : p.swap .nu ∈ (P.swap .nu).edgesN ↔ p ∈ P.edgesU :=
  ⟨fun h => ⟨h.1, h.2.2, h.2.1⟩, fun h => ⟨h.1, h.2.2, h.2.1⟩⟩
theorem edgesU_swap_nu : p.swap .nu ∈ (P.swap .nu).edgesU ↔ p ∈ P.edgesN :=
  ⟨fun h => ⟨h.1, h.2.2, h.2.1⟩, fun h => ⟨h.1, h.2.2, h.2.1⟩⟩
theorem faceEast_swap_nu : p.swap .nu ∈ (P.swap .nu).faceEast ↔ p ∈ P.faceEast :=
  ⟨fun h => ⟨h.1, h.2.2, h.2.1⟩, fun h => ⟨h.1, h.2.2, h.2.1⟩⟩
theorem faceNorth_swap_nu : p.swap .nu ∈ (P.swap .nu).faceNorth ↔ p ∈ P.faceTop :=
  ⟨fun h => ⟨h.1, h.2.2, h.2.1⟩, fun h => ⟨h.1, h.2.2, h.2.1⟩⟩
theorem faceTop_swap_nu : p.swap .nu ∈ (P.swap .nu).faceTop ↔ p ∈ P.faceNorth :=
  ⟨fun h => ⟨h.1, h.2.2, h.2.1⟩, fun h => ⟨h.1, h.2.2, h.2.1⟩⟩

theorem edges_swap (s : Swap) : p.swap s ∈ (P.swap s).edges ↔ p ∈ P.edges := by
  cases s <;> simp only [Box.edges, Set.mem_union, edgesE_swap_en, edgesN_swap_en, edgesU_swap_en,
    edgesE_swap_eu, edgesN_swap_eu, edgesU_swap_eu, edgesE_swap_nu, edgesN_swap_nu, edgesU_swap_nu] <;> tauto
theorem inside_swap (s : Swap) : p.swap s ∈ (P.swap s).inside ↔ p ∈ P.inside := by
  cases s
  · exact ⟨fun h => ⟨h.2.1, h.1, h.2.2⟩, fun h => ⟨h.2.1, h.1, h.2.2⟩⟩
  · exact ⟨fun h => ⟨h.2.2, h.2.1, h.1⟩, fun h => ⟨h.2.2, h.2.1, h.1⟩⟩
  · exact ⟨fun h => ⟨h.1, h.2.2, h.2.1⟩, fun h => ⟨h.1, h.2.2, h.2.1⟩⟩
theorem region_swap (s : Swap) : p.swap s ∈ (P.swap s).region ↔ p ∈ P.region := by
  cases s
  · exact ⟨fun h => ⟨h.2.1, h.1, h.2.2⟩, fun h => ⟨h.2.1, h.1, h.2.2⟩⟩
  · exact ⟨fun h => ⟨h.2.2, h.2.1, h.1⟩, fun h => ⟨h.2.2, h.2.1, h.1⟩⟩
  · exact ⟨fun h => ⟨h.1, h.2.2, h.2.1⟩, fun h => ⟨h.1, h.2.2, h.2.1⟩⟩
theorem singular_swap (c : GComp) (s : Swap) :
    p.swap s ∈ (P.swap s).singular (c.swap s) ↔ p ∈ P.singular c := by
  cases c <;> cases s <;>
  simp only [Box.singular, GComp.swap, Set.mem_union, edgesE_swap_en, edgesN_swap_en, edgesU_swap_en,
    edgesE_swap_eu, edgesN_swap_eu, edgesU_swap_eu, edgesE_swap_nu, edgesN_swap_nu, edgesU_swap_nu] <;>
  first | exact Iff.rfl | exact or_comm | simp

theorem Dv_swap_en (K : ℝ → ℝ → ℝ → ℝ) : Dv K (p.swap .en) (P.swap .en) = Dv (fun x y z => K y x z) p P := by
  simp only [Dv, D3, Pt.swap, Box.swap, Pt.e, Pt.n, Pt.u]; ring
theorem Dv_swap_eu (K : ℝ → ℝ → ℝ → ℝ) : Dv K (p.swap .eu) (P.swap .eu) = Dv (fun x y z => K z y x) p P := by
  simp only [Dv, D3, Pt.swap, Box.swap, Pt.e, Pt.n, Pt.u]; ring
theorem Dv_swap_nu (K : ℝ → ℝ → ℝ → ℝ) : Dv K (p.swap .nu) (P.swap .nu) = Dv (fun x y z => K x z y) p P := by
  simp only [Dv, D3, Pt.swap, Box.swap, Pt.e, Pt.n, Pt.u]; ring

theorem Vc_swap (c : GComp) (s : Swap) : Vc (c.swap s) (p.swap s) (P.swap s) = Vc c p P := by
  unfold Vc
  congr 1
  · cases s
    · rw [Dv_swap_en]; congr 1; funext x y z
      cases c <;> simp only [Kc, GComp.swap]
      · exact Pk_symm1 x y z
      · rw [Fk_symm z x y]
      · rw [Tk_symm z x y]
      · rw [Lk_symm z x y]
    · rw [Dv_swap_eu]; congr 1; funext x y z
      cases c <;> simp only [Kc, GComp.swap]
      · rw [Pk_symm2 z x y, Pk_symm1 x z y, Pk_symm2 x y z]
      · rw [Fk_symm x y z]
      · rw [Fk_symm y x z]
      · rw [Fk_symm z x y]
      · rw [Tk_symm x y z]
      · rw [Tk_symm y x z]
      · rw [Tk_symm z x y]
      · rw [Lk_symm z x y]
      · rw [Lk_symm y x z]
      · rw [Lk_symm x y z]
    · rw [Dv_swap_nu]; congr 1; funext x y z
      cases c <;> simp only [Kc, GComp.swap]
      · exact Pk_symm2 x y z
      · rw [Fk_symm x y z]
      · rw [Tk_symm x y z]
      · rw [Lk_symm x y z]
  · cases c <;> cases s <;> simp only [corr, GComp.swap, faceEast_swap_en, faceNorth_swap_en,
      faceTop_swap_en, faceEast_swap_eu, faceNorth_swap_eu, faceTop_swap_eu, faceEast_swap_nu,
      faceNorth_swap_nu, faceTop_swap_nu]

theorem Bc_swap (c : MComp) (s : Swap) (M : Vec) :
    Bc (c.swap s) (p.swap s) (P.swap s) (M.swap s).e (M.swap s).n (M.swap s).u = Bc c p P M.e M.n M.u := by
  have hv := fun d => Vc_swap p P d s
  have h1 := hv .ee
  have h2 := hv .nn
  have h3 := hv .uu
  have h4 := hv .en
  have h5 := hv .eu
  have h6 := hv .nu
  cases s <;> cases c <;> simp only [GComp.swap] at h1 h2 h3 h4 h5 h6 <;>
    simp only [Bc, Wc, MComp.swap, h1, h2, h3, h4, h5, h6, Dv_swap_en, Dv_swap_eu, Dv_swap_nu, K3] <;>
    simp only [Pt.swap, Pt.e, Pt.n, Pt.u]
  all_goals
    try { ring }
  all_goals
    have e1 : (fun x y z => Kiii x z y) = Kiii := by funext x y z; exact Kiii_symm x y z
    have e2 : (fun x y z => Kiii y z x) = fun x y z => Kiii y x z := by
      funext x y z; exact Kiii_symm y x z
    have e3 : (fun x y z => Kiii z y x) = fun x y z => Kiii z x y := by
      funext x y z; exact Kiii_symm z x y
    have r1 : (fun x y z => -1 / rad y x z) = fun x y z => -1 / rad x y z := by
      funext x y z; rw [rad_perm1 x y z]
    have r2 : (fun x y z => -1 / rad z y x) = fun x y z => -1 / rad x y z := by
      funext x y z; rw [rad_perm5 x y z]
    have r3 : (fun x y z => -1 / rad x z y) = fun x y z => -1 / rad x y z := by
      funext x y z; rw [rad_perm2 x y z]
    simp only [e1, e2, e3, r1, r2, r3]
    try { ring }
end

end Choclo
