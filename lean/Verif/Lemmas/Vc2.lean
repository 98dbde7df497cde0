import Verif.Lemmas.Vc

/-! # Mirror images, changes of scale and cuts of the real-valued denotations -/

namespace Choclo

open Real Classical

/-- every component is one of `pot`, `e`, `ee`, `nu` up to an exchange of axes -/
theorem GComp.canonical {motive : GComp → Pt → Box → Prop}
    (hswap : ∀ c p P s, motive (c.swap s) (p.swap s) (P.swap s) → motive c p P)
    (hpot : ∀ p P, motive .pot p P) (he : ∀ p P, motive .e p P) (hee : ∀ p P, motive .ee p P)
    (hnu : ∀ p P, motive .nu p P) (c : GComp) (p : Pt) (P : Box) : motive c p P := by
  cases c
  · exact hpot p P
  · exact he p P
  · exact hswap _ _ _ .en (he _ _)
  · exact hswap _ _ _ .eu (he _ _)
  · exact hee p P
  · exact hswap _ _ _ .en (hee _ _)
  · exact hswap _ _ _ .eu (hee _ _)
  · exact hswap _ _ _ .eu (hnu _ _)
  · exact hswap _ _ _ .en (hnu _ _)
  · exact hnu p P

/-! ### the diagonal component off its singular set -/

section
variable {p : Pt} {P : Box}

theorem sg_sub (x1 x2 : ℝ) (h : x1 ≤ x2) : sg x2 - sg x1 = if x1 < 0 ∧ 0 ≤ x2 then 2 else 0 := by
  unfold sg
  split_ifs <;> grind

theorem sign_sub_out {y1 y2 : ℝ} (h : 0 < y1 ∧ 0 < y2 ∨ y1 < 0 ∧ y2 < 0) :
    Real.sign y2 - Real.sign y1 = 0 := by
  rcases h with ⟨h1, h2⟩ | ⟨h1, h2⟩
  · rw [Real.sign_of_pos h1, Real.sign_of_pos h2]; ring
  · rw [Real.sign_of_neg h1, Real.sign_of_neg h2]; ring

theorem sign_sub_in {y1 y2 : ℝ} (h1 : y1 < 0) (h2 : 0 < y2) : Real.sign y2 - Real.sign y1 = 2 := by
  rw [Real.sign_of_neg h1, Real.sign_of_pos h2]; ring

/-- number of sign changes between the two boundaries along the northing axis -/
noncomputable def sn (p : Pt) (P : Box) : ℝ := Real.sign (P.north - p.n) - Real.sign (P.south - p.n)
/-- number of sign changes between the two boundaries along the upward axis -/
noncomputable def su (p : Pt) (P : Box) : ℝ := Real.sign (P.top - p.u) - Real.sign (P.bottom - p.u)
/-- number of sign changes between the two boundaries along the easting axis -/
noncomputable def se (p : Pt) (P : Box) : ℝ := Real.sign (P.east - p.e) - Real.sign (P.west - p.e)

theorem sn_in (h : p.n ∈ Set.Ioo P.south P.north) : sn p P = 2 :=
  sign_sub_in (by linarith [h.1]) (by linarith [h.2])
theorem su_in (h : p.u ∈ Set.Ioo P.bottom P.top) : su p P = 2 :=
  sign_sub_in (by linarith [h.1]) (by linarith [h.2])
theorem se_in (h : p.e ∈ Set.Ioo P.west P.east) : se p P = 2 :=
  sign_sub_in (by linarith [h.1]) (by linarith [h.2])
theorem sn_out (hP : P.Ordered) (h : p.n ∉ Set.Icc P.south P.north) : sn p P = 0 := by
  have := hP.2.1
  rw [Set.mem_Icc, not_and_or, not_le, not_le] at h
  apply sign_sub_out
  rcases h with h | h
  · left; constructor <;> linarith
  · right; constructor <;> linarith
theorem su_out (hP : P.Ordered) (h : p.u ∉ Set.Icc P.bottom P.top) : su p P = 0 := by
  have := hP.2.2
  rw [Set.mem_Icc, not_and_or, not_le, not_le] at h
  apply sign_sub_out
  rcases h with h | h
  · left; constructor <;> linarith
  · right; constructor <;> linarith
theorem se_out (hP : P.Ordered) (h : p.e ∉ Set.Icc P.west P.east) : se p P = 0 := by
  have := hP.1
  rw [Set.mem_Icc, not_and_or, not_le, not_le] at h
  apply sign_sub_out
  rcases h with h | h
  · left; constructor <;> linarith
  · right; constructor <;> linarith

/-- off the singular points, on a plane of an east or west face: strictly inside the face or outside
it -/
theorem ee_plane (h : p ∉ P.singular .ee)
    (hx : p.e = P.west ∨ p.e = P.east) :
    (p.n ∈ Set.Ioo P.south P.north ∧ p.u ∈ Set.Ioo P.bottom P.top) ∨
      p.n ∉ Set.Icc P.south P.north ∨ p.u ∉ Set.Icc P.bottom P.top := by
  by_contra hc
  rw [not_or, not_or, not_not, not_not] at hc
  obtain ⟨h1, h2, h3⟩ := hc
  apply h
  have e1 : p.n ∈ Set.Ioo P.south P.north ∨ p.n = P.south ∨ p.n = P.north := by
    rw [Set.mem_Icc] at h2; rw [Set.mem_Ioo]; grind
  have e2 : p.u ∈ Set.Ioo P.bottom P.top ∨ p.u = P.bottom ∨ p.u = P.top := by
    rw [Set.mem_Icc] at h3; rw [Set.mem_Ioo]; grind
  simp only [Box.singular, Set.mem_union]
  rcases e1 with e1 | e1
  · rcases e2 with e2 | e2
    · exact absurd ⟨e1, e2⟩ h1
    · left; exact ⟨hx, h2, e2⟩
  · right; exact ⟨hx, e1, h3⟩

theorem Dv_Tk (p : Pt) (P : Box) :
    Dv Tk p P = Dv Sk p P + π / 2 * ((sg (P.east - p.e) - sg (P.west - p.e)) * (sn p P * su p P)) := by
  have : (Tk : ℝ → ℝ → ℝ → ℝ) =
      fun x y z => Sk x y z + π / 2 * (sg x * (Real.sign y * Real.sign z)) := by
    funext x y z; exact Tk_eq x y z
  rw [this, Dv_add, Dv_smul, Dv_prod]
  rfl

theorem Vee_eq (hP : P.Ordered) (hx : P.west < P.east) (h : p ∉ P.singular .ee) :
    Vc .ee p P = -Dv Sk p P - if p.e ∈ Set.Ioo P.west P.east then π * (sn p P * su p P) else 0 := by
  have hK : Kc .ee = fun x y z => -Tk x y z := rfl
  unfold Vc
  rw [hK, Dv_neg, Dv_Tk, sg_sub _ _ (by linarith)]
  simp only [corr]
  by_cases hE : p.e = P.east
  · have hnot : p.e ∉ Set.Ioo P.west P.east := by rw [hE]; simp
    rw [if_neg hnot, if_pos (by rw [hE]; constructor <;> linarith)]
    rcases ee_plane h (Or.inr hE) with ⟨h1, h2⟩ | h1 | h1
    · rw [if_pos ⟨hE, h1, h2⟩, sn_in h1, su_in h2]; ring
    · rw [if_neg (fun h' => h1 (Set.Ioo_subset_Icc_self h'.2.1)), sn_out hP h1]; ring
    · rw [if_neg (fun h' => h1 (Set.Ioo_subset_Icc_self h'.2.2)), su_out hP h1]; ring
  · rw [if_neg (fun h' : p ∈ P.faceEast => hE h'.1)]
    by_cases hin : p.e ∈ Set.Ioo P.west P.east
    · rw [if_pos hin, if_pos (by constructor <;> linarith [hin.1, hin.2])]; ring
    · rw [if_neg hin, if_neg]
      · ring
      · rintro ⟨h1, h2⟩
        apply hin
        refine ⟨by linarith, lt_of_le_of_ne (by linarith) hE⟩

/-! ### degenerate prisms -/

theorem Dv_flat_e {K : ℝ → ℝ → ℝ → ℝ} (h : P.west = P.east) : Dv K p P = 0 := by
  unfold Dv D3; rw [h]; ring

/-! ### mirror images -/

theorem Box.Ordered.mirror (h : P.Ordered) (a : Axis) : (P.mirror a).Ordered := by
  obtain ⟨h1, h2, h3⟩ := h
  cases a <;> simp only [Box.Ordered, Box.mirror] <;> refine ⟨?_, ?_, ?_⟩ <;> linarith

theorem edgesE_mirror_e : p.mirror .e ∈ (P.mirror .e).edgesE ↔ p ∈ P.edgesE := by
  simp only [Box.edgesE, Pt.mirror, Box.mirror, Pt.e, Pt.n, Pt.u, Set.mem_ofPred_eq, Set.mem_Icc,
    neg_le_neg_iff]
  tauto
theorem edgesN_mirror_e : p.mirror .e ∈ (P.mirror .e).edgesN ↔ p ∈ P.edgesN := by
  simp only [Box.edgesN, Pt.mirror, Box.mirror, Pt.e, Pt.n, Pt.u, Set.mem_ofPred_eq, Set.mem_Icc,
    neg_inj]
  tauto
theorem edgesU_mirror_e : p.mirror .e ∈ (P.mirror .e).edgesU ↔ p ∈ P.edgesU := by
  simp only [Box.edgesU, Pt.mirror, Box.mirror, Pt.e, Pt.n, Pt.u, Set.mem_ofPred_eq, Set.mem_Icc,
    neg_inj]
  tauto
theorem inside_mirror_e : p.mirror .e ∈ (P.mirror .e).inside ↔ p ∈ P.inside := by
  simp only [Box.inside, Pt.mirror, Box.mirror, Pt.e, Pt.n, Pt.u, Set.mem_prod, Set.mem_Ioo,
    neg_lt_neg_iff]
  tauto
theorem faceNorth_mirror_e : p.mirror .e ∈ (P.mirror .e).faceNorth ↔ p ∈ P.faceNorth := by
  simp only [Box.faceNorth, Pt.mirror, Box.mirror, Pt.e, Pt.n, Pt.u, Set.mem_prod, Set.mem_Ioo,
    neg_lt_neg_iff, Set.mem_singleton_iff]
  tauto
theorem faceTop_mirror_e : p.mirror .e ∈ (P.mirror .e).faceTop ↔ p ∈ P.faceTop := by
  simp only [Box.faceTop, Pt.mirror, Box.mirror, Pt.e, Pt.n, Pt.u, Set.mem_prod, Set.mem_Ioo,
    neg_lt_neg_iff, Set.mem_singleton_iff]
  tauto
theorem singular_mirror_e (c : GComp) : p.mirror .e ∈ (P.mirror .e).singular c ↔ p ∈ P.singular c := by
  cases c <;> simp only [Box.singular, Set.mem_union, edgesE_mirror_e, edgesN_mirror_e, edgesU_mirror_e,
    Set.mem_empty_iff_false]

theorem Dv_mirror_e (K : ℝ → ℝ → ℝ → ℝ) (p : Pt) (P : Box) :
    Dv K (p.mirror .e) (P.mirror .e) = Dv (fun x y z => -K (-x) y z) p P := by
  simp only [Dv, D3, Pt.mirror, Box.mirror, Pt.e, Pt.n, Pt.u]
  rw [show -P.east - -p.1 = -(P.east - p.1) by ring, show -P.west - -p.1 = -(P.west - p.1) by ring]
  ring

theorem Dv_indep_x (f : ℝ → ℝ → ℝ) (p : Pt) (P : Box) : Dv (fun _ y z => f y z) p P = 0 := by
  unfold Dv D3; ring

theorem Vee_mirror_e (hP : P.Ordered) (h : p ∉ P.singular .ee) :
    Vc .ee (p.mirror .e) (P.mirror .e) = Vc .ee p P := by
  rcases hP.1.eq_or_lt with hx | hx
  · unfold Vc
    rw [Dv_flat_e hx, Dv_flat_e (by simp [Box.mirror, hx])]
    simp only [corr]
    congr 2
    simp only [Box.faceEast, Pt.mirror, Box.mirror, Pt.e, Pt.n, Pt.u, Set.mem_prod,
      Set.mem_singleton_iff, neg_inj, hx]
  · rw [Vee_eq hP hx h, Vee_eq (hP.mirror .e) (by simpa [Box.mirror] using hx)
      (by rwa [singular_mirror_e])]
    rw [Dv_mirror_e]
    simp only [Sk_neg1, neg_neg]
    have hs : sn (p.mirror .e) (P.mirror .e) = sn p P := rfl
    have hs' : su (p.mirror .e) (P.mirror .e) = su p P := rfl
    have hm : Pt.e (p.mirror .e) ∈ Set.Ioo (P.mirror .e).west (P.mirror .e).east ↔
        p.e ∈ Set.Ioo P.west P.east := by
      simp only [Pt.mirror, Box.mirror, Pt.e, Set.mem_Ioo, neg_lt_neg_iff]; tauto
    simp only [hs, hs', hm]

theorem Vc_mirror_e (hP : P.Ordered) (c : GComp) (h : p ∉ P.singular c) :
    Vc c (p.mirror .e) (P.mirror .e) = (-1) ^ c.count .e * Vc c p P := by
  have key : ∀ K L : ℝ → ℝ → ℝ → ℝ, ∀ f : ℝ → ℝ → ℝ, ∀ s : ℝ, 
      (∀ x y z, -K (-x) y z = s * L x y z + f y z) →
      Dv K (p.mirror .e) (P.mirror .e) = s * Dv L p P := by
    intro K L f s h
    rw [Dv_mirror_e, funext fun x => funext fun y => funext fun z => h x y z]
    rw [Dv_add, Dv_smul, Dv_indep_x, add_zero]
  cases c
  · simp only [Vc, corr, add_zero, GComp.count, GComp.index]
    apply key _ _ (fun y z => -(y * z * Real.log (y ^ 2 + z ^ 2)))
    intro x y z; simp only [Kc, Pk_neg1]; ring
  · simp only [Vc, corr, add_zero, GComp.count, GComp.index]
    apply key _ _ (fun y z => 0)
    intro x y z; simp only [Kc, Fk_neg1]; ring
  · simp only [Vc, corr, add_zero, GComp.count, GComp.index]
    apply key _ _ (fun y z => z * Real.log (y ^ 2 + z ^ 2))
    intro x y z; simp only [Kc, Fk_neg2]; ring
  · simp only [Vc, corr, add_zero, GComp.count, GComp.index]
    apply key _ _ (fun y z => y * Real.log (z ^ 2 + y ^ 2))
    intro x y z; simp only [Kc, Fk_neg2]; ring
  · rw [Vee_mirror_e hP h]; simp [GComp.count, GComp.index]
  · simp only [Vc, corr, GComp.count, GComp.index, faceNorth_mirror_e, pow_zero, one_mul]
    congr 1
    rw [key _ (Kc .nn) (fun _ _ => 0) 1, one_mul]
    intro x y z; simp only [Kc, Tk_neg2]; ring
  · simp only [Vc, corr, GComp.count, GComp.index, faceTop_mirror_e, pow_zero, one_mul]
    congr 1
    rw [key _ (Kc .uu) (fun _ _ => 0) 1, one_mul]
    intro x y z; simp only [Kc, Tk_neg2]; ring
  · simp only [Vc, corr, add_zero, GComp.count, GComp.index]
    apply key _ _ (fun y z => 0)
    intro x y z; simp only [Kc, Lk_neg2]; ring
  · simp only [Vc, corr, add_zero, GComp.count, GComp.index]
    apply key _ _ (fun y z => 0)
    intro x y z; simp only [Kc, Lk_neg2]; ring
  · simp only [Vc, corr, add_zero, GComp.count, GComp.index]
    apply key _ _ (fun y z => -Real.log (y ^ 2 + z ^ 2))
    intro x y z; simp only [Kc, Lk_neg1]; ring

theorem Vc_mirror (hP : P.Ordered) (c : GComp) (a : Axis) (h : p ∉ P.singular c) :
    Vc c (p.mirror a) (P.mirror a) = (-1) ^ c.count a * Vc c p P := by
  cases a
  · exact Vc_mirror_e hP c h
  · have := Vc_mirror_e (p := p.swap .en) (P := P.swap .en) (hP.swap .en) (c.swap .en)
      (by rwa [singular_swap])
    rw [Vc_swap] at this
    rw [← Vc_swap _ _ c .en]
    cases c <;> exact this
  · have := Vc_mirror_e (p := p.swap .eu) (P := P.swap .eu) (hP.swap .eu) (c.swap .eu)
      (by rwa [singular_swap])
    rw [Vc_swap] at this
    rw [← Vc_swap _ _ c .eu]
    cases c <;> exact this

theorem singular_mirror (c : GComp) (a : Axis) :
    p.mirror a ∈ (P.mirror a).singular c ↔ p ∈ P.singular c := by
  cases a
  · exact singular_mirror_e c
  · rw [← singular_swap _ _ c .en, ← singular_swap p P c .en]
    exact singular_mirror_e (p := p.swap .en) (P := P.swap .en) (c.swap .en)
  · rw [← singular_swap _ _ c .eu, ← singular_swap p P c .eu]
    exact singular_mirror_e (p := p.swap .eu) (P := P.swap .eu) (c.swap .eu)

theorem edges_mirror_e : p.mirror .e ∈ (P.mirror .e).edges ↔ p ∈ P.edges := by
  simp only [Box.edges, Set.mem_union, edgesE_mirror_e, edgesN_mirror_e, edgesU_mirror_e]

theorem edges_mirror (a : Axis) : p.mirror a ∈ (P.mirror a).edges ↔ p ∈ P.edges := by
  cases a
  · exact edges_mirror_e
  · rw [← edges_swap _ _ .en, ← edges_swap p P .en]
    exact edges_mirror_e (p := p.swap .en) (P := P.swap .en)
  · rw [← edges_swap _ _ .eu, ← edges_swap p P .eu]
    exact edges_mirror_e (p := p.swap .eu) (P := P.swap .eu)

theorem inside_mirror (a : Axis) : p.mirror a ∈ (P.mirror a).inside ↔ p ∈ P.inside := by
  cases a
  · exact inside_mirror_e
  · rw [← inside_swap _ _ .en, ← inside_swap p P .en]
    exact inside_mirror_e (p := p.swap .en) (P := P.swap .en)
  · rw [← inside_swap _ _ .eu, ← inside_swap p P .eu]
    exact inside_mirror_e (p := p.swap .eu) (P := P.swap .eu)

theorem edges_singular (c : GComp) (h : p ∉ P.edges) : p ∉ P.singular c := by
  simp only [Box.edges, Set.mem_union, not_or] at h
  cases c <;> simp only [Box.singular, Set.mem_union, Set.mem_empty_iff_false] <;> tauto

theorem Bc_mirror_e (hP : P.Ordered) (c : MComp) (M : Vec) (h : p ∉ P.edges) :
    Bc c (p.mirror .e) (P.mirror .e) (M.mirror .e).e (M.mirror .e).n (M.mirror .e).u =
      (-1) ^ c.count .e * Bc c p P M.e M.n M.u := by
  have v := fun d => Vc_mirror_e hP d (edges_singular d h)
  have key : ∀ K L : ℝ → ℝ → ℝ → ℝ, ∀ s : ℝ, 
      (∀ x y z, -K (-x) y z = s * L x y z) →
      Dv K (p.mirror .e) (P.mirror .e) = s * Dv L p P := by
    intro K L s h
    rw [Dv_mirror_e, funext fun x => funext fun y => funext fun z => h x y z, Dv_smul]
  have k1 := key (K3 .eee) (K3 .eee) (-1) (fun x y z => by simp only [K3, Kiii_neg1]; ring)
  have k2 := key (K3 .nnn) (K3 .nnn) 1 (fun x y z => by simp only [K3, Kiii_neg3]; ring)
  have k3 := key (K3 .uuu) (K3 .uuu) 1 (fun x y z => by simp only [K3, Kiii_neg3]; ring)
  have k4 := key (K3 .een) (K3 .een) 1 (fun x y z => by simp only [K3, Kiij_neg1]; ring)
  have k5 := key (K3 .eeu) (K3 .eeu) 1 (fun x y z => by simp only [K3, Kiij_neg1]; ring)
  have k6 := key (K3 .enn) (K3 .enn) (-1) (fun x y z => by simp only [K3, Kiij_neg2]; ring)
  have k7 := key (K3 .nnu) (K3 .nnu) 1 (fun x y z => by simp only [K3, Kiij_neg3]; ring)
  have k8 := key (K3 .euu) (K3 .euu) (-1) (fun x y z => by simp only [K3, Kiij_neg2]; ring)
  have k9 := key (K3 .nuu) (K3 .nuu) 1 (fun x y z => by simp only [K3, Kiij_neg3]; ring)
  have k0 := key (K3 .enu) (K3 .enu) (-1) (fun x y z => by simp only [K3, rad_neg1]; ring)
  cases c <;> simp only [Bc, Wc, v, k1, k2, k3, k4, k5, k6, k7, k8, k9, k0] <;>
    simp only [GComp.count, GComp.index, MComp.count, MComp.index, Pt.mirror, Pt.e, Pt.n, Pt.u] <;> ring

theorem Bc_mirror (hP : P.Ordered) (c : MComp) (a : Axis) (M : Vec) (h : p ∉ P.edges) :
    Bc c (p.mirror a) (P.mirror a) (M.mirror a).e (M.mirror a).n (M.mirror a).u =
      (-1) ^ c.count a * Bc c p P M.e M.n M.u := by
  cases a
  · exact Bc_mirror_e hP c M h
  · have := Bc_mirror_e (p := p.swap .en) (P := P.swap .en) (hP.swap .en) (c.swap .en) (M.swap .en)
      (by rwa [edges_swap])
    rw [Bc_swap] at this
    rw [← Bc_swap _ _ c .en]
    cases c <;> exact this
  · have := Bc_mirror_e (p := p.swap .eu) (P := P.swap .eu) (hP.swap .eu) (c.swap .eu) (M.swap .eu)
      (by rwa [edges_swap])
    rw [Bc_swap] at this
    rw [← Bc_swap _ _ c .eu]
    cases c <;> exact this

/-! ### changes of scale -/

section scale
variable {l : ℝ} (hl : 0 < l)
include hl

theorem Box.Ordered.scale (h : P.Ordered) : (P.scale l).Ordered := by
  obtain ⟨h1, h2, h3⟩ := h
  simp only [Box.Ordered, Box.scale]
  exact ⟨mul_le_mul_of_nonneg_left h1 hl.le, mul_le_mul_of_nonneg_left h2 hl.le,
    mul_le_mul_of_nonneg_left h3 hl.le⟩

theorem edgesE_scale : p.scale l ∈ (P.scale l).edgesE ↔ p ∈ P.edgesE := by
  simp [Box.edgesE, Pt.scale, Box.scale, Pt.e, Pt.n, Pt.u, hl, hl.ne']
theorem edgesN_scale : p.scale l ∈ (P.scale l).edgesN ↔ p ∈ P.edgesN := by
  simp [Box.edgesN, Pt.scale, Box.scale, Pt.e, Pt.n, Pt.u, hl, hl.ne']
theorem edgesU_scale : p.scale l ∈ (P.scale l).edgesU ↔ p ∈ P.edgesU := by
  simp [Box.edgesU, Pt.scale, Box.scale, Pt.e, Pt.n, Pt.u, hl, hl.ne']
theorem inside_scale : p.scale l ∈ (P.scale l).inside ↔ p ∈ P.inside := by
  simp [Box.inside, Pt.scale, Box.scale, Pt.e, Pt.n, Pt.u, hl]
theorem faceEast_scale : p.scale l ∈ (P.scale l).faceEast ↔ p ∈ P.faceEast := by
  simp [Box.faceEast, Pt.scale, Box.scale, Pt.e, Pt.n, Pt.u, hl, hl.ne']
theorem singular_scale (c : GComp) : p.scale l ∈ (P.scale l).singular c ↔ p ∈ P.singular c := by
  cases c <;> simp [Box.singular, edgesE_scale hl, edgesN_scale hl, edgesU_scale hl]
theorem edges_scale : p.scale l ∈ (P.scale l).edges ↔ p ∈ P.edges := by
  simp [Box.edges, edgesE_scale hl, edgesN_scale hl, edgesU_scale hl]

omit hl in
theorem Dv_scale (K : ℝ → ℝ → ℝ → ℝ) (l : ℝ) (p : Pt) (P : Box) :
    Dv K (p.scale l) (P.scale l) = Dv (fun x y z => K (l * x) (l * y) (l * z)) p P := by
  simp only [Dv, D3, Pt.scale, Box.scale, Pt.e, Pt.n, Pt.u, ← mul_sub]

omit hl in
/-- off the edges along easting, at a vertex seen along that axis both ends have the same sign -/
theorem axis_same_side (h : p ∉ P.edgesE) {y z : ℝ} (hy : y = P.south - p.n ∨ y = P.north - p.n)
    (hz : z = P.bottom - p.u ∨ z = P.top - p.u) (hy0 : y = 0) (hz0 : z = 0) :
    (P.west - p.e > 0 ∨ P.east - p.e < 0) := by
  by_contra hc
  rw [not_or, not_lt, not_lt] at hc
  apply h
  refine ⟨⟨by linarith, by linarith⟩, ?_, ?_⟩
  · rcases hy with h | h
    · left; linarith
    · right; linarith
  · rcases hz with h | h
    · left; linarith
    · right; linarith

theorem Lk_diff_scale (hP : P.Ordered) (h : p ∉ P.edgesE) {y z : ℝ}
    (hy : y = P.south - p.n ∨ y = P.north - p.n) (hz : z = P.bottom - p.u ∨ z = P.top - p.u) :
    Lk (l * (P.east - p.e)) (l * y) (l * z) - Lk (l * (P.west - p.e)) (l * y) (l * z) =
      Lk (P.east - p.e) y z - Lk (P.west - p.e) y z := by
  have ho := hP.1
  by_cases h0 : y = 0 ∧ z = 0
  · have hs := axis_same_side h hy hz h0.1 h0.2
    have e1 : P.east - p.e ≠ 0 := by rcases hs with hs | hs <;> intro h' <;> linarith
    have e2 : P.west - p.e ≠ 0 := by rcases hs with hs | hs <;> intro h' <;> linarith
    have e3 : sg (P.east - p.e) = sg (P.west - p.e) := by
      unfold sg
      rcases hs with hs | hs
      · rw [if_neg (by linarith), if_neg (by linarith)]
      · rw [if_pos (by linarith), if_pos (by linarith)]
    rw [h0.1, h0.2, mul_zero, Lk_scale_axis hl e1, Lk_scale_axis hl e2, e3]; ring
  · rw [Lk_scale hl h0, Lk_scale hl h0]; ring

theorem Vc_scale (hP : P.Ordered) (c : GComp) (h : p ∉ P.singular c) :
    Vc c (p.scale l) (P.scale l) * l ^ c.letters = l ^ 2 * Vc c p P := by
  revert hP h
  refine GComp.canonical (motive := fun c p P => P.Ordered → p ∉ P.singular c →
    Vc c (p.scale l) (P.scale l) * l ^ c.letters = l ^ 2 * Vc c p P) ?_ ?_ ?_ ?_ ?_ c p P
  · intro c p P s ih hP h
    have := ih (hP.swap s) (by rwa [singular_swap])
    rw [Vc_swap] at this
    rw [← this, ← Vc_swap _ _ c s]
    cases s <;> cases c <;> rfl
  · intro p P _ _
    simp only [Vc, corr, add_zero, GComp.letters, GComp.index, pow_zero, mul_one]
    rw [Dv_scale]
    simp only [Kc, Pk_scale hl]
    unfold Dv D3; ring
  · intro p P _ _
    simp only [Vc, corr, add_zero, GComp.letters, GComp.index]
    rw [Dv_scale]
    simp only [Kc, Fk_scale hl]
    unfold Dv D3; ring
  · intro p P _ _
    simp only [Vc, corr, add_zero, GComp.letters, GComp.index, faceEast_scale hl]
    rw [Dv_scale]
    simp only [Kc, Tk_scale hl]
    ring
  · intro p P hP h
    have h' : p ∉ P.edgesE := h
    simp only [Vc, corr, add_zero, GComp.letters, GComp.index]
    rw [Dv_scale]
    have key := fun y z hy hz => Lk_diff_scale hl hP h' (y := y) (z := z) hy hz
    have k1 := key _ _ (Or.inl rfl) (Or.inl rfl)
    have k2 := key _ _ (Or.inl rfl) (Or.inr rfl)
    have k3 := key _ _ (Or.inr rfl) (Or.inl rfl)
    have k4 := key _ _ (Or.inr rfl) (Or.inr rfl)
    simp only [Kc]
    unfold Dv D3
    linear_combination (k4 - k3 - k2 + k1) * l ^ 2

theorem Bc_scale (hP : P.Ordered) (c : MComp) (Me Mn Mu : ℝ) (h : p ∉ P.edges) :
    Bc c (p.scale l) (P.scale l) Me Mn Mu * l ^ c.letters = l * Bc c p P Me Mn Mu := by
  have v := fun d => Vc_scale hl hP d (edges_singular d h)
  have v' : ∀ d : GComp, d.letters = 2 → Vc d (p.scale l) (P.scale l) = Vc d p P := by
    intro d hd
    have := v d
    rw [hd, mul_comm] at this
    exact mul_left_cancel₀ (by positivity) this
  have k : ∀ t, Dv (K3 t) (p.scale l) (P.scale l) = Dv (K3 t) p P / l := by
    intro t
    rw [Dv_scale, div_eq_inv_mul, ← Dv_smul]
    congr 1; funext x y z
    rw [← div_eq_inv_mul]
    cases t <;> simp only [K3, Kiii_scale hl, Kiij_scale hl, rad_scale hl]
    rw [mul_comm, div_mul_eq_div_div]
  have hl' := hl.ne'
  cases c <;> simp only [Bc, Wc, k, v' _ (show GComp.letters .ee = 2 from rfl),
    v' _ (show GComp.letters .nn = 2 from rfl), v' _ (show GComp.letters .uu = 2 from rfl),
    v' _ (show GComp.letters .en = 2 from rfl), v' _ (show GComp.letters .eu = 2 from rfl),
    v' _ (show GComp.letters .nu = 2 from rfl)] <;>
    simp only [MComp.letters, MComp.index] <;> field_simp <;> try ring
end scale

/-! ### cuts -/

theorem Vc_cut_e (c : GComp) {m : ℝ} (hm : P.west ≤ m ∧ m ≤ P.east) 
    (h1 : p ∉ (P.below m .e).singular c) :
    Vc c p (P.below m .e) + Vc c p (P.above m .e) =
      Vc c p P + if c = .ee ∧ p ∈ (P.below m .e).faceEast then 4 * π else 0 := by
  have hD : ∀ K, Dv K p (P.below m .e) + Dv K p (P.above m .e) = Dv K p P := by
    intro K; simp only [Dv, D3, Box.below, Box.above]; ring
  have hC : corr c p (P.below m .e) + corr c p (P.above m .e) =
      corr c p P + if c = .ee ∧ p ∈ (P.below m .e).faceEast then 4 * π else 0 := by
    cases c <;> simp only [corr, reduceCtorEq, false_and, if_false, add_zero, true_and]
    · have : p ∈ (P.above m .e).faceEast ↔ p ∈ P.faceEast := Iff.rfl
      simp only [this]; ring
    · have e1 : p ∈ (P.below m .e).faceNorth ↔
        (P.west < p.e ∧ p.e < m) ∧ (p.n = P.north ∧ p.u ∈ Set.Ioo P.bottom P.top) := Iff.rfl
      have e2 : p ∈ (P.above m .e).faceNorth ↔
        (m < p.e ∧ p.e < P.east) ∧ (p.n = P.north ∧ p.u ∈ Set.Ioo P.bottom P.top) := Iff.rfl
      have e3 : p ∈ P.faceNorth ↔
        (P.west < p.e ∧ p.e < P.east) ∧ (p.n = P.north ∧ p.u ∈ Set.Ioo P.bottom P.top) := Iff.rfl
      rw [e1, e2, e3]
      by_cases hc : p.n = P.north ∧ p.u ∈ Set.Ioo P.bottom P.top
      · have hne : p.e ≠ m := by
          intro hme
          apply h1
          right
          exact ⟨Or.inr hme, Or.inr hc.1, Set.Ioo_subset_Icc_self hc.2⟩
        simp only [hc, and_true, true_and]
        split_ifs <;> grind
      · simp only [hc, and_false, if_false, add_zero]
    · have e1 : p ∈ (P.below m .e).faceTop ↔
        (P.west < p.e ∧ p.e < m) ∧ (p.n ∈ Set.Ioo P.south P.north ∧ p.u = P.top) := Iff.rfl
      have e2 : p ∈ (P.above m .e).faceTop ↔
        (m < p.e ∧ p.e < P.east) ∧ (p.n ∈ Set.Ioo P.south P.north ∧ p.u = P.top) := Iff.rfl
      have e3 : p ∈ P.faceTop ↔
        (P.west < p.e ∧ p.e < P.east) ∧ (p.n ∈ Set.Ioo P.south P.north ∧ p.u = P.top) := Iff.rfl
      rw [e1, e2, e3]
      by_cases hc : p.n ∈ Set.Ioo P.south P.north ∧ p.u = P.top
      · have hne : p.e ≠ m := by
          intro hme
          apply h1
          right
          exact ⟨Or.inr hme, Set.Ioo_subset_Icc_self hc.1, Or.inr hc.2⟩
        simp only [hc, and_true, true_and]
        split_ifs <;> grind
      · simp only [hc, and_false, if_false, add_zero]
  unfold Vc
  linear_combination hD (Kc c) + hC

theorem Vc_cut (c : GComp) (a : Axis) {m : ℝ} (hm : P.lo a ≤ m ∧ m ≤ P.hi a)
    (h1 : p ∉ (P.below m a).singular c) :
    Vc c p (P.below m a) + Vc c p (P.above m a) =
      Vc c p P + if c = a.diag ∧ p ∈ (P.below m a).faceHi a then 4 * π else 0 := by
  cases a
  · exact Vc_cut_e c hm h1
  · have := Vc_cut_e (p := p.swap .en) (P := P.swap .en) (c.swap .en) (m := m) hm
      (by
        have := singular_swap p (P.below m .n) c .en
        exact fun h' => h1 (this.mp h'))
    rw [Vc_swap] at this
    have e1 := Vc_swap p (P.below m .n) c .en
    have e2 := Vc_swap p (P.above m .n) c .en
    have e3 : (P.below m .n).swap .en = (P.swap .en).below m .e := rfl
    have e4 : (P.above m .n).swap .en = (P.swap .en).above m .e := rfl
    rw [e3] at e1
    rw [e4] at e2
    rw [← e1, ← e2, this, ← e3]
    simp only [faceEast_swap_en]
    cases c <;> simp [GComp.swap, Axis.diag, Box.faceHi]
  · have := Vc_cut_e (p := p.swap .eu) (P := P.swap .eu) (c.swap .eu) (m := m) hm
      (by
        have := singular_swap p (P.below m .u) c .eu
        exact fun h' => h1 (this.mp h'))
    rw [Vc_swap] at this
    have e1 := Vc_swap p (P.below m .u) c .eu
    have e2 := Vc_swap p (P.above m .u) c .eu
    have e3 : (P.below m .u).swap .eu = (P.swap .eu).below m .e := rfl
    have e4 : (P.above m .u).swap .eu = (P.swap .eu).above m .e := rfl
    rw [e3] at e1
    rw [e4] at e2
    rw [← e1, ← e2, this, ← e3]
    simp only [faceEast_swap_eu]
    cases c <;> simp [GComp.swap, Axis.diag, Box.faceHi]

end

end Choclo
