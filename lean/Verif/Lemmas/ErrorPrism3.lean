import Verif.Lemmas.ErrorPrism2
import Verif.Lemmas.MagEval
import Verif.Lemmas.ErrorDipole

/-! # Error analysis of the sums over the vertices of a prism -/

namespace Choclo

variable {A : Arith} {u : ℝ}

open Classical in
theorem faces_any {A : Arith} (p : Pt) (P : Box) :
    (onPrism (A := A) prism.is_point_on_east_face p P = true ↔ p ∈ P.faceEast) ∧
    (onPrism (A := A) prism.is_point_on_north_face p P = true ↔ p ∈ P.faceNorth) ∧
    (onPrism (A := A) prism.is_point_on_top_face p P = true ↔ p ∈ P.faceTop) := by
  refine ⟨?_, ?_, ?_⟩
  · simp [onPrism, prism.is_point_on_east_face, Box.faceEast, and_assoc, Fl.lt_fin_any, Fl.eq_fin_any]
  · simp [onPrism, prism.is_point_on_north_face, Box.faceNorth, and_assoc, Fl.lt_fin_any, Fl.eq_fin_any]
  · simp [onPrism, prism.is_point_on_top_face, Box.faceTop, and_assoc, Fl.lt_fin_any, Fl.eq_fin_any]

theorem Mag.pi : Mag 1 2 Real.pi := by
  right
  rw [abs_of_pos Real.pi_pos]
  have := Real.pi_gt_three
  have := Real.pi_le_four
  norm_num
  constructor <;> linarith

open Classical

namespace Arith.Accurate

variable (h : A.Accurate u (2 ^ (-1022 : ℤ)) (2 ^ (1023 : ℤ)))
include h

theorem sgn_exact (m : ℕ) : Approx (A := A) u 0 (prism.sgn m) ((-1 : ℝ) ^ m) := by
  have := h.exact ((-1 : ℝ) ^ m)
  unfold prism.sgn
  have e : ((((-1 : ℤ) ^ m : ℤ)) : Fl A) = Fl.fin ((-1 : ℝ) ^ m) := by
    show Fl.fin (((-1 : ℤ) ^ m : ℤ) : ℝ) = _
    push_cast; rfl
  rw [e]; exact this

theorem sgn_mul {k : ℕ} (hk : k ≤ 63) (m : ℕ) {v : Fl A} {x B : ℝ} (hv : AbsApprox u k v x B)
    {a b : ℤ} (hB : Mag a b B) (ha : -1020 ≤ a) (hb : b ≤ 1020) :
    AbsApprox u (k + 1) (prism.sgn m * v) ((-1) ^ m * x) B := by
  have h1 : |(-1 : ℝ) ^ m| = 1 := by rw [abs_pow]; simp
  have := h.absMul (h.toAbs (h.sgn_exact m)) hv (by
    rw [h1, one_mul]; exact hB.safe (by omega) (by omega)) (by omega)
  rw [h1, one_mul] at this
  exact h.absMono (by omega) le_rfl this

/-- the alternating sum of eight terms -/
theorem sum8 {k : ℕ} (hk : k ≤ 50) {v1 v2 v3 v4 v5 v6 v7 v8 : Fl A}
    {x1 x2 x3 x4 x5 x6 x7 x8 B1 B2 B3 B4 B5 B6 B7 B8 : ℝ}
    (h1 : AbsApprox u k v1 x1 B1) (h2 : AbsApprox u k v2 x2 B2) (h3 : AbsApprox u k v3 x3 B3)
    (h4 : AbsApprox u k v4 x4 B4) (h5 : AbsApprox u k v5 x5 B5) (h6 : AbsApprox u k v6 x6 B6)
    (h7 : AbsApprox u k v7 x7 B7) (h8 : AbsApprox u k v8 x8 B8)
    {a b : ℤ} (ha : -1000 ≤ a) (hb : b ≤ 1000)
    (m1 : Mag a b B1) (m2 : Mag a b B2) (m3 : Mag a b B3) (m4 : Mag a b B4)
    (m5 : Mag a b B5) (m6 : Mag a b B6) (m7 : Mag a b B7) (m8 : Mag a b B8) :
    AbsApprox u (k + 9) (0 + prism.sgn 0 * v1 + prism.sgn 1 * v2 + prism.sgn 1 * v3 + prism.sgn 2 * v4
        + prism.sgn 1 * v5 + prism.sgn 2 * v6 + prism.sgn 2 * v7 + prism.sgn 3 * v8)
      (x1 - x2 - x3 + x4 - x5 + x6 + x7 - x8) (B1 + B2 + B3 + B4 + B5 + B6 + B7 + B8) ∧
    Mag a (b + 7) (B1 + B2 + B3 + B4 + B5 + B6 + B7 + B8) := by
  have n1 := h.absNonneg h1
  have n2 := h.absNonneg h2
  have n3 := h.absNonneg h3
  have n4 := h.absNonneg h4
  have n5 := h.absNonneg h5
  have n6 := h.absNonneg h6
  have n7 := h.absNonneg h7
  have n8 := h.absNonneg h8
  have q1 := h.sgn_mul (by omega) 0 h1 m1 (by omega) (by omega)
  have q2 := h.sgn_mul (by omega) 1 h2 m2 (by omega) (by omega)
  have q3 := h.sgn_mul (by omega) 1 h3 m3 (by omega) (by omega)
  have q4 := h.sgn_mul (by omega) 2 h4 m4 (by omega) (by omega)
  have q5 := h.sgn_mul (by omega) 1 h5 m5 (by omega) (by omega)
  have q6 := h.sgn_mul (by omega) 2 h6 m6 (by omega) (by omega)
  have q7 := h.sgn_mul (by omega) 2 h7 m7 (by omega) (by omega)
  have q8 := h.sgn_mul (by omega) 3 h8 m8 (by omega) (by omega)
  have s2 := m1.add m2 n1 n2
  have s3 := s2.add (m3.weaken le_rfl (by omega)) (by linarith) n3
  have s4 := s3.add (m4.weaken le_rfl (by omega)) (by linarith) n4
  have s5 := s4.add (m5.weaken le_rfl (by omega)) (by linarith) n5
  have s6 := s5.add (m6.weaken le_rfl (by omega)) (by linarith) n6
  have s7 := s6.add (m7.weaken le_rfl (by omega)) (by linarith) n7
  have s8 := s7.add (m8.weaken le_rfl (by omega)) (by linarith) n8
  have z : AbsApprox (A := A) u 0 0 0 0 := by
    have := h.toAbs (h.approx_zero (k := 0)); rwa [abs_zero] at this
  have t1 := h.absAdd z q1 (by rw [zero_add]; exact m1.safe (by omega) (by omega)) (by simp; omega)
  rw [zero_add (B1)] at t1
  have t2 := h.absAdd t1 q2 (s2.safe (by omega) (by omega)) (by simp; omega)
  have t3 := h.absAdd t2 q3 (s3.safe (by omega) (by omega)) (by simp; omega)
  have t4 := h.absAdd t3 q4 (s4.safe (by omega) (by omega)) (by simp; omega)
  have t5 := h.absAdd t4 q5 (s5.safe (by omega) (by omega)) (by simp; omega)
  have t6 := h.absAdd t5 q6 (s6.safe (by omega) (by omega)) (by simp; omega)
  have t7 := h.absAdd t6 q7 (s7.safe (by omega) (by omega)) (by simp; omega)
  have t8 := h.absAdd t7 q8 (s8.safe (by omega) (by omega)) (by simp; omega)
  refine ⟨?_, s8.weaken le_rfl (by omega)⟩
  rw [show x1 - x2 - x3 + x4 - x5 + x6 + x7 - x8 = 0 + (-1) ^ 0 * x1 + (-1) ^ 1 * x2 + (-1) ^ 1 * x3
    + (-1) ^ 2 * x4 + (-1) ^ 1 * x5 + (-1) ^ 2 * x6 + (-1) ^ 2 * x7 + (-1) ^ 3 * x8 by ring]
  exact h.absMono (by simp) le_rfl t8

variable (hl : A.LibmAccurate u (2 ^ (-1022 : ℤ)) (2 ^ (1023 : ℤ)))

theorem shift_err {a b : ℝ} (hm : Mag (-80) 80 (a - b)) :
    Approx (A := A) u 1 ((a : Fl A) - (b : Fl A)) (a - b) :=
  h.sub_exact (hm.safe (by norm_num) (by norm_num))

/-- the value of a kernel at a vertex -/
noncomputable def dk (c : PKComp) (x y z : ℝ) : ℝ := docKernel c x y z (rad x y z)
/-- the size of a kernel at a vertex -/
noncomputable def ks (c : PKComp) (x y z : ℝ) : ℝ := kernelSize c x y z (rad x y z)

/-- Sum over the vertices of the prism as seen from the observation point -/
noncomputable def Sv (K : ℝ → ℝ → ℝ → ℝ) (p : Pt) (P : Box) : ℝ :=
  K (P.east - p.e) (P.north - p.n) (P.top - p.u) + K (P.east - p.e) (P.north - p.n) (P.bottom - p.u)
    + K (P.east - p.e) (P.south - p.n) (P.top - p.u) + K (P.east - p.e) (P.south - p.n) (P.bottom - p.u)
    + K (P.west - p.e) (P.north - p.n) (P.top - p.u) + K (P.west - p.e) (P.north - p.n) (P.bottom - p.u)
    + K (P.west - p.e) (P.south - p.n) (P.top - p.u) + K (P.west - p.e) (P.south - p.n) (P.bottom - p.u)

omit h in
theorem Dv_alt (K : ℝ → ℝ → ℝ → ℝ) (p : Pt) (P : Box) : Dv K p P =
    K (P.east - p.e) (P.north - p.n) (P.top - p.u) - K (P.east - p.e) (P.north - p.n) (P.bottom - p.u)
    - K (P.east - p.e) (P.south - p.n) (P.top - p.u) + K (P.east - p.e) (P.south - p.n) (P.bottom - p.u)
    - K (P.west - p.e) (P.north - p.n) (P.top - p.u) + K (P.west - p.e) (P.north - p.n) (P.bottom - p.u)
    + K (P.west - p.e) (P.south - p.n) (P.top - p.u) - K (P.west - p.e) (P.south - p.n) (P.bottom - p.u) := by
  unfold Dv D3; ring

include hl in
theorem evaluate_err {c : PKComp} {p : Pt} {P : Box} (hm : ModerateOffsets p P)
    (h0 : c.lowOrder ∨ ∀ x y z, (x = P.west - p.e ∨ x = P.east - p.e) →
      (y = P.south - p.n ∨ y = P.north - p.n) → (z = P.bottom - p.u ∨ z = P.top - p.u) → rad x y z ≠ 0) :
    ∃ v, onPrism (A := A) prism._evaluate_kernel p P (prismKernel c) = .ok v ∧
      AbsApprox u 34 v (Dv (dk c) p P) (Sv (ks c) p P) ∧ Mag (-800) 807 (Sv (ks c) p P) := by
  obtain ⟨mw, me, ms, mn, mb, mt⟩ := hm
  have key : ∀ x y z : ℝ, ∀ X Y Z : Fl A, (x = P.west - p.e ∨ x = P.east - p.e) →
      (y = P.south - p.n ∨ y = P.north - p.n) → (z = P.bottom - p.u ∨ z = P.top - p.u) →
      Approx u 1 X x → Approx u 1 Y y → Approx u 1 Z z →
      ∃ v, prism.vker (prismKernel c) X Y Z = .ok v ∧ AbsApprox u 25 v (dk c x y z) (ks c x y z) ∧
        Mag (-800) 800 (ks c x y z) := by
    intro x y z X Y Z hx hy hz aX aY aZ
    have mx : Mag (-80) 80 x := by rcases hx with rfl | rfl <;> assumption
    have my : Mag (-80) 80 y := by rcases hy with rfl | rfl <;> assumption
    have mz : Mag (-80) 80 z := by rcases hz with rfl | rfl <;> assumption
    exact h.kernel_err hl mx my mz aX aY aZ c (h0.imp_right fun h0 => h0 x y z hx hy hz)
  have aw := h.shift_err mw
  have ae := h.shift_err me
  have as := h.shift_err ms
  have an := h.shift_err mn
  have ab := h.shift_err mb
  have at' := h.shift_err mt
  obtain ⟨v1, e1, a1, m1⟩ := key _ _ _ _ _ _ (.inr rfl) (.inr rfl) (.inr rfl) ae an at'
  obtain ⟨v2, e2, a2, m2⟩ := key _ _ _ _ _ _ (.inr rfl) (.inr rfl) (.inl rfl) ae an ab
  obtain ⟨v3, e3, a3, m3⟩ := key _ _ _ _ _ _ (.inr rfl) (.inl rfl) (.inr rfl) ae as at'
  obtain ⟨v4, e4, a4, m4⟩ := key _ _ _ _ _ _ (.inr rfl) (.inl rfl) (.inl rfl) ae as ab
  obtain ⟨v5, e5, a5, m5⟩ := key _ _ _ _ _ _ (.inl rfl) (.inr rfl) (.inr rfl) aw an at'
  obtain ⟨v6, e6, a6, m6⟩ := key _ _ _ _ _ _ (.inl rfl) (.inr rfl) (.inl rfl) aw an ab
  obtain ⟨v7, e7, a7, m7⟩ := key _ _ _ _ _ _ (.inl rfl) (.inl rfl) (.inr rfl) aw as at'
  obtain ⟨v8, e8, a8, m8⟩ := key _ _ _ _ _ _ (.inl rfl) (.inl rfl) (.inl rfl) aw as ab
  have hs := h.sum8 (a := -800) (by norm_num) a1 a2 a3 a4 a5 a6 a7 a8 (b := 800) (by norm_num) (by norm_num)
    m1 m2 m3 m4 m5 m6 m7 m8
  rw [Dv_alt]
  refine ⟨_, ?_, hs⟩
  unfold onPrism
  rw [prism.evaluate_kernel_unroll]
  simp only [e1, e2, e3, e4, e5, e6, e7, e8, Ex.ok_bind]
  rfl

/-! ### gravity -/

omit h in
theorem dk_eq (c : GComp) : dk c.kernel = Kc c := by
  funext x y z
  have ll1 := docLn_eq x y z
  have ll2 := docLn_eq y x z
  have ll3 := docLn_eq z x y
  have tt1 := docAtan_eq x y z
  have tt2 := docAtan_eq y x z
  have tt3 := docAtan_eq z x y
  rw [rad_perm1 x y z] at ll2 tt2
  rw [rad_perm4 x y z] at ll3 tt3
  cases c <;> simp only [dk, GComp.kernel, docKernel, Kc, ll1, ll2, ll3, tt1, tt2, tt3]
  case pot =>
    unfold Pk
    rw [Lk_symm y z x, Tk_symm x z y, Tk_symm y z x]; ring
  case e => rfl
  case n => unfold Fk; rw [Lk_symm z y x]; ring
  case u => unfold Fk; rw [Lk_symm y z x, Lk_symm x z y]

theorem four_pi (hl : A.LibmAccurate u (2 ^ (-1022 : ℤ)) (2 ^ (1023 : ℤ))) :
    Approx (A := A) u 2 (4 * Fl.pi) (4 * Real.pi) := by
  have n4 : ((4 : ℕ) : ℝ) = 4 := by norm_num
  have m4 : Mag 2 2 4 := by right; norm_num
  have := h.mul (h.nat 4) (h.pi_approx hl.pi) (by
    rw [n4]; exact (m4.mul Mag.pi).safe (by norm_num) (by norm_num)) (by norm_num)
  rw [n4] at this
  exact this

include hl in
theorem gravity_err {c : GComp} {p : Pt} {P : Box} (hP : P.Ordered) (hp : p ∉ P.singular c)
    (hm : ModerateOffsets p P) {ρ : ℝ} (hρ : Mag (-80) 80 ρ) :
    ∃ v, onPrism (A := A) (prismGravity c) p P ρ = .ok v ∧
      AbsApprox u 38 v (Gc * ρ * Vc c p P) (|Gc * ρ| * (Sv (ks c.kernel) p P + |corr c p P|)) := by
  have hgm := Mag.gc.mul hρ
  have hev : ∃ v, onPrism (A := A) prism._evaluate_kernel p P (prismKernel c.kernel) = .ok v ∧
      AbsApprox u 34 v (Dv (Kc c) p P) (Sv (ks c.kernel) p P) ∧ Mag (-800) 807 (Sv (ks c.kernel) p P) := by
    rw [← dk_eq]
    apply h.evaluate_err hl hm
    cases c
    all_goals first
      | exact .inl trivial
      | (right; intro x y z hx hy hz; apply Ex.rad_ne_zero hP _ hx hy hz
         simp only [Box.singular, Set.mem_union, not_or] at hp; tauto)
  obtain ⟨v, ev, av, mv⟩ := hev
  have hS := h.absNonneg av
  have a4 := h.four_pi hl
  have m4 : Mag 3 4 (4 * Real.pi) := (show Mag 2 2 4 by right; norm_num).mul Mag.pi
  have ms := mv.add (m4.abs.weaken (by norm_num) (by norm_num)) hS (abs_nonneg _)
  have a1 := h.absAdd av (h.toAbs a4) (ms.safe (by norm_num) (by norm_num)) (by norm_num)
  have g := h.gm (m := ρ) (Mag.gc.safe (by norm_num) (by norm_num)) (hgm.safe (by norm_num) (by norm_num))
  have f0 := h.absMul (h.toAbs g) av ((hgm.abs.mul mv).safe (by norm_num) (by norm_num)) (by norm_num)
  have f1 := h.absMul (h.toAbs g) a1 ((hgm.abs.mul ms).safe (by norm_num) (by norm_num)) (by norm_num)
  have f0' := h.absMono (l := 38) (by norm_num) le_rfl f0
  have f1' := h.absMono (l := 38) (by norm_num) le_rfl f1
  obtain ⟨-, e1, e2, e3⟩ := C18_edges_by_direction (A := A) p P
  obtain ⟨k1, k2, k3⟩ := faces_any (A := A) p P
  unfold onPrism at ev e1 e2 e3 k1 k2 k3 ⊢
  cases c <;> simp only [GComp.kernel, prismKernel] at ev <;>
    simp only [Box.singular, Set.mem_union, not_or] at hp <;>
    simp only [prismGravity, Vc, corr, abs_zero, add_zero]
  case pot => exact ⟨_, by unfold prism.gravity_pot; rw [ev, Ex.ok_bind]; rfl, f0'⟩
  case e => exact ⟨_, by unfold prism.gravity_e; rw [ev, Ex.ok_bind]; rfl, f0'⟩
  case n => exact ⟨_, by unfold prism.gravity_n; rw [ev, Ex.ok_bind]; rfl, f0'⟩
  case u => exact ⟨_, by unfold prism.gravity_u; rw [ev, Ex.ok_bind]; rfl, f0'⟩
  case en =>
    refine ⟨_, ?_, f0'⟩
    unfold prism.gravity_en; rw [if_neg (by rw [e3]; exact hp), ev, Ex.ok_bind]; rfl
  case eu =>
    refine ⟨_, ?_, f0'⟩
    unfold prism.gravity_eu; rw [if_neg (by rw [e2]; exact hp), ev, Ex.ok_bind]; rfl
  case nu =>
    refine ⟨_, ?_, f0'⟩
    unfold prism.gravity_nu; rw [if_neg (by rw [e1]; exact hp), ev, Ex.ok_bind]; rfl
  case ee =>
    unfold prism.gravity_ee; rw [if_neg (by rw [Bool.or_eq_true, e2, e3]; tauto), ev, Ex.ok_bind]
    by_cases hf : p ∈ P.faceEast
    · rw [if_pos (k1.2 hf), if_pos hf]
      exact ⟨_, rfl, f1'⟩
    · rw [if_neg (by rw [k1]; exact hf), if_neg hf, abs_zero, add_zero, add_zero]
      exact ⟨_, rfl, f0'⟩
  case nn =>
    unfold prism.gravity_nn; rw [if_neg (by rw [Bool.or_eq_true, e1, e3]; tauto), ev, Ex.ok_bind]
    by_cases hf : p ∈ P.faceNorth
    · rw [if_pos (k2.2 hf), if_pos hf]
      exact ⟨_, rfl, f1'⟩
    · rw [if_neg (by rw [k2]; exact hf), if_neg hf, abs_zero, add_zero, add_zero]
      exact ⟨_, rfl, f0'⟩
  case uu =>
    unfold prism.gravity_uu; rw [if_neg (by rw [Bool.or_eq_true, e1, e2]; tauto), ev, Ex.ok_bind]
    by_cases hf : p ∈ P.faceTop
    · rw [if_pos (k3.2 hf), if_pos hf]
      exact ⟨_, rfl, f1'⟩
    · rw [if_neg (by rw [k3]; exact hf), if_neg hf, abs_zero, add_zero, add_zero]
      exact ⟨_, rfl, f0'⟩

end Arith.Accurate

end Choclo
