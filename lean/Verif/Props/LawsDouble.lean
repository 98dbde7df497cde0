import Verif.Props.ErrorPrism
import Verif.Props.PrismLaplace
import Verif.Spec.Offsets
import Mathlib.Analysis.Complex.ExponentialBounds

/-! # C98: explicit error bounds, and the field equations in double precision -/

namespace Choclo

open Real Set

variable {P : Box} {p : Pt}

/-! ### sizes of the terms -/

theorem abs_log_le_168 {t : ℝ} (h1 : (2 : ℝ) ^ (-242 : ℤ) ≤ t) (h2 : t ≤ 2 ^ (242 : ℤ)) : |Real.log t| ≤ 168 := by
  have h0 : (0 : ℝ) < 2 ^ (-242 : ℤ) := by positivity
  have a := Real.log_le_log h0 h1
  have b := Real.log_le_log (h0.trans_le h1) h2
  rw [Real.log_zpow] at a b
  have l2 := Real.log_two_lt_d9
  have l2' := Real.log_two_gt_d9
  push_cast at a b
  rw [abs_le]
  constructor <;> linarith

theorem abs_docLn_le {x y z : ℝ} (hx : ModerateSize x) (hy : ModerateSize y) (hz : ModerateSize z) :
    |docLn x (√(x ^ 2 + y ^ 2 + z ^ 2))| ≤ 168 := by
  have hM : (2 : ℝ) ^ (80 : ℤ) * 2 ^ (-80 : ℤ) = 1 := by rw [← zpow_add₀ (by norm_num)]; norm_num
  have e82 : (2 : ℝ) ^ (82 : ℤ) = 4 * 2 ^ (80 : ℤ) := by
    rw [show (82 : ℤ) = 2 + 80 by norm_num, zpow_add₀ (by norm_num)]; norm_num
  have e242 : (2 : ℝ) ^ (-242 : ℤ) = (2 ^ (-80 : ℤ) * 2 ^ (-80 : ℤ)) / (4 * 2 ^ (80 : ℤ)) := by
    rw [← e82, ← zpow_add₀ (by norm_num), ← zpow_sub₀ (by norm_num)]; norm_num
  have e1 : (2 : ℝ) ^ (-242 : ℤ) ≤ 2 ^ (-80 : ℤ) := zpow_le_zpow_right₀ (by norm_num) (by norm_num)
  have e2 : (2 : ℝ) ^ (82 : ℤ) ≤ 2 ^ (242 : ℤ) := zpow_le_zpow_right₀ (by norm_num) (by norm_num)
  have ux : |x| ≤ 2 ^ (80 : ℤ) := by
    rcases hx with h | h
    · rw [h, abs_zero]; positivity
    · exact h.2
  have uy : |y| ≤ 2 ^ (80 : ℤ) := by
    rcases hy with h | h
    · rw [h, abs_zero]; positivity
    · exact h.2
  have uz : |z| ≤ 2 ^ (80 : ℤ) := by
    rcases hz with h | h
    · rw [h, abs_zero]; positivity
    · exact h.2
  have lx : x = 0 ∨ (2 : ℝ) ^ (-80 : ℤ) ≤ |x| := hx.imp id (·.1)
  have ly : y = 0 ∨ (2 : ℝ) ^ (-80 : ℤ) ≤ |y| := hy.imp id (·.1)
  have lz : z = 0 ∨ (2 : ℝ) ^ (-80 : ℤ) ≤ |z| := hz.imp id (·.1)
  have pT : (0 : ℝ) < 2 ^ (80 : ℤ) := by positivity
  have ps : (0 : ℝ) < 2 ^ (-80 : ℤ) := by positivity
  set T : ℝ := 2 ^ (80 : ℤ) with hT
  set s : ℝ := 2 ^ (-80 : ℤ) with hs
  have hr : rad x y z = √(x ^ 2 + y ^ 2 + z ^ 2) := rfl
  rw [← hr]
  have q := rad_sq x y z
  have n := rad_nonneg x y z
  have rT : rad x y z ≤ 2 * T := by
    unfold rad
    refine Real.sqrt_le_iff.2 ⟨by positivity, ?_⟩
    nlinarith [sq_abs x, sq_abs y, sq_abs z, abs_nonneg x, abs_nonneg y, abs_nonneg z]
  have r1 := abs_le_rad x y z
  have r2 := abs_le_rad2 x y z
  have r3 := abs_le_rad3 x y z
  unfold docLn
  split_ifs with h h'
  · apply abs_log_le_168
    · rcases le_or_gt 0 x with h0 | h0
      · refine e1.trans ?_
        have : s ≤ rad x y z := by
          rcases lx with h1 | h1
          · rcases ly with h2 | h2
            · rcases lz with h3 | h3
              · rw [h1, h2, h3] at h
                simp [rad] at h
              · exact h3.trans r3
            · exact h2.trans r2
          · exact h1.trans r1
        linarith
      · have hyz : s * s ≤ y ^ 2 + z ^ 2 := by
          rcases ly with h2 | h2
          · rcases lz with h3 | h3
            · exfalso
              subst h2 h3
              have : rad x 0 0 = |x| := by
                unfold rad
                rw [← Real.sqrt_sq_eq_abs]; congr 1; ring
              rw [this, abs_of_neg h0] at h
              linarith
            · nlinarith [sq_abs z, sq_nonneg y]
          · nlinarith [sq_abs y, sq_nonneg z]
        have hd : 0 < rad x y z - x := by linarith
        have ex : x + rad x y z = (y ^ 2 + z ^ 2) / (rad x y z - x) := by
          rw [eq_div_iff hd.ne']; linear_combination q
        rw [ex, e242]
        rw [abs_of_neg h0] at ux
        have hT4 : rad x y z - x ≤ 4 * T := by linarith
        gcongr
    · refine le_trans ?_ e2
      rw [e82]
      linarith [le_abs_self x]
  · rw [abs_neg]
    rw [abs_of_neg h'] at ux lx
    have : s ≤ -x := by
      rcases lx with h1 | h1
      · linarith
      · exact h1
    apply abs_log_le_168
    · linarith
    · refine le_trans ?_ e2
      rw [e82]; linarith
  · simp

theorem abs_docAtan_le (y x : ℝ) : |docAtan y x| ≤ π / 2 := by
  have := Real.pi_pos
  unfold docAtan
  split_ifs
  · exact abs_le.2 ⟨(Real.neg_pi_div_two_lt_arctan _).le, (Real.arctan_lt_pi_div_two _).le⟩
  · rw [abs_of_pos (by positivity)]
  · rw [abs_neg, abs_of_pos (by positivity)]
  · rw [abs_zero]; positivity

theorem sqrt_perm1 (x y z : ℝ) : √(x ^ 2 + y ^ 2 + z ^ 2) = √(y ^ 2 + x ^ 2 + z ^ 2) := by congr 1; ring
theorem sqrt_perm2 (x y z : ℝ) : √(x ^ 2 + y ^ 2 + z ^ 2) = √(z ^ 2 + x ^ 2 + y ^ 2) := by congr 1; ring

theorem kernelSize_le (c : GComp) {x y z L : ℝ} (hx : ModerateSize x) (hy : ModerateSize y) (hz : ModerateSize z)
    (lx : |x| ≤ L) (ly : |y| ≤ L) (lz : |z| ≤ L) :
    kernelSize c.kernel x y z (√(x ^ 2 + y ^ 2 + z ^ 2)) ≤ 511 * L ^ (2 - c.letters) := by
  have hL : 0 ≤ L := (abs_nonneg x).trans lx
  have l1 := abs_docLn_le hx hy hz
  have l2 := abs_docLn_le hy hx hz
  have l3 := abs_docLn_le hz hx hy
  rw [← sqrt_perm1] at l2
  rw [← sqrt_perm2] at l3
  generalize √(x ^ 2 + y ^ 2 + z ^ 2) = r at *
  have pi := Real.pi_lt_d2
  have a1 := (abs_docAtan_le (y * z) (x * r)).trans (by linarith : π / 2 ≤ 158 / 100)
  have a2 := (abs_docAtan_le (x * z) (y * r)).trans (by linarith : π / 2 ≤ 158 / 100)
  have a3 := (abs_docAtan_le (x * y) (z * r)).trans (by linarith : π / 2 ≤ 158 / 100)
  have xy : |x * y| ≤ L ^ 2 := by rw [abs_mul, pow_two]; gcongr
  have yz : |y * z| ≤ L ^ 2 := by rw [abs_mul, pow_two]; gcongr
  have xz : |x * z| ≤ L ^ 2 := by rw [abs_mul, pow_two]; gcongr
  have xx : x ^ 2 ≤ L ^ 2 := by rw [← sq_abs]; gcongr
  have yy : y ^ 2 ≤ L ^ 2 := by rw [← sq_abs y]; gcongr
  have zz : z ^ 2 ≤ L ^ 2 := by rw [← sq_abs z]; gcongr
  have ln : ∀ {a b m : ℝ}, |a| ≤ m → |b| ≤ 168 → |a| * (1 + |b|) ≤ m * 169 := fun h h' =>
    mul_le_mul h (by linarith) (by positivity) ((abs_nonneg _).trans h)
  have at1 : ∀ {a b m : ℝ}, |a| ≤ m → |b| ≤ 158 / 100 → |a| * |b| ≤ m * (158 / 100) := fun h h' =>
    mul_le_mul h h' (by positivity) ((abs_nonneg _).trans h)
  have at2 : ∀ {a b m : ℝ}, a ^ 2 ≤ m → |b| ≤ 158 / 100 → a ^ 2 / 2 * |b| ≤ m / 2 * (158 / 100) := fun h h' =>
    mul_le_mul (by linarith) h' (by positivity) (by linarith [sq_nonneg ‹ℝ›, (sq_nonneg _).trans h])
  have L2 : 0 ≤ L ^ 2 := sq_nonneg L
  cases c <;> simp only [GComp.kernel, kernelSize, GComp.letters, GComp.index]
  · have := ln xy l3; have := ln yz l1; have := ln xz l2
    have := at2 xx a1; have := at2 yy a2; have := at2 zz a3
    rw [show 2 - (0 + 0 + 0) = 2 from rfl]
    linarith
  · have := ln ly l3; have := ln lz l2; have := at1 lx a1
    norm_num
    linarith
  · have := ln lz l1; have := ln lx l3; have := at1 ly a2
    norm_num
    linarith
  · have := ln lx l2; have := ln ly l1; have := at1 lz a3
    norm_num
    linarith
  all_goals
    try simp only [docKernel, abs_neg]
    norm_num
    linarith

theorem kernelSize_diag_le (a : Axis) (x y z r : ℝ) : kernelSize a.diag.kernel x y z r ≤ 158 / 100 := by
  have pi := Real.pi_lt_d2
  have h := fun y x => (abs_docAtan_le y x).trans (by linarith : π / 2 ≤ 158 / 100)
  cases a <;> simp only [Axis.diag, GComp.kernel, kernelSize, docKernel, abs_neg] <;> exact h _ _

theorem vertexSum_le {f : ℝ → ℝ → ℝ → ℝ → ℝ} {B : ℝ}
    (h : ∀ x y z, (x = P.west ∨ x = P.east) → (y = P.south ∨ y = P.north) → (z = P.bottom ∨ z = P.top) →
      f (x - p.e) (y - p.n) (z - p.u) (√((x - p.e) ^ 2 + (y - p.n) ^ 2 + (z - p.u) ^ 2)) ≤ B) :
    vertexSum f p P ≤ 8 * B := by
  unfold vertexSum
  have h1 := h P.east P.north P.top (.inr rfl) (.inr rfl) (.inr rfl)
  have h2 := h P.east P.north P.bottom (.inr rfl) (.inr rfl) (.inl rfl)
  have h3 := h P.east P.south P.top (.inr rfl) (.inl rfl) (.inr rfl)
  have h4 := h P.east P.south P.bottom (.inr rfl) (.inl rfl) (.inl rfl)
  have h5 := h P.west P.north P.top (.inl rfl) (.inr rfl) (.inr rfl)
  have h6 := h P.west P.north P.bottom (.inl rfl) (.inr rfl) (.inl rfl)
  have h7 := h P.west P.south P.top (.inl rfl) (.inl rfl) (.inr rfl)
  have h8 := h P.west P.south P.bottom (.inl rfl) (.inl rfl) (.inl rfl)
  linarith

theorem totalSize_diag_le (a : Axis) (p : Pt) (P : Box) : totalSize a.diag.kernel p P ≤ 26 := by
  have pi := Real.pi_lt_d2
  have h := vertexSum_le (p := p) (P := P) (f := kernelSize a.diag.kernel) (B := 158 / 100)
    (fun x y z _ _ _ => kernelSize_diag_le a _ _ _ _)
  unfold totalSize
  split_ifs <;> linarith

theorem totalSize_le (c : GComp) {L : ℝ} (hm : ModerateOffsets p P) (hL : OffsetsUpTo L p P) :
    totalSize c.kernel p P ≤ 2 ^ 12 * L ^ (2 - c.letters) := by
  have hL0 : 0 ≤ L := (abs_nonneg _).trans (hL .e).1
  obtain ⟨m1, m2, m3, m4, m5, m6⟩ := hm
  have h := vertexSum_le (p := p) (P := P) (f := kernelSize c.kernel) (B := 511 * L ^ (2 - c.letters))
    (fun x y z hx hy hz => by
      apply kernelSize_le
      · rcases hx with rfl | rfl <;> assumption
      · rcases hy with rfl | rfl <;> assumption
      · rcases hz with rfl | rfl <;> assumption
      · rcases hx with rfl | rfl
        · exact (hL .e).1
        · exact (hL .e).2
      · rcases hy with rfl | rfl
        · exact (hL .n).1
        · exact (hL .n).2
      · rcases hz with rfl | rfl
        · exact (hL .u).1
        · exact (hL .u).2)
  by_cases hc : ∃ a : Axis, c = a.diag
  · obtain ⟨a, rfl⟩ := hc
    have := totalSize_diag_le a p P
    rw [show a.diag.letters = 2 by cases a <;> rfl]
    norm_num
    linarith
  · unfold totalSize
    rw [if_neg, add_zero]
    · have := pow_nonneg hL0 (2 - c.letters)
      linarith
    · push Not at hc
      rintro (⟨h', -⟩ | ⟨h', -⟩ | ⟨h', -⟩)
      · cases c <;> simp [GComp.kernel] at h'; exact hc .e rfl
      · cases c <;> simp [GComp.kernel] at h'; exact hc .n rfl
      · cases c <;> simp [GComp.kernel] at h'; exact hc .u rfl

/-! ### the theorems -/

theorem ReturnsWithin.mono {A : Arith} {call : Py (Fl A)} {x B B' : ℝ} (h : ReturnsWithin call x B) (hB : B ≤ B') :
    ReturnsWithin call x B' := by
  obtain ⟨y, e, hy⟩ := h
  exact ⟨y, e, hy.trans hB⟩

/-- **C98.** In double precision the error of every prism gravity function is, for moderate geometries with
no boundary farther than `L` along its axis, at most `2⁻³⁴ G |ρ| L²` for the potential, `2⁻³⁴ G |ρ| L` for
the acceleration and `2⁻³⁴ G |ρ|` for the tensor, at every point where the result is not NaN. -/
theorem C98_gravity (c : GComp) (p : Pt) (P : Box) (hP : P.Ordered) (hp : p ∉ P.singular c)
    (hm : ModerateOffsets p P) {L : ℝ} (hL : OffsetsUpTo L p P) (ρ : ℝ) (hρ : ModerateSize ρ) :
    ∃ g, Returns (onPrism (A := Exact) (prismGravity c) p P ρ) g ∧
      ReturnsWithin (onPrism (A := Binary64) (prismGravity c) p P ρ) g
        (2 ^ (-34 : ℤ) * (6.6743e-11 * |ρ| * L ^ (2 - c.letters))) := by
  obtain ⟨g, e, h⟩ := C57_double c p P hP hp hm ρ hρ
  refine ⟨g, e, h.mono ?_⟩
  have := totalSize_le c hm hL
  calc (2 : ℝ) ^ (-46 : ℤ) * (6.6743e-11 * |ρ| * totalSize c.kernel p P)
      ≤ 2 ^ (-46 : ℤ) * (6.6743e-11 * |ρ| * (2 ^ 12 * L ^ (2 - c.letters))) := by gcongr
    _ = _ := by
      rw [show (2 : ℝ) ^ (-34 : ℤ) = 2 ^ (-46 : ℤ) * 2 ^ 12 by
        rw [show (-34 : ℤ) = -46 + 12 by norm_num, zpow_add₀ (by norm_num)]; rfl]
      ring

/-- **C98.** The diagonal components have the smaller error `2⁻⁴¹ G |ρ|`, whatever the size of the prism. -/
theorem C98_diagonal (a : Axis) (p : Pt) (P : Box) (hP : P.Ordered) (hp : p ∉ P.singular a.diag)
    (hm : ModerateOffsets p P) (ρ : ℝ) (hρ : ModerateSize ρ) :
    ∃ g, Returns (onPrism (A := Exact) (prismGravity a.diag) p P ρ) g ∧
      ReturnsWithin (onPrism (A := Binary64) (prismGravity a.diag) p P ρ) g
        (2 ^ (-41 : ℤ) * (6.6743e-11 * |ρ|)) := by
  obtain ⟨g, e, h⟩ := C57_double a.diag p P hP hp hm ρ hρ
  refine ⟨g, e, h.mono ?_⟩
  have := totalSize_diag_le a p P
  calc (2 : ℝ) ^ (-46 : ℤ) * (6.6743e-11 * |ρ| * totalSize a.diag.kernel p P)
      ≤ 2 ^ (-46 : ℤ) * (6.6743e-11 * |ρ| * 2 ^ 5) := by gcongr; norm_num; linarith
    _ = _ := by
      rw [show (2 : ℝ) ^ (-41 : ℤ) = 2 ^ (-46 : ℤ) * 2 ^ 5 by
        rw [show (-41 : ℤ) = -46 + 5 by norm_num, zpow_add₀ (by norm_num)]; rfl]
      ring

theorem returns_unique {A : Arith} {call : Py (Fl A)} {x y : ℝ} (h : Returns call x) (h' : Returns call y) :
    x = y := by
  unfold Returns at h h'
  rw [h] at h'
  exact Raw.fin.inj (Except.ok.inj h')

/-- **C98.** Laplace's and Poisson's equations in double precision: off the edges the three computed
diagonal components add up to `-4 π G ρ` inside the prism and to zero outside and on its faces, up to an
error of `2⁻³⁹ G |ρ|`. -/
theorem C98_laplace_poisson (hP : P.Proper) (p : Pt) (h : p ∉ P.edges) (hm : ModerateOffsets p P) (ρ : ℝ)
    (hρ : ModerateSize ρ) :
    ∃ tee tnn tuu,
      Returns (onPrism (A := Binary64) prism.gravity_ee p P ρ) tee ∧
      Returns (onPrism (A := Binary64) prism.gravity_nn p P ρ) tnn ∧
      Returns (onPrism (A := Binary64) prism.gravity_uu p P ρ) tuu ∧
      (p ∈ interior P.region → |tee + tnn + tuu + 4 * π * 6.6743e-11 * ρ| ≤ 2 ^ (-39 : ℤ) * (6.6743e-11 * |ρ|)) ∧
      (p ∉ interior P.region → |tee + tnn + tuu| ≤ 2 ^ (-39 : ℤ) * (6.6743e-11 * |ρ|)) := by
  have hO := hP.ordered
  obtain ⟨ge, gn, gu, re, rn, ru, hin, hout⟩ := C27_laplace_poisson hP p h ρ
  obtain ⟨ge', re', te, fe, be⟩ := C98_diagonal .e p P hO (edges_singular _ h) hm ρ hρ
  obtain ⟨gn', rn', tn, fn, bn⟩ := C98_diagonal .n p P hO (edges_singular _ h) hm ρ hρ
  obtain ⟨gu', ru', tu, fu, bu⟩ := C98_diagonal .u p P hO (edges_singular _ h) hm ρ hρ
  rw [← returns_unique re re'] at be
  rw [← returns_unique rn rn'] at bn
  rw [← returns_unique ru ru'] at bu
  have e39 : (2 : ℝ) ^ (-39 : ℤ) = 4 * 2 ^ (-41 : ℤ) := by
    rw [show (-39 : ℤ) = 2 + -41 by norm_num, zpow_add₀ (by norm_num)]; norm_num
  have pos : 0 ≤ (2 : ℝ) ^ (-41 : ℤ) * (6.6743e-11 * |ρ|) := by positivity
  rw [e39]
  generalize (2 : ℝ) ^ (-41 : ℤ) = w at *
  rw [abs_le] at be bn bu
  refine ⟨te, tn, tu, fe, fn, fu, fun hi => ?_, fun hi => ?_⟩
  · have := hin hi
    simp only [Gc] at this
    rw [abs_le]
    constructor <;> linarith [be.1, be.2, bn.1, bn.2, bu.1, bu.2]
  · have := hout hi
    rw [abs_le]
    constructor <;> linarith [be.1, be.2, bn.1, bn.2, bu.1, bu.2]

/-- **C98.** Laplace's equation for a point mass in double precision. -/
theorem C98_point_laplace (p q : Pt) (hpq : p ≠ q) (m : ℝ)
    (hΔ : ∀ a : Axis, ModerateSize (p.coord a - q.coord a)) (hm : ModerateSize m) :
    ∃ tee tnn tuu,
      Returns (onPair (A := Binary64) point.gravity_ee p q m) tee ∧
      Returns (onPair (A := Binary64) point.gravity_nn p q m) tnn ∧
      Returns (onPair (A := Binary64) point.gravity_uu p q m) tuu ∧
      |tee + tnn + tuu| ≤ 2 ^ (-42 : ℤ) * (6.6743e-11 * |m| / dist3 p q ^ 3) := by
  obtain ⟨te, fe, be⟩ := C54_double .e p q hpq m hΔ hm
  obtain ⟨tn, fn, bn⟩ := C54_double .n p q hpq m hΔ hm
  obtain ⟨tu, fu, bu⟩ := C54_double .u p q hpq m hΔ hm
  refine ⟨te, tn, tu, fe, fn, fu, ?_⟩
  have hd : dist3 p q ≠ 0 := fun h' => hpq (dist3_eq_zero.mp h')
  have hd0 : 0 ≤ dist3 p q := Real.sqrt_nonneg _
  have e42 : (2 : ℝ) ^ (-42 : ℤ) = 4 * 2 ^ (-44 : ℤ) := by
    rw [show (-42 : ℤ) = 2 + -44 by norm_num, zpow_add₀ (by norm_num)]; norm_num
  have pos : 0 ≤ (2 : ℝ) ^ (-44 : ℤ) * (6.6743e-11 * |m| / dist3 p q ^ 3) := by positivity
  have hs : dist3 p q ^ 2 = (p.e - q.e) ^ 2 + (p.n - q.n) ^ 2 + (p.u - q.u) ^ 2 := by
    unfold dist3; rw [Real.sq_sqrt (by positivity)]
  have tr : (6.6743e-11 * m * (3 * (p.coord .e - q.coord .e) ^ 2 / dist3 p q ^ 5 - 1 / dist3 p q ^ 3) +
      6.6743e-11 * m * (3 * (p.coord .n - q.coord .n) ^ 2 / dist3 p q ^ 5 - 1 / dist3 p q ^ 3) +
      6.6743e-11 * m * (3 * (p.coord .u - q.coord .u) ^ 2 / dist3 p q ^ 5 - 1 / dist3 p q ^ 3) : ℝ) = 0 := by
    simp only [Pt.coord]
    field_simp
    rw [show (p.e - q.e) ^ 2 = dist3 p q ^ 2 - (p.n - q.n) ^ 2 - (p.u - q.u) ^ 2 by linarith]
    ring
  rw [e42]
  generalize (2 : ℝ) ^ (-44 : ℤ) = w at *
  rw [abs_le] at be bn bu ⊢
  constructor <;> linarith [be.1, be.2, bn.1, bn.2, bu.1, bu.2]

/-- **C98.** The computed diagonal components of the magnetic gradient tensor add up to zero up to the
errors of C58. -/
theorem C98_magnetic_divergence (hP : P.Ordered) (p : Pt) (h : p ∉ P.edges) (h' : p ∉ interior P.region)
    (hm : ModerateOffsets p P) (M : Pt) (hM : ∀ a : Axis, ModerateSize (M.coord a)) :
    ∃ bee bnn buu,
      Returns (onPrism (A := Binary64) prism.magnetic_ee p P M.e M.n M.u) bee ∧
      Returns (onPrism (A := Binary64) prism.magnetic_nn p P M.e M.n M.u) bnn ∧
      Returns (onPrism (A := Binary64) prism.magnetic_uu p P M.e M.n M.u) buu ∧
      |bee + bnn + buu| ≤ 2 ^ (-46 : ℤ) * (1.25663706212e-06 / 4 / π * (
        |M.e| * (totalSize .eee p P + totalSize .enn p P + totalSize .euu p P) +
        |M.n| * (totalSize .een p P + totalSize .nnn p P + totalSize .nuu p P) +
        |M.u| * (totalSize .eeu p P + totalSize .nnu p P + totalSize .uuu p P))) := by
  have hi : p ∉ P.inside := by
    unfold Box.region at h'
    rw [interior_prod_eq, interior_prod_eq, interior_Icc, interior_Icc, interior_Icc] at h'
    exact h'
  obtain ⟨ge, gn, gu, re, rn, ru, hz⟩ := C42_traceless hP p M h hi
  obtain ⟨ge', re', be, fe, de⟩ := C58_double .ee p P hP h h' hm M hM
  obtain ⟨gn', rn', bn, fn, dn⟩ := C58_double .nn p P hP h h' hm M hM
  obtain ⟨gu', ru', bu, fu, du⟩ := C58_double .uu p P hP h h' hm M hM
  rw [← returns_unique re re'] at de
  rw [← returns_unique rn rn'] at dn
  rw [← returns_unique ru ru'] at du
  refine ⟨be, bn, bu, fe, fn, fu, ?_⟩
  simp only [MComp.kernel] at de dn du
  generalize (2 : ℝ) ^ (-46 : ℤ) = w at *
  generalize (1.25663706212e-06 / 4 / π : ℝ) = k at *
  rw [abs_le] at de dn du ⊢
  constructor <;> linarith [de.1, de.2, dn.1, dn.2, du.1, du.2]

/-! ### The hypotheses can be met: a 200 m x 400 m x 100 m prism seen from 5 m above its level -/

example (c : GComp) : ∃ g, Returns (onPrism (A := Exact) (prismGravity c) (130, 75, 5) demoPrism (2670 : ℝ)) g ∧
    ReturnsWithin (onPrism (A := Binary64) (prismGravity c) (130, 75, 5) demoPrism (2670 : ℝ)) g
      (2 ^ (-34 : ℤ) * (6.6743e-11 * |2670| * 275 ^ (2 - c.letters))) :=
  C98_gravity c _ _ demo_ordered (edges_singular _ demo_edges) demo_offsets (by
    intro a
    cases a <;> simp only [Box.lo, Box.hi, Pt.coord, Pt.e, Pt.n, Pt.u, demoPrism] <;>
      constructor <;> norm_num [abs_of_neg, abs_of_pos])
    _ (moderate_of (by norm_num [abs_of_pos]) (by norm_num [abs_of_pos]))

example : ∃ tee tnn tuu,
      Returns (onPrism (A := Binary64) prism.gravity_ee (130, 75, 5) demoPrism (2670 : ℝ)) tee ∧
      Returns (onPrism (A := Binary64) prism.gravity_nn (130, 75, 5) demoPrism (2670 : ℝ)) tnn ∧
      Returns (onPrism (A := Binary64) prism.gravity_uu (130, 75, 5) demoPrism (2670 : ℝ)) tuu ∧
      |tee + tnn + tuu| ≤ 2 ^ (-39 : ℤ) * (6.6743e-11 * |2670|) := by
  obtain ⟨a, b, c, h1, h2, h3, -, h⟩ := C98_laplace_poisson (P := demoPrism)
    (by unfold Box.Proper demoPrism; norm_num) (130, 75, 5) demo_edges demo_offsets 2670
    (moderate_of (by norm_num [abs_of_pos]) (by norm_num [abs_of_pos]))
  refine ⟨a, b, c, h1, h2, h3, h fun hi => ?_⟩
  have := (interior_subset hi).1.2
  norm_num [demoPrism] at this

end Choclo
