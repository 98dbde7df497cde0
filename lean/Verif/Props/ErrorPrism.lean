import Verif.Lemmas.ErrorPrism4
import Verif.Props.ErrorBound
import Verif.Props.PrismIntegral
import Verif.Props.FieldTriples

/-! # C56, C57, C58: rounding errors of the prism functions -/

namespace Choclo

open Real MeasureTheory

variable {A : Arith} {u : ℝ}

/-! ## C56: the twenty kernels -/

/-- **C56.** In any arithmetic with unit roundoff `u` and the range of IEEE double precision, every
prism kernel, called with the rounded radius, returns for coordinates of moderate size a finite
number within `γ₂₅` times the sum of the magnitudes of its terms of the documented value. (The
radius must not vanish for the kernels of second and third order, which have no value there.) -/
theorem C56_kernel (h : A.Accurate u (2 ^ (-1022 : ℤ)) (2 ^ (1023 : ℤ)))
    (hl : A.LibmAccurate u (2 ^ (-1022 : ℤ)) (2 ^ (1023 : ℤ))) (c : PKComp) (x y z r : ℝ)
    (hr : r = √(x ^ 2 + y ^ 2 + z ^ 2)) (hr0 : c.lowOrder ∨ r ≠ 0)
    (hx : ModerateSize x) (hy : ModerateSize y) (hz : ModerateSize z) :
    ReturnsWithin
      (prismKernel (A := A) c x y z (Fl.sqrt ((x : Fl A) ^ 2 + (y : Fl A) ^ 2 + (z : Fl A) ^ 2)))
      (docKernel c x y z r) (gammaErr u 25 * kernelSize c x y z r) := by
  subst hr
  obtain ⟨v, e, a, -⟩ := h.kernel_err hl hx hy hz (h.mono (by norm_num) (h.exact x))
    (h.mono (by norm_num) (h.exact y)) (h.mono (by norm_num) (h.exact z)) c hr0
  exact withinOf h (by norm_num) ⟨v, e, a⟩

/-! ## C57: prism gravity -/

theorem corr_total (c : GComp) (p : Pt) (P : Box) :
    Arith.Accurate.Sv (Arith.Accurate.ks c.kernel) p P + |corr c p P| = totalSize c.kernel p P := by
  have : |4 * π| = 4 * π := abs_of_pos (by positivity)
  unfold totalSize
  rw [Arith.Accurate.Sv_ks]
  congr 1
  cases c <;> simp only [corr, GComp.kernel, abs_zero] <;> split_ifs <;> simp_all

/-- **C57.** In any arithmetic with unit roundoff `u` and the range of IEEE double precision, every
prism gravity function returns, for geometries and densities of moderate size and outside the
documented singular edges, a finite number that differs from the exact result by at most `γ₃₈` times
`G |ρ|` times the sum of the magnitudes of all the terms added up at the eight vertices. -/
theorem C57_gravity (h : A.Accurate u (2 ^ (-1022 : ℤ)) (2 ^ (1023 : ℤ)))
    (hl : A.LibmAccurate u (2 ^ (-1022 : ℤ)) (2 ^ (1023 : ℤ))) (c : GComp) (p : Pt) (P : Box)
    (hP : P.Ordered) (hp : p ∉ P.singular c) (hm : ModerateOffsets p P) (ρ : ℝ) (hρ : ModerateSize ρ) :
    ∃ g, Returns (onPrism (A := Exact) (prismGravity c) p P ρ) g ∧
      ReturnsWithin (onPrism (A := A) (prismGravity c) p P ρ) g
        (gammaErr u 38 * (6.6743e-11 * |ρ| * totalSize c.kernel p P)) := by
  refine ⟨_, Ex.gravity_returns hP hp ρ, ?_⟩
  obtain ⟨v, e, a⟩ := h.gravity_err hl hP hp hm hρ
  rw [abs_mul, abs_of_pos Gc_pos, corr_total] at a
  exact withinOf h (by norm_num) ⟨v, e, a⟩

/-! ## C58: prism magnetics -/

/-- **C58.** The same for the magnetic field and its gradients, off the edges and the interior: the
error is at most `γ₄₃` times `μ₀/4π` times the sum of the magnitudes of all the terms added up, each
multiplied by the magnetization component it belongs to. -/
theorem C58_magnetic (h : A.Accurate u (2 ^ (-1022 : ℤ)) (2 ^ (1023 : ℤ)))
    (hl : A.LibmAccurate u (2 ^ (-1022 : ℤ)) (2 ^ (1023 : ℤ))) (c : MComp) (p : Pt) (P : Box)
    (hP : P.Ordered) (hp : p ∉ P.edges) (hp' : p ∉ interior P.region) (hm : ModerateOffsets p P) (M : Pt)
    (hM : ∀ a : Axis, ModerateSize (M.coord a)) :
    ∃ g, Returns (onPrism (A := Exact) (prismMagnetic c) p P M.e M.n M.u) g ∧
      ReturnsWithin (onPrism (A := A) (prismMagnetic c) p P M.e M.n M.u) g
        (gammaErr u 43 * (1.25663706212e-06 / 4 / π *
          (|M.e| * totalSize (c.kernel .e) p P + |M.n| * totalSize (c.kernel .n) p P
            + |M.u| * totalSize (c.kernel .u) p P))) := by
  have hi : p ∉ P.inside := by
    unfold Box.region at hp'
    rw [interior_prod_eq, interior_prod_eq, interior_Icc, interior_Icc, interior_Icc] at hp'
    exact hp'
  refine ⟨_, Ex.magnetic_returns hP hp hi _ _ _, ?_⟩
  obtain ⟨v, e, a⟩ := h.magnetic_err hl (c := c) hP hp hi hm (hM .e) (hM .n) (hM .u)
  exact withinOf h (by norm_num) ⟨v, e, a⟩

/-- The three components returned by `magnetic_field` obey the bounds of the scalar functions. -/
theorem C58_field (h : A.Accurate u (2 ^ (-1022 : ℤ)) (2 ^ (1023 : ℤ)))
    (hl : A.LibmAccurate u (2 ^ (-1022 : ℤ)) (2 ^ (1023 : ℤ))) (p : Pt) (P : Box)
    (hP : P.Ordered) (hp : p ∉ P.edges) (hp' : p ∉ interior P.region) (hm : ModerateOffsets p P) (M : Pt)
    (hM : ∀ a : Axis, ModerateSize (M.coord a)) :
    ∃ be bn bu ge gn gu : ℝ,
      onPrism (A := A) prism.magnetic_field p P M.e M.n M.u = .ok ((be : Fl A), (bn : Fl A), (bu : Fl A)) ∧
      onPrism (A := Exact) prism.magnetic_field p P M.e M.n M.u
        = .ok ((ge : Fl Exact), (gn : Fl Exact), (gu : Fl Exact)) ∧
      ∀ c b g, (c, b, g) ∈ [(MComp.e, be, ge), (.n, bn, gn), (.u, bu, gu)] →
        |b - g| ≤ gammaErr u 43 * (1.25663706212e-06 / 4 / π *
          (|M.e| * totalSize (c.kernel .e) p P + |M.n| * totalSize (c.kernel .n) p P
            + |M.u| * totalSize (c.kernel .u) p P)) := by
  obtain ⟨ge, e1, be, f1, b1⟩ := C58_magnetic h hl .e p P hP hp hp' hm M hM
  obtain ⟨gn, e2, bn, f2, b2⟩ := C58_magnetic h hl .n p P hP hp hp' hm M hM
  obtain ⟨gu, e3, bu, f3, b3⟩ := C58_magnetic h hl .u p P hP hp hp' hm M hM
  refine ⟨be, bn, bu, ge, gn, gu, ?_, ?_, ?_⟩
  · unfold Returns onPrism at f1 f2 f3
    unfold onPrism
    simp only [prismMagnetic] at f1 f2 f3
    rw [C39_field_is_components, f1, f2, f3]
    rfl
  · unfold Returns onPrism at e1 e2 e3
    unfold onPrism
    simp only [prismMagnetic] at e1 e2 e3
    rw [C39_field_is_components, e1, e2, e3]
    rfl
  · intro c b g hc
    simp only [List.mem_cons, List.not_mem_nil, or_false, Prod.mk.injEq] at hc
    rcases hc with ⟨rfl, rfl, rfl⟩ | ⟨rfl, rfl, rfl⟩ | ⟨rfl, rfl, rfl⟩
    · exact b1
    · exact b2
    · exact b3

/-! ## IEEE double precision -/

theorem Binary64_libmAccurate :
    Binary64.LibmAccurate (2 ^ (-53 : ℤ)) (2 ^ (-1022 : ℤ)) (2 ^ (1023 : ℤ)) where
  pi := Binary64_piAccurate
  log x h1 h2 := by
    have hx : 0 < x := lt_of_lt_of_le (Mag.zp _) h1
    have hl2 : Real.log 2 ≤ 1 := by have := Real.log_le_sub_one_of_pos (show (0:ℝ) < 2 by norm_num); linarith
    have hl0 : 0 ≤ Real.log 2 := Real.log_nonneg (by norm_num)
    have b1 : Real.log x ≤ 1023 := by
      have := Real.log_le_log hx h2
      rw [Real.log_zpow] at this
      push_cast at this
      linarith
    have b2 : -1022 ≤ Real.log x := by
      have := Real.log_le_log (Mag.zp _) h1
      rw [Real.log_zpow] at this
      push_cast at this
      linarith
    have h10 : (1023 : ℝ) ≤ 2 ^ (10 : ℤ) := by norm_num
    have h3 : |Real.log x| ≤ 2 ^ (1023 : ℤ) :=
      (abs_le.2 ⟨by linarith, by linarith⟩ : |Real.log x| ≤ 2 ^ (10 : ℤ)).trans (Mag.zle (by norm_num))
    obtain ⟨y, e, hy⟩ := Binary64_accurate.rnd_abs _ h3
    refine ⟨y, e, hy.trans ?_⟩
    apply mul_le_mul_of_nonneg_left _ (Mag.zp _).le
    have h4 : (2 : ℝ) ^ (-1022 : ℤ) ≤ 2 ^ (0 : ℤ) := Mag.zle (by norm_num)
    rw [zpow_zero] at h4
    exact max_le (by linarith) (by linarith [abs_nonneg (Real.log x)])
  atan t h1 h2 := by
    have ht : Mag (-1021) 1023 t := .inr ⟨by
      rw [show (-1021 : ℤ) = -1022 + 1 by norm_num, zpow_add_one₀ (by norm_num)]; linarith, h2⟩
    have ht0 : t ≠ 0 := by
      rintro rfl
      rw [abs_zero] at h1
      have := Mag.zp (-1022)
      linarith
    have ha := Mag.arctan ht (by norm_num)
    rcases ha with h0 | ⟨h3, h4⟩
    · exact (ht0 (by simpa using h0)).elim
    · exact Binary64_accurate.rnd_rel _ ((Mag.zle (by norm_num)).trans h3) (h4.trans (Mag.zle (by norm_num)))
  atan_zero := by
    show B64.rnd (Real.arctan 0) = _
    rw [Real.arctan_zero]
    exact B64.rnd_zero

theorem within_double {k : ℕ} {e : ℤ} (hk : k ≤ 64) (hke : (k : ℝ) * 2 ^ (-52 : ℤ) ≤ 2 ^ e)
    {call : Py (Fl A)} {x B : ℝ} (hB : 0 ≤ B)
    (h : ReturnsWithin call x (gammaErr (2 ^ (-53 : ℤ)) k * B)) : ReturnsWithin call x (2 ^ e * B) := by
  obtain ⟨y, e, hy⟩ := h
  exact ⟨y, e, hy.trans (mul_le_mul_of_nonneg_right (gamma_double hk hke) hB)⟩

theorem kernelSize_nonneg (c : PKComp) (x y z r : ℝ) : 0 ≤ kernelSize c x y z r := by
  cases c <;> unfold kernelSize <;> positivity

theorem totalSize_nonneg (c : PKComp) (p : Pt) (P : Box) : 0 ≤ totalSize c p P := by
  have h : ∀ x y z r, 0 ≤ kernelSize c x y z r := kernelSize_nonneg c
  have hv : 0 ≤ vertexSum (kernelSize c) p P := by
    unfold vertexSum
    have := fun x y z => h (x - p.e) (y - p.n) (z - p.u) (√((x - p.e) ^ 2 + (y - p.n) ^ 2 + (z - p.u) ^ 2))
    have h1 := this P.east P.north P.top
    have h2 := this P.east P.north P.bottom
    have h3 := this P.east P.south P.top
    have h4 := this P.east P.south P.bottom
    have h5 := this P.west P.north P.top
    have h6 := this P.west P.north P.bottom
    have h7 := this P.west P.south P.top
    have h8 := this P.west P.south P.bottom
    simp only
    linarith
  have hpi := Real.pi_pos
  unfold totalSize
  split_ifs <;> linarith

/-- **C56, in IEEE double precision.** -/
theorem C56_double (c : PKComp) (x y z r : ℝ) (hr : r = √(x ^ 2 + y ^ 2 + z ^ 2))
    (hr0 : c.lowOrder ∨ r ≠ 0) (hx : ModerateSize x) (hy : ModerateSize y) (hz : ModerateSize z) :
    ReturnsWithin
      (prismKernel (A := Binary64) c x y z
        (Fl.sqrt ((x : Fl Binary64) ^ 2 + (y : Fl Binary64) ^ 2 + (z : Fl Binary64) ^ 2)))
      (docKernel c x y z r) (2 ^ (-47 : ℤ) * kernelSize c x y z r) :=
  within_double (by norm_num) (by norm_num) (kernelSize_nonneg _ _ _ _ _)
    (C56_kernel Binary64_accurate Binary64_libmAccurate c x y z r hr hr0 hx hy hz)

/-- **C57, in IEEE double precision.** -/
theorem C57_double (c : GComp) (p : Pt) (P : Box) (hP : P.Ordered) (hp : p ∉ P.singular c)
    (hm : ModerateOffsets p P) (ρ : ℝ) (hρ : ModerateSize ρ) :
    ∃ g, Returns (onPrism (A := Exact) (prismGravity c) p P ρ) g ∧
      ReturnsWithin (onPrism (A := Binary64) (prismGravity c) p P ρ) g
        (2 ^ (-46 : ℤ) * (6.6743e-11 * |ρ| * totalSize c.kernel p P)) := by
  obtain ⟨g, e, hg⟩ := C57_gravity Binary64_accurate Binary64_libmAccurate c p P hP hp hm ρ hρ
  have := totalSize_nonneg c.kernel p P
  exact ⟨g, e, within_double (by norm_num) (by norm_num) (by positivity) hg⟩

/-- **C57, against Newton's integrals.** In IEEE double precision potential and acceleration of a
prism are, at every observation point, within the rounding error bound of Newton's volume integrals. -/
theorem C57_newton_double (p : Pt) (P : Box) (hP : P.Ordered) (hm : ModerateOffsets p P) (ρ : ℝ)
    (hρ : ModerateSize ρ) :
    ReturnsWithin (onPrism (A := Binary64) prism.gravity_pot p P ρ)
      (∫ q in P.region, 6.6743e-11 * ρ / dist3 p q)
      (2 ^ (-46 : ℤ) * (6.6743e-11 * |ρ| * totalSize .pot p P)) ∧
    ∀ a : Axis, ReturnsWithin (onPrism (A := Binary64) (prismGravity a.acc) p P ρ)
      (∫ q in P.region, 6.6743e-11 * ρ * (q.coord a - p.coord a) / dist3 p q ^ 3)
      (2 ^ (-46 : ℤ) * (6.6743e-11 * |ρ| * totalSize a.acc.kernel p P)) := by
  have key : ∀ {c : GComp} {x : ℝ}, p ∉ P.singular c →
      Returns (onPrism (A := Exact) (prismGravity c) p P ρ) x →
      ReturnsWithin (onPrism (A := Binary64) (prismGravity c) p P ρ) x
        (2 ^ (-46 : ℤ) * (6.6743e-11 * |ρ| * totalSize c.kernel p P)) := by
    intro c x hp hx
    obtain ⟨g, e, hg⟩ := C57_double c p P hP hp hm ρ hρ
    have : x = g := by
      unfold Returns at hx e
      rw [hx] at e
      exact Raw.fin.inj (Except.ok.inj e)
    rwa [this]
  refine ⟨key (c := .pot) (by simp [Box.singular]) (C21_newton_integral hP p ρ).2, fun a => ?_⟩
  exact key (by cases a <;> simp [Box.singular, Axis.acc]) (C22_newton_integral hP a p ρ).2

/-- **C58, in IEEE double precision.** -/
theorem C58_double (c : MComp) (p : Pt) (P : Box) (hP : P.Ordered) (hp : p ∉ P.edges)
    (hp' : p ∉ interior P.region) (hm : ModerateOffsets p P) (M : Pt)
    (hM : ∀ a : Axis, ModerateSize (M.coord a)) :
    ∃ g, Returns (onPrism (A := Exact) (prismMagnetic c) p P M.e M.n M.u) g ∧
      ReturnsWithin (onPrism (A := Binary64) (prismMagnetic c) p P M.e M.n M.u) g
        (2 ^ (-46 : ℤ) * (1.25663706212e-06 / 4 / π *
          (|M.e| * totalSize (c.kernel .e) p P + |M.n| * totalSize (c.kernel .n) p P
            + |M.u| * totalSize (c.kernel .u) p P))) := by
  obtain ⟨g, e, hg⟩ := C58_magnetic Binary64_accurate Binary64_libmAccurate c p P hP hp hp' hm M hM
  have h1 := totalSize_nonneg (c.kernel .e) p P
  have h2 := totalSize_nonneg (c.kernel .n) p P
  have h3 := totalSize_nonneg (c.kernel .u) p P
  exact ⟨g, e, within_double (by norm_num) (by norm_num) (by positivity) hg⟩

/-! ### The hypotheses can be met -/

/-- a 200 m x 400 m x 100 m prism whose top is at sea level, seen from (130, 75, 5) -/
def demoPrism : Box := ⟨-100, 100, -200, 200, -100, 0⟩

theorem demo_ordered : demoPrism.Ordered := by
  unfold Box.Ordered demoPrism; norm_num

theorem demo_offsets : ModerateOffsets (130, 75, 5) demoPrism := by
  refine ⟨?_, ?_, ?_, ?_, ?_, ?_⟩ <;> simp only [Pt.e, Pt.n, Pt.u, demoPrism] <;> apply moderate_of <;>
    norm_num [abs_of_pos, abs_of_neg]

theorem demo_edges : ((130, 75, 5) : Pt) ∉ demoPrism.edges := by
  simp only [Box.edges, Box.edgesE, Box.edgesN, Box.edgesU, demoPrism, Set.mem_union, Set.mem_ofPred_eq,
    Pt.e, Pt.n, Pt.u, Set.mem_Icc]
  norm_num

example (c : GComp) : ∃ g, Returns (onPrism (A := Exact) (prismGravity c) (130, 75, 5) demoPrism (2670 : ℝ)) g ∧
    ReturnsWithin (onPrism (A := Binary64) (prismGravity c) (130, 75, 5) demoPrism (2670 : ℝ)) g
      (2 ^ (-46 : ℤ) * (6.6743e-11 * |2670| * totalSize c.kernel (130, 75, 5) demoPrism)) :=
  C57_double c _ _ demo_ordered (by
    have := demo_edges
    simp only [Box.edges, Set.mem_union, not_or] at this
    cases c <;> simp only [Box.singular, Set.mem_union, Set.mem_empty_iff_false] <;> tauto)
    demo_offsets _ (moderate_of (by norm_num [abs_of_pos]) (by norm_num [abs_of_pos]))

/-- the point (100, 0, -50) lies on the east face -/
example : ∃ g, Returns (onPrism (A := Exact) (prismMagnetic .e) (100, 0, -50) demoPrism ((1 : ℝ) : Fl Exact)
      ((0 : ℝ) : Fl Exact) ((2 : ℝ) : Fl Exact)) g ∧
    ∃ δ, ReturnsWithin (onPrism (A := Binary64) (prismMagnetic .e) (100, 0, -50) demoPrism
      ((1 : ℝ) : Fl Binary64) ((0 : ℝ) : Fl Binary64) ((2 : ℝ) : Fl Binary64)) g δ := by
  obtain ⟨g, e, h⟩ := C58_double .e (100, 0, -50) demoPrism demo_ordered (by
      simp only [Box.edges, Box.edgesE, Box.edgesN, Box.edgesU, demoPrism, Set.mem_union, Set.mem_ofPred_eq,
        Pt.e, Pt.n, Pt.u, Set.mem_Icc]
      norm_num) (by
      unfold Box.region
      rw [interior_prod_eq, interior_prod_eq, interior_Icc, interior_Icc, interior_Icc]
      simp only [demoPrism, Set.mem_prod, Set.mem_Ioo]
      norm_num)
    (by
      refine ⟨?_, ?_, ?_, ?_, ?_, ?_⟩ <;> simp only [Pt.e, Pt.n, Pt.u, demoPrism] <;>
        first
          | (left; norm_num; done)
          | (apply moderate_of <;> norm_num [abs_of_pos, abs_of_neg]))
    (1, 0, 2) (by
      intro a
      cases a <;> simp only [Pt.coord, Pt.e, Pt.n, Pt.u] <;>
        first
          | exact .inl rfl
          | (apply moderate_of <;> norm_num [abs_of_pos]))
  exact ⟨g, e, _, h⟩

/-- `kernel_nu` a micrometre beside the axis, at easting `-10`: `ln (x + r)` would cancel, yet the
result is accurate to 2⁻⁴⁷ times `1 + |ln|`. -/
example : ReturnsWithin (prismKernel (A := Binary64) .nu ((-10 : ℝ) : Fl Binary64) ((1e-6 : ℝ) : Fl Binary64)
      ((0 : ℝ) : Fl Binary64)
      (Fl.sqrt (((-10 : ℝ) : Fl Binary64) ^ 2 + ((1e-6 : ℝ) : Fl Binary64) ^ 2
        + ((0 : ℝ) : Fl Binary64) ^ 2)))
    (docKernel .nu (-10) 1e-6 0 (√((-10) ^ 2 + 1e-6 ^ 2 + 0 ^ 2)))
    (2 ^ (-47 : ℤ) * (1 + |docLn (-10) (√((-10) ^ 2 + 1e-6 ^ 2 + 0 ^ 2))|)) :=
  C56_double .nu _ _ _ _ rfl (.inr (by positivity))
    (.inr ⟨by norm_num [abs_of_pos], by norm_num [abs_of_pos]⟩)
    (.inr ⟨by norm_num [abs_of_pos], by norm_num [abs_of_pos]⟩) (.inl rfl)

end Choclo
