import Verif.Lemmas.MixedPrism4
import Verif.Lemmas.MixedField
import Verif.Props.ErrorPrism

/-!
# Prism functions called with float32 arguments (C110, C111)

Whatever mixture of float32 and float64 numbers is passed, the prism kernels, gravity and magnetic functions return a
float64 that is within `2⁻¹⁶` (`2⁻¹⁷` for the kernels) of the exact value, relative to the sum of the magnitudes of the
terms added up, if the offsets between the point and the boundaries are zero or between a micrometre and 16777 km.
`C111`: the vector field functions do what the three component functions do, whatever the arguments are.
-/

namespace Choclo

open Real

variable {S D : Arith} {u : ℝ}

/-! ## C110: accuracy, in any pair of arithmetics -/

/-- **C110.** The twenty kernels, called with the radius computed from the same arguments. -/
theorem C110_kernel (h : BothAccurate S D u (2 ^ (-126 : ℤ)) (2 ^ (127 : ℤ)) (2 ^ (-1022 : ℤ)) (2 ^ (1023 : ℤ)))
    (hS : S.LibmAccurate u (2 ^ (-126 : ℤ)) (2 ^ (127 : ℤ))) (hD : D.LibmAccurate u (2 ^ (-1022 : ℤ)) (2 ^ (1023 : ℤ)))
    (c : PKComp) {xv yv zv : MFl S D} {x y z : ℝ} (hx : xv.IsReal x) (hy : yv.IsReal y) (hz : zv.IsReal z)
    (hr0 : c.lowOrder ∨ √(x ^ 2 + y ^ 2 + z ^ 2) ≠ 0) (sx : ShortLength x) (sy : ShortLength y) (sz : ShortLength z) :
    MReturnsWithin (Mixed.prismKernel c xv yv zv (MFl.sqrt (xv ^ 2 + yv ^ 2 + zv ^ 2)))
      (docKernel c x y z (√(x ^ 2 + y ^ 2 + z ^ 2))) (gammaErr u 25 * kernelSize c x y z (√(x ^ 2 + y ^ 2 + z ^ 2))) := by
  obtain ⟨v, e, -, a, -⟩ := h.kernel_err hS hD sx sy sz (h.mono (by norm_num) (h.exact hx))
    (h.mono (by norm_num) (h.exact hy)) (h.mono (by norm_num) (h.exact hz)) c hr0
  exact mwithinOf h (by norm_num) ⟨v, e, a⟩

/-- **C110.** Gravity: `g` is the exact value. -/
theorem C110_gravity (h : BothAccurate S D u (2 ^ (-126 : ℤ)) (2 ^ (127 : ℤ)) (2 ^ (-1022 : ℤ)) (2 ^ (1023 : ℤ)))
    (hS : S.LibmAccurate u (2 ^ (-126 : ℤ)) (2 ^ (127 : ℤ))) (hD : D.LibmAccurate u (2 ^ (-1022 : ℤ)) (2 ^ (1023 : ℤ)))
    (c : GComp) {e n up w E s N b t vρ : MFl S D} {p : Pt} {P : Box} {ρ : ℝ} (hA : ArePrism e n up w E s N b t p P)
    (hvρ : vρ.IsReal ρ) (hP : P.Ordered) (hp : p ∉ P.singular c) (hm : ShortOffsets p P) (hρ : ModerateSize ρ) :
    ∃ g, Returns (onPrism (A := Exact) (prismGravity c) p P ρ) g ∧
      MReturnsWithin (Mixed.prismGravity c e n up w E s N b t vρ) g
        (gammaErr u 38 * (6.6743e-11 * |ρ| * totalSize c.kernel p P)) := by
  refine ⟨_, Ex.gravity_returns hP hp ρ, ?_⟩
  obtain ⟨v, e, a⟩ := h.gravity_err hS hD hA hm hP hp hvρ hρ
  rw [abs_mul, abs_of_pos Gc_pos, corr_total] at a
  exact mwithinOf h (by norm_num) ⟨_, e, a⟩

/-- **C110.** The magnetic field and its gradients: `g` is the exact value. -/
theorem C110_magnetic (h : BothAccurate S D u (2 ^ (-126 : ℤ)) (2 ^ (127 : ℤ)) (2 ^ (-1022 : ℤ)) (2 ^ (1023 : ℤ)))
    (hS : S.LibmAccurate u (2 ^ (-126 : ℤ)) (2 ^ (127 : ℤ))) (hD : D.LibmAccurate u (2 ^ (-1022 : ℤ)) (2 ^ (1023 : ℤ)))
    (c : MComp) {e n up w E s N b t vMe vMn vMu : MFl S D} {p : Pt} {P : Box} {M : Pt}
    (hA : ArePrism e n up w E s N b t p P) (rMe : vMe.IsReal M.e) (rMn : vMn.IsReal M.n) (rMu : vMu.IsReal M.u)
    (hP : P.Ordered) (hp : p ∉ P.edges) (hp' : p ∉ interior P.region) (hm : ShortOffsets p P)
    (hM : ∀ a : Axis, ModerateSize (M.coord a)) :
    ∃ g, Returns (onPrism (A := Exact) (prismMagnetic c) p P M.e M.n M.u) g ∧
      MReturnsWithin (Mixed.prismMagnetic c e n up w E s N b t vMe vMn vMu) g
        (gammaErr u 43 * (1.25663706212e-06 / 4 / π *
          (|M.e| * totalSize (c.kernel .e) p P + |M.n| * totalSize (c.kernel .n) p P
            + |M.u| * totalSize (c.kernel .u) p P))) := by
  have hi : p ∉ P.inside := by
    unfold Box.region at hp'
    rw [interior_prod_eq, interior_prod_eq, interior_Icc, interior_Icc, interior_Icc] at hp'
    exact hp'
  refine ⟨_, Ex.magnetic_returns hP hp hi _ _ _, ?_⟩
  obtain ⟨v, e, a⟩ := h.magnetic_err hS hD hA hm (c := c) hP hp hi rMe rMn rMu (hM .e) (hM .n) (hM .u)
  exact mwithinOf h (by norm_num) ⟨_, e, a⟩

/-! ## Single and double precision as Numba uses them -/

theorem Binary32_piAccurate : Binary32.PiAccurate (2 ^ (-24 : ℤ)) := by
  have := B32.abs_round_sub_le (x := Real.pi) (by
    rw [abs_of_pos Real.pi_pos]
    exact le_trans (by simpa using B32.two_zpow_le (by norm_num : (-126 : ℤ) ≤ 0))
      (by have := Real.pi_gt_three; linarith : (1 : ℝ) ≤ Real.pi))
  rwa [abs_of_pos Real.pi_pos] at this

theorem Binary32_libmAccurate :
    Binary32.LibmAccurate (2 ^ (-24 : ℤ)) (2 ^ (-126 : ℤ)) (2 ^ (127 : ℤ)) where
  pi := Binary32_piAccurate
  log x h1 h2 := by
    have hx : 0 < x := lt_of_lt_of_le (Mag.zp _) h1
    have hl2 : Real.log 2 ≤ 1 := by have := Real.log_le_sub_one_of_pos (show (0:ℝ) < 2 by norm_num); linarith
    have hl0 : 0 ≤ Real.log 2 := Real.log_nonneg (by norm_num)
    have b1 : Real.log x ≤ 127 := by
      have := Real.log_le_log hx h2
      rw [Real.log_zpow] at this
      push_cast at this
      linarith
    have b2 : -126 ≤ Real.log x := by
      have := Real.log_le_log (Mag.zp _) h1
      rw [Real.log_zpow] at this
      push_cast at this
      linarith
    have h10 : (127 : ℝ) ≤ 2 ^ (10 : ℤ) := by norm_num
    have h3 : |Real.log x| ≤ 2 ^ (127 : ℤ) :=
      (abs_le.2 ⟨by linarith, by linarith⟩ : |Real.log x| ≤ 2 ^ (10 : ℤ)).trans (Mag.zle (by norm_num))
    obtain ⟨y, e, hy⟩ := Binary32_accurate.rnd_abs _ h3
    refine ⟨y, e, hy.trans ?_⟩
    apply mul_le_mul_of_nonneg_left _ (Mag.zp _).le
    have h4 : (2 : ℝ) ^ (-126 : ℤ) ≤ 2 ^ (0 : ℤ) := Mag.zle (by norm_num)
    rw [zpow_zero] at h4
    exact max_le (by linarith) (by linarith [abs_nonneg (Real.log x)])
  atan t h1 h2 := by
    have ht : Mag (-125) 127 t := .inr ⟨by
      rw [show (-125 : ℤ) = -126 + 1 by norm_num, zpow_add_one₀ (by norm_num)]; linarith, h2⟩
    have ht0 : t ≠ 0 := by
      rintro rfl
      rw [abs_zero] at h1
      have := Mag.zp (-126)
      linarith
    have ha := Mag.arctan ht (by norm_num)
    rcases ha with h0 | ⟨h3, h4⟩
    · exact (ht0 (by simpa using h0)).elim
    · exact Binary32_accurate.rnd_rel _ ((Mag.zle (by norm_num)).trans h3) (h4.trans (Mag.zle (by norm_num)))
  atan_zero := by
    show B32.rnd (Real.arctan 0) = _
    rw [Real.arctan_zero]
    exact B32.rnd_zero

theorem Arith.LibmAccurate.larger {A : Arith} {u u' lo hi : ℝ} (h : A.LibmAccurate u lo hi) (hu : u ≤ u') :
    A.LibmAccurate u' lo hi where
  pi := h.pi.trans (mul_le_mul_of_nonneg_right hu Real.pi_pos.le)
  log x h1 h2 := by
    obtain ⟨y, e, hy⟩ := h.log x h1 h2
    exact ⟨y, e, hy.trans (mul_le_mul_of_nonneg_right hu (by positivity))⟩
  atan t h1 h2 := by
    obtain ⟨δ, hδ, e⟩ := h.atan t h1 h2
    exact ⟨δ, hδ.trans hu, e⟩
  atan_zero := h.atan_zero

theorem Numba32_libm : Numba32.LibmAccurate (2 ^ (-23 : ℤ)) (2 ^ (-126 : ℤ)) (2 ^ (127 : ℤ)) := by
  have h := Binary32_libmAccurate.larger (Mag.zle (by norm_num : (-24 : ℤ) ≤ -23))
  exact ⟨h.pi, h.log, h.atan, h.atan_zero⟩

theorem Numba64_libm : Numba64.LibmAccurate (2 ^ (-23 : ℤ)) (2 ^ (-1022 : ℤ)) (2 ^ (1023 : ℤ)) :=
  C90_laws.2.2.2.2.2.2.2.larger (Mag.zle (by norm_num))

theorem within_single {k : ℕ} {e : ℤ} (hk : k ≤ 64) (hke : (k : ℝ) * 2 ^ (-22 : ℤ) ≤ 2 ^ e)
    {call : Py (MFl S D)} {x B : ℝ} (hB : 0 ≤ B)
    (h : MReturnsWithin call x (gammaErr (2 ^ (-23 : ℤ)) k * B)) : MReturnsWithin call x (2 ^ e * B) := by
  obtain ⟨v, y, e1, e2, hy⟩ := h
  exact ⟨v, y, e1, e2, hy.trans (mul_le_mul_of_nonneg_right (gamma_single hk hke) hB)⟩

/-- **C110, for Numba.** The twenty kernels. -/
theorem C110_kernel_single (c : PKComp) {xv yv zv : MFl Numba32 Numba64} {x y z : ℝ} (hx : xv.IsReal x) (hy : yv.IsReal y)
    (hz : zv.IsReal z) (hr0 : c.lowOrder ∨ √(x ^ 2 + y ^ 2 + z ^ 2) ≠ 0) (sx : ShortLength x) (sy : ShortLength y)
    (sz : ShortLength z) :
    MReturnsWithin (Mixed.prismKernel c xv yv zv (MFl.sqrt (xv ^ 2 + yv ^ 2 + zv ^ 2)))
      (docKernel c x y z (√(x ^ 2 + y ^ 2 + z ^ 2)))
      (2 ^ (-17 : ℤ) * kernelSize c x y z (√(x ^ 2 + y ^ 2 + z ^ 2))) :=
  within_single (by norm_num) (by norm_num) (kernelSize_nonneg _ _ _ _ _)
    (C110_kernel numba_both Numba32_libm Numba64_libm c hx hy hz hr0 sx sy sz)

/-- **C110, for Numba.** Gravity. -/
theorem C110_gravity_single (c : GComp) {e n up w E s N b t vρ : MFl Numba32 Numba64} {p : Pt} {P : Box} {ρ : ℝ}
    (hA : ArePrism e n up w E s N b t p P) (hvρ : vρ.IsReal ρ) (hP : P.Ordered) (hp : p ∉ P.singular c)
    (hm : ShortOffsets p P) (hρ : ModerateSize ρ) :
    ∃ g, Returns (onPrism (A := Exact) (prismGravity c) p P ρ) g ∧
      MReturnsWithin (Mixed.prismGravity c e n up w E s N b t vρ) g
        (2 ^ (-16 : ℤ) * (6.6743e-11 * |ρ| * totalSize c.kernel p P)) := by
  obtain ⟨g, e, hg⟩ := C110_gravity numba_both Numba32_libm Numba64_libm c hA hvρ hP hp hm hρ
  have := totalSize_nonneg c.kernel p P
  exact ⟨g, e, within_single (by norm_num) (by norm_num) (by positivity) hg⟩

/-- **C110, against Newton's integrals.** Potential and acceleration, at every observation point. -/
theorem C110_newton_single {e n up w E s N b t vρ : MFl Numba32 Numba64} {p : Pt} {P : Box} {ρ : ℝ}
    (hA : ArePrism e n up w E s N b t p P) (hvρ : vρ.IsReal ρ) (hP : P.Ordered)
    (hm : ShortOffsets p P) (hρ : ModerateSize ρ) :
    MReturnsWithin (Mixed.prism.gravity_pot e n up w E s N b t vρ)
      (∫ q in P.region, 6.6743e-11 * ρ / dist3 p q)
      (2 ^ (-16 : ℤ) * (6.6743e-11 * |ρ| * totalSize .pot p P)) ∧
    ∀ a : Axis, MReturnsWithin (Mixed.prismGravity a.acc e n up w E s N b t vρ)
      (∫ q in P.region, 6.6743e-11 * ρ * (q.coord a - p.coord a) / dist3 p q ^ 3)
      (2 ^ (-16 : ℤ) * (6.6743e-11 * |ρ| * totalSize a.acc.kernel p P)) := by
  have key : ∀ {c : GComp} {x : ℝ}, p ∉ P.singular c →
      Returns (onPrism (A := Exact) (prismGravity c) p P ρ) x →
      MReturnsWithin (Mixed.prismGravity c e n up w E s N b t vρ) x
        (2 ^ (-16 : ℤ) * (6.6743e-11 * |ρ| * totalSize c.kernel p P)) := by
    intro c x hp hx
    obtain ⟨g, e, hg⟩ := C110_gravity_single c hA hvρ hP hp hm hρ
    have : x = g := by
      unfold Returns at hx e
      rw [hx] at e
      exact Raw.fin.inj (Except.ok.inj e)
    rwa [this]
  refine ⟨key (c := .pot) (by simp [Box.singular]) (C21_newton_integral hP p ρ).2, fun a => ?_⟩
  exact key (by cases a <;> simp [Box.singular, Axis.acc]) (C22_newton_integral hP a p ρ).2

/-- **C110, for Numba.** The magnetic field and its gradients. -/
theorem C110_magnetic_single (c : MComp) {e n up w E s N b t vMe vMn vMu : MFl Numba32 Numba64} {p : Pt} {P : Box} {M : Pt}
    (hA : ArePrism e n up w E s N b t p P) (rMe : vMe.IsReal M.e) (rMn : vMn.IsReal M.n) (rMu : vMu.IsReal M.u)
    (hP : P.Ordered) (hp : p ∉ P.edges) (hp' : p ∉ interior P.region) (hm : ShortOffsets p P)
    (hM : ∀ a : Axis, ModerateSize (M.coord a)) :
    ∃ g, Returns (onPrism (A := Exact) (prismMagnetic c) p P M.e M.n M.u) g ∧
      MReturnsWithin (Mixed.prismMagnetic c e n up w E s N b t vMe vMn vMu) g
        (2 ^ (-16 : ℤ) * (1.25663706212e-06 / 4 / π *
          (|M.e| * totalSize (c.kernel .e) p P + |M.n| * totalSize (c.kernel .n) p P
            + |M.u| * totalSize (c.kernel .u) p P))) := by
  obtain ⟨g, e, hg⟩ := C110_magnetic numba_both Numba32_libm Numba64_libm c hA rMe rMn rMu hP hp hp' hm hM
  have h1 := totalSize_nonneg (c.kernel .e) p P
  have h2 := totalSize_nonneg (c.kernel .n) p P
  have h3 := totalSize_nonneg (c.kernel .u) p P
  exact ⟨g, e, within_single (by norm_num) (by norm_num) (by positivity) hg⟩

/-! ## C111: the field is the three components, whatever the arguments -/

/-- **C111.** Dipoles. -/
theorem C111_dipole (e n u e' n' u' me mn mu : MFl S D) :
    Mixed.dipole.magnetic_field e n u e' n' u' me mn mu = (do
      let b_e ← Mixed.dipole.magnetic_e e n u e' n' u' me mn mu
      let b_n ← Mixed.dipole.magnetic_n e n u e' n' u' me mn mu
      let b_u ← Mixed.dipole.magnetic_u e n u e' n' u' me mn mu
      return (b_e, b_n, b_u)) := by
  apply Py.ext
  rintro ⟨v1, v2, v3⟩
  unfold Mixed.dipole.magnetic_field Mixed.dipole.magnetic_e Mixed.dipole.magnetic_n Mixed.dipole.magnetic_u
  simp only [Py.bind_ok, Py.pure_ok, Prod.mk.injEq]
  constructor
  · rintro ⟨c1, h1, c, h2, a1, ha1, a2, ha2, a3, ha3, a4, ha4, a5, ha5, a6, ha6, rfl, rfl, rfl⟩
    exact ⟨_, ⟨_, ha1, _, ha2, _, h1, _, h2, rfl⟩, _, ⟨_, ha3, _, ha4, _, h1, _, h2, rfl⟩,
      _, ⟨_, ha5, _, ha6, _, h1, _, h2, rfl⟩, rfl, rfl, rfl⟩
  · rintro ⟨_, ⟨_, ha1, _, ha2, _, h1, _, h2, rfl⟩, _, ⟨_, ha3, _, ha4, _, h1', _, h2', rfl⟩,
      _, ⟨_, ha5, _, ha6, _, h1'', _, h2'', rfl⟩, rfl, rfl, rfl⟩
    rw [h1] at h1' h1''
    cases h1'; cases h1''
    rw [h2] at h2' h2''
    cases h2'; cases h2''
    exact ⟨_, h1, _, h2, _, ha1, _, ha2, _, ha3, _, ha4, _, ha5, _, ha6, rfl, rfl, rfl⟩

/-- **C111.** Prisms. -/
theorem C111_prism (e n u w E s N b t me mn mu : MFl S D) :
    Mixed.prism.magnetic_field e n u w E s N b t me mn mu = (do
      let b_e ← Mixed.prism.magnetic_e e n u w E s N b t me mn mu
      let b_n ← Mixed.prism.magnetic_n e n u w E s N b t me mn mu
      let b_u ← Mixed.prism.magnetic_u e n u w E s N b t me mn mu
      return (b_e, b_n, b_u)) := by
  rw [Mixed.prism.magnetic_field_unroll, Mixed.prism.fieldLoop_components]
  unfold Mixed.prism.magnetic_e Mixed.prism.magnetic_n Mixed.prism.magnetic_u Mixed.prism.fieldTail
  by_cases hs : (Mixed.prism.is_point_on_edge e n u w E s N b t
      || Mixed.prism.is_interior_point e n u w E s N b t) = true
  · simp only [hs, if_true]
    rfl
  simp only [hs, if_false, Bool.false_eq_true]
  apply Py.ext
  rintro ⟨v1, v2, v3⟩
  by_cases h1 : Mixed.prism.is_point_on_east_face e n u w E s N b t = true <;>
  by_cases h2 : Mixed.prism.is_point_on_north_face e n u w E s N b t = true <;>
  by_cases h3 : Mixed.prism.is_point_on_top_face e n u w E s N b t = true <;>
  · simp only [h1, h2, h3, if_true, if_false, Bool.false_eq_true, Py.bind_ok, Py.pure_ok,
      Prod.mk.injEq, bind_assoc, pure_bind]
    constructor
    · rintro ⟨a, ha, a', ha', a'', ha'', c1, hc1, c2, hc2, rfl, rfl, rfl⟩
      exact ⟨a, ha, _, hc1, _, hc2, a', ha', _, hc1, _, hc2, a'', ha'', _, hc1, _, hc2,
        MFl.mul_comm' _ _, MFl.mul_comm' _ _, MFl.mul_comm' _ _⟩
    · rintro ⟨a, ha, c1, hc1, c2, hc2, a', ha', c1', hc1', c2', hc2',
        a'', ha'', c1'', hc1'', c2'', hc2'', rfl, rfl, rfl⟩
      rw [hc1] at hc1' hc1''
      cases hc1'; cases hc1''
      rw [hc2] at hc2' hc2''
      cases hc2'; cases hc2''
      exact ⟨a, ha, a', ha', a'', ha'', c1, hc1, c2, hc2, MFl.mul_comm' _ _, MFl.mul_comm' _ _,
        MFl.mul_comm' _ _⟩

/-- The three components returned by `magnetic_field` obey the bounds of the scalar functions. -/
theorem C110_field_single {e n up w E s N b t vMe vMn vMu : MFl Numba32 Numba64} {p : Pt} {P : Box} {M : Pt}
    (hA : ArePrism e n up w E s N b t p P) (rMe : vMe.IsReal M.e) (rMn : vMn.IsReal M.n) (rMu : vMu.IsReal M.u)
    (hP : P.Ordered) (hp : p ∉ P.edges) (hp' : p ∉ interior P.region) (hm : ShortOffsets p P)
    (hM : ∀ a : Axis, ModerateSize (M.coord a)) :
    ∃ be bn bu : MFl Numba32 Numba64, ∃ ge gn gu : ℝ,
      Mixed.prism.magnetic_field e n up w E s N b t vMe vMn vMu = .ok (be, bn, bu) ∧
      onPrism (A := Exact) prism.magnetic_field p P M.e M.n M.u
        = .ok ((ge : Fl Exact), (gn : Fl Exact), (gu : Fl Exact)) ∧
      ∀ c b g, (c, b, g) ∈ [(MComp.e, be, ge), (.n, bn, gn), (.u, bu, gu)] → ∃ y : ℝ, b.IsReal y ∧
        |y - g| ≤ 2 ^ (-16 : ℤ) * (1.25663706212e-06 / 4 / π *
          (|M.e| * totalSize (c.kernel .e) p P + |M.n| * totalSize (c.kernel .n) p P
            + |M.u| * totalSize (c.kernel .u) p P)) := by
  obtain ⟨ge, e1, be, xe, f1, r1, b1⟩ := C110_magnetic_single .e hA rMe rMn rMu hP hp hp' hm hM
  obtain ⟨gn, e2, bn, xn, f2, r2, b2⟩ := C110_magnetic_single .n hA rMe rMn rMu hP hp hp' hm hM
  obtain ⟨gu, e3, bu, xu, f3, r3, b3⟩ := C110_magnetic_single .u hA rMe rMn rMu hP hp hp' hm hM
  refine ⟨be, bn, bu, ge, gn, gu, ?_, ?_, ?_⟩
  · simp only [Mixed.prismMagnetic] at f1 f2 f3
    rw [C111_prism, f1, f2, f3]
    rfl
  · unfold Returns onPrism at e1 e2 e3
    unfold onPrism
    simp only [prismMagnetic] at e1 e2 e3
    rw [C39_field_is_components, e1, e2, e3]
    rfl
  · intro c b g hc
    simp only [List.mem_cons, List.not_mem_nil, or_false, Prod.mk.injEq] at hc
    rcases hc with ⟨rfl, rfl, rfl⟩ | ⟨rfl, rfl, rfl⟩ | ⟨rfl, rfl, rfl⟩
    · exact ⟨_, r1, b1⟩
    · exact ⟨_, r2, b2⟩
    · exact ⟨_, r3, b3⟩

/-! ### The hypotheses can be met: every coordinate and the density are float32 numbers -/

theorem not_wide32 (x : Fl S) : ¬(MFl.f32 x : MFl S D).Wide := by
  rintro ⟨y, h⟩
  cases h

/-- the point (130, 75, 5) and the prism `demoPrism`, in single precision -/
theorem demo_single : ArePrism (S := S) (D := D) (.f32 (Fl.fin 130)) (.f32 (Fl.fin 75)) (.f32 (Fl.fin 5)) (.f32 (Fl.fin (-100)))
    (.f32 (Fl.fin 100)) (.f32 (Fl.fin (-200))) (.f32 (Fl.fin 200)) (.f32 (Fl.fin (-100))) (.f32 (Fl.fin 0))
    (130, 75, 5) demoPrism :=
  ⟨iff_of_false (not_wide32 _) (not_wide32 _), iff_of_false (not_wide32 _) (not_wide32 _),
    iff_of_false (not_wide32 _) (not_wide32 _), isReal_f32 _, isReal_f32 _, isReal_f32 _, isReal_f32 _, isReal_f32 _,
    isReal_f32 _, isReal_f32 _, isReal_f32 _, isReal_f32 _⟩

theorem demo_short : ShortOffsets (130, 75, 5) demoPrism := by
  refine ⟨?_, ?_, ?_, ?_, ?_, ?_⟩ <;> simp only [Pt.e, Pt.n, Pt.u, demoPrism] <;> apply short_of <;>
    norm_num [abs_of_pos, abs_of_neg]

example (c : GComp) : ∃ g, Returns (onPrism (A := Exact) (prismGravity c) (130, 75, 5) demoPrism (2670 : ℝ)) g ∧
    MReturnsWithin (Mixed.prismGravity (S := Numba32) (D := Numba64) c (.f32 (Fl.fin 130)) (.f32 (Fl.fin 75)) (.f32 (Fl.fin 5))
      (.f32 (Fl.fin (-100))) (.f32 (Fl.fin 100)) (.f32 (Fl.fin (-200))) (.f32 (Fl.fin 200)) (.f32 (Fl.fin (-100)))
      (.f32 (Fl.fin 0)) (.f32 (Fl.fin 2670))) g
      (2 ^ (-16 : ℤ) * (6.6743e-11 * |2670| * totalSize c.kernel (130, 75, 5) demoPrism)) :=
  C110_gravity_single c demo_single (isReal_f32 _) demo_ordered (by
    have := demo_edges
    simp only [Box.edges, Set.mem_union, not_or] at this
    cases c <;> simp only [Box.singular, Set.mem_union, Set.mem_empty_iff_false] <;> tauto)
    demo_short (moderate_of (by norm_num [abs_of_pos]) (by norm_num [abs_of_pos]))

example (c : MComp) : ∃ g, Returns (onPrism (A := Exact) (prismMagnetic c) (130, 75, 5) demoPrism ((1 : ℝ) : Fl Exact)
      ((0 : ℝ) : Fl Exact) ((2 : ℝ) : Fl Exact)) g ∧
    ∃ δ, MReturnsWithin (Mixed.prismMagnetic (S := Numba32) (D := Numba64) c (.f32 (Fl.fin 130)) (.f32 (Fl.fin 75)) (.f32 (Fl.fin 5))
      (.f32 (Fl.fin (-100))) (.f32 (Fl.fin 100)) (.f32 (Fl.fin (-200))) (.f32 (Fl.fin 200)) (.f32 (Fl.fin (-100)))
      (.f32 (Fl.fin 0)) (.f32 (Fl.fin 1)) (.f32 (Fl.fin 0)) (.f32 (Fl.fin 2))) g δ := by
  obtain ⟨g, e, h⟩ := C110_magnetic_single c (M := (1, 0, 2)) demo_single (isReal_f32 _) (isReal_f32 _) (isReal_f32 _) demo_ordered
    demo_edges (by
      unfold Box.region
      rw [interior_prod_eq, interior_prod_eq, interior_Icc, interior_Icc, interior_Icc]
      simp only [demoPrism, Set.mem_prod, Set.mem_Ioo]
      norm_num)
    demo_short (by
      intro a
      cases a <;> simp only [Pt.coord, Pt.e, Pt.n, Pt.u] <;>
        first
          | exact .inl rfl
          | (apply moderate_of <;> norm_num [abs_of_pos]))
  exact ⟨g, e, _, h⟩

end Choclo
