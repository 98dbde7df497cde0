import Verif.Lemmas.MixedGuide
import Verif.Spec.GuideSingle
import Verif.Props.SumError
import Verif.Props.SinglePrism
import Verif.Props.NoRaise32

/-! # C131: the programs of the user guide with float32 arrays -/

namespace Choclo

open Mixed.userguide

variable {S D : Arith} {N M T : ℕ} {c : Coordinates S D N} {p : Prisms S D M} {d : Fin M → MFl S D}
  {chunks : Fin T → List (Fin N)}

/-! ## C131 -/

/-- **C131.** The forward loop on float32 arrays returns `r` if and only if every call of `gravity_u` returns a
number, and each `r[i]` is the left-to-right float64 sum, from zero, of those numbers converted to float64. -/
theorem C131_forward (r : Fin N → Fl D) : gravity_upward c p d = .ok r ↔
    ∃ G : Fin N → Fin M → MFl S D,
      (∀ i j, Mixed.prism.gravity_u (c.easting i) (c.northing i) (c.upward i) (p j 0) (p j 1) (p j 2) (p j 3) (p j 4)
        (p j 5) (d j) = .ok (G i j)) ∧
      ∀ i, r i = (List.ofFn fun j => (G i j).toD).foldl (fun a b => a + b) 0 := by
  have key : ∀ G : Fin N → Fin M → Fl D, (∀ i j, term c p d i j = .ok (G i j)) →
      gravity_upward c p d = .ok fun i => (List.ofFn (G i)).foldl (fun a b => a + b) 0 := by
    intro G hG
    rw [gravity_upward_eq, serial_run hG _ (List.nodup_finRange N)]
    congr 1
    funext i
    rw [if_pos (List.mem_finRange i), List.ofFn_eq_map, List.foldl_map]
  constructor
  · intro h
    have h' := h
    rw [gravity_upward_eq] at h'
    have hok : ∀ i j, ∃ v, Mixed.prism.gravity_u (c.easting i) (c.northing i) (c.upward i) (p j 0) (p j 1) (p j 2)
        (p j 3) (p j 4) (p j 5) (d j) = .ok v := fun i j => by
      obtain ⟨v, hv⟩ := serial_ok h' i (List.mem_finRange i) j
      obtain ⟨k, hk, -⟩ := Py.bind_ok.1 hv
      exact ⟨k, hk⟩
    choose G hG using hok
    refine ⟨G, hG, fun i => ?_⟩
    have := key (fun i j => (G i j).toD) (fun i j => by unfold term; rw [hG i j]; rfl)
    exact congrFun (Except.ok.inj (h.symm.trans this)) i
  · rintro ⟨G, hG, hr⟩
    rw [key (fun i j => (G i j).toD) (fun i j => by unfold term; rw [hG i j]; rfl)]
    exact congrArg Except.ok (funext fun i => (hr i).symm)

theorem term_ok {c : Coordinates Numba32 Numba64 N} {p : Prisms Numba32 Numba64 M} {d : Fin M → MFl Numba32 Numba64}
    (i : Fin N) (j : Fin M) : ∃ v, term c p d i j = .ok v := by
  obtain ⟨v, hv⟩ := (C112_single (c.easting i) (c.northing i) (c.upward i) (p j 0) (p j 1) (p j 2) (p j 3) (p j 4)
    (p j 5)).1 .u (d j)
  have hv' : Mixed.prism.gravity_u (c.easting i) (c.northing i) (c.upward i) (p j 0) (p j 1) (p j 2) (p j 3) (p j 4)
    (p j 5) (d j) = .ok v := hv
  exact ⟨v.toD, by unfold term; rw [hv']; rfl⟩

/-- **C131.** `build_jacobian` returns `J` if and only if each `J[i, j]` is the field of prism `j` at point `i` for the
density 1.0, converted to float64. -/
theorem C131_jacobian (hc : Distribution chunks) (J : Fin N → Fin M → Fl D) :
    build_jacobian c p chunks J ↔ ∀ i j, ∃ g, Mixed.prism.gravity_u (c.easting i) (c.northing i) (c.upward i) (p j 0) (p j 1)
      (p j 2) (p j 3) (p j 4) (p j 5) (MFl.f64 1) = .ok g ∧ J i j = g.toD := by
  have hterm : ∀ i j (v : Fl D), term c p (fun _ => MFl.f64 1) i j = .ok v ↔
      ∃ g, Mixed.prism.gravity_u (c.easting i) (c.northing i) (c.upward i) (p j 0) (p j 1)
      (p j 2) (p j 3) (p j 4) (p j 5) (MFl.f64 1) = .ok g ∧ v = g.toD := by
    intro i j v
    constructor
    · intro h
      obtain ⟨g, hg, h2⟩ := Py.bind_ok.1 h
      exact ⟨g, hg, (Py.pure_ok.1 h2).symm⟩
    · rintro ⟨g, hg, rfl⟩
      unfold term; rw [hg]; rfl
  simp only [← hterm]
  have key : ∀ {garbage : Fin N × Fin M → Fl D} {s : ParState (Fin N × Fin M) (Fl D) (Fin N) T},
      (ParState.start (jacobianBody c p) chunks garbage).Reaches s → s.Finished →
      ∀ i j, term c p (fun _ => MFl.f64 1) i j = .ok (s.mem (i, j)) := by
    intro garbage s hs hf i j
    obtain ⟨r0, h1, h2⟩ := (parallel_parts Mixed.userguide.jacobian_raceFree hc hs hf).1 i
    rw [← h2 (i, j) rfl]
    exact (Mixed.userguide.jacobianLoop_run h1 (List.nodup_finRange M)).1 j (List.mem_finRange j)
  constructor
  · rintro ⟨garbage, s, hs, hf, hJ⟩ i j
    rw [← hJ]
    exact key hs hf i j
  · intro h
    have h1 : AllNoRaise (ParState.start (jacobianBody c p) chunks fun _ => 0) := by
      intro t x hx
      obtain ⟨i, -, rfl⟩ := List.mem_map.1 hx
      exact Mixed.userguide.jacobianLoop_noRaise (fun i j => ⟨_, h i j⟩) i _
    have h2 := TotalLen.start (body := jacobianBody c p) (L := 2 * M) (fun i => by
      have := Mixed.userguide.jacobianLoop_hasLen (c := c) (p := p) i (List.finRange M)
      rwa [List.length_finRange] at this) chunks fun _ => 0
    obtain ⟨s, hs, hf⟩ := can_finish h2 h1
    exact ⟨_, s, hs, hf, fun i j => Except.ok.inj ((key hs hf i j).symm.trans (h i j))⟩

/-- **C131.** With Numba's types and arithmetic the serial loop, the parallel loop (whatever the threads, the distribution
of the points and the interleaving) and `build_jacobian` return, whatever numbers are in the arrays; the parallel loop returns
bit for bit what the serial one returns. -/
theorem C131_returns {c : Coordinates Numba32 Numba64 N} {p : Prisms Numba32 Numba64 M}
    {d : Fin M → MFl Numba32 Numba64} (hc : Distribution chunks) :
    ∃ r, gravity_upward c p d = .ok r ∧ (∀ r', gravity_upward_parallel c p d chunks r' ↔ r' = r) ∧
      ∃! J, build_jacobian c p chunks J := by
  have det : ∀ r', gravity_upward_parallel c p d chunks r' → gravity_upward c p d = .ok r' := by
    rintro _ ⟨s, hs, hf, rfl⟩
    rw [gravity_upward_eq]
    exact parallel_eq_serial Mixed.userguide.upward_raceFree hc hs hf (List.nodup_finRange N) List.mem_finRange
  have nr : AllNoRaise (ParState.start (upwardBody c p d) chunks fun _ => 0) := by
    intro t x hx
    obtain ⟨i, -, rfl⟩ := List.mem_map.1 hx
    exact Mixed.userguide.upwardLoop_noRaise (fun i j => term_ok i j) i _
  have len := TotalLen.start (body := upwardBody c p d) (L := 3 * M) (fun i => by
    have := Mixed.userguide.upwardLoop_hasLen (c := c) (p := p) (d := d) i (List.finRange M)
    rwa [List.length_finRange] at this) chunks fun _ => 0
  obtain ⟨s, hs, hf⟩ := can_finish len nr
  have hpar : gravity_upward_parallel c p d chunks s.mem := ⟨s, hs, hf, rfl⟩
  refine ⟨s.mem, det _ hpar, fun r' => ⟨fun h => Except.ok.inj ((det _ h).symm.trans (det _ hpar)), ?_⟩, ?_⟩
  · rintro rfl; exact hpar
  · have ok : ∀ (i : Fin N) (j : Fin M), ∃ g, Mixed.prism.gravity_u (c.easting i) (c.northing i) (c.upward i) (p j 0) (p j 1)
        (p j 2) (p j 3) (p j 4) (p j 5) (MFl.f64 1) = .ok g := fun i j =>
      (C112_single (c.easting i) (c.northing i) (c.upward i) (p j 0) (p j 1) (p j 2) (p j 3) (p j 4) (p j 5)).1 .u _
    choose g hg using ok
    refine ⟨fun i j => (g i j).toD, (C131_jacobian hc _).2 fun i j => ⟨g i j, hg i j, rfl⟩, fun J' hJ' => ?_⟩
    funext i j
    obtain ⟨g', h1, h2⟩ := (C131_jacobian hc J').1 hJ' i j
    rw [hg i j] at h1
    rw [h2, Except.ok.inj h1]

/-- the density enters in the last two multiplications only, both in float64 -/
theorem term_factored (i : Fin N) (j : Fin M) : ∃ K : Py (Fl D), ∀ d : Fin M → MFl S D,
    term c p d i j = K >>= fun k => pure (GRAVITATIONAL_CONST * (d j).toD * k) := by
  refine ⟨do return (← Mixed.prism._evaluate_kernel (c.easting i) (c.northing i) (c.upward i) (p j 0) (p j 1) (p j 2)
    (p j 3) (p j 4) (p j 5) Mixed.prism.kernel_u).toD, fun d => ?_⟩
  unfold term Mixed.prism.gravity_u
  cases Mixed.prism._evaluate_kernel (c.easting i) (c.northing i) (c.upward i) (p j 0) (p j 1) (p j 2)
    (p j 3) (p j 4) (p j 5) Mixed.prism.kernel_u with
  | error e => rfl
  | ok k =>
    show Except.ok (MFl.toD ((MFl.f64 GRAVITATIONAL_CONST : MFl S D) * d j * k)) = _
    rw [MFl.f64_mul, MFl.f64_mul]
    rfl

/-! ## Sums in Numba's float64 -/

theorem sameOps_binary64 : SameOps Numba64 Binary64 :=
  ⟨rfl, fun x => (sameOps_numba64.sq x).symm, rfl, rfl, rfl, rfl, rfl, rfl⟩

theorem sumsTo_cast {A B : Arith} (h : SameOps A B) {s : Multiset (Fl A)} {x : Fl A} (hs : userguide.SumsTo s x) :
    userguide.SumsTo (s.map (Fl.cast (B := B))) (Fl.cast x : Fl B) := by
  induction hs with
  | zero => exact .zero
  | one x => rw [Multiset.map_singleton]; exact .one _
  | add _ _ h1 h2 => rw [Multiset.map_add, ← Fl.cast_add h]; exact .add h1 h2

/-- the number is a double-precision number, if finite -/
def IsNumbaFl (x : Fl Numba64) : Prop := IsFl (Fl.cast x)

theorem isNumbaFl_mul (a b : Fl Numba64) : IsNumbaFl (a * b) := by
  unfold IsNumbaFl
  rw [← Fl.cast_mul sameOps_binary64]
  exact isFl_mul _ _

theorem realOf_cast {A B : Arith} (z : Fl A) : realOf (Fl.cast z : Fl B) = realOf z := by
  cases z <;> rfl

theorem sumsTo_error_numba {s : Multiset (Fl Numba64)} {x : Fl Numba64} (h : userguide.SumsTo s x)
    (hs : ∀ z ∈ s, IsNumbaFl z) {y : ℝ} (hy : x = Fl.fin y) : (∀ z ∈ s, z = Fl.fin (realOf z)) ∧
      |y - (s.map realOf).sum| ≤ ((1 + 2 ^ (-53 : ℤ)) ^ (Multiset.card s - 1) - 1) * (s.map fun z => |realOf z|).sum := by
  obtain ⟨h1, -, h3⟩ := sumsTo_error (sumsTo_cast sameOps_binary64 h) (fun z hz => by
    obtain ⟨w, hw, rfl⟩ := Multiset.mem_map.1 hz
    exact hs w hw) y hy
  rw [Multiset.card_map, Multiset.map_map, Multiset.map_map] at h3
  simp only [Function.comp_def, realOf_cast] at h3
  refine ⟨fun z hz => ?_, h3⟩
  have := h1 _ (Multiset.mem_map_of_mem _ hz)
  rwa [realOf_cast] at this

theorem fma_cast {A B : Arith} (h : SameOps A B) (a b c : Fl A) :
    userguide.fma (Fl.cast a : Fl B) (Fl.cast b) (Fl.cast c) = Fl.cast (userguide.fma a b c) := by
  have key : (Fl.cast a : Fl B) * Fl.cast b + Fl.cast c = Fl.cast (a * b + c) := by
    rw [Fl.cast_mul h, Fl.cast_add h]
  rcases a with _ | s | u
  · exact key
  · exact key
  rcases b with _ | s | v
  · exact key
  · exact key
  rcases c with _ | s | w
  · rfl
  · rfl
  · show B.rnd (u * v + w) = A.rnd (u * v + w)
    rw [h.rnd]

theorem dotsTo_cast {A B : Arith} (h : SameOps A B) {s : Multiset (Fl A × Fl A)} {x : Fl A} (hs : userguide.DotsTo s x) :
    userguide.DotsTo (s.map fun z => ((Fl.cast z.1 : Fl B), (Fl.cast z.2 : Fl B))) (Fl.cast x : Fl B) := by
  induction hs with
  | zero => exact .zero
  | mul a b => rw [Multiset.map_singleton, ← Fl.cast_mul h]; exact .mul _ _
  | add _ _ h1 h2 => rw [Multiset.map_add, ← Fl.cast_add h]; exact .add h1 h2
  | fma a b _ h1 => rw [Multiset.map_cons, ← fma_cast h]; exact .fma _ _ h1

theorem dotsTo_error_numba {s : Multiset (Fl Numba64 × Fl Numba64)} {x : Fl Numba64} (h : userguide.DotsTo s x)
    (hs : ∀ z ∈ s, SafeProduct (pairReal z)) {y : ℝ} (hy : x = Fl.fin y) :
    |y - (s.map pairReal).sum| ≤ ((1 + 2 ^ (-53 : ℤ)) ^ Multiset.card s - 1) * (s.map fun z => |pairReal z|).sum := by
  have e : ∀ z : Fl Numba64 × Fl Numba64, pairReal ((Fl.cast z.1 : Fl Binary64), (Fl.cast z.2 : Fl Binary64)) = pairReal z :=
    fun z => by unfold pairReal; rw [realOf_cast, realOf_cast]
  have h3 := (dotsTo_error (dotsTo_cast sameOps_binary64 h) (fun z hz => by
    obtain ⟨w, hw, rfl⟩ := Multiset.mem_map.1 hz
    rw [e]
    exact hs w hw) y hy).2
  rw [Multiset.card_map, Multiset.map_map, Multiset.map_map] at h3
  simp only [Function.comp_def, e] at h3
  exact h3

theorem isFl_term {c : Coordinates Numba32 Numba64 N} {p : Prisms Numba32 Numba64 M} {d : Fin M → MFl Numba32 Numba64}
    {i : Fin N} {j : Fin M} {g : Fl Numba64} (h : term c p d i j = .ok g) : IsNumbaFl g := by
  obtain ⟨K, hK⟩ := term_factored (c := c) (p := p) i j
  rw [hK d] at h
  obtain ⟨k, -, hk⟩ := Py.bind_ok.1 h
  rw [← Py.pure_ok.1 hk]
  exact isNumbaFl_mul _ k

/-- the error of the summation -/
theorem guide_sum {c : Coordinates Numba32 Numba64 N} {p : Prisms Numba32 Numba64 M} {d : Fin M → MFl Numba32 Numba64}
    {r : Fin N → Fl Numba64} (h : gravity_upward c p d = .ok r) {i : Fin N} {y : ℝ} (hy : r i = (Fl.fin y : Fl Numba64)) :
    ∃ v : Fin M → ℝ, (∀ j, Returns (term c p d i j) (v j)) ∧
      |y - ∑ j, v j| ≤ ((1 + 2 ^ (-53 : ℤ)) ^ (M - 1) - 1) * ∑ j, |v j| := by
  obtain ⟨G, hG, hr⟩ := (C131_forward r).1 h
  have hG' : ∀ j, term c p d i j = .ok (G i j).toD := fun j => by unfold term; rw [hG i j]; rfl
  have hs := sumsTo_foldl_zero (List.ofFn fun j => (G i j).toD)
  rw [← hr i] at hs
  obtain ⟨h1, h3⟩ := sumsTo_error_numba hs (fun z hz => by
    rw [Multiset.mem_coe, List.mem_ofFn] at hz
    obtain ⟨j, rfl⟩ := hz
    exact isFl_term (hG' j)) hy
  refine ⟨fun j => realOf (G i j).toD, fun j => ?_, ?_⟩
  · unfold Returns
    rw [hG' j]
    exact congrArg Except.ok (h1 (G i j).toD (by rw [Multiset.mem_coe, List.mem_ofFn]; exact ⟨j, rfl⟩))
  · rw [Multiset.coe_card, List.length_ofFn, Multiset.map_coe, Multiset.map_coe, Multiset.sum_coe, Multiset.sum_coe,
      List.map_ofFn, List.map_ofFn, List.sum_ofFn, List.sum_ofFn] at h3
    exact h3

/-- **C131, against Newton's integrals.** With float32 arrays, or any mixture, a finite result differs from the sum of
Newton's integrals over the prisms by at most the sum of the single-precision error bounds of the prisms (C110) plus the error
of a summation in double precision. -/
theorem C131_newton {c : Coordinates Numba32 Numba64 N} {p : Prisms Numba32 Numba64 M} {d : Fin M → MFl Numba32 Numba64}
    {q : Fin N → Pt} {P : Fin M → Box} {ρ : Fin M → ℝ} (hA : GuideArrays c p d q P ρ) (hP : ∀ j, (P j).Ordered)
    (hm : ∀ i j, ShortOffsets (q i) (P j)) (hρ : ∀ j, ModerateSize (ρ j)) {r : Fin N → Fl Numba64}
    (h : gravity_upward c p d = .ok r) {i : Fin N} {y : ℝ} (hy : r i = (Fl.fin y : Fl Numba64)) {x δ : Fin M → ℝ}
    (hx : ∀ j, x j = ∫ s in (P j).region, 6.6743e-11 * ρ j * (s.u - (q i).u) / dist3 (q i) s ^ 3)
    (hδ : ∀ j, δ j = 2 ^ (-16 : ℤ) * (6.6743e-11 * |ρ j| * totalSize .u (q i) (P j))) :
    |y - ∑ j, x j| ≤ ∑ j, δ j + ((1 + 2 ^ (-53 : ℤ)) ^ (M - 1) - 1) * ∑ j, (|x j| + δ j) := by
  obtain ⟨v, hv, hvy⟩ := guide_sum h hy
  have hd : ∀ j, |v j - x j| ≤ δ j := by
    intro j
    obtain ⟨g, w, h1, h2, h3⟩ := (C110_newton_single (hA.geometry i j) (hA.density j) (hP j) (hm i j) (hρ j)).2 .u
    have h1' : Mixed.prism.gravity_u (c.easting i) (c.northing i) (c.upward i) (p j 0) (p j 1) (p j 2) (p j 3) (p j 4)
      (p j 5) (d j) = .ok g := h1
    have h4 : term c p d i j = .ok g.toD := by unfold term; rw [h1']; rfl
    have h5 : Returns (term c p d i j) w := h4.trans (congrArg Except.ok h2)
    rw [Returns.inj (hv j) h5, hx j, hδ j]
    exact h3
  have h1 : |∑ j, v j - ∑ j, x j| ≤ ∑ j, δ j := by
    rw [← Finset.sum_sub_distrib]
    exact (Finset.abs_sum_le_sum_abs _ _).trans (Finset.sum_le_sum fun j _ => hd j)
  have h2 : ∑ j, |v j| ≤ ∑ j, (|x j| + δ j) := Finset.sum_le_sum fun j _ => by
    have := hd j
    have e : v j = x j + (v j - x j) := by ring
    rw [e]
    exact (abs_add_le _ _).trans (add_le_add_right this _)
  have hR : 0 ≤ (1 + (2 : ℝ) ^ (-53 : ℤ)) ^ (M - 1) - 1 := by
    have := one_le_pow₀ (n := M - 1) (show (1 : ℝ) ≤ 1 + 2 ^ (-53 : ℤ) by linarith [B64.u_pos])
    linarith
  have h3 := mul_le_mul_of_nonneg_left h2 hR
  have t : |y - ∑ j, x j| ≤ |y - ∑ j, v j| + |∑ j, v j - ∑ j, x j| := by
    calc _ = |(y - ∑ j, v j) + (∑ j, v j - ∑ j, x j)| := by congr 1; ring
      _ ≤ _ := abs_add_le _ _
  linarith

/-- the rounding of an entry of the Jacobian times the density, against the field for the density -/
theorem guide_entry {k : Fl Numba64} {J ρ v : ℝ} (hJ : (GRAVITATIONAL_CONST : Fl Numba64) * Fl.fin 1 * k = Fl.fin J)
    (hv : (GRAVITATIONAL_CONST : Fl Numba64) * Fl.fin ρ * k = Fl.fin v) (hs : userguide.SafeEntry J ρ v) :
    |v - J * ρ| ≤ ((1 + 2 ^ (-53 : ℤ)) ^ 4 - 1) * |J * ρ| := by
  have h := sameOps_binary64
  have hf : Factored (A := Binary64) (fun x => pure (GRAVITATIONAL_CONST * x * Fl.cast k)) (.ok (Fl.cast k)) := fun x => rfl
  have hG : (GRAVITATIONAL_CONST : Fl Binary64) = Fl.cast (GRAVITATIONAL_CONST : Fl Numba64) := Fl.cast_lit h _
  have hc : ∀ x : ℝ, (GRAVITATIONAL_CONST : Fl Binary64) * Fl.fin x * Fl.cast k =
      Fl.cast ((GRAVITATIONAL_CONST : Fl Numba64) * Fl.fin x * k) := fun x => by
    rw [hG, show (Fl.fin x : Fl Binary64) = Fl.cast (Fl.fin x : Fl Numba64) from rfl, Fl.cast_mul h, Fl.cast_mul h]
  refine entry_error hf ?_ ?_ hs
  · exact congrArg Except.ok ((hc 1).trans (congrArg Fl.cast hJ))
  · exact congrArg Except.ok ((hc ρ).trans (congrArg Fl.cast hv))

/-- **C131.** `jacobian @ densities` (in any order, with or without fused multiply-adds) reproduces the forward
model to *double* precision even when the arrays are float32: the
single-precision errors are the same on both sides. -/
theorem C131_product {c : Coordinates Numba32 Numba64 N} {p : Prisms Numba32 Numba64 M} {d : Fin M → MFl Numba32 Numba64}
    (hc : Distribution chunks) {J : Fin N → Fin M → Fl Numba64} (hJ : build_jacobian c p chunks J)
    {ρ : Fin M → ℝ} (hd : ∀ k, (d k).IsReal (ρ k)) {r r' : Fin N → Fl Numba64} (hr : gravity_upward c p d = .ok r)
    (hr' : matmul J d r') {i : Fin N} {y y' : ℝ} (hy : r i = (Fl.fin y : Fl Numba64))
    (hy' : r' i = (Fl.fin y' : Fl Numba64)) {j v : Fin M → ℝ} (hj : ∀ k, J i k = (Fl.fin (j k) : Fl Numba64))
    (hv : ∀ k, MReturnsWithin (Mixed.prism.gravity_u (c.easting i) (c.northing i) (c.upward i) (p k 0) (p k 1) (p k 2)
      (p k 3) (p k 4) (p k 5) (d k)) (v k) 0)
    (hs : ∀ k, userguide.SafeEntry (j k) (ρ k) (v k)) :
    |y' - y| ≤ 2 * ((1 + 2 ^ (-53 : ℤ)) ^ (M + 3) - 1) * ∑ k, |j k * ρ k| := by
  have hu0 := B64.u_pos
  have hR : 1 ≤ (1 + (2 : ℝ) ^ (-53 : ℤ)) ^ (M - 1) := one_le_pow₀ (by linarith)
  have hv1 : ∀ k, Returns (term c p d i k) (v k) := by
    intro k
    obtain ⟨g, w, h1, h2, h3⟩ := hv k
    obtain rfl : w = v k := by linarith [abs_nonpos_iff.1 h3]
    have : term c p d i k = .ok g.toD := by unfold term; rw [h1]; rfl
    exact this.trans (congrArg Except.ok h2)
  -- forward model
  have f1 : |y - ∑ k, j k * ρ k| ≤ ((1 + (2 : ℝ) ^ (-53 : ℤ)) ^ (M - 1) * (1 + 2 ^ (-53 : ℤ)) ^ 4 - 1) * ∑ k, |j k * ρ k| := by
    obtain ⟨v', hv', hvy⟩ := guide_sum hr hy
    have e : v' = v := funext fun k => Returns.inj (hv' k) (hv1 k)
    subst e
    refine sum_error hR hvy fun k => ?_
    obtain ⟨K, hK⟩ := term_factored (c := c) (p := p) i k
    obtain ⟨g, hg, hgJ⟩ := (C131_jacobian hc J).1 hJ i k
    have hJk : term c p (fun _ => MFl.f64 1) i k = .ok (J i k) := by unfold term; rw [hg, hgJ]; rfl
    rw [hK, hj k] at hJk
    have hvk := hv1 k
    unfold Returns at hvk
    rw [hK d, hd k] at hvk
    obtain ⟨q, hq, hq2⟩ := Py.bind_ok.1 hJk
    rw [hq] at hvk
    refine guide_entry (k := q) ?_ ?_ (hs k)
    · have := Py.pure_ok.1 hq2
      rw [MFl.toD_f64] at this
      have e1 : (1 : Fl Numba64) = Fl.fin 1 := congrArg (fun x : ℝ => (Fl.fin x : Fl Numba64)) Nat.cast_one
      rwa [e1] at this
    · exact Except.ok.inj hvk
  -- matrix product
  have f2 : |y' - ∑ k, j k * ρ k| ≤ ((1 + (2 : ℝ) ^ (-53 : ℤ)) ^ M - 1) * ∑ k, |j k * ρ k| := by
    have e : ∀ k, pairReal (J i k, (d k).toD) = j k * ρ k := fun k => by rw [hj k, hd k]; rfl
    have h := dotsTo_error_numba (hr' i) (fun z hz => by
      obtain ⟨k, -, rfl⟩ := Multiset.mem_map.1 hz
      rw [e k]
      exact (hs k).imp And.left fun h => (B64.two_zpow_le (by norm_num)).trans h.2.2) hy'
    rw [Multiset.card_map, Multiset.map_map, Multiset.map_map, Finset.card_val, Finset.card_univ, Fintype.card_fin] at h
    simp only [Function.comp_def, e] at h
    exact h
  have hS : 0 ≤ ∑ k, |j k * ρ k| := Finset.sum_nonneg fun k _ => abs_nonneg _
  rcases Nat.eq_zero_or_pos M with rfl | hM
  · simp only [Finset.univ_eq_empty, Finset.sum_empty, mul_zero, sub_zero] at f1 f2 ⊢
    have := abs_nonpos_iff.1 f1
    have := abs_nonpos_iff.1 f2
    simp [*]
  have e1 : (1 + (2 : ℝ) ^ (-53 : ℤ)) ^ (M - 1) * (1 + 2 ^ (-53 : ℤ)) ^ 4 = (1 + 2 ^ (-53 : ℤ)) ^ (M + 3) := by
    rw [← pow_add]; congr 1; omega
  have e2 : (1 + (2 : ℝ) ^ (-53 : ℤ)) ^ M ≤ (1 + 2 ^ (-53 : ℤ)) ^ (M + 3) :=
    pow_le_pow_right₀ (by linarith) (by omega)
  rw [e1] at f1
  have e3 := mul_le_mul_of_nonneg_right e2 hS
  have t : |y' - y| ≤ |y' - ∑ k, j k * ρ k| + |y - ∑ k, j k * ρ k| := by
    calc |y' - y| = |(y' - ∑ k, j k * ρ k) - (y - ∑ k, j k * ρ k)| := by congr 1; ring
      _ ≤ _ := abs_sub _ _
  generalize (1 + (2 : ℝ) ^ (-53 : ℤ)) ^ (M + 3) = R at *
  nlinarith

/-! ## A concrete case: three points, four prisms, all arrays float32 -/

/-- three observation points in float32 -/
noncomputable def demoPoints32 : Coordinates S D 3 :=
  ⟨fun _ => .f32 (Fl.fin 130), fun _ => .f32 (Fl.fin 75), fun _ => .f32 (Fl.fin 5)⟩

/-- four prisms in float32 -/
noncomputable def demoPrisms32 : Prisms S D 4 := fun _ =>
  ![.f32 (Fl.fin (-100)), .f32 (Fl.fin 100), .f32 (Fl.fin (-200)), .f32 (Fl.fin 200), .f32 (Fl.fin (-100)), .f32 (Fl.fin 0)]

example : GuideArrays (demoPoints32 (S := Numba32) (D := Numba64)) demoPrisms32 (fun _ => .f32 (Fl.fin 2670)) (fun _ => (130, 75, 5))
      (fun _ => demoPrism) (fun _ => 2670) ∧
    (∀ j : Fin 4, ((fun _ => demoPrism) j : Box).Ordered) ∧
    (∀ (i : Fin 3) (j : Fin 4), ShortOffsets ((fun _ => (130, 75, 5) : Fin 3 → Pt) i) ((fun _ => demoPrism) j)) ∧
    ModerateSize 2670 ∧ ∃ r, gravity_upward (demoPoints32 (S := Numba32) (D := Numba64)) demoPrisms32
      (fun _ => .f32 (Fl.fin 2670)) = .ok r := by
  refine ⟨⟨fun _ _ => demo_single, fun _ => isReal_f32 _⟩, fun _ => demo_ordered, fun _ _ => demo_short,
    moderate_of (by norm_num [abs_of_pos]) (by norm_num [abs_of_pos]), ?_⟩
  obtain ⟨r, hr, -⟩ := C131_returns (c := demoPoints32) (p := demoPrisms32) (d := fun _ => .f32 (Fl.fin 2670))
    (chunks := (![[2, 0], [1]] : Fin 2 → List (Fin 3))) (by constructor <;> decide)
  exact ⟨r, hr⟩

end Choclo
