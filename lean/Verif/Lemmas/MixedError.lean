import Verif.Lemmas.Mixed
import Verif.Lemmas.ErrorPoint
import Verif.Lemmas.ErrorDipole
import Verif.Props.ErrorBound

/-! # Error analysis for calls with float32 arguments -/

namespace Choclo

variable {S D : Arith} {u lo hi lo' hi' : ℝ}

/-- the computed `v` is the exact value `x` up to `k` rounding factors -/
def MApprox (u : ℝ) (k : ℕ) (v : MFl S D) (x : ℝ) : Prop := Approx (A := D) u k v.toD x

/-- the same relative to the bound `B` on the magnitude -/
def MAbs (u : ℝ) (k : ℕ) (v : MFl S D) (x B : ℝ) : Prop := AbsApprox (A := D) u k v.toD x B

theorem InSafeRange.wider {x : ℝ} (h1 : lo' ≤ lo) (h2 : hi ≤ hi') (hx : InSafeRange lo hi x) : InSafeRange lo' hi' x := by
  rcases hx with h | ⟨h, h'⟩
  · exact .inl h
  · exact .inr ⟨by linarith, by linarith⟩

/-- the steps of a third-order kernel that run in single precision if all arguments are float32 -/
noncomputable def thirdOrderSteps32 (c : PKComp) (x y z r : ℝ) : List ℝ :=
  let iii (x y z r : ℝ) := [x ^ 2, y ^ 2, z ^ 2, -y * z, x ^ 2 + y ^ 2, x ^ 2 + z ^ 2, (x ^ 2 + y ^ 2) * (x ^ 2 + z ^ 2),
      (x ^ 2 + y ^ 2) * (x ^ 2 + z ^ 2) * r]
  match c with
  | .eee => iii x y z r
  | .nnn => iii y z x r
  | .uuu => iii z y x r
  | .enu => []
  | c => thirdOrderSteps c x y z r

/-- Both arithmetics are accurate; the range of `D` is wider. -/
structure BothAccurate (S D : Arith) (u lo hi lo' hi' : ℝ) : Prop where
  single : S.Accurate u lo hi
  double : D.Accurate u lo' hi'
  lo_le : lo' ≤ lo
  hi_le : hi ≤ hi'

namespace BothAccurate
variable (h : BothAccurate S D u lo hi lo' hi')
include h

theorem wide {x : ℝ} (hx : InSafeRange lo hi x) : InSafeRange lo' hi' x := hx.wider h.lo_le h.hi_le

theorem exact {v : MFl S D} {x : ℝ} (hv : v.IsReal x) : MApprox u 0 v x := by
  unfold MApprox; rw [hv]; exact h.double.exact x

theorem nat (n : ℕ) : MApprox (S := S) (D := D) u 0 (OfNat.ofNat n : MFl S D) (n : ℝ) := h.double.exact (n : ℝ)

theorem mono {k l : ℕ} (hkl : k ≤ l) {v : MFl S D} {x : ℝ} (hv : MApprox u k v x) : MApprox u l v x := h.double.mono hkl hv

theorem neg {k : ℕ} {v : MFl S D} {x : ℝ} (hv : MApprox u k v x) : MApprox u k (-v) (-x) := by
  cases v with
  | f32 a => exact h.single.neg (A := S) (v := a) hv
  | f64 a => exact h.double.neg hv

theorem lit {x : ℝ} (hx : InSafeRange lo' hi' x) : MApprox (S := S) (D := D) u 1 (MFl.lit x) x := h.double.lit hx

theorem sub_exact {a b : MFl S D} {x y : ℝ} (ha : a.IsReal x) (hb : b.IsReal y) (hx : InSafeRange lo hi (x - y)) :
    MApprox u 1 (a - b) (x - y) := by
  cases a with
  | f32 a =>
    cases b with
    | f32 b =>
      change a = Fl.fin x at ha
      change b = Fl.fin y at hb
      subst ha hb
      exact h.single.sub_exact hx
    | f64 b =>
      change (Fl.up a : Fl D) = Fl.fin x at ha
      change b = Fl.fin y at hb
      show Approx u 1 ((Fl.up a : Fl D) - b) _
      rw [ha, hb]
      exact h.double.sub_exact (h.wide hx)
  | f64 a =>
    change a = Fl.fin x at ha
    show Approx u 1 (a - (MFl.toD b)) _
    rw [ha, hb]
    exact h.double.sub_exact (h.wide hx)

theorem mulD {k l : ℕ} {v w : MFl S D} {x y : ℝ} (hvw : v.Wide ∨ w.Wide) (hv : MApprox u k v x) (hw : MApprox u l w y)
    (hs : InSafeRange lo' hi' (x * y)) (hk : k + l ≤ 64) : MApprox u (k + l + 1) (v * w) (x * y) := by
  have e : (v * w).toD = v.toD * w.toD := by
    rcases hvw with ⟨a, rfl⟩ | ⟨a, rfl⟩ <;> simp
  unfold MApprox; rw [e]; exact h.double.mul hv hw hs hk

theorem mul {k l : ℕ} {v w : MFl S D} {x y : ℝ} (hv : MApprox u k v x) (hw : MApprox u l w y)
    (hs : InSafeRange lo hi (x * y)) (hk : k + l ≤ 64) : MApprox u (k + l + 1) (v * w) (x * y) := by
  cases v with
  | f64 a => exact h.mulD (.inl ⟨_, rfl⟩) hv hw (h.wide hs) hk
  | f32 a =>
    cases w with
    | f64 b => exact h.mulD (.inr ⟨_, rfl⟩) hv hw (h.wide hs) hk
    | f32 b => exact h.single.mul (A := S) (v := a) (w := b) hv hw hs hk

theorem addD {k l : ℕ} {v w : MFl S D} {x y : ℝ} (hvw : v.Wide ∨ w.Wide) (hv : MApprox u k v x) (hw : MApprox u l w y)
    (hx : 0 ≤ x) (hy : 0 ≤ y)
    (hs : InSafeRange lo' hi' (x + y)) (hk : max k l ≤ 64) : MApprox u (max k l + 1) (v + w) (x + y) := by
  have e : (v + w).toD = v.toD + w.toD := by
    rcases hvw with ⟨a, rfl⟩ | ⟨a, rfl⟩ <;> simp
  unfold MApprox; rw [e]; exact h.double.add hv hw hx hy hs hk

theorem add {k l : ℕ} {v w : MFl S D} {x y : ℝ} (hv : MApprox u k v x) (hw : MApprox u l w y)
    (hx : 0 ≤ x) (hy : 0 ≤ y)
    (hs : InSafeRange lo hi (x + y)) (hk : max k l ≤ 64) : MApprox u (max k l + 1) (v + w) (x + y) := by
  cases v with
  | f64 a => exact h.addD (.inl ⟨_, rfl⟩) hv hw hx hy (h.wide hs) hk
  | f32 a =>
    cases w with
    | f64 b => exact h.addD (.inr ⟨_, rfl⟩) hv hw hx hy (h.wide hs) hk
    | f32 b => exact h.single.add (A := S) (v := a) (w := b) hv hw hx hy hs hk

omit h in
theorem div_wide {v w : MFl S D} (hvw : v.Wide ∨ w.Wide) : (v /ₘ w) = (v.toD /. w.toD).map .f64 := by
  rcases hvw with ⟨a, rfl⟩ | ⟨a, rfl⟩ <;> simp

theorem divD {k l : ℕ} {v w : MFl S D} {x y : ℝ} (hvw : v.Wide ∨ w.Wide) (hv : MApprox u k v x) (hw : MApprox u l w y)
    (hy : y ≠ 0) (hs : InSafeRange lo' hi' (x / y)) (hk : k + l ≤ 64) :
    ∃ z : MFl S D, (v /ₘ w) = .ok z ∧ z.Wide ∧ MApprox u (k + l + 1) z (x / y) := by
  obtain ⟨z, e, hz⟩ := h.double.div hv hw hy hs hk
  refine ⟨.f64 z, ?_, ⟨_, rfl⟩, hz⟩
  rw [div_wide hvw, e]; rfl

theorem div {k l : ℕ} {v w : MFl S D} {x y : ℝ} (hv : MApprox u k v x) (hw : MApprox u l w y)
    (hy : y ≠ 0) (hs : InSafeRange lo hi (x / y)) (hk : k + l ≤ 64) :
    ∃ z : MFl S D, (v /ₘ w) = .ok z ∧ MApprox u (k + l + 1) z (x / y) := by
  by_cases hvw : v.Wide ∨ w.Wide
  · obtain ⟨z, e, -, hz⟩ := h.divD hvw hv hw hy (h.wide hs) hk
    exact ⟨z, e, hz⟩
  · cases v with
    | f64 a => exact absurd (.inl ⟨_, rfl⟩) hvw
    | f32 a =>
      cases w with
      | f64 b => exact absurd (.inr ⟨_, rfl⟩) hvw
      | f32 b =>
        obtain ⟨z, e, hz⟩ := h.single.div (A := S) (v := a) (w := b) hv hw hy hs hk
        refine ⟨.f32 z, ?_, hz⟩
        show (a /. b).map _ = _
        rw [e]; rfl

theorem sqrt {k : ℕ} {v : MFl S D} {x : ℝ} (hv : MApprox u (2 * k) v x) (hx : 0 ≤ x)
    (hs : InSafeRange lo hi (Real.sqrt x)) (hk : k ≤ 64) : MApprox u (k + 1) (MFl.sqrt v) (Real.sqrt x) := by
  cases v with
  | f64 a => exact h.double.sqrt hv hx (h.wide hs) hk
  | f32 a => exact h.single.sqrt (A := S) (v := a) hv hx hs hk

theorem pow {k n : ℕ} {v : MFl S D} {x : ℝ} (hv : MApprox u k v x) (hn2 : 2 ≤ n)
    (hs : InSafeRange lo hi (x ^ n)) (hk : n * k ≤ 64) : MApprox u (n * k + (n - 1)) (v ^ n) (x ^ n) := by
  cases v with
  | f64 a => exact h.double.pow hv hn2 (h.wide hs) hk
  | f32 a => exact h.single.pow (A := S) (v := a) hv hn2 hs hk

/-! ### absolute errors -/

theorem toAbs {k : ℕ} {v : MFl S D} {x : ℝ} (hv : MApprox u k v x) : MAbs u k v x |x| := h.double.toAbs hv

theorem absMono {k l : ℕ} (hkl : k ≤ l) {v : MFl S D} {x B B' : ℝ} (hB : B ≤ B') (hv : MAbs u k v x B) : MAbs u l v x B' :=
  h.double.absMono hkl hB hv

theorem absNeg {k : ℕ} {v : MFl S D} {x B : ℝ} (hv : MAbs u k v x B) : MAbs u k (-v) (-x) B := by
  cases v with
  | f32 a => exact h.single.absNeg (A := S) (v := a) hv
  | f64 a => exact h.double.absNeg hv

theorem absAddD {k l : ℕ} {v w : MFl S D} {x y B C : ℝ} (hvw : v.Wide ∨ w.Wide) (hv : MAbs u k v x B) (hw : MAbs u l w y C)
    (hs : InSafeRange lo' hi' (B + C)) (hk : max k l ≤ 64) : MAbs u (max k l + 1) (v + w) (x + y) (B + C) := by
  have e : (v + w).toD = v.toD + w.toD := by
    rcases hvw with ⟨a, rfl⟩ | ⟨a, rfl⟩ <;> simp
  unfold MAbs; rw [e]; exact h.double.absAdd hv hw hs hk

theorem absAdd {k l : ℕ} {v w : MFl S D} {x y B C : ℝ} (hv : MAbs u k v x B) (hw : MAbs u l w y C)
    (hs : InSafeRange lo hi (B + C)) (hk : max k l ≤ 64) : MAbs u (max k l + 1) (v + w) (x + y) (B + C) := by
  cases v with
  | f64 a => exact h.absAddD (.inl ⟨_, rfl⟩) hv hw (h.wide hs) hk
  | f32 a =>
    cases w with
    | f64 b => exact h.absAddD (.inr ⟨_, rfl⟩) hv hw (h.wide hs) hk
    | f32 b => exact h.single.absAdd (A := S) (v := a) (w := b) hv hw hs hk

theorem absSubD {k l : ℕ} {v w : MFl S D} {x y B C : ℝ} (hvw : v.Wide ∨ w.Wide) (hv : MAbs u k v x B) (hw : MAbs u l w y C)
    (hs : InSafeRange lo' hi' (B + C)) (hk : max k l ≤ 64) : MAbs u (max k l + 1) (v - w) (x - y) (B + C) := by
  have e : (v - w).toD = v.toD - w.toD := by
    rcases hvw with ⟨a, rfl⟩ | ⟨a, rfl⟩ <;> simp
  unfold MAbs; rw [e]; exact h.double.absSub hv hw hs hk

theorem absMulD {k l : ℕ} {v w : MFl S D} {x y B C : ℝ} (hvw : v.Wide ∨ w.Wide) (hv : MAbs u k v x B) (hw : MAbs u l w y C)
    (hs : InSafeRange lo' hi' (B * C)) (hk : k + l ≤ 64) : MAbs u (k + l + 1) (v * w) (x * y) (B * C) := by
  have e : (v * w).toD = v.toD * w.toD := by
    rcases hvw with ⟨a, rfl⟩ | ⟨a, rfl⟩ <;> simp
  unfold MAbs; rw [e]; exact h.double.absMul hv hw hs hk

theorem absDivD {k l : ℕ} {v w : MFl S D} {x y B : ℝ} (hvw : v.Wide ∨ w.Wide) (hv : MAbs u k v x B) (hw : MApprox u l w y)
    (hy : y ≠ 0) (hs : InSafeRange lo' hi' (B / |y|)) (hk : k + l ≤ 64) :
    ∃ z : MFl S D, (v /ₘ w) = .ok z ∧ z.Wide ∧ MAbs u (k + l + 1) z (x / y) (B / |y|) := by
  obtain ⟨z, e, hz⟩ := h.double.absDiv hv hw hy hs hk
  refine ⟨.f64 z, ?_, ⟨_, rfl⟩, hz⟩
  rw [div_wide hvw, e]; rfl

/-! ### the functions -/

section pairs
variable {ep np up eq nq uq : MFl S D} {p q : Pt} (hpq : ArePoints ep np up eq nq uq p q)
include hpq

theorem distance (hs : ∀ t ∈ distanceSteps p q, InSafeRange lo hi t) :
    MApprox u 4 (MFl.sqrt ((ep - eq) ^ 2 + (np - nq) ^ 2 + (up - uq) ^ 2)) (dist3 p q) := by
  simp only [distanceSteps, List.mem_cons, List.not_mem_nil, or_false, forall_eq_or_imp, forall_eq] at hs
  obtain ⟨s1, s2, s3, s4, s5, s6, s7, s8, s9⟩ := hs
  have d1 := h.pow (h.sub_exact hpq.ep hpq.eq s1) le_rfl s4 (by norm_num)
  have d2 := h.pow (h.sub_exact hpq.np hpq.nq s2) le_rfl s5 (by norm_num)
  have d3 := h.pow (h.sub_exact hpq.up hpq.uq s3) le_rfl s6 (by norm_num)
  have a1 := h.add d1 d2 (sq_nonneg _) (sq_nonneg _) s7 (by norm_num)
  have a2 := h.add a1 d3 (by positivity) (sq_nonneg _) s8 (by norm_num)
  exact h.sqrt (k := 3) (h.mono (by norm_num) a2) (by positivity) s9 (by norm_num)

end pairs

theorem gm {v : MFl S D} {m : ℝ} (hv : v.IsReal m) (h1 : InSafeRange lo' hi' Gc) (h2 : InSafeRange lo' hi' (Gc * m)) :
    (Mixed.GRAVITATIONAL_CONST * v : MFl S D).Wide ∧ MApprox u 2 (Mixed.GRAVITATIONAL_CONST * v) (Gc * m) :=
  ⟨⟨_, rfl⟩, h.mulD (.inl ⟨_, rfl⟩) (h.lit h1) (h.exact hv) h2 (by norm_num)⟩

theorem finish {k : ℕ} {vm : MFl S D} {m x : ℝ} (hm : vm.IsReal m) {call : Py (MFl S D)} (hk : k + 2 ≤ 64)
    (h1 : InSafeRange lo' hi' Gc) (h2 : InSafeRange lo' hi' (Gc * m)) (h3 : InSafeRange lo' hi' (Gc * m * x))
    (hc : ∃ v, call = .ok v ∧ MApprox u k v x) :
    ∃ v, (do let kernel ← call; return Mixed.GRAVITATIONAL_CONST * vm * kernel) = .ok v ∧
      MApprox u (k + 3) v (Gc * m * x) := by
  obtain ⟨v, rfl, hv⟩ := hc
  refine ⟨_, rfl, ?_⟩
  obtain ⟨w, hg⟩ := h.gm hm h1 h2
  exact h.mono (by omega) (h.mulD (.inl w) hg hv h3 (by omega))

theorem absFinish {k : ℕ} {vm : MFl S D} {m x B : ℝ} (hm : vm.IsReal m) {call : Py (MFl S D)} (hk : k + 2 ≤ 64)
    (h1 : InSafeRange lo' hi' Gc) (h2 : InSafeRange lo' hi' (Gc * m)) (h3 : InSafeRange lo' hi' (|Gc * m| * B))
    (hc : ∃ v, call = .ok v ∧ MAbs u k v x B) :
    ∃ v, (do let kernel ← call; return Mixed.GRAVITATIONAL_CONST * vm * kernel) = .ok v ∧
      MAbs u (k + 3) v (Gc * m * x) (|Gc * m| * B) := by
  obtain ⟨v, rfl, hv⟩ := hc
  refine ⟨_, rfl, ?_⟩
  obtain ⟨w, hg⟩ := h.gm hm h1 h2
  exact h.absMono (by omega) le_rfl (h.absMulD (.inl w) (h.toAbs hg) hv h3 (by omega))

omit h in
theorem nat_wide (n : ℕ) : (OfNat.ofNat n : MFl S D).Wide := ⟨_, rfl⟩

omit h in
theorem wide_mul {v w : MFl S D} (hvw : v.Wide ∨ w.Wide) : (v * w).Wide := by
  rcases hvw with ⟨a, rfl⟩ | ⟨a, rfl⟩ <;> exact ⟨_, by simp; rfl⟩

omit h in
theorem wide_add {v w : MFl S D} (hvw : v.Wide ∨ w.Wide) : (v + w).Wide := by
  rcases hvw with ⟨a, rfl⟩ | ⟨a, rfl⟩ <;> exact ⟨_, by simp; rfl⟩

omit h in
theorem wide_sub {v w : MFl S D} (hvw : v.Wide ∨ w.Wide) : (v - w).Wide := by
  rcases hvw with ⟨a, rfl⟩ | ⟨a, rfl⟩ <;> exact ⟨_, by simp; rfl⟩

theorem inv_distance {p q : Pt} (hd : dist3 p q ≠ 0) {d : MFl S D} (ha : MApprox u 4 d (dist3 p q))
    (hs : InSafeRange lo' hi' (1 / dist3 p q)) :
    ∃ v, ((1 : MFl S D) /ₘ d) = .ok v ∧ MApprox u 5 v (1 / dist3 p q) := by
  obtain ⟨v, e, -, hv⟩ := h.divD (.inl (nat_wide 1)) (h.nat 1) ha hd (by rw [Nat.cast_one]; exact hs) (by norm_num)
  rw [Nat.cast_one] at hv
  exact ⟨v, e, hv⟩

theorem acc_kernel {p q : Pt} {v w : MFl S D} {a b : ℝ} (hv : v.IsReal a) (hw : w.IsReal b) (hd : dist3 p q ≠ 0)
    {d : MFl S D} (ha : MApprox u 4 d (dist3 p q))
    (h0 : InSafeRange lo hi (a - b)) (h3 : InSafeRange lo hi (dist3 p q ^ 3))
    (hq : InSafeRange lo hi (-(a - b) / dist3 p q ^ 3)) :
    ∃ z, ((-(v - w)) /ₘ d ^ 3) = .ok z ∧ MApprox u 16 z (-(a - b) / dist3 p q ^ 3) :=
  h.div (h.neg (h.sub_exact hv hw h0)) (h.pow ha (by norm_num) h3 (by norm_num)) (pow_ne_zero 3 hd) hq (by norm_num)

theorem off_kernel {p q : Pt} {v w v' w' : MFl S D} {a b a' b' : ℝ} (hv : v.IsReal a) (hw : w.IsReal b)
    (hv' : v'.IsReal a') (hw' : w'.IsReal b') (hd : dist3 p q ≠ 0) {d : MFl S D}
    (ha : MApprox u 4 d (dist3 p q))
    (h0 : InSafeRange lo hi (a - b)) (h0' : InSafeRange lo hi (a' - b'))
    (h1 : InSafeRange lo' hi' (3 * (a - b))) (h2 : InSafeRange lo' hi' (3 * (a - b) * (a' - b')))
    (h3 : InSafeRange lo hi (dist3 p q ^ 5))
    (hq : InSafeRange lo' hi' (3 * (a - b) * (a' - b') / dist3 p q ^ 5)) :
    ∃ z, MFl.div (3 * (v - w) * (v' - w')) (d ^ 5) = .ok z ∧
      MApprox u 29 z (3 * (a - b) * (a' - b') / dist3 p q ^ 5) := by
  have n3 : ((3 : ℕ) : ℝ) = 3 := by norm_num
  have w1 : (3 * (v - w) : MFl S D).Wide := wide_mul (.inl (nat_wide 3))
  have e1 := h.mulD (.inl (nat_wide 3)) (h.nat 3) (h.sub_exact hv hw h0) (by rw [n3]; exact h1) (by norm_num)
  rw [n3] at e1
  have e2 := h.mulD (.inl w1) e1 (h.sub_exact hv' hw' h0') h2 (by norm_num)
  obtain ⟨z, e, -, hz⟩ := h.divD (.inl (wide_mul (.inl w1))) e2 (h.pow ha (by norm_num) h3 (by norm_num)) (pow_ne_zero 5 hd) hq
    (by norm_num)
  exact ⟨z, e, hz⟩

theorem diag_kernel {p q : Pt} {v w : MFl S D} {a b : ℝ} (hv : v.IsReal a) (hw : w.IsReal b) (hd : 0 < dist3 p q)
    {d : MFl S D} (ha : MApprox u 4 d (dist3 p q))
    (h0 : InSafeRange lo hi (a - b)) (h1 : InSafeRange lo hi ((a - b) ^ 2))
    (h2 : InSafeRange lo' hi' (3 * (a - b) ^ 2)) (h3 : InSafeRange lo hi (dist3 p q ^ 5))
    (h4 : InSafeRange lo' hi' (3 * (a - b) ^ 2 / dist3 p q ^ 5))
    (h5 : InSafeRange lo hi (dist3 p q ^ 3)) (h6 : InSafeRange lo' hi' (1 / dist3 p q ^ 3))
    (h7 : InSafeRange lo' hi' (3 * (a - b) ^ 2 / dist3 p q ^ 5 + 1 / dist3 p q ^ 3)) :
    ∃ z, (do return (← MFl.div (3 * (v - w) ^ 2) (d ^ 5)) - (← MFl.div 1 (d ^ 3)) : Py (MFl S D)) = .ok z ∧
      MAbs u 30 z (3 * (a - b) ^ 2 / dist3 p q ^ 5 - 1 / dist3 p q ^ 3)
        (3 * (a - b) ^ 2 / dist3 p q ^ 5 + 1 / dist3 p q ^ 3) := by
  have n3 : ((3 : ℕ) : ℝ) = 3 := by norm_num
  have n1 : ((1 : ℕ) : ℝ) = 1 := by norm_num
  have e0 := h.pow (h.sub_exact hv hw h0) le_rfl h1 (by norm_num)
  have e1 := h.mulD (.inl (nat_wide 3)) (h.nat 3) e0 (by rw [n3]; exact h2) (by norm_num)
  rw [n3] at e1
  obtain ⟨z, e, zw, hz⟩ := h.divD (.inl (wide_mul (.inl (nat_wide 3)))) e1 (h.pow ha (by norm_num) h3 (by norm_num))
    (pow_ne_zero 5 hd.ne') h4 (by norm_num)
  obtain ⟨y, e', yw, hy⟩ := h.divD (.inl (nat_wide 1)) (h.nat 1) (h.pow ha (by norm_num) h5 (by norm_num)) (pow_ne_zero 3 hd.ne')
    (by rw [n1]; exact h6) (by norm_num)
  rw [n1] at hy
  refine ⟨z - y, ?_, ?_⟩
  · change MFl.div (3 * (v - w) ^ 2) (d ^ 5) = _ at e
    change MFl.div (1 : MFl S D) (d ^ 3) = _ at e'
    rw [e, e']
    rfl
  · have hp1 : |3 * (a - b) ^ 2 / dist3 p q ^ 5| = 3 * (a - b) ^ 2 / dist3 p q ^ 5 :=
      abs_of_nonneg (by positivity)
    have hp2 : |1 / dist3 p q ^ 3| = 1 / dist3 p q ^ 3 := abs_of_nonneg (by positivity)
    have := h.absSubD (.inl zw) (h.toAbs hz) (h.toAbs hy) (by rw [hp1, hp2]; exact h7) (by norm_num)
    rw [hp1, hp2] at this
    exact h.absMono (by norm_num) le_rfl this

/-! ### third-order prism kernels -/

theorem eq_zero_fin {k : ℕ} {v : MFl S D} {x : ℝ} (hv : MApprox u k v x) : MFl.eq v 0 = decide (x = 0) :=
  h.double.eq_zero_fin hv

omit h in
theorem widen_approx {k : ℕ} {v : MFl S D} {x : ℝ} (hv : MApprox u k v x) : MApprox u k (MFl.widen v) x := hv

theorem iij {k : ℕ} (hk : k ≤ 4) {xv yv zv rv : MFl S D} {x y z r : ℝ} (hx : xv.IsReal x) (hy : yv.IsReal y) (hz : zv.IsReal z)
    (hr : r ≠ 0) (hrv : MApprox u k rv r) (hs : ∀ t ∈ iijSteps x y z r, InSafeRange lo hi t) :
    ∃ v, Mixed.prism._kernel_iij xv yv zv rv = .ok v ∧ MApprox u (5 + k) v (docIIJ x y z r) := by
  simp only [iijSteps, List.mem_cons, List.not_mem_nil, or_false, forall_eq_or_imp, forall_eq] at hs
  obtain ⟨s1, s2, s3, s4, s5, s6⟩ := hs
  unfold Mixed.prism._kernel_iij
  rw [h.eq_zero_fin hrv, h.eq_zero_fin (h.exact hx), h.eq_zero_fin (h.exact hy)]
  simp only [hr, decide_false, Bool.false_eq_true, if_false]
  by_cases hxy : x = 0 ∧ y = 0
  · obtain ⟨rfl, rfl⟩ := hxy
    simp only [decide_true, Bool.and_self, if_true]
    refine ⟨_, rfl, 1, h.double.theta_mono (Nat.zero_le _) h.double.theta_one, ?_⟩
    simp [docIIJ]
    show Fl.fin ((0 : ℕ) : ℝ) = Fl.fin 0
    rw [Nat.cast_zero]
  · have hne : x ^ 2 + y ^ 2 ≠ 0 := by
      intro h0
      apply hxy
      have hx := sq_nonneg x
      have hy := sq_nonneg y
      exact ⟨pow_eq_zero_iff (two_ne_zero) |>.1 (by linarith), pow_eq_zero_iff (two_ne_zero) |>.1 (by linarith)⟩
    have hb : (decide (x = 0) && decide (y = 0)) = false := by
      rw [← Bool.decide_and]; exact decide_eq_false hxy
    rw [hb]
    simp only [Bool.false_eq_true, if_false]
    have hx2 := h.pow (h.exact hx) le_rfl s2 (by norm_num)
    have hy2 := h.pow (h.exact hy) le_rfl s3 (by norm_num)
    have hxz := h.mul (h.exact hx) (h.exact hz) s1 (by norm_num)
    have hsum := h.add hx2 hy2 (sq_nonneg _) (sq_nonneg _) s4 (by norm_num)
    have hden := h.mul hsum hrv s5 (by norm_num; omega)
    obtain ⟨v, e, hv⟩ := h.div hxz hden (mul_ne_zero hne hr) s6 (by norm_num; omega)
    refine ⟨MFl.widen v, by rw [e]; rfl, ?_⟩
    unfold docIIJ
    rw [if_neg (mul_ne_zero hne hr)]
    exact widen_approx (h.mono (by norm_num; omega) hv)

theorem iii {k : ℕ} (hk : k ≤ 4) {xv yv zv rv : MFl S D} {x y z r : ℝ} (hx : xv.IsReal x) (hy : yv.IsReal y) (hz : zv.IsReal z)
    (hr : r ≠ 0) (hrv : MApprox u k rv r)
    (hs : ∀ t ∈ [x ^ 2, y ^ 2, z ^ 2, -y * z, x ^ 2 + y ^ 2, x ^ 2 + z ^ 2, (x ^ 2 + y ^ 2) * (x ^ 2 + z ^ 2),
      (x ^ 2 + y ^ 2) * (x ^ 2 + z ^ 2) * r], InSafeRange lo hi t)
    (hs' : ∀ t ∈ iiiSteps x y z r, InSafeRange lo' hi' t) :
    ∃ v, Mixed.prism._kernel_iii xv yv zv rv = .ok v ∧ MApprox u (13 + k) v (docIII x y z r) := by
  simp only [iiiSteps, List.mem_cons, List.not_mem_nil, or_false, forall_eq_or_imp, forall_eq] at hs'
  simp only [List.mem_cons, List.not_mem_nil, or_false, forall_eq_or_imp, forall_eq] at hs
  obtain ⟨-, -, -, -, s5, s6, s7, s8, -, -, -, -, s13⟩ := hs'
  obtain ⟨s1, s2, s3, s4, s9, s10, s11, s12⟩ := hs
  unfold Mixed.prism._kernel_iii
  rw [h.eq_zero_fin hrv, h.eq_zero_fin (h.exact hx), h.eq_zero_fin (h.exact hy), h.eq_zero_fin (h.exact hz)]
  simp only [hr, decide_false, Bool.false_eq_true, if_false]
  by_cases hxy : (x = 0 ∧ y = 0) ∨ (x = 0 ∧ z = 0)
  · have hb : ((decide (x = 0) && decide (y = 0)) || (decide (x = 0) && decide (z = 0))) = true := by
      rw [← Bool.decide_and, ← Bool.decide_and, ← Bool.decide_or]; exact decide_eq_true hxy
    rw [hb]
    refine ⟨_, rfl, 1, h.double.theta_mono (Nat.zero_le _) h.double.theta_one, ?_⟩
    have : docIII x y z r = 0 := by
      unfold docIII
      rw [if_pos]
      rcases hxy with ⟨rfl, rfl⟩ | ⟨rfl, rfl⟩ <;> simp
    rw [this]
    simp
    show Fl.fin ((0 : ℕ) : ℝ) = Fl.fin 0
    rw [Nat.cast_zero]
  · have hb : ((decide (x = 0) && decide (y = 0)) || (decide (x = 0) && decide (z = 0))) = false := by
      rw [← Bool.decide_and, ← Bool.decide_and, ← Bool.decide_or]; exact decide_eq_false hxy
    rw [hb]
    simp only [Bool.false_eq_true, if_false]
    have hne : ∀ w : ℝ, ¬ (x = 0 ∧ w = 0) → x ^ 2 + w ^ 2 ≠ 0 := by
      intro w hw h0
      apply hw
      have hx := sq_nonneg x
      have hy := sq_nonneg w
      exact ⟨pow_eq_zero_iff (two_ne_zero) |>.1 (by linarith), pow_eq_zero_iff (two_ne_zero) |>.1 (by linarith)⟩
    have hden0 : (x ^ 2 + y ^ 2) * (x ^ 2 + z ^ 2) * r ≠ 0 :=
      mul_ne_zero (mul_ne_zero (hne y fun h => hxy (.inl h)) (hne z fun h => hxy (.inr h))) hr
    have n2 : ((2 : ℕ) : ℝ) = 2 := by norm_num
    have w2 : (2 : MFl S D).Wide := nat_wide 2
    have hx2 := h.pow (h.exact hx) le_rfl s1 (by norm_num)
    have hy2 := h.pow (h.exact hy) le_rfl s2 (by norm_num)
    have hz2 := h.pow (h.exact hz) le_rfl s3 (by norm_num)
    have hyz := h.mul (h.neg (h.exact hy)) (h.exact hz) s4 (by norm_num)
    have h2x := h.mulD (.inl w2) (h.nat 2) hx2 (by rw [n2]; exact s5) (by norm_num)
    rw [n2] at h2x
    have w3 := wide_mul (w := xv ^ 2) (.inl w2)
    have hn1 := h.addD (.inl w3) h2x hy2 (by positivity) (sq_nonneg _) s6 (by norm_num)
    have w4 := wide_add (w := yv ^ 2) (.inl w3)
    have hn2 := h.addD (.inl w4) hn1 hz2 (by positivity) (sq_nonneg _) s7 (by norm_num)
    have w5 := wide_add (w := zv ^ 2) (.inl w4)
    have hnum := h.mulD (.inr w5) hyz hn2 s8 (by norm_num)
    have w6 := wide_mul (v := (-yv) * zv) (.inr w5)
    have ha := h.add hx2 hy2 (sq_nonneg _) (sq_nonneg _) s9 (by norm_num)
    have hb := h.add hx2 hz2 (sq_nonneg _) (sq_nonneg _) s10 (by norm_num)
    have hab := h.mul ha hb s11 (by norm_num)
    have hden := h.mul hab hrv s12 (by norm_num; omega)
    obtain ⟨v, e, -, hv⟩ := h.divD (.inl w6) hnum hden hden0 s13 (by norm_num; omega)
    change MFl.div ((-yv) * zv * (2 * xv ^ 2 + yv ^ 2 + zv ^ 2)) _ = _ at e
    refine ⟨MFl.widen v, by rw [e]; rfl, ?_⟩
    unfold docIII
    rw [if_neg hden0, ← neg_mul, ← neg_mul]
    exact widen_approx (h.mono (by norm_num; omega) hv)

theorem enu {k : ℕ} (hk : k ≤ 4) {r : ℝ} {rv : MFl S D} (hr : r ≠ 0) (hrv : MApprox u k rv r)
    (hs : InSafeRange lo' hi' (-1 / r)) (x y z : MFl S D) :
    ∃ v, Mixed.prism.kernel_enu x y z rv = .ok v ∧ MApprox u (1 + k) v (-1 / r) := by
  unfold Mixed.prism.kernel_enu
  rw [h.eq_zero_fin hrv]
  simp only [hr, decide_false, Bool.false_eq_true, if_false]
  have n1 : ((1 : ℕ) : ℝ) = 1 := by norm_num
  obtain ⟨v, e, -, hv⟩ := h.divD (v := (-1 : MFl S D)) (.inl ⟨_, rfl⟩) (h.neg (h.nat 1)) hrv hr (by rw [n1]; exact hs) (by norm_num; omega)
  refine ⟨MFl.widen v, by rw [e]; rfl, ?_⟩
  rw [n1] at hv
  exact widen_approx (h.mono (by omega) hv)

theorem third_order {k : ℕ} (hk : k ≤ 4) (c : PKComp) (hc : c.thirdOrder) {xv yv zv rv : MFl S D}
    {x y z r : ℝ} (hx : xv.IsReal x) (hy : yv.IsReal y) (hz : zv.IsReal z) (hr : r ≠ 0) (hrv : MApprox u k rv r)
    (hs : ∀ t ∈ thirdOrderSteps32 c x y z r, InSafeRange lo hi t)
    (hs' : ∀ t ∈ thirdOrderSteps c x y z r, InSafeRange lo' hi' t) :
    ∃ v, Mixed.prismKernel c xv yv zv rv = .ok v ∧ MApprox u (13 + k) v (docKernel c x y z r) := by
  have up : ∀ {call : Py (MFl S D)} {X : ℝ} {j : ℕ}, j ≤ 13 →
      (∃ v, call = .ok v ∧ MApprox u (j + k) v X) → ∃ v, call = .ok v ∧ MApprox u (13 + k) v X := by
    rintro call X j hj ⟨v, e, hv⟩
    exact ⟨v, e, h.mono (by omega) hv⟩
  cases c <;> try exact hc.elim
  case eee => exact h.iii hk hx hy hz hr hrv hs hs'
  case nnn => exact h.iii hk hy hz hx hr hrv hs hs'
  case uuu =>
    simp only [docKernel]
    rw [docIII_swap]
    exact h.iii hk hz hy hx hr hrv hs hs'
  case een => exact up (j := 5) (by norm_num) (h.iij hk hx hy hz hr hrv hs)
  case eeu => exact up (j := 5) (by norm_num) (h.iij hk hx hz hy hr hrv hs)
  case enn => exact up (j := 5) (by norm_num) (h.iij hk hy hx hz hr hrv hs)
  case nnu => exact up (j := 5) (by norm_num) (h.iij hk hy hz hx hr hrv hs)
  case euu => exact up (j := 5) (by norm_num) (h.iij hk hz hx hy hr hrv hs)
  case nuu => exact up (j := 5) (by norm_num) (h.iij hk hz hy hx hr hrv hs)
  case enu => exact up (by norm_num) (h.enu hk hr hrv (hs' _ (by simp [thirdOrderSteps])) xv yv zv)

theorem radius {xv yv zv : MFl S D} {x y z : ℝ} (hx : xv.IsReal x) (hy : yv.IsReal y) (hz : zv.IsReal z)
    (hs : ∀ t ∈ [x ^ 2, y ^ 2, z ^ 2, x ^ 2 + y ^ 2, x ^ 2 + y ^ 2 + z ^ 2,
      Real.sqrt (x ^ 2 + y ^ 2 + z ^ 2)], InSafeRange lo hi t) :
    MApprox u 3 (MFl.sqrt (xv ^ 2 + yv ^ 2 + zv ^ 2)) (Real.sqrt (x ^ 2 + y ^ 2 + z ^ 2)) := by
  simp only [List.mem_cons, List.not_mem_nil, or_false, forall_eq_or_imp, forall_eq] at hs
  obtain ⟨s1, s2, s3, s4, s5, s6⟩ := hs
  have hx2 := h.pow (h.exact hx) le_rfl s1 (by norm_num)
  have hy2 := h.pow (h.exact hy) le_rfl s2 (by norm_num)
  have hz2 := h.pow (h.exact hz) le_rfl s3 (by norm_num)
  have a1 := h.add hx2 hy2 (sq_nonneg _) (sq_nonneg _) s4 (by norm_num)
  have a2 := h.add a1 hz2 (by positivity) (sq_nonneg _) s5 (by norm_num)
  exact h.sqrt (k := 2) (h.mono (by norm_num) a2) (by positivity) s6 (by norm_num)

/-! ### dipole -/

theorem cm (hp : D.PiAccurate u) (h1 : InSafeRange lo' hi' mu0) (h2 : InSafeRange lo' hi' (mu0 / 4))
    (h3 : InSafeRange lo' hi' (mu0 / 4 / Real.pi)) :
    ∃ v w : MFl S D, ((Mixed.VACUUM_MAGNETIC_PERMEABILITY : MFl S D) /ₘ 4) = .ok v ∧ (v /ₘ MFl.pi) = .ok w ∧ w.Wide ∧
      MApprox u 4 w (mu0 / 4 / Real.pi) := by
  obtain ⟨v, w, e, e', hw⟩ := h.double.cm hp h1 h2 h3
  refine ⟨.f64 v, .f64 w, ?_, ?_, ⟨_, rfl⟩, hw⟩
  · show ((VACUUM_MAGNETIC_PERMEABILITY : Fl D) /. 4).map _ = _
    rw [e]; rfl
  · show (v /. Fl.pi).map _ = _
    rw [e']; rfl

theorem dipole_comp (hp : D.PiAccurate u) {ep np up eq nq uq me mn mu va vb vm : MFl S D} {p q m : Pt}
    (hpq : ArePoints ep np up eq nq uq p q) (hme : me.IsReal m.e) (hmn : mn.IsReal m.n) (hmu : mu.IsReal m.u)
    (hd : 0 < dist3 p q) {a b md : ℝ} (hva : va.IsReal a) (hvb : vb.IsReal b) (hvm : vm.IsReal md)
    (h0 : InSafeRange lo hi (a - b))
    (hs : ∀ t ∈ distanceSteps p q, InSafeRange lo hi t)
    (hs2 : ∀ t ∈ [m.e * (p.e - q.e), m.n * (p.n - q.n), m.u * (p.u - q.u),
      |m.e * (p.e - q.e)| + |m.n * (p.n - q.n)|, |m.e * (p.e - q.e)| + |m.n * (p.n - q.n)| + |m.u * (p.u - q.u)|,
      dist3 p q ^ 5, dist3 p q ^ 3, md / dist3 p q ^ 3], InSafeRange lo hi t)
    (hs' : ∀ t ∈ dipoleSteps p q m (a - b) md, InSafeRange lo' hi' t) :
    ∃ v, (do
      let r_e := ep - eq
      let r_n := np - nq
      let r_u := up - uq
      let distance := MFl.sqrt (r_e ^ 2 + r_n ^ 2 + r_u ^ 2)
      let dotproduct := me * r_e + mn * r_n + mu * r_u
      let result := (← MFl.div (3 * dotproduct * (va - vb)) (distance ^ 5)) - (← MFl.div vm (distance ^ 3))
      return (← MFl.div (← MFl.div Mixed.VACUUM_MAGNETIC_PERMEABILITY 4) MFl.pi) * result) = .ok v ∧
      MAbs u 38 v
        (mu0 / 4 / Real.pi * (3 * (m.e * (p.e - q.e) + m.n * (p.n - q.n) + m.u * (p.u - q.u)) * (a - b)
          / dist3 p q ^ 5 - md / dist3 p q ^ 3))
        (mu0 / 4 / Real.pi * (3 * (|m.e * (p.e - q.e)| + |m.n * (p.n - q.n)| + |m.u * (p.u - q.u)|)
          * |a - b| / dist3 p q ^ 5 + |md / dist3 p q ^ 3|)) := by
  have hdv := h.distance hpq hs
  simp only [distanceSteps, List.mem_cons, List.not_mem_nil, or_false, forall_eq_or_imp, forall_eq] at hs
  obtain ⟨d1, d2, d3, -⟩ := hs
  simp only [List.mem_cons, List.not_mem_nil, or_false, forall_eq_or_imp, forall_eq] at hs2
  obtain ⟨s1, s2, s3, s4, s5, s8, s10, s11⟩ := hs2
  simp only [dipoleSteps, List.mem_cons, List.not_mem_nil, or_false, forall_eq_or_imp, forall_eq] at hs'
  obtain ⟨-, -, -, -, -, s6, s7, -, s9, -, -, s12, s13, s14, s15, s16⟩ := hs'
  have n3 : ((3 : ℕ) : ℝ) = 3 := by norm_num
  have m1 := h.toAbs (h.mul (h.exact hme) (h.sub_exact hpq.ep hpq.eq d1) s1 (by norm_num))
  have m2 := h.toAbs (h.mul (h.exact hmn) (h.sub_exact hpq.np hpq.nq d2) s2 (by norm_num))
  have m3 := h.toAbs (h.mul (h.exact hmu) (h.sub_exact hpq.up hpq.uq d3) s3 (by norm_num))
  have a1 := h.absAdd m1 m2 s4 (by norm_num)
  have a2 := h.absAdd a1 m3 s5 (by norm_num)
  have h3 := h.toAbs (h.nat 3)
  rw [n3, abs_of_pos (by norm_num : (0 : ℝ) < 3)] at h3
  have w3 : (3 : MFl S D).Wide := nat_wide 3
  have t1 := h.absMulD (.inl w3) h3 a2 s6 (by norm_num)
  have w4 := wide_mul (w := me * (ep - eq) + mn * (np - nq) + mu * (up - uq)) (.inl w3)
  have t2 := h.absMulD (.inl w4) t1 (h.toAbs (h.sub_exact hva hvb h0)) s7 (by norm_num)
  have w5 := wide_mul (w := va - vb) (.inl w4)
  have h5 : |dist3 p q ^ 5| = dist3 p q ^ 5 := abs_of_pos (by positivity)
  obtain ⟨v, e, vw, hv⟩ := h.absDivD (.inl w5) t2 (h.pow hdv (by norm_num) s8 (by norm_num)) (pow_ne_zero 5 hd.ne')
    (by rw [h5]; exact s9) (by norm_num)
  rw [h5] at hv
  obtain ⟨w, e', hw⟩ := h.div (h.exact hvm) (h.pow hdv (by norm_num) s10 (by norm_num))
    (pow_ne_zero 3 hd.ne') s11 (by norm_num)
  have hsub := h.absSubD (.inl vw) hv (h.toAbs hw) s12 (by norm_num)
  obtain ⟨c, c', ec, ec', cw, hc⟩ := h.cm hp s13 s14 s15
  have hcpos : |mu0 / 4 / Real.pi| = mu0 / 4 / Real.pi := by
    apply abs_of_pos
    have := Real.pi_pos
    unfold mu0
    positivity
  have hc' := h.toAbs hc
  rw [hcpos] at hc'
  have hfin := h.absMulD (.inl cw) hc' hsub s16 (by norm_num)
  refine ⟨_, ?_, h.absMono (by norm_num) le_rfl hfin⟩
  dsimp only
  change MFl.div (3 * (me * (ep - eq) + mn * (np - nq) + mu * (up - uq)) * (va - vb)) _ = _ at e
  rw [e]
  change (MFl.div vm _ >>= _) = _
  rw [e']
  change (MFl.div Mixed.VACUUM_MAGNETIC_PERMEABILITY 4 >>= _) = _
  rw [ec]
  change (MFl.div c MFl.pi >>= _) = _
  rw [ec']
  rfl

end BothAccurate
end Choclo
