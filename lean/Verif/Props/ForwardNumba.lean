import Verif.Props.ForwardSingle
import Verif.Props.NumbaPow

/-! # The programs of the user guide in the arithmetic of compiled code (float64, powers by repeated multiplication) (C90) -/

namespace Choclo

open MeasureTheory userguide

variable {N M T : ℕ}

/-- the same coordinates in another arithmetic -/
def Coordinates.recast {A B : Arith} (c : Coordinates A N) : Coordinates B N :=
  ⟨fun i => Fl.cast (c.easting i), fun i => Fl.cast (c.northing i), fun i => Fl.cast (c.upward i)⟩

/-- the same prisms in another arithmetic -/
def Prisms.recast {A B : Arith} (p : Prisms A M) : Prisms B M := fun j k => Fl.cast (p j k)

theorem fieldOf_recast (c : Coordinates Binary64 N) (p : Prisms Binary64 M) (d : Fin M → Fl Binary64) (i : Fin N) (j : Fin M) :
    fieldOf (A := Numba64) (Coordinates.recast c) (Prisms.recast p) (fun j => Fl.cast (d j)) i j = (fieldOf c p d i j).map Fl.cast :=
  (C90_same_bits (c.easting i) (c.northing i) (c.upward i) (p j 0) (p j 1) (p j 2) (p j 3) (p j 4) (p j 5) (d j) 0 0 0).2.2.1 .u

theorem foldl_recast (l : List (Fl Binary64)) (a : Fl Binary64) :
    (l.map Fl.cast).foldl (fun a b => a + b) (Fl.cast a : Fl Numba64) = Fl.cast (l.foldl (fun a b => a + b) a) := by
  induction l generalizing a with
  | nil => rfl
  | cons b l ih =>
    rw [List.map_cons, List.foldl_cons, List.foldl_cons, Fl.cast_add sameOps_numba64, ih]

theorem map_ok {α β : Type} {f : α → β} {x : Py α} {b : β} : x.map f = .ok b ↔ ∃ a, x = .ok a ∧ f a = b := by
  cases x with
  | error e => exact ⟨fun h => (by cases h), fun ⟨a, h, _⟩ => (by cases h)⟩
  | ok a => exact ⟨fun h => ⟨a, rfl, Except.ok.inj h⟩, fun ⟨a', h, h'⟩ => (by cases h; exact congrArg Except.ok h')⟩

theorem cast_cast {A B : Arith} (x : Fl A) : (Fl.cast (Fl.cast x : Fl B) : Fl A) = x := rfl

/-- **C90, the forward model of the user guide.**  Compiled code (powers by repeated multiplication) returns the same bits as
correctly rounded powers: in the serial loop, -/
theorem C90_forward (c : Coordinates Binary64 N) (p : Prisms Binary64 M) (d : Fin M → Fl Binary64) (r : Fin N → Fl Binary64) :
    gravity_upward (A := Numba64) (Coordinates.recast c) (Prisms.recast p) (fun j => Fl.cast (d j)) = .ok (fun i => Fl.cast (r i)) ↔
      gravity_upward c p d = .ok r := by
  rw [C83_forward, C83_forward]
  constructor
  · rintro ⟨G, hG, hr⟩
    refine ⟨fun i j => Fl.cast (G i j), fun i j => ?_, fun i => ?_⟩
    · have := hG i j
      rw [fieldOf_recast] at this
      obtain ⟨a, ha, e⟩ := map_ok.1 this
      rw [ha]
      show _ = Except.ok (Fl.cast (G i j))
      rw [← e]
      rfl
    · have e : List.ofFn (G i) = (List.ofFn fun j => (Fl.cast (G i j) : Fl Binary64)).map Fl.cast := by
        rw [List.map_ofFn]; rfl
      have h1 := hr i
      rw [e] at h1
      exact h1.trans (foldl_recast _ 0)
  · rintro ⟨G, hG, hr⟩
    refine ⟨fun i j => Fl.cast (G i j), fun i j => ?_, fun i => ?_⟩
    · rw [fieldOf_recast, hG i j]; rfl
    · have e : (List.ofFn fun j => (Fl.cast (G i j) : Fl Numba64)) = (List.ofFn (G i)).map Fl.cast := by
        rw [List.map_ofFn]; rfl
      rw [e, hr i]
      exact (foldl_recast _ 0).symm

/-- in the parallel loop, for every distribution of the points and every interleaving, and in `build_jacobian`. -/
theorem C90_parallel (c : Coordinates Binary64 N) (p : Prisms Binary64 M) (d : Fin M → Fl Binary64) {chunks : Fin T → List (Fin N)}
    (hc : Distribution chunks) :
    (∀ r : Fin N → Fl Binary64, gravity_upward_parallel (A := Numba64) (Coordinates.recast c) (Prisms.recast p)
        (fun j => Fl.cast (d j)) chunks (fun i => Fl.cast (r i)) ↔ gravity_upward_parallel c p d chunks r) ∧
    ∀ J : Fin N → Fin M → Fl Binary64, build_jacobian (A := Numba64) (Coordinates.recast c) (Prisms.recast p) chunks
        (fun i j => Fl.cast (J i j)) ↔ build_jacobian c p chunks J := by
  have key : ∀ {A : Arith} (hA : A.Monotone) {c : Coordinates A N} {p : Prisms A M} {d : Fin M → Fl A} (r : Fin N → Fl A),
      gravity_upward_parallel c p d chunks r ↔ gravity_upward c p d = .ok r := by
    intro A hA c p d r
    refine ⟨C84_deterministic hc, fun h => ?_⟩
    obtain ⟨r', h', -⟩ := C84_returns (c := c) (p := p) (d := d) hA hc
    have : r' = r := Except.ok.inj ((C84_deterministic hc h').symm.trans h)
    rwa [← this]
  refine ⟨fun r => ?_, fun J => ?_⟩
  · exact (key (A := Numba64) (numbaPow_monotone Binary64_monotone) _).trans ((C90_forward c p d r).trans (key Binary64_monotone r).symm)
  · rw [C85_entries hc, C85_entries hc]
    refine forall_congr' fun i => forall_congr' fun j => ?_
    have h : fieldOf (A := Numba64) (Coordinates.recast c) (Prisms.recast p) (fun _ => 1) i j
        = (fieldOf c p (fun _ => 1) i j).map Fl.cast := fieldOf_recast c p (fun _ => 1) i j
    rw [h, map_ok]
    exact ⟨fun ⟨a, ha, e⟩ => by rw [ha, ← cast_cast (B := Numba64) a, e]; rfl, fun h => ⟨_, h, rfl⟩⟩

/-- The matrix product too. -/
theorem C90_matmul (J : Fin N → Fin M → Fl Binary64) (d : Fin M → Fl Binary64) (r : Fin N → Fl Binary64) :
    matmul (A := Numba64) (fun i j => Fl.cast (J i j)) (fun j => Fl.cast (d j)) (fun i => Fl.cast (r i)) ↔ matmul J d r := by
  refine forall_congr' fun i => ⟨fun h => ?_, fun h => ?_⟩
  · have := dotsTo_cast sameOps_binary64 h
    rw [Multiset.map_map] at this
    exact this
  · have := dotsTo_cast sameOps_numba64 h
    rw [Multiset.map_map] at this
    exact this

/-- **C90, end to end.**  The forward loops and `jacobian @ densities` in the arithmetic of compiled code, for models of moderate
size: one array, finite, within the bounds of C86 and C87 of the sums of Newton's integrals. -/
theorem C90_moderate {P : Fin M → Box} (hP : ∀ j, (P j).Ordered) (q : Fin N → Pt) (ρ : Fin M → ℝ)
    (hm : ∀ i j, ModerateOffsets (q i) (P j)) (hρ : ∀ j, ModerateSize (ρ j)) {L : ℝ} (hL : ∀ i j, OffsetsUpTo L (q i) (P j))
    (hM : M ≤ 2 ^ 40) {chunks : Fin T → List (Fin N)} (hc : Distribution chunks) :
    (∃ r : Fin N → Fl Numba64, gravity_upward (points q) (boxes P) (values ρ) = .ok r ∧
      (∀ r', gravity_upward_parallel (points q) (boxes P) (values ρ) chunks r' ↔ r' = r) ∧
      ∀ i, ∃ y : ℝ, r i = (y : Fl Numba64) ∧
        |y - ∑ j, ∫ s in (P j).region, 6.6743e-11 * ρ j * (s.u - (q i).u) / dist3 (q i) s ^ 3|
          ≤ (2 ^ (-34 : ℤ) + M * 2 ^ (-47 : ℤ)) * (6.6743e-11 * L * ∑ j, |ρ j|)) ∧
    (∃! J, build_jacobian (A := Numba64) (points q) (boxes P) chunks J) ∧
    ∀ J, build_jacobian (points q) (boxes P) chunks J → ∀ r : Fin N → Fl Numba64, matmul J (values ρ) r →
      ∀ i, ∃ y : ℝ, r i = (y : Fl Numba64) ∧
        |y - ∑ j, ∫ s in (P j).region, 6.6743e-11 * ρ j * (s.u - (q i).u) / dist3 (q i) s ^ 3|
          ≤ (2 ^ (-34 : ℤ) + M * 2 ^ (-47 : ℤ)) * (6.6743e-11 * L * ∑ j, |ρ j|) + M * 2 ^ (-1073 : ℤ) := by
  have ec : (points q : Coordinates Numba64 N) = Coordinates.recast (points q : Coordinates Binary64 N) := rfl
  have ep : (boxes P : Prisms Numba64 M) = Prisms.recast (boxes P : Prisms Binary64 M) := by
    funext j k
    fin_cases k <;> rfl
  have ed : (values ρ : Fin M → Fl Numba64) = fun j => Fl.cast (values ρ j : Fl Binary64) := rfl
  have fin : ∀ {x : Fl Binary64} {y : ℝ}, x = (y : Fl Binary64) → (Fl.cast x : Fl Numba64) = (y : Fl Numba64) := by
    rintro x y rfl; rfl
  rw [ec, ep, ed]
  refine ⟨?_, C85_returns (numbaPow_monotone Binary64_monotone) hc, fun J hJ r hr i => ?_⟩
  · obtain ⟨r, hr, h⟩ := C86_moderate hP q ρ hm hρ hL hM
    obtain ⟨r₁, h₁, h₁'⟩ := C84_moderate hP q ρ hm hρ hL hM hc
    have e : r = r₁ := by
      obtain ⟨r₂, h₂, -⟩ := C84_returns (A := Binary64) (c := points q) (p := boxes P) (d := values ρ) Binary64_monotone hc
      rw [← (h₁ r₂).1 h₂]
      exact Except.ok.inj (hr.symm.trans (C84_deterministic hc h₂))
    subst e
    refine ⟨fun i => Fl.cast (r i), (C90_forward _ _ _ r).2 hr, fun r' => ?_, fun i => ?_⟩
    · have := (C90_parallel (points q) (boxes P) (values ρ) hc).1 fun i => Fl.cast (r' i)
      refine this.trans ((h₁ _).trans ⟨fun h => ?_, fun h => ?_⟩)
      · rw [← h]; rfl
      · rw [h]; rfl
    · obtain ⟨y, hy, hb⟩ := h i
      exact ⟨y, fin hy, hb⟩
  · have hJ' := ((C90_parallel (points q) (boxes P) (values ρ) hc).2 fun i j => Fl.cast (J i j)).1 hJ
    have hr' := (C90_matmul (fun i j => Fl.cast (J i j)) (values ρ) fun i => Fl.cast (r i)).1 hr
    obtain ⟨y, hy, hb⟩ := (C87_moderate hP q ρ hm hρ hL hM hc).2 _ hJ' _ hr' i
    exact ⟨y, fin hy, hb⟩

/-- three points on two threads, four prisms -/
example : ∃ r : Fin 3 → Fl Numba64, gravity_upward (points fun _ => (130, 75, 5)) (boxes fun _ : Fin 4 => demoPrism)
    (values fun _ => 2670) = .ok r ∧ ∀ i, ∃ y : ℝ, r i = (y : Fl Numba64) := by
  obtain ⟨⟨r, hr, -, h⟩, -⟩ := C90_moderate (P := fun _ : Fin 4 => demoPrism) (fun _ => demo_ordered) (fun _ => (130, 75, 5)) (fun _ => 2670)
    (fun _ _ => demo_offsets) (fun _ => .inr (by norm_num))
    (fun _ _ a => by cases a <;> norm_num [demoPrism, Box.lo, Box.hi, Pt.coord, Pt.e, Pt.n, Pt.u, abs_le]) (L := 1000) (by norm_num)
    (chunks := (![[2, 0], [1]] : Fin 2 → List (Fin 3))) (by constructor <;> decide)
  exact ⟨r, hr, fun i => (h i).imp fun y h => h.1⟩

end Choclo
