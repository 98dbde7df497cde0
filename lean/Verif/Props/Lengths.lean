import Verif.Lemmas.Lengths
import Verif.Spec.Lengths
import Verif.Props.Bits3

/-! # C132: the forward loops of the user guide with arrays of any lengths -/

namespace Choclo

open userguide

variable {A : Arith} {e n u d : List (Fl A)} {P : Table A}

theorem item_ok {α : Type} {a : List α} {i : ℕ} (h : i < a.length) : item a i = .ok a[i] := by
  unfold item; rw [List.getElem?_eq_getElem h]

theorem item_error {α : Type} {a : List α} {i : ℕ} (h : a.length ≤ i) : item a i = .error .index := by
  unfold item; rw [List.getElem?_eq_none h]

theorem call_ten {x y z a b c f g h ρ v : Fl A} (hv : prism.gravity_u x y z a b c f g h ρ = .ok v) :
    call_gravity_u [x, y, z, a, b, c, f, g, h, ρ] = .ok v := by
  unfold call_gravity_u
  rw [dif_pos (by rfl)]
  show fromCall (prism.gravity_u x y z a b c f g h ρ) = .ok v
  rw [hv]
  rfl

theorem call_six (hA : A.Monotone) {x y z ρ : Fl A} (row : Fin 6 → Fl A) :
    ∃ g, prism.gravity_u x y z (row 0) (row 1) (row 2) (row 3) (row 4) (row 5) ρ = .ok g ∧
      call_gravity_u ([x, y, z] ++ List.ofFn row ++ [ρ]) = .ok g := by
  obtain ⟨g, hg⟩ := C52_gravity hA .u x y z (row 0) (row 1) (row 2) (row 3) (row 4) (row 5) ρ
  have hg' : prism.gravity_u x y z (row 0) (row 1) (row 2) (row 3) (row 4) (row 5) ρ = .ok g := hg
  refine ⟨g, hg', ?_⟩
  have : [x, y, z] ++ List.ofFn row ++ [ρ] = [x, y, z, row 0, row 1, row 2, row 3, row 4, row 5, ρ] := by
    simp [List.ofFn_succ]
  rw [this]
  exact call_ten hg'

theorem call_type {l : List (Fl A)} (h : l.length ≠ 10) : call_gravity_u l = .error .type := by
  unfold call_gravity_u
  rw [dif_neg h]

theorem flat_getElem {K : ℕ} (rows : List (Fin K → Fl A)) {j : ℕ} (hj : j < rows.length) (k : Fin K) :
    (rows.flatMap List.ofFn)[j * K + k]? = some (rows[j] k) := by
  induction rows generalizing j with
  | nil => exact absurd hj (Nat.not_lt_zero _)
  | cons r rows ih =>
    rw [List.flatMap_cons]
    cases j with
    | zero =>
      rw [List.getElem?_append_left (by rw [List.length_ofFn]; omega), Nat.zero_mul, Nat.zero_add]
      simp
    | succ j =>
      rw [List.getElem?_append_right (by rw [List.length_ofFn]; nlinarith [Nat.zero_le j]), List.length_ofFn,
        show (j + 1) * K + k - K = j * K + k by rw [Nat.succ_mul]; omega, ih (by simpa using hj)]
      rfl

/-- the number that an iteration adds, when the lengths fit -/
theorem slow_term_ok (hA : A.Monotone) {rows : List (Fin 6 → Fl A)} {i j : ℕ} (he : i < e.length) (hn : i < n.length)
    (hu : i < u.length) (hj : j < rows.length) (hd : j < d.length) :
    ∃ g, prism.gravity_u e[i] n[i] u[i] (rows[j] 0) (rows[j] 1) (rows[j] 2) (rows[j] 3) (rows[j] 4) (rows[j] 5) d[j] = .ok g ∧
      slow_term e n u ⟨6, rows⟩ d i j = .ok g := by
  obtain ⟨g, h1, h2⟩ := call_six hA (x := e[i]) (y := n[i]) (z := u[i]) (ρ := d[j]) rows[j]
  refine ⟨g, h1, ?_⟩
  unfold slow_term
  rw [item_ok he, item_ok hn, item_ok hu, item_ok (a := (Table.mk 6 rows).rows) hj, item_ok hd]
  exact h2

theorem slow_term_index {i j : ℕ} (h : n.length ≤ i ∨ u.length ≤ i ∨ d.length ≤ j) (he : i < e.length) (hj : j < P.rows.length) :
    slow_term e n u P d i j = .error .index := by
  unfold slow_term
  rw [item_ok he]
  by_cases hn : i < n.length
  · rw [item_ok hn]
    by_cases hu : i < u.length
    · rw [item_ok hu, item_ok hj, item_error (a := d) (by omega)]; rfl
    · rw [item_error (a := u) (by omega)]; rfl
  · rw [item_error (a := n) (by omega)]; rfl

theorem slow_term_type {i j : ℕ} (he : i < e.length) (hn : i < n.length) (hu : i < u.length) (hj : j < P.rows.length)
    (hd : j < d.length) (hc : P.cols ≠ 6) : slow_term e n u P d i j = .error .type := by
  unfold slow_term
  rw [item_ok he, item_ok hn, item_ok hu, item_ok hj, item_ok hd]
  refine call_type ?_
  simp only [List.length_append, List.length_cons, List.length_nil, List.length_ofFn]
  omega

theorem slow_eq : gravity_upward_slow [e, n, u] P d = (slow_loop e n u P d).map List.ofFn := by
  show (do return List.ofFn (← slow_loop e n u P d)) = _
  cases slow_loop e n u P d <;> rfl

/-! ## C132 -/

/-- **C132, unpacking.** Anything but three coordinate arrays is a `ValueError`. -/
theorem C132_unpack {coordinates : List (List (Fl A))} (h : coordinates.length ≠ 3) :
    gravity_upward_slow coordinates P d = .error .value := by
  unfold gravity_upward_slow
  split
  · exact absurd rfl h
  · rfl

/-- **C132, nothing to do.** Without points or without prisms the interpreted loop returns zeros, whatever the lengths of
the other arrays. -/
theorem C132_empty (h : e = [] ∨ P.rows = []) : gravity_upward_slow [e, n, u] P d = .ok (List.replicate e.length 0) := by
  have key : ∀ (i : Fin e.length) (j : Fin P.rows.length), False := fun i j => by
    rcases h with h | h
    · have := i.isLt; simp [h] at this
    · have := j.isLt; simp [h] at this
  rw [slow_eq, slow_loop_ok (G := fun _ _ => 0) fun i j => (key i j).elim]
  show Except.ok _ = _
  congr 1
  rcases h with rfl | h
  · rfl
  · refine List.ext_getElem (by simp) fun i h1 h2 => ?_
    rw [List.getElem_ofFn, List.getElem_replicate]
    have : (List.ofFn fun _ : Fin P.rows.length => (0 : Fl A)) = [] := by
      rw [← List.length_eq_zero_iff, List.length_ofFn, h]; rfl
    rw [this]
    rfl

/-- **C132, lengths that fit.** If the lengths fit, the interpreted loop returns, for each point, the left-to-right sum of
`gravity_u` over the prisms; elements beyond those lengths are ignored. -/
theorem C132_fits (hA : A.Monotone) {rows : List (Fin 6 → Fl A)} (h : Fits e n u ⟨6, rows⟩ d) :
    ∃ G : Fin e.length → Fin rows.length → Fl A,
      (∀ (i : Fin e.length) (j : Fin rows.length), prism.gravity_u e[i] (n[i.val]'(i.isLt.trans_le h.northing))
        (u[i.val]'(i.isLt.trans_le h.upward)) (rows[j] 0) (rows[j] 1) (rows[j] 2) (rows[j] 3) (rows[j] 4) (rows[j] 5)
        (d[j.val]'(j.isLt.trans_le h.densities)) = .ok (G i j)) ∧
      gravity_upward_slow [e, n, u] ⟨6, rows⟩ d = .ok (List.ofFn fun i => (List.ofFn (G i)).foldl (fun a b => a + b) 0) := by
  have key := fun (i : Fin e.length) (j : Fin rows.length) => slow_term_ok hA (e := e) (n := n) (u := u) (d := d) i.isLt
    (i.isLt.trans_le h.northing) (i.isLt.trans_le h.upward) j.isLt (j.isLt.trans_le h.densities)
  choose G h1 h2 using key
  refine ⟨G, h1, ?_⟩
  rw [slow_eq, slow_loop_ok (P := ⟨6, rows⟩) (G := G) h2]
  rfl

/-- **C132, lengths that do not fit.** With at least one point and one prism: if one of the other arrays is empty the interpreted loop
raises `IndexError`; if none is empty but `prisms` does not have six columns, `TypeError`; if it has six, but `northing`,
`upward` or `densities` is too short, `IndexError`. -/
theorem C132_raises (hA : A.Monotone) (he : e ≠ []) (hP : P.rows ≠ []) :
    ((n = [] ∨ u = [] ∨ d = []) → gravity_upward_slow [e, n, u] P d = .error .index) ∧
    (n ≠ [] → u ≠ [] → d ≠ [] → P.cols ≠ 6 → gravity_upward_slow [e, n, u] P d = .error .type) ∧
    (P.cols = 6 → (n.length < e.length ∨ u.length < e.length ∨ d.length < P.rows.length) →
      gravity_upward_slow [e, n, u] P d = .error .index) := by
  have he' := List.length_pos_iff.2 he
  have hP' := List.length_pos_iff.2 hP
  have first : ∀ {x}, slow_term e n u P d 0 0 = .error x → gravity_upward_slow [e, n, u] P d = .error x := fun {x} hx => by
    rw [slow_eq, slow_loop_error he' (fun i hi => absurd hi (Nat.not_lt_zero _)) hP' (fun j hj => absurd hj (Nat.not_lt_zero _)) hx]
    rfl
  refine ⟨fun h => first (slow_term_index ?_ he' hP'), fun hn hu hd hc => first (slow_term_type he' (List.length_pos_iff.2 hn)
    (List.length_pos_iff.2 hu) hP' (List.length_pos_iff.2 hd) hc), ?_⟩
  · rcases h with rfl | rfl | rfl <;> simp
  · obtain ⟨c, rows⟩ := P
    rintro rfl h
    have ok : ∀ i j, i < e.length → i < n.length → i < u.length → j < rows.length → j < d.length →
        ∃ g, slow_term e n u ⟨6, rows⟩ d i j = .ok g := fun i j h1 h2 h3 h4 h5 =>
      ((slow_term_ok hA h1 h2 h3 h4 h5).imp fun g hg => hg.2)
    rw [slow_eq]
    by_cases hd : d.length < rows.length
    · by_cases hnu : 0 < n.length ∧ 0 < u.length
      · rw [slow_loop_error (P := ⟨6, rows⟩) he' (fun i hi => absurd hi (Nat.not_lt_zero _)) hd
          (fun j hj => ok _ _ he' hnu.1 hnu.2 j.isLt hj) (slow_term_index (P := ⟨6, rows⟩) (by simp) he' hd)]
        rfl
      · rw [← slow_eq]
        exact first (slow_term_index (by omega) he' hP')
    · have hk : min n.length u.length < e.length := by
        have : ¬ d.length < (Table.mk 6 rows).rows.length := hd
        omega
      rw [slow_loop_error (P := ⟨6, rows⟩) hk (fun i hi j => ok _ _ i.isLt (by omega) (by omega) j.isLt
        (lt_of_lt_of_le j.isLt (not_lt.1 hd))) hP'
        (fun j hj => absurd hj (Nat.not_lt_zero _)) (slow_term_index (by omega) hk hP')]
      rfl

/-- **C132.** The interpreted loop on three coordinate arrays returns if and only if there is nothing to do or the lengths fit. -/
theorem C132_returns (hA : A.Monotone) : (∃ r, gravity_upward_slow [e, n, u] P d = .ok r) ↔
    e = [] ∨ P.rows = [] ∨ Fits e n u P d := by
  constructor
  · rintro ⟨r, hr⟩
    by_contra hcon
    push Not at hcon
    obtain ⟨he, hP, hf⟩ := hcon
    obtain ⟨h1, h2, h3⟩ := C132_raises (n := n) (u := u) (d := d) hA he hP
    by_cases hc : P.cols = 6
    · have := h3 hc (by
        by_contra hl
        push Not at hl
        exact hf ⟨hl.1, hl.2.1, hl.2.2, hc⟩)
      rw [this] at hr
      cases hr
    · by_cases h0 : n = [] ∨ u = [] ∨ d = []
      · rw [h1 h0] at hr; cases hr
      · push Not at h0
        rw [h2 h0.1 h0.2.1 h0.2.2 hc] at hr; cases hr
  · rintro (h | h | h)
    · exact ⟨_, C132_empty (.inl h)⟩
    · exact ⟨_, C132_empty (.inr h)⟩
    · obtain ⟨c, rows⟩ := P
      obtain rfl : c = 6 := h.columns
      obtain ⟨G, -, h2⟩ := C132_fits hA h
      exact ⟨_, h2⟩

theorem unchecked_lt {m : ℕ → Fl A} {a : List (Fl A)} {i : ℕ} (h : i < a.length) : unchecked m a i = a[i] := by
  unfold unchecked; rw [List.getElem?_eq_getElem h]; rfl

/-- the fields that a compiled loop adds up, when the lengths fit and there are at least six columns -/
theorem jit_field (b : Beyond A) {K : ℕ} {rows : List (Fin K → Fl A)} (hK : 6 ≤ K) (hn : e.length ≤ n.length) (hu : e.length ≤ u.length)
    (hd : rows.length ≤ d.length) (i : Fin e.length) (j : Fin rows.length) :
    fieldOf (jit_coordinates b e n u) (jit_prisms b ⟨K, rows⟩) (jit_densities b ⟨K, rows⟩ d) i j =
      prism.gravity_u e[i] (n[i.val]'(i.isLt.trans_le hn)) (u[i.val]'(i.isLt.trans_le hu)) (rows[j] (Fin.castLE hK 0))
        (rows[j] (Fin.castLE hK 1)) (rows[j] (Fin.castLE hK 2)) (rows[j] (Fin.castLE hK 3)) (rows[j] (Fin.castLE hK 4))
        (rows[j] (Fin.castLE hK 5)) (d[j.val]'(j.isLt.trans_le hd)) := by
  have hp : ∀ k : Fin 6, jit_prisms b ⟨K, rows⟩ j k = rows[j] (Fin.castLE hK k) := fun k => by
    show ((rows.flatMap List.ofFn)[j.val * K + (Fin.castLE hK k).val]?).getD _ = _
    rw [flat_getElem rows j.isLt]
    rfl
  unfold fieldOf
  rw [hp 0, hp 1, hp 2, hp 3, hp 4, hp 5]
  show prism.gravity_u e[i] (unchecked b.northing n i) (unchecked b.upward u i) _ _ _ _ _ _ (unchecked b.densities d j) = _
  rw [unchecked_lt (i.isLt.trans_le hn), unchecked_lt (i.isLt.trans_le hu), unchecked_lt (j.isLt.trans_le hd)]

/-- **C132, compiled loops.** If the lengths fit, the compiled loops read nothing beyond the arrays: whatever is in memory there, they return
what the interpreted loop returns (the parallel one for every distribution of the points and every interleaving). -/
theorem C132_compiled (hA : A.Monotone) (h : Fits e n u P d) (b : Beyond A) :
    ∃ r, gravity_upward_jit b e n u P d = .ok r ∧ gravity_upward_slow [e, n, u] P d = .ok (List.ofFn r) ∧
      ∀ {T : ℕ} {chunks : Fin T → List (Fin e.length)}, Distribution chunks → ∀ r',
        gravity_upward_parallel (jit_coordinates b e n u) (jit_prisms b P) (jit_densities b P d) chunks r' ↔ r' = r := by
  obtain ⟨c, rows⟩ := P
  obtain rfl : c = 6 := h.columns
  obtain ⟨G, h1, h2⟩ := C132_fits hA h
  have hr : gravity_upward_jit b e n u ⟨6, rows⟩ d = .ok fun i => (List.ofFn (G i)).foldl (fun a b => a + b) 0 :=
    (C83_forward _).2 ⟨G, fun i j => (jit_field b le_rfl h.northing h.upward h.densities i j).trans (h1 i j), fun _ => rfl⟩
  refine ⟨_, hr, h2, fun {T chunks} hc r' => ⟨fun hp => ?_, ?_⟩⟩
  · exact Except.ok.inj ((C84_deterministic hc hp).symm.trans hr)
  · rintro rfl
    obtain ⟨r0, hr0, -⟩ := C84_returns (c := jit_coordinates b e n u) (p := jit_prisms b ⟨6, rows⟩)
      (d := jit_densities b ⟨6, rows⟩ d) hA hc
    rwa [Except.ok.inj ((C84_deterministic hc hr0).symm.trans hr)] at hr0

/-- **C132, extra columns.** The compiled loops ignore the columns after the sixth: they return what they return for
`prisms[:, :6]`. The interpreted loop raises `TypeError`. -/
theorem C132_columns (hA : A.Monotone) (hK : 6 ≤ P.cols) (hn : e.length ≤ n.length) (hu : e.length ≤ u.length)
    (hd : P.rows.length ≤ d.length) (b : Beyond A) :
    (∃ r, gravity_upward_jit b e n u P d = .ok r ∧ gravity_upward_slow [e, n, u] (P.firstSix hK) d = .ok (List.ofFn r)) ∧
    (6 < P.cols → e ≠ [] → P.rows ≠ [] → gravity_upward_slow [e, n, u] P d = .error .type) := by
  refine ⟨?_, fun h6 he hP => (C132_raises hA he hP).2.1 ?_ ?_ ?_ (by omega)⟩
  · obtain ⟨K, rows⟩ := P
    have hK' : 6 ≤ K := hK
    have hf : Fits e n u ((Table.mk K rows).firstSix hK) d := ⟨hn, hu, by simpa [Table.firstSix] using hd, rfl⟩
    obtain ⟨G, h1, h2⟩ := C132_fits (rows := rows.map fun row k => row (Fin.castLE hK' k)) hA hf
    have hl : (rows.map fun row (k : Fin 6) => row (Fin.castLE hK' k)).length = rows.length := List.length_map _
    refine ⟨fun i => (List.ofFn fun j => G i (Fin.cast hl.symm j)).foldl (fun a b => a + b) 0,
      (C83_forward _).2 ⟨fun i j => G i (Fin.cast hl.symm j), fun i j => ?_, fun _ => rfl⟩, ?_⟩
    · rw [jit_field b hK' hn hu hd i j]
      have := h1 i (Fin.cast hl.symm j)
      simpa using this
    · rw [show (Table.mk K rows).firstSix hK = ⟨6, rows.map fun row k => row (Fin.castLE hK' k)⟩ from rfl, h2]
      congr 2
      funext i
      congr 1
      exact List.ofFn_congr hl (G i)
  · rintro rfl; exact he (List.length_eq_zero_iff.1 (by simpa using hn))
  · rintro rfl; exact he (List.length_eq_zero_iff.1 (by simpa using hu))
  · rintro rfl; exact hP (List.length_eq_zero_iff.1 (by simpa using hd))

theorem foldl_nan (l : List (Fl A)) : l.foldl (fun a b => a + b) Fl.nan = (Fl.nan : Fl A) := by
  induction l with
  | nil => rfl
  | cons x l ih => exact ih

theorem foldl_mem_nan {l : List (Fl A)} (h : Fl.nan ∈ l) (a : Fl A) : l.foldl (fun a b => a + b) a = (Fl.nan : Fl A) := by
  induction l generalizing a with
  | nil => cases h
  | cons x l ih =>
    rcases List.mem_cons.1 h with rfl | h
    · have : a + (Fl.nan : Fl A) = Fl.nan := by cases a <;> rfl
      rw [List.foldl_cons, this, foldl_nan]
    · exact ih h _

/-- **C132, densities missing.** With fewer densities than prisms the compiled loop does not raise: it reads beyond the array, and what is there
can make every result NaN. The interpreted loop raises `IndexError`. -/
theorem C132_short (hA : A.Monotone) (h : d.length < P.rows.length) :
    (∀ b, ∃ r, gravity_upward_jit b e n u P d = .ok r) ∧
    (∃ b r, gravity_upward_jit b e n u P d = .ok r ∧ ∀ i, r i = Fl.nan) ∧
    (e ≠ [] → P.cols = 6 → gravity_upward_slow [e, n, u] P d = .error .index) := by
  refine ⟨fun b => C83_total hA, ?_, fun he hc => (C132_raises hA he (by
    intro h0; rw [h0] at h; exact absurd h (Nat.not_lt_zero _))).2.2 hc (.inr (.inr h))⟩
  let b : Beyond A := ⟨fun _ => 0, fun _ => 0, fun _ => 0, fun _ => Fl.nan⟩
  obtain ⟨r, hr⟩ : ∃ r, gravity_upward_jit b e n u P d = .ok r := C83_total hA
  refine ⟨b, r, hr, fun i => ?_⟩
  obtain ⟨G, hG, hG2⟩ := (C83_forward r).1 hr
  rw [hG2 i]
  refine foldl_mem_nan ?_ _
  rw [List.mem_ofFn]
  refine ⟨⟨d.length, h⟩, ?_⟩
  have h1 := hG i ⟨d.length, h⟩
  unfold fieldOf prism.gravity_u at h1
  obtain ⟨k, -, hk⟩ := Py.bind_ok.1 h1
  rw [← Py.pure_ok.1 hk]
  have h2 : jit_densities b P d ⟨d.length, h⟩ = Fl.nan := by
    show (d[d.length]?).getD Fl.nan = Fl.nan
    rw [List.getElem?_eq_none le_rfl]
    rfl
  rw [h2]
  have h3 : ∀ x : Fl A, x * Fl.nan = Fl.nan := fun x => by cases x <;> rfl
  rw [h3]
  rfl

/-! ## Concrete cases -/

/-- two points, one prism: the lengths fit (an extra density is ignored) -/
example : Fits (A := Binary64) [0, 1] [0, 1] [5, 5] ⟨6, [![0, 1, 0, 1, 0, 1]]⟩ [2670, 1] :=
  ⟨by decide, by decide, by decide, rfl⟩

example : ∃ r, gravity_upward_slow (A := Binary64) [[0, 1], [0, 1], [5, 5]] ⟨6, [![0, 1, 0, 1, 0, 1]]⟩ [2670, 1] = .ok r :=
  (C132_returns Binary64_monotone).2 (.inr (.inr ⟨by decide, by decide, by decide, rfl⟩))

/-- two prisms, one density -/
example : gravity_upward_slow (A := Binary64) [[0, 1], [0, 1], [5, 5]] ⟨6, [![0, 1, 0, 1, 0, 1], ![0, 1, 0, 1, 0, 1]]⟩ [2670] =
    .error .index :=
  (C132_short Binary64_monotone (by decide)).2.2 (by simp) rfl

/-- seven columns -/
example : gravity_upward_slow (A := Binary64) [[0, 1], [0, 1], [5, 5]] ⟨7, [![0, 1, 0, 1, 0, 1, 2670]]⟩ [2670] = .error .type :=
  (C132_columns Binary64_monotone (P := ⟨7, [![0, 1, 0, 1, 0, 1, 2670]]⟩) (by decide) (by decide) (by decide) (by decide)
    ⟨fun _ => 0, fun _ => 0, fun _ => 0, fun _ => 0⟩).2 (by decide) (by simp) (by simp)

end Choclo
