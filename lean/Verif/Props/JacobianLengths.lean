import Verif.Model.JacobianLengths
import Verif.Props.Lengths
import Verif.Props.Jacobian
import Verif.Props.NaN

/-! # C139: the sensitivity matrix of the user guide with arrays of any lengths -/

namespace Choclo

open userguide

variable {A : Arith} {T : ℕ} {e n u d : List (Fl A)} {P : Table A}

/-- **C139.** Whatever the lengths, the number of columns and the contents of memory, `build_jacobian` returns exactly one matrix. -/
theorem C139_returns (hA : A.Monotone) {chunks : Fin T → List (Fin e.length)} (hc : Distribution chunks) (b : Beyond A) :
    ∃! J, build_jacobian_jit b e n u P chunks J := C85_returns hA hc

theorem jac_coord_n {b : Beyond A} {i : Fin e.length} (h : i.val < n.length) : (jit_coordinates b e n u).northing i = n[i.val] :=
  unchecked_lt h

theorem jac_coord_u {b : Beyond A} {i : Fin e.length} (h : i.val < u.length) : (jit_coordinates b e n u).upward i = u[i.val] :=
  unchecked_lt h

theorem jac_prism {b : Beyond A} (hK : 6 ≤ P.cols) (j : Fin P.rows.length) (k : Fin 6) :
    jit_prisms b P j k = P.rows[j] (Fin.castLE hK k) := by
  obtain ⟨K, rows⟩ := P
  show ((rows.flatMap List.ofFn)[j.val * K + (Fin.castLE hK k).val]?).getD _ = _
  rw [flat_getElem rows j.isLt]
  rfl

/-- **C139.** A row of the matrix whose point has all three coordinates is correct, whatever is in memory, for every
distribution of the points and every interleaving of the threads: its entries are the fields of unit density, computed from the first
six columns. -/
theorem C139_rows {chunks : Fin T → List (Fin e.length)} (hc : Distribution chunks) {b : Beyond A}
    {J : Fin e.length → Fin P.rows.length → Fl A} (hJ : build_jacobian_jit b e n u P chunks J) (hK : 6 ≤ P.cols)
    (i : Fin e.length) (hn : i.val < n.length) (hu : i.val < u.length) (j : Fin P.rows.length) :
    prism.gravity_u e[i] n[i.val] u[i.val] (P.rows[j] (Fin.castLE hK 0)) (P.rows[j] (Fin.castLE hK 1)) (P.rows[j] (Fin.castLE hK 2))
      (P.rows[j] (Fin.castLE hK 3)) (P.rows[j] (Fin.castLE hK 4)) (P.rows[j] (Fin.castLE hK 5)) 1 = .ok (J i j) := by
  have h := (C85_entries hc J).1 hJ i j
  unfold fieldOf at h
  rw [jac_coord_n hn, jac_coord_u hu, jac_prism hK, jac_prism hK, jac_prism hK, jac_prism hK, jac_prism hK, jac_prism hK] at h
  exact h

/-- **C139.** If there are enough northing and upward coordinates and at least six columns, the matrix does not depend on the contents of
memory, on the threads or on the further columns. -/
theorem C139_fits {T' : ℕ} {chunks : Fin T → List (Fin e.length)} {chunks' : Fin T' → List (Fin e.length)} (hc : Distribution chunks)
    (hc' : Distribution chunks') {b b' : Beyond A} {J J' : Fin e.length → Fin P.rows.length → Fl A}
    (hJ : build_jacobian_jit b e n u P chunks J) (hJ' : build_jacobian_jit b' e n u P chunks' J') (hK : 6 ≤ P.cols)
    (hn : e.length ≤ n.length) (hu : e.length ≤ u.length) : J = J' := by
  funext i j
  have h1 := C139_rows hc hJ hK i (i.isLt.trans_le hn) (i.isLt.trans_le hu) j
  have h2 := C139_rows hc' hJ' hK i (i.isLt.trans_le hn) (i.isLt.trans_le hu) j
  exact Except.ok.inj (h1.symm.trans h2)

/-- **C139.** A point without northing or upward coordinate does not raise an exception: its row is computed from what is in memory, and
what is there can make the row NaN while all other rows are correct. -/
theorem C139_short (hA : A.Monotone) {chunks : Fin T → List (Fin e.length)} (hc : Distribution chunks) :
    ∃ (b : Beyond A) (J : Fin e.length → Fin P.rows.length → Fl A), build_jacobian_jit b e n u P chunks J ∧
      ∀ i : Fin e.length, n.length ≤ i.val ∨ u.length ≤ i.val → ∀ j, J i j = Fl.nan := by
  let b : Beyond A := ⟨fun _ => Fl.nan, fun _ => Fl.nan, fun _ => 0, fun _ => 0⟩
  obtain ⟨J, hJ, -⟩ := C139_returns (n := n) (u := u) (P := P) hA hc b
  refine ⟨b, J, hJ, fun i hi j => ?_⟩
  have h := (C85_entries hc J).1 hJ i j
  refine C48_prism_gravity .u _ _ _ _ _ _ _ _ _ _ ?_ _ h
  have hu : ∀ {a : List (Fl A)}, a.length ≤ i.val → unchecked (fun _ => Fl.nan) a i = Fl.nan := fun {a} ha => by
    unfold unchecked; rw [List.getElem?_eq_none ha]; rfl
  rcases hi with hi | hi
  · have : (jit_coordinates b e n u).northing i = Fl.nan := hu hi
    rw [this]; simp
  · have : (jit_coordinates b e n u).upward i = Fl.nan := hu hi
    rw [this]; simp

/-- **C139.** With five columns the missing top of a prism is taken from the next row, where it is the west boundary of the next prism: a
matrix of wrong numbers, without exception. -/
theorem C139_narrow {rows : List (Fin 5 → Fl A)} {chunks : Fin T → List (Fin e.length)} (hc : Distribution chunks) {b : Beyond A}
    {J : Fin e.length → Fin rows.length → Fl A} (hJ : build_jacobian_jit b e n u ⟨5, rows⟩ chunks J)
    (i : Fin e.length) (hn : i.val < n.length) (hu : i.val < u.length) (j : Fin rows.length) (hj : j.val + 1 < rows.length) :
    prism.gravity_u e[i] n[i.val] u[i.val] (rows[j] 0) (rows[j] 1) (rows[j] 2) (rows[j] 3) (rows[j] 4) (rows[j.val + 1] 0) 1
      = .ok (J i j) := by
  have h := (C85_entries hc J).1 hJ i j
  have hp : ∀ k : Fin 5, jit_prisms b ⟨5, rows⟩ j (Fin.castSucc k) = rows[j] k := fun k => by
    show ((rows.flatMap List.ofFn)[j.val * 5 + k.val]?).getD _ = _
    rw [flat_getElem rows j.isLt]
    rfl
  have h5 : jit_prisms b ⟨5, rows⟩ j 5 = rows[j.val + 1] 0 := by
    show ((rows.flatMap List.ofFn)[j.val * 5 + 5]?).getD _ = _
    rw [show j.val * 5 + 5 = (j.val + 1) * 5 + (0 : Fin 5).val by simp; ring, flat_getElem rows hj]
    rfl
  unfold fieldOf at h
  have e0 : jit_prisms b ⟨5, rows⟩ j 0 = rows[j] 0 := hp 0
  have e1 : jit_prisms b ⟨5, rows⟩ j 1 = rows[j] 1 := hp 1
  have e2 : jit_prisms b ⟨5, rows⟩ j 2 = rows[j] 2 := hp 2
  have e3 : jit_prisms b ⟨5, rows⟩ j 3 = rows[j] 3 := hp 3
  have e4 : jit_prisms b ⟨5, rows⟩ j 4 = rows[j] 4 := hp 4
  rw [jac_coord_n hn, jac_coord_u hu, e0, e1, e2, e3, e4, h5] at h
  exact h

theorem dots_exist (s : Multiset (Fl A × Fl A)) : ∃ x, DotsTo s x := by
  induction s using Multiset.induction with
  | empty => exact ⟨_, .zero⟩
  | cons p s ih =>
    obtain ⟨x, hx⟩ := ih
    have := DotsTo.add (.mul p.1 p.2) hx
    rw [Multiset.singleton_add] at this
    exact ⟨_, this⟩

/-- **C139.** With a number of densities that is not the number of prisms, `jacobian @ densities` does nothing but raise `ValueError`,
although the compiled forward loop returns numbers for the same arrays. With the right number it never raises, and what it may return
are the sums of the products of the entries and the densities. -/
theorem C139_product (hA : A.Monotone) (b : Beyond A) (J : Fin e.length → Fin P.rows.length → Fl A) (d : List (Fl A)) :
    (d.length ≠ P.rows.length →
      (∀ x, Product J d x ↔ x = .error .value) ∧ ∃ r, gravity_upward_jit b e n u P d = .ok r) ∧
    (∀ h : d.length = P.rows.length,
      (∃ r, Product J d (.ok r)) ∧ (∀ x, ¬Product J d (.error x)) ∧
      ∀ r, Product J d (.ok r) ↔ matmul J (fun j => d[j.val]'(by rw [h]; exact j.isLt)) r) := by
  refine ⟨fun h => ⟨fun x => ⟨fun hp => ?_, ?_⟩, C83_total hA⟩, fun h => ⟨?_, fun x hp => ?_, fun r => ⟨fun hp => ?_, .product h r⟩⟩⟩
  · cases hp with
    | mismatch h => rfl
    | product h' => exact absurd h' h
  · rintro rfl
    exact .mismatch h
  · choose r hr using fun i => dots_exist
      ((Finset.univ : Finset (Fin P.rows.length)).val.map fun j => (J i j, d[j.val]'(by rw [h]; exact j.isLt)))
    exact ⟨r, .product h r hr⟩
  · cases hp with
    | mismatch h' => exact h' h
  · cases hp with
    | product h' _ hr => exact hr

/-- Concrete case: two points, two prisms, three northings, seven columns, one thread. -/
example : ∃! J, build_jacobian_jit (A := Binary64) (T := 1) ⟨fun _ => 0, fun _ => 0, fun _ => 0, fun _ => 0⟩ [0, 1] [0, 1, 2] [5, 5]
    ⟨7, [![0, 1, 0, 1, 0, 1, 9], ![2, 3, 0, 1, 0, 1, 9]]⟩ (fun _ => List.finRange 2) J :=
  C139_returns Binary64_monotone
    ⟨fun i => ⟨0, List.mem_finRange i⟩, fun _ => List.nodup_finRange 2, fun t t' h => absurd (Subsingleton.elim t t') h⟩ _

end Choclo
