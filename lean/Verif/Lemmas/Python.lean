import Verif.Spec.Python
import Verif.Lemmas.Interp
import Verif.Lemmas.Signed

/-! # The interpreter's scalars and the compiled code's: single operations -/

namespace Choclo

variable {A : Arith}

namespace PNum

/-- an integer -/
def isInt : PNum A → Bool
  | .int _ => true
  | _ => false

theorem isInt_of {w : PNum A} (h : w.IsFloat) : w.isInt = false := by
  cases w with
  | int n => exact h.elim
  | _ => rfl

theorem isNumpy_of {w : PNum A} (h : w.IsNumpy) : w.isNumpy = true := by
  cases w with
  | np64 x => rfl
  | _ => exact h.elim

theorem isNumpy_mk (a b : PNum A) (x : SFl A) : (mk a b x).isNumpy = (a.isNumpy || b.isNumpy) := by
  unfold mk
  cases h : (a.isNumpy || b.isNumpy) <;> rfl

theorem value_mk (a b : PNum A) (x : SFl A) : (mk a b x).value = x := by
  unfold mk
  split <;> rfl

theorem isInt_mk (a b : PNum A) (x : SFl A) : (mk a b x).isInt = false := by
  unfold mk
  split <;> rfl

theorem isNumpy_neg (a : PNum A) : (-a).isNumpy = a.isNumpy := by cases a <;> rfl
theorem isInt_neg (a : PNum A) : (-a).isInt = a.isInt := by cases a <;> rfl

theorem isNumpy_add (a b : PNum A) : (a + b).isNumpy = (a.isNumpy || b.isNumpy) := by
  cases a <;> cases b <;> rfl
theorem isNumpy_sub (a b : PNum A) : (a - b).isNumpy = (a.isNumpy || b.isNumpy) := by
  cases a <;> cases b <;> rfl
theorem isNumpy_mul (a b : PNum A) : (a * b).isNumpy = (a.isNumpy || b.isNumpy) := by
  cases a <;> cases b <;> rfl
theorem isInt_add (a b : PNum A) : (a + b).isInt = (a.isInt && b.isInt) := by
  cases a <;> cases b <;> rfl
theorem isInt_sub (a b : PNum A) : (a - b).isInt = (a.isInt && b.isInt) := by
  cases a <;> cases b <;> rfl
theorem isInt_mul (a b : PNum A) : (a * b).isInt = (a.isInt && b.isInt) := by
  cases a <;> cases b <;> rfl

theorem value_add {a b : PNum A} (h : (a.isInt && b.isInt) = false) : (a + b).value = a.value + b.value := by
  cases a <;> cases b <;> first | rfl | exact absurd h (by simp [PNum.isInt])
theorem value_sub {a b : PNum A} (h : (a.isInt && b.isInt) = false) : (a - b).value = a.value - b.value := by
  cases a <;> cases b <;> first | rfl | exact absurd h (by simp [PNum.isInt])
theorem value_mul {a b : PNum A} (h : (a.isInt && b.isInt) = false) : (a * b).value = a.value * b.value := by
  cases a <;> cases b <;> first | rfl | exact absurd h (by simp [PNum.isInt])

theorem isNumpy_sqrt (a : PNum A) : (sqrt a).isNumpy = true := rfl
theorem isNumpy_log (a : PNum A) : (log a).isNumpy = true := rfl
theorem isNumpy_arctan (a : PNum A) : (arctan a).isNumpy = true := rfl
theorem isNumpy_cos (a : PNum A) : (cos a).isNumpy = true := rfl
theorem isNumpy_sin (a : PNum A) : (sin a).isNumpy = true := rfl
theorem isNumpy_radians (a : PNum A) : (radians a).isNumpy = true := rfl
theorem isInt_sqrt (a : PNum A) : (sqrt a).isInt = false := rfl
theorem isInt_log (a : PNum A) : (log a).isInt = false := rfl
theorem isInt_arctan (a : PNum A) : (arctan a).isInt = false := rfl
theorem isInt_cos (a : PNum A) : (cos a).isInt = false := rfl
theorem isInt_sin (a : PNum A) : (sin a).isInt = false := rfl
theorem isInt_radians (a : PNum A) : (radians a).isInt = false := rfl
theorem isInt_pi : (pi : PNum A).isInt = false := rfl
theorem isInt_nan : (nan : PNum A).isInt = false := rfl
theorem isInt_half : (half : PNum A).isInt = false := rfl
theorem isInt_fzero : (fzero : PNum A).isInt = false := rfl
theorem isInt_lit (x : ℝ) : (lit x : PNum A).isInt = false := rfl

/-- not a finite number -/
def Bad (w : PNum A) : Prop := w.value.Bad

theorem Bad.isInt {w : PNum A} (h : w.Bad) : w.isInt = false := by
  cases w with
  | int n =>
    exfalso
    apply h
    by_cases hn : (n : ℝ) = 0
    · exact .inl ⟨false, dif_pos hn⟩
    · exact .inr ⟨n, hn, dif_neg hn⟩
  | _ => rfl

theorem bad_nan : (nan : PNum A).Bad := SFl.bad_nan

theorem bad_neg {a : PNum A} (h : a.Bad) : (-a).Bad := by
  cases a with
  | int n => exact absurd h.isInt (by simp [PNum.isInt])
  | float x => exact SFl.bad_neg h
  | np64 x => exact SFl.bad_neg h

theorem bad_log {a : PNum A} (h : a.Bad) : (log a).Bad := SFl.bad_log h

theorem bad_add_left {a b : PNum A} (h : a.Bad) : (a + b).Bad := by
  show (a + b).value.Bad
  rw [value_add (by rw [h.isInt, Bool.false_and])]
  exact SFl.bad_add_left h
theorem bad_add_right {a b : PNum A} (h : b.Bad) : (a + b).Bad := by
  show (a + b).value.Bad
  rw [value_add (by rw [h.isInt, Bool.and_false])]
  exact SFl.bad_add_right h
theorem bad_sub_left {a b : PNum A} (h : a.Bad) : (a - b).Bad := by
  show (a - b).value.Bad
  rw [value_sub (by rw [h.isInt, Bool.false_and])]
  exact SFl.bad_sub_left h
theorem bad_sub_right {a b : PNum A} (h : b.Bad) : (a - b).Bad := by
  show (a - b).value.Bad
  rw [value_sub (by rw [h.isInt, Bool.and_false])]
  exact SFl.bad_sub_right h
theorem bad_mul_left {a b : PNum A} (h : a.Bad) : (a * b).Bad := by
  show (a * b).value.Bad
  rw [value_mul (by rw [h.isInt, Bool.false_and])]
  exact SFl.bad_mul_left h
theorem bad_mul_right {a b : PNum A} (h : b.Bad) : (a * b).Bad := by
  show (a * b).value.Bad
  rw [value_mul (by rw [h.isInt, Bool.and_false])]
  exact SFl.bad_mul_right h

theorem bad_number {w : PNum A} (h : w.Bad) : ¬w.number.IsFinite := by
  rcases SFl.bad_cases h with e | ⟨s, e⟩
  · rintro ⟨x, hx⟩
    rw [number, e] at hx
    cases hx
  · rintro ⟨x, hx⟩
    rw [number, e] at hx
    cases hx

end PNum

/-! ## Related values -/

/-- the same number, and an integer only if it is the integer 0 -/
structure Sam (v : Fl A) (w : PNum A) : Prop where
  num : w.number = v
  zero : w.isInt = false ∨ w = .int 0

namespace Sam

open PNum

theorem of_float {v : Fl A} {w : PNum A} (h : w.number = v) (hw : w.isInt = false) : Sam v w := ⟨h, .inl hw⟩

theorem arg {w : PNum A} (hw : w.isInt = false) : Sam w.number w := ⟨rfl, .inl hw⟩

theorem int_zero : (PNum.int 0 : PNum A).number = Fl.fin 0 := by
  show (SFl.fin ((0 : ℤ) : ℝ) : SFl A).erase = _
  rw [Int.cast_zero]
  exact SFl.erase_fin 0

theorem val_int (n : ℤ) : (PNum.int n : PNum A).number = Fl.fin (n : ℝ) := SFl.erase_fin _

theorem neg {v : Fl A} {w : PNum A} (h : Sam v w) : Sam (-v) (-w) := by
  refine ⟨?_, ?_⟩
  · rw [← h.num]
    cases w with
    | int n =>
      show (PNum.int (-n) : PNum A).number = _
      rw [val_int, val_int, Int.cast_neg]
      rfl
    | float x => exact SFl.erase_neg x
    | np64 x => exact SFl.erase_neg x
  · rcases h.zero with h | rfl
    · exact .inl (by rw [isInt_neg, h])
    · exact .inr rfl

theorem add (hA : PyArith A) {v v' : Fl A} {w w' : PNum A} (h : Sam v w) (h' : Sam v' w') : Sam (v + v') (w + w') := by
  have key : (w.isInt && w'.isInt) = false → Sam (v + v') (w + w') := by
    intro hk
    refine of_float ?_ (by rw [isInt_add, hk])
    rw [number, value_add hk, SFl.erase_add, ← h.num, ← h'.num]
    rfl
  rcases h.zero with hw | rfl
  · exact key (by rw [hw, Bool.false_and])
  · rcases h'.zero with hw' | rfl
    · exact key (by rw [hw', Bool.and_false])
    · refine ⟨?_, .inr rfl⟩
      rw [← h.num, ← h'.num]
      show (PNum.int 0 : PNum A).number = _
      rw [int_zero]
      show _ = (Fl.ofRaw (A.rnd (0 + 0)) : Fl A)
      rw [add_zero, hA.rnd_zero]
      rfl

theorem sub (hA : PyArith A) {v v' : Fl A} {w w' : PNum A} (h : Sam v w) (h' : Sam v' w') : Sam (v - v') (w - w') := by
  have key : (w.isInt && w'.isInt) = false → Sam (v - v') (w - w') := by
    intro hk
    refine of_float ?_ (by rw [isInt_sub, hk])
    rw [number, value_sub hk, SFl.erase_sub, ← h.num, ← h'.num]
    rfl
  rcases h.zero with hw | rfl
  · exact key (by rw [hw, Bool.false_and])
  · rcases h'.zero with hw' | rfl
    · exact key (by rw [hw', Bool.and_false])
    · refine ⟨?_, .inr rfl⟩
      rw [← h.num, ← h'.num]
      show (PNum.int 0 : PNum A).number = _
      rw [int_zero]
      show _ = (Fl.ofRaw (A.rnd (0 + -0)) : Fl A)
      rw [neg_zero, add_zero, hA.rnd_zero]
      rfl

/-- a literal minus a float -/
theorem lit_sub {v v' : Fl A} {w w' : PNum A} (h : w.number = v) (h' : Sam v' w') (hf : w'.isInt = false) :
    Sam (v - v') (w - w') := by
  refine of_float ?_ (by rw [isInt_sub, hf, Bool.and_false])
  rw [number, value_sub (by rw [hf, Bool.and_false]), SFl.erase_sub, ← h, ← h'.num]
  rfl

theorem mul (hA : PyArith A) {v v' : Fl A} {w w' : PNum A} (h : w.number = v) (h' : Sam v' w') : Sam (v * v') (w * w') := by
  have key : (w.isInt && w'.isInt) = false → Sam (v * v') (w * w') := by
    intro hk
    refine of_float ?_ (by rw [isInt_mul, hk])
    rw [number, value_mul hk, SFl.erase_mul, ← h, ← h'.num]
    rfl
  rcases h'.zero with hw | rfl
  · exact key (by rw [hw, Bool.and_false])
  · cases w with
    | int n =>
      have e : (PNum.int n * PNum.int 0 : PNum A) = PNum.int 0 := by
        show PNum.int (n * 0) = _
        rw [mul_zero]
      refine ⟨?_, .inr e⟩
      rw [e, ← h, ← h'.num, int_zero, val_int]
      show _ = (Fl.ofRaw (A.rnd ((n : ℝ) * 0)) : Fl A)
      rw [mul_zero, hA.rnd_zero]
      rfl
    | float x => exact key rfl
    | np64 x => exact key rfl

theorem sqrt {v : Fl A} {w : PNum A} (h : Sam v w) : Sam (Fl.sqrt v) (PNum.sqrt w) :=
  of_float (by rw [← h.num]; exact SFl.erase_sqrt _) rfl
theorem log {v : Fl A} {w : PNum A} (h : Sam v w) : Sam (Fl.log v) (PNum.log w) :=
  of_float (by rw [← h.num]; exact SFl.erase_log _) rfl
theorem arctan {v : Fl A} {w : PNum A} (h : Sam v w) : Sam (Fl.arctan v) (PNum.arctan w) :=
  of_float (by rw [← h.num]; exact SFl.erase_arctan _) rfl
theorem sin {v : Fl A} {w : PNum A} (h : Sam v w) : Sam (Fl.sin v) (PNum.sin w) :=
  of_float (by rw [← h.num]; exact SFl.erase_sin _) rfl
theorem cos {v : Fl A} {w : PNum A} (h : Sam v w) : Sam (Fl.cos v) (PNum.cos w) :=
  of_float (by rw [← h.num]; exact SFl.erase_cos _) rfl
theorem radians {v : Fl A} {w : PNum A} (h : Sam v w) : Sam (Fl.radians v) (PNum.radians w) :=
  of_float (by rw [← h.num]; exact SFl.erase_radians _) rfl

theorem pi : Sam (Fl.pi : Fl A) PNum.pi := of_float SFl.erase_pi rfl
theorem half : Sam (Fl.half : Fl A) PNum.half := of_float SFl.erase_half rfl
theorem nan : Sam (Fl.nan : Fl A) PNum.nan := of_float SFl.erase_nan rfl
theorem lit (x : ℝ) : Sam (Fl.lit x : Fl A) (PNum.lit x) := of_float (SFl.erase_lit x) rfl
theorem zero' : Sam (0 : Fl A) (0 : PNum A) := by
  refine ⟨?_, .inr rfl⟩
  exact (val_int ((0 : ℕ) : ℤ)).trans (by rw [Int.cast_natCast]; rfl)
theorem fzero : Sam (0 : Fl A) (PNum.fzero : PNum A) := of_float SFl.erase_lit0 rfl

theorem G : Sam (Choclo.GRAVITATIONAL_CONST : Fl A) Python.GRAVITATIONAL_CONST := lit _
theorem mu0 : Sam (Choclo.VACUUM_MAGNETIC_PERMEABILITY : Fl A) Python.VACUUM_MAGNETIC_PERMEABILITY := lit _

theorem natLit (n : ℕ) : (OfNat.ofNat n : PNum A).number = (OfNat.ofNat n : Fl A) :=
  (val_int (n : ℤ)).trans (by rw [Int.cast_natCast]; rfl)

theorem negLit (n : ℕ) : (-(OfNat.ofNat n) : PNum A).number = (-(OfNat.ofNat n) : Fl A) := by
  show (PNum.int (-(n : ℤ)) : PNum A).number = _
  rw [val_int, Int.cast_neg, Int.cast_natCast]
  rfl

theorem cast (n : ℤ) : ((n : PNum A)).number = ((n : Fl A)) := val_int n

theorem ite {p : Prop} [Decidable p] {v v' : Fl A} {w w' : PNum A} (h : Sam v w) (h' : Sam v' w') :
    Sam (if p then v else v') (if p then w else w') := by
  split
  · exact h
  · exact h'

end Sam

theorem PNum.eq_num {v v' : Fl A} {w w' : PNum A} (h : w.number = v) (h' : w'.number = v') :
    Fl.eq v v' = PNum.eq w w' := by
  rw [← h, ← h']; exact (SFl.eq_erase _ _).symm
theorem PNum.lt_num {v v' : Fl A} {w w' : PNum A} (h : w.number = v) (h' : w'.number = v') :
    Fl.lt v v' = PNum.lt w w' := by
  rw [← h, ← h']; exact (SFl.lt_erase _ _).symm
theorem PNum.le_num {v v' : Fl A} {w w' : PNum A} (h : w.number = v) (h' : w'.number = v') :
    Fl.le v v' = PNum.le w w' := by
  rw [← h, ← h']; exact (SFl.le_erase _ _).symm

end Choclo
