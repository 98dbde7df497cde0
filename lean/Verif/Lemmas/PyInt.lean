import Verif.Lemmas.Python4
import Verif.Lemmas.Typed

/-! # The interpreter and the compiled code: calls with integers -/

set_option linter.unusedTactic false
set_option linter.unreachableTactic false
set_option linter.unusedVariables false

namespace Choclo

variable {A : Arith}

open PNum

/-- the same number, and if it is an integer then one of magnitude at most `B` -/
structure SamB (B : ℕ) (v : Fl A) (w : PNum A) : Prop where
  num : w.number = v
  int : w.isInt = false ∨ ∃ n : ℤ, w = .int n ∧ |n| ≤ B

namespace SamB

variable {L B C : ℕ} {v v' : Fl A} {w w' : PNum A}

theorem of_sam (h : Sam v w) : SamB 0 v w := ⟨h.num, h.zero.imp id fun e => ⟨0, e, by simp⟩⟩

theorem toSam (h : SamB B v w) (hB : B = 0) : Sam v w := by
  refine ⟨h.num, h.int.imp id ?_⟩
  rintro ⟨n, rfl, hn⟩
  subst hB
  have : |n| ≤ 0 := by simpa using hn
  rw [abs_nonpos_iff.1 this]

theorem mono (h : SamB B v w) (hBC : B ≤ C) : SamB C v w :=
  ⟨h.num, h.int.imp id fun ⟨n, e, hn⟩ => ⟨n, e, hn.trans (by exact_mod_cast hBC)⟩⟩

theorem of_float (h : w.number = v) (hw : w.isInt = false) : SamB 0 v w := ⟨h, .inl hw⟩

theorem natLit (n : ℕ) : SamB n (OfNat.ofNat n : Fl A) (OfNat.ofNat n : PNum A) :=
  ⟨Sam.natLit n, .inr ⟨n, rfl, by simp⟩⟩

theorem neg (h : SamB B v w) : SamB B (-v) (-w) := by
  refine ⟨?_, ?_⟩
  · rw [← h.num]
    cases w with
    | int n =>
      show (PNum.int (-n) : PNum A).number = _
      rw [Sam.val_int, Sam.val_int, Int.cast_neg]
      rfl
    | float x => exact SFl.erase_neg x
    | np64 x => exact SFl.erase_neg x
  · rcases h.int with h | ⟨n, rfl, hn⟩
    · exact .inl (by rw [isInt_neg, h])
    · exact .inr ⟨-n, rfl, by rwa [abs_neg]⟩

theorem add (hE : A.ExactInts L) (h : SamB B v w) (h' : SamB C v' w') (hB : B + C ≤ L) : SamB (B + C) (v + v') (w + w') := by
  have key : (w.isInt && w'.isInt) = false → SamB (B + C) (v + v') (w + w') := by
    intro hk
    refine ⟨?_, .inl (by rw [isInt_add, hk])⟩
    rw [number, value_add hk, SFl.erase_add, ← h.num, ← h'.num]
    rfl
  rcases h.int with hw | ⟨n, rfl, hn⟩
  · exact key (by rw [hw, Bool.false_and])
  · rcases h'.int with hw' | ⟨m, rfl, hm⟩
    · exact key (by rw [hw', Bool.and_false])
    · have hb : |n + m| ≤ ((B + C : ℕ) : ℤ) := by
        push_cast
        exact (abs_add_le _ _).trans (add_le_add hn hm)
      refine ⟨?_, .inr ⟨n + m, rfl, hb⟩⟩
      rw [← h.num, ← h'.num, Sam.val_int, Sam.val_int]
      show (PNum.int (n + m) : PNum A).number = (Fl.ofRaw (A.rnd ((n : ℝ) + m)) : Fl A)
      rw [Sam.val_int, ← Int.cast_add, hE.1 _ (hb.trans (by exact_mod_cast hB))]
      rfl

theorem sub (hE : A.ExactInts L) (h : SamB B v w) (h' : SamB C v' w') (hB : B + C ≤ L) : SamB (B + C) (v - v') (w - w') := by
  have key : (w.isInt && w'.isInt) = false → SamB (B + C) (v - v') (w - w') := by
    intro hk
    refine ⟨?_, .inl (by rw [isInt_sub, hk])⟩
    rw [number, value_sub hk, SFl.erase_sub, ← h.num, ← h'.num]
    rfl
  rcases h.int with hw | ⟨n, rfl, hn⟩
  · exact key (by rw [hw, Bool.false_and])
  · rcases h'.int with hw' | ⟨m, rfl, hm⟩
    · exact key (by rw [hw', Bool.and_false])
    · have hb : |n - m| ≤ ((B + C : ℕ) : ℤ) := by
        push_cast
        exact (abs_sub _ _).trans (add_le_add hn hm)
      refine ⟨?_, .inr ⟨n - m, rfl, hb⟩⟩
      rw [← h.num, ← h'.num, Sam.val_int, Sam.val_int]
      show (PNum.int (n - m) : PNum A).number = (Fl.ofRaw (A.rnd ((n : ℝ) + -m)) : Fl A)
      rw [Sam.val_int, ← sub_eq_add_neg, ← Int.cast_sub, hE.1 _ (hb.trans (by exact_mod_cast hB))]
      rfl

theorem mul (hE : A.ExactInts L) (h : SamB B v w) (h' : SamB C v' w') (hB : B * C ≤ L) : SamB (B * C) (v * v') (w * w') := by
  have key : (w.isInt && w'.isInt) = false → SamB (B * C) (v * v') (w * w') := by
    intro hk
    refine ⟨?_, .inl (by rw [isInt_mul, hk])⟩
    rw [number, value_mul hk, SFl.erase_mul, ← h.num, ← h'.num]
    rfl
  rcases h.int with hw | ⟨n, rfl, hn⟩
  · exact key (by rw [hw, Bool.false_and])
  · rcases h'.int with hw' | ⟨m, rfl, hm⟩
    · exact key (by rw [hw', Bool.and_false])
    · have hb : |n * m| ≤ ((B * C : ℕ) : ℤ) := by
        push_cast
        rw [abs_mul]
        exact mul_le_mul hn hm (abs_nonneg _) (by positivity)
      refine ⟨?_, .inr ⟨n * m, rfl, hb⟩⟩
      rw [← h.num, ← h'.num, Sam.val_int, Sam.val_int]
      show (PNum.int (n * m) : PNum A).number = (Fl.ofRaw (A.rnd ((n : ℝ) * m)) : Fl A)
      rw [Sam.val_int, ← Int.cast_mul, hE.1 _ (hb.trans (by exact_mod_cast hB))]
      rfl

/-- a product with a number that is a float or the integer 0 -/
theorem mul0 (hA : PyArith A) (h : w.number = v) (h' : Sam v' w') : SamB 0 (v * v') (w * w') := of_sam (Sam.mul hA h h')

theorem addF (h : w.number = v) (h' : w'.number = v') (hk : (w.isInt && w'.isInt) = false) : SamB 0 (v + v') (w + w') := by
  refine ⟨?_, .inl (by rw [isInt_add, hk])⟩
  rw [number, value_add hk, SFl.erase_add, ← h, ← h']
  rfl

theorem subF (h : w.number = v) (h' : w'.number = v') (hk : (w.isInt && w'.isInt) = false) : SamB 0 (v - v') (w - w') := by
  refine ⟨?_, .inl (by rw [isInt_sub, hk])⟩
  rw [number, value_sub hk, SFl.erase_sub, ← h, ← h']
  rfl

theorem mulF (h : w.number = v) (h' : w'.number = v') (hk : (w.isInt && w'.isInt) = false) : SamB 0 (v * v') (w * w') := by
  refine ⟨?_, .inl (by rw [isInt_mul, hk])⟩
  rw [number, value_mul hk, SFl.erase_mul, ← h, ← h']
  rfl

theorem toSam' (h : SamB B v w) (hw : w.isInt = false) : Sam v w := ⟨h.num, .inl hw⟩

theorem sqrt (h : w.number = v) : SamB 0 (Fl.sqrt v) (PNum.sqrt w) := of_float (by rw [← h]; exact SFl.erase_sqrt _) rfl
theorem log (h : w.number = v) : SamB 0 (Fl.log v) (PNum.log w) := of_float (by rw [← h]; exact SFl.erase_log _) rfl
theorem arctan (h : w.number = v) : SamB 0 (Fl.arctan v) (PNum.arctan w) := of_float (by rw [← h]; exact SFl.erase_arctan _) rfl
theorem sin (h : w.number = v) : SamB 0 (Fl.sin v) (PNum.sin w) := of_float (by rw [← h]; exact SFl.erase_sin _) rfl
theorem cos (h : w.number = v) : SamB 0 (Fl.cos v) (PNum.cos w) := of_float (by rw [← h]; exact SFl.erase_cos _) rfl
theorem radians (h : w.number = v) : SamB 0 (Fl.radians v) (PNum.radians w) :=
  of_float (by rw [← h]; exact SFl.erase_radians _) rfl

theorem ite {p : Prop} [Decidable p] (h : SamB B v w) (h' : SamB B v' w') :
    SamB B (if p then v else v') (if p then w else w') := by
  split
  · exact h
  · exact h'

end SamB

/-- a power of a float or of a bounded integer -/
theorem powI_cases {L B : ℕ} {v : Fl A} {a : PNum A} {n : ℕ} (hE : A.ExactInts L) (hv : SamB B v a) (hB : B ^ n ≤ L) :
    ((a ^! n) = .error .overflow ∧ PowRaises a n)
    ∨ ∃ w, (a ^! n) = .ok w ∧ SamB (B ^ n) (v ^ n) w ∧ w.isInt = a.isInt ∧ w.isNumpy = a.isNumpy := by
  rcases hv.int with hi | ⟨m, rfl, hm⟩
  · rcases pow_cases (n := n) hi with h | ⟨w, e, hw, hwi, hwn⟩
    · exact .inl h
    · exact .inr ⟨w, e, ⟨by rw [hw, hv.num], .inl hwi⟩, by rw [hwi, hi], hwn⟩
  · have hb : |m ^ n| ≤ ((B ^ n : ℕ) : ℤ) := by
      rw [abs_pow]
      push_cast
      exact pow_le_pow_left₀ (abs_nonneg _) hm n
    refine .inr ⟨.int (m ^ n), rfl, ⟨?_, .inr ⟨_, rfl, hb⟩⟩, rfl, rfl⟩
    rw [← hv.num, Sam.val_int, Sam.val_int]
    show _ = (Fl.ofRaw (A.pow m n) : Fl A)
    rw [hE.2 m n (hb.trans (by exact_mod_cast hB)), Int.cast_pow]
    rfl

section
variable {α β : Type} [Rl α β] {P Q : Prop}

theorem PAg.powI {L B : ℕ} {v : Fl A} {a : PNum A} {n : ℕ} {x : Py α} {g : PNum A → PyX β} (hE : A.ExactInts L)
    (hv : SamB B v a) (hB : B ^ n ≤ L) (hP : PowRaises a n → P)
    (hg : ∀ w, SamB (B ^ n) (v ^ n) w → w.isInt = a.isInt → w.isNumpy = a.isNumpy → PAg P Q x (g w)) :
    PAg P Q x ((a ^! n) >>= g) := by
  rcases powI_cases hE hv hB with ⟨e, h⟩ | ⟨w, e, hw, hwi, hwn⟩
  · rw [e]; exact hP h
  · rw [e]; exact hg w hw hwi hwn

theorem Rub.powI {a : PNum A} {n : ℕ} {g : PNum A → PyX β} (hP : PowRaises a n → P)
    (hg : ∀ w, w.isInt = a.isInt → w.isNumpy = a.isNumpy → Rub P Q (g w)) : Rub P Q ((a ^! n) >>= g) := by
  cases hi : a.isInt with
  | false => exact Rub.pow hi hP (fun w h1 h2 => hg w (h1.trans hi.symm) h2)
  | true =>
    cases a with
    | int m => exact hg (.int (m ^ n)) rfl rfl
    | float x => cases hi
    | np64 x => cases hi

end

/-- goals `SamB B v w` with `B` to be found, and `w.number = v` -/
syntax "samb" : tactic
syntax "samf" : tactic
syntax "numb" : tactic
macro_rules
  | `(tactic| numb) => `(tactic| first
    | exact Sam.natLit _
    | exact Sam.negLit _
    | exact Sam.cast _
    | (refine SamB.num (B := ?B) ?h1
       case h1 => samb)
    | rfl)
macro_rules
  | `(tactic| samb) => `(tactic| first
    | assumption
    | (refine SamB.of_sam ?h1
       case h1 => assumption)
    | (refine SamB.of_float rfl ?h1
       case h1 => assumption)
    | with_reducible exact SamB.of_sam Sam.zero'
    | with_reducible exact SamB.of_sam Sam.fzero
    | with_reducible exact SamB.of_sam Sam.pi
    | with_reducible exact SamB.of_sam Sam.half
    | with_reducible exact SamB.of_sam Sam.nan
    | with_reducible exact SamB.of_sam Sam.G
    | with_reducible exact SamB.of_sam Sam.mu0
    | exact SamB.natLit 1
    | exact SamB.natLit 2
    | exact SamB.natLit 3
    | exact SamB.natLit 4
    | exact SamB.natLit 9
    | exact SamB.natLit 15
    | (with_reducible refine SamB.neg (B := ?B) (v := ?v) ?h1
       case h1 => samb)
    | (with_reducible refine SamB.add (B := ?B) (C := ?C) (v := ?v) (v' := ?v') ‹Arith.ExactInts _ _› ?h1 ?h2 ?h3
       case h1 => samb
       case h2 => samb
       case h3 => bnd)
    | (with_reducible refine SamB.sub (B := ?B) (C := ?C) (v := ?v) (v' := ?v') ‹Arith.ExactInts _ _› ?h1 ?h2 ?h3
       case h1 => samb
       case h2 => samb
       case h3 => bnd)
    | (with_reducible refine SamB.mul0 (v := ?v) (v' := ?v') ‹PyArith _› ?h1 ?h2
       case h2 => samf
       case h1 => numb)
    | (with_reducible refine SamB.mul (B := ?B) (C := ?C) (v := ?v) (v' := ?v') ‹Arith.ExactInts _ _› ?h1 ?h2 ?h3
       case h1 => samb
       case h2 => samb
       case h3 => bnd)
    | (with_reducible refine SamB.addF (v := ?v) (v' := ?v') ?h1 ?h2 ?h3
       case h1 => numb
       case h2 => numb
       case h3 => knd)
    | (with_reducible refine SamB.subF (v := ?v) (v' := ?v') ?h1 ?h2 ?h3
       case h1 => numb
       case h2 => numb
       case h3 => knd)
    | (with_reducible refine SamB.mulF (v := ?v) (v' := ?v') ?h1 ?h2 ?h3
       case h1 => numb
       case h2 => numb
       case h3 => knd)
    | (with_reducible refine SamB.sqrt (v := ?v) ?h1
       case h1 => numb)
    | (with_reducible refine SamB.log (v := ?v) ?h1
       case h1 => numb)
    | (with_reducible refine SamB.arctan (v := ?v) ?h1
       case h1 => numb)
    | (with_reducible refine SamB.cos (v := ?v) ?h1
       case h1 => numb)
    | (with_reducible refine SamB.sin (v := ?v) ?h1
       case h1 => numb)
    | (with_reducible refine SamB.radians (v := ?v) ?h1
       case h1 => numb))

/-- goal `Sam v w` -/
macro_rules
  | `(tactic| samf) => `(tactic| first
  | assumption
  | (refine SamB.toSam (B := ?B) ?h1 ?h2
     case h1 => samb
     case h2 => simp only [zero_mul, mul_zero, add_zero])
  | (refine SamB.toSam' (B := ?B) ?h1 ?h2
     case h1 => samb
     case h2 => knd))

macro "prelb" : tactic => `(tactic| first
  | (focus (show Sam _ _; samf; done))
  | (focus (refine And.intro ?_ (And.intro ?_ ?_) <;> (show Sam _ _; samf; done))))

/-- goal: the two programs take the same branch -/
syntax "cndb" : tactic
macro_rules
  | `(tactic| cndb) => `(tactic| first
    | (focus ((with_reducible apply PNum.eq_num); numb; numb; done))
    | (focus ((with_reducible apply PNum.lt_num); numb; numb; done))
    | (focus ((with_reducible apply PNum.le_num); numb; numb; done))
    | assumption
    | (focus ((with_reducible refine congrArg₂ and ?_ ?_); cndb; cndb; done))
    | (focus ((with_reducible refine congrArg₂ or ?_ ?_); cndb; cndb; done)))

macro "pagb_step" : tactic => `(tactic| first
  | (focus (exfalso; contradiction; done))
  | (exfalso; exact four_ne ‹_›)
  | (exfalso; exact pi_ne' ‹_› ‹_›)
  | (exfalso; exact two_ne ‹_›)
  | (with_reducible refine PAg.powI (B := ?B) (v := ?v) ‹Arith.ExactInts _ _› ?h1 ?h2 ?h3 (fun _ _ _ _ => ?_)
     case h1 => samb
     case h2 => bnd
     case h3 => exc)
  | ((with_reducible refine PAg.div ?_ ?_ ?_ (fun _ _ _ _ _ => ?_) (fun _ _ _ _ => ?_)); (focus numb); (focus numb); (focus exc))
  | ((with_reducible refine PAg.div' ?_ ?_ ?_); (focus numb); (focus numb); (focus exc))
  | ((with_reducible refine PAg.ite ?_ (fun _ => ?_) (fun _ => ?_)); (focus cndb))
  | (focus (refine PAg.ok ?_; prelb; done))
  | ((with_reducible refine Rub.powI ?_ (fun _ _ _ => ?_)); (focus exc))
  | ((with_reducible refine Rub.div ?_ (fun _ _ _ => ?_)); (focus exc))
  | (with_reducible refine Rub.ite ?_ ?_)
  | (focus (refine Rub.ok ?_; pbad; done)))

end Choclo
