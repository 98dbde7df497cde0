import Verif.Lemmas.Python2

/-! # The interpreter and the compiled code: the functions

The lemmas about the single functions are of one form; they were written by a script. -/

set_option linter.unusedTactic false
set_option linter.unreachableTactic false
set_option linter.unusedVariables false

namespace Choclo

variable {A : Arith}

open PNum

/-- goals about the Python types of expressions -/
macro "knd" : tactic => `(tactic| (simp only [isInt_neg, isInt_add, isInt_sub, isInt_mul, isInt_sqrt, isInt_log, isInt_arctan,
  isInt_cos, isInt_sin, isInt_radians, isNumpy_neg, isNumpy_add, isNumpy_sub, isNumpy_mul, isNumpy_sqrt, isNumpy_log,
  isNumpy_arctan, isNumpy_cos, isNumpy_sin, isNumpy_radians, Bool.or_true, Bool.true_or, Bool.and_false, Bool.false_and, *]; done))

/-- goals `Sam v w` and `w.number = v` -/
syntax "sam" : tactic
syntax "num" : tactic
macro_rules
  | `(tactic| num) => `(tactic| first
    | rfl
    | exact Sam.natLit _
    | exact Sam.negLit _
    | exact Sam.cast _
    | (focus (refine Sam.num ?_; sam; done)))
macro_rules
  | `(tactic| sam) => `(tactic| first
    | assumption
    | (refine Sam.arg ?_; assumption)
    | with_reducible exact Sam.zero'
    | with_reducible exact Sam.fzero
    | with_reducible exact Sam.pi
    | with_reducible exact Sam.half
    | with_reducible exact Sam.nan
    | with_reducible exact Sam.G
    | with_reducible exact Sam.mu0
    | (focus (with_reducible apply Sam.neg; sam; done))
    | (focus (with_reducible apply Sam.mul (hA := ‹PyArith _›); num; sam; done))
    | (focus (with_reducible apply Sam.add (hA := ‹PyArith _›); sam; sam; done))
    | (focus (with_reducible apply Sam.sub (hA := ‹PyArith _›); sam; sam; done))
    | (focus (with_reducible apply Sam.lit_sub; num; sam; knd; done))
    | (focus (with_reducible apply Sam.sqrt; sam; done))
    | (focus (with_reducible apply Sam.log; sam; done))
    | (focus (with_reducible apply Sam.arctan; sam; done))
    | (focus (with_reducible apply Sam.cos; sam; done))
    | (focus (with_reducible apply Sam.sin; sam; done))
    | (focus (with_reducible apply Sam.radians; sam; done)))

theorem two_ne : ¬Fl.eq (2 : Fl A) 0 = true := by
  show ¬(decide (((2 : ℕ) : ℝ) = ((0 : ℕ) : ℝ)) = true)
  norm_num
theorem four_ne : ¬Fl.eq (4 : Fl A) 0 = true := by
  show ¬(decide (((4 : ℕ) : ℝ) = ((0 : ℕ) : ℝ)) = true)
  norm_num
theorem pi_ne' (hA : PyArith A) : ¬Fl.eq (Fl.pi : Fl A) 0 = true := by
  show ¬(decide (A.pi = ((0 : ℕ) : ℝ)) = true)
  have := hA.pi_ne
  simpa using this

theorem two_ne_p : ¬Fl.eq (2 : PNum A).number 0 = true := by
  rw [show (2 : PNum A).number = 2 from Sam.natLit 2]; exact two_ne
theorem four_ne_p : ¬Fl.eq (4 : PNum A).number 0 = true := by
  rw [show (4 : PNum A).number = 4 from Sam.natLit 4]; exact four_ne
theorem pi_ne_p (hA : PyArith A) : ¬Fl.eq (PNum.pi : PNum A).number 0 = true := by
  rw [Sam.pi.num]; exact pi_ne' hA

/-- goal: an exception is allowed -/
macro "exc" : tactic => `(tactic| first
  | assumption
  | (focus (intro _ _; assumption; done))
  | (focus (intro h; refine absurd h (not_powRaises_numpy ?_); knd; done))
  | exact (‹∀ n, n ≤ 7 → PowRaises _ n → _› _ (by norm_num))
  | (focus (intro h _; refine absurd ?_ (Bool.eq_false_iff.1 h); knd; done))
  | exact fun _ h => absurd h ‹¬_ = true›
  | exact fun _ h => absurd h two_ne
  | exact fun _ h => absurd h (by first | exact two_ne | exact four_ne | exact pi_ne' ‹PyArith _›)
  | exact fun _ h => absurd h (by first | exact two_ne_p | exact four_ne_p | exact pi_ne_p ‹PyArith _›)
  | (intro _ _; assumption))

/-- an expression with an operand that is not finite is not finite -/
syntax "pbad_expr" : tactic
macro_rules
  | `(tactic| pbad_expr) => `(tactic| first
    | assumption
    | exact PNum.bad_nan
    | (focus (refine PNum.bad_neg ?_; pbad_expr; done))
    | (focus (refine PNum.bad_log ?_; pbad_expr; done))
    | (focus (refine PNum.bad_add_left ?_; pbad_expr; done))
    | (focus (refine PNum.bad_add_right ?_; pbad_expr; done))
    | (focus (refine PNum.bad_sub_left ?_; pbad_expr; done))
    | (focus (refine PNum.bad_sub_right ?_; pbad_expr; done))
    | (focus (refine PNum.bad_mul_left ?_; pbad_expr; done))
    | (focus (refine PNum.bad_mul_right ?_; pbad_expr; done)))

macro "pbad" : tactic => `(tactic| first
  | (focus (show PNum.Bad _; pbad_expr; done))
  | (focus (refine Or.inl ?_; pbad_expr; done))
  | (focus (refine Or.inr (Or.inl ?_); pbad_expr; done))
  | (focus (refine Or.inr (Or.inr ?_); pbad_expr; done)))

macro "prel" : tactic => `(tactic| first
  | (focus (show Sam _ _; sam; done))
  | (focus (refine And.intro ?_ (And.intro ?_ ?_) <;> (show Sam _ _; sam; done))))

/-- goal: the two programs take the same branch -/
syntax "cnd" : tactic
macro_rules
  | `(tactic| cnd) => `(tactic| first
    | (focus (with_reducible apply PNum.eq_num; num; num; done))
    | (focus (with_reducible apply PNum.lt_num; num; num; done))
    | (focus (with_reducible apply PNum.le_num; num; num; done))
    | assumption
    | (focus (with_reducible refine congrArg₂ and ?_ ?_; cnd; cnd; done))
    | (focus (with_reducible refine congrArg₂ or ?_ ?_; cnd; cnd; done)))

section
variable {γ δ ι : Type} [Rl γ δ] {P Q : Prop}

theorem PAg.bind1 {x : Py (Fl A)} {y : PyX (PNum A)} {f : Fl A → Py γ} {g : PNum A → PyX δ} (h : PAg P Q x y)
    (hf : ∀ v w, Sam v w → PAg P Q (f v) (g w)) (hb : ∀ w : PNum A, w.Bad → Rub P Q (g w)) :
    PAg P Q (x >>= f) (y >>= g) := PAg.bind h hf hb

theorem PAg.bind3 {x : Py (Fl A × Fl A × Fl A)} {y : PyX (PNum A × PNum A × PNum A)} {f : Fl A × Fl A × Fl A → Py γ}
    {g : PNum A × PNum A × PNum A → PyX δ} (h : PAg P Q x y)
    (hf : ∀ v w, Sam v.1 w.1 → Sam v.2.1 w.2.1 → Sam v.2.2 w.2.2 → PAg P Q (f v) (g w))
    (h1 : ∀ w : PNum A × PNum A × PNum A, w.1.Bad → Rub P Q (g w))
    (h2 : ∀ w : PNum A × PNum A × PNum A, w.2.1.Bad → Rub P Q (g w))
    (h3 : ∀ w : PNum A × PNum A × PNum A, w.2.2.Bad → Rub P Q (g w)) : PAg P Q (x >>= f) (y >>= g) :=
  PAg.bind h (fun v w h => hf v w h.1 h.2.1 h.2.2) fun w hw => hw.elim (h1 w) fun hw => hw.elim (h2 w) (h3 w)

theorem Rub.bind1 {y : PyX (PNum A)} {g : PNum A → PyX δ} (h : Rub P Q y) (hg : ∀ w : PNum A, w.Bad → Rub P Q (g w)) :
    Rub P Q (y >>= g) := Rub.bind' h hg

theorem Rub.bind3 {y : PyX (PNum A × PNum A × PNum A)} {g : PNum A × PNum A × PNum A → PyX δ} (h : Rub P Q y)
    (h1 : ∀ w : PNum A × PNum A × PNum A, w.1.Bad → Rub P Q (g w))
    (h2 : ∀ w : PNum A × PNum A × PNum A, w.2.1.Bad → Rub P Q (g w))
    (h3 : ∀ w : PNum A × PNum A × PNum A, w.2.2.Bad → Rub P Q (g w)) : Rub P Q (y >>= g) :=
  Rub.bind' h fun w hw => hw.elim (h1 w) fun hw => hw.elim (h2 w) (h3 w)

theorem PAg.loop1 {f : ι → Fl A → Py (ForInStep (Fl A))} {g : ι → PNum A → PyX (ForInStep (PNum A))}
    (h : ∀ i v w, Sam v w → PAg P Q (f i v) (g i w)) (hb : ∀ i (w : PNum A), w.Bad → Rub P Q (g i w))
    (l : List ι) {v : Fl A} {w : PNum A} (hw : Sam v w) : PAg P Q (forIn l v f) (forIn l w g) := PAg.loop h hb l v w hw

theorem Rub.loop1 {g : ι → PNum A → PyX (ForInStep (PNum A))} (hb : ∀ i (w : PNum A), w.Bad → Rub P Q (g i w))
    (l : List ι) {w : PNum A} (hw : w.Bad) : Rub P Q (forIn l w g) := Rub.loop hb l w hw

theorem PAg.loop3 {f : ι → Fl A × Fl A × Fl A → Py (ForInStep (Fl A × Fl A × Fl A))}
    {g : ι → PNum A × PNum A × PNum A → PyX (ForInStep (PNum A × PNum A × PNum A))}
    (h : ∀ i v w, Sam v.1 w.1 → Sam v.2.1 w.2.1 → Sam v.2.2 w.2.2 → PAg P Q (f i v) (g i w))
    (h1 : ∀ i (w : PNum A × PNum A × PNum A), w.1.Bad → Rub P Q (g i w))
    (h2 : ∀ i (w : PNum A × PNum A × PNum A), w.2.1.Bad → Rub P Q (g i w))
    (h3 : ∀ i (w : PNum A × PNum A × PNum A), w.2.2.Bad → Rub P Q (g i w)) (l : List ι)
    {v : Fl A × Fl A × Fl A} {w : PNum A × PNum A × PNum A} (hw : Sam v.1 w.1 ∧ Sam v.2.1 w.2.1 ∧ Sam v.2.2 w.2.2) :
    PAg P Q (forIn l v f) (forIn l w g) :=
  PAg.loop (fun i v w h' => h i v w h'.1 h'.2.1 h'.2.2)
    (fun i w hw => hw.elim (h1 i w) fun hw => hw.elim (h2 i w) (h3 i w)) l v w hw

theorem Rub.loop3 {g : ι → PNum A × PNum A × PNum A → PyX (ForInStep (PNum A × PNum A × PNum A))}
    (h1 : ∀ i (w : PNum A × PNum A × PNum A), w.1.Bad → Rub P Q (g i w))
    (h2 : ∀ i (w : PNum A × PNum A × PNum A), w.2.1.Bad → Rub P Q (g i w))
    (h3 : ∀ i (w : PNum A × PNum A × PNum A), w.2.2.Bad → Rub P Q (g i w)) (l : List ι)
    {w : PNum A × PNum A × PNum A} (hw : w.1.Bad ∨ w.2.1.Bad ∨ w.2.2.Bad) : Rub P Q (forIn l w g) :=
  Rub.loop (fun i w (hw : w.1.Bad ∨ w.2.1.Bad ∨ w.2.2.Bad) => hw.elim (h1 i w) fun hw => hw.elim (h2 i w) (h3 i w)) l w hw

end

macro "pag_step" : tactic => `(tactic| first
  | (focus (exfalso; contradiction; done))
  | (exfalso; exact four_ne ‹_›)
  | (exfalso; exact pi_ne' ‹_› ‹_›)
  | (exfalso; exact two_ne ‹_›)
  | (with_reducible apply PAg.pow; (focus sam); (focus knd); (focus exc); intro _ _ _ _)
  | (with_reducible refine PAg.div ?_ ?_ ?_ (fun _ _ _ _ _ => ?_) (fun _ _ _ _ => ?_); (focus num); (focus num); (focus exc))
  | (with_reducible refine PAg.div' ?_ ?_ ?_; (focus num); (focus num); (focus exc))
  | (with_reducible refine PAg.ite ?_ (fun _ => ?_) (fun _ => ?_); (focus cnd))
  | (focus (refine PAg.ok ?_; prel; done))
  | (with_reducible refine Rub.pow ?_ ?_ (fun _ _ _ => ?_); (focus knd); (focus exc))
  | (with_reducible refine Rub.div ?_ (fun _ _ _ => ?_); (focus exc))
  | (with_reducible refine Rub.ite ?_ ?_)
  | (focus (refine Rub.ok ?_; pbad; done)))

theorem Sam.num' (w : PNum A) (h : w.isInt = false) : Sam w.number w := .arg h

namespace Python

namespace utils

variable {P Q : Prop}

theorem pag_distance_cartesian (hA : PyArith A) (a b c d e f : PNum A) (ka : a.isInt = false) (kb : b.isInt = false) (kc : c.isInt = false) (kd : d.isInt = false) (ke : e.isInt = false) (kf : f.isInt = false)
    (h1 : PowRaises (a - d) 2 → P) (h2 : PowRaises (b - e) 2 → P) (h3 : PowRaises (c - f) 2 → P) :
    PAg P Q (Choclo.utils.distance_cartesian a.number b.number c.number d.number e.number f.number) (distance_cartesian a b c d e f) := by
  unfold distance_cartesian Choclo.utils.distance_cartesian
  (try dsimp only)
  repeat' pag_step

theorem pag_distance_spherical_core (hA : PyArith A) {a' b' c' d' e' f' g' h' : Fl A} (a b c d e f g h : PNum A) (ka : a.isInt = false) (kb : b.isInt = false) (kc : c.isInt = false) (kd : d.isInt = false) (ke : e.isInt = false) (kf : f.isInt = false) (kg : g.isInt = false) (kh : h.isInt = false)
    (sa : Sam a' a) (sb : Sam b' b) (sc : Sam c' c) (sd : Sam d' d) (se : Sam e' e) (sf : Sam f' f) (sg : Sam g' g) (sh : Sam h' h)
    (h1 : PowRaises (d - h) 2 → P) :
    PAg P Q (Choclo.utils.distance_spherical_core a' b' c' d' e' f' g' h') (distance_spherical_core a b c d e f g h) := by
  unfold distance_spherical_core Choclo.utils.distance_spherical_core
  (try dsimp only)
  repeat' pag_step

theorem pag_distance_spherical (hA : PyArith A) (a b c d e f : PNum A) (ka : a.isInt = false) (kb : b.isInt = false) (kc : c.isInt = false) (kd : d.isInt = false) (ke : e.isInt = false) (kf : f.isInt = false)
    (h1 : PowRaises (c - f) 2 → P) :
    PAg P Q (Choclo.utils.distance_spherical a.number b.number c.number d.number e.number f.number) (distance_spherical a b c d e f) := by
  unfold distance_spherical Choclo.utils.distance_spherical distance_spherical_core Choclo.utils.distance_spherical_core
  simp only [pure_bind, bind_assoc]
  repeat' pag_step

end utils

namespace point

variable {P Q : Prop}

theorem pag_kernel_pot (hA : PyArith A) (a b c d e f : PNum A) {r' : Fl A} (r : PNum A) (ka : a.isInt = false) (kb : b.isInt = false) (kc : c.isInt = false) (kd : d.isInt = false) (ke : e.isInt = false) (kf : f.isInt = false) (kr : r.isInt = false) (sr : Sam r' r)
    (h1 : PowRaises (a - d) 2 → P) (h2 : PowRaises (b - e) 2 → P) (h3 : PowRaises (c - f) 2 → P)
    (h4 : ∀ n, n ≤ 7 → PowRaises r n → P) (h5 : r.isNumpy = true ∨ Q) :
    PAg P Q (Choclo.point.kernel_pot a.number b.number c.number d.number e.number f.number r') (kernel_pot a b c d e f r) := by
  unfold kernel_pot Choclo.point.kernel_pot
  (try dsimp only)
  rcases h5 with h5 | h5 <;> repeat' pag_step

theorem pag_kernel_e (hA : PyArith A) (a b c d e f : PNum A) {r' : Fl A} (r : PNum A) (ka : a.isInt = false) (kb : b.isInt = false) (kc : c.isInt = false) (kd : d.isInt = false) (ke : e.isInt = false) (kf : f.isInt = false) (kr : r.isInt = false) (sr : Sam r' r)
    (h1 : PowRaises (a - d) 2 → P) (h2 : PowRaises (b - e) 2 → P) (h3 : PowRaises (c - f) 2 → P)
    (h4 : ∀ n, n ≤ 7 → PowRaises r n → P) (h5 : r.isNumpy = true ∨ Q) :
    PAg P Q (Choclo.point.kernel_e a.number b.number c.number d.number e.number f.number r') (kernel_e a b c d e f r) := by
  unfold kernel_e Choclo.point.kernel_e
  (try dsimp only)
  rcases h5 with h5 | h5 <;> repeat' pag_step

theorem pag_kernel_n (hA : PyArith A) (a b c d e f : PNum A) {r' : Fl A} (r : PNum A) (ka : a.isInt = false) (kb : b.isInt = false) (kc : c.isInt = false) (kd : d.isInt = false) (ke : e.isInt = false) (kf : f.isInt = false) (kr : r.isInt = false) (sr : Sam r' r)
    (h1 : PowRaises (a - d) 2 → P) (h2 : PowRaises (b - e) 2 → P) (h3 : PowRaises (c - f) 2 → P)
    (h4 : ∀ n, n ≤ 7 → PowRaises r n → P) (h5 : r.isNumpy = true ∨ Q) :
    PAg P Q (Choclo.point.kernel_n a.number b.number c.number d.number e.number f.number r') (kernel_n a b c d e f r) := by
  unfold kernel_n Choclo.point.kernel_n
  (try dsimp only)
  rcases h5 with h5 | h5 <;> repeat' pag_step

theorem pag_kernel_u (hA : PyArith A) (a b c d e f : PNum A) {r' : Fl A} (r : PNum A) (ka : a.isInt = false) (kb : b.isInt = false) (kc : c.isInt = false) (kd : d.isInt = false) (ke : e.isInt = false) (kf : f.isInt = false) (kr : r.isInt = false) (sr : Sam r' r)
    (h1 : PowRaises (a - d) 2 → P) (h2 : PowRaises (b - e) 2 → P) (h3 : PowRaises (c - f) 2 → P)
    (h4 : ∀ n, n ≤ 7 → PowRaises r n → P) (h5 : r.isNumpy = true ∨ Q) :
    PAg P Q (Choclo.point.kernel_u a.number b.number c.number d.number e.number f.number r') (kernel_u a b c d e f r) := by
  unfold kernel_u Choclo.point.kernel_u
  (try dsimp only)
  rcases h5 with h5 | h5 <;> repeat' pag_step

theorem pag_kernel_ee (hA : PyArith A) (a b c d e f : PNum A) {r' : Fl A} (r : PNum A) (ka : a.isInt = false) (kb : b.isInt = false) (kc : c.isInt = false) (kd : d.isInt = false) (ke : e.isInt = false) (kf : f.isInt = false) (kr : r.isInt = false) (sr : Sam r' r)
    (h1 : PowRaises (a - d) 2 → P) (h2 : PowRaises (b - e) 2 → P) (h3 : PowRaises (c - f) 2 → P)
    (h4 : ∀ n, n ≤ 7 → PowRaises r n → P) (h5 : r.isNumpy = true ∨ Q) :
    PAg P Q (Choclo.point.kernel_ee a.number b.number c.number d.number e.number f.number r') (kernel_ee a b c d e f r) := by
  unfold kernel_ee Choclo.point.kernel_ee
  (try dsimp only)
  rcases h5 with h5 | h5 <;> repeat' pag_step

theorem pag_kernel_nn (hA : PyArith A) (a b c d e f : PNum A) {r' : Fl A} (r : PNum A) (ka : a.isInt = false) (kb : b.isInt = false) (kc : c.isInt = false) (kd : d.isInt = false) (ke : e.isInt = false) (kf : f.isInt = false) (kr : r.isInt = false) (sr : Sam r' r)
    (h1 : PowRaises (a - d) 2 → P) (h2 : PowRaises (b - e) 2 → P) (h3 : PowRaises (c - f) 2 → P)
    (h4 : ∀ n, n ≤ 7 → PowRaises r n → P) (h5 : r.isNumpy = true ∨ Q) :
    PAg P Q (Choclo.point.kernel_nn a.number b.number c.number d.number e.number f.number r') (kernel_nn a b c d e f r) := by
  unfold kernel_nn Choclo.point.kernel_nn
  (try dsimp only)
  rcases h5 with h5 | h5 <;> repeat' pag_step

theorem pag_kernel_uu (hA : PyArith A) (a b c d e f : PNum A) {r' : Fl A} (r : PNum A) (ka : a.isInt = false) (kb : b.isInt = false) (kc : c.isInt = false) (kd : d.isInt = false) (ke : e.isInt = false) (kf : f.isInt = false) (kr : r.isInt = false) (sr : Sam r' r)
    (h1 : PowRaises (a - d) 2 → P) (h2 : PowRaises (b - e) 2 → P) (h3 : PowRaises (c - f) 2 → P)
    (h4 : ∀ n, n ≤ 7 → PowRaises r n → P) (h5 : r.isNumpy = true ∨ Q) :
    PAg P Q (Choclo.point.kernel_uu a.number b.number c.number d.number e.number f.number r') (kernel_uu a b c d e f r) := by
  unfold kernel_uu Choclo.point.kernel_uu
  (try dsimp only)
  rcases h5 with h5 | h5 <;> repeat' pag_step

theorem pag_kernel_en (hA : PyArith A) (a b c d e f : PNum A) {r' : Fl A} (r : PNum A) (ka : a.isInt = false) (kb : b.isInt = false) (kc : c.isInt = false) (kd : d.isInt = false) (ke : e.isInt = false) (kf : f.isInt = false) (kr : r.isInt = false) (sr : Sam r' r)
    (h1 : PowRaises (a - d) 2 → P) (h2 : PowRaises (b - e) 2 → P) (h3 : PowRaises (c - f) 2 → P)
    (h4 : ∀ n, n ≤ 7 → PowRaises r n → P) (h5 : r.isNumpy = true ∨ Q) :
    PAg P Q (Choclo.point.kernel_en a.number b.number c.number d.number e.number f.number r') (kernel_en a b c d e f r) := by
  unfold kernel_en Choclo.point.kernel_en
  (try dsimp only)
  rcases h5 with h5 | h5 <;> repeat' pag_step

theorem pag_kernel_eu (hA : PyArith A) (a b c d e f : PNum A) {r' : Fl A} (r : PNum A) (ka : a.isInt = false) (kb : b.isInt = false) (kc : c.isInt = false) (kd : d.isInt = false) (ke : e.isInt = false) (kf : f.isInt = false) (kr : r.isInt = false) (sr : Sam r' r)
    (h1 : PowRaises (a - d) 2 → P) (h2 : PowRaises (b - e) 2 → P) (h3 : PowRaises (c - f) 2 → P)
    (h4 : ∀ n, n ≤ 7 → PowRaises r n → P) (h5 : r.isNumpy = true ∨ Q) :
    PAg P Q (Choclo.point.kernel_eu a.number b.number c.number d.number e.number f.number r') (kernel_eu a b c d e f r) := by
  unfold kernel_eu Choclo.point.kernel_eu
  (try dsimp only)
  rcases h5 with h5 | h5 <;> repeat' pag_step

theorem pag_kernel_nu (hA : PyArith A) (a b c d e f : PNum A) {r' : Fl A} (r : PNum A) (ka : a.isInt = false) (kb : b.isInt = false) (kc : c.isInt = false) (kd : d.isInt = false) (ke : e.isInt = false) (kf : f.isInt = false) (kr : r.isInt = false) (sr : Sam r' r)
    (h1 : PowRaises (a - d) 2 → P) (h2 : PowRaises (b - e) 2 → P) (h3 : PowRaises (c - f) 2 → P)
    (h4 : ∀ n, n ≤ 7 → PowRaises r n → P) (h5 : r.isNumpy = true ∨ Q) :
    PAg P Q (Choclo.point.kernel_nu a.number b.number c.number d.number e.number f.number r') (kernel_nu a b c d e f r) := by
  unfold kernel_nu Choclo.point.kernel_nu
  (try dsimp only)
  rcases h5 with h5 | h5 <;> repeat' pag_step

theorem pag_kernel_eee (hA : PyArith A) (a b c d e f : PNum A) {r' : Fl A} (r : PNum A) (ka : a.isInt = false) (kb : b.isInt = false) (kc : c.isInt = false) (kd : d.isInt = false) (ke : e.isInt = false) (kf : f.isInt = false) (kr : r.isInt = false) (sr : Sam r' r)
    (h1 : PowRaises (a - d) 2 → P) (h2 : PowRaises (b - e) 2 → P) (h3 : PowRaises (c - f) 2 → P)
    (h6 : PowRaises (a - d) 3 → P) (h7 : PowRaises (b - e) 3 → P) (h8 : PowRaises (c - f) 3 → P)
    (h4 : ∀ n, n ≤ 7 → PowRaises r n → P) (h5 : r.isNumpy = true ∨ Q) :
    PAg P Q (Choclo.point.kernel_eee a.number b.number c.number d.number e.number f.number r') (kernel_eee a b c d e f r) := by
  unfold kernel_eee Choclo.point.kernel_eee
  (try dsimp only)
  rcases h5 with h5 | h5 <;> repeat' pag_step

theorem pag_kernel_nnn (hA : PyArith A) (a b c d e f : PNum A) {r' : Fl A} (r : PNum A) (ka : a.isInt = false) (kb : b.isInt = false) (kc : c.isInt = false) (kd : d.isInt = false) (ke : e.isInt = false) (kf : f.isInt = false) (kr : r.isInt = false) (sr : Sam r' r)
    (h1 : PowRaises (a - d) 2 → P) (h2 : PowRaises (b - e) 2 → P) (h3 : PowRaises (c - f) 2 → P)
    (h6 : PowRaises (a - d) 3 → P) (h7 : PowRaises (b - e) 3 → P) (h8 : PowRaises (c - f) 3 → P)
    (h4 : ∀ n, n ≤ 7 → PowRaises r n → P) (h5 : r.isNumpy = true ∨ Q) :
    PAg P Q (Choclo.point.kernel_nnn a.number b.number c.number d.number e.number f.number r') (kernel_nnn a b c d e f r) := by
  unfold kernel_nnn Choclo.point.kernel_nnn
  (try dsimp only)
  rcases h5 with h5 | h5 <;> repeat' pag_step

theorem pag_kernel_uuu (hA : PyArith A) (a b c d e f : PNum A) {r' : Fl A} (r : PNum A) (ka : a.isInt = false) (kb : b.isInt = false) (kc : c.isInt = false) (kd : d.isInt = false) (ke : e.isInt = false) (kf : f.isInt = false) (kr : r.isInt = false) (sr : Sam r' r)
    (h1 : PowRaises (a - d) 2 → P) (h2 : PowRaises (b - e) 2 → P) (h3 : PowRaises (c - f) 2 → P)
    (h6 : PowRaises (a - d) 3 → P) (h7 : PowRaises (b - e) 3 → P) (h8 : PowRaises (c - f) 3 → P)
    (h4 : ∀ n, n ≤ 7 → PowRaises r n → P) (h5 : r.isNumpy = true ∨ Q) :
    PAg P Q (Choclo.point.kernel_uuu a.number b.number c.number d.number e.number f.number r') (kernel_uuu a b c d e f r) := by
  unfold kernel_uuu Choclo.point.kernel_uuu
  (try dsimp only)
  rcases h5 with h5 | h5 <;> repeat' pag_step

theorem pag_kernel_een (hA : PyArith A) (a b c d e f : PNum A) {r' : Fl A} (r : PNum A) (ka : a.isInt = false) (kb : b.isInt = false) (kc : c.isInt = false) (kd : d.isInt = false) (ke : e.isInt = false) (kf : f.isInt = false) (kr : r.isInt = false) (sr : Sam r' r)
    (h1 : PowRaises (a - d) 2 → P) (h2 : PowRaises (b - e) 2 → P) (h3 : PowRaises (c - f) 2 → P)
    (h6 : PowRaises (a - d) 3 → P) (h7 : PowRaises (b - e) 3 → P) (h8 : PowRaises (c - f) 3 → P)
    (h4 : ∀ n, n ≤ 7 → PowRaises r n → P) (h5 : r.isNumpy = true ∨ Q) :
    PAg P Q (Choclo.point.kernel_een a.number b.number c.number d.number e.number f.number r') (kernel_een a b c d e f r) := by
  unfold kernel_een Choclo.point.kernel_een
  (try dsimp only)
  rcases h5 with h5 | h5 <;> repeat' pag_step

theorem pag_kernel_eeu (hA : PyArith A) (a b c d e f : PNum A) {r' : Fl A} (r : PNum A) (ka : a.isInt = false) (kb : b.isInt = false) (kc : c.isInt = false) (kd : d.isInt = false) (ke : e.isInt = false) (kf : f.isInt = false) (kr : r.isInt = false) (sr : Sam r' r)
    (h1 : PowRaises (a - d) 2 → P) (h2 : PowRaises (b - e) 2 → P) (h3 : PowRaises (c - f) 2 → P)
    (h6 : PowRaises (a - d) 3 → P) (h7 : PowRaises (b - e) 3 → P) (h8 : PowRaises (c - f) 3 → P)
    (h4 : ∀ n, n ≤ 7 → PowRaises r n → P) (h5 : r.isNumpy = true ∨ Q) :
    PAg P Q (Choclo.point.kernel_eeu a.number b.number c.number d.number e.number f.number r') (kernel_eeu a b c d e f r) := by
  unfold kernel_eeu Choclo.point.kernel_eeu
  (try dsimp only)
  rcases h5 with h5 | h5 <;> repeat' pag_step

theorem pag_kernel_nne (hA : PyArith A) (a b c d e f : PNum A) {r' : Fl A} (r : PNum A) (ka : a.isInt = false) (kb : b.isInt = false) (kc : c.isInt = false) (kd : d.isInt = false) (ke : e.isInt = false) (kf : f.isInt = false) (kr : r.isInt = false) (sr : Sam r' r)
    (h1 : PowRaises (a - d) 2 → P) (h2 : PowRaises (b - e) 2 → P) (h3 : PowRaises (c - f) 2 → P)
    (h6 : PowRaises (a - d) 3 → P) (h7 : PowRaises (b - e) 3 → P) (h8 : PowRaises (c - f) 3 → P)
    (h4 : ∀ n, n ≤ 7 → PowRaises r n → P) (h5 : r.isNumpy = true ∨ Q) :
    PAg P Q (Choclo.point.kernel_nne a.number b.number c.number d.number e.number f.number r') (kernel_nne a b c d e f r) := by
  unfold kernel_nne Choclo.point.kernel_nne
  (try dsimp only)
  rcases h5 with h5 | h5 <;> repeat' pag_step

theorem pag_kernel_nnu (hA : PyArith A) (a b c d e f : PNum A) {r' : Fl A} (r : PNum A) (ka : a.isInt = false) (kb : b.isInt = false) (kc : c.isInt = false) (kd : d.isInt = false) (ke : e.isInt = false) (kf : f.isInt = false) (kr : r.isInt = false) (sr : Sam r' r)
    (h1 : PowRaises (a - d) 2 → P) (h2 : PowRaises (b - e) 2 → P) (h3 : PowRaises (c - f) 2 → P)
    (h6 : PowRaises (a - d) 3 → P) (h7 : PowRaises (b - e) 3 → P) (h8 : PowRaises (c - f) 3 → P)
    (h4 : ∀ n, n ≤ 7 → PowRaises r n → P) (h5 : r.isNumpy = true ∨ Q) :
    PAg P Q (Choclo.point.kernel_nnu a.number b.number c.number d.number e.number f.number r') (kernel_nnu a b c d e f r) := by
  unfold kernel_nnu Choclo.point.kernel_nnu
  (try dsimp only)
  rcases h5 with h5 | h5 <;> repeat' pag_step

theorem pag_kernel_uue (hA : PyArith A) (a b c d e f : PNum A) {r' : Fl A} (r : PNum A) (ka : a.isInt = false) (kb : b.isInt = false) (kc : c.isInt = false) (kd : d.isInt = false) (ke : e.isInt = false) (kf : f.isInt = false) (kr : r.isInt = false) (sr : Sam r' r)
    (h1 : PowRaises (a - d) 2 → P) (h2 : PowRaises (b - e) 2 → P) (h3 : PowRaises (c - f) 2 → P)
    (h6 : PowRaises (a - d) 3 → P) (h7 : PowRaises (b - e) 3 → P) (h8 : PowRaises (c - f) 3 → P)
    (h4 : ∀ n, n ≤ 7 → PowRaises r n → P) (h5 : r.isNumpy = true ∨ Q) :
    PAg P Q (Choclo.point.kernel_uue a.number b.number c.number d.number e.number f.number r') (kernel_uue a b c d e f r) := by
  unfold kernel_uue Choclo.point.kernel_uue
  (try dsimp only)
  rcases h5 with h5 | h5 <;> repeat' pag_step

theorem pag_kernel_uun (hA : PyArith A) (a b c d e f : PNum A) {r' : Fl A} (r : PNum A) (ka : a.isInt = false) (kb : b.isInt = false) (kc : c.isInt = false) (kd : d.isInt = false) (ke : e.isInt = false) (kf : f.isInt = false) (kr : r.isInt = false) (sr : Sam r' r)
    (h1 : PowRaises (a - d) 2 → P) (h2 : PowRaises (b - e) 2 → P) (h3 : PowRaises (c - f) 2 → P)
    (h6 : PowRaises (a - d) 3 → P) (h7 : PowRaises (b - e) 3 → P) (h8 : PowRaises (c - f) 3 → P)
    (h4 : ∀ n, n ≤ 7 → PowRaises r n → P) (h5 : r.isNumpy = true ∨ Q) :
    PAg P Q (Choclo.point.kernel_uun a.number b.number c.number d.number e.number f.number r') (kernel_uun a b c d e f r) := by
  unfold kernel_uun Choclo.point.kernel_uun
  (try dsimp only)
  rcases h5 with h5 | h5 <;> repeat' pag_step

theorem pag_kernel_enu (hA : PyArith A) (a b c d e f : PNum A) {r' : Fl A} (r : PNum A) (ka : a.isInt = false) (kb : b.isInt = false) (kc : c.isInt = false) (kd : d.isInt = false) (ke : e.isInt = false) (kf : f.isInt = false) (kr : r.isInt = false) (sr : Sam r' r)
    (h1 : PowRaises (a - d) 2 → P) (h2 : PowRaises (b - e) 2 → P) (h3 : PowRaises (c - f) 2 → P)
    (h6 : PowRaises (a - d) 3 → P) (h7 : PowRaises (b - e) 3 → P) (h8 : PowRaises (c - f) 3 → P)
    (h4 : ∀ n, n ≤ 7 → PowRaises r n → P) (h5 : r.isNumpy = true ∨ Q) :
    PAg P Q (Choclo.point.kernel_enu a.number b.number c.number d.number e.number f.number r') (kernel_enu a b c d e f r) := by
  unfold kernel_enu Choclo.point.kernel_enu
  (try dsimp only)
  rcases h5 with h5 | h5 <;> repeat' pag_step

theorem pag_gravity_pot (hA : PyArith A) (a b c d e f m : PNum A) (ka : a.isInt = false) (kb : b.isInt = false) (kc : c.isInt = false) (kd : d.isInt = false) (ke : e.isInt = false) (kf : f.isInt = false) (km : m.isInt = false)
    (h1 : PowRaises (a - d) 2 → P) (h2 : PowRaises (b - e) 2 → P) (h3 : PowRaises (c - f) 2 → P) :
    PAg P Q (Choclo.point.gravity_pot a.number b.number c.number d.number e.number f.number m.number) (gravity_pot a b c d e f m) := by
  unfold gravity_pot Choclo.point.gravity_pot utils.distance_cartesian Choclo.utils.distance_cartesian
  simp only [pure_bind, bind_assoc]
  repeat' pag_step
  with_reducible refine PAg.bind1 (pag_kernel_pot hA _ _ _ _ _ _ _ (by assumption) (by assumption) (by assumption) (by assumption)
    (by assumption) (by assumption) (by knd) (by sam) (by assumption) (by assumption) (by assumption) ?_ (.inl (by knd))) ?_ ?_
  · exact fun n _ h => absurd h (not_powRaises_numpy (by knd))
  · intros; repeat' pag_step
  · intros; repeat' pag_step

theorem pag_gravity_e (hA : PyArith A) (a b c d e f m : PNum A) (ka : a.isInt = false) (kb : b.isInt = false) (kc : c.isInt = false) (kd : d.isInt = false) (ke : e.isInt = false) (kf : f.isInt = false) (km : m.isInt = false)
    (h1 : PowRaises (a - d) 2 → P) (h2 : PowRaises (b - e) 2 → P) (h3 : PowRaises (c - f) 2 → P) :
    PAg P Q (Choclo.point.gravity_e a.number b.number c.number d.number e.number f.number m.number) (gravity_e a b c d e f m) := by
  unfold gravity_e Choclo.point.gravity_e utils.distance_cartesian Choclo.utils.distance_cartesian
  simp only [pure_bind, bind_assoc]
  repeat' pag_step
  with_reducible refine PAg.bind1 (pag_kernel_e hA _ _ _ _ _ _ _ (by assumption) (by assumption) (by assumption) (by assumption)
    (by assumption) (by assumption) (by knd) (by sam) (by assumption) (by assumption) (by assumption) ?_ (.inl (by knd))) ?_ ?_
  · exact fun n _ h => absurd h (not_powRaises_numpy (by knd))
  · intros; repeat' pag_step
  · intros; repeat' pag_step

theorem pag_gravity_n (hA : PyArith A) (a b c d e f m : PNum A) (ka : a.isInt = false) (kb : b.isInt = false) (kc : c.isInt = false) (kd : d.isInt = false) (ke : e.isInt = false) (kf : f.isInt = false) (km : m.isInt = false)
    (h1 : PowRaises (a - d) 2 → P) (h2 : PowRaises (b - e) 2 → P) (h3 : PowRaises (c - f) 2 → P) :
    PAg P Q (Choclo.point.gravity_n a.number b.number c.number d.number e.number f.number m.number) (gravity_n a b c d e f m) := by
  unfold gravity_n Choclo.point.gravity_n utils.distance_cartesian Choclo.utils.distance_cartesian
  simp only [pure_bind, bind_assoc]
  repeat' pag_step
  with_reducible refine PAg.bind1 (pag_kernel_n hA _ _ _ _ _ _ _ (by assumption) (by assumption) (by assumption) (by assumption)
    (by assumption) (by assumption) (by knd) (by sam) (by assumption) (by assumption) (by assumption) ?_ (.inl (by knd))) ?_ ?_
  · exact fun n _ h => absurd h (not_powRaises_numpy (by knd))
  · intros; repeat' pag_step
  · intros; repeat' pag_step

theorem pag_gravity_u (hA : PyArith A) (a b c d e f m : PNum A) (ka : a.isInt = false) (kb : b.isInt = false) (kc : c.isInt = false) (kd : d.isInt = false) (ke : e.isInt = false) (kf : f.isInt = false) (km : m.isInt = false)
    (h1 : PowRaises (a - d) 2 → P) (h2 : PowRaises (b - e) 2 → P) (h3 : PowRaises (c - f) 2 → P) :
    PAg P Q (Choclo.point.gravity_u a.number b.number c.number d.number e.number f.number m.number) (gravity_u a b c d e f m) := by
  unfold gravity_u Choclo.point.gravity_u utils.distance_cartesian Choclo.utils.distance_cartesian
  simp only [pure_bind, bind_assoc]
  repeat' pag_step
  with_reducible refine PAg.bind1 (pag_kernel_u hA _ _ _ _ _ _ _ (by assumption) (by assumption) (by assumption) (by assumption)
    (by assumption) (by assumption) (by knd) (by sam) (by assumption) (by assumption) (by assumption) ?_ (.inl (by knd))) ?_ ?_
  · exact fun n _ h => absurd h (not_powRaises_numpy (by knd))
  · intros; repeat' pag_step
  · intros; repeat' pag_step

theorem pag_gravity_ee (hA : PyArith A) (a b c d e f m : PNum A) (ka : a.isInt = false) (kb : b.isInt = false) (kc : c.isInt = false) (kd : d.isInt = false) (ke : e.isInt = false) (kf : f.isInt = false) (km : m.isInt = false)
    (h1 : PowRaises (a - d) 2 → P) (h2 : PowRaises (b - e) 2 → P) (h3 : PowRaises (c - f) 2 → P) :
    PAg P Q (Choclo.point.gravity_ee a.number b.number c.number d.number e.number f.number m.number) (gravity_ee a b c d e f m) := by
  unfold gravity_ee Choclo.point.gravity_ee utils.distance_cartesian Choclo.utils.distance_cartesian
  simp only [pure_bind, bind_assoc]
  repeat' pag_step
  with_reducible refine PAg.bind1 (pag_kernel_ee hA _ _ _ _ _ _ _ (by assumption) (by assumption) (by assumption) (by assumption)
    (by assumption) (by assumption) (by knd) (by sam) (by assumption) (by assumption) (by assumption) ?_ (.inl (by knd))) ?_ ?_
  · exact fun n _ h => absurd h (not_powRaises_numpy (by knd))
  · intros; repeat' pag_step
  · intros; repeat' pag_step

theorem pag_gravity_nn (hA : PyArith A) (a b c d e f m : PNum A) (ka : a.isInt = false) (kb : b.isInt = false) (kc : c.isInt = false) (kd : d.isInt = false) (ke : e.isInt = false) (kf : f.isInt = false) (km : m.isInt = false)
    (h1 : PowRaises (a - d) 2 → P) (h2 : PowRaises (b - e) 2 → P) (h3 : PowRaises (c - f) 2 → P) :
    PAg P Q (Choclo.point.gravity_nn a.number b.number c.number d.number e.number f.number m.number) (gravity_nn a b c d e f m) := by
  unfold gravity_nn Choclo.point.gravity_nn utils.distance_cartesian Choclo.utils.distance_cartesian
  simp only [pure_bind, bind_assoc]
  repeat' pag_step
  with_reducible refine PAg.bind1 (pag_kernel_nn hA _ _ _ _ _ _ _ (by assumption) (by assumption) (by assumption) (by assumption)
    (by assumption) (by assumption) (by knd) (by sam) (by assumption) (by assumption) (by assumption) ?_ (.inl (by knd))) ?_ ?_
  · exact fun n _ h => absurd h (not_powRaises_numpy (by knd))
  · intros; repeat' pag_step
  · intros; repeat' pag_step

theorem pag_gravity_uu (hA : PyArith A) (a b c d e f m : PNum A) (ka : a.isInt = false) (kb : b.isInt = false) (kc : c.isInt = false) (kd : d.isInt = false) (ke : e.isInt = false) (kf : f.isInt = false) (km : m.isInt = false)
    (h1 : PowRaises (a - d) 2 → P) (h2 : PowRaises (b - e) 2 → P) (h3 : PowRaises (c - f) 2 → P) :
    PAg P Q (Choclo.point.gravity_uu a.number b.number c.number d.number e.number f.number m.number) (gravity_uu a b c d e f m) := by
  unfold gravity_uu Choclo.point.gravity_uu utils.distance_cartesian Choclo.utils.distance_cartesian
  simp only [pure_bind, bind_assoc]
  repeat' pag_step
  with_reducible refine PAg.bind1 (pag_kernel_uu hA _ _ _ _ _ _ _ (by assumption) (by assumption) (by assumption) (by assumption)
    (by assumption) (by assumption) (by knd) (by sam) (by assumption) (by assumption) (by assumption) ?_ (.inl (by knd))) ?_ ?_
  · exact fun n _ h => absurd h (not_powRaises_numpy (by knd))
  · intros; repeat' pag_step
  · intros; repeat' pag_step

theorem pag_gravity_en (hA : PyArith A) (a b c d e f m : PNum A) (ka : a.isInt = false) (kb : b.isInt = false) (kc : c.isInt = false) (kd : d.isInt = false) (ke : e.isInt = false) (kf : f.isInt = false) (km : m.isInt = false)
    (h1 : PowRaises (a - d) 2 → P) (h2 : PowRaises (b - e) 2 → P) (h3 : PowRaises (c - f) 2 → P) :
    PAg P Q (Choclo.point.gravity_en a.number b.number c.number d.number e.number f.number m.number) (gravity_en a b c d e f m) := by
  unfold gravity_en Choclo.point.gravity_en utils.distance_cartesian Choclo.utils.distance_cartesian
  simp only [pure_bind, bind_assoc]
  repeat' pag_step
  with_reducible refine PAg.bind1 (pag_kernel_en hA _ _ _ _ _ _ _ (by assumption) (by assumption) (by assumption) (by assumption)
    (by assumption) (by assumption) (by knd) (by sam) (by assumption) (by assumption) (by assumption) ?_ (.inl (by knd))) ?_ ?_
  · exact fun n _ h => absurd h (not_powRaises_numpy (by knd))
  · intros; repeat' pag_step
  · intros; repeat' pag_step

theorem pag_gravity_eu (hA : PyArith A) (a b c d e f m : PNum A) (ka : a.isInt = false) (kb : b.isInt = false) (kc : c.isInt = false) (kd : d.isInt = false) (ke : e.isInt = false) (kf : f.isInt = false) (km : m.isInt = false)
    (h1 : PowRaises (a - d) 2 → P) (h2 : PowRaises (b - e) 2 → P) (h3 : PowRaises (c - f) 2 → P) :
    PAg P Q (Choclo.point.gravity_eu a.number b.number c.number d.number e.number f.number m.number) (gravity_eu a b c d e f m) := by
  unfold gravity_eu Choclo.point.gravity_eu utils.distance_cartesian Choclo.utils.distance_cartesian
  simp only [pure_bind, bind_assoc]
  repeat' pag_step
  with_reducible refine PAg.bind1 (pag_kernel_eu hA _ _ _ _ _ _ _ (by assumption) (by assumption) (by assumption) (by assumption)
    (by assumption) (by assumption) (by knd) (by sam) (by assumption) (by assumption) (by assumption) ?_ (.inl (by knd))) ?_ ?_
  · exact fun n _ h => absurd h (not_powRaises_numpy (by knd))
  · intros; repeat' pag_step
  · intros; repeat' pag_step

theorem pag_gravity_nu (hA : PyArith A) (a b c d e f m : PNum A) (ka : a.isInt = false) (kb : b.isInt = false) (kc : c.isInt = false) (kd : d.isInt = false) (ke : e.isInt = false) (kf : f.isInt = false) (km : m.isInt = false)
    (h1 : PowRaises (a - d) 2 → P) (h2 : PowRaises (b - e) 2 → P) (h3 : PowRaises (c - f) 2 → P) :
    PAg P Q (Choclo.point.gravity_nu a.number b.number c.number d.number e.number f.number m.number) (gravity_nu a b c d e f m) := by
  unfold gravity_nu Choclo.point.gravity_nu utils.distance_cartesian Choclo.utils.distance_cartesian
  simp only [pure_bind, bind_assoc]
  repeat' pag_step
  with_reducible refine PAg.bind1 (pag_kernel_nu hA _ _ _ _ _ _ _ (by assumption) (by assumption) (by assumption) (by assumption)
    (by assumption) (by assumption) (by knd) (by sam) (by assumption) (by assumption) (by assumption) ?_ (.inl (by knd))) ?_ ?_
  · exact fun n _ h => absurd h (not_powRaises_numpy (by knd))
  · intros; repeat' pag_step
  · intros; repeat' pag_step

end point

namespace dipole

variable {P Q : Prop}

theorem pag_magnetic_e (hA : PyArith A) (a b c d e f m n o : PNum A) (ka : a.isInt = false) (kb : b.isInt = false) (kc : c.isInt = false) (kd : d.isInt = false) (ke : e.isInt = false) (kf : f.isInt = false) (km : m.isInt = false) (kn : n.isInt = false) (ko : o.isInt = false)
    (h1 : PowRaises (a - d) 2 → P) (h2 : PowRaises (b - e) 2 → P) (h3 : PowRaises (c - f) 2 → P) :
    PAg P Q (Choclo.dipole.magnetic_e a.number b.number c.number d.number e.number f.number m.number n.number o.number) (magnetic_e a b c d e f m n o) := by
  unfold magnetic_e Choclo.dipole.magnetic_e
  (try dsimp only)
  repeat' pag_step

theorem pag_magnetic_n (hA : PyArith A) (a b c d e f m n o : PNum A) (ka : a.isInt = false) (kb : b.isInt = false) (kc : c.isInt = false) (kd : d.isInt = false) (ke : e.isInt = false) (kf : f.isInt = false) (km : m.isInt = false) (kn : n.isInt = false) (ko : o.isInt = false)
    (h1 : PowRaises (a - d) 2 → P) (h2 : PowRaises (b - e) 2 → P) (h3 : PowRaises (c - f) 2 → P) :
    PAg P Q (Choclo.dipole.magnetic_n a.number b.number c.number d.number e.number f.number m.number n.number o.number) (magnetic_n a b c d e f m n o) := by
  unfold magnetic_n Choclo.dipole.magnetic_n
  (try dsimp only)
  repeat' pag_step

theorem pag_magnetic_u (hA : PyArith A) (a b c d e f m n o : PNum A) (ka : a.isInt = false) (kb : b.isInt = false) (kc : c.isInt = false) (kd : d.isInt = false) (ke : e.isInt = false) (kf : f.isInt = false) (km : m.isInt = false) (kn : n.isInt = false) (ko : o.isInt = false)
    (h1 : PowRaises (a - d) 2 → P) (h2 : PowRaises (b - e) 2 → P) (h3 : PowRaises (c - f) 2 → P) :
    PAg P Q (Choclo.dipole.magnetic_u a.number b.number c.number d.number e.number f.number m.number n.number o.number) (magnetic_u a b c d e f m n o) := by
  unfold magnetic_u Choclo.dipole.magnetic_u
  (try dsimp only)
  repeat' pag_step

theorem pag_magnetic_field (hA : PyArith A) (a b c d e f m n o : PNum A) (ka : a.isInt = false) (kb : b.isInt = false) (kc : c.isInt = false) (kd : d.isInt = false) (ke : e.isInt = false) (kf : f.isInt = false) (km : m.isInt = false) (kn : n.isInt = false) (ko : o.isInt = false)
    (h1 : PowRaises (a - d) 2 → P) (h2 : PowRaises (b - e) 2 → P) (h3 : PowRaises (c - f) 2 → P) :
    PAg P Q (Choclo.dipole.magnetic_field a.number b.number c.number d.number e.number f.number m.number n.number o.number) (magnetic_field a b c d e f m n o) := by
  unfold magnetic_field Choclo.dipole.magnetic_field
  (try dsimp only)
  repeat' pag_step

end dipole

end Python

end Choclo
