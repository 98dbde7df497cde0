import Verif.Lemmas.PyInt

/-! # The interpreter and the compiled code: prisms, with integers

The lemmas about the single functions are of one form; they were written by a script. -/

set_option linter.unusedTactic false
set_option linter.unreachableTactic false
set_option linter.unusedVariables false

namespace Choclo

variable {A : Arith}

open PNum

namespace Python

namespace prism

variable {P Q : Prop} {L C D : ℕ}

/-- a kernel of the interpreted code agrees with the compiled one, on coordinates that are floats or integers of
magnitude at most `D`, for a radius that is an `np.float64` or if division by zero is allowed -/
def KernelOkB (D : ℕ) (P Q : Prop) (k : Choclo.prism.Kernel A) (k' : Kernel A) : Prop :=
  ∀ (x y z r : Fl A) (x' y' z' r' : PNum A), SamB D x x' → SamB D y y' → SamB D z z' → Sam r r' → r'.isInt = false →
    (PowRaises x' 2 → P) → (PowRaises y' 2 → P) → (PowRaises z' 2 → P) →
    (r'.isNumpy = true ∨ Q) → PAg P Q (k x y z r) (k' x' y' z' r')

theorem pagb_atan2 (hA : PyArith A) (hX : A.ExactInts L) {y x : Fl A} {y' x' : PNum A} (hy : y'.number = y) (hx : x'.number = x) :
    PAg P Q (Choclo.prism._safe_atan2 y x) (_safe_atan2 y' x') := by
  subst hy; subst hx
  unfold _safe_atan2 Choclo.prism._safe_atan2
  repeat' pagb_step

theorem pagb_log (hA : PyArith A) (hX : A.ExactInts L) (hD : 3 * D ^ 2 ≤ L) (hD1 : 2 * D ≤ L) :
    KernelOkB D P Q (Choclo.prism._safe_log (A := A)) _safe_log := by
  intro x y z r x' y' z' r' hx hy hz hr kr px py pz h5
  unfold _safe_log Choclo.prism._safe_log
  rcases h5 with h5 | h5 <;> repeat' pagb_step

theorem pagb_log' (hA : PyArith A) (hX : A.ExactInts L) (hD : 3 * D ^ 2 ≤ L) (hD1 : 2 * D ≤ L)
    {x y z r : Fl A} {x' y' z' r' : PNum A} (hx : SamB D x x') (hy : SamB D y y') (hz : SamB D z z')
    (hr : Sam r r') (kr : r'.isInt = false)
    (px : PowRaises x' 2 → P) (py : PowRaises y' 2 → P) (pz : PowRaises z' 2 → P) (h5 : r'.isNumpy = true ∨ Q) :
    PAg P Q (Choclo.prism._safe_log x y z r) (_safe_log x' y' z' r') :=
  pagb_log hA hX hD hD1 x y z r x' y' z' r' hx hy hz hr kr px py pz h5

theorem errs_atan2 (hA : PyArith A) (hX : A.ExactInts L) (y' x' : PNum A) : Errs P Q (_safe_atan2 y' x') :=
  PAg.errs (pagb_atan2 hA hX rfl rfl)

/-- a call of `_safe_atan2` or `_safe_log` -/
macro "pcallb" : tactic => `(tactic| first
  | exact pagb_log' ‹PyArith _› ‹Arith.ExactInts _ _› ‹3 * _ ^ 2 ≤ _› ‹2 * _ ≤ _› ‹_› ‹_› ‹_› ‹_› ‹_› ‹_› ‹_› ‹_› ‹_›
  | ((with_reducible refine pagb_atan2 ‹PyArith _› ‹Arith.ExactInts _ _› ?_ ?_); (focus numb); (focus numb))
  | ((with_reducible refine PAg.bind1 (pagb_atan2 ‹PyArith _› ‹Arith.ExactInts _ _› ?_ ?_) (fun _ _ _ => ?_) (fun _ _ => ?_)); (focus numb); (focus numb))
  | (with_reducible refine PAg.bind1 (pagb_log' ‹PyArith _› ‹Arith.ExactInts _ _› ‹3 * _ ^ 2 ≤ _› ‹2 * _ ≤ _› ‹_› ‹_› ‹_› ‹_› ‹_› ‹_› ‹_› ‹_› ‹_›) (fun _ _ _ => ?_) (fun _ _ => ?_))
  | (with_reducible refine Rub.bind (errs_atan2 ‹PyArith _› ‹Arith.ExactInts _ _› _ _) (fun _ => ?_))
  | (with_reducible refine Rub.bind (PAg.errs (pagb_log' ‹PyArith _› ‹Arith.ExactInts _ _› ‹3 * _ ^ 2 ≤ _› ‹2 * _ ≤ _› ‹SamB _ _ _› ‹SamB _ _ _› ‹SamB _ _ _› ‹Sam _ _› ‹_› ‹_› ‹_› ‹_› ‹_›)) (fun _ => ?_)))

set_option maxHeartbeats 2000000 in
theorem pagb_kernel_pot (hA : PyArith A) (hX : A.ExactInts L) (hD : 3 * D ^ 2 ≤ L) (hD1 : 2 * D ≤ L) : KernelOkB D P Q (Choclo.prism.kernel_pot (A := A)) kernel_pot := by
  intro x y z r x' y' z' r' hx hy hz hr kr px py pz h5
  unfold kernel_pot Choclo.prism.kernel_pot
  (try dsimp only)
  repeat' (first | pcallb | pagb_step)

theorem pagb_kernel_e (hA : PyArith A) (hX : A.ExactInts L) (hD : 3 * D ^ 2 ≤ L) (hD1 : 2 * D ≤ L) : KernelOkB D P Q (Choclo.prism.kernel_e (A := A)) kernel_e := by
  intro x y z r x' y' z' r' hx hy hz hr kr px py pz h5
  unfold kernel_e Choclo.prism.kernel_e
  (try dsimp only)
  repeat' (first | pcallb | pagb_step)

theorem pagb_kernel_n (hA : PyArith A) (hX : A.ExactInts L) (hD : 3 * D ^ 2 ≤ L) (hD1 : 2 * D ≤ L) : KernelOkB D P Q (Choclo.prism.kernel_n (A := A)) kernel_n := by
  intro x y z r x' y' z' r' hx hy hz hr kr px py pz h5
  unfold kernel_n Choclo.prism.kernel_n
  (try dsimp only)
  repeat' (first | pcallb | pagb_step)

theorem pagb_kernel_u (hA : PyArith A) (hX : A.ExactInts L) (hD : 3 * D ^ 2 ≤ L) (hD1 : 2 * D ≤ L) : KernelOkB D P Q (Choclo.prism.kernel_u (A := A)) kernel_u := by
  intro x y z r x' y' z' r' hx hy hz hr kr px py pz h5
  unfold kernel_u Choclo.prism.kernel_u
  (try dsimp only)
  repeat' (first | pcallb | pagb_step)

theorem pagb_kernel_ee (hA : PyArith A) (hX : A.ExactInts L) (hD : 3 * D ^ 2 ≤ L) (hD1 : 2 * D ≤ L) : KernelOkB D P Q (Choclo.prism.kernel_ee (A := A)) kernel_ee := by
  intro x y z r x' y' z' r' hx hy hz hr kr px py pz h5
  unfold kernel_ee Choclo.prism.kernel_ee
  (try dsimp only)
  repeat' (first | pcallb | pagb_step)

theorem pagb_kernel_nn (hA : PyArith A) (hX : A.ExactInts L) (hD : 3 * D ^ 2 ≤ L) (hD1 : 2 * D ≤ L) : KernelOkB D P Q (Choclo.prism.kernel_nn (A := A)) kernel_nn := by
  intro x y z r x' y' z' r' hx hy hz hr kr px py pz h5
  unfold kernel_nn Choclo.prism.kernel_nn
  (try dsimp only)
  repeat' (first | pcallb | pagb_step)

theorem pagb_kernel_uu (hA : PyArith A) (hX : A.ExactInts L) (hD : 3 * D ^ 2 ≤ L) (hD1 : 2 * D ≤ L) : KernelOkB D P Q (Choclo.prism.kernel_uu (A := A)) kernel_uu := by
  intro x y z r x' y' z' r' hx hy hz hr kr px py pz h5
  unfold kernel_uu Choclo.prism.kernel_uu
  (try dsimp only)
  repeat' (first | pcallb | pagb_step)

theorem pagb_kernel_en (hA : PyArith A) (hX : A.ExactInts L) (hD : 3 * D ^ 2 ≤ L) (hD1 : 2 * D ≤ L) : KernelOkB D P Q (Choclo.prism.kernel_en (A := A)) kernel_en := by
  intro x y z r x' y' z' r' hx hy hz hr kr px py pz h5
  unfold kernel_en Choclo.prism.kernel_en
  (try dsimp only)
  repeat' (first | pcallb | pagb_step)

theorem pagb_kernel_eu (hA : PyArith A) (hX : A.ExactInts L) (hD : 3 * D ^ 2 ≤ L) (hD1 : 2 * D ≤ L) : KernelOkB D P Q (Choclo.prism.kernel_eu (A := A)) kernel_eu := by
  intro x y z r x' y' z' r' hx hy hz hr kr px py pz h5
  unfold kernel_eu Choclo.prism.kernel_eu
  (try dsimp only)
  repeat' (first | pcallb | pagb_step)

theorem pagb_kernel_nu (hA : PyArith A) (hX : A.ExactInts L) (hD : 3 * D ^ 2 ≤ L) (hD1 : 2 * D ≤ L) : KernelOkB D P Q (Choclo.prism.kernel_nu (A := A)) kernel_nu := by
  intro x y z r x' y' z' r' hx hy hz hr kr px py pz h5
  unfold kernel_nu Choclo.prism.kernel_nu
  (try dsimp only)
  repeat' (first | pcallb | pagb_step)

theorem pagb__kernel_iii (hA : PyArith A) (hX : A.ExactInts L) (hD : 3 * D ^ 2 ≤ L) (hD1 : 2 * D ≤ L) (hD4 : 4 * D ^ 4 ≤ L) (hD2 : 4 * D ^ 2 ≤ L) : KernelOkB D P Q (Choclo.prism._kernel_iii (A := A)) _kernel_iii := by
  intro x y z r x' y' z' r' hx hy hz hr kr px py pz h5
  unfold _kernel_iii Choclo.prism._kernel_iii
  (try dsimp only)
  rcases h5 with h5 | h5 <;> repeat' pagb_step

theorem pagb__kernel_iij (hA : PyArith A) (hX : A.ExactInts L) (hD : 3 * D ^ 2 ≤ L) (hD1 : 2 * D ≤ L) (hD4 : 4 * D ^ 4 ≤ L) (hD2 : 4 * D ^ 2 ≤ L) : KernelOkB D P Q (Choclo.prism._kernel_iij (A := A)) _kernel_iij := by
  intro x y z r x' y' z' r' hx hy hz hr kr px py pz h5
  unfold _kernel_iij Choclo.prism._kernel_iij
  (try dsimp only)
  rcases h5 with h5 | h5 <;> repeat' pagb_step

theorem pagb_kernel_enu (hA : PyArith A) (hX : A.ExactInts L) (hD : 3 * D ^ 2 ≤ L) (hD1 : 2 * D ≤ L) (hD4 : 4 * D ^ 4 ≤ L) (hD2 : 4 * D ^ 2 ≤ L) : KernelOkB D P Q (Choclo.prism.kernel_enu (A := A)) kernel_enu := by
  intro x y z r x' y' z' r' hx hy hz hr kr px py pz h5
  unfold kernel_enu Choclo.prism.kernel_enu
  (try dsimp only)
  rcases h5 with h5 | h5 <;> repeat' pagb_step

theorem pagb_kernel_eee (hA : PyArith A) (hX : A.ExactInts L) (hD : 3 * D ^ 2 ≤ L) (hD1 : 2 * D ≤ L) (hD4 : 4 * D ^ 4 ≤ L) (hD2 : 4 * D ^ 2 ≤ L) : KernelOkB D P Q (Choclo.prism.kernel_eee (A := A)) kernel_eee :=
  fun x y z r x' y' z' r' hx hy hz hr kr px py pz h5 =>
    pagb__kernel_iii hA hX hD hD1 hD4 hD2 x y z r x' y' z' r' hx hy hz hr kr px py pz h5

theorem pagb_kernel_nnn (hA : PyArith A) (hX : A.ExactInts L) (hD : 3 * D ^ 2 ≤ L) (hD1 : 2 * D ≤ L) (hD4 : 4 * D ^ 4 ≤ L) (hD2 : 4 * D ^ 2 ≤ L) : KernelOkB D P Q (Choclo.prism.kernel_nnn (A := A)) kernel_nnn :=
  fun x y z r x' y' z' r' hx hy hz hr kr px py pz h5 =>
    pagb__kernel_iii hA hX hD hD1 hD4 hD2 y z x r y' z' x' r' hy hz hx hr kr py pz px h5

theorem pagb_kernel_uuu (hA : PyArith A) (hX : A.ExactInts L) (hD : 3 * D ^ 2 ≤ L) (hD1 : 2 * D ≤ L) (hD4 : 4 * D ^ 4 ≤ L) (hD2 : 4 * D ^ 2 ≤ L) : KernelOkB D P Q (Choclo.prism.kernel_uuu (A := A)) kernel_uuu :=
  fun x y z r x' y' z' r' hx hy hz hr kr px py pz h5 =>
    pagb__kernel_iii hA hX hD hD1 hD4 hD2 z y x r z' y' x' r' hz hy hx hr kr pz py px h5

theorem pagb_kernel_een (hA : PyArith A) (hX : A.ExactInts L) (hD : 3 * D ^ 2 ≤ L) (hD1 : 2 * D ≤ L) (hD4 : 4 * D ^ 4 ≤ L) (hD2 : 4 * D ^ 2 ≤ L) : KernelOkB D P Q (Choclo.prism.kernel_een (A := A)) kernel_een :=
  fun x y z r x' y' z' r' hx hy hz hr kr px py pz h5 =>
    pagb__kernel_iij hA hX hD hD1 hD4 hD2 x y z r x' y' z' r' hx hy hz hr kr px py pz h5

theorem pagb_kernel_eeu (hA : PyArith A) (hX : A.ExactInts L) (hD : 3 * D ^ 2 ≤ L) (hD1 : 2 * D ≤ L) (hD4 : 4 * D ^ 4 ≤ L) (hD2 : 4 * D ^ 2 ≤ L) : KernelOkB D P Q (Choclo.prism.kernel_eeu (A := A)) kernel_eeu :=
  fun x y z r x' y' z' r' hx hy hz hr kr px py pz h5 =>
    pagb__kernel_iij hA hX hD hD1 hD4 hD2 x z y r x' z' y' r' hx hz hy hr kr px pz py h5

theorem pagb_kernel_enn (hA : PyArith A) (hX : A.ExactInts L) (hD : 3 * D ^ 2 ≤ L) (hD1 : 2 * D ≤ L) (hD4 : 4 * D ^ 4 ≤ L) (hD2 : 4 * D ^ 2 ≤ L) : KernelOkB D P Q (Choclo.prism.kernel_enn (A := A)) kernel_enn :=
  fun x y z r x' y' z' r' hx hy hz hr kr px py pz h5 =>
    pagb__kernel_iij hA hX hD hD1 hD4 hD2 y x z r y' x' z' r' hy hx hz hr kr py px pz h5

theorem pagb_kernel_nnu (hA : PyArith A) (hX : A.ExactInts L) (hD : 3 * D ^ 2 ≤ L) (hD1 : 2 * D ≤ L) (hD4 : 4 * D ^ 4 ≤ L) (hD2 : 4 * D ^ 2 ≤ L) : KernelOkB D P Q (Choclo.prism.kernel_nnu (A := A)) kernel_nnu :=
  fun x y z r x' y' z' r' hx hy hz hr kr px py pz h5 =>
    pagb__kernel_iij hA hX hD hD1 hD4 hD2 y z x r y' z' x' r' hy hz hx hr kr py pz px h5

theorem pagb_kernel_euu (hA : PyArith A) (hX : A.ExactInts L) (hD : 3 * D ^ 2 ≤ L) (hD1 : 2 * D ≤ L) (hD4 : 4 * D ^ 4 ≤ L) (hD2 : 4 * D ^ 2 ≤ L) : KernelOkB D P Q (Choclo.prism.kernel_euu (A := A)) kernel_euu :=
  fun x y z r x' y' z' r' hx hy hz hr kr px py pz h5 =>
    pagb__kernel_iij hA hX hD hD1 hD4 hD2 z x y r z' x' y' r' hz hx hy hr kr pz px py h5

theorem pagb_kernel_nuu (hA : PyArith A) (hX : A.ExactInts L) (hD : 3 * D ^ 2 ≤ L) (hD1 : 2 * D ≤ L) (hD4 : 4 * D ^ 4 ≤ L) (hD2 : 4 * D ^ 2 ≤ L) : KernelOkB D P Q (Choclo.prism.kernel_nuu (A := A)) kernel_nuu :=
  fun x y z r x' y' z' r' hx hy hz hr kr px py pz h5 =>
    pagb__kernel_iij hA hX hD hD1 hD4 hD2 z y x r z' y' x' r' hz hy hx hr kr pz py px h5

/-- one of the two shifted coordinates along an axis -/
theorem shiftB (hX : A.ExactInts L) (h2C : 2 * C ≤ L) {a b c : PNum A} (ka : SamB C a.number a) (kb : SamB C b.number b)
    (kc : SamB C c.number c) (h1 : PowRaises (a - c) 2 → P) (h2 : PowRaises (b - c) 2 → P) (i : ℕ) :
    SamB (C + C) (if i = 0 then a.number - c.number else b.number - c.number) (if i = 0 then a - c else b - c)
    ∧ SamB (C + C) (if i = 0 then a - c else b - c : PNum A).number (if i = 0 then a - c else b - c)
    ∧ (PowRaises (if i = 0 then a - c else b - c) 2 → P) := by
  have e1 : SamB (C + C) (a.number - c.number) (a - c) := by samb
  have e2 : SamB (C + C) (b.number - c.number) (b - c) := by samb
  split
  · exact ⟨e1, ⟨rfl, e1.int⟩, h1⟩
  · exact ⟨e2, ⟨rfl, e2.int⟩, h2⟩

theorem pagb_evaluate_kernel (hA : PyArith A) (hX : A.ExactInts L) (hC : 12 * C ^ 2 ≤ L) (h2C : 4 * C ≤ L) (e n u w E s N b t : PNum A) (ke : SamB C e.number e) (kn : SamB C n.number n) (ku : SamB C u.number u) (kw : SamB C w.number w) (kE : SamB C E.number E) (ks : SamB C s.number s) (kN : SamB C N.number N) (kb : SamB C b.number b) (kt : SamB C t.number t)
    (h1 : PowRaises (E - e) 2 → P) (h2 : PowRaises (w - e) 2 → P) (h3 : PowRaises (N - n) 2 → P)
    (h4 : PowRaises (s - n) 2 → P) (h5 : PowRaises (t - u) 2 → P) (h6 : PowRaises (b - u) 2 → P)
    {k : Choclo.prism.Kernel A} {k' : Kernel A} (hk : KernelOkB (C + C) P Q k k') :
    PAg P Q (Choclo.prism._evaluate_kernel e.number n.number u.number w.number E.number s.number N.number b.number t.number k) (_evaluate_kernel e n u w E s N b t k') := by
  unfold _evaluate_kernel Choclo.prism._evaluate_kernel
  have hE := shiftB hX (by linarith) kE kw ke h1 h2
  have hN := shiftB hX (by linarith) kN ks kn h3 h4
  have hT := shiftB hX (by linarith) kt kb ku h5 h6
  dsimp only
  refine PAg.bind1 (PAg.loop1 (fun i v acc hacc => ?_) (fun i acc hacc => ?_) _ (by samf)) (fun v w hw => PAg.ok hw) (fun w hw => Rub.ok hw)
  · obtain ⟨x1, x2, x3⟩ := hE i
    generalize (if i = 0 then E.number - e.number else w.number - e.number) = x at x1 ⊢
    generalize (if i = 0 then E - e else w - e) = x' at x1 x2 x3 ⊢
    refine PAg.powI hX x1 (by linarith) x3 (fun q0 hq0 kq0 nq0 => ?_)
    refine PAg.bind1 (PAg.loop1 (fun j v acc hacc => ?_) (fun j acc hacc => ?_) _ hacc) (fun v w hw => PAg.ok hw) (fun w hw => Rub.ok hw)
    · obtain ⟨y1, y2, y3⟩ := hN j
      generalize (if j = 0 then N.number - n.number else s.number - n.number) = y at y1 ⊢
      generalize (if j = 0 then N - n else s - n) = y' at y1 y2 y3 ⊢
      refine PAg.powI hX y1 (by linarith) y3 (fun q1 hq1 kq1 nq1 => ?_)
      refine PAg.bind1 (PAg.loop1 (fun l v acc hacc => ?_) (fun l acc hacc => ?_) _ hacc) (fun v w hw => PAg.ok hw) (fun w hw => Rub.ok hw)
      · obtain ⟨z1, z2, z3⟩ := hT l
        generalize (if l = 0 then t.number - u.number else b.number - u.number) = z at z1 ⊢
        generalize (if l = 0 then t - u else b - u) = z' at z1 z2 z3 ⊢
        refine PAg.powI hX z1 (by linarith) z3 (fun q2 hq2 kq2 nq2 => ?_)
        refine PAg.bind1 (hk _ _ _ _ _ _ _ _ x1 y1 z1 (SamB.toSam (SamB.sqrt (by numb)) rfl) rfl x3 y3 z3 (.inl rfl)) (fun v0 w0 hw0 => ?_) (fun w0 hw0 => ?_)
        rotate_left
        · exact Rub.ok (bad_add_right (bad_mul_right hw0))
        exact PAg.ok (Sam.add hA hacc (Sam.mul hA (Sam.cast _) hw0))
      · obtain ⟨-, z2, z3⟩ := hT l
        generalize (if l = 0 then t - u else b - u) = z' at z2 z3 ⊢
        refine Rub.powI z3 (fun q2 kq2 nq2 => ?_)
        refine Rub.bind (PAg.errs (hk _ _ _ _ _ _ _ _ x2 y2 z2 (.arg rfl) rfl x3 y3 z3 (.inl rfl))) (fun _ => ?_)
        exact Rub.ok (bad_add_left hacc)
    · obtain ⟨-, y2, y3⟩ := hN j
      generalize (if j = 0 then N - n else s - n) = y' at y2 y3 ⊢
      refine Rub.powI y3 (fun q1 kq1 nq1 => ?_)
      refine Rub.bind1 (Rub.loop1 (fun l acc hacc => ?_) _ hacc) (fun w hw => Rub.ok hw)
      obtain ⟨-, z2, z3⟩ := hT l
      generalize (if l = 0 then t - u else b - u) = z' at z2 z3 ⊢
      refine Rub.powI z3 (fun q2 kq2 nq2 => ?_)
      refine Rub.bind (PAg.errs (hk _ _ _ _ _ _ _ _ x2 y2 z2 (.arg rfl) rfl x3 y3 z3 (.inl rfl))) (fun _ => ?_)
      exact Rub.ok (bad_add_left hacc)
  · obtain ⟨-, x2, x3⟩ := hE i
    generalize (if i = 0 then E - e else w - e) = x' at x2 x3 ⊢
    refine Rub.powI x3 (fun q0 kq0 nq0 => ?_)
    refine Rub.bind1 (Rub.loop1 (fun j acc hacc => ?_) _ hacc) (fun w hw => Rub.ok hw)
    obtain ⟨-, y2, y3⟩ := hN j
    generalize (if j = 0 then N - n else s - n) = y' at y2 y3 ⊢
    refine Rub.powI y3 (fun q1 kq1 nq1 => ?_)
    refine Rub.bind1 (Rub.loop1 (fun l acc hacc => ?_) _ hacc) (fun w hw => Rub.ok hw)
    obtain ⟨-, z2, z3⟩ := hT l
    generalize (if l = 0 then t - u else b - u) = z' at z2 z3 ⊢
    refine Rub.powI z3 (fun q2 kq2 nq2 => ?_)
    refine Rub.bind (PAg.errs (hk _ _ _ _ _ _ _ _ x2 y2 z2 (.arg rfl) rfl x3 y3 z3 (.inl rfl))) (fun _ => ?_)
    exact Rub.ok (bad_add_left hacc)

theorem pagb_gravity_pot (hA : PyArith A) (hX : A.ExactInts L) (hC : 12 * C ^ 2 ≤ L) (h2C : 4 * C ≤ L) (e n u w E s N b t : PNum A) (ρ : PNum A) (ke : SamB C e.number e) (kn : SamB C n.number n) (ku : SamB C u.number u) (kw : SamB C w.number w) (kE : SamB C E.number E) (ks : SamB C s.number s) (kN : SamB C N.number N) (kb : SamB C b.number b) (kt : SamB C t.number t) (kρ : SamB L ρ.number ρ)
    (h1 : PowRaises (E - e) 2 → P) (h2 : PowRaises (w - e) 2 → P) (h3 : PowRaises (N - n) 2 → P)
    (h4 : PowRaises (s - n) 2 → P) (h5 : PowRaises (t - u) 2 → P) (h6 : PowRaises (b - u) 2 → P) :
    PAg P Q (Choclo.prism.gravity_pot e.number n.number u.number w.number E.number s.number N.number b.number t.number ρ.number) (gravity_pot e n u w E s N b t ρ) := by
  unfold gravity_pot Choclo.prism.gravity_pot
  have hk := pagb_evaluate_kernel hA hX hC h2C e n u w E s N b t ke kn ku kw kE ks kN kb kt h1 h2 h3 h4 h5 h6 (pagb_kernel_pot (P := P) (Q := Q) (D := C + C) hA hX (by linarith) (by linarith))
  try simp only [num_is_point_on_easting_edge, num_is_point_on_northing_edge, num_is_point_on_upward_edge,
    num_is_point_on_east_face, num_is_point_on_north_face, num_is_point_on_top_face]
  (try dsimp only)
  repeat' (first
    | with_reducible refine PAg.bind1 hk (fun _ _ _ => ?_) (fun _ _ => ?_)
    | (with_reducible refine PAg.ite rfl (fun _ => ?_) (fun _ => ?_))
    | pagb_step)

theorem pagb_gravity_e (hA : PyArith A) (hX : A.ExactInts L) (hC : 12 * C ^ 2 ≤ L) (h2C : 4 * C ≤ L) (e n u w E s N b t : PNum A) (ρ : PNum A) (ke : SamB C e.number e) (kn : SamB C n.number n) (ku : SamB C u.number u) (kw : SamB C w.number w) (kE : SamB C E.number E) (ks : SamB C s.number s) (kN : SamB C N.number N) (kb : SamB C b.number b) (kt : SamB C t.number t) (kρ : SamB L ρ.number ρ)
    (h1 : PowRaises (E - e) 2 → P) (h2 : PowRaises (w - e) 2 → P) (h3 : PowRaises (N - n) 2 → P)
    (h4 : PowRaises (s - n) 2 → P) (h5 : PowRaises (t - u) 2 → P) (h6 : PowRaises (b - u) 2 → P) :
    PAg P Q (Choclo.prism.gravity_e e.number n.number u.number w.number E.number s.number N.number b.number t.number ρ.number) (gravity_e e n u w E s N b t ρ) := by
  unfold gravity_e Choclo.prism.gravity_e
  have hk := pagb_evaluate_kernel hA hX hC h2C e n u w E s N b t ke kn ku kw kE ks kN kb kt h1 h2 h3 h4 h5 h6 (pagb_kernel_e (P := P) (Q := Q) (D := C + C) hA hX (by linarith) (by linarith))
  try simp only [num_is_point_on_easting_edge, num_is_point_on_northing_edge, num_is_point_on_upward_edge,
    num_is_point_on_east_face, num_is_point_on_north_face, num_is_point_on_top_face]
  (try dsimp only)
  repeat' (first
    | with_reducible refine PAg.bind1 hk (fun _ _ _ => ?_) (fun _ _ => ?_)
    | (with_reducible refine PAg.ite rfl (fun _ => ?_) (fun _ => ?_))
    | pagb_step)

theorem pagb_gravity_n (hA : PyArith A) (hX : A.ExactInts L) (hC : 12 * C ^ 2 ≤ L) (h2C : 4 * C ≤ L) (e n u w E s N b t : PNum A) (ρ : PNum A) (ke : SamB C e.number e) (kn : SamB C n.number n) (ku : SamB C u.number u) (kw : SamB C w.number w) (kE : SamB C E.number E) (ks : SamB C s.number s) (kN : SamB C N.number N) (kb : SamB C b.number b) (kt : SamB C t.number t) (kρ : SamB L ρ.number ρ)
    (h1 : PowRaises (E - e) 2 → P) (h2 : PowRaises (w - e) 2 → P) (h3 : PowRaises (N - n) 2 → P)
    (h4 : PowRaises (s - n) 2 → P) (h5 : PowRaises (t - u) 2 → P) (h6 : PowRaises (b - u) 2 → P) :
    PAg P Q (Choclo.prism.gravity_n e.number n.number u.number w.number E.number s.number N.number b.number t.number ρ.number) (gravity_n e n u w E s N b t ρ) := by
  unfold gravity_n Choclo.prism.gravity_n
  have hk := pagb_evaluate_kernel hA hX hC h2C e n u w E s N b t ke kn ku kw kE ks kN kb kt h1 h2 h3 h4 h5 h6 (pagb_kernel_n (P := P) (Q := Q) (D := C + C) hA hX (by linarith) (by linarith))
  try simp only [num_is_point_on_easting_edge, num_is_point_on_northing_edge, num_is_point_on_upward_edge,
    num_is_point_on_east_face, num_is_point_on_north_face, num_is_point_on_top_face]
  (try dsimp only)
  repeat' (first
    | with_reducible refine PAg.bind1 hk (fun _ _ _ => ?_) (fun _ _ => ?_)
    | (with_reducible refine PAg.ite rfl (fun _ => ?_) (fun _ => ?_))
    | pagb_step)

theorem pagb_gravity_u (hA : PyArith A) (hX : A.ExactInts L) (hC : 12 * C ^ 2 ≤ L) (h2C : 4 * C ≤ L) (e n u w E s N b t : PNum A) (ρ : PNum A) (ke : SamB C e.number e) (kn : SamB C n.number n) (ku : SamB C u.number u) (kw : SamB C w.number w) (kE : SamB C E.number E) (ks : SamB C s.number s) (kN : SamB C N.number N) (kb : SamB C b.number b) (kt : SamB C t.number t) (kρ : SamB L ρ.number ρ)
    (h1 : PowRaises (E - e) 2 → P) (h2 : PowRaises (w - e) 2 → P) (h3 : PowRaises (N - n) 2 → P)
    (h4 : PowRaises (s - n) 2 → P) (h5 : PowRaises (t - u) 2 → P) (h6 : PowRaises (b - u) 2 → P) :
    PAg P Q (Choclo.prism.gravity_u e.number n.number u.number w.number E.number s.number N.number b.number t.number ρ.number) (gravity_u e n u w E s N b t ρ) := by
  unfold gravity_u Choclo.prism.gravity_u
  have hk := pagb_evaluate_kernel hA hX hC h2C e n u w E s N b t ke kn ku kw kE ks kN kb kt h1 h2 h3 h4 h5 h6 (pagb_kernel_u (P := P) (Q := Q) (D := C + C) hA hX (by linarith) (by linarith))
  try simp only [num_is_point_on_easting_edge, num_is_point_on_northing_edge, num_is_point_on_upward_edge,
    num_is_point_on_east_face, num_is_point_on_north_face, num_is_point_on_top_face]
  (try dsimp only)
  repeat' (first
    | with_reducible refine PAg.bind1 hk (fun _ _ _ => ?_) (fun _ _ => ?_)
    | (with_reducible refine PAg.ite rfl (fun _ => ?_) (fun _ => ?_))
    | pagb_step)

theorem pagb_gravity_ee (hA : PyArith A) (hX : A.ExactInts L) (hC : 12 * C ^ 2 ≤ L) (h2C : 4 * C ≤ L) (e n u w E s N b t : PNum A) (ρ : PNum A) (ke : SamB C e.number e) (kn : SamB C n.number n) (ku : SamB C u.number u) (kw : SamB C w.number w) (kE : SamB C E.number E) (ks : SamB C s.number s) (kN : SamB C N.number N) (kb : SamB C b.number b) (kt : SamB C t.number t) (kρ : SamB L ρ.number ρ)
    (h1 : PowRaises (E - e) 2 → P) (h2 : PowRaises (w - e) 2 → P) (h3 : PowRaises (N - n) 2 → P)
    (h4 : PowRaises (s - n) 2 → P) (h5 : PowRaises (t - u) 2 → P) (h6 : PowRaises (b - u) 2 → P) :
    PAg P Q (Choclo.prism.gravity_ee e.number n.number u.number w.number E.number s.number N.number b.number t.number ρ.number) (gravity_ee e n u w E s N b t ρ) := by
  unfold gravity_ee Choclo.prism.gravity_ee
  have hk := pagb_evaluate_kernel hA hX hC h2C e n u w E s N b t ke kn ku kw kE ks kN kb kt h1 h2 h3 h4 h5 h6 (pagb_kernel_ee (P := P) (Q := Q) (D := C + C) hA hX (by linarith) (by linarith))
  try simp only [num_is_point_on_easting_edge, num_is_point_on_northing_edge, num_is_point_on_upward_edge,
    num_is_point_on_east_face, num_is_point_on_north_face, num_is_point_on_top_face]
  (try dsimp only)
  repeat' (first
    | with_reducible refine PAg.bind1 hk (fun _ _ _ => ?_) (fun _ _ => ?_)
    | (with_reducible refine PAg.ite rfl (fun _ => ?_) (fun _ => ?_))
    | pagb_step)

theorem pagb_gravity_nn (hA : PyArith A) (hX : A.ExactInts L) (hC : 12 * C ^ 2 ≤ L) (h2C : 4 * C ≤ L) (e n u w E s N b t : PNum A) (ρ : PNum A) (ke : SamB C e.number e) (kn : SamB C n.number n) (ku : SamB C u.number u) (kw : SamB C w.number w) (kE : SamB C E.number E) (ks : SamB C s.number s) (kN : SamB C N.number N) (kb : SamB C b.number b) (kt : SamB C t.number t) (kρ : SamB L ρ.number ρ)
    (h1 : PowRaises (E - e) 2 → P) (h2 : PowRaises (w - e) 2 → P) (h3 : PowRaises (N - n) 2 → P)
    (h4 : PowRaises (s - n) 2 → P) (h5 : PowRaises (t - u) 2 → P) (h6 : PowRaises (b - u) 2 → P) :
    PAg P Q (Choclo.prism.gravity_nn e.number n.number u.number w.number E.number s.number N.number b.number t.number ρ.number) (gravity_nn e n u w E s N b t ρ) := by
  unfold gravity_nn Choclo.prism.gravity_nn
  have hk := pagb_evaluate_kernel hA hX hC h2C e n u w E s N b t ke kn ku kw kE ks kN kb kt h1 h2 h3 h4 h5 h6 (pagb_kernel_nn (P := P) (Q := Q) (D := C + C) hA hX (by linarith) (by linarith))
  try simp only [num_is_point_on_easting_edge, num_is_point_on_northing_edge, num_is_point_on_upward_edge,
    num_is_point_on_east_face, num_is_point_on_north_face, num_is_point_on_top_face]
  (try dsimp only)
  repeat' (first
    | with_reducible refine PAg.bind1 hk (fun _ _ _ => ?_) (fun _ _ => ?_)
    | (with_reducible refine PAg.ite rfl (fun _ => ?_) (fun _ => ?_))
    | pagb_step)

theorem pagb_gravity_uu (hA : PyArith A) (hX : A.ExactInts L) (hC : 12 * C ^ 2 ≤ L) (h2C : 4 * C ≤ L) (e n u w E s N b t : PNum A) (ρ : PNum A) (ke : SamB C e.number e) (kn : SamB C n.number n) (ku : SamB C u.number u) (kw : SamB C w.number w) (kE : SamB C E.number E) (ks : SamB C s.number s) (kN : SamB C N.number N) (kb : SamB C b.number b) (kt : SamB C t.number t) (kρ : SamB L ρ.number ρ)
    (h1 : PowRaises (E - e) 2 → P) (h2 : PowRaises (w - e) 2 → P) (h3 : PowRaises (N - n) 2 → P)
    (h4 : PowRaises (s - n) 2 → P) (h5 : PowRaises (t - u) 2 → P) (h6 : PowRaises (b - u) 2 → P) :
    PAg P Q (Choclo.prism.gravity_uu e.number n.number u.number w.number E.number s.number N.number b.number t.number ρ.number) (gravity_uu e n u w E s N b t ρ) := by
  unfold gravity_uu Choclo.prism.gravity_uu
  have hk := pagb_evaluate_kernel hA hX hC h2C e n u w E s N b t ke kn ku kw kE ks kN kb kt h1 h2 h3 h4 h5 h6 (pagb_kernel_uu (P := P) (Q := Q) (D := C + C) hA hX (by linarith) (by linarith))
  try simp only [num_is_point_on_easting_edge, num_is_point_on_northing_edge, num_is_point_on_upward_edge,
    num_is_point_on_east_face, num_is_point_on_north_face, num_is_point_on_top_face]
  (try dsimp only)
  repeat' (first
    | with_reducible refine PAg.bind1 hk (fun _ _ _ => ?_) (fun _ _ => ?_)
    | (with_reducible refine PAg.ite rfl (fun _ => ?_) (fun _ => ?_))
    | pagb_step)

theorem pagb_gravity_en (hA : PyArith A) (hX : A.ExactInts L) (hC : 12 * C ^ 2 ≤ L) (h2C : 4 * C ≤ L) (e n u w E s N b t : PNum A) (ρ : PNum A) (ke : SamB C e.number e) (kn : SamB C n.number n) (ku : SamB C u.number u) (kw : SamB C w.number w) (kE : SamB C E.number E) (ks : SamB C s.number s) (kN : SamB C N.number N) (kb : SamB C b.number b) (kt : SamB C t.number t) (kρ : SamB L ρ.number ρ)
    (h1 : PowRaises (E - e) 2 → P) (h2 : PowRaises (w - e) 2 → P) (h3 : PowRaises (N - n) 2 → P)
    (h4 : PowRaises (s - n) 2 → P) (h5 : PowRaises (t - u) 2 → P) (h6 : PowRaises (b - u) 2 → P) :
    PAg P Q (Choclo.prism.gravity_en e.number n.number u.number w.number E.number s.number N.number b.number t.number ρ.number) (gravity_en e n u w E s N b t ρ) := by
  unfold gravity_en Choclo.prism.gravity_en
  have hk := pagb_evaluate_kernel hA hX hC h2C e n u w E s N b t ke kn ku kw kE ks kN kb kt h1 h2 h3 h4 h5 h6 (pagb_kernel_en (P := P) (Q := Q) (D := C + C) hA hX (by linarith) (by linarith))
  try simp only [num_is_point_on_easting_edge, num_is_point_on_northing_edge, num_is_point_on_upward_edge,
    num_is_point_on_east_face, num_is_point_on_north_face, num_is_point_on_top_face]
  (try dsimp only)
  repeat' (first
    | with_reducible refine PAg.bind1 hk (fun _ _ _ => ?_) (fun _ _ => ?_)
    | (with_reducible refine PAg.ite rfl (fun _ => ?_) (fun _ => ?_))
    | pagb_step)

theorem pagb_gravity_eu (hA : PyArith A) (hX : A.ExactInts L) (hC : 12 * C ^ 2 ≤ L) (h2C : 4 * C ≤ L) (e n u w E s N b t : PNum A) (ρ : PNum A) (ke : SamB C e.number e) (kn : SamB C n.number n) (ku : SamB C u.number u) (kw : SamB C w.number w) (kE : SamB C E.number E) (ks : SamB C s.number s) (kN : SamB C N.number N) (kb : SamB C b.number b) (kt : SamB C t.number t) (kρ : SamB L ρ.number ρ)
    (h1 : PowRaises (E - e) 2 → P) (h2 : PowRaises (w - e) 2 → P) (h3 : PowRaises (N - n) 2 → P)
    (h4 : PowRaises (s - n) 2 → P) (h5 : PowRaises (t - u) 2 → P) (h6 : PowRaises (b - u) 2 → P) :
    PAg P Q (Choclo.prism.gravity_eu e.number n.number u.number w.number E.number s.number N.number b.number t.number ρ.number) (gravity_eu e n u w E s N b t ρ) := by
  unfold gravity_eu Choclo.prism.gravity_eu
  have hk := pagb_evaluate_kernel hA hX hC h2C e n u w E s N b t ke kn ku kw kE ks kN kb kt h1 h2 h3 h4 h5 h6 (pagb_kernel_eu (P := P) (Q := Q) (D := C + C) hA hX (by linarith) (by linarith))
  try simp only [num_is_point_on_easting_edge, num_is_point_on_northing_edge, num_is_point_on_upward_edge,
    num_is_point_on_east_face, num_is_point_on_north_face, num_is_point_on_top_face]
  (try dsimp only)
  repeat' (first
    | with_reducible refine PAg.bind1 hk (fun _ _ _ => ?_) (fun _ _ => ?_)
    | (with_reducible refine PAg.ite rfl (fun _ => ?_) (fun _ => ?_))
    | pagb_step)

theorem pagb_gravity_nu (hA : PyArith A) (hX : A.ExactInts L) (hC : 12 * C ^ 2 ≤ L) (h2C : 4 * C ≤ L) (e n u w E s N b t : PNum A) (ρ : PNum A) (ke : SamB C e.number e) (kn : SamB C n.number n) (ku : SamB C u.number u) (kw : SamB C w.number w) (kE : SamB C E.number E) (ks : SamB C s.number s) (kN : SamB C N.number N) (kb : SamB C b.number b) (kt : SamB C t.number t) (kρ : SamB L ρ.number ρ)
    (h1 : PowRaises (E - e) 2 → P) (h2 : PowRaises (w - e) 2 → P) (h3 : PowRaises (N - n) 2 → P)
    (h4 : PowRaises (s - n) 2 → P) (h5 : PowRaises (t - u) 2 → P) (h6 : PowRaises (b - u) 2 → P) :
    PAg P Q (Choclo.prism.gravity_nu e.number n.number u.number w.number E.number s.number N.number b.number t.number ρ.number) (gravity_nu e n u w E s N b t ρ) := by
  unfold gravity_nu Choclo.prism.gravity_nu
  have hk := pagb_evaluate_kernel hA hX hC h2C e n u w E s N b t ke kn ku kw kE ks kN kb kt h1 h2 h3 h4 h5 h6 (pagb_kernel_nu (P := P) (Q := Q) (D := C + C) hA hX (by linarith) (by linarith))
  try simp only [num_is_point_on_easting_edge, num_is_point_on_northing_edge, num_is_point_on_upward_edge,
    num_is_point_on_east_face, num_is_point_on_north_face, num_is_point_on_top_face]
  (try dsimp only)
  repeat' (first
    | with_reducible refine PAg.bind1 hk (fun _ _ _ => ?_) (fun _ _ => ?_)
    | (with_reducible refine PAg.ite rfl (fun _ => ?_) (fun _ => ?_))
    | pagb_step)

theorem pagb_calculate_component (hA : PyArith A) (hX : A.ExactInts L) (hC : 12 * C ^ 2 ≤ L) (h2C : 4 * C ≤ L) (e n u w E s N b t : PNum A) (mx my mz : PNum A) (ke : SamB C e.number e) (kn : SamB C n.number n) (ku : SamB C u.number u) (kw : SamB C w.number w) (kE : SamB C E.number E) (ks : SamB C s.number s) (kN : SamB C N.number N) (kb : SamB C b.number b) (kt : SamB C t.number t) (kmx : SamB L mx.number mx) (kmy : SamB L my.number my) (kmz : SamB L mz.number mz)
    (h1 : PowRaises (E - e) 2 → P) (h2 : PowRaises (w - e) 2 → P) (h3 : PowRaises (N - n) 2 → P)
    (h4 : PowRaises (s - n) 2 → P) (h5 : PowRaises (t - u) 2 → P) (h6 : PowRaises (b - u) 2 → P)
    {ki kj kk : Choclo.prism.Kernel A} {ki' kj' kk' : Kernel A} (hi : KernelOkB (C + C) P Q ki ki') (hj : KernelOkB (C + C) P Q kj kj') (hk : KernelOkB (C + C) P Q kk kk') :
    PAg P Q (Choclo.prism._calculate_component e.number n.number u.number w.number E.number s.number N.number b.number t.number mx.number my.number mz.number ki kj kk) (_calculate_component e n u w E s N b t mx my mz ki' kj' kk') := by
  unfold _calculate_component Choclo.prism._calculate_component
  have hE := shiftB hX (by linarith) kE kw ke h1 h2
  have hN := shiftB hX (by linarith) kN ks kn h3 h4
  have hT := shiftB hX (by linarith) kt kb ku h5 h6
  dsimp only
  refine PAg.bind1 (PAg.loop1 (fun i v acc hacc => ?_) (fun i acc hacc => ?_) _ (by samf)) (fun v w hw => PAg.ok hw) (fun w hw => Rub.ok hw)
  · obtain ⟨x1, x2, x3⟩ := hE i
    generalize (if i = 0 then E.number - e.number else w.number - e.number) = x at x1 ⊢
    generalize (if i = 0 then E - e else w - e) = x' at x1 x2 x3 ⊢
    refine PAg.powI hX x1 (by linarith) x3 (fun q0 hq0 kq0 nq0 => ?_)
    refine PAg.bind1 (PAg.loop1 (fun j v acc hacc => ?_) (fun j acc hacc => ?_) _ hacc) (fun v w hw => PAg.ok hw) (fun w hw => Rub.ok hw)
    · obtain ⟨y1, y2, y3⟩ := hN j
      generalize (if j = 0 then N.number - n.number else s.number - n.number) = y at y1 ⊢
      generalize (if j = 0 then N - n else s - n) = y' at y1 y2 y3 ⊢
      refine PAg.powI hX y1 (by linarith) y3 (fun q1 hq1 kq1 nq1 => ?_)
      refine PAg.bind1 (PAg.loop1 (fun l v acc hacc => ?_) (fun l acc hacc => ?_) _ hacc) (fun v w hw => PAg.ok hw) (fun w hw => Rub.ok hw)
      · obtain ⟨z1, z2, z3⟩ := hT l
        generalize (if l = 0 then t.number - u.number else b.number - u.number) = z at z1 ⊢
        generalize (if l = 0 then t - u else b - u) = z' at z1 z2 z3 ⊢
        refine PAg.powI hX z1 (by linarith) z3 (fun q2 hq2 kq2 nq2 => ?_)
        refine PAg.bind1 (hi _ _ _ _ _ _ _ _ x1 y1 z1 (SamB.toSam (SamB.sqrt (by numb)) rfl) rfl x3 y3 z3 (.inl rfl)) (fun v0 w0 hw0 => ?_) (fun w0 hw0 => ?_)
        rotate_left
        · refine Rub.bind (PAg.errs (hj _ _ _ _ _ _ _ _ x2 y2 z2 (.arg rfl) rfl x3 y3 z3 (.inl rfl))) (fun _ => ?_)
          refine Rub.bind (PAg.errs (hk _ _ _ _ _ _ _ _ x2 y2 z2 (.arg rfl) rfl x3 y3 z3 (.inl rfl))) (fun _ => ?_)
          refine Rub.ok ?_
          pbad
        refine PAg.bind1 (hj _ _ _ _ _ _ _ _ x1 y1 z1 (SamB.toSam (SamB.sqrt (by numb)) rfl) rfl x3 y3 z3 (.inl rfl)) (fun v1 w1 hw1 => ?_) (fun w1 hw1 => ?_)
        rotate_left
        · refine Rub.bind (PAg.errs (hk _ _ _ _ _ _ _ _ x2 y2 z2 (.arg rfl) rfl x3 y3 z3 (.inl rfl))) (fun _ => ?_)
          refine Rub.ok ?_
          pbad
        refine PAg.bind1 (hk _ _ _ _ _ _ _ _ x1 y1 z1 (SamB.toSam (SamB.sqrt (by numb)) rfl) rfl x3 y3 z3 (.inl rfl)) (fun v2 w2 hw2 => ?_) (fun w2 hw2 => ?_)
        rotate_left
        · refine Rub.ok ?_
          pbad
        refine PAg.ok ?_
        prelb
      · obtain ⟨-, z2, z3⟩ := hT l
        generalize (if l = 0 then t - u else b - u) = z' at z2 z3 ⊢
        refine Rub.powI z3 (fun q2 kq2 nq2 => ?_)
        refine Rub.bind (PAg.errs (hi _ _ _ _ _ _ _ _ x2 y2 z2 (.arg rfl) rfl x3 y3 z3 (.inl rfl))) (fun _ => ?_)
        refine Rub.bind (PAg.errs (hj _ _ _ _ _ _ _ _ x2 y2 z2 (.arg rfl) rfl x3 y3 z3 (.inl rfl))) (fun _ => ?_)
        refine Rub.bind (PAg.errs (hk _ _ _ _ _ _ _ _ x2 y2 z2 (.arg rfl) rfl x3 y3 z3 (.inl rfl))) (fun _ => ?_)
        exact Rub.ok (bad_add_left hacc)
    · obtain ⟨-, y2, y3⟩ := hN j
      generalize (if j = 0 then N - n else s - n) = y' at y2 y3 ⊢
      refine Rub.powI y3 (fun q1 kq1 nq1 => ?_)
      refine Rub.bind1 (Rub.loop1 (fun l acc hacc => ?_) _ hacc) (fun w hw => Rub.ok hw)
      obtain ⟨-, z2, z3⟩ := hT l
      generalize (if l = 0 then t - u else b - u) = z' at z2 z3 ⊢
      refine Rub.powI z3 (fun q2 kq2 nq2 => ?_)
      refine Rub.bind (PAg.errs (hi _ _ _ _ _ _ _ _ x2 y2 z2 (.arg rfl) rfl x3 y3 z3 (.inl rfl))) (fun _ => ?_)
      refine Rub.bind (PAg.errs (hj _ _ _ _ _ _ _ _ x2 y2 z2 (.arg rfl) rfl x3 y3 z3 (.inl rfl))) (fun _ => ?_)
      refine Rub.bind (PAg.errs (hk _ _ _ _ _ _ _ _ x2 y2 z2 (.arg rfl) rfl x3 y3 z3 (.inl rfl))) (fun _ => ?_)
      exact Rub.ok (bad_add_left hacc)
  · obtain ⟨-, x2, x3⟩ := hE i
    generalize (if i = 0 then E - e else w - e) = x' at x2 x3 ⊢
    refine Rub.powI x3 (fun q0 kq0 nq0 => ?_)
    refine Rub.bind1 (Rub.loop1 (fun j acc hacc => ?_) _ hacc) (fun w hw => Rub.ok hw)
    obtain ⟨-, y2, y3⟩ := hN j
    generalize (if j = 0 then N - n else s - n) = y' at y2 y3 ⊢
    refine Rub.powI y3 (fun q1 kq1 nq1 => ?_)
    refine Rub.bind1 (Rub.loop1 (fun l acc hacc => ?_) _ hacc) (fun w hw => Rub.ok hw)
    obtain ⟨-, z2, z3⟩ := hT l
    generalize (if l = 0 then t - u else b - u) = z' at z2 z3 ⊢
    refine Rub.powI z3 (fun q2 kq2 nq2 => ?_)
    refine Rub.bind (PAg.errs (hi _ _ _ _ _ _ _ _ x2 y2 z2 (.arg rfl) rfl x3 y3 z3 (.inl rfl))) (fun _ => ?_)
    refine Rub.bind (PAg.errs (hj _ _ _ _ _ _ _ _ x2 y2 z2 (.arg rfl) rfl x3 y3 z3 (.inl rfl))) (fun _ => ?_)
    refine Rub.bind (PAg.errs (hk _ _ _ _ _ _ _ _ x2 y2 z2 (.arg rfl) rfl x3 y3 z3 (.inl rfl))) (fun _ => ?_)
    exact Rub.ok (bad_add_left hacc)

theorem pagb_magnetic_e (hA : PyArith A) (hX : A.ExactInts L) (hC : 12 * C ^ 2 ≤ L) (h2C : 4 * C ≤ L) (e n u w E s N b t : PNum A) (mx my mz : PNum A) (ke : SamB C e.number e) (kn : SamB C n.number n) (ku : SamB C u.number u) (kw : SamB C w.number w) (kE : SamB C E.number E) (ks : SamB C s.number s) (kN : SamB C N.number N) (kb : SamB C b.number b) (kt : SamB C t.number t) (kmx : SamB L mx.number mx) (kmy : SamB L my.number my) (kmz : SamB L mz.number mz)
    (h1 : PowRaises (E - e) 2 → P) (h2 : PowRaises (w - e) 2 → P) (h3 : PowRaises (N - n) 2 → P)
    (h4 : PowRaises (s - n) 2 → P) (h5 : PowRaises (t - u) 2 → P) (h6 : PowRaises (b - u) 2 → P) :
    PAg P Q (Choclo.prism.magnetic_e e.number n.number u.number w.number E.number s.number N.number b.number t.number mx.number my.number mz.number) (magnetic_e e n u w E s N b t mx my mz) := by
  unfold magnetic_e Choclo.prism.magnetic_e
  have hk := pagb_calculate_component hA hX hC h2C e n u w E s N b t mx my mz ke kn ku kw kE ks kN kb kt kmx kmy kmz h1 h2 h3 h4 h5 h6 (pagb_kernel_ee (P := P) (Q := Q) (D := C + C) hA hX (by linarith) (by linarith)) (pagb_kernel_en (P := P) (Q := Q) (D := C + C) hA hX (by linarith) (by linarith)) (pagb_kernel_eu (P := P) (Q := Q) (D := C + C) hA hX (by linarith) (by linarith))
  try simp only [num_is_point_on_edge, num_is_interior_point,
    num_is_point_on_east_face, num_is_point_on_north_face, num_is_point_on_top_face]
  (try dsimp only)
  repeat' (first
    | with_reducible refine PAg.bind1 hk (fun _ _ _ => ?_) (fun _ _ => ?_)
    | (with_reducible refine PAg.ite rfl (fun _ => ?_) (fun _ => ?_))
    | pagb_step)

theorem pagb_magnetic_n (hA : PyArith A) (hX : A.ExactInts L) (hC : 12 * C ^ 2 ≤ L) (h2C : 4 * C ≤ L) (e n u w E s N b t : PNum A) (mx my mz : PNum A) (ke : SamB C e.number e) (kn : SamB C n.number n) (ku : SamB C u.number u) (kw : SamB C w.number w) (kE : SamB C E.number E) (ks : SamB C s.number s) (kN : SamB C N.number N) (kb : SamB C b.number b) (kt : SamB C t.number t) (kmx : SamB L mx.number mx) (kmy : SamB L my.number my) (kmz : SamB L mz.number mz)
    (h1 : PowRaises (E - e) 2 → P) (h2 : PowRaises (w - e) 2 → P) (h3 : PowRaises (N - n) 2 → P)
    (h4 : PowRaises (s - n) 2 → P) (h5 : PowRaises (t - u) 2 → P) (h6 : PowRaises (b - u) 2 → P) :
    PAg P Q (Choclo.prism.magnetic_n e.number n.number u.number w.number E.number s.number N.number b.number t.number mx.number my.number mz.number) (magnetic_n e n u w E s N b t mx my mz) := by
  unfold magnetic_n Choclo.prism.magnetic_n
  have hk := pagb_calculate_component hA hX hC h2C e n u w E s N b t mx my mz ke kn ku kw kE ks kN kb kt kmx kmy kmz h1 h2 h3 h4 h5 h6 (pagb_kernel_en (P := P) (Q := Q) (D := C + C) hA hX (by linarith) (by linarith)) (pagb_kernel_nn (P := P) (Q := Q) (D := C + C) hA hX (by linarith) (by linarith)) (pagb_kernel_nu (P := P) (Q := Q) (D := C + C) hA hX (by linarith) (by linarith))
  try simp only [num_is_point_on_edge, num_is_interior_point,
    num_is_point_on_east_face, num_is_point_on_north_face, num_is_point_on_top_face]
  (try dsimp only)
  repeat' (first
    | with_reducible refine PAg.bind1 hk (fun _ _ _ => ?_) (fun _ _ => ?_)
    | (with_reducible refine PAg.ite rfl (fun _ => ?_) (fun _ => ?_))
    | pagb_step)

theorem pagb_magnetic_u (hA : PyArith A) (hX : A.ExactInts L) (hC : 12 * C ^ 2 ≤ L) (h2C : 4 * C ≤ L) (e n u w E s N b t : PNum A) (mx my mz : PNum A) (ke : SamB C e.number e) (kn : SamB C n.number n) (ku : SamB C u.number u) (kw : SamB C w.number w) (kE : SamB C E.number E) (ks : SamB C s.number s) (kN : SamB C N.number N) (kb : SamB C b.number b) (kt : SamB C t.number t) (kmx : SamB L mx.number mx) (kmy : SamB L my.number my) (kmz : SamB L mz.number mz)
    (h1 : PowRaises (E - e) 2 → P) (h2 : PowRaises (w - e) 2 → P) (h3 : PowRaises (N - n) 2 → P)
    (h4 : PowRaises (s - n) 2 → P) (h5 : PowRaises (t - u) 2 → P) (h6 : PowRaises (b - u) 2 → P) :
    PAg P Q (Choclo.prism.magnetic_u e.number n.number u.number w.number E.number s.number N.number b.number t.number mx.number my.number mz.number) (magnetic_u e n u w E s N b t mx my mz) := by
  unfold magnetic_u Choclo.prism.magnetic_u
  have hk := pagb_calculate_component hA hX hC h2C e n u w E s N b t mx my mz ke kn ku kw kE ks kN kb kt kmx kmy kmz h1 h2 h3 h4 h5 h6 (pagb_kernel_eu (P := P) (Q := Q) (D := C + C) hA hX (by linarith) (by linarith)) (pagb_kernel_nu (P := P) (Q := Q) (D := C + C) hA hX (by linarith) (by linarith)) (pagb_kernel_uu (P := P) (Q := Q) (D := C + C) hA hX (by linarith) (by linarith))
  try simp only [num_is_point_on_edge, num_is_interior_point,
    num_is_point_on_east_face, num_is_point_on_north_face, num_is_point_on_top_face]
  (try dsimp only)
  repeat' (first
    | with_reducible refine PAg.bind1 hk (fun _ _ _ => ?_) (fun _ _ => ?_)
    | (with_reducible refine PAg.ite rfl (fun _ => ?_) (fun _ => ?_))
    | pagb_step)

theorem pagb_magnetic_ee (hA : PyArith A) (hX : A.ExactInts L) (hC : 12 * C ^ 2 ≤ L) (h2C : 4 * C ≤ L) (hC4 : 64 * C ^ 4 ≤ L) (hC2 : 16 * C ^ 2 ≤ L) (e n u w E s N b t : PNum A) (mx my mz : PNum A) (ke : SamB C e.number e) (kn : SamB C n.number n) (ku : SamB C u.number u) (kw : SamB C w.number w) (kE : SamB C E.number E) (ks : SamB C s.number s) (kN : SamB C N.number N) (kb : SamB C b.number b) (kt : SamB C t.number t) (kmx : SamB L mx.number mx) (kmy : SamB L my.number my) (kmz : SamB L mz.number mz)
    (h1 : PowRaises (E - e) 2 → P) (h2 : PowRaises (w - e) 2 → P) (h3 : PowRaises (N - n) 2 → P)
    (h4 : PowRaises (s - n) 2 → P) (h5 : PowRaises (t - u) 2 → P) (h6 : PowRaises (b - u) 2 → P) :
    PAg P Q (Choclo.prism.magnetic_ee e.number n.number u.number w.number E.number s.number N.number b.number t.number mx.number my.number mz.number) (magnetic_ee e n u w E s N b t mx my mz) := by
  unfold magnetic_ee Choclo.prism.magnetic_ee
  have hk := pagb_calculate_component hA hX hC h2C e n u w E s N b t mx my mz ke kn ku kw kE ks kN kb kt kmx kmy kmz h1 h2 h3 h4 h5 h6 (pagb_kernel_eee (P := P) (Q := Q) (D := C + C) hA hX (by linarith) (by linarith) (by linarith) (by linarith)) (pagb_kernel_een (P := P) (Q := Q) (D := C + C) hA hX (by linarith) (by linarith) (by linarith) (by linarith)) (pagb_kernel_eeu (P := P) (Q := Q) (D := C + C) hA hX (by linarith) (by linarith) (by linarith) (by linarith))
  try simp only [num_is_point_on_edge, num_is_interior_point,
    num_is_point_on_east_face, num_is_point_on_north_face, num_is_point_on_top_face]
  (try dsimp only)
  repeat' (first
    | with_reducible refine PAg.bind1 hk (fun _ _ _ => ?_) (fun _ _ => ?_)
    | (with_reducible refine PAg.ite rfl (fun _ => ?_) (fun _ => ?_))
    | pagb_step)

theorem pagb_magnetic_nn (hA : PyArith A) (hX : A.ExactInts L) (hC : 12 * C ^ 2 ≤ L) (h2C : 4 * C ≤ L) (hC4 : 64 * C ^ 4 ≤ L) (hC2 : 16 * C ^ 2 ≤ L) (e n u w E s N b t : PNum A) (mx my mz : PNum A) (ke : SamB C e.number e) (kn : SamB C n.number n) (ku : SamB C u.number u) (kw : SamB C w.number w) (kE : SamB C E.number E) (ks : SamB C s.number s) (kN : SamB C N.number N) (kb : SamB C b.number b) (kt : SamB C t.number t) (kmx : SamB L mx.number mx) (kmy : SamB L my.number my) (kmz : SamB L mz.number mz)
    (h1 : PowRaises (E - e) 2 → P) (h2 : PowRaises (w - e) 2 → P) (h3 : PowRaises (N - n) 2 → P)
    (h4 : PowRaises (s - n) 2 → P) (h5 : PowRaises (t - u) 2 → P) (h6 : PowRaises (b - u) 2 → P) :
    PAg P Q (Choclo.prism.magnetic_nn e.number n.number u.number w.number E.number s.number N.number b.number t.number mx.number my.number mz.number) (magnetic_nn e n u w E s N b t mx my mz) := by
  unfold magnetic_nn Choclo.prism.magnetic_nn
  have hk := pagb_calculate_component hA hX hC h2C e n u w E s N b t mx my mz ke kn ku kw kE ks kN kb kt kmx kmy kmz h1 h2 h3 h4 h5 h6 (pagb_kernel_enn (P := P) (Q := Q) (D := C + C) hA hX (by linarith) (by linarith) (by linarith) (by linarith)) (pagb_kernel_nnn (P := P) (Q := Q) (D := C + C) hA hX (by linarith) (by linarith) (by linarith) (by linarith)) (pagb_kernel_nnu (P := P) (Q := Q) (D := C + C) hA hX (by linarith) (by linarith) (by linarith) (by linarith))
  try simp only [num_is_point_on_edge, num_is_interior_point,
    num_is_point_on_east_face, num_is_point_on_north_face, num_is_point_on_top_face]
  (try dsimp only)
  repeat' (first
    | with_reducible refine PAg.bind1 hk (fun _ _ _ => ?_) (fun _ _ => ?_)
    | (with_reducible refine PAg.ite rfl (fun _ => ?_) (fun _ => ?_))
    | pagb_step)

theorem pagb_magnetic_uu (hA : PyArith A) (hX : A.ExactInts L) (hC : 12 * C ^ 2 ≤ L) (h2C : 4 * C ≤ L) (hC4 : 64 * C ^ 4 ≤ L) (hC2 : 16 * C ^ 2 ≤ L) (e n u w E s N b t : PNum A) (mx my mz : PNum A) (ke : SamB C e.number e) (kn : SamB C n.number n) (ku : SamB C u.number u) (kw : SamB C w.number w) (kE : SamB C E.number E) (ks : SamB C s.number s) (kN : SamB C N.number N) (kb : SamB C b.number b) (kt : SamB C t.number t) (kmx : SamB L mx.number mx) (kmy : SamB L my.number my) (kmz : SamB L mz.number mz)
    (h1 : PowRaises (E - e) 2 → P) (h2 : PowRaises (w - e) 2 → P) (h3 : PowRaises (N - n) 2 → P)
    (h4 : PowRaises (s - n) 2 → P) (h5 : PowRaises (t - u) 2 → P) (h6 : PowRaises (b - u) 2 → P) :
    PAg P Q (Choclo.prism.magnetic_uu e.number n.number u.number w.number E.number s.number N.number b.number t.number mx.number my.number mz.number) (magnetic_uu e n u w E s N b t mx my mz) := by
  unfold magnetic_uu Choclo.prism.magnetic_uu
  have hk := pagb_calculate_component hA hX hC h2C e n u w E s N b t mx my mz ke kn ku kw kE ks kN kb kt kmx kmy kmz h1 h2 h3 h4 h5 h6 (pagb_kernel_euu (P := P) (Q := Q) (D := C + C) hA hX (by linarith) (by linarith) (by linarith) (by linarith)) (pagb_kernel_nuu (P := P) (Q := Q) (D := C + C) hA hX (by linarith) (by linarith) (by linarith) (by linarith)) (pagb_kernel_uuu (P := P) (Q := Q) (D := C + C) hA hX (by linarith) (by linarith) (by linarith) (by linarith))
  try simp only [num_is_point_on_edge, num_is_interior_point,
    num_is_point_on_east_face, num_is_point_on_north_face, num_is_point_on_top_face]
  (try dsimp only)
  repeat' (first
    | with_reducible refine PAg.bind1 hk (fun _ _ _ => ?_) (fun _ _ => ?_)
    | (with_reducible refine PAg.ite rfl (fun _ => ?_) (fun _ => ?_))
    | pagb_step)

theorem pagb_magnetic_en (hA : PyArith A) (hX : A.ExactInts L) (hC : 12 * C ^ 2 ≤ L) (h2C : 4 * C ≤ L) (hC4 : 64 * C ^ 4 ≤ L) (hC2 : 16 * C ^ 2 ≤ L) (e n u w E s N b t : PNum A) (mx my mz : PNum A) (ke : SamB C e.number e) (kn : SamB C n.number n) (ku : SamB C u.number u) (kw : SamB C w.number w) (kE : SamB C E.number E) (ks : SamB C s.number s) (kN : SamB C N.number N) (kb : SamB C b.number b) (kt : SamB C t.number t) (kmx : SamB L mx.number mx) (kmy : SamB L my.number my) (kmz : SamB L mz.number mz)
    (h1 : PowRaises (E - e) 2 → P) (h2 : PowRaises (w - e) 2 → P) (h3 : PowRaises (N - n) 2 → P)
    (h4 : PowRaises (s - n) 2 → P) (h5 : PowRaises (t - u) 2 → P) (h6 : PowRaises (b - u) 2 → P) :
    PAg P Q (Choclo.prism.magnetic_en e.number n.number u.number w.number E.number s.number N.number b.number t.number mx.number my.number mz.number) (magnetic_en e n u w E s N b t mx my mz) := by
  unfold magnetic_en Choclo.prism.magnetic_en
  have hk := pagb_calculate_component hA hX hC h2C e n u w E s N b t mx my mz ke kn ku kw kE ks kN kb kt kmx kmy kmz h1 h2 h3 h4 h5 h6 (pagb_kernel_een (P := P) (Q := Q) (D := C + C) hA hX (by linarith) (by linarith) (by linarith) (by linarith)) (pagb_kernel_enn (P := P) (Q := Q) (D := C + C) hA hX (by linarith) (by linarith) (by linarith) (by linarith)) (pagb_kernel_enu (P := P) (Q := Q) (D := C + C) hA hX (by linarith) (by linarith) (by linarith) (by linarith))
  try simp only [num_is_point_on_edge, num_is_interior_point,
    num_is_point_on_east_face, num_is_point_on_north_face, num_is_point_on_top_face]
  (try dsimp only)
  repeat' (first
    | with_reducible refine PAg.bind1 hk (fun _ _ _ => ?_) (fun _ _ => ?_)
    | (with_reducible refine PAg.ite rfl (fun _ => ?_) (fun _ => ?_))
    | pagb_step)

theorem pagb_magnetic_eu (hA : PyArith A) (hX : A.ExactInts L) (hC : 12 * C ^ 2 ≤ L) (h2C : 4 * C ≤ L) (hC4 : 64 * C ^ 4 ≤ L) (hC2 : 16 * C ^ 2 ≤ L) (e n u w E s N b t : PNum A) (mx my mz : PNum A) (ke : SamB C e.number e) (kn : SamB C n.number n) (ku : SamB C u.number u) (kw : SamB C w.number w) (kE : SamB C E.number E) (ks : SamB C s.number s) (kN : SamB C N.number N) (kb : SamB C b.number b) (kt : SamB C t.number t) (kmx : SamB L mx.number mx) (kmy : SamB L my.number my) (kmz : SamB L mz.number mz)
    (h1 : PowRaises (E - e) 2 → P) (h2 : PowRaises (w - e) 2 → P) (h3 : PowRaises (N - n) 2 → P)
    (h4 : PowRaises (s - n) 2 → P) (h5 : PowRaises (t - u) 2 → P) (h6 : PowRaises (b - u) 2 → P) :
    PAg P Q (Choclo.prism.magnetic_eu e.number n.number u.number w.number E.number s.number N.number b.number t.number mx.number my.number mz.number) (magnetic_eu e n u w E s N b t mx my mz) := by
  unfold magnetic_eu Choclo.prism.magnetic_eu
  have hk := pagb_calculate_component hA hX hC h2C e n u w E s N b t mx my mz ke kn ku kw kE ks kN kb kt kmx kmy kmz h1 h2 h3 h4 h5 h6 (pagb_kernel_eeu (P := P) (Q := Q) (D := C + C) hA hX (by linarith) (by linarith) (by linarith) (by linarith)) (pagb_kernel_enu (P := P) (Q := Q) (D := C + C) hA hX (by linarith) (by linarith) (by linarith) (by linarith)) (pagb_kernel_euu (P := P) (Q := Q) (D := C + C) hA hX (by linarith) (by linarith) (by linarith) (by linarith))
  try simp only [num_is_point_on_edge, num_is_interior_point,
    num_is_point_on_east_face, num_is_point_on_north_face, num_is_point_on_top_face]
  (try dsimp only)
  repeat' (first
    | with_reducible refine PAg.bind1 hk (fun _ _ _ => ?_) (fun _ _ => ?_)
    | (with_reducible refine PAg.ite rfl (fun _ => ?_) (fun _ => ?_))
    | pagb_step)

theorem pagb_magnetic_nu (hA : PyArith A) (hX : A.ExactInts L) (hC : 12 * C ^ 2 ≤ L) (h2C : 4 * C ≤ L) (hC4 : 64 * C ^ 4 ≤ L) (hC2 : 16 * C ^ 2 ≤ L) (e n u w E s N b t : PNum A) (mx my mz : PNum A) (ke : SamB C e.number e) (kn : SamB C n.number n) (ku : SamB C u.number u) (kw : SamB C w.number w) (kE : SamB C E.number E) (ks : SamB C s.number s) (kN : SamB C N.number N) (kb : SamB C b.number b) (kt : SamB C t.number t) (kmx : SamB L mx.number mx) (kmy : SamB L my.number my) (kmz : SamB L mz.number mz)
    (h1 : PowRaises (E - e) 2 → P) (h2 : PowRaises (w - e) 2 → P) (h3 : PowRaises (N - n) 2 → P)
    (h4 : PowRaises (s - n) 2 → P) (h5 : PowRaises (t - u) 2 → P) (h6 : PowRaises (b - u) 2 → P) :
    PAg P Q (Choclo.prism.magnetic_nu e.number n.number u.number w.number E.number s.number N.number b.number t.number mx.number my.number mz.number) (magnetic_nu e n u w E s N b t mx my mz) := by
  unfold magnetic_nu Choclo.prism.magnetic_nu
  have hk := pagb_calculate_component hA hX hC h2C e n u w E s N b t mx my mz ke kn ku kw kE ks kN kb kt kmx kmy kmz h1 h2 h3 h4 h5 h6 (pagb_kernel_enu (P := P) (Q := Q) (D := C + C) hA hX (by linarith) (by linarith) (by linarith) (by linarith)) (pagb_kernel_nnu (P := P) (Q := Q) (D := C + C) hA hX (by linarith) (by linarith) (by linarith) (by linarith)) (pagb_kernel_nuu (P := P) (Q := Q) (D := C + C) hA hX (by linarith) (by linarith) (by linarith) (by linarith))
  try simp only [num_is_point_on_edge, num_is_interior_point,
    num_is_point_on_east_face, num_is_point_on_north_face, num_is_point_on_top_face]
  (try dsimp only)
  repeat' (first
    | with_reducible refine PAg.bind1 hk (fun _ _ _ => ?_) (fun _ _ => ?_)
    | (with_reducible refine PAg.ite rfl (fun _ => ?_) (fun _ => ?_))
    | pagb_step)

set_option maxHeartbeats 4000000 in
theorem pagb_magnetic_field (hA : PyArith A) (hX : A.ExactInts L) (hC : 12 * C ^ 2 ≤ L) (h2C : 4 * C ≤ L) (e n u w E s N b t : PNum A) (mx my mz : PNum A) (ke : SamB C e.number e) (kn : SamB C n.number n) (ku : SamB C u.number u) (kw : SamB C w.number w) (kE : SamB C E.number E) (ks : SamB C s.number s) (kN : SamB C N.number N) (kb : SamB C b.number b) (kt : SamB C t.number t) (kmx : SamB L mx.number mx) (kmy : SamB L my.number my) (kmz : SamB L mz.number mz)
    (h1 : PowRaises (E - e) 2 → P) (h2 : PowRaises (w - e) 2 → P) (h3 : PowRaises (N - n) 2 → P)
    (h4 : PowRaises (s - n) 2 → P) (h5 : PowRaises (t - u) 2 → P) (h6 : PowRaises (b - u) 2 → P) :
    PAg P Q (Choclo.prism.magnetic_field e.number n.number u.number w.number E.number s.number N.number b.number t.number mx.number my.number mz.number) (magnetic_field e n u w E s N b t mx my mz) := by
  unfold magnetic_field Choclo.prism.magnetic_field
  have hE := shiftB hX (by linarith) kE kw ke h1 h2
  have hN := shiftB hX (by linarith) kN ks kn h3 h4
  have hT := shiftB hX (by linarith) kt kb ku h5 h6
  have hee := pagb_kernel_ee (A := A) (P := P) (Q := Q) (D := C + C) hA hX (by linarith) (by linarith)
  have hnn := pagb_kernel_nn (A := A) (P := P) (Q := Q) (D := C + C) hA hX (by linarith) (by linarith)
  have huu := pagb_kernel_uu (A := A) (P := P) (Q := Q) (D := C + C) hA hX (by linarith) (by linarith)
  have hen := pagb_kernel_en (A := A) (P := P) (Q := Q) (D := C + C) hA hX (by linarith) (by linarith)
  have heu := pagb_kernel_eu (A := A) (P := P) (Q := Q) (D := C + C) hA hX (by linarith) (by linarith)
  have hnu := pagb_kernel_nu (A := A) (P := P) (Q := Q) (D := C + C) hA hX (by linarith) (by linarith)
  simp only [num_is_point_on_edge, num_is_interior_point,
    num_is_point_on_east_face, num_is_point_on_north_face, num_is_point_on_top_face]
  (try dsimp only)
  refine PAg.ite rfl (fun _ => PAg.ok ⟨Sam.nan, Sam.nan, Sam.nan⟩) (fun _ => ?_)
  refine PAg.bind3 (PAg.loop3 (fun i v acc hac1 hac2 hac3 => ?_) (fun i acc hacc => ?_) (fun i acc hacc => ?_) (fun i acc hacc => ?_) _ ⟨Sam.fzero, Sam.fzero, Sam.fzero⟩) (fun v w hw1 hw2 hw3 => ?_) (fun w hw => ?_) (fun w hw => ?_) (fun w hw => ?_)
  · obtain ⟨x1, x2, x3⟩ := hE i
    generalize (if i = 0 then E.number - e.number else w.number - e.number) = x at x1 ⊢
    generalize (if i = 0 then E - e else w - e) = x' at x1 x2 x3 ⊢
    refine PAg.powI hX x1 (by linarith) x3 (fun q0 hq0 kq0 nq0 => ?_)
    refine PAg.bind3 (PAg.loop3 (fun j v acc hac1 hac2 hac3 => ?_) (fun j acc hacc => ?_) (fun j acc hacc => ?_) (fun j acc hacc => ?_) _ ⟨hac1, hac2, hac3⟩) (fun v w hw1 hw2 hw3 => ?_) (fun w hw => ?_) (fun w hw => ?_) (fun w hw => ?_)
    · obtain ⟨y1, y2, y3⟩ := hN j
      generalize (if j = 0 then N.number - n.number else s.number - n.number) = y at y1 ⊢
      generalize (if j = 0 then N - n else s - n) = y' at y1 y2 y3 ⊢
      refine PAg.powI hX y1 (by linarith) y3 (fun q1 hq1 kq1 nq1 => ?_)
      refine PAg.bind3 (PAg.loop3 (fun l v acc hac1 hac2 hac3 => ?_) (fun l acc hacc => ?_) (fun l acc hacc => ?_) (fun l acc hacc => ?_) _ ⟨hac1, hac2, hac3⟩) (fun v w hw1 hw2 hw3 => ?_) (fun w hw => ?_) (fun w hw => ?_) (fun w hw => ?_)
      · obtain ⟨z1, z2, z3⟩ := hT l
        generalize (if l = 0 then t.number - u.number else b.number - u.number) = z at z1 ⊢
        generalize (if l = 0 then t - u else b - u) = z' at z1 z2 z3 ⊢
        refine PAg.powI hX z1 (by linarith) z3 (fun q2 hq2 kq2 nq2 => ?_)
        refine PAg.bind1 (hee _ _ _ _ _ _ _ _ x1 y1 z1 (SamB.toSam (SamB.sqrt (by numb)) rfl) rfl x3 y3 z3 (.inl rfl)) (fun v0 w0 hw0 => ?_) (fun w0 hw0 => ?_)
        rotate_left
        · refine Rub.bind (PAg.errs (hnn _ _ _ _ _ _ _ _ x2 y2 z2 (.arg rfl) rfl x3 y3 z3 (.inl rfl))) (fun _ => ?_)
          refine Rub.bind (PAg.errs (huu _ _ _ _ _ _ _ _ x2 y2 z2 (.arg rfl) rfl x3 y3 z3 (.inl rfl))) (fun _ => ?_)
          refine Rub.bind (PAg.errs (hen _ _ _ _ _ _ _ _ x2 y2 z2 (.arg rfl) rfl x3 y3 z3 (.inl rfl))) (fun _ => ?_)
          refine Rub.bind (PAg.errs (heu _ _ _ _ _ _ _ _ x2 y2 z2 (.arg rfl) rfl x3 y3 z3 (.inl rfl))) (fun _ => ?_)
          refine Rub.bind (PAg.errs (hnu _ _ _ _ _ _ _ _ x2 y2 z2 (.arg rfl) rfl x3 y3 z3 (.inl rfl))) (fun _ => ?_)
          refine Rub.ok ?_
          pbad
        refine PAg.bind1 (hnn _ _ _ _ _ _ _ _ x1 y1 z1 (SamB.toSam (SamB.sqrt (by numb)) rfl) rfl x3 y3 z3 (.inl rfl)) (fun v1 w1 hw1 => ?_) (fun w1 hw1 => ?_)
        rotate_left
        · refine Rub.bind (PAg.errs (huu _ _ _ _ _ _ _ _ x2 y2 z2 (.arg rfl) rfl x3 y3 z3 (.inl rfl))) (fun _ => ?_)
          refine Rub.bind (PAg.errs (hen _ _ _ _ _ _ _ _ x2 y2 z2 (.arg rfl) rfl x3 y3 z3 (.inl rfl))) (fun _ => ?_)
          refine Rub.bind (PAg.errs (heu _ _ _ _ _ _ _ _ x2 y2 z2 (.arg rfl) rfl x3 y3 z3 (.inl rfl))) (fun _ => ?_)
          refine Rub.bind (PAg.errs (hnu _ _ _ _ _ _ _ _ x2 y2 z2 (.arg rfl) rfl x3 y3 z3 (.inl rfl))) (fun _ => ?_)
          refine Rub.ok ?_
          pbad
        refine PAg.bind1 (huu _ _ _ _ _ _ _ _ x1 y1 z1 (SamB.toSam (SamB.sqrt (by numb)) rfl) rfl x3 y3 z3 (.inl rfl)) (fun v2 w2 hw2 => ?_) (fun w2 hw2 => ?_)
        rotate_left
        · refine Rub.bind (PAg.errs (hen _ _ _ _ _ _ _ _ x2 y2 z2 (.arg rfl) rfl x3 y3 z3 (.inl rfl))) (fun _ => ?_)
          refine Rub.bind (PAg.errs (heu _ _ _ _ _ _ _ _ x2 y2 z2 (.arg rfl) rfl x3 y3 z3 (.inl rfl))) (fun _ => ?_)
          refine Rub.bind (PAg.errs (hnu _ _ _ _ _ _ _ _ x2 y2 z2 (.arg rfl) rfl x3 y3 z3 (.inl rfl))) (fun _ => ?_)
          refine Rub.ok ?_
          pbad
        refine PAg.bind1 (hen _ _ _ _ _ _ _ _ x1 y1 z1 (SamB.toSam (SamB.sqrt (by numb)) rfl) rfl x3 y3 z3 (.inl rfl)) (fun v3 w3 hw3 => ?_) (fun w3 hw3 => ?_)
        rotate_left
        · refine Rub.bind (PAg.errs (heu _ _ _ _ _ _ _ _ x2 y2 z2 (.arg rfl) rfl x3 y3 z3 (.inl rfl))) (fun _ => ?_)
          refine Rub.bind (PAg.errs (hnu _ _ _ _ _ _ _ _ x2 y2 z2 (.arg rfl) rfl x3 y3 z3 (.inl rfl))) (fun _ => ?_)
          refine Rub.ok ?_
          pbad
        refine PAg.bind1 (heu _ _ _ _ _ _ _ _ x1 y1 z1 (SamB.toSam (SamB.sqrt (by numb)) rfl) rfl x3 y3 z3 (.inl rfl)) (fun v4 w4 hw4 => ?_) (fun w4 hw4 => ?_)
        rotate_left
        · refine Rub.bind (PAg.errs (hnu _ _ _ _ _ _ _ _ x2 y2 z2 (.arg rfl) rfl x3 y3 z3 (.inl rfl))) (fun _ => ?_)
          refine Rub.ok ?_
          pbad
        refine PAg.bind1 (hnu _ _ _ _ _ _ _ _ x1 y1 z1 (SamB.toSam (SamB.sqrt (by numb)) rfl) rfl x3 y3 z3 (.inl rfl)) (fun v5 w5 hw5 => ?_) (fun w5 hw5 => ?_)
        rotate_left
        · refine Rub.ok ?_
          pbad
        refine PAg.ok ?_
        prelb
      · obtain ⟨-, z2, z3⟩ := hT l
        generalize (if l = 0 then t - u else b - u) = z' at z2 z3 ⊢
        refine Rub.powI z3 (fun q2 kq2 nq2 => ?_)
        refine Rub.bind (PAg.errs (hee _ _ _ _ _ _ _ _ x2 y2 z2 (.arg rfl) rfl x3 y3 z3 (.inl rfl))) (fun _ => ?_)
        refine Rub.bind (PAg.errs (hnn _ _ _ _ _ _ _ _ x2 y2 z2 (.arg rfl) rfl x3 y3 z3 (.inl rfl))) (fun _ => ?_)
        refine Rub.bind (PAg.errs (huu _ _ _ _ _ _ _ _ x2 y2 z2 (.arg rfl) rfl x3 y3 z3 (.inl rfl))) (fun _ => ?_)
        refine Rub.bind (PAg.errs (hen _ _ _ _ _ _ _ _ x2 y2 z2 (.arg rfl) rfl x3 y3 z3 (.inl rfl))) (fun _ => ?_)
        refine Rub.bind (PAg.errs (heu _ _ _ _ _ _ _ _ x2 y2 z2 (.arg rfl) rfl x3 y3 z3 (.inl rfl))) (fun _ => ?_)
        refine Rub.bind (PAg.errs (hnu _ _ _ _ _ _ _ _ x2 y2 z2 (.arg rfl) rfl x3 y3 z3 (.inl rfl))) (fun _ => ?_)
        exact Rub.ok (.inl (bad_add_left hacc))
      · obtain ⟨-, z2, z3⟩ := hT l
        generalize (if l = 0 then t - u else b - u) = z' at z2 z3 ⊢
        refine Rub.powI z3 (fun q2 kq2 nq2 => ?_)
        refine Rub.bind (PAg.errs (hee _ _ _ _ _ _ _ _ x2 y2 z2 (.arg rfl) rfl x3 y3 z3 (.inl rfl))) (fun _ => ?_)
        refine Rub.bind (PAg.errs (hnn _ _ _ _ _ _ _ _ x2 y2 z2 (.arg rfl) rfl x3 y3 z3 (.inl rfl))) (fun _ => ?_)
        refine Rub.bind (PAg.errs (huu _ _ _ _ _ _ _ _ x2 y2 z2 (.arg rfl) rfl x3 y3 z3 (.inl rfl))) (fun _ => ?_)
        refine Rub.bind (PAg.errs (hen _ _ _ _ _ _ _ _ x2 y2 z2 (.arg rfl) rfl x3 y3 z3 (.inl rfl))) (fun _ => ?_)
        refine Rub.bind (PAg.errs (heu _ _ _ _ _ _ _ _ x2 y2 z2 (.arg rfl) rfl x3 y3 z3 (.inl rfl))) (fun _ => ?_)
        refine Rub.bind (PAg.errs (hnu _ _ _ _ _ _ _ _ x2 y2 z2 (.arg rfl) rfl x3 y3 z3 (.inl rfl))) (fun _ => ?_)
        exact Rub.ok (.inr (.inl (bad_add_left hacc)))
      · obtain ⟨-, z2, z3⟩ := hT l
        generalize (if l = 0 then t - u else b - u) = z' at z2 z3 ⊢
        refine Rub.powI z3 (fun q2 kq2 nq2 => ?_)
        refine Rub.bind (PAg.errs (hee _ _ _ _ _ _ _ _ x2 y2 z2 (.arg rfl) rfl x3 y3 z3 (.inl rfl))) (fun _ => ?_)
        refine Rub.bind (PAg.errs (hnn _ _ _ _ _ _ _ _ x2 y2 z2 (.arg rfl) rfl x3 y3 z3 (.inl rfl))) (fun _ => ?_)
        refine Rub.bind (PAg.errs (huu _ _ _ _ _ _ _ _ x2 y2 z2 (.arg rfl) rfl x3 y3 z3 (.inl rfl))) (fun _ => ?_)
        refine Rub.bind (PAg.errs (hen _ _ _ _ _ _ _ _ x2 y2 z2 (.arg rfl) rfl x3 y3 z3 (.inl rfl))) (fun _ => ?_)
        refine Rub.bind (PAg.errs (heu _ _ _ _ _ _ _ _ x2 y2 z2 (.arg rfl) rfl x3 y3 z3 (.inl rfl))) (fun _ => ?_)
        refine Rub.bind (PAg.errs (hnu _ _ _ _ _ _ _ _ x2 y2 z2 (.arg rfl) rfl x3 y3 z3 (.inl rfl))) (fun _ => ?_)
        exact Rub.ok (.inr (.inr (bad_add_left hacc)))
      · exact PAg.ok ⟨hw1, hw2, hw3⟩
      · exact Rub.ok (.inl hw)
      · exact Rub.ok (.inr (.inl hw))
      · exact Rub.ok (.inr (.inr hw))
    · obtain ⟨-, y2, y3⟩ := hN j
      generalize (if j = 0 then N - n else s - n) = y' at y2 y3 ⊢
      refine Rub.powI y3 (fun q1 kq1 nq1 => ?_)
      refine Rub.bind3 (Rub.loop3 (fun l acc hacc => ?_) (fun l acc hacc => ?_) (fun l acc hacc => ?_) _ (by first | exact .inl hacc | exact .inr (.inl hacc) | exact .inr (.inr hacc))) (fun w hw => ?_) (fun w hw => ?_) (fun w hw => ?_)
      · obtain ⟨-, z2, z3⟩ := hT l
        generalize (if l = 0 then t - u else b - u) = z' at z2 z3 ⊢
        refine Rub.powI z3 (fun q2 kq2 nq2 => ?_)
        refine Rub.bind (PAg.errs (hee _ _ _ _ _ _ _ _ x2 y2 z2 (.arg rfl) rfl x3 y3 z3 (.inl rfl))) (fun _ => ?_)
        refine Rub.bind (PAg.errs (hnn _ _ _ _ _ _ _ _ x2 y2 z2 (.arg rfl) rfl x3 y3 z3 (.inl rfl))) (fun _ => ?_)
        refine Rub.bind (PAg.errs (huu _ _ _ _ _ _ _ _ x2 y2 z2 (.arg rfl) rfl x3 y3 z3 (.inl rfl))) (fun _ => ?_)
        refine Rub.bind (PAg.errs (hen _ _ _ _ _ _ _ _ x2 y2 z2 (.arg rfl) rfl x3 y3 z3 (.inl rfl))) (fun _ => ?_)
        refine Rub.bind (PAg.errs (heu _ _ _ _ _ _ _ _ x2 y2 z2 (.arg rfl) rfl x3 y3 z3 (.inl rfl))) (fun _ => ?_)
        refine Rub.bind (PAg.errs (hnu _ _ _ _ _ _ _ _ x2 y2 z2 (.arg rfl) rfl x3 y3 z3 (.inl rfl))) (fun _ => ?_)
        exact Rub.ok (.inl (bad_add_left hacc))
      · obtain ⟨-, z2, z3⟩ := hT l
        generalize (if l = 0 then t - u else b - u) = z' at z2 z3 ⊢
        refine Rub.powI z3 (fun q2 kq2 nq2 => ?_)
        refine Rub.bind (PAg.errs (hee _ _ _ _ _ _ _ _ x2 y2 z2 (.arg rfl) rfl x3 y3 z3 (.inl rfl))) (fun _ => ?_)
        refine Rub.bind (PAg.errs (hnn _ _ _ _ _ _ _ _ x2 y2 z2 (.arg rfl) rfl x3 y3 z3 (.inl rfl))) (fun _ => ?_)
        refine Rub.bind (PAg.errs (huu _ _ _ _ _ _ _ _ x2 y2 z2 (.arg rfl) rfl x3 y3 z3 (.inl rfl))) (fun _ => ?_)
        refine Rub.bind (PAg.errs (hen _ _ _ _ _ _ _ _ x2 y2 z2 (.arg rfl) rfl x3 y3 z3 (.inl rfl))) (fun _ => ?_)
        refine Rub.bind (PAg.errs (heu _ _ _ _ _ _ _ _ x2 y2 z2 (.arg rfl) rfl x3 y3 z3 (.inl rfl))) (fun _ => ?_)
        refine Rub.bind (PAg.errs (hnu _ _ _ _ _ _ _ _ x2 y2 z2 (.arg rfl) rfl x3 y3 z3 (.inl rfl))) (fun _ => ?_)
        exact Rub.ok (.inr (.inl (bad_add_left hacc)))
      · obtain ⟨-, z2, z3⟩ := hT l
        generalize (if l = 0 then t - u else b - u) = z' at z2 z3 ⊢
        refine Rub.powI z3 (fun q2 kq2 nq2 => ?_)
        refine Rub.bind (PAg.errs (hee _ _ _ _ _ _ _ _ x2 y2 z2 (.arg rfl) rfl x3 y3 z3 (.inl rfl))) (fun _ => ?_)
        refine Rub.bind (PAg.errs (hnn _ _ _ _ _ _ _ _ x2 y2 z2 (.arg rfl) rfl x3 y3 z3 (.inl rfl))) (fun _ => ?_)
        refine Rub.bind (PAg.errs (huu _ _ _ _ _ _ _ _ x2 y2 z2 (.arg rfl) rfl x3 y3 z3 (.inl rfl))) (fun _ => ?_)
        refine Rub.bind (PAg.errs (hen _ _ _ _ _ _ _ _ x2 y2 z2 (.arg rfl) rfl x3 y3 z3 (.inl rfl))) (fun _ => ?_)
        refine Rub.bind (PAg.errs (heu _ _ _ _ _ _ _ _ x2 y2 z2 (.arg rfl) rfl x3 y3 z3 (.inl rfl))) (fun _ => ?_)
        refine Rub.bind (PAg.errs (hnu _ _ _ _ _ _ _ _ x2 y2 z2 (.arg rfl) rfl x3 y3 z3 (.inl rfl))) (fun _ => ?_)
        exact Rub.ok (.inr (.inr (bad_add_left hacc)))
      · exact Rub.ok (.inl hw)
      · exact Rub.ok (.inr (.inl hw))
      · exact Rub.ok (.inr (.inr hw))
    · obtain ⟨-, y2, y3⟩ := hN j
      generalize (if j = 0 then N - n else s - n) = y' at y2 y3 ⊢
      refine Rub.powI y3 (fun q1 kq1 nq1 => ?_)
      refine Rub.bind3 (Rub.loop3 (fun l acc hacc => ?_) (fun l acc hacc => ?_) (fun l acc hacc => ?_) _ (by first | exact .inl hacc | exact .inr (.inl hacc) | exact .inr (.inr hacc))) (fun w hw => ?_) (fun w hw => ?_) (fun w hw => ?_)
      · obtain ⟨-, z2, z3⟩ := hT l
        generalize (if l = 0 then t - u else b - u) = z' at z2 z3 ⊢
        refine Rub.powI z3 (fun q2 kq2 nq2 => ?_)
        refine Rub.bind (PAg.errs (hee _ _ _ _ _ _ _ _ x2 y2 z2 (.arg rfl) rfl x3 y3 z3 (.inl rfl))) (fun _ => ?_)
        refine Rub.bind (PAg.errs (hnn _ _ _ _ _ _ _ _ x2 y2 z2 (.arg rfl) rfl x3 y3 z3 (.inl rfl))) (fun _ => ?_)
        refine Rub.bind (PAg.errs (huu _ _ _ _ _ _ _ _ x2 y2 z2 (.arg rfl) rfl x3 y3 z3 (.inl rfl))) (fun _ => ?_)
        refine Rub.bind (PAg.errs (hen _ _ _ _ _ _ _ _ x2 y2 z2 (.arg rfl) rfl x3 y3 z3 (.inl rfl))) (fun _ => ?_)
        refine Rub.bind (PAg.errs (heu _ _ _ _ _ _ _ _ x2 y2 z2 (.arg rfl) rfl x3 y3 z3 (.inl rfl))) (fun _ => ?_)
        refine Rub.bind (PAg.errs (hnu _ _ _ _ _ _ _ _ x2 y2 z2 (.arg rfl) rfl x3 y3 z3 (.inl rfl))) (fun _ => ?_)
        exact Rub.ok (.inl (bad_add_left hacc))
      · obtain ⟨-, z2, z3⟩ := hT l
        generalize (if l = 0 then t - u else b - u) = z' at z2 z3 ⊢
        refine Rub.powI z3 (fun q2 kq2 nq2 => ?_)
        refine Rub.bind (PAg.errs (hee _ _ _ _ _ _ _ _ x2 y2 z2 (.arg rfl) rfl x3 y3 z3 (.inl rfl))) (fun _ => ?_)
        refine Rub.bind (PAg.errs (hnn _ _ _ _ _ _ _ _ x2 y2 z2 (.arg rfl) rfl x3 y3 z3 (.inl rfl))) (fun _ => ?_)
        refine Rub.bind (PAg.errs (huu _ _ _ _ _ _ _ _ x2 y2 z2 (.arg rfl) rfl x3 y3 z3 (.inl rfl))) (fun _ => ?_)
        refine Rub.bind (PAg.errs (hen _ _ _ _ _ _ _ _ x2 y2 z2 (.arg rfl) rfl x3 y3 z3 (.inl rfl))) (fun _ => ?_)
        refine Rub.bind (PAg.errs (heu _ _ _ _ _ _ _ _ x2 y2 z2 (.arg rfl) rfl x3 y3 z3 (.inl rfl))) (fun _ => ?_)
        refine Rub.bind (PAg.errs (hnu _ _ _ _ _ _ _ _ x2 y2 z2 (.arg rfl) rfl x3 y3 z3 (.inl rfl))) (fun _ => ?_)
        exact Rub.ok (.inr (.inl (bad_add_left hacc)))
      · obtain ⟨-, z2, z3⟩ := hT l
        generalize (if l = 0 then t - u else b - u) = z' at z2 z3 ⊢
        refine Rub.powI z3 (fun q2 kq2 nq2 => ?_)
        refine Rub.bind (PAg.errs (hee _ _ _ _ _ _ _ _ x2 y2 z2 (.arg rfl) rfl x3 y3 z3 (.inl rfl))) (fun _ => ?_)
        refine Rub.bind (PAg.errs (hnn _ _ _ _ _ _ _ _ x2 y2 z2 (.arg rfl) rfl x3 y3 z3 (.inl rfl))) (fun _ => ?_)
        refine Rub.bind (PAg.errs (huu _ _ _ _ _ _ _ _ x2 y2 z2 (.arg rfl) rfl x3 y3 z3 (.inl rfl))) (fun _ => ?_)
        refine Rub.bind (PAg.errs (hen _ _ _ _ _ _ _ _ x2 y2 z2 (.arg rfl) rfl x3 y3 z3 (.inl rfl))) (fun _ => ?_)
        refine Rub.bind (PAg.errs (heu _ _ _ _ _ _ _ _ x2 y2 z2 (.arg rfl) rfl x3 y3 z3 (.inl rfl))) (fun _ => ?_)
        refine Rub.bind (PAg.errs (hnu _ _ _ _ _ _ _ _ x2 y2 z2 (.arg rfl) rfl x3 y3 z3 (.inl rfl))) (fun _ => ?_)
        exact Rub.ok (.inr (.inr (bad_add_left hacc)))
      · exact Rub.ok (.inl hw)
      · exact Rub.ok (.inr (.inl hw))
      · exact Rub.ok (.inr (.inr hw))
    · obtain ⟨-, y2, y3⟩ := hN j
      generalize (if j = 0 then N - n else s - n) = y' at y2 y3 ⊢
      refine Rub.powI y3 (fun q1 kq1 nq1 => ?_)
      refine Rub.bind3 (Rub.loop3 (fun l acc hacc => ?_) (fun l acc hacc => ?_) (fun l acc hacc => ?_) _ (by first | exact .inl hacc | exact .inr (.inl hacc) | exact .inr (.inr hacc))) (fun w hw => ?_) (fun w hw => ?_) (fun w hw => ?_)
      · obtain ⟨-, z2, z3⟩ := hT l
        generalize (if l = 0 then t - u else b - u) = z' at z2 z3 ⊢
        refine Rub.powI z3 (fun q2 kq2 nq2 => ?_)
        refine Rub.bind (PAg.errs (hee _ _ _ _ _ _ _ _ x2 y2 z2 (.arg rfl) rfl x3 y3 z3 (.inl rfl))) (fun _ => ?_)
        refine Rub.bind (PAg.errs (hnn _ _ _ _ _ _ _ _ x2 y2 z2 (.arg rfl) rfl x3 y3 z3 (.inl rfl))) (fun _ => ?_)
        refine Rub.bind (PAg.errs (huu _ _ _ _ _ _ _ _ x2 y2 z2 (.arg rfl) rfl x3 y3 z3 (.inl rfl))) (fun _ => ?_)
        refine Rub.bind (PAg.errs (hen _ _ _ _ _ _ _ _ x2 y2 z2 (.arg rfl) rfl x3 y3 z3 (.inl rfl))) (fun _ => ?_)
        refine Rub.bind (PAg.errs (heu _ _ _ _ _ _ _ _ x2 y2 z2 (.arg rfl) rfl x3 y3 z3 (.inl rfl))) (fun _ => ?_)
        refine Rub.bind (PAg.errs (hnu _ _ _ _ _ _ _ _ x2 y2 z2 (.arg rfl) rfl x3 y3 z3 (.inl rfl))) (fun _ => ?_)
        exact Rub.ok (.inl (bad_add_left hacc))
      · obtain ⟨-, z2, z3⟩ := hT l
        generalize (if l = 0 then t - u else b - u) = z' at z2 z3 ⊢
        refine Rub.powI z3 (fun q2 kq2 nq2 => ?_)
        refine Rub.bind (PAg.errs (hee _ _ _ _ _ _ _ _ x2 y2 z2 (.arg rfl) rfl x3 y3 z3 (.inl rfl))) (fun _ => ?_)
        refine Rub.bind (PAg.errs (hnn _ _ _ _ _ _ _ _ x2 y2 z2 (.arg rfl) rfl x3 y3 z3 (.inl rfl))) (fun _ => ?_)
        refine Rub.bind (PAg.errs (huu _ _ _ _ _ _ _ _ x2 y2 z2 (.arg rfl) rfl x3 y3 z3 (.inl rfl))) (fun _ => ?_)
        refine Rub.bind (PAg.errs (hen _ _ _ _ _ _ _ _ x2 y2 z2 (.arg rfl) rfl x3 y3 z3 (.inl rfl))) (fun _ => ?_)
        refine Rub.bind (PAg.errs (heu _ _ _ _ _ _ _ _ x2 y2 z2 (.arg rfl) rfl x3 y3 z3 (.inl rfl))) (fun _ => ?_)
        refine Rub.bind (PAg.errs (hnu _ _ _ _ _ _ _ _ x2 y2 z2 (.arg rfl) rfl x3 y3 z3 (.inl rfl))) (fun _ => ?_)
        exact Rub.ok (.inr (.inl (bad_add_left hacc)))
      · obtain ⟨-, z2, z3⟩ := hT l
        generalize (if l = 0 then t - u else b - u) = z' at z2 z3 ⊢
        refine Rub.powI z3 (fun q2 kq2 nq2 => ?_)
        refine Rub.bind (PAg.errs (hee _ _ _ _ _ _ _ _ x2 y2 z2 (.arg rfl) rfl x3 y3 z3 (.inl rfl))) (fun _ => ?_)
        refine Rub.bind (PAg.errs (hnn _ _ _ _ _ _ _ _ x2 y2 z2 (.arg rfl) rfl x3 y3 z3 (.inl rfl))) (fun _ => ?_)
        refine Rub.bind (PAg.errs (huu _ _ _ _ _ _ _ _ x2 y2 z2 (.arg rfl) rfl x3 y3 z3 (.inl rfl))) (fun _ => ?_)
        refine Rub.bind (PAg.errs (hen _ _ _ _ _ _ _ _ x2 y2 z2 (.arg rfl) rfl x3 y3 z3 (.inl rfl))) (fun _ => ?_)
        refine Rub.bind (PAg.errs (heu _ _ _ _ _ _ _ _ x2 y2 z2 (.arg rfl) rfl x3 y3 z3 (.inl rfl))) (fun _ => ?_)
        refine Rub.bind (PAg.errs (hnu _ _ _ _ _ _ _ _ x2 y2 z2 (.arg rfl) rfl x3 y3 z3 (.inl rfl))) (fun _ => ?_)
        exact Rub.ok (.inr (.inr (bad_add_left hacc)))
      · exact Rub.ok (.inl hw)
      · exact Rub.ok (.inr (.inl hw))
      · exact Rub.ok (.inr (.inr hw))
    · exact PAg.ok ⟨hw1, hw2, hw3⟩
    · exact Rub.ok (.inl hw)
    · exact Rub.ok (.inr (.inl hw))
    · exact Rub.ok (.inr (.inr hw))
  · obtain ⟨-, x2, x3⟩ := hE i
    generalize (if i = 0 then E - e else w - e) = x' at x2 x3 ⊢
    refine Rub.powI x3 (fun q0 kq0 nq0 => ?_)
    refine Rub.bind3 (Rub.loop3 (fun j acc hacc => ?_) (fun j acc hacc => ?_) (fun j acc hacc => ?_) _ (by first | exact .inl hacc | exact .inr (.inl hacc) | exact .inr (.inr hacc))) (fun w hw => ?_) (fun w hw => ?_) (fun w hw => ?_)
    · obtain ⟨-, y2, y3⟩ := hN j
      generalize (if j = 0 then N - n else s - n) = y' at y2 y3 ⊢
      refine Rub.powI y3 (fun q1 kq1 nq1 => ?_)
      refine Rub.bind3 (Rub.loop3 (fun l acc hacc => ?_) (fun l acc hacc => ?_) (fun l acc hacc => ?_) _ (by first | exact .inl hacc | exact .inr (.inl hacc) | exact .inr (.inr hacc))) (fun w hw => ?_) (fun w hw => ?_) (fun w hw => ?_)
      · obtain ⟨-, z2, z3⟩ := hT l
        generalize (if l = 0 then t - u else b - u) = z' at z2 z3 ⊢
        refine Rub.powI z3 (fun q2 kq2 nq2 => ?_)
        refine Rub.bind (PAg.errs (hee _ _ _ _ _ _ _ _ x2 y2 z2 (.arg rfl) rfl x3 y3 z3 (.inl rfl))) (fun _ => ?_)
        refine Rub.bind (PAg.errs (hnn _ _ _ _ _ _ _ _ x2 y2 z2 (.arg rfl) rfl x3 y3 z3 (.inl rfl))) (fun _ => ?_)
        refine Rub.bind (PAg.errs (huu _ _ _ _ _ _ _ _ x2 y2 z2 (.arg rfl) rfl x3 y3 z3 (.inl rfl))) (fun _ => ?_)
        refine Rub.bind (PAg.errs (hen _ _ _ _ _ _ _ _ x2 y2 z2 (.arg rfl) rfl x3 y3 z3 (.inl rfl))) (fun _ => ?_)
        refine Rub.bind (PAg.errs (heu _ _ _ _ _ _ _ _ x2 y2 z2 (.arg rfl) rfl x3 y3 z3 (.inl rfl))) (fun _ => ?_)
        refine Rub.bind (PAg.errs (hnu _ _ _ _ _ _ _ _ x2 y2 z2 (.arg rfl) rfl x3 y3 z3 (.inl rfl))) (fun _ => ?_)
        exact Rub.ok (.inl (bad_add_left hacc))
      · obtain ⟨-, z2, z3⟩ := hT l
        generalize (if l = 0 then t - u else b - u) = z' at z2 z3 ⊢
        refine Rub.powI z3 (fun q2 kq2 nq2 => ?_)
        refine Rub.bind (PAg.errs (hee _ _ _ _ _ _ _ _ x2 y2 z2 (.arg rfl) rfl x3 y3 z3 (.inl rfl))) (fun _ => ?_)
        refine Rub.bind (PAg.errs (hnn _ _ _ _ _ _ _ _ x2 y2 z2 (.arg rfl) rfl x3 y3 z3 (.inl rfl))) (fun _ => ?_)
        refine Rub.bind (PAg.errs (huu _ _ _ _ _ _ _ _ x2 y2 z2 (.arg rfl) rfl x3 y3 z3 (.inl rfl))) (fun _ => ?_)
        refine Rub.bind (PAg.errs (hen _ _ _ _ _ _ _ _ x2 y2 z2 (.arg rfl) rfl x3 y3 z3 (.inl rfl))) (fun _ => ?_)
        refine Rub.bind (PAg.errs (heu _ _ _ _ _ _ _ _ x2 y2 z2 (.arg rfl) rfl x3 y3 z3 (.inl rfl))) (fun _ => ?_)
        refine Rub.bind (PAg.errs (hnu _ _ _ _ _ _ _ _ x2 y2 z2 (.arg rfl) rfl x3 y3 z3 (.inl rfl))) (fun _ => ?_)
        exact Rub.ok (.inr (.inl (bad_add_left hacc)))
      · obtain ⟨-, z2, z3⟩ := hT l
        generalize (if l = 0 then t - u else b - u) = z' at z2 z3 ⊢
        refine Rub.powI z3 (fun q2 kq2 nq2 => ?_)
        refine Rub.bind (PAg.errs (hee _ _ _ _ _ _ _ _ x2 y2 z2 (.arg rfl) rfl x3 y3 z3 (.inl rfl))) (fun _ => ?_)
        refine Rub.bind (PAg.errs (hnn _ _ _ _ _ _ _ _ x2 y2 z2 (.arg rfl) rfl x3 y3 z3 (.inl rfl))) (fun _ => ?_)
        refine Rub.bind (PAg.errs (huu _ _ _ _ _ _ _ _ x2 y2 z2 (.arg rfl) rfl x3 y3 z3 (.inl rfl))) (fun _ => ?_)
        refine Rub.bind (PAg.errs (hen _ _ _ _ _ _ _ _ x2 y2 z2 (.arg rfl) rfl x3 y3 z3 (.inl rfl))) (fun _ => ?_)
        refine Rub.bind (PAg.errs (heu _ _ _ _ _ _ _ _ x2 y2 z2 (.arg rfl) rfl x3 y3 z3 (.inl rfl))) (fun _ => ?_)
        refine Rub.bind (PAg.errs (hnu _ _ _ _ _ _ _ _ x2 y2 z2 (.arg rfl) rfl x3 y3 z3 (.inl rfl))) (fun _ => ?_)
        exact Rub.ok (.inr (.inr (bad_add_left hacc)))
      · exact Rub.ok (.inl hw)
      · exact Rub.ok (.inr (.inl hw))
      · exact Rub.ok (.inr (.inr hw))
    · obtain ⟨-, y2, y3⟩ := hN j
      generalize (if j = 0 then N - n else s - n) = y' at y2 y3 ⊢
      refine Rub.powI y3 (fun q1 kq1 nq1 => ?_)
      refine Rub.bind3 (Rub.loop3 (fun l acc hacc => ?_) (fun l acc hacc => ?_) (fun l acc hacc => ?_) _ (by first | exact .inl hacc | exact .inr (.inl hacc) | exact .inr (.inr hacc))) (fun w hw => ?_) (fun w hw => ?_) (fun w hw => ?_)
      · obtain ⟨-, z2, z3⟩ := hT l
        generalize (if l = 0 then t - u else b - u) = z' at z2 z3 ⊢
        refine Rub.powI z3 (fun q2 kq2 nq2 => ?_)
        refine Rub.bind (PAg.errs (hee _ _ _ _ _ _ _ _ x2 y2 z2 (.arg rfl) rfl x3 y3 z3 (.inl rfl))) (fun _ => ?_)
        refine Rub.bind (PAg.errs (hnn _ _ _ _ _ _ _ _ x2 y2 z2 (.arg rfl) rfl x3 y3 z3 (.inl rfl))) (fun _ => ?_)
        refine Rub.bind (PAg.errs (huu _ _ _ _ _ _ _ _ x2 y2 z2 (.arg rfl) rfl x3 y3 z3 (.inl rfl))) (fun _ => ?_)
        refine Rub.bind (PAg.errs (hen _ _ _ _ _ _ _ _ x2 y2 z2 (.arg rfl) rfl x3 y3 z3 (.inl rfl))) (fun _ => ?_)
        refine Rub.bind (PAg.errs (heu _ _ _ _ _ _ _ _ x2 y2 z2 (.arg rfl) rfl x3 y3 z3 (.inl rfl))) (fun _ => ?_)
        refine Rub.bind (PAg.errs (hnu _ _ _ _ _ _ _ _ x2 y2 z2 (.arg rfl) rfl x3 y3 z3 (.inl rfl))) (fun _ => ?_)
        exact Rub.ok (.inl (bad_add_left hacc))
      · obtain ⟨-, z2, z3⟩ := hT l
        generalize (if l = 0 then t - u else b - u) = z' at z2 z3 ⊢
        refine Rub.powI z3 (fun q2 kq2 nq2 => ?_)
        refine Rub.bind (PAg.errs (hee _ _ _ _ _ _ _ _ x2 y2 z2 (.arg rfl) rfl x3 y3 z3 (.inl rfl))) (fun _ => ?_)
        refine Rub.bind (PAg.errs (hnn _ _ _ _ _ _ _ _ x2 y2 z2 (.arg rfl) rfl x3 y3 z3 (.inl rfl))) (fun _ => ?_)
        refine Rub.bind (PAg.errs (huu _ _ _ _ _ _ _ _ x2 y2 z2 (.arg rfl) rfl x3 y3 z3 (.inl rfl))) (fun _ => ?_)
        refine Rub.bind (PAg.errs (hen _ _ _ _ _ _ _ _ x2 y2 z2 (.arg rfl) rfl x3 y3 z3 (.inl rfl))) (fun _ => ?_)
        refine Rub.bind (PAg.errs (heu _ _ _ _ _ _ _ _ x2 y2 z2 (.arg rfl) rfl x3 y3 z3 (.inl rfl))) (fun _ => ?_)
        refine Rub.bind (PAg.errs (hnu _ _ _ _ _ _ _ _ x2 y2 z2 (.arg rfl) rfl x3 y3 z3 (.inl rfl))) (fun _ => ?_)
        exact Rub.ok (.inr (.inl (bad_add_left hacc)))
      · obtain ⟨-, z2, z3⟩ := hT l
        generalize (if l = 0 then t - u else b - u) = z' at z2 z3 ⊢
        refine Rub.powI z3 (fun q2 kq2 nq2 => ?_)
        refine Rub.bind (PAg.errs (hee _ _ _ _ _ _ _ _ x2 y2 z2 (.arg rfl) rfl x3 y3 z3 (.inl rfl))) (fun _ => ?_)
        refine Rub.bind (PAg.errs (hnn _ _ _ _ _ _ _ _ x2 y2 z2 (.arg rfl) rfl x3 y3 z3 (.inl rfl))) (fun _ => ?_)
        refine Rub.bind (PAg.errs (huu _ _ _ _ _ _ _ _ x2 y2 z2 (.arg rfl) rfl x3 y3 z3 (.inl rfl))) (fun _ => ?_)
        refine Rub.bind (PAg.errs (hen _ _ _ _ _ _ _ _ x2 y2 z2 (.arg rfl) rfl x3 y3 z3 (.inl rfl))) (fun _ => ?_)
        refine Rub.bind (PAg.errs (heu _ _ _ _ _ _ _ _ x2 y2 z2 (.arg rfl) rfl x3 y3 z3 (.inl rfl))) (fun _ => ?_)
        refine Rub.bind (PAg.errs (hnu _ _ _ _ _ _ _ _ x2 y2 z2 (.arg rfl) rfl x3 y3 z3 (.inl rfl))) (fun _ => ?_)
        exact Rub.ok (.inr (.inr (bad_add_left hacc)))
      · exact Rub.ok (.inl hw)
      · exact Rub.ok (.inr (.inl hw))
      · exact Rub.ok (.inr (.inr hw))
    · obtain ⟨-, y2, y3⟩ := hN j
      generalize (if j = 0 then N - n else s - n) = y' at y2 y3 ⊢
      refine Rub.powI y3 (fun q1 kq1 nq1 => ?_)
      refine Rub.bind3 (Rub.loop3 (fun l acc hacc => ?_) (fun l acc hacc => ?_) (fun l acc hacc => ?_) _ (by first | exact .inl hacc | exact .inr (.inl hacc) | exact .inr (.inr hacc))) (fun w hw => ?_) (fun w hw => ?_) (fun w hw => ?_)
      · obtain ⟨-, z2, z3⟩ := hT l
        generalize (if l = 0 then t - u else b - u) = z' at z2 z3 ⊢
        refine Rub.powI z3 (fun q2 kq2 nq2 => ?_)
        refine Rub.bind (PAg.errs (hee _ _ _ _ _ _ _ _ x2 y2 z2 (.arg rfl) rfl x3 y3 z3 (.inl rfl))) (fun _ => ?_)
        refine Rub.bind (PAg.errs (hnn _ _ _ _ _ _ _ _ x2 y2 z2 (.arg rfl) rfl x3 y3 z3 (.inl rfl))) (fun _ => ?_)
        refine Rub.bind (PAg.errs (huu _ _ _ _ _ _ _ _ x2 y2 z2 (.arg rfl) rfl x3 y3 z3 (.inl rfl))) (fun _ => ?_)
        refine Rub.bind (PAg.errs (hen _ _ _ _ _ _ _ _ x2 y2 z2 (.arg rfl) rfl x3 y3 z3 (.inl rfl))) (fun _ => ?_)
        refine Rub.bind (PAg.errs (heu _ _ _ _ _ _ _ _ x2 y2 z2 (.arg rfl) rfl x3 y3 z3 (.inl rfl))) (fun _ => ?_)
        refine Rub.bind (PAg.errs (hnu _ _ _ _ _ _ _ _ x2 y2 z2 (.arg rfl) rfl x3 y3 z3 (.inl rfl))) (fun _ => ?_)
        exact Rub.ok (.inl (bad_add_left hacc))
      · obtain ⟨-, z2, z3⟩ := hT l
        generalize (if l = 0 then t - u else b - u) = z' at z2 z3 ⊢
        refine Rub.powI z3 (fun q2 kq2 nq2 => ?_)
        refine Rub.bind (PAg.errs (hee _ _ _ _ _ _ _ _ x2 y2 z2 (.arg rfl) rfl x3 y3 z3 (.inl rfl))) (fun _ => ?_)
        refine Rub.bind (PAg.errs (hnn _ _ _ _ _ _ _ _ x2 y2 z2 (.arg rfl) rfl x3 y3 z3 (.inl rfl))) (fun _ => ?_)
        refine Rub.bind (PAg.errs (huu _ _ _ _ _ _ _ _ x2 y2 z2 (.arg rfl) rfl x3 y3 z3 (.inl rfl))) (fun _ => ?_)
        refine Rub.bind (PAg.errs (hen _ _ _ _ _ _ _ _ x2 y2 z2 (.arg rfl) rfl x3 y3 z3 (.inl rfl))) (fun _ => ?_)
        refine Rub.bind (PAg.errs (heu _ _ _ _ _ _ _ _ x2 y2 z2 (.arg rfl) rfl x3 y3 z3 (.inl rfl))) (fun _ => ?_)
        refine Rub.bind (PAg.errs (hnu _ _ _ _ _ _ _ _ x2 y2 z2 (.arg rfl) rfl x3 y3 z3 (.inl rfl))) (fun _ => ?_)
        exact Rub.ok (.inr (.inl (bad_add_left hacc)))
      · obtain ⟨-, z2, z3⟩ := hT l
        generalize (if l = 0 then t - u else b - u) = z' at z2 z3 ⊢
        refine Rub.powI z3 (fun q2 kq2 nq2 => ?_)
        refine Rub.bind (PAg.errs (hee _ _ _ _ _ _ _ _ x2 y2 z2 (.arg rfl) rfl x3 y3 z3 (.inl rfl))) (fun _ => ?_)
        refine Rub.bind (PAg.errs (hnn _ _ _ _ _ _ _ _ x2 y2 z2 (.arg rfl) rfl x3 y3 z3 (.inl rfl))) (fun _ => ?_)
        refine Rub.bind (PAg.errs (huu _ _ _ _ _ _ _ _ x2 y2 z2 (.arg rfl) rfl x3 y3 z3 (.inl rfl))) (fun _ => ?_)
        refine Rub.bind (PAg.errs (hen _ _ _ _ _ _ _ _ x2 y2 z2 (.arg rfl) rfl x3 y3 z3 (.inl rfl))) (fun _ => ?_)
        refine Rub.bind (PAg.errs (heu _ _ _ _ _ _ _ _ x2 y2 z2 (.arg rfl) rfl x3 y3 z3 (.inl rfl))) (fun _ => ?_)
        refine Rub.bind (PAg.errs (hnu _ _ _ _ _ _ _ _ x2 y2 z2 (.arg rfl) rfl x3 y3 z3 (.inl rfl))) (fun _ => ?_)
        exact Rub.ok (.inr (.inr (bad_add_left hacc)))
      · exact Rub.ok (.inl hw)
      · exact Rub.ok (.inr (.inl hw))
      · exact Rub.ok (.inr (.inr hw))
    · exact Rub.ok (.inl hw)
    · exact Rub.ok (.inr (.inl hw))
    · exact Rub.ok (.inr (.inr hw))
  · obtain ⟨-, x2, x3⟩ := hE i
    generalize (if i = 0 then E - e else w - e) = x' at x2 x3 ⊢
    refine Rub.powI x3 (fun q0 kq0 nq0 => ?_)
    refine Rub.bind3 (Rub.loop3 (fun j acc hacc => ?_) (fun j acc hacc => ?_) (fun j acc hacc => ?_) _ (by first | exact .inl hacc | exact .inr (.inl hacc) | exact .inr (.inr hacc))) (fun w hw => ?_) (fun w hw => ?_) (fun w hw => ?_)
    · obtain ⟨-, y2, y3⟩ := hN j
      generalize (if j = 0 then N - n else s - n) = y' at y2 y3 ⊢
      refine Rub.powI y3 (fun q1 kq1 nq1 => ?_)
      refine Rub.bind3 (Rub.loop3 (fun l acc hacc => ?_) (fun l acc hacc => ?_) (fun l acc hacc => ?_) _ (by first | exact .inl hacc | exact .inr (.inl hacc) | exact .inr (.inr hacc))) (fun w hw => ?_) (fun w hw => ?_) (fun w hw => ?_)
      · obtain ⟨-, z2, z3⟩ := hT l
        generalize (if l = 0 then t - u else b - u) = z' at z2 z3 ⊢
        refine Rub.powI z3 (fun q2 kq2 nq2 => ?_)
        refine Rub.bind (PAg.errs (hee _ _ _ _ _ _ _ _ x2 y2 z2 (.arg rfl) rfl x3 y3 z3 (.inl rfl))) (fun _ => ?_)
        refine Rub.bind (PAg.errs (hnn _ _ _ _ _ _ _ _ x2 y2 z2 (.arg rfl) rfl x3 y3 z3 (.inl rfl))) (fun _ => ?_)
        refine Rub.bind (PAg.errs (huu _ _ _ _ _ _ _ _ x2 y2 z2 (.arg rfl) rfl x3 y3 z3 (.inl rfl))) (fun _ => ?_)
        refine Rub.bind (PAg.errs (hen _ _ _ _ _ _ _ _ x2 y2 z2 (.arg rfl) rfl x3 y3 z3 (.inl rfl))) (fun _ => ?_)
        refine Rub.bind (PAg.errs (heu _ _ _ _ _ _ _ _ x2 y2 z2 (.arg rfl) rfl x3 y3 z3 (.inl rfl))) (fun _ => ?_)
        refine Rub.bind (PAg.errs (hnu _ _ _ _ _ _ _ _ x2 y2 z2 (.arg rfl) rfl x3 y3 z3 (.inl rfl))) (fun _ => ?_)
        exact Rub.ok (.inl (bad_add_left hacc))
      · obtain ⟨-, z2, z3⟩ := hT l
        generalize (if l = 0 then t - u else b - u) = z' at z2 z3 ⊢
        refine Rub.powI z3 (fun q2 kq2 nq2 => ?_)
        refine Rub.bind (PAg.errs (hee _ _ _ _ _ _ _ _ x2 y2 z2 (.arg rfl) rfl x3 y3 z3 (.inl rfl))) (fun _ => ?_)
        refine Rub.bind (PAg.errs (hnn _ _ _ _ _ _ _ _ x2 y2 z2 (.arg rfl) rfl x3 y3 z3 (.inl rfl))) (fun _ => ?_)
        refine Rub.bind (PAg.errs (huu _ _ _ _ _ _ _ _ x2 y2 z2 (.arg rfl) rfl x3 y3 z3 (.inl rfl))) (fun _ => ?_)
        refine Rub.bind (PAg.errs (hen _ _ _ _ _ _ _ _ x2 y2 z2 (.arg rfl) rfl x3 y3 z3 (.inl rfl))) (fun _ => ?_)
        refine Rub.bind (PAg.errs (heu _ _ _ _ _ _ _ _ x2 y2 z2 (.arg rfl) rfl x3 y3 z3 (.inl rfl))) (fun _ => ?_)
        refine Rub.bind (PAg.errs (hnu _ _ _ _ _ _ _ _ x2 y2 z2 (.arg rfl) rfl x3 y3 z3 (.inl rfl))) (fun _ => ?_)
        exact Rub.ok (.inr (.inl (bad_add_left hacc)))
      · obtain ⟨-, z2, z3⟩ := hT l
        generalize (if l = 0 then t - u else b - u) = z' at z2 z3 ⊢
        refine Rub.powI z3 (fun q2 kq2 nq2 => ?_)
        refine Rub.bind (PAg.errs (hee _ _ _ _ _ _ _ _ x2 y2 z2 (.arg rfl) rfl x3 y3 z3 (.inl rfl))) (fun _ => ?_)
        refine Rub.bind (PAg.errs (hnn _ _ _ _ _ _ _ _ x2 y2 z2 (.arg rfl) rfl x3 y3 z3 (.inl rfl))) (fun _ => ?_)
        refine Rub.bind (PAg.errs (huu _ _ _ _ _ _ _ _ x2 y2 z2 (.arg rfl) rfl x3 y3 z3 (.inl rfl))) (fun _ => ?_)
        refine Rub.bind (PAg.errs (hen _ _ _ _ _ _ _ _ x2 y2 z2 (.arg rfl) rfl x3 y3 z3 (.inl rfl))) (fun _ => ?_)
        refine Rub.bind (PAg.errs (heu _ _ _ _ _ _ _ _ x2 y2 z2 (.arg rfl) rfl x3 y3 z3 (.inl rfl))) (fun _ => ?_)
        refine Rub.bind (PAg.errs (hnu _ _ _ _ _ _ _ _ x2 y2 z2 (.arg rfl) rfl x3 y3 z3 (.inl rfl))) (fun _ => ?_)
        exact Rub.ok (.inr (.inr (bad_add_left hacc)))
      · exact Rub.ok (.inl hw)
      · exact Rub.ok (.inr (.inl hw))
      · exact Rub.ok (.inr (.inr hw))
    · obtain ⟨-, y2, y3⟩ := hN j
      generalize (if j = 0 then N - n else s - n) = y' at y2 y3 ⊢
      refine Rub.powI y3 (fun q1 kq1 nq1 => ?_)
      refine Rub.bind3 (Rub.loop3 (fun l acc hacc => ?_) (fun l acc hacc => ?_) (fun l acc hacc => ?_) _ (by first | exact .inl hacc | exact .inr (.inl hacc) | exact .inr (.inr hacc))) (fun w hw => ?_) (fun w hw => ?_) (fun w hw => ?_)
      · obtain ⟨-, z2, z3⟩ := hT l
        generalize (if l = 0 then t - u else b - u) = z' at z2 z3 ⊢
        refine Rub.powI z3 (fun q2 kq2 nq2 => ?_)
        refine Rub.bind (PAg.errs (hee _ _ _ _ _ _ _ _ x2 y2 z2 (.arg rfl) rfl x3 y3 z3 (.inl rfl))) (fun _ => ?_)
        refine Rub.bind (PAg.errs (hnn _ _ _ _ _ _ _ _ x2 y2 z2 (.arg rfl) rfl x3 y3 z3 (.inl rfl))) (fun _ => ?_)
        refine Rub.bind (PAg.errs (huu _ _ _ _ _ _ _ _ x2 y2 z2 (.arg rfl) rfl x3 y3 z3 (.inl rfl))) (fun _ => ?_)
        refine Rub.bind (PAg.errs (hen _ _ _ _ _ _ _ _ x2 y2 z2 (.arg rfl) rfl x3 y3 z3 (.inl rfl))) (fun _ => ?_)
        refine Rub.bind (PAg.errs (heu _ _ _ _ _ _ _ _ x2 y2 z2 (.arg rfl) rfl x3 y3 z3 (.inl rfl))) (fun _ => ?_)
        refine Rub.bind (PAg.errs (hnu _ _ _ _ _ _ _ _ x2 y2 z2 (.arg rfl) rfl x3 y3 z3 (.inl rfl))) (fun _ => ?_)
        exact Rub.ok (.inl (bad_add_left hacc))
      · obtain ⟨-, z2, z3⟩ := hT l
        generalize (if l = 0 then t - u else b - u) = z' at z2 z3 ⊢
        refine Rub.powI z3 (fun q2 kq2 nq2 => ?_)
        refine Rub.bind (PAg.errs (hee _ _ _ _ _ _ _ _ x2 y2 z2 (.arg rfl) rfl x3 y3 z3 (.inl rfl))) (fun _ => ?_)
        refine Rub.bind (PAg.errs (hnn _ _ _ _ _ _ _ _ x2 y2 z2 (.arg rfl) rfl x3 y3 z3 (.inl rfl))) (fun _ => ?_)
        refine Rub.bind (PAg.errs (huu _ _ _ _ _ _ _ _ x2 y2 z2 (.arg rfl) rfl x3 y3 z3 (.inl rfl))) (fun _ => ?_)
        refine Rub.bind (PAg.errs (hen _ _ _ _ _ _ _ _ x2 y2 z2 (.arg rfl) rfl x3 y3 z3 (.inl rfl))) (fun _ => ?_)
        refine Rub.bind (PAg.errs (heu _ _ _ _ _ _ _ _ x2 y2 z2 (.arg rfl) rfl x3 y3 z3 (.inl rfl))) (fun _ => ?_)
        refine Rub.bind (PAg.errs (hnu _ _ _ _ _ _ _ _ x2 y2 z2 (.arg rfl) rfl x3 y3 z3 (.inl rfl))) (fun _ => ?_)
        exact Rub.ok (.inr (.inl (bad_add_left hacc)))
      · obtain ⟨-, z2, z3⟩ := hT l
        generalize (if l = 0 then t - u else b - u) = z' at z2 z3 ⊢
        refine Rub.powI z3 (fun q2 kq2 nq2 => ?_)
        refine Rub.bind (PAg.errs (hee _ _ _ _ _ _ _ _ x2 y2 z2 (.arg rfl) rfl x3 y3 z3 (.inl rfl))) (fun _ => ?_)
        refine Rub.bind (PAg.errs (hnn _ _ _ _ _ _ _ _ x2 y2 z2 (.arg rfl) rfl x3 y3 z3 (.inl rfl))) (fun _ => ?_)
        refine Rub.bind (PAg.errs (huu _ _ _ _ _ _ _ _ x2 y2 z2 (.arg rfl) rfl x3 y3 z3 (.inl rfl))) (fun _ => ?_)
        refine Rub.bind (PAg.errs (hen _ _ _ _ _ _ _ _ x2 y2 z2 (.arg rfl) rfl x3 y3 z3 (.inl rfl))) (fun _ => ?_)
        refine Rub.bind (PAg.errs (heu _ _ _ _ _ _ _ _ x2 y2 z2 (.arg rfl) rfl x3 y3 z3 (.inl rfl))) (fun _ => ?_)
        refine Rub.bind (PAg.errs (hnu _ _ _ _ _ _ _ _ x2 y2 z2 (.arg rfl) rfl x3 y3 z3 (.inl rfl))) (fun _ => ?_)
        exact Rub.ok (.inr (.inr (bad_add_left hacc)))
      · exact Rub.ok (.inl hw)
      · exact Rub.ok (.inr (.inl hw))
      · exact Rub.ok (.inr (.inr hw))
    · obtain ⟨-, y2, y3⟩ := hN j
      generalize (if j = 0 then N - n else s - n) = y' at y2 y3 ⊢
      refine Rub.powI y3 (fun q1 kq1 nq1 => ?_)
      refine Rub.bind3 (Rub.loop3 (fun l acc hacc => ?_) (fun l acc hacc => ?_) (fun l acc hacc => ?_) _ (by first | exact .inl hacc | exact .inr (.inl hacc) | exact .inr (.inr hacc))) (fun w hw => ?_) (fun w hw => ?_) (fun w hw => ?_)
      · obtain ⟨-, z2, z3⟩ := hT l
        generalize (if l = 0 then t - u else b - u) = z' at z2 z3 ⊢
        refine Rub.powI z3 (fun q2 kq2 nq2 => ?_)
        refine Rub.bind (PAg.errs (hee _ _ _ _ _ _ _ _ x2 y2 z2 (.arg rfl) rfl x3 y3 z3 (.inl rfl))) (fun _ => ?_)
        refine Rub.bind (PAg.errs (hnn _ _ _ _ _ _ _ _ x2 y2 z2 (.arg rfl) rfl x3 y3 z3 (.inl rfl))) (fun _ => ?_)
        refine Rub.bind (PAg.errs (huu _ _ _ _ _ _ _ _ x2 y2 z2 (.arg rfl) rfl x3 y3 z3 (.inl rfl))) (fun _ => ?_)
        refine Rub.bind (PAg.errs (hen _ _ _ _ _ _ _ _ x2 y2 z2 (.arg rfl) rfl x3 y3 z3 (.inl rfl))) (fun _ => ?_)
        refine Rub.bind (PAg.errs (heu _ _ _ _ _ _ _ _ x2 y2 z2 (.arg rfl) rfl x3 y3 z3 (.inl rfl))) (fun _ => ?_)
        refine Rub.bind (PAg.errs (hnu _ _ _ _ _ _ _ _ x2 y2 z2 (.arg rfl) rfl x3 y3 z3 (.inl rfl))) (fun _ => ?_)
        exact Rub.ok (.inl (bad_add_left hacc))
      · obtain ⟨-, z2, z3⟩ := hT l
        generalize (if l = 0 then t - u else b - u) = z' at z2 z3 ⊢
        refine Rub.powI z3 (fun q2 kq2 nq2 => ?_)
        refine Rub.bind (PAg.errs (hee _ _ _ _ _ _ _ _ x2 y2 z2 (.arg rfl) rfl x3 y3 z3 (.inl rfl))) (fun _ => ?_)
        refine Rub.bind (PAg.errs (hnn _ _ _ _ _ _ _ _ x2 y2 z2 (.arg rfl) rfl x3 y3 z3 (.inl rfl))) (fun _ => ?_)
        refine Rub.bind (PAg.errs (huu _ _ _ _ _ _ _ _ x2 y2 z2 (.arg rfl) rfl x3 y3 z3 (.inl rfl))) (fun _ => ?_)
        refine Rub.bind (PAg.errs (hen _ _ _ _ _ _ _ _ x2 y2 z2 (.arg rfl) rfl x3 y3 z3 (.inl rfl))) (fun _ => ?_)
        refine Rub.bind (PAg.errs (heu _ _ _ _ _ _ _ _ x2 y2 z2 (.arg rfl) rfl x3 y3 z3 (.inl rfl))) (fun _ => ?_)
        refine Rub.bind (PAg.errs (hnu _ _ _ _ _ _ _ _ x2 y2 z2 (.arg rfl) rfl x3 y3 z3 (.inl rfl))) (fun _ => ?_)
        exact Rub.ok (.inr (.inl (bad_add_left hacc)))
      · obtain ⟨-, z2, z3⟩ := hT l
        generalize (if l = 0 then t - u else b - u) = z' at z2 z3 ⊢
        refine Rub.powI z3 (fun q2 kq2 nq2 => ?_)
        refine Rub.bind (PAg.errs (hee _ _ _ _ _ _ _ _ x2 y2 z2 (.arg rfl) rfl x3 y3 z3 (.inl rfl))) (fun _ => ?_)
        refine Rub.bind (PAg.errs (hnn _ _ _ _ _ _ _ _ x2 y2 z2 (.arg rfl) rfl x3 y3 z3 (.inl rfl))) (fun _ => ?_)
        refine Rub.bind (PAg.errs (huu _ _ _ _ _ _ _ _ x2 y2 z2 (.arg rfl) rfl x3 y3 z3 (.inl rfl))) (fun _ => ?_)
        refine Rub.bind (PAg.errs (hen _ _ _ _ _ _ _ _ x2 y2 z2 (.arg rfl) rfl x3 y3 z3 (.inl rfl))) (fun _ => ?_)
        refine Rub.bind (PAg.errs (heu _ _ _ _ _ _ _ _ x2 y2 z2 (.arg rfl) rfl x3 y3 z3 (.inl rfl))) (fun _ => ?_)
        refine Rub.bind (PAg.errs (hnu _ _ _ _ _ _ _ _ x2 y2 z2 (.arg rfl) rfl x3 y3 z3 (.inl rfl))) (fun _ => ?_)
        exact Rub.ok (.inr (.inr (bad_add_left hacc)))
      · exact Rub.ok (.inl hw)
      · exact Rub.ok (.inr (.inl hw))
      · exact Rub.ok (.inr (.inr hw))
    · exact Rub.ok (.inl hw)
    · exact Rub.ok (.inr (.inl hw))
    · exact Rub.ok (.inr (.inr hw))
  · obtain ⟨-, x2, x3⟩ := hE i
    generalize (if i = 0 then E - e else w - e) = x' at x2 x3 ⊢
    refine Rub.powI x3 (fun q0 kq0 nq0 => ?_)
    refine Rub.bind3 (Rub.loop3 (fun j acc hacc => ?_) (fun j acc hacc => ?_) (fun j acc hacc => ?_) _ (by first | exact .inl hacc | exact .inr (.inl hacc) | exact .inr (.inr hacc))) (fun w hw => ?_) (fun w hw => ?_) (fun w hw => ?_)
    · obtain ⟨-, y2, y3⟩ := hN j
      generalize (if j = 0 then N - n else s - n) = y' at y2 y3 ⊢
      refine Rub.powI y3 (fun q1 kq1 nq1 => ?_)
      refine Rub.bind3 (Rub.loop3 (fun l acc hacc => ?_) (fun l acc hacc => ?_) (fun l acc hacc => ?_) _ (by first | exact .inl hacc | exact .inr (.inl hacc) | exact .inr (.inr hacc))) (fun w hw => ?_) (fun w hw => ?_) (fun w hw => ?_)
      · obtain ⟨-, z2, z3⟩ := hT l
        generalize (if l = 0 then t - u else b - u) = z' at z2 z3 ⊢
        refine Rub.powI z3 (fun q2 kq2 nq2 => ?_)
        refine Rub.bind (PAg.errs (hee _ _ _ _ _ _ _ _ x2 y2 z2 (.arg rfl) rfl x3 y3 z3 (.inl rfl))) (fun _ => ?_)
        refine Rub.bind (PAg.errs (hnn _ _ _ _ _ _ _ _ x2 y2 z2 (.arg rfl) rfl x3 y3 z3 (.inl rfl))) (fun _ => ?_)
        refine Rub.bind (PAg.errs (huu _ _ _ _ _ _ _ _ x2 y2 z2 (.arg rfl) rfl x3 y3 z3 (.inl rfl))) (fun _ => ?_)
        refine Rub.bind (PAg.errs (hen _ _ _ _ _ _ _ _ x2 y2 z2 (.arg rfl) rfl x3 y3 z3 (.inl rfl))) (fun _ => ?_)
        refine Rub.bind (PAg.errs (heu _ _ _ _ _ _ _ _ x2 y2 z2 (.arg rfl) rfl x3 y3 z3 (.inl rfl))) (fun _ => ?_)
        refine Rub.bind (PAg.errs (hnu _ _ _ _ _ _ _ _ x2 y2 z2 (.arg rfl) rfl x3 y3 z3 (.inl rfl))) (fun _ => ?_)
        exact Rub.ok (.inl (bad_add_left hacc))
      · obtain ⟨-, z2, z3⟩ := hT l
        generalize (if l = 0 then t - u else b - u) = z' at z2 z3 ⊢
        refine Rub.powI z3 (fun q2 kq2 nq2 => ?_)
        refine Rub.bind (PAg.errs (hee _ _ _ _ _ _ _ _ x2 y2 z2 (.arg rfl) rfl x3 y3 z3 (.inl rfl))) (fun _ => ?_)
        refine Rub.bind (PAg.errs (hnn _ _ _ _ _ _ _ _ x2 y2 z2 (.arg rfl) rfl x3 y3 z3 (.inl rfl))) (fun _ => ?_)
        refine Rub.bind (PAg.errs (huu _ _ _ _ _ _ _ _ x2 y2 z2 (.arg rfl) rfl x3 y3 z3 (.inl rfl))) (fun _ => ?_)
        refine Rub.bind (PAg.errs (hen _ _ _ _ _ _ _ _ x2 y2 z2 (.arg rfl) rfl x3 y3 z3 (.inl rfl))) (fun _ => ?_)
        refine Rub.bind (PAg.errs (heu _ _ _ _ _ _ _ _ x2 y2 z2 (.arg rfl) rfl x3 y3 z3 (.inl rfl))) (fun _ => ?_)
        refine Rub.bind (PAg.errs (hnu _ _ _ _ _ _ _ _ x2 y2 z2 (.arg rfl) rfl x3 y3 z3 (.inl rfl))) (fun _ => ?_)
        exact Rub.ok (.inr (.inl (bad_add_left hacc)))
      · obtain ⟨-, z2, z3⟩ := hT l
        generalize (if l = 0 then t - u else b - u) = z' at z2 z3 ⊢
        refine Rub.powI z3 (fun q2 kq2 nq2 => ?_)
        refine Rub.bind (PAg.errs (hee _ _ _ _ _ _ _ _ x2 y2 z2 (.arg rfl) rfl x3 y3 z3 (.inl rfl))) (fun _ => ?_)
        refine Rub.bind (PAg.errs (hnn _ _ _ _ _ _ _ _ x2 y2 z2 (.arg rfl) rfl x3 y3 z3 (.inl rfl))) (fun _ => ?_)
        refine Rub.bind (PAg.errs (huu _ _ _ _ _ _ _ _ x2 y2 z2 (.arg rfl) rfl x3 y3 z3 (.inl rfl))) (fun _ => ?_)
        refine Rub.bind (PAg.errs (hen _ _ _ _ _ _ _ _ x2 y2 z2 (.arg rfl) rfl x3 y3 z3 (.inl rfl))) (fun _ => ?_)
        refine Rub.bind (PAg.errs (heu _ _ _ _ _ _ _ _ x2 y2 z2 (.arg rfl) rfl x3 y3 z3 (.inl rfl))) (fun _ => ?_)
        refine Rub.bind (PAg.errs (hnu _ _ _ _ _ _ _ _ x2 y2 z2 (.arg rfl) rfl x3 y3 z3 (.inl rfl))) (fun _ => ?_)
        exact Rub.ok (.inr (.inr (bad_add_left hacc)))
      · exact Rub.ok (.inl hw)
      · exact Rub.ok (.inr (.inl hw))
      · exact Rub.ok (.inr (.inr hw))
    · obtain ⟨-, y2, y3⟩ := hN j
      generalize (if j = 0 then N - n else s - n) = y' at y2 y3 ⊢
      refine Rub.powI y3 (fun q1 kq1 nq1 => ?_)
      refine Rub.bind3 (Rub.loop3 (fun l acc hacc => ?_) (fun l acc hacc => ?_) (fun l acc hacc => ?_) _ (by first | exact .inl hacc | exact .inr (.inl hacc) | exact .inr (.inr hacc))) (fun w hw => ?_) (fun w hw => ?_) (fun w hw => ?_)
      · obtain ⟨-, z2, z3⟩ := hT l
        generalize (if l = 0 then t - u else b - u) = z' at z2 z3 ⊢
        refine Rub.powI z3 (fun q2 kq2 nq2 => ?_)
        refine Rub.bind (PAg.errs (hee _ _ _ _ _ _ _ _ x2 y2 z2 (.arg rfl) rfl x3 y3 z3 (.inl rfl))) (fun _ => ?_)
        refine Rub.bind (PAg.errs (hnn _ _ _ _ _ _ _ _ x2 y2 z2 (.arg rfl) rfl x3 y3 z3 (.inl rfl))) (fun _ => ?_)
        refine Rub.bind (PAg.errs (huu _ _ _ _ _ _ _ _ x2 y2 z2 (.arg rfl) rfl x3 y3 z3 (.inl rfl))) (fun _ => ?_)
        refine Rub.bind (PAg.errs (hen _ _ _ _ _ _ _ _ x2 y2 z2 (.arg rfl) rfl x3 y3 z3 (.inl rfl))) (fun _ => ?_)
        refine Rub.bind (PAg.errs (heu _ _ _ _ _ _ _ _ x2 y2 z2 (.arg rfl) rfl x3 y3 z3 (.inl rfl))) (fun _ => ?_)
        refine Rub.bind (PAg.errs (hnu _ _ _ _ _ _ _ _ x2 y2 z2 (.arg rfl) rfl x3 y3 z3 (.inl rfl))) (fun _ => ?_)
        exact Rub.ok (.inl (bad_add_left hacc))
      · obtain ⟨-, z2, z3⟩ := hT l
        generalize (if l = 0 then t - u else b - u) = z' at z2 z3 ⊢
        refine Rub.powI z3 (fun q2 kq2 nq2 => ?_)
        refine Rub.bind (PAg.errs (hee _ _ _ _ _ _ _ _ x2 y2 z2 (.arg rfl) rfl x3 y3 z3 (.inl rfl))) (fun _ => ?_)
        refine Rub.bind (PAg.errs (hnn _ _ _ _ _ _ _ _ x2 y2 z2 (.arg rfl) rfl x3 y3 z3 (.inl rfl))) (fun _ => ?_)
        refine Rub.bind (PAg.errs (huu _ _ _ _ _ _ _ _ x2 y2 z2 (.arg rfl) rfl x3 y3 z3 (.inl rfl))) (fun _ => ?_)
        refine Rub.bind (PAg.errs (hen _ _ _ _ _ _ _ _ x2 y2 z2 (.arg rfl) rfl x3 y3 z3 (.inl rfl))) (fun _ => ?_)
        refine Rub.bind (PAg.errs (heu _ _ _ _ _ _ _ _ x2 y2 z2 (.arg rfl) rfl x3 y3 z3 (.inl rfl))) (fun _ => ?_)
        refine Rub.bind (PAg.errs (hnu _ _ _ _ _ _ _ _ x2 y2 z2 (.arg rfl) rfl x3 y3 z3 (.inl rfl))) (fun _ => ?_)
        exact Rub.ok (.inr (.inl (bad_add_left hacc)))
      · obtain ⟨-, z2, z3⟩ := hT l
        generalize (if l = 0 then t - u else b - u) = z' at z2 z3 ⊢
        refine Rub.powI z3 (fun q2 kq2 nq2 => ?_)
        refine Rub.bind (PAg.errs (hee _ _ _ _ _ _ _ _ x2 y2 z2 (.arg rfl) rfl x3 y3 z3 (.inl rfl))) (fun _ => ?_)
        refine Rub.bind (PAg.errs (hnn _ _ _ _ _ _ _ _ x2 y2 z2 (.arg rfl) rfl x3 y3 z3 (.inl rfl))) (fun _ => ?_)
        refine Rub.bind (PAg.errs (huu _ _ _ _ _ _ _ _ x2 y2 z2 (.arg rfl) rfl x3 y3 z3 (.inl rfl))) (fun _ => ?_)
        refine Rub.bind (PAg.errs (hen _ _ _ _ _ _ _ _ x2 y2 z2 (.arg rfl) rfl x3 y3 z3 (.inl rfl))) (fun _ => ?_)
        refine Rub.bind (PAg.errs (heu _ _ _ _ _ _ _ _ x2 y2 z2 (.arg rfl) rfl x3 y3 z3 (.inl rfl))) (fun _ => ?_)
        refine Rub.bind (PAg.errs (hnu _ _ _ _ _ _ _ _ x2 y2 z2 (.arg rfl) rfl x3 y3 z3 (.inl rfl))) (fun _ => ?_)
        exact Rub.ok (.inr (.inr (bad_add_left hacc)))
      · exact Rub.ok (.inl hw)
      · exact Rub.ok (.inr (.inl hw))
      · exact Rub.ok (.inr (.inr hw))
    · obtain ⟨-, y2, y3⟩ := hN j
      generalize (if j = 0 then N - n else s - n) = y' at y2 y3 ⊢
      refine Rub.powI y3 (fun q1 kq1 nq1 => ?_)
      refine Rub.bind3 (Rub.loop3 (fun l acc hacc => ?_) (fun l acc hacc => ?_) (fun l acc hacc => ?_) _ (by first | exact .inl hacc | exact .inr (.inl hacc) | exact .inr (.inr hacc))) (fun w hw => ?_) (fun w hw => ?_) (fun w hw => ?_)
      · obtain ⟨-, z2, z3⟩ := hT l
        generalize (if l = 0 then t - u else b - u) = z' at z2 z3 ⊢
        refine Rub.powI z3 (fun q2 kq2 nq2 => ?_)
        refine Rub.bind (PAg.errs (hee _ _ _ _ _ _ _ _ x2 y2 z2 (.arg rfl) rfl x3 y3 z3 (.inl rfl))) (fun _ => ?_)
        refine Rub.bind (PAg.errs (hnn _ _ _ _ _ _ _ _ x2 y2 z2 (.arg rfl) rfl x3 y3 z3 (.inl rfl))) (fun _ => ?_)
        refine Rub.bind (PAg.errs (huu _ _ _ _ _ _ _ _ x2 y2 z2 (.arg rfl) rfl x3 y3 z3 (.inl rfl))) (fun _ => ?_)
        refine Rub.bind (PAg.errs (hen _ _ _ _ _ _ _ _ x2 y2 z2 (.arg rfl) rfl x3 y3 z3 (.inl rfl))) (fun _ => ?_)
        refine Rub.bind (PAg.errs (heu _ _ _ _ _ _ _ _ x2 y2 z2 (.arg rfl) rfl x3 y3 z3 (.inl rfl))) (fun _ => ?_)
        refine Rub.bind (PAg.errs (hnu _ _ _ _ _ _ _ _ x2 y2 z2 (.arg rfl) rfl x3 y3 z3 (.inl rfl))) (fun _ => ?_)
        exact Rub.ok (.inl (bad_add_left hacc))
      · obtain ⟨-, z2, z3⟩ := hT l
        generalize (if l = 0 then t - u else b - u) = z' at z2 z3 ⊢
        refine Rub.powI z3 (fun q2 kq2 nq2 => ?_)
        refine Rub.bind (PAg.errs (hee _ _ _ _ _ _ _ _ x2 y2 z2 (.arg rfl) rfl x3 y3 z3 (.inl rfl))) (fun _ => ?_)
        refine Rub.bind (PAg.errs (hnn _ _ _ _ _ _ _ _ x2 y2 z2 (.arg rfl) rfl x3 y3 z3 (.inl rfl))) (fun _ => ?_)
        refine Rub.bind (PAg.errs (huu _ _ _ _ _ _ _ _ x2 y2 z2 (.arg rfl) rfl x3 y3 z3 (.inl rfl))) (fun _ => ?_)
        refine Rub.bind (PAg.errs (hen _ _ _ _ _ _ _ _ x2 y2 z2 (.arg rfl) rfl x3 y3 z3 (.inl rfl))) (fun _ => ?_)
        refine Rub.bind (PAg.errs (heu _ _ _ _ _ _ _ _ x2 y2 z2 (.arg rfl) rfl x3 y3 z3 (.inl rfl))) (fun _ => ?_)
        refine Rub.bind (PAg.errs (hnu _ _ _ _ _ _ _ _ x2 y2 z2 (.arg rfl) rfl x3 y3 z3 (.inl rfl))) (fun _ => ?_)
        exact Rub.ok (.inr (.inl (bad_add_left hacc)))
      · obtain ⟨-, z2, z3⟩ := hT l
        generalize (if l = 0 then t - u else b - u) = z' at z2 z3 ⊢
        refine Rub.powI z3 (fun q2 kq2 nq2 => ?_)
        refine Rub.bind (PAg.errs (hee _ _ _ _ _ _ _ _ x2 y2 z2 (.arg rfl) rfl x3 y3 z3 (.inl rfl))) (fun _ => ?_)
        refine Rub.bind (PAg.errs (hnn _ _ _ _ _ _ _ _ x2 y2 z2 (.arg rfl) rfl x3 y3 z3 (.inl rfl))) (fun _ => ?_)
        refine Rub.bind (PAg.errs (huu _ _ _ _ _ _ _ _ x2 y2 z2 (.arg rfl) rfl x3 y3 z3 (.inl rfl))) (fun _ => ?_)
        refine Rub.bind (PAg.errs (hen _ _ _ _ _ _ _ _ x2 y2 z2 (.arg rfl) rfl x3 y3 z3 (.inl rfl))) (fun _ => ?_)
        refine Rub.bind (PAg.errs (heu _ _ _ _ _ _ _ _ x2 y2 z2 (.arg rfl) rfl x3 y3 z3 (.inl rfl))) (fun _ => ?_)
        refine Rub.bind (PAg.errs (hnu _ _ _ _ _ _ _ _ x2 y2 z2 (.arg rfl) rfl x3 y3 z3 (.inl rfl))) (fun _ => ?_)
        exact Rub.ok (.inr (.inr (bad_add_left hacc)))
      · exact Rub.ok (.inl hw)
      · exact Rub.ok (.inr (.inl hw))
      · exact Rub.ok (.inr (.inr hw))
    · exact Rub.ok (.inl hw)
    · exact Rub.ok (.inr (.inl hw))
    · exact Rub.ok (.inr (.inr hw))
  · repeat' (first
      | (with_reducible refine PAg.ite rfl (fun _ => ?_) (fun _ => ?_))
      | pagb_step)
  · repeat' pagb_step
  · repeat' pagb_step
  · repeat' pagb_step

end prism

end Python

end Choclo
