import Verif.Spec.Signed
import Mathlib.Tactic.Linarith

/-! # The operations do not see the signs of zeros -/

set_option linter.unusedSimpArgs false
set_option linter.unusedTactic false
set_option linter.unreachableTactic false

namespace Choclo

variable {A : Arith}

namespace SFl

theorem erase_ofRaw (s : Bool) (r : Raw) : (ofRaw s r : SFl A).erase = Fl.ofRaw r := by
  cases r with
  | nan => rfl
  | inf t => rfl
  | fin x =>
    by_cases h : x = 0
    · have e : (ofRaw s (.fin x) : SFl A) = SRaw.zero s := dif_pos h
      rw [e, h]; rfl
    · have e : (ofRaw s (.fin x) : SFl A) = SRaw.num x h := dif_neg h
      rw [e]; rfl

theorem erase_fin (x : ℝ) : (fin x : SFl A).erase = Fl.fin x := erase_ofRaw false (.fin x)

theorem erase_nan : (nan : SFl A).erase = Fl.nan := rfl

theorem erase_neg (a : SFl A) : (-a).erase = -a.erase := by
  cases a with
  | nan => rfl
  | inf s => rfl
  | zero s => show Fl.fin 0 = Fl.fin (-0); rw [neg_zero]
  | num x h => rfl

theorem erase_add (a b : SFl A) : (a + b).erase = a.erase + b.erase := by
  show (add a b).erase = Fl.add a.erase b.erase
  cases a with
  | nan => cases b <;> rfl
  | inf s =>
    cases b with
    | inf t =>
      show (if s = t then inf s else nan : SFl A).erase = if s = t then Fl.inf s else Fl.nan
      split <;> rfl
    | _ => rfl
  | zero s => cases b <;> first | rfl | exact erase_ofRaw _ _
  | num x h => cases b <;> first | rfl | exact erase_ofRaw _ _

theorem erase_sub (a b : SFl A) : (a - b).erase = a.erase - b.erase := by
  have : (a - b).erase = (a + -b).erase := rfl
  rw [this, erase_add, erase_neg]
  rfl

theorem erase_mul (a b : SFl A) : (a * b).erase = a.erase * b.erase := by
  show (mul a b).erase = Fl.mul a.erase b.erase
  have key : ∀ (s : Bool) (x : ℝ), x ≠ 0 → (if 0 < x then inf s else inf (!s) : SFl A).erase = Fl.mulInf s x := by
    intro s x h
    unfold Fl.mulInf
    rw [if_neg h]
    split <;> rfl
  have key0 : ∀ s : Bool, (nan : SFl A).erase = Fl.mulInf s 0 := by
    intro s
    unfold Fl.mulInf
    rw [if_pos rfl]; rfl
  cases a with
  | nan => cases b <;> rfl
  | inf s =>
    cases b with
    | zero t => exact key0 s
    | num x h => exact key s x h
    | _ => rfl
  | zero s =>
    cases b with
    | inf t => exact key0 t
    | _ => first | rfl | exact erase_ofRaw _ _
  | num x h =>
    cases b with
    | inf t => exact key t x h
    | _ => first | rfl | exact erase_ofRaw _ _

theorem erase_div (a b : SFl A) : (a /± b).map erase = a.erase /. b.erase := by
  cases b with
  | nan => cases a <;> rfl
  | inf t =>
    cases a with
    | zero s => rfl
    | num x h => rfl
    | _ => rfl
  | zero t =>
    have : ∀ c : Fl A, (c /. (Fl.fin 0 : Fl A)) = .error .zeroDivision := by
      intro c
      cases c <;> exact if_pos rfl
    refine Eq.trans ?_ (this _).symm
    cases a <;> rfl
  | num y h =>
    cases a with
    | nan => exact (if_neg h).symm
    | inf s =>
      show (if 0 < y then .ok (inf s) else .ok (inf (!s)) : Py (SFl A)).map erase
        = if y = 0 then _ else if 0 < y then .ok (Fl.inf s) else .ok (Fl.inf (!s))
      rw [if_neg h]
      split <;> rfl
    | zero s =>
      show Except.ok (ofRaw _ (A.rnd (0 / y)) : SFl A).erase = if y = 0 then _ else Except.ok (Fl.ofRaw (A.rnd (0 / y)))
      rw [if_neg h, erase_ofRaw]
    | num x h' =>
      show Except.ok (ofRaw _ (A.rnd (x / y)) : SFl A).erase = if y = 0 then _ else Except.ok (Fl.ofRaw (A.rnd (x / y)))
      rw [if_neg h, erase_ofRaw]

theorem erase_pow (a : SFl A) (n : ℕ) : (a ^ n).erase = a.erase ^ n := by
  cases a with
  | nan =>
    show (if n = 0 then fin 1 else nan : SFl A).erase = if n = 0 then Fl.fin 1 else Fl.nan
    split
    · exact erase_fin 1
    · rfl
  | inf s =>
    show (if n = 0 then fin 1 else inf _ : SFl A).erase = if n = 0 then Fl.fin 1 else Fl.inf _
    split
    · exact erase_fin 1
    · rfl
  | zero s => exact erase_ofRaw _ _
  | num x h => exact erase_ofRaw _ _

theorem erase_sqrt (a : SFl A) : (sqrt a).erase = Fl.sqrt a.erase := by
  cases a with
  | nan => rfl
  | inf s => cases s <;> rfl
  | zero s =>
    refine (erase_ofRaw _ _).trans ?_
    exact (if_neg (lt_irrefl _)).symm
  | num x h =>
    show (if x < 0 then nan else ofRaw false (A.rnd (Real.sqrt x)) : SFl A).erase
      = if x < 0 then Fl.nan else Fl.ofRaw (A.rnd (Real.sqrt x))
    split
    · rfl
    · exact erase_ofRaw _ _

theorem erase_log (a : SFl A) : (log a).erase = Fl.log a.erase := by
  cases a with
  | nan => rfl
  | inf s => cases s <;> rfl
  | zero s =>
    show (inf true : SFl A).erase = if (0 : ℝ) < 0 then Fl.nan else if (0 : ℝ) = 0 then Fl.inf true else Fl.ofRaw (A.log 0)
    rw [if_neg (lt_irrefl _), if_pos rfl]
    rfl
  | num x h =>
    show (if x < 0 then nan else ofRaw _ (A.log x) : SFl A).erase
      = if x < 0 then Fl.nan else if x = 0 then Fl.inf true else Fl.ofRaw (A.log x)
    rw [if_neg h]
    split
    · rfl
    · exact erase_ofRaw _ _

theorem erase_arctan (a : SFl A) : (arctan a).erase = Fl.arctan a.erase := by
  cases a with
  | inf s => cases s <;> exact erase_ofRaw _ _
  | _ => first | rfl | exact erase_ofRaw _ _

theorem erase_sin (a : SFl A) : (sin a).erase = Fl.sin a.erase := by
  cases a <;> first | rfl | exact erase_ofRaw _ _

theorem erase_cos (a : SFl A) : (cos a).erase = Fl.cos a.erase := by
  cases a <;> first | rfl | exact erase_ofRaw _ _

theorem erase_radians (a : SFl A) : (radians a).erase = Fl.radians a.erase := by
  cases a <;> first | rfl | exact erase_ofRaw _ _

theorem erase_pi : (pi : SFl A).erase = Fl.pi := erase_fin _
theorem erase_half : (half : SFl A).erase = Fl.half := erase_fin _
theorem erase_lit (x : ℝ) : (lit x : SFl A).erase = Fl.lit x := erase_ofRaw _ _
theorem erase_intCast (n : ℤ) : ((n : SFl A)).erase = ((n : Fl A)) := erase_fin _
theorem erase_lit0 : (0 : SFl A).erase = 0 := erase_fin _
theorem erase_lit1 : (1 : SFl A).erase = 1 := erase_fin _
theorem erase_lit2 : (2 : SFl A).erase = 2 := erase_fin _
theorem erase_lit3 : (3 : SFl A).erase = 3 := erase_fin _
theorem erase_lit4 : (4 : SFl A).erase = 4 := erase_fin _
theorem erase_lit9 : (9 : SFl A).erase = 9 := erase_fin _
theorem erase_lit15 : (15 : SFl A).erase = 15 := erase_fin _

theorem lt_erase (a b : SFl A) : lt a b = Fl.lt a.erase b.erase := by
  cases a <;> cases b <;> first | rfl | exact (decide_eq_false (lt_irrefl _)).symm

theorem le_erase (a b : SFl A) : le a b = Fl.le a.erase b.erase := by
  cases a <;> cases b <;> first | rfl | exact (decide_eq_true (le_refl _)).symm

theorem eq_erase (a b : SFl A) : eq a b = Fl.eq a.erase b.erase := by
  cases a <;> cases b <;> first | rfl | exact (decide_eq_true (rfl : (0 : ℝ) = 0)).symm

end SFl

/-! ## Computations -/

/-- Two computations with the same outcome after `e` is applied to the returned value. -/
def Er {α β : Type} (e : α → β) (x : Py α) (y : Py β) : Prop := x.map e = y

theorem Er.bind {α β γ δ : Type} (e : α → β) {e' : γ → δ} {x : Py α} {y : Py β} {f : α → Py γ} {g : β → Py δ}
    (h : Er e x y) (hf : ∀ a, Er e' (f a) (g (e a))) : Er e' (x >>= f) (y >>= g) := by
  subst h
  cases x with
  | error e => rfl
  | ok a => exact hf a

theorem Er.ok {α β : Type} {e : α → β} {a : α} {b : β} (h : e a = b) : Er e (pure a) (pure b) := by
  subst h; rfl

theorem Er.div {a b : SFl A} {c d : Fl A} (h : a.erase = c) (h' : b.erase = d) :
    Er SFl.erase (a /± b) (c /. d) := by
  subst h; subst h'; exact SFl.erase_div a b

theorem Er.ite {α β : Type} {e : α → β} {b : Bool} {c : Bool} {x x' : Py α} {y y' : Py β} (hb : b = c)
    (h : Er e x y) (h' : Er e x' y') :
    Er e (if b = true then x else x') (if c = true then y else y') := by
  subst hb
  split
  · exact h
  · exact h'

/-- `e` under the loop control. -/
def stepMap {α β : Type} (e : α → β) : ForInStep α → ForInStep β
  | .done a => .done (e a)
  | .yield a => .yield (e a)

theorem Er.forIn {α β γ : Type} {e : α → β} {f : γ → α → Py (ForInStep α)} {g : γ → β → Py (ForInStep β)}
    (h : ∀ i a, Er (stepMap e) (f i a) (g i (e a))) :
    ∀ (l : List γ) (a : α) {b : β}, e a = b → Er e (forIn l a f) (forIn l b g) := by
  intro l
  induction l with
  | nil => intro a b hb; subst hb; rfl
  | cons i l ih =>
    intro a b hb
    subst hb
    simp only [List.forIn_cons]
    refine Er.bind (stepMap e) (h i a) fun r => ?_
    cases r with
    | done a => rfl
    | yield a => exact ih a rfl

/-- Three numbers without the signs of zeros. -/
def SFl.erase3 (r : SFl A × SFl A × SFl A) : Fl A × Fl A × Fl A := (r.1.erase, r.2.1.erase, r.2.2.erase)

theorem SFl.erase_ite {p : Prop} [Decidable p] (a b : SFl A) :
    (if p then a else b).erase = if p then a.erase else b.erase := by
  split <;> rfl

theorem Er.congr {α β : Type} {e : α → β} {x : Py α} {y y' : Py β} (h : Er e x y) (hy : y = y') : Er e x y' :=
  hy ▸ h

namespace Signed

theorem erase_G : (GRAVITATIONAL_CONST : SFl A).erase = Choclo.GRAVITATIONAL_CONST := SFl.erase_lit _
theorem erase_mu0 : (VACUUM_MAGNETIC_PERMEABILITY : SFl A).erase = Choclo.VACUUM_MAGNETIC_PERMEABILITY := SFl.erase_lit _

end Signed

/-- The erased form of an expression. -/
macro "erase_expr" : tactic => `(tactic| (first
  | rfl
  | simp only [SFl.erase_add, SFl.erase_sub, SFl.erase_mul, SFl.erase_neg, SFl.erase_pow, SFl.erase_sqrt,
      SFl.erase_log, SFl.erase_arctan, SFl.erase_sin, SFl.erase_cos, SFl.erase_radians, SFl.erase_pi,
      SFl.erase_half, SFl.erase_lit, SFl.erase_intCast, SFl.erase_lit0, SFl.erase_lit1, SFl.erase_lit2,
      SFl.erase_lit3, SFl.erase_lit4, SFl.erase_lit15, SFl.erase_lit9, Signed.erase_G, Signed.erase_mu0, SFl.erase_nan, SFl.erase_ite, SFl.erase3, stepMap,
      SFl.lt_erase, SFl.le_erase, SFl.eq_erase]))

/-- One step through two computations of the same form. -/
macro "er_step" : tactic => `(tactic| first
  | (with_reducible refine Er.ite ?hb ?_ ?_
     case hb => erase_expr)
  | with_reducible refine Er.div (by erase_expr) (by erase_expr)
  | with_reducible refine Er.ok (by erase_expr)
  | (with_reducible refine Er.forIn (fun _ _ => ?_) _ _ (by erase_expr))
  | with_reducible refine Er.bind SFl.erase ?_ fun _ => ?_
  | with_reducible refine Er.bind SFl.erase3 ?_ fun _ => ?_)

namespace Signed

namespace utils

theorem er_distance_cartesian (a b c d e f : SFl A) :
    Er SFl.erase (distance_cartesian a b c d e f) (Choclo.utils.distance_cartesian a.erase b.erase c.erase d.erase e.erase f.erase) := by
  unfold distance_cartesian Choclo.utils.distance_cartesian
  repeat' (first
    | er_step)

theorem er_distance_spherical_core (a b c d e f g h : SFl A) :
    Er SFl.erase3 (distance_spherical_core a b c d e f g h) (Choclo.utils.distance_spherical_core a.erase b.erase c.erase d.erase e.erase f.erase g.erase h.erase) := by
  unfold distance_spherical_core Choclo.utils.distance_spherical_core
  repeat' (first
    | er_step)

theorem er_distance_spherical (a b c d e f : SFl A) :
    Er SFl.erase (distance_spherical a b c d e f) (Choclo.utils.distance_spherical a.erase b.erase c.erase d.erase e.erase f.erase) := by
  unfold distance_spherical Choclo.utils.distance_spherical
  (try dsimp only)
  repeat' (first
    | (refine Er.congr (er_distance_spherical_core _ _ _ _ _ _ _ _) ?hc; case hc => erase_expr; done)
    | er_step)

end utils

namespace point

theorem er_kernel_pot (a b c d e f r : SFl A) :
    Er SFl.erase (kernel_pot a b c d e f r) (Choclo.point.kernel_pot a.erase b.erase c.erase d.erase e.erase f.erase r.erase) := by
  unfold kernel_pot Choclo.point.kernel_pot
  repeat' (first
    | er_step)

theorem er_kernel_e (a b c d e f r : SFl A) :
    Er SFl.erase (kernel_e a b c d e f r) (Choclo.point.kernel_e a.erase b.erase c.erase d.erase e.erase f.erase r.erase) := by
  unfold kernel_e Choclo.point.kernel_e
  repeat' (first
    | er_step)

theorem er_kernel_n (a b c d e f r : SFl A) :
    Er SFl.erase (kernel_n a b c d e f r) (Choclo.point.kernel_n a.erase b.erase c.erase d.erase e.erase f.erase r.erase) := by
  unfold kernel_n Choclo.point.kernel_n
  repeat' (first
    | er_step)

theorem er_kernel_u (a b c d e f r : SFl A) :
    Er SFl.erase (kernel_u a b c d e f r) (Choclo.point.kernel_u a.erase b.erase c.erase d.erase e.erase f.erase r.erase) := by
  unfold kernel_u Choclo.point.kernel_u
  repeat' (first
    | er_step)

theorem er_kernel_ee (a b c d e f r : SFl A) :
    Er SFl.erase (kernel_ee a b c d e f r) (Choclo.point.kernel_ee a.erase b.erase c.erase d.erase e.erase f.erase r.erase) := by
  unfold kernel_ee Choclo.point.kernel_ee
  repeat' (first
    | er_step)

theorem er_kernel_nn (a b c d e f r : SFl A) :
    Er SFl.erase (kernel_nn a b c d e f r) (Choclo.point.kernel_nn a.erase b.erase c.erase d.erase e.erase f.erase r.erase) := by
  unfold kernel_nn Choclo.point.kernel_nn
  repeat' (first
    | er_step)

theorem er_kernel_uu (a b c d e f r : SFl A) :
    Er SFl.erase (kernel_uu a b c d e f r) (Choclo.point.kernel_uu a.erase b.erase c.erase d.erase e.erase f.erase r.erase) := by
  unfold kernel_uu Choclo.point.kernel_uu
  repeat' (first
    | er_step)

theorem er_kernel_en (a b c d e f r : SFl A) :
    Er SFl.erase (kernel_en a b c d e f r) (Choclo.point.kernel_en a.erase b.erase c.erase d.erase e.erase f.erase r.erase) := by
  unfold kernel_en Choclo.point.kernel_en
  repeat' (first
    | er_step)

theorem er_kernel_eu (a b c d e f r : SFl A) :
    Er SFl.erase (kernel_eu a b c d e f r) (Choclo.point.kernel_eu a.erase b.erase c.erase d.erase e.erase f.erase r.erase) := by
  unfold kernel_eu Choclo.point.kernel_eu
  repeat' (first
    | er_step)

theorem er_kernel_nu (a b c d e f r : SFl A) :
    Er SFl.erase (kernel_nu a b c d e f r) (Choclo.point.kernel_nu a.erase b.erase c.erase d.erase e.erase f.erase r.erase) := by
  unfold kernel_nu Choclo.point.kernel_nu
  repeat' (first
    | er_step)

theorem er_kernel_eee (a b c d e f r : SFl A) :
    Er SFl.erase (kernel_eee a b c d e f r) (Choclo.point.kernel_eee a.erase b.erase c.erase d.erase e.erase f.erase r.erase) := by
  unfold kernel_eee Choclo.point.kernel_eee
  repeat' (first
    | er_step)

theorem er_kernel_nnn (a b c d e f r : SFl A) :
    Er SFl.erase (kernel_nnn a b c d e f r) (Choclo.point.kernel_nnn a.erase b.erase c.erase d.erase e.erase f.erase r.erase) := by
  unfold kernel_nnn Choclo.point.kernel_nnn
  repeat' (first
    | er_step)

theorem er_kernel_uuu (a b c d e f r : SFl A) :
    Er SFl.erase (kernel_uuu a b c d e f r) (Choclo.point.kernel_uuu a.erase b.erase c.erase d.erase e.erase f.erase r.erase) := by
  unfold kernel_uuu Choclo.point.kernel_uuu
  repeat' (first
    | er_step)

theorem er_kernel_een (a b c d e f r : SFl A) :
    Er SFl.erase (kernel_een a b c d e f r) (Choclo.point.kernel_een a.erase b.erase c.erase d.erase e.erase f.erase r.erase) := by
  unfold kernel_een Choclo.point.kernel_een
  repeat' (first
    | er_step)

theorem er_kernel_eeu (a b c d e f r : SFl A) :
    Er SFl.erase (kernel_eeu a b c d e f r) (Choclo.point.kernel_eeu a.erase b.erase c.erase d.erase e.erase f.erase r.erase) := by
  unfold kernel_eeu Choclo.point.kernel_eeu
  repeat' (first
    | er_step)

theorem er_kernel_nne (a b c d e f r : SFl A) :
    Er SFl.erase (kernel_nne a b c d e f r) (Choclo.point.kernel_nne a.erase b.erase c.erase d.erase e.erase f.erase r.erase) := by
  unfold kernel_nne Choclo.point.kernel_nne
  repeat' (first
    | er_step)

theorem er_kernel_nnu (a b c d e f r : SFl A) :
    Er SFl.erase (kernel_nnu a b c d e f r) (Choclo.point.kernel_nnu a.erase b.erase c.erase d.erase e.erase f.erase r.erase) := by
  unfold kernel_nnu Choclo.point.kernel_nnu
  repeat' (first
    | er_step)

theorem er_kernel_uue (a b c d e f r : SFl A) :
    Er SFl.erase (kernel_uue a b c d e f r) (Choclo.point.kernel_uue a.erase b.erase c.erase d.erase e.erase f.erase r.erase) := by
  unfold kernel_uue Choclo.point.kernel_uue
  repeat' (first
    | er_step)

theorem er_kernel_uun (a b c d e f r : SFl A) :
    Er SFl.erase (kernel_uun a b c d e f r) (Choclo.point.kernel_uun a.erase b.erase c.erase d.erase e.erase f.erase r.erase) := by
  unfold kernel_uun Choclo.point.kernel_uun
  repeat' (first
    | er_step)

theorem er_kernel_enu (a b c d e f r : SFl A) :
    Er SFl.erase (kernel_enu a b c d e f r) (Choclo.point.kernel_enu a.erase b.erase c.erase d.erase e.erase f.erase r.erase) := by
  unfold kernel_enu Choclo.point.kernel_enu
  repeat' (first
    | er_step)

theorem er_gravity_pot (a b c d e f m : SFl A) :
    Er SFl.erase (gravity_pot a b c d e f m) (Choclo.point.gravity_pot a.erase b.erase c.erase d.erase e.erase f.erase m.erase) := by
  unfold gravity_pot Choclo.point.gravity_pot
  repeat' (first
    | (refine Er.congr (utils.er_distance_cartesian _ _ _ _ _ _) ?hc; case hc => erase_expr; done)
    | (refine Er.congr (er_kernel_pot _ _ _ _ _ _ _) ?hc; case hc => erase_expr; done)
    | er_step)

theorem er_gravity_e (a b c d e f m : SFl A) :
    Er SFl.erase (gravity_e a b c d e f m) (Choclo.point.gravity_e a.erase b.erase c.erase d.erase e.erase f.erase m.erase) := by
  unfold gravity_e Choclo.point.gravity_e
  repeat' (first
    | (refine Er.congr (utils.er_distance_cartesian _ _ _ _ _ _) ?hc; case hc => erase_expr; done)
    | (refine Er.congr (er_kernel_e _ _ _ _ _ _ _) ?hc; case hc => erase_expr; done)
    | er_step)

theorem er_gravity_n (a b c d e f m : SFl A) :
    Er SFl.erase (gravity_n a b c d e f m) (Choclo.point.gravity_n a.erase b.erase c.erase d.erase e.erase f.erase m.erase) := by
  unfold gravity_n Choclo.point.gravity_n
  repeat' (first
    | (refine Er.congr (utils.er_distance_cartesian _ _ _ _ _ _) ?hc; case hc => erase_expr; done)
    | (refine Er.congr (er_kernel_n _ _ _ _ _ _ _) ?hc; case hc => erase_expr; done)
    | er_step)

theorem er_gravity_u (a b c d e f m : SFl A) :
    Er SFl.erase (gravity_u a b c d e f m) (Choclo.point.gravity_u a.erase b.erase c.erase d.erase e.erase f.erase m.erase) := by
  unfold gravity_u Choclo.point.gravity_u
  repeat' (first
    | (refine Er.congr (utils.er_distance_cartesian _ _ _ _ _ _) ?hc; case hc => erase_expr; done)
    | (refine Er.congr (er_kernel_u _ _ _ _ _ _ _) ?hc; case hc => erase_expr; done)
    | er_step)

theorem er_gravity_ee (a b c d e f m : SFl A) :
    Er SFl.erase (gravity_ee a b c d e f m) (Choclo.point.gravity_ee a.erase b.erase c.erase d.erase e.erase f.erase m.erase) := by
  unfold gravity_ee Choclo.point.gravity_ee
  repeat' (first
    | (refine Er.congr (utils.er_distance_cartesian _ _ _ _ _ _) ?hc; case hc => erase_expr; done)
    | (refine Er.congr (er_kernel_ee _ _ _ _ _ _ _) ?hc; case hc => erase_expr; done)
    | er_step)

theorem er_gravity_nn (a b c d e f m : SFl A) :
    Er SFl.erase (gravity_nn a b c d e f m) (Choclo.point.gravity_nn a.erase b.erase c.erase d.erase e.erase f.erase m.erase) := by
  unfold gravity_nn Choclo.point.gravity_nn
  repeat' (first
    | (refine Er.congr (utils.er_distance_cartesian _ _ _ _ _ _) ?hc; case hc => erase_expr; done)
    | (refine Er.congr (er_kernel_nn _ _ _ _ _ _ _) ?hc; case hc => erase_expr; done)
    | er_step)

theorem er_gravity_uu (a b c d e f m : SFl A) :
    Er SFl.erase (gravity_uu a b c d e f m) (Choclo.point.gravity_uu a.erase b.erase c.erase d.erase e.erase f.erase m.erase) := by
  unfold gravity_uu Choclo.point.gravity_uu
  repeat' (first
    | (refine Er.congr (utils.er_distance_cartesian _ _ _ _ _ _) ?hc; case hc => erase_expr; done)
    | (refine Er.congr (er_kernel_uu _ _ _ _ _ _ _) ?hc; case hc => erase_expr; done)
    | er_step)

theorem er_gravity_en (a b c d e f m : SFl A) :
    Er SFl.erase (gravity_en a b c d e f m) (Choclo.point.gravity_en a.erase b.erase c.erase d.erase e.erase f.erase m.erase) := by
  unfold gravity_en Choclo.point.gravity_en
  repeat' (first
    | (refine Er.congr (utils.er_distance_cartesian _ _ _ _ _ _) ?hc; case hc => erase_expr; done)
    | (refine Er.congr (er_kernel_en _ _ _ _ _ _ _) ?hc; case hc => erase_expr; done)
    | er_step)

theorem er_gravity_eu (a b c d e f m : SFl A) :
    Er SFl.erase (gravity_eu a b c d e f m) (Choclo.point.gravity_eu a.erase b.erase c.erase d.erase e.erase f.erase m.erase) := by
  unfold gravity_eu Choclo.point.gravity_eu
  repeat' (first
    | (refine Er.congr (utils.er_distance_cartesian _ _ _ _ _ _) ?hc; case hc => erase_expr; done)
    | (refine Er.congr (er_kernel_eu _ _ _ _ _ _ _) ?hc; case hc => erase_expr; done)
    | er_step)

theorem er_gravity_nu (a b c d e f m : SFl A) :
    Er SFl.erase (gravity_nu a b c d e f m) (Choclo.point.gravity_nu a.erase b.erase c.erase d.erase e.erase f.erase m.erase) := by
  unfold gravity_nu Choclo.point.gravity_nu
  repeat' (first
    | (refine Er.congr (utils.er_distance_cartesian _ _ _ _ _ _) ?hc; case hc => erase_expr; done)
    | (refine Er.congr (er_kernel_nu _ _ _ _ _ _ _) ?hc; case hc => erase_expr; done)
    | er_step)

end point

namespace dipole

theorem er_magnetic_e (a b c d e f mx my mz : SFl A) :
    Er SFl.erase (magnetic_e a b c d e f mx my mz) (Choclo.dipole.magnetic_e a.erase b.erase c.erase d.erase e.erase f.erase mx.erase my.erase mz.erase) := by
  unfold magnetic_e Choclo.dipole.magnetic_e
  (try dsimp only)
  repeat' (first
    | er_step)

theorem er_magnetic_n (a b c d e f mx my mz : SFl A) :
    Er SFl.erase (magnetic_n a b c d e f mx my mz) (Choclo.dipole.magnetic_n a.erase b.erase c.erase d.erase e.erase f.erase mx.erase my.erase mz.erase) := by
  unfold magnetic_n Choclo.dipole.magnetic_n
  (try dsimp only)
  repeat' (first
    | er_step)

theorem er_magnetic_u (a b c d e f mx my mz : SFl A) :
    Er SFl.erase (magnetic_u a b c d e f mx my mz) (Choclo.dipole.magnetic_u a.erase b.erase c.erase d.erase e.erase f.erase mx.erase my.erase mz.erase) := by
  unfold magnetic_u Choclo.dipole.magnetic_u
  (try dsimp only)
  repeat' (first
    | er_step)

theorem er_magnetic_field (a b c d e f mx my mz : SFl A) :
    Er SFl.erase3 (magnetic_field a b c d e f mx my mz) (Choclo.dipole.magnetic_field a.erase b.erase c.erase d.erase e.erase f.erase mx.erase my.erase mz.erase) := by
  unfold magnetic_field Choclo.dipole.magnetic_field
  (try dsimp only)
  repeat' (first
    | er_step)

end dipole

namespace prism

theorem is_interior_point_erase (e n u w E s N b t : SFl A) :
    is_interior_point e n u w E s N b t = Choclo.prism.is_interior_point e.erase n.erase u.erase w.erase E.erase s.erase N.erase b.erase t.erase := by
  unfold is_interior_point Choclo.prism.is_interior_point 
  simp only [SFl.lt_erase, SFl.le_erase, SFl.eq_erase]

theorem is_point_on_easting_edge_erase (e n u w E s N b t : SFl A) :
    is_point_on_easting_edge e n u w E s N b t = Choclo.prism.is_point_on_easting_edge e.erase n.erase u.erase w.erase E.erase s.erase N.erase b.erase t.erase := by
  unfold is_point_on_easting_edge Choclo.prism.is_point_on_easting_edge 
  simp only [SFl.lt_erase, SFl.le_erase, SFl.eq_erase]

theorem is_point_on_northing_edge_erase (e n u w E s N b t : SFl A) :
    is_point_on_northing_edge e n u w E s N b t = Choclo.prism.is_point_on_northing_edge e.erase n.erase u.erase w.erase E.erase s.erase N.erase b.erase t.erase := by
  unfold is_point_on_northing_edge Choclo.prism.is_point_on_northing_edge 
  simp only [SFl.lt_erase, SFl.le_erase, SFl.eq_erase]

theorem is_point_on_upward_edge_erase (e n u w E s N b t : SFl A) :
    is_point_on_upward_edge e n u w E s N b t = Choclo.prism.is_point_on_upward_edge e.erase n.erase u.erase w.erase E.erase s.erase N.erase b.erase t.erase := by
  unfold is_point_on_upward_edge Choclo.prism.is_point_on_upward_edge 
  simp only [SFl.lt_erase, SFl.le_erase, SFl.eq_erase]

theorem is_point_on_edge_erase (e n u w E s N b t : SFl A) :
    is_point_on_edge e n u w E s N b t = Choclo.prism.is_point_on_edge e.erase n.erase u.erase w.erase E.erase s.erase N.erase b.erase t.erase := by
  unfold is_point_on_edge Choclo.prism.is_point_on_edge is_point_on_easting_edge Choclo.prism.is_point_on_easting_edge is_point_on_northing_edge Choclo.prism.is_point_on_northing_edge is_point_on_upward_edge Choclo.prism.is_point_on_upward_edge
  simp only [SFl.lt_erase, SFl.le_erase, SFl.eq_erase]

theorem is_point_on_east_face_erase (e n u w E s N b t : SFl A) :
    is_point_on_east_face e n u w E s N b t = Choclo.prism.is_point_on_east_face e.erase n.erase u.erase w.erase E.erase s.erase N.erase b.erase t.erase := by
  unfold is_point_on_east_face Choclo.prism.is_point_on_east_face 
  simp only [SFl.lt_erase, SFl.le_erase, SFl.eq_erase]

theorem is_point_on_north_face_erase (e n u w E s N b t : SFl A) :
    is_point_on_north_face e n u w E s N b t = Choclo.prism.is_point_on_north_face e.erase n.erase u.erase w.erase E.erase s.erase N.erase b.erase t.erase := by
  unfold is_point_on_north_face Choclo.prism.is_point_on_north_face 
  simp only [SFl.lt_erase, SFl.le_erase, SFl.eq_erase]

theorem is_point_on_top_face_erase (e n u w E s N b t : SFl A) :
    is_point_on_top_face e n u w E s N b t = Choclo.prism.is_point_on_top_face e.erase n.erase u.erase w.erase E.erase s.erase N.erase b.erase t.erase := by
  unfold is_point_on_top_face Choclo.prism.is_point_on_top_face 
  simp only [SFl.lt_erase, SFl.le_erase, SFl.eq_erase]

theorem er_atan2 (y x : SFl A) :
    Er SFl.erase (_safe_atan2 y x) (Choclo.prism._safe_atan2 y.erase x.erase) := by
  unfold _safe_atan2 Choclo.prism._safe_atan2
  repeat' (first
    | er_step)

theorem er_log (x y z r : SFl A) :
    Er SFl.erase (_safe_log x y z r) (Choclo.prism._safe_log x.erase y.erase z.erase r.erase) := by
  unfold _safe_log Choclo.prism._safe_log
  repeat' (first
    | er_step)

theorem er_kernel_pot (x y z r : SFl A) :
    Er SFl.erase (kernel_pot x y z r) (Choclo.prism.kernel_pot x.erase y.erase z.erase r.erase) := by
  unfold kernel_pot Choclo.prism.kernel_pot
  repeat' (first
    | (refine Er.congr (er_atan2 _ _) ?hc; case hc => erase_expr; done)
    | (refine Er.congr (er_log _ _ _ _) ?hc; case hc => erase_expr; done)
    | er_step)

theorem er_kernel_e (x y z r : SFl A) :
    Er SFl.erase (kernel_e x y z r) (Choclo.prism.kernel_e x.erase y.erase z.erase r.erase) := by
  unfold kernel_e Choclo.prism.kernel_e
  repeat' (first
    | (refine Er.congr (er_atan2 _ _) ?hc; case hc => erase_expr; done)
    | (refine Er.congr (er_log _ _ _ _) ?hc; case hc => erase_expr; done)
    | er_step)

theorem er_kernel_n (x y z r : SFl A) :
    Er SFl.erase (kernel_n x y z r) (Choclo.prism.kernel_n x.erase y.erase z.erase r.erase) := by
  unfold kernel_n Choclo.prism.kernel_n
  repeat' (first
    | (refine Er.congr (er_atan2 _ _) ?hc; case hc => erase_expr; done)
    | (refine Er.congr (er_log _ _ _ _) ?hc; case hc => erase_expr; done)
    | er_step)

theorem er_kernel_u (x y z r : SFl A) :
    Er SFl.erase (kernel_u x y z r) (Choclo.prism.kernel_u x.erase y.erase z.erase r.erase) := by
  unfold kernel_u Choclo.prism.kernel_u
  repeat' (first
    | (refine Er.congr (er_atan2 _ _) ?hc; case hc => erase_expr; done)
    | (refine Er.congr (er_log _ _ _ _) ?hc; case hc => erase_expr; done)
    | er_step)

theorem er_kernel_ee (x y z r : SFl A) :
    Er SFl.erase (kernel_ee x y z r) (Choclo.prism.kernel_ee x.erase y.erase z.erase r.erase) := by
  unfold kernel_ee Choclo.prism.kernel_ee
  repeat' (first
    | (refine Er.congr (er_atan2 _ _) ?hc; case hc => erase_expr; done)
    | (refine Er.congr (er_log _ _ _ _) ?hc; case hc => erase_expr; done)
    | er_step)

theorem er_kernel_nn (x y z r : SFl A) :
    Er SFl.erase (kernel_nn x y z r) (Choclo.prism.kernel_nn x.erase y.erase z.erase r.erase) := by
  unfold kernel_nn Choclo.prism.kernel_nn
  repeat' (first
    | (refine Er.congr (er_atan2 _ _) ?hc; case hc => erase_expr; done)
    | (refine Er.congr (er_log _ _ _ _) ?hc; case hc => erase_expr; done)
    | er_step)

theorem er_kernel_uu (x y z r : SFl A) :
    Er SFl.erase (kernel_uu x y z r) (Choclo.prism.kernel_uu x.erase y.erase z.erase r.erase) := by
  unfold kernel_uu Choclo.prism.kernel_uu
  repeat' (first
    | (refine Er.congr (er_atan2 _ _) ?hc; case hc => erase_expr; done)
    | (refine Er.congr (er_log _ _ _ _) ?hc; case hc => erase_expr; done)
    | er_step)

theorem er_kernel_en (x y z r : SFl A) :
    Er SFl.erase (kernel_en x y z r) (Choclo.prism.kernel_en x.erase y.erase z.erase r.erase) := by
  unfold kernel_en Choclo.prism.kernel_en
  repeat' (first
    | (refine Er.congr (er_atan2 _ _) ?hc; case hc => erase_expr; done)
    | (refine Er.congr (er_log _ _ _ _) ?hc; case hc => erase_expr; done)
    | er_step)

theorem er_kernel_eu (x y z r : SFl A) :
    Er SFl.erase (kernel_eu x y z r) (Choclo.prism.kernel_eu x.erase y.erase z.erase r.erase) := by
  unfold kernel_eu Choclo.prism.kernel_eu
  repeat' (first
    | (refine Er.congr (er_atan2 _ _) ?hc; case hc => erase_expr; done)
    | (refine Er.congr (er_log _ _ _ _) ?hc; case hc => erase_expr; done)
    | er_step)

theorem er_kernel_nu (x y z r : SFl A) :
    Er SFl.erase (kernel_nu x y z r) (Choclo.prism.kernel_nu x.erase y.erase z.erase r.erase) := by
  unfold kernel_nu Choclo.prism.kernel_nu
  repeat' (first
    | (refine Er.congr (er_atan2 _ _) ?hc; case hc => erase_expr; done)
    | (refine Er.congr (er_log _ _ _ _) ?hc; case hc => erase_expr; done)
    | er_step)

theorem er_kernel_iii (x y z r : SFl A) :
    Er SFl.erase (_kernel_iii x y z r) (Choclo.prism._kernel_iii x.erase y.erase z.erase r.erase) := by
  unfold _kernel_iii Choclo.prism._kernel_iii
  (try dsimp only)
  repeat' (first
    | er_step)

theorem er_kernel_iij (x y z r : SFl A) :
    Er SFl.erase (_kernel_iij x y z r) (Choclo.prism._kernel_iij x.erase y.erase z.erase r.erase) := by
  unfold _kernel_iij Choclo.prism._kernel_iij
  (try dsimp only)
  repeat' (first
    | er_step)

theorem er_kernel_eee (x y z r : SFl A) :
    Er SFl.erase (kernel_eee x y z r) (Choclo.prism.kernel_eee x.erase y.erase z.erase r.erase) := by
  unfold kernel_eee Choclo.prism.kernel_eee
  repeat' (first
    | (refine Er.congr (er_kernel_iii _ _ _ _) ?hc; case hc => erase_expr; done)
    | (refine Er.congr (er_kernel_iij _ _ _ _) ?hc; case hc => erase_expr; done)
    | er_step)

theorem er_kernel_nnn (x y z r : SFl A) :
    Er SFl.erase (kernel_nnn x y z r) (Choclo.prism.kernel_nnn x.erase y.erase z.erase r.erase) := by
  unfold kernel_nnn Choclo.prism.kernel_nnn
  repeat' (first
    | (refine Er.congr (er_kernel_iii _ _ _ _) ?hc; case hc => erase_expr; done)
    | (refine Er.congr (er_kernel_iij _ _ _ _) ?hc; case hc => erase_expr; done)
    | er_step)

theorem er_kernel_uuu (x y z r : SFl A) :
    Er SFl.erase (kernel_uuu x y z r) (Choclo.prism.kernel_uuu x.erase y.erase z.erase r.erase) := by
  unfold kernel_uuu Choclo.prism.kernel_uuu
  repeat' (first
    | (refine Er.congr (er_kernel_iii _ _ _ _) ?hc; case hc => erase_expr; done)
    | (refine Er.congr (er_kernel_iij _ _ _ _) ?hc; case hc => erase_expr; done)
    | er_step)

theorem er_kernel_een (x y z r : SFl A) :
    Er SFl.erase (kernel_een x y z r) (Choclo.prism.kernel_een x.erase y.erase z.erase r.erase) := by
  unfold kernel_een Choclo.prism.kernel_een
  repeat' (first
    | (refine Er.congr (er_kernel_iii _ _ _ _) ?hc; case hc => erase_expr; done)
    | (refine Er.congr (er_kernel_iij _ _ _ _) ?hc; case hc => erase_expr; done)
    | er_step)

theorem er_kernel_eeu (x y z r : SFl A) :
    Er SFl.erase (kernel_eeu x y z r) (Choclo.prism.kernel_eeu x.erase y.erase z.erase r.erase) := by
  unfold kernel_eeu Choclo.prism.kernel_eeu
  repeat' (first
    | (refine Er.congr (er_kernel_iii _ _ _ _) ?hc; case hc => erase_expr; done)
    | (refine Er.congr (er_kernel_iij _ _ _ _) ?hc; case hc => erase_expr; done)
    | er_step)

theorem er_kernel_enn (x y z r : SFl A) :
    Er SFl.erase (kernel_enn x y z r) (Choclo.prism.kernel_enn x.erase y.erase z.erase r.erase) := by
  unfold kernel_enn Choclo.prism.kernel_enn
  repeat' (first
    | (refine Er.congr (er_kernel_iii _ _ _ _) ?hc; case hc => erase_expr; done)
    | (refine Er.congr (er_kernel_iij _ _ _ _) ?hc; case hc => erase_expr; done)
    | er_step)

theorem er_kernel_nnu (x y z r : SFl A) :
    Er SFl.erase (kernel_nnu x y z r) (Choclo.prism.kernel_nnu x.erase y.erase z.erase r.erase) := by
  unfold kernel_nnu Choclo.prism.kernel_nnu
  repeat' (first
    | (refine Er.congr (er_kernel_iii _ _ _ _) ?hc; case hc => erase_expr; done)
    | (refine Er.congr (er_kernel_iij _ _ _ _) ?hc; case hc => erase_expr; done)
    | er_step)

theorem er_kernel_euu (x y z r : SFl A) :
    Er SFl.erase (kernel_euu x y z r) (Choclo.prism.kernel_euu x.erase y.erase z.erase r.erase) := by
  unfold kernel_euu Choclo.prism.kernel_euu
  repeat' (first
    | (refine Er.congr (er_kernel_iii _ _ _ _) ?hc; case hc => erase_expr; done)
    | (refine Er.congr (er_kernel_iij _ _ _ _) ?hc; case hc => erase_expr; done)
    | er_step)

theorem er_kernel_nuu (x y z r : SFl A) :
    Er SFl.erase (kernel_nuu x y z r) (Choclo.prism.kernel_nuu x.erase y.erase z.erase r.erase) := by
  unfold kernel_nuu Choclo.prism.kernel_nuu
  repeat' (first
    | (refine Er.congr (er_kernel_iii _ _ _ _) ?hc; case hc => erase_expr; done)
    | (refine Er.congr (er_kernel_iij _ _ _ _) ?hc; case hc => erase_expr; done)
    | er_step)

theorem er_kernel_enu (x y z r : SFl A) :
    Er SFl.erase (kernel_enu x y z r) (Choclo.prism.kernel_enu x.erase y.erase z.erase r.erase) := by
  unfold kernel_enu Choclo.prism.kernel_enu
  repeat' (first
    | er_step)

/-- Kernels that agree up to the sign of a zero. -/
abbrev ErK (K : Kernel A) (K' : Choclo.prism.Kernel A) : Prop :=
  ∀ x y z r, Er SFl.erase (K x y z r) (K' x.erase y.erase z.erase r.erase)

theorem er_evaluate_kernel (e n u w E s N b t : SFl A) {K : Kernel A} {K' : Choclo.prism.Kernel A} (h : ErK K K') :
    Er SFl.erase (_evaluate_kernel e n u w E s N b t K) (Choclo.prism._evaluate_kernel e.erase n.erase u.erase w.erase E.erase s.erase N.erase b.erase t.erase K') := by
  unfold _evaluate_kernel Choclo.prism._evaluate_kernel
  (try dsimp only)
  repeat' (first
    | (refine Er.congr (h _ _ _ _) ?hc; case hc => erase_expr; done)
    | er_step)

theorem er_gravity_pot (e n u w E s N b t d : SFl A) :
    Er SFl.erase (gravity_pot e n u w E s N b t d) (Choclo.prism.gravity_pot e.erase n.erase u.erase w.erase E.erase s.erase N.erase b.erase t.erase d.erase) := by
  unfold gravity_pot Choclo.prism.gravity_pot
  (try dsimp only)
  repeat' (first
    | (refine Er.congr (er_evaluate_kernel _ _ _ _ _ _ _ _ _ er_kernel_pot) ?hc; case hc => erase_expr; done)
    | er_step)

theorem er_gravity_e (e n u w E s N b t d : SFl A) :
    Er SFl.erase (gravity_e e n u w E s N b t d) (Choclo.prism.gravity_e e.erase n.erase u.erase w.erase E.erase s.erase N.erase b.erase t.erase d.erase) := by
  unfold gravity_e Choclo.prism.gravity_e
  (try dsimp only)
  repeat' (first
    | (refine Er.congr (er_evaluate_kernel _ _ _ _ _ _ _ _ _ er_kernel_e) ?hc; case hc => erase_expr; done)
    | er_step)

theorem er_gravity_n (e n u w E s N b t d : SFl A) :
    Er SFl.erase (gravity_n e n u w E s N b t d) (Choclo.prism.gravity_n e.erase n.erase u.erase w.erase E.erase s.erase N.erase b.erase t.erase d.erase) := by
  unfold gravity_n Choclo.prism.gravity_n
  (try dsimp only)
  repeat' (first
    | (refine Er.congr (er_evaluate_kernel _ _ _ _ _ _ _ _ _ er_kernel_n) ?hc; case hc => erase_expr; done)
    | er_step)

theorem er_gravity_u (e n u w E s N b t d : SFl A) :
    Er SFl.erase (gravity_u e n u w E s N b t d) (Choclo.prism.gravity_u e.erase n.erase u.erase w.erase E.erase s.erase N.erase b.erase t.erase d.erase) := by
  unfold gravity_u Choclo.prism.gravity_u
  (try dsimp only)
  repeat' (first
    | (refine Er.congr (er_evaluate_kernel _ _ _ _ _ _ _ _ _ er_kernel_u) ?hc; case hc => erase_expr; done)
    | er_step)

theorem er_gravity_ee (e n u w E s N b t d : SFl A) :
    Er SFl.erase (gravity_ee e n u w E s N b t d) (Choclo.prism.gravity_ee e.erase n.erase u.erase w.erase E.erase s.erase N.erase b.erase t.erase d.erase) := by
  unfold gravity_ee Choclo.prism.gravity_ee
  (try dsimp only)
  (try simp only [is_interior_point_erase, is_point_on_easting_edge_erase, is_point_on_northing_edge_erase, is_point_on_upward_edge_erase, is_point_on_edge_erase, is_point_on_east_face_erase, is_point_on_north_face_erase, is_point_on_top_face_erase])
  repeat' (first
    | (refine Er.congr (er_evaluate_kernel _ _ _ _ _ _ _ _ _ er_kernel_ee) ?hc; case hc => erase_expr; done)
    | er_step)

theorem er_gravity_nn (e n u w E s N b t d : SFl A) :
    Er SFl.erase (gravity_nn e n u w E s N b t d) (Choclo.prism.gravity_nn e.erase n.erase u.erase w.erase E.erase s.erase N.erase b.erase t.erase d.erase) := by
  unfold gravity_nn Choclo.prism.gravity_nn
  (try dsimp only)
  (try simp only [is_interior_point_erase, is_point_on_easting_edge_erase, is_point_on_northing_edge_erase, is_point_on_upward_edge_erase, is_point_on_edge_erase, is_point_on_east_face_erase, is_point_on_north_face_erase, is_point_on_top_face_erase])
  repeat' (first
    | (refine Er.congr (er_evaluate_kernel _ _ _ _ _ _ _ _ _ er_kernel_nn) ?hc; case hc => erase_expr; done)
    | er_step)

theorem er_gravity_uu (e n u w E s N b t d : SFl A) :
    Er SFl.erase (gravity_uu e n u w E s N b t d) (Choclo.prism.gravity_uu e.erase n.erase u.erase w.erase E.erase s.erase N.erase b.erase t.erase d.erase) := by
  unfold gravity_uu Choclo.prism.gravity_uu
  (try dsimp only)
  (try simp only [is_interior_point_erase, is_point_on_easting_edge_erase, is_point_on_northing_edge_erase, is_point_on_upward_edge_erase, is_point_on_edge_erase, is_point_on_east_face_erase, is_point_on_north_face_erase, is_point_on_top_face_erase])
  repeat' (first
    | (refine Er.congr (er_evaluate_kernel _ _ _ _ _ _ _ _ _ er_kernel_uu) ?hc; case hc => erase_expr; done)
    | er_step)

theorem er_gravity_en (e n u w E s N b t d : SFl A) :
    Er SFl.erase (gravity_en e n u w E s N b t d) (Choclo.prism.gravity_en e.erase n.erase u.erase w.erase E.erase s.erase N.erase b.erase t.erase d.erase) := by
  unfold gravity_en Choclo.prism.gravity_en
  (try dsimp only)
  (try simp only [is_interior_point_erase, is_point_on_easting_edge_erase, is_point_on_northing_edge_erase, is_point_on_upward_edge_erase, is_point_on_edge_erase, is_point_on_east_face_erase, is_point_on_north_face_erase, is_point_on_top_face_erase])
  repeat' (first
    | (refine Er.congr (er_evaluate_kernel _ _ _ _ _ _ _ _ _ er_kernel_en) ?hc; case hc => erase_expr; done)
    | er_step)

theorem er_gravity_eu (e n u w E s N b t d : SFl A) :
    Er SFl.erase (gravity_eu e n u w E s N b t d) (Choclo.prism.gravity_eu e.erase n.erase u.erase w.erase E.erase s.erase N.erase b.erase t.erase d.erase) := by
  unfold gravity_eu Choclo.prism.gravity_eu
  (try dsimp only)
  (try simp only [is_interior_point_erase, is_point_on_easting_edge_erase, is_point_on_northing_edge_erase, is_point_on_upward_edge_erase, is_point_on_edge_erase, is_point_on_east_face_erase, is_point_on_north_face_erase, is_point_on_top_face_erase])
  repeat' (first
    | (refine Er.congr (er_evaluate_kernel _ _ _ _ _ _ _ _ _ er_kernel_eu) ?hc; case hc => erase_expr; done)
    | er_step)

theorem er_gravity_nu (e n u w E s N b t d : SFl A) :
    Er SFl.erase (gravity_nu e n u w E s N b t d) (Choclo.prism.gravity_nu e.erase n.erase u.erase w.erase E.erase s.erase N.erase b.erase t.erase d.erase) := by
  unfold gravity_nu Choclo.prism.gravity_nu
  (try dsimp only)
  (try simp only [is_interior_point_erase, is_point_on_easting_edge_erase, is_point_on_northing_edge_erase, is_point_on_upward_edge_erase, is_point_on_edge_erase, is_point_on_east_face_erase, is_point_on_north_face_erase, is_point_on_top_face_erase])
  repeat' (first
    | (refine Er.congr (er_evaluate_kernel _ _ _ _ _ _ _ _ _ er_kernel_nu) ?hc; case hc => erase_expr; done)
    | er_step)

theorem er_calculate_component (e n u w E s N b t Me Mn Mu : SFl A) {K1 K2 K3 : Kernel A} {K1' K2' K3' : Choclo.prism.Kernel A} (h1 : ErK K1 K1')
    (h2 : ErK K2 K2') (h3 : ErK K3 K3') :
    Er SFl.erase (_calculate_component e n u w E s N b t Me Mn Mu K1 K2 K3) (Choclo.prism._calculate_component e.erase n.erase u.erase w.erase E.erase s.erase N.erase b.erase t.erase Me.erase Mn.erase Mu.erase K1' K2' K3') := by
  unfold _calculate_component Choclo.prism._calculate_component
  (try dsimp only)
  repeat' (first
    | (refine Er.congr (h1 _ _ _ _) ?hc; case hc => erase_expr; done)
    | (refine Er.congr (h2 _ _ _ _) ?hc; case hc => erase_expr; done)
    | (refine Er.congr (h3 _ _ _ _) ?hc; case hc => erase_expr; done)
    | er_step)

theorem er_magnetic_field (e n u w E s N b t Me Mn Mu : SFl A) :
    Er SFl.erase3 (magnetic_field e n u w E s N b t Me Mn Mu) (Choclo.prism.magnetic_field e.erase n.erase u.erase w.erase E.erase s.erase N.erase b.erase t.erase Me.erase Mn.erase Mu.erase) := by
  unfold magnetic_field Choclo.prism.magnetic_field
  (try dsimp only)
  (try simp only [is_interior_point_erase, is_point_on_easting_edge_erase, is_point_on_northing_edge_erase, is_point_on_upward_edge_erase, is_point_on_edge_erase, is_point_on_east_face_erase, is_point_on_north_face_erase, is_point_on_top_face_erase])
  repeat' (first
    | (refine Er.congr (er_kernel_ee _ _ _ _) ?hc; case hc => erase_expr; done)
    | (refine Er.congr (er_kernel_nn _ _ _ _) ?hc; case hc => erase_expr; done)
    | (refine Er.congr (er_kernel_uu _ _ _ _) ?hc; case hc => erase_expr; done)
    | (refine Er.congr (er_kernel_en _ _ _ _) ?hc; case hc => erase_expr; done)
    | (refine Er.congr (er_kernel_eu _ _ _ _) ?hc; case hc => erase_expr; done)
    | (refine Er.congr (er_kernel_nu _ _ _ _) ?hc; case hc => erase_expr; done)
    | er_step)

theorem er_magnetic_e (e n u w E s N b t Me Mn Mu : SFl A) :
    Er SFl.erase (magnetic_e e n u w E s N b t Me Mn Mu) (Choclo.prism.magnetic_e e.erase n.erase u.erase w.erase E.erase s.erase N.erase b.erase t.erase Me.erase Mn.erase Mu.erase) := by
  unfold magnetic_e Choclo.prism.magnetic_e
  (try dsimp only)
  (try simp only [is_interior_point_erase, is_point_on_easting_edge_erase, is_point_on_northing_edge_erase, is_point_on_upward_edge_erase, is_point_on_edge_erase, is_point_on_east_face_erase, is_point_on_north_face_erase, is_point_on_top_face_erase])
  repeat' (first
    | (refine Er.congr (er_calculate_component _ _ _ _ _ _ _ _ _ _ _ _ er_kernel_ee er_kernel_en er_kernel_eu) ?hc; case hc => erase_expr; done)
    | er_step)

theorem er_magnetic_n (e n u w E s N b t Me Mn Mu : SFl A) :
    Er SFl.erase (magnetic_n e n u w E s N b t Me Mn Mu) (Choclo.prism.magnetic_n e.erase n.erase u.erase w.erase E.erase s.erase N.erase b.erase t.erase Me.erase Mn.erase Mu.erase) := by
  unfold magnetic_n Choclo.prism.magnetic_n
  (try dsimp only)
  (try simp only [is_interior_point_erase, is_point_on_easting_edge_erase, is_point_on_northing_edge_erase, is_point_on_upward_edge_erase, is_point_on_edge_erase, is_point_on_east_face_erase, is_point_on_north_face_erase, is_point_on_top_face_erase])
  repeat' (first
    | (refine Er.congr (er_calculate_component _ _ _ _ _ _ _ _ _ _ _ _ er_kernel_en er_kernel_nn er_kernel_nu) ?hc; case hc => erase_expr; done)
    | er_step)

theorem er_magnetic_u (e n u w E s N b t Me Mn Mu : SFl A) :
    Er SFl.erase (magnetic_u e n u w E s N b t Me Mn Mu) (Choclo.prism.magnetic_u e.erase n.erase u.erase w.erase E.erase s.erase N.erase b.erase t.erase Me.erase Mn.erase Mu.erase) := by
  unfold magnetic_u Choclo.prism.magnetic_u
  (try dsimp only)
  (try simp only [is_interior_point_erase, is_point_on_easting_edge_erase, is_point_on_northing_edge_erase, is_point_on_upward_edge_erase, is_point_on_edge_erase, is_point_on_east_face_erase, is_point_on_north_face_erase, is_point_on_top_face_erase])
  repeat' (first
    | (refine Er.congr (er_calculate_component _ _ _ _ _ _ _ _ _ _ _ _ er_kernel_eu er_kernel_nu er_kernel_uu) ?hc; case hc => erase_expr; done)
    | er_step)

theorem er_magnetic_ee (e n u w E s N b t Me Mn Mu : SFl A) :
    Er SFl.erase (magnetic_ee e n u w E s N b t Me Mn Mu) (Choclo.prism.magnetic_ee e.erase n.erase u.erase w.erase E.erase s.erase N.erase b.erase t.erase Me.erase Mn.erase Mu.erase) := by
  unfold magnetic_ee Choclo.prism.magnetic_ee
  (try dsimp only)
  (try simp only [is_interior_point_erase, is_point_on_easting_edge_erase, is_point_on_northing_edge_erase, is_point_on_upward_edge_erase, is_point_on_edge_erase, is_point_on_east_face_erase, is_point_on_north_face_erase, is_point_on_top_face_erase])
  repeat' (first
    | (refine Er.congr (er_calculate_component _ _ _ _ _ _ _ _ _ _ _ _ er_kernel_eee er_kernel_een er_kernel_eeu) ?hc; case hc => erase_expr; done)
    | er_step)

theorem er_magnetic_nn (e n u w E s N b t Me Mn Mu : SFl A) :
    Er SFl.erase (magnetic_nn e n u w E s N b t Me Mn Mu) (Choclo.prism.magnetic_nn e.erase n.erase u.erase w.erase E.erase s.erase N.erase b.erase t.erase Me.erase Mn.erase Mu.erase) := by
  unfold magnetic_nn Choclo.prism.magnetic_nn
  (try dsimp only)
  (try simp only [is_interior_point_erase, is_point_on_easting_edge_erase, is_point_on_northing_edge_erase, is_point_on_upward_edge_erase, is_point_on_edge_erase, is_point_on_east_face_erase, is_point_on_north_face_erase, is_point_on_top_face_erase])
  repeat' (first
    | (refine Er.congr (er_calculate_component _ _ _ _ _ _ _ _ _ _ _ _ er_kernel_enn er_kernel_nnn er_kernel_nnu) ?hc; case hc => erase_expr; done)
    | er_step)

theorem er_magnetic_uu (e n u w E s N b t Me Mn Mu : SFl A) :
    Er SFl.erase (magnetic_uu e n u w E s N b t Me Mn Mu) (Choclo.prism.magnetic_uu e.erase n.erase u.erase w.erase E.erase s.erase N.erase b.erase t.erase Me.erase Mn.erase Mu.erase) := by
  unfold magnetic_uu Choclo.prism.magnetic_uu
  (try dsimp only)
  (try simp only [is_interior_point_erase, is_point_on_easting_edge_erase, is_point_on_northing_edge_erase, is_point_on_upward_edge_erase, is_point_on_edge_erase, is_point_on_east_face_erase, is_point_on_north_face_erase, is_point_on_top_face_erase])
  repeat' (first
    | (refine Er.congr (er_calculate_component _ _ _ _ _ _ _ _ _ _ _ _ er_kernel_euu er_kernel_nuu er_kernel_uuu) ?hc; case hc => erase_expr; done)
    | er_step)

theorem er_magnetic_en (e n u w E s N b t Me Mn Mu : SFl A) :
    Er SFl.erase (magnetic_en e n u w E s N b t Me Mn Mu) (Choclo.prism.magnetic_en e.erase n.erase u.erase w.erase E.erase s.erase N.erase b.erase t.erase Me.erase Mn.erase Mu.erase) := by
  unfold magnetic_en Choclo.prism.magnetic_en
  (try dsimp only)
  (try simp only [is_interior_point_erase, is_point_on_easting_edge_erase, is_point_on_northing_edge_erase, is_point_on_upward_edge_erase, is_point_on_edge_erase, is_point_on_east_face_erase, is_point_on_north_face_erase, is_point_on_top_face_erase])
  repeat' (first
    | (refine Er.congr (er_calculate_component _ _ _ _ _ _ _ _ _ _ _ _ er_kernel_een er_kernel_enn er_kernel_enu) ?hc; case hc => erase_expr; done)
    | er_step)

theorem er_magnetic_eu (e n u w E s N b t Me Mn Mu : SFl A) :
    Er SFl.erase (magnetic_eu e n u w E s N b t Me Mn Mu) (Choclo.prism.magnetic_eu e.erase n.erase u.erase w.erase E.erase s.erase N.erase b.erase t.erase Me.erase Mn.erase Mu.erase) := by
  unfold magnetic_eu Choclo.prism.magnetic_eu
  (try dsimp only)
  (try simp only [is_interior_point_erase, is_point_on_easting_edge_erase, is_point_on_northing_edge_erase, is_point_on_upward_edge_erase, is_point_on_edge_erase, is_point_on_east_face_erase, is_point_on_north_face_erase, is_point_on_top_face_erase])
  repeat' (first
    | (refine Er.congr (er_calculate_component _ _ _ _ _ _ _ _ _ _ _ _ er_kernel_eeu er_kernel_enu er_kernel_euu) ?hc; case hc => erase_expr; done)
    | er_step)

theorem er_magnetic_nu (e n u w E s N b t Me Mn Mu : SFl A) :
    Er SFl.erase (magnetic_nu e n u w E s N b t Me Mn Mu) (Choclo.prism.magnetic_nu e.erase n.erase u.erase w.erase E.erase s.erase N.erase b.erase t.erase Me.erase Mn.erase Mu.erase) := by
  unfold magnetic_nu Choclo.prism.magnetic_nu
  (try dsimp only)
  (try simp only [is_interior_point_erase, is_point_on_easting_edge_erase, is_point_on_northing_edge_erase, is_point_on_upward_edge_erase, is_point_on_edge_erase, is_point_on_east_face_erase, is_point_on_north_face_erase, is_point_on_top_face_erase])
  repeat' (first
    | (refine Er.congr (er_calculate_component _ _ _ _ _ _ _ _ _ _ _ _ er_kernel_enu er_kernel_nnu er_kernel_nuu) ?hc; case hc => erase_expr; done)
    | er_step)

end prism

end Signed

end Choclo
