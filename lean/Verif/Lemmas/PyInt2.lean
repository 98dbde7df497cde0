import Verif.Lemmas.PyInt

/-! # The interpreter and the compiled code: points and dipoles, with integers

The lemmas about the single functions are of one form; they were written by a script. -/

set_option linter.unusedTactic false
set_option linter.unreachableTactic false
set_option linter.unusedVariables false

namespace Choclo

variable {A : Arith}

open PNum

namespace Python

namespace utils

variable {P Q : Prop} {L C M : ℕ}

theorem pagb_distance_cartesian (hA : PyArith A) (hE : A.ExactInts L) (hC : 12 * C ^ 2 ≤ L) (h2C : 2 * C ≤ L) (hL : 15 ≤ L) (a b c d e f : PNum A) (ka : SamB C a.number a) (kb : SamB C b.number b) (kc : SamB C c.number c) (kd : SamB C d.number d) (ke : SamB C e.number e) (kf : SamB C f.number f)
    (h1 : PowRaises (a - d) 2 → P) (h2 : PowRaises (b - e) 2 → P) (h3 : PowRaises (c - f) 2 → P) :
    PAg P Q (Choclo.utils.distance_cartesian a.number b.number c.number d.number e.number f.number) (distance_cartesian a b c d e f) := by
  unfold distance_cartesian Choclo.utils.distance_cartesian
  (try dsimp only)
  repeat' pagb_step

theorem pagb_distance_spherical_core (hA : PyArith A) (hE : A.ExactInts L) (hC : 12 * C ^ 2 ≤ L) (h2C : 2 * C ≤ L) (hL : 15 ≤ L) {a' b' c' d' e' f' g' h' : Fl A} (a b c d e f g h : PNum A)
    (sa : SamB C a' a) (sb : SamB C b' b) (sc : SamB C c' c) (sd : SamB C d' d) (se : SamB C e' e) (sf : SamB C f' f) (sg : SamB C g' g) (sh : SamB C h' h)
    (h1 : PowRaises (d - h) 2 → P) :
    PAg P Q (Choclo.utils.distance_spherical_core a' b' c' d' e' f' g' h') (distance_spherical_core a b c d e f g h) := by
  unfold distance_spherical_core Choclo.utils.distance_spherical_core
  (try dsimp only)
  repeat' pagb_step

theorem pagb_distance_spherical (hA : PyArith A) (hE : A.ExactInts L) (hC : 12 * C ^ 2 ≤ L) (h2C : 2 * C ≤ L) (hL : 15 ≤ L) (a b c d e f : PNum A) (ka : SamB C a.number a) (kb : SamB C b.number b) (kc : SamB C c.number c) (kd : SamB C d.number d) (ke : SamB C e.number e) (kf : SamB C f.number f)
    (h1 : PowRaises (c - f) 2 → P) :
    PAg P Q (Choclo.utils.distance_spherical a.number b.number c.number d.number e.number f.number) (distance_spherical a b c d e f) := by
  unfold distance_spherical Choclo.utils.distance_spherical distance_spherical_core Choclo.utils.distance_spherical_core
  simp only [pure_bind, bind_assoc]
  repeat' pagb_step

end utils

namespace point

variable {P Q : Prop}

theorem pagb_kernel_pot (hA : PyArith A) (hE : A.ExactInts L) (hC : 12 * C ^ 2 ≤ L) (h2C : 2 * C ≤ L) (hL : 15 ≤ L) (a b c d e f : PNum A) {r' : Fl A} (r : PNum A) (ka : SamB C a.number a) (kb : SamB C b.number b) (kc : SamB C c.number c) (kd : SamB C d.number d) (ke : SamB C e.number e) (kf : SamB C f.number f) (kr : r.isInt = false) (sr : Sam r' r)
    (h1 : PowRaises (a - d) 2 → P) (h2 : PowRaises (b - e) 2 → P) (h3 : PowRaises (c - f) 2 → P)
    (h4 : ∀ n, n ≤ 7 → PowRaises r n → P) (h5 : r.isNumpy = true ∨ Q) :
    PAg P Q (Choclo.point.kernel_pot a.number b.number c.number d.number e.number f.number r') (kernel_pot a b c d e f r) := by
  unfold kernel_pot Choclo.point.kernel_pot
  (try dsimp only)
  rcases h5 with h5 | h5 <;> repeat' pagb_step

theorem pagb_kernel_e (hA : PyArith A) (hE : A.ExactInts L) (hC : 12 * C ^ 2 ≤ L) (h2C : 2 * C ≤ L) (hL : 15 ≤ L) (a b c d e f : PNum A) {r' : Fl A} (r : PNum A) (ka : SamB C a.number a) (kb : SamB C b.number b) (kc : SamB C c.number c) (kd : SamB C d.number d) (ke : SamB C e.number e) (kf : SamB C f.number f) (kr : r.isInt = false) (sr : Sam r' r)
    (h1 : PowRaises (a - d) 2 → P) (h2 : PowRaises (b - e) 2 → P) (h3 : PowRaises (c - f) 2 → P)
    (h4 : ∀ n, n ≤ 7 → PowRaises r n → P) (h5 : r.isNumpy = true ∨ Q) :
    PAg P Q (Choclo.point.kernel_e a.number b.number c.number d.number e.number f.number r') (kernel_e a b c d e f r) := by
  unfold kernel_e Choclo.point.kernel_e
  (try dsimp only)
  rcases h5 with h5 | h5 <;> repeat' pagb_step

theorem pagb_kernel_n (hA : PyArith A) (hE : A.ExactInts L) (hC : 12 * C ^ 2 ≤ L) (h2C : 2 * C ≤ L) (hL : 15 ≤ L) (a b c d e f : PNum A) {r' : Fl A} (r : PNum A) (ka : SamB C a.number a) (kb : SamB C b.number b) (kc : SamB C c.number c) (kd : SamB C d.number d) (ke : SamB C e.number e) (kf : SamB C f.number f) (kr : r.isInt = false) (sr : Sam r' r)
    (h1 : PowRaises (a - d) 2 → P) (h2 : PowRaises (b - e) 2 → P) (h3 : PowRaises (c - f) 2 → P)
    (h4 : ∀ n, n ≤ 7 → PowRaises r n → P) (h5 : r.isNumpy = true ∨ Q) :
    PAg P Q (Choclo.point.kernel_n a.number b.number c.number d.number e.number f.number r') (kernel_n a b c d e f r) := by
  unfold kernel_n Choclo.point.kernel_n
  (try dsimp only)
  rcases h5 with h5 | h5 <;> repeat' pagb_step

theorem pagb_kernel_u (hA : PyArith A) (hE : A.ExactInts L) (hC : 12 * C ^ 2 ≤ L) (h2C : 2 * C ≤ L) (hL : 15 ≤ L) (a b c d e f : PNum A) {r' : Fl A} (r : PNum A) (ka : SamB C a.number a) (kb : SamB C b.number b) (kc : SamB C c.number c) (kd : SamB C d.number d) (ke : SamB C e.number e) (kf : SamB C f.number f) (kr : r.isInt = false) (sr : Sam r' r)
    (h1 : PowRaises (a - d) 2 → P) (h2 : PowRaises (b - e) 2 → P) (h3 : PowRaises (c - f) 2 → P)
    (h4 : ∀ n, n ≤ 7 → PowRaises r n → P) (h5 : r.isNumpy = true ∨ Q) :
    PAg P Q (Choclo.point.kernel_u a.number b.number c.number d.number e.number f.number r') (kernel_u a b c d e f r) := by
  unfold kernel_u Choclo.point.kernel_u
  (try dsimp only)
  rcases h5 with h5 | h5 <;> repeat' pagb_step

theorem pagb_kernel_ee (hA : PyArith A) (hE : A.ExactInts L) (hC : 12 * C ^ 2 ≤ L) (h2C : 2 * C ≤ L) (hL : 15 ≤ L) (a b c d e f : PNum A) {r' : Fl A} (r : PNum A) (ka : SamB C a.number a) (kb : SamB C b.number b) (kc : SamB C c.number c) (kd : SamB C d.number d) (ke : SamB C e.number e) (kf : SamB C f.number f) (kr : r.isInt = false) (sr : Sam r' r)
    (h1 : PowRaises (a - d) 2 → P) (h2 : PowRaises (b - e) 2 → P) (h3 : PowRaises (c - f) 2 → P)
    (h4 : ∀ n, n ≤ 7 → PowRaises r n → P) (h5 : r.isNumpy = true ∨ Q) :
    PAg P Q (Choclo.point.kernel_ee a.number b.number c.number d.number e.number f.number r') (kernel_ee a b c d e f r) := by
  unfold kernel_ee Choclo.point.kernel_ee
  (try dsimp only)
  rcases h5 with h5 | h5 <;> repeat' pagb_step

theorem pagb_kernel_nn (hA : PyArith A) (hE : A.ExactInts L) (hC : 12 * C ^ 2 ≤ L) (h2C : 2 * C ≤ L) (hL : 15 ≤ L) (a b c d e f : PNum A) {r' : Fl A} (r : PNum A) (ka : SamB C a.number a) (kb : SamB C b.number b) (kc : SamB C c.number c) (kd : SamB C d.number d) (ke : SamB C e.number e) (kf : SamB C f.number f) (kr : r.isInt = false) (sr : Sam r' r)
    (h1 : PowRaises (a - d) 2 → P) (h2 : PowRaises (b - e) 2 → P) (h3 : PowRaises (c - f) 2 → P)
    (h4 : ∀ n, n ≤ 7 → PowRaises r n → P) (h5 : r.isNumpy = true ∨ Q) :
    PAg P Q (Choclo.point.kernel_nn a.number b.number c.number d.number e.number f.number r') (kernel_nn a b c d e f r) := by
  unfold kernel_nn Choclo.point.kernel_nn
  (try dsimp only)
  rcases h5 with h5 | h5 <;> repeat' pagb_step

theorem pagb_kernel_uu (hA : PyArith A) (hE : A.ExactInts L) (hC : 12 * C ^ 2 ≤ L) (h2C : 2 * C ≤ L) (hL : 15 ≤ L) (a b c d e f : PNum A) {r' : Fl A} (r : PNum A) (ka : SamB C a.number a) (kb : SamB C b.number b) (kc : SamB C c.number c) (kd : SamB C d.number d) (ke : SamB C e.number e) (kf : SamB C f.number f) (kr : r.isInt = false) (sr : Sam r' r)
    (h1 : PowRaises (a - d) 2 → P) (h2 : PowRaises (b - e) 2 → P) (h3 : PowRaises (c - f) 2 → P)
    (h4 : ∀ n, n ≤ 7 → PowRaises r n → P) (h5 : r.isNumpy = true ∨ Q) :
    PAg P Q (Choclo.point.kernel_uu a.number b.number c.number d.number e.number f.number r') (kernel_uu a b c d e f r) := by
  unfold kernel_uu Choclo.point.kernel_uu
  (try dsimp only)
  rcases h5 with h5 | h5 <;> repeat' pagb_step

theorem pagb_kernel_en (hA : PyArith A) (hE : A.ExactInts L) (hC : 12 * C ^ 2 ≤ L) (h2C : 2 * C ≤ L) (hL : 15 ≤ L) (a b c d e f : PNum A) {r' : Fl A} (r : PNum A) (ka : SamB C a.number a) (kb : SamB C b.number b) (kc : SamB C c.number c) (kd : SamB C d.number d) (ke : SamB C e.number e) (kf : SamB C f.number f) (kr : r.isInt = false) (sr : Sam r' r)
    (h1 : PowRaises (a - d) 2 → P) (h2 : PowRaises (b - e) 2 → P) (h3 : PowRaises (c - f) 2 → P)
    (h4 : ∀ n, n ≤ 7 → PowRaises r n → P) (h5 : r.isNumpy = true ∨ Q) :
    PAg P Q (Choclo.point.kernel_en a.number b.number c.number d.number e.number f.number r') (kernel_en a b c d e f r) := by
  unfold kernel_en Choclo.point.kernel_en
  (try dsimp only)
  rcases h5 with h5 | h5 <;> repeat' pagb_step

theorem pagb_kernel_eu (hA : PyArith A) (hE : A.ExactInts L) (hC : 12 * C ^ 2 ≤ L) (h2C : 2 * C ≤ L) (hL : 15 ≤ L) (a b c d e f : PNum A) {r' : Fl A} (r : PNum A) (ka : SamB C a.number a) (kb : SamB C b.number b) (kc : SamB C c.number c) (kd : SamB C d.number d) (ke : SamB C e.number e) (kf : SamB C f.number f) (kr : r.isInt = false) (sr : Sam r' r)
    (h1 : PowRaises (a - d) 2 → P) (h2 : PowRaises (b - e) 2 → P) (h3 : PowRaises (c - f) 2 → P)
    (h4 : ∀ n, n ≤ 7 → PowRaises r n → P) (h5 : r.isNumpy = true ∨ Q) :
    PAg P Q (Choclo.point.kernel_eu a.number b.number c.number d.number e.number f.number r') (kernel_eu a b c d e f r) := by
  unfold kernel_eu Choclo.point.kernel_eu
  (try dsimp only)
  rcases h5 with h5 | h5 <;> repeat' pagb_step

theorem pagb_kernel_nu (hA : PyArith A) (hE : A.ExactInts L) (hC : 12 * C ^ 2 ≤ L) (h2C : 2 * C ≤ L) (hL : 15 ≤ L) (a b c d e f : PNum A) {r' : Fl A} (r : PNum A) (ka : SamB C a.number a) (kb : SamB C b.number b) (kc : SamB C c.number c) (kd : SamB C d.number d) (ke : SamB C e.number e) (kf : SamB C f.number f) (kr : r.isInt = false) (sr : Sam r' r)
    (h1 : PowRaises (a - d) 2 → P) (h2 : PowRaises (b - e) 2 → P) (h3 : PowRaises (c - f) 2 → P)
    (h4 : ∀ n, n ≤ 7 → PowRaises r n → P) (h5 : r.isNumpy = true ∨ Q) :
    PAg P Q (Choclo.point.kernel_nu a.number b.number c.number d.number e.number f.number r') (kernel_nu a b c d e f r) := by
  unfold kernel_nu Choclo.point.kernel_nu
  (try dsimp only)
  rcases h5 with h5 | h5 <;> repeat' pagb_step

theorem pagb_kernel_eee (hA : PyArith A) (hE : A.ExactInts L) (hC : 12 * C ^ 2 ≤ L) (h2C : 2 * C ≤ L) (hL : 15 ≤ L) (hC3 : 120 * C ^ 3 ≤ L) (a b c d e f : PNum A) {r' : Fl A} (r : PNum A) (ka : SamB C a.number a) (kb : SamB C b.number b) (kc : SamB C c.number c) (kd : SamB C d.number d) (ke : SamB C e.number e) (kf : SamB C f.number f) (kr : r.isInt = false) (sr : Sam r' r)
    (h1 : PowRaises (a - d) 2 → P) (h2 : PowRaises (b - e) 2 → P) (h3 : PowRaises (c - f) 2 → P)
    (h6 : PowRaises (a - d) 3 → P) (h7 : PowRaises (b - e) 3 → P) (h8 : PowRaises (c - f) 3 → P)
    (h4 : ∀ n, n ≤ 7 → PowRaises r n → P) (h5 : r.isNumpy = true ∨ Q) :
    PAg P Q (Choclo.point.kernel_eee a.number b.number c.number d.number e.number f.number r') (kernel_eee a b c d e f r) := by
  unfold kernel_eee Choclo.point.kernel_eee
  (try dsimp only)
  rcases h5 with h5 | h5 <;> repeat' pagb_step

theorem pagb_kernel_nnn (hA : PyArith A) (hE : A.ExactInts L) (hC : 12 * C ^ 2 ≤ L) (h2C : 2 * C ≤ L) (hL : 15 ≤ L) (hC3 : 120 * C ^ 3 ≤ L) (a b c d e f : PNum A) {r' : Fl A} (r : PNum A) (ka : SamB C a.number a) (kb : SamB C b.number b) (kc : SamB C c.number c) (kd : SamB C d.number d) (ke : SamB C e.number e) (kf : SamB C f.number f) (kr : r.isInt = false) (sr : Sam r' r)
    (h1 : PowRaises (a - d) 2 → P) (h2 : PowRaises (b - e) 2 → P) (h3 : PowRaises (c - f) 2 → P)
    (h6 : PowRaises (a - d) 3 → P) (h7 : PowRaises (b - e) 3 → P) (h8 : PowRaises (c - f) 3 → P)
    (h4 : ∀ n, n ≤ 7 → PowRaises r n → P) (h5 : r.isNumpy = true ∨ Q) :
    PAg P Q (Choclo.point.kernel_nnn a.number b.number c.number d.number e.number f.number r') (kernel_nnn a b c d e f r) := by
  unfold kernel_nnn Choclo.point.kernel_nnn
  (try dsimp only)
  rcases h5 with h5 | h5 <;> repeat' pagb_step

theorem pagb_kernel_uuu (hA : PyArith A) (hE : A.ExactInts L) (hC : 12 * C ^ 2 ≤ L) (h2C : 2 * C ≤ L) (hL : 15 ≤ L) (hC3 : 120 * C ^ 3 ≤ L) (a b c d e f : PNum A) {r' : Fl A} (r : PNum A) (ka : SamB C a.number a) (kb : SamB C b.number b) (kc : SamB C c.number c) (kd : SamB C d.number d) (ke : SamB C e.number e) (kf : SamB C f.number f) (kr : r.isInt = false) (sr : Sam r' r)
    (h1 : PowRaises (a - d) 2 → P) (h2 : PowRaises (b - e) 2 → P) (h3 : PowRaises (c - f) 2 → P)
    (h6 : PowRaises (a - d) 3 → P) (h7 : PowRaises (b - e) 3 → P) (h8 : PowRaises (c - f) 3 → P)
    (h4 : ∀ n, n ≤ 7 → PowRaises r n → P) (h5 : r.isNumpy = true ∨ Q) :
    PAg P Q (Choclo.point.kernel_uuu a.number b.number c.number d.number e.number f.number r') (kernel_uuu a b c d e f r) := by
  unfold kernel_uuu Choclo.point.kernel_uuu
  (try dsimp only)
  rcases h5 with h5 | h5 <;> repeat' pagb_step

theorem pagb_kernel_een (hA : PyArith A) (hE : A.ExactInts L) (hC : 12 * C ^ 2 ≤ L) (h2C : 2 * C ≤ L) (hL : 15 ≤ L) (hC3 : 120 * C ^ 3 ≤ L) (a b c d e f : PNum A) {r' : Fl A} (r : PNum A) (ka : SamB C a.number a) (kb : SamB C b.number b) (kc : SamB C c.number c) (kd : SamB C d.number d) (ke : SamB C e.number e) (kf : SamB C f.number f) (kr : r.isInt = false) (sr : Sam r' r)
    (h1 : PowRaises (a - d) 2 → P) (h2 : PowRaises (b - e) 2 → P) (h3 : PowRaises (c - f) 2 → P)
    (h6 : PowRaises (a - d) 3 → P) (h7 : PowRaises (b - e) 3 → P) (h8 : PowRaises (c - f) 3 → P)
    (h4 : ∀ n, n ≤ 7 → PowRaises r n → P) (h5 : r.isNumpy = true ∨ Q) :
    PAg P Q (Choclo.point.kernel_een a.number b.number c.number d.number e.number f.number r') (kernel_een a b c d e f r) := by
  unfold kernel_een Choclo.point.kernel_een
  (try dsimp only)
  rcases h5 with h5 | h5 <;> repeat' pagb_step

theorem pagb_kernel_eeu (hA : PyArith A) (hE : A.ExactInts L) (hC : 12 * C ^ 2 ≤ L) (h2C : 2 * C ≤ L) (hL : 15 ≤ L) (hC3 : 120 * C ^ 3 ≤ L) (a b c d e f : PNum A) {r' : Fl A} (r : PNum A) (ka : SamB C a.number a) (kb : SamB C b.number b) (kc : SamB C c.number c) (kd : SamB C d.number d) (ke : SamB C e.number e) (kf : SamB C f.number f) (kr : r.isInt = false) (sr : Sam r' r)
    (h1 : PowRaises (a - d) 2 → P) (h2 : PowRaises (b - e) 2 → P) (h3 : PowRaises (c - f) 2 → P)
    (h6 : PowRaises (a - d) 3 → P) (h7 : PowRaises (b - e) 3 → P) (h8 : PowRaises (c - f) 3 → P)
    (h4 : ∀ n, n ≤ 7 → PowRaises r n → P) (h5 : r.isNumpy = true ∨ Q) :
    PAg P Q (Choclo.point.kernel_eeu a.number b.number c.number d.number e.number f.number r') (kernel_eeu a b c d e f r) := by
  unfold kernel_eeu Choclo.point.kernel_eeu
  (try dsimp only)
  rcases h5 with h5 | h5 <;> repeat' pagb_step

theorem pagb_kernel_nne (hA : PyArith A) (hE : A.ExactInts L) (hC : 12 * C ^ 2 ≤ L) (h2C : 2 * C ≤ L) (hL : 15 ≤ L) (hC3 : 120 * C ^ 3 ≤ L) (a b c d e f : PNum A) {r' : Fl A} (r : PNum A) (ka : SamB C a.number a) (kb : SamB C b.number b) (kc : SamB C c.number c) (kd : SamB C d.number d) (ke : SamB C e.number e) (kf : SamB C f.number f) (kr : r.isInt = false) (sr : Sam r' r)
    (h1 : PowRaises (a - d) 2 → P) (h2 : PowRaises (b - e) 2 → P) (h3 : PowRaises (c - f) 2 → P)
    (h6 : PowRaises (a - d) 3 → P) (h7 : PowRaises (b - e) 3 → P) (h8 : PowRaises (c - f) 3 → P)
    (h4 : ∀ n, n ≤ 7 → PowRaises r n → P) (h5 : r.isNumpy = true ∨ Q) :
    PAg P Q (Choclo.point.kernel_nne a.number b.number c.number d.number e.number f.number r') (kernel_nne a b c d e f r) := by
  unfold kernel_nne Choclo.point.kernel_nne
  (try dsimp only)
  rcases h5 with h5 | h5 <;> repeat' pagb_step

theorem pagb_kernel_nnu (hA : PyArith A) (hE : A.ExactInts L) (hC : 12 * C ^ 2 ≤ L) (h2C : 2 * C ≤ L) (hL : 15 ≤ L) (hC3 : 120 * C ^ 3 ≤ L) (a b c d e f : PNum A) {r' : Fl A} (r : PNum A) (ka : SamB C a.number a) (kb : SamB C b.number b) (kc : SamB C c.number c) (kd : SamB C d.number d) (ke : SamB C e.number e) (kf : SamB C f.number f) (kr : r.isInt = false) (sr : Sam r' r)
    (h1 : PowRaises (a - d) 2 → P) (h2 : PowRaises (b - e) 2 → P) (h3 : PowRaises (c - f) 2 → P)
    (h6 : PowRaises (a - d) 3 → P) (h7 : PowRaises (b - e) 3 → P) (h8 : PowRaises (c - f) 3 → P)
    (h4 : ∀ n, n ≤ 7 → PowRaises r n → P) (h5 : r.isNumpy = true ∨ Q) :
    PAg P Q (Choclo.point.kernel_nnu a.number b.number c.number d.number e.number f.number r') (kernel_nnu a b c d e f r) := by
  unfold kernel_nnu Choclo.point.kernel_nnu
  (try dsimp only)
  rcases h5 with h5 | h5 <;> repeat' pagb_step

theorem pagb_kernel_uue (hA : PyArith A) (hE : A.ExactInts L) (hC : 12 * C ^ 2 ≤ L) (h2C : 2 * C ≤ L) (hL : 15 ≤ L) (hC3 : 120 * C ^ 3 ≤ L) (a b c d e f : PNum A) {r' : Fl A} (r : PNum A) (ka : SamB C a.number a) (kb : SamB C b.number b) (kc : SamB C c.number c) (kd : SamB C d.number d) (ke : SamB C e.number e) (kf : SamB C f.number f) (kr : r.isInt = false) (sr : Sam r' r)
    (h1 : PowRaises (a - d) 2 → P) (h2 : PowRaises (b - e) 2 → P) (h3 : PowRaises (c - f) 2 → P)
    (h6 : PowRaises (a - d) 3 → P) (h7 : PowRaises (b - e) 3 → P) (h8 : PowRaises (c - f) 3 → P)
    (h4 : ∀ n, n ≤ 7 → PowRaises r n → P) (h5 : r.isNumpy = true ∨ Q) :
    PAg P Q (Choclo.point.kernel_uue a.number b.number c.number d.number e.number f.number r') (kernel_uue a b c d e f r) := by
  unfold kernel_uue Choclo.point.kernel_uue
  (try dsimp only)
  rcases h5 with h5 | h5 <;> repeat' pagb_step

theorem pagb_kernel_uun (hA : PyArith A) (hE : A.ExactInts L) (hC : 12 * C ^ 2 ≤ L) (h2C : 2 * C ≤ L) (hL : 15 ≤ L) (hC3 : 120 * C ^ 3 ≤ L) (a b c d e f : PNum A) {r' : Fl A} (r : PNum A) (ka : SamB C a.number a) (kb : SamB C b.number b) (kc : SamB C c.number c) (kd : SamB C d.number d) (ke : SamB C e.number e) (kf : SamB C f.number f) (kr : r.isInt = false) (sr : Sam r' r)
    (h1 : PowRaises (a - d) 2 → P) (h2 : PowRaises (b - e) 2 → P) (h3 : PowRaises (c - f) 2 → P)
    (h6 : PowRaises (a - d) 3 → P) (h7 : PowRaises (b - e) 3 → P) (h8 : PowRaises (c - f) 3 → P)
    (h4 : ∀ n, n ≤ 7 → PowRaises r n → P) (h5 : r.isNumpy = true ∨ Q) :
    PAg P Q (Choclo.point.kernel_uun a.number b.number c.number d.number e.number f.number r') (kernel_uun a b c d e f r) := by
  unfold kernel_uun Choclo.point.kernel_uun
  (try dsimp only)
  rcases h5 with h5 | h5 <;> repeat' pagb_step

theorem pagb_kernel_enu (hA : PyArith A) (hE : A.ExactInts L) (hC : 12 * C ^ 2 ≤ L) (h2C : 2 * C ≤ L) (hL : 15 ≤ L) (hC3 : 120 * C ^ 3 ≤ L) (a b c d e f : PNum A) {r' : Fl A} (r : PNum A) (ka : SamB C a.number a) (kb : SamB C b.number b) (kc : SamB C c.number c) (kd : SamB C d.number d) (ke : SamB C e.number e) (kf : SamB C f.number f) (kr : r.isInt = false) (sr : Sam r' r)
    (h1 : PowRaises (a - d) 2 → P) (h2 : PowRaises (b - e) 2 → P) (h3 : PowRaises (c - f) 2 → P)
    (h6 : PowRaises (a - d) 3 → P) (h7 : PowRaises (b - e) 3 → P) (h8 : PowRaises (c - f) 3 → P)
    (h4 : ∀ n, n ≤ 7 → PowRaises r n → P) (h5 : r.isNumpy = true ∨ Q) :
    PAg P Q (Choclo.point.kernel_enu a.number b.number c.number d.number e.number f.number r') (kernel_enu a b c d e f r) := by
  unfold kernel_enu Choclo.point.kernel_enu
  (try dsimp only)
  rcases h5 with h5 | h5 <;> repeat' pagb_step

theorem pagb_gravity_pot (hA : PyArith A) (hE : A.ExactInts L) (hC : 12 * C ^ 2 ≤ L) (h2C : 2 * C ≤ L) (hL : 15 ≤ L) (a b c d e f m : PNum A) (ka : SamB C a.number a) (kb : SamB C b.number b) (kc : SamB C c.number c) (kd : SamB C d.number d) (ke : SamB C e.number e) (kf : SamB C f.number f) (km : SamB L m.number m)
    (h1 : PowRaises (a - d) 2 → P) (h2 : PowRaises (b - e) 2 → P) (h3 : PowRaises (c - f) 2 → P) :
    PAg P Q (Choclo.point.gravity_pot a.number b.number c.number d.number e.number f.number m.number) (gravity_pot a b c d e f m) := by
  unfold gravity_pot Choclo.point.gravity_pot utils.distance_cartesian Choclo.utils.distance_cartesian
  simp only [pure_bind, bind_assoc]
  repeat' pagb_step
  refine PAg.bind1 (pagb_kernel_pot hA hE hC h2C hL _ _ _ _ _ _ _ (by assumption) (by assumption) (by assumption) (by assumption)
    (by assumption) (by assumption) (by knd) (by samf) (by assumption) (by assumption) (by assumption) ?_ (.inl (by knd))) ?_ ?_
  · exact fun n _ h => absurd h (not_powRaises_numpy (by knd))
  · intros; repeat' pagb_step
  · intros; repeat' pagb_step

theorem pagb_gravity_e (hA : PyArith A) (hE : A.ExactInts L) (hC : 12 * C ^ 2 ≤ L) (h2C : 2 * C ≤ L) (hL : 15 ≤ L) (a b c d e f m : PNum A) (ka : SamB C a.number a) (kb : SamB C b.number b) (kc : SamB C c.number c) (kd : SamB C d.number d) (ke : SamB C e.number e) (kf : SamB C f.number f) (km : SamB L m.number m)
    (h1 : PowRaises (a - d) 2 → P) (h2 : PowRaises (b - e) 2 → P) (h3 : PowRaises (c - f) 2 → P) :
    PAg P Q (Choclo.point.gravity_e a.number b.number c.number d.number e.number f.number m.number) (gravity_e a b c d e f m) := by
  unfold gravity_e Choclo.point.gravity_e utils.distance_cartesian Choclo.utils.distance_cartesian
  simp only [pure_bind, bind_assoc]
  repeat' pagb_step
  refine PAg.bind1 (pagb_kernel_e hA hE hC h2C hL _ _ _ _ _ _ _ (by assumption) (by assumption) (by assumption) (by assumption)
    (by assumption) (by assumption) (by knd) (by samf) (by assumption) (by assumption) (by assumption) ?_ (.inl (by knd))) ?_ ?_
  · exact fun n _ h => absurd h (not_powRaises_numpy (by knd))
  · intros; repeat' pagb_step
  · intros; repeat' pagb_step

theorem pagb_gravity_n (hA : PyArith A) (hE : A.ExactInts L) (hC : 12 * C ^ 2 ≤ L) (h2C : 2 * C ≤ L) (hL : 15 ≤ L) (a b c d e f m : PNum A) (ka : SamB C a.number a) (kb : SamB C b.number b) (kc : SamB C c.number c) (kd : SamB C d.number d) (ke : SamB C e.number e) (kf : SamB C f.number f) (km : SamB L m.number m)
    (h1 : PowRaises (a - d) 2 → P) (h2 : PowRaises (b - e) 2 → P) (h3 : PowRaises (c - f) 2 → P) :
    PAg P Q (Choclo.point.gravity_n a.number b.number c.number d.number e.number f.number m.number) (gravity_n a b c d e f m) := by
  unfold gravity_n Choclo.point.gravity_n utils.distance_cartesian Choclo.utils.distance_cartesian
  simp only [pure_bind, bind_assoc]
  repeat' pagb_step
  refine PAg.bind1 (pagb_kernel_n hA hE hC h2C hL _ _ _ _ _ _ _ (by assumption) (by assumption) (by assumption) (by assumption)
    (by assumption) (by assumption) (by knd) (by samf) (by assumption) (by assumption) (by assumption) ?_ (.inl (by knd))) ?_ ?_
  · exact fun n _ h => absurd h (not_powRaises_numpy (by knd))
  · intros; repeat' pagb_step
  · intros; repeat' pagb_step

theorem pagb_gravity_u (hA : PyArith A) (hE : A.ExactInts L) (hC : 12 * C ^ 2 ≤ L) (h2C : 2 * C ≤ L) (hL : 15 ≤ L) (a b c d e f m : PNum A) (ka : SamB C a.number a) (kb : SamB C b.number b) (kc : SamB C c.number c) (kd : SamB C d.number d) (ke : SamB C e.number e) (kf : SamB C f.number f) (km : SamB L m.number m)
    (h1 : PowRaises (a - d) 2 → P) (h2 : PowRaises (b - e) 2 → P) (h3 : PowRaises (c - f) 2 → P) :
    PAg P Q (Choclo.point.gravity_u a.number b.number c.number d.number e.number f.number m.number) (gravity_u a b c d e f m) := by
  unfold gravity_u Choclo.point.gravity_u utils.distance_cartesian Choclo.utils.distance_cartesian
  simp only [pure_bind, bind_assoc]
  repeat' pagb_step
  refine PAg.bind1 (pagb_kernel_u hA hE hC h2C hL _ _ _ _ _ _ _ (by assumption) (by assumption) (by assumption) (by assumption)
    (by assumption) (by assumption) (by knd) (by samf) (by assumption) (by assumption) (by assumption) ?_ (.inl (by knd))) ?_ ?_
  · exact fun n _ h => absurd h (not_powRaises_numpy (by knd))
  · intros; repeat' pagb_step
  · intros; repeat' pagb_step

theorem pagb_gravity_ee (hA : PyArith A) (hE : A.ExactInts L) (hC : 12 * C ^ 2 ≤ L) (h2C : 2 * C ≤ L) (hL : 15 ≤ L) (a b c d e f m : PNum A) (ka : SamB C a.number a) (kb : SamB C b.number b) (kc : SamB C c.number c) (kd : SamB C d.number d) (ke : SamB C e.number e) (kf : SamB C f.number f) (km : SamB L m.number m)
    (h1 : PowRaises (a - d) 2 → P) (h2 : PowRaises (b - e) 2 → P) (h3 : PowRaises (c - f) 2 → P) :
    PAg P Q (Choclo.point.gravity_ee a.number b.number c.number d.number e.number f.number m.number) (gravity_ee a b c d e f m) := by
  unfold gravity_ee Choclo.point.gravity_ee utils.distance_cartesian Choclo.utils.distance_cartesian
  simp only [pure_bind, bind_assoc]
  repeat' pagb_step
  refine PAg.bind1 (pagb_kernel_ee hA hE hC h2C hL _ _ _ _ _ _ _ (by assumption) (by assumption) (by assumption) (by assumption)
    (by assumption) (by assumption) (by knd) (by samf) (by assumption) (by assumption) (by assumption) ?_ (.inl (by knd))) ?_ ?_
  · exact fun n _ h => absurd h (not_powRaises_numpy (by knd))
  · intros; repeat' pagb_step
  · intros; repeat' pagb_step

theorem pagb_gravity_nn (hA : PyArith A) (hE : A.ExactInts L) (hC : 12 * C ^ 2 ≤ L) (h2C : 2 * C ≤ L) (hL : 15 ≤ L) (a b c d e f m : PNum A) (ka : SamB C a.number a) (kb : SamB C b.number b) (kc : SamB C c.number c) (kd : SamB C d.number d) (ke : SamB C e.number e) (kf : SamB C f.number f) (km : SamB L m.number m)
    (h1 : PowRaises (a - d) 2 → P) (h2 : PowRaises (b - e) 2 → P) (h3 : PowRaises (c - f) 2 → P) :
    PAg P Q (Choclo.point.gravity_nn a.number b.number c.number d.number e.number f.number m.number) (gravity_nn a b c d e f m) := by
  unfold gravity_nn Choclo.point.gravity_nn utils.distance_cartesian Choclo.utils.distance_cartesian
  simp only [pure_bind, bind_assoc]
  repeat' pagb_step
  refine PAg.bind1 (pagb_kernel_nn hA hE hC h2C hL _ _ _ _ _ _ _ (by assumption) (by assumption) (by assumption) (by assumption)
    (by assumption) (by assumption) (by knd) (by samf) (by assumption) (by assumption) (by assumption) ?_ (.inl (by knd))) ?_ ?_
  · exact fun n _ h => absurd h (not_powRaises_numpy (by knd))
  · intros; repeat' pagb_step
  · intros; repeat' pagb_step

theorem pagb_gravity_uu (hA : PyArith A) (hE : A.ExactInts L) (hC : 12 * C ^ 2 ≤ L) (h2C : 2 * C ≤ L) (hL : 15 ≤ L) (a b c d e f m : PNum A) (ka : SamB C a.number a) (kb : SamB C b.number b) (kc : SamB C c.number c) (kd : SamB C d.number d) (ke : SamB C e.number e) (kf : SamB C f.number f) (km : SamB L m.number m)
    (h1 : PowRaises (a - d) 2 → P) (h2 : PowRaises (b - e) 2 → P) (h3 : PowRaises (c - f) 2 → P) :
    PAg P Q (Choclo.point.gravity_uu a.number b.number c.number d.number e.number f.number m.number) (gravity_uu a b c d e f m) := by
  unfold gravity_uu Choclo.point.gravity_uu utils.distance_cartesian Choclo.utils.distance_cartesian
  simp only [pure_bind, bind_assoc]
  repeat' pagb_step
  refine PAg.bind1 (pagb_kernel_uu hA hE hC h2C hL _ _ _ _ _ _ _ (by assumption) (by assumption) (by assumption) (by assumption)
    (by assumption) (by assumption) (by knd) (by samf) (by assumption) (by assumption) (by assumption) ?_ (.inl (by knd))) ?_ ?_
  · exact fun n _ h => absurd h (not_powRaises_numpy (by knd))
  · intros; repeat' pagb_step
  · intros; repeat' pagb_step

theorem pagb_gravity_en (hA : PyArith A) (hE : A.ExactInts L) (hC : 12 * C ^ 2 ≤ L) (h2C : 2 * C ≤ L) (hL : 15 ≤ L) (a b c d e f m : PNum A) (ka : SamB C a.number a) (kb : SamB C b.number b) (kc : SamB C c.number c) (kd : SamB C d.number d) (ke : SamB C e.number e) (kf : SamB C f.number f) (km : SamB L m.number m)
    (h1 : PowRaises (a - d) 2 → P) (h2 : PowRaises (b - e) 2 → P) (h3 : PowRaises (c - f) 2 → P) :
    PAg P Q (Choclo.point.gravity_en a.number b.number c.number d.number e.number f.number m.number) (gravity_en a b c d e f m) := by
  unfold gravity_en Choclo.point.gravity_en utils.distance_cartesian Choclo.utils.distance_cartesian
  simp only [pure_bind, bind_assoc]
  repeat' pagb_step
  refine PAg.bind1 (pagb_kernel_en hA hE hC h2C hL _ _ _ _ _ _ _ (by assumption) (by assumption) (by assumption) (by assumption)
    (by assumption) (by assumption) (by knd) (by samf) (by assumption) (by assumption) (by assumption) ?_ (.inl (by knd))) ?_ ?_
  · exact fun n _ h => absurd h (not_powRaises_numpy (by knd))
  · intros; repeat' pagb_step
  · intros; repeat' pagb_step

theorem pagb_gravity_eu (hA : PyArith A) (hE : A.ExactInts L) (hC : 12 * C ^ 2 ≤ L) (h2C : 2 * C ≤ L) (hL : 15 ≤ L) (a b c d e f m : PNum A) (ka : SamB C a.number a) (kb : SamB C b.number b) (kc : SamB C c.number c) (kd : SamB C d.number d) (ke : SamB C e.number e) (kf : SamB C f.number f) (km : SamB L m.number m)
    (h1 : PowRaises (a - d) 2 → P) (h2 : PowRaises (b - e) 2 → P) (h3 : PowRaises (c - f) 2 → P) :
    PAg P Q (Choclo.point.gravity_eu a.number b.number c.number d.number e.number f.number m.number) (gravity_eu a b c d e f m) := by
  unfold gravity_eu Choclo.point.gravity_eu utils.distance_cartesian Choclo.utils.distance_cartesian
  simp only [pure_bind, bind_assoc]
  repeat' pagb_step
  refine PAg.bind1 (pagb_kernel_eu hA hE hC h2C hL _ _ _ _ _ _ _ (by assumption) (by assumption) (by assumption) (by assumption)
    (by assumption) (by assumption) (by knd) (by samf) (by assumption) (by assumption) (by assumption) ?_ (.inl (by knd))) ?_ ?_
  · exact fun n _ h => absurd h (not_powRaises_numpy (by knd))
  · intros; repeat' pagb_step
  · intros; repeat' pagb_step

theorem pagb_gravity_nu (hA : PyArith A) (hE : A.ExactInts L) (hC : 12 * C ^ 2 ≤ L) (h2C : 2 * C ≤ L) (hL : 15 ≤ L) (a b c d e f m : PNum A) (ka : SamB C a.number a) (kb : SamB C b.number b) (kc : SamB C c.number c) (kd : SamB C d.number d) (ke : SamB C e.number e) (kf : SamB C f.number f) (km : SamB L m.number m)
    (h1 : PowRaises (a - d) 2 → P) (h2 : PowRaises (b - e) 2 → P) (h3 : PowRaises (c - f) 2 → P) :
    PAg P Q (Choclo.point.gravity_nu a.number b.number c.number d.number e.number f.number m.number) (gravity_nu a b c d e f m) := by
  unfold gravity_nu Choclo.point.gravity_nu utils.distance_cartesian Choclo.utils.distance_cartesian
  simp only [pure_bind, bind_assoc]
  repeat' pagb_step
  refine PAg.bind1 (pagb_kernel_nu hA hE hC h2C hL _ _ _ _ _ _ _ (by assumption) (by assumption) (by assumption) (by assumption)
    (by assumption) (by assumption) (by knd) (by samf) (by assumption) (by assumption) (by assumption) ?_ (.inl (by knd))) ?_ ?_
  · exact fun n _ h => absurd h (not_powRaises_numpy (by knd))
  · intros; repeat' pagb_step
  · intros; repeat' pagb_step

end point

namespace dipole

variable {P Q : Prop}

theorem pagb_magnetic_e (hA : PyArith A) (hE : A.ExactInts L) (hC : 12 * C ^ 2 ≤ L) (h2C : 2 * C ≤ L) (hL : 15 ≤ L) (hM : M ≤ L) (h18 : 18 * (M * C) ≤ L) (h36 : 36 * (M * C ^ 2) ≤ L) (a b c d e f m n o : PNum A) (ka : SamB C a.number a) (kb : SamB C b.number b) (kc : SamB C c.number c) (kd : SamB C d.number d) (ke : SamB C e.number e) (kf : SamB C f.number f) (km : SamB M m.number m) (kn : SamB M n.number n) (ko : SamB M o.number o)
    (h1 : PowRaises (a - d) 2 → P) (h2 : PowRaises (b - e) 2 → P) (h3 : PowRaises (c - f) 2 → P) :
    PAg P Q (Choclo.dipole.magnetic_e a.number b.number c.number d.number e.number f.number m.number n.number o.number) (magnetic_e a b c d e f m n o) := by
  unfold magnetic_e Choclo.dipole.magnetic_e
  (try dsimp only)
  repeat' pagb_step

theorem pagb_magnetic_n (hA : PyArith A) (hE : A.ExactInts L) (hC : 12 * C ^ 2 ≤ L) (h2C : 2 * C ≤ L) (hL : 15 ≤ L) (hM : M ≤ L) (h18 : 18 * (M * C) ≤ L) (h36 : 36 * (M * C ^ 2) ≤ L) (a b c d e f m n o : PNum A) (ka : SamB C a.number a) (kb : SamB C b.number b) (kc : SamB C c.number c) (kd : SamB C d.number d) (ke : SamB C e.number e) (kf : SamB C f.number f) (km : SamB M m.number m) (kn : SamB M n.number n) (ko : SamB M o.number o)
    (h1 : PowRaises (a - d) 2 → P) (h2 : PowRaises (b - e) 2 → P) (h3 : PowRaises (c - f) 2 → P) :
    PAg P Q (Choclo.dipole.magnetic_n a.number b.number c.number d.number e.number f.number m.number n.number o.number) (magnetic_n a b c d e f m n o) := by
  unfold magnetic_n Choclo.dipole.magnetic_n
  (try dsimp only)
  repeat' pagb_step

theorem pagb_magnetic_u (hA : PyArith A) (hE : A.ExactInts L) (hC : 12 * C ^ 2 ≤ L) (h2C : 2 * C ≤ L) (hL : 15 ≤ L) (hM : M ≤ L) (h18 : 18 * (M * C) ≤ L) (h36 : 36 * (M * C ^ 2) ≤ L) (a b c d e f m n o : PNum A) (ka : SamB C a.number a) (kb : SamB C b.number b) (kc : SamB C c.number c) (kd : SamB C d.number d) (ke : SamB C e.number e) (kf : SamB C f.number f) (km : SamB M m.number m) (kn : SamB M n.number n) (ko : SamB M o.number o)
    (h1 : PowRaises (a - d) 2 → P) (h2 : PowRaises (b - e) 2 → P) (h3 : PowRaises (c - f) 2 → P) :
    PAg P Q (Choclo.dipole.magnetic_u a.number b.number c.number d.number e.number f.number m.number n.number o.number) (magnetic_u a b c d e f m n o) := by
  unfold magnetic_u Choclo.dipole.magnetic_u
  (try dsimp only)
  repeat' pagb_step

set_option maxHeartbeats 2000000 in
theorem pagb_magnetic_field (hA : PyArith A) (hE : A.ExactInts L) (hC : 12 * C ^ 2 ≤ L) (h2C : 2 * C ≤ L) (hL : 15 ≤ L) (hM : M ≤ L) (h18 : 18 * (M * C) ≤ L) (h36 : 36 * (M * C ^ 2) ≤ L) (a b c d e f m n o : PNum A) (ka : SamB C a.number a) (kb : SamB C b.number b) (kc : SamB C c.number c) (kd : SamB C d.number d) (ke : SamB C e.number e) (kf : SamB C f.number f) (km : SamB M m.number m) (kn : SamB M n.number n) (ko : SamB M o.number o)
    (h1 : PowRaises (a - d) 2 → P) (h2 : PowRaises (b - e) 2 → P) (h3 : PowRaises (c - f) 2 → P) :
    PAg P Q (Choclo.dipole.magnetic_field a.number b.number c.number d.number e.number f.number m.number n.number o.number) (magnetic_field a b c d e f m n o) := by
  unfold magnetic_field Choclo.dipole.magnetic_field
  (try dsimp only)
  repeat' pagb_step

end dipole

end Python

end Choclo
