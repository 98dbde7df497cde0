import Verif.Model.PrismMagnetic
import Verif.Model.Utils
import Verif.Lemmas.Unroll
import Verif.Spec.Basic

/-! # Two arithmetics that differ only in powers other than squares -/

namespace Choclo

variable {A B : Arith}

/-- The two arithmetics have the same operations, except perhaps powers other than squares. -/
structure SameOps (A B : Arith) : Prop where
  rnd : A.rnd = B.rnd
  sq : ∀ x, A.pow x 2 = B.pow x 2
  log : A.log = B.log
  atan : A.atan = B.atan
  sin : A.sin = B.sin
  cos : A.cos = B.cos
  radians : A.radians = B.radians
  pi : A.pi = B.pi

namespace Fl

/-- the same datum in another arithmetic -/
def cast (a : Fl A) : Fl B := (a : Raw)

theorem cast_nan : (cast (nan : Fl A) : Fl B) = nan := rfl
theorem cast_ofNat (n : ℕ) : (OfNat.ofNat n : Fl B) = cast (OfNat.ofNat n : Fl A) := rfl
theorem cast_int (n : ℤ) : ((n : ℤ) : Fl B) = cast ((n : ℤ) : Fl A) := rfl
theorem cast_half : (half : Fl B) = cast (half : Fl A) := rfl

variable (h : SameOps A B)
include h

theorem cast_pi : (pi : Fl B) = cast (pi : Fl A) := by
  show (Raw.fin B.pi) = Raw.fin A.pi
  rw [h.pi]
theorem cast_lit (x : ℝ) : (lit x : Fl B) = cast (lit x : Fl A) := by
  show B.rnd x = A.rnd x
  rw [h.rnd]
omit h in
theorem cast_neg (a : Fl A) : -(cast a : Fl B) = cast (-a) := by
  show (neg (A := B) a : Raw) = neg (A := A) a
  cases a <;> rfl
theorem cast_add (a b : Fl A) : (cast a : Fl B) + cast b = cast (a + b) := by
  show (add (A := B) a b : Raw) = add (A := A) a b
  cases a <;> cases b <;> simp [add, h.rnd] <;> rfl
theorem cast_sub (a b : Fl A) : (cast a : Fl B) - cast b = cast (a - b) := by
  show cast a + -(cast b) = cast (a + -b)
  rw [cast_neg, cast_add h]
theorem cast_mul (a b : Fl A) : (cast a : Fl B) * cast b = cast (a * b) := by
  show (mul (A := B) a b : Raw) = mul (A := A) a b
  cases a <;> cases b <;> simp [mul, mulInf, h.rnd] <;> rfl
theorem cast_sq (a : Fl A) : (cast a : Fl B) ^ 2 = cast (a ^ 2) := by
  show (pow (A := B) a 2 : Raw) = pow (A := A) a 2
  cases a <;> simp [pow, h.sq] <;> rfl
theorem cast_sqrt (a : Fl A) : sqrt (cast a : Fl B) = cast (sqrt a) := by
  show (sqrt (A := B) a : Raw) = sqrt (A := A) a
  cases a <;> simp [sqrt, h.rnd] <;> rfl
theorem cast_log (a : Fl A) : log (cast a : Fl B) = cast (log a) := by
  show (log (A := B) a : Raw) = log (A := A) a
  cases a <;> simp [log, h.log] <;> rfl
theorem cast_arctan (a : Fl A) : arctan (cast a : Fl B) = cast (arctan a) := by
  show (arctan (A := B) a : Raw) = arctan (A := A) a
  cases a <;> simp [arctan, h.atan, h.rnd, h.pi] <;> rfl
theorem cast_sin (a : Fl A) : sin (cast a : Fl B) = cast (sin a) := by
  show (sin (A := B) a : Raw) = sin (A := A) a
  cases a <;> simp [sin, h.sin] <;> rfl
theorem cast_cos (a : Fl A) : cos (cast a : Fl B) = cast (cos a) := by
  show (cos (A := B) a : Raw) = cos (A := A) a
  cases a <;> simp [cos, h.cos] <;> rfl
theorem cast_radians (a : Fl A) : radians (cast a : Fl B) = cast (radians a) := by
  show (radians (A := B) a : Raw) = radians (A := A) a
  cases a <;> simp [radians, h.radians] <;> rfl
theorem cast_div (a b : Fl A) : (cast a : Fl B) /. cast b = (a /. b).map cast := by
  show (div (A := B) a b : Py Raw) = (div (A := A) a b).map (id : Raw → Raw)
  cases a <;> cases b <;> simp [div, h.rnd] <;> rfl
omit h in
theorem cast_lt (a b : Fl A) : lt (cast a : Fl B) (cast b) = lt a b := by
  show lt (A := B) a b = lt (A := A) a b
  cases a <;> cases b <;> rfl
omit h in
theorem cast_le (a b : Fl A) : le (cast a : Fl B) (cast b) = le a b := by
  show le (A := B) a b = le (A := A) a b
  cases a <;> cases b <;> rfl
omit h in
theorem cast_feq (a b : Fl A) : eq (cast a : Fl B) (cast b) = eq a b := by
  show eq (A := B) a b = eq (A := A) a b
  cases a <;> cases b <;> rfl

end Fl

end Choclo
