import Verif.Model.Arith

/-!
# Floating-point data with signed zeros

The value domain of `Verif/Model/Arith.lean` without its simplification: zeros carry a sign, and every
operation determines the sign of a zero result by the IEEE 754 rules (round to nearest).

Source modelled: the same as in `Verif/Model/Arith.lean`, the scalar arithmetic of `/repo/src/choclo`.
-/

namespace Choclo

open Classical

/-- A floating-point datum: NaN, an infinity, a zero (`true` = negative) or a finite number that is
not zero.  Models the float64 scalars handled by every function in `/repo/src/choclo`.
Models `/repo/src/choclo/utils.py:49-55`. -/
inductive SRaw where
  | nan : SRaw
  | inf (neg : Bool) : SRaw
  | zero (neg : Bool) : SRaw
  | num (x : ℝ) (h : x ≠ 0) : SRaw

/-- Numbers computed in the arithmetic `A`, with signed zeros.
Models `/repo/src/choclo/utils.py:49-55` and every other function: the float64 scalars it computes with. -/
def SFl (_A : Arith) : Type := SRaw

namespace SFl

variable {A : Arith}

/-- A datum produced by the arithmetic `A`; a zero gets the sign `neg`.
Models `/repo/src/choclo/utils.py:50` (the result of a single operation). -/
noncomputable def ofRaw (neg : Bool) : Raw → SFl A
  | .nan => .nan
  | .inf s => .inf s
  | .fin x => if h : x = 0 then .zero neg else .num x h

/-- NaN (`np.nan`).
Models `/repo/src/choclo/prism/_kernels.py:428`. -/
def nan : SFl A := SRaw.nan
/-- An infinity.
Models `/repo/src/choclo/prism/_kernels.py:860` (overflow of a float expression). -/
def inf (neg : Bool) : SFl A := SRaw.inf neg
/-- A finite number given by its value (positive zero).
Models `/repo/src/choclo/utils.py:50` (an ordinary float64). -/
noncomputable def fin (x : ℝ) : SFl A := if h : x = 0 then SRaw.zero false else SRaw.num x h

/-- Unary minus.
Models `/repo/src/choclo/point/_kernels.py:112`. -/
def neg : SFl A → SFl A
  | .nan => nan
  | .inf s => inf (!s)
  | .zero s => SRaw.zero (!s)
  | .num x h => SRaw.num (-x) (neg_ne_zero.2 h)

/-- Addition: an exact zero is positive unless both terms are negative zeros.
Models `/repo/src/choclo/prism/_kernels.py:860` `x + r`. -/
noncomputable def add : SFl A → SFl A → SFl A
  | .nan, _ => nan
  | _, .nan => nan
  | .inf s, .inf t => if s = t then inf s else nan
  | .inf s, _ => inf s
  | _, .inf s => inf s
  | .zero s, .zero t => ofRaw (s && t) (A.rnd (0 + 0))
  | .zero _, .num y _ => ofRaw (decide (y < 0)) (A.rnd (0 + y))
  | .num x _, .zero _ => ofRaw (decide (x < 0)) (A.rnd (x + 0))
  | .num x _, .num y _ => ofRaw (decide (x + y < 0)) (A.rnd (x + y))

/-- Multiplication: signs multiply.
Models `/repo/src/choclo/prism/_kernels.py:856` `-2 * x`. -/
noncomputable def mul : SFl A → SFl A → SFl A
  | .nan, _ => nan
  | _, .nan => nan
  | .inf s, .inf t => inf (xor s t)
  | .inf _, .zero _ => nan
  | .zero _, .inf _ => nan
  | .inf s, .num x _ => if 0 < x then inf s else inf (!s)
  | .num x _, .inf s => if 0 < x then inf s else inf (!s)
  | .zero s, .zero t => ofRaw (xor s t) (A.rnd (0 * 0))
  | .zero s, .num y _ => ofRaw (xor s (decide (y < 0))) (A.rnd (0 * y))
  | .num x _, .zero t => ofRaw (xor (decide (x < 0)) t) (A.rnd (x * 0))
  | .num x _, .num y _ => ofRaw (decide (x * y < 0)) (A.rnd (x * y))

/-- Division; raises `ZeroDivisionError` when the denominator is a zero of either sign.
Models `/repo/src/choclo/prism/_kernels.py:778` `y / x`. -/
noncomputable def div : SFl A → SFl A → Py (SFl A)
  | _, .zero _ => .error .zeroDivision
  | .nan, _ => .ok nan
  | _, .nan => .ok nan
  | .inf _, .inf _ => .ok nan
  | .inf s, .num y _ => if 0 < y then .ok (inf s) else .ok (inf (!s))
  | .zero s, .inf t => .ok (SRaw.zero (xor s t))
  | .num x _, .inf t => .ok (SRaw.zero (xor (decide (x < 0)) t))
  | .zero s, .num y _ => .ok (ofRaw (xor s (decide (y < 0))) (A.rnd (0 / y)))
  | .num x _, .num y _ => .ok (ofRaw (decide (x / y < 0)) (A.rnd (x / y)))

/-- `x ** n` for a literal exponent `n`.
Models `/repo/src/choclo/point/_kernels.py:112` `distance**3`. -/
noncomputable def pow : SFl A → ℕ → SFl A
  | .nan, n => if n = 0 then fin 1 else nan
  | .inf s, n => if n = 0 then fin 1 else inf (s && decide (n % 2 = 1))
  | .zero s, n => ofRaw (s && decide (n % 2 = 1)) (A.pow 0 n)
  | .num x _, n => ofRaw (decide (x < 0) && decide (n % 2 = 1)) (A.pow x n)

/-- `np.sqrt`: the square root of a negative zero is a negative zero.
Models `/repo/src/choclo/utils.py:50`. -/
noncomputable def sqrt : SFl A → SFl A
  | .nan => nan
  | .inf s => if s then nan else inf false
  | .zero s => ofRaw s (A.rnd (Real.sqrt 0))
  | .num x _ => if x < 0 then nan else ofRaw false (A.rnd (Real.sqrt x))

/-- `np.log`.
Models `/repo/src/choclo/prism/_kernels.py:856-860`. -/
noncomputable def log : SFl A → SFl A
  | .nan => nan
  | .inf s => if s then nan else inf false
  | .zero _ => inf true
  | .num x _ => if x < 0 then nan else ofRaw (decide (x < 1)) (A.log x)

/-- `np.arctan`: odd, also at the zeros.
Models `/repo/src/choclo/prism/_kernels.py:778`. -/
noncomputable def arctan : SFl A → SFl A
  | .nan => nan
  | .inf s => if s then ofRaw true (A.rnd (-(A.pi / 2))) else ofRaw false (A.rnd (A.pi / 2))
  | .zero s => ofRaw s (A.atan 0)
  | .num x _ => ofRaw (decide (x < 0)) (A.atan x)

/-- `np.sin`.
Models `/repo/src/choclo/utils.py:113`. -/
noncomputable def sin : SFl A → SFl A
  | .nan => nan
  | .inf _ => nan
  | .zero s => ofRaw s (A.sin 0)
  | .num x _ => ofRaw (decide (Real.sin x < 0)) (A.sin x)

/-- `np.cos`.
Models `/repo/src/choclo/utils.py:112`. -/
noncomputable def cos : SFl A → SFl A
  | .nan => nan
  | .inf _ => nan
  | .zero _ => ofRaw false (A.cos 0)
  | .num x _ => ofRaw (decide (Real.cos x < 0)) (A.cos x)

/-- `np.radians`.
Models `/repo/src/choclo/utils.py:109-110`. -/
noncomputable def radians : SFl A → SFl A
  | .nan => nan
  | .inf s => inf s
  | .zero s => ofRaw s (A.radians 0)
  | .num x _ => ofRaw (decide (x < 0)) (A.radians x)

/-- `np.pi`.
Models `/repo/src/choclo/prism/_kernels.py:772`. -/
noncomputable def pi : SFl A := fin A.pi

/-- `a < b` (false if either is NaN; the two zeros are equal).
Models `/repo/src/choclo/prism/_utils.py:47`. -/
noncomputable def lt : SFl A → SFl A → Bool
  | .nan, _ => false
  | _, .nan => false
  | .inf s, .inf t => s && !t
  | .inf s, _ => s
  | _, .inf s => !s
  | .zero _, .zero _ => false
  | .zero _, .num y _ => decide (0 < y)
  | .num x _, .zero _ => decide (x < 0)
  | .num x _, .num y _ => decide (x < y)

/-- `a <= b` (false if either is NaN; the two zeros are equal).
Models `/repo/src/choclo/prism/_utils.py:158`. -/
noncomputable def le : SFl A → SFl A → Bool
  | .nan, _ => false
  | _, .nan => false
  | .inf s, .inf t => s || !t
  | .inf s, _ => s
  | _, .inf s => !s
  | .zero _, .zero _ => true
  | .zero _, .num y _ => decide (0 ≤ y)
  | .num x _, .zero _ => decide (x ≤ 0)
  | .num x _, .num y _ => decide (x ≤ y)

/-- `a == b` (false if either is NaN; the two zeros are equal).
Models `/repo/src/choclo/prism/_kernels.py:770` `x == 0`. -/
noncomputable def eq : SFl A → SFl A → Bool
  | .nan, _ => false
  | _, .nan => false
  | .inf s, .inf t => s == t
  | .inf _, _ => false
  | _, .inf _ => false
  | .zero _, .zero _ => true
  | .zero _, .num y _ => decide (0 = y)
  | .num x _, .zero _ => decide (x = 0)
  | .num x _, .num y _ => decide (x = y)

/-- `-a`. Models `/repo/src/choclo/point/_kernels.py:112`. -/
instance : Neg (SFl A) := ⟨neg⟩
/-- `a + b`. Models `/repo/src/choclo/prism/_kernels.py:860`. -/
noncomputable instance : Add (SFl A) := ⟨add⟩
/-- `a - b` is computed as `a + (-b)` (the same in IEEE arithmetic, signs of zeros included).
Models `/repo/src/choclo/utils.py:51`. -/
noncomputable instance : Sub (SFl A) := ⟨fun a b => add a (neg b)⟩
/-- `a * b`. Models `/repo/src/choclo/prism/_kernels.py:856`. -/
noncomputable instance : Mul (SFl A) := ⟨mul⟩
/-- `x ** n`.
Models `/repo/src/choclo/point/_kernels.py:112`. -/
noncomputable instance : HPow (SFl A) ℕ (SFl A) := ⟨pow⟩
/-- Integer literals.
Models `/repo/src/choclo/point/_kernels.py:276`. -/
noncomputable instance (n : ℕ) : OfNat (SFl A) n := ⟨fin n⟩
/-- The literal `0.5`.
Models `/repo/src/choclo/prism/_kernels.py:94`. -/
noncomputable def half : SFl A := fin (1 / 2)
/-- Integers entering a float expression, e.g. `(-1) ** (i + j + k)`.
Models `/repo/src/choclo/prism/_magnetic.py:278` `(-1) ** (i + j + k)`. -/
noncomputable instance : IntCast (SFl A) := ⟨fun n => fin n⟩
/-- A decimal literal, rounded to the arithmetic.
Models `/repo/src/choclo/constants.py:12-15`. -/
noncomputable def lit (x : ℝ) : SFl A := ofRaw (decide (x < 0)) (A.rnd x)

end SFl

/-- `x / y` as a computation that may raise. -/
infixl:70 " /± " => SFl.div

end Choclo
