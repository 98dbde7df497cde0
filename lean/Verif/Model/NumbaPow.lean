import Verif.Model.Binary64

/-!
# Powers with a constant exponent, as compiled

The code of `/repo/src/choclo` uses `x ** 2`, `x ** 3`, `x ** 5` and `x ** 7`
(e.g. `/repo/src/choclo/point/_kernels.py:610-617`, `/repo/src/choclo/utils.py:51-54`).  Numba does not call
`pow` for a constant exponent but unrolls square-and-multiply:

    res = 1
    while exp != 0:
        if exp & 1: res = res * val
        exp >>= 1
        val = val * val

so that `x ** 7` is `(x * x²) * (x²)²` with a rounding after every product.  `Arith.withNumbaPow` is any
arithmetic with its powers computed that way.  Simplifications: the product `1 * val` is `val`; the last,
unused `val * val` is dropped; exponents above 7 do not occur in the code and are left as they were.
-/

namespace Choclo

/-- The unrolled loop; `res = none` stands for the initial 1.
Models `/repo/src/choclo/point/_kernels.py:112` `distance**3`, as Numba compiles it. -/
noncomputable def numbaLoop {A : Arith} : ℕ → Option (Fl A) → Fl A → ℕ → Fl A
  | 0, res, _, _ => res.getD 1
  | fuel + 1, res, val, n =>
    if n = 0 then res.getD 1
    else
      let res' := if n % 2 = 1 then some (match res with | none => val | some r => r * val) else res
      numbaLoop fuel res' (val * val) (n / 2)

/-- `x ** n` for a constant `n`.
Models `/repo/src/choclo/point/_kernels.py:112` `distance**3`. -/
noncomputable def numbaPow (A : Arith) (x : ℝ) (n : ℕ) : Raw := numbaLoop (A := A) n none (Fl.fin x) n

/-- The arithmetic `A` with powers computed by repeated multiplication.
Models `/repo/src/choclo/point/_kernels.py:112` and every other power of a float. -/
noncomputable def Arith.withNumbaPow (A : Arith) : Arith :=
  { A with pow := fun x n => if n ≤ 7 then numbaPow A x n else A.pow x n }

/-- IEEE double precision with Numba's powers.
Models `/repo/src/choclo/point/_kernels.py:112` and every other function. -/
noncomputable def Numba64 : Arith := Binary64.withNumbaPow

end Choclo
