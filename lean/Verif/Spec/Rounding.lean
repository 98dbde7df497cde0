import Verif.Spec.PrismKernels
import Verif.Spec.Prism
import Verif.Spec.Point

/-!
# Laws of floating-point arithmetics (specification)

The generic theorems hold for every `Arith`, or for every one that satisfies one of the laws below.
IEEE binary64 with round-to-nearest-even satisfies all of them (`Verif/Model/Binary64.lean`).
-/

namespace Choclo

/-- Sign-symmetric arithmetic: rounding, integer powers and `cos` respect the sign symmetry of the
exact operations. True of every IEEE rounding to nearest (and of truncation). -/
structure Arith.SignSymmetric (A : Arith) : Prop where
  rnd_neg : ∀ x : ℝ, (Fl.ofRaw (A.rnd (-x)) : Fl A) = -(Fl.ofRaw (A.rnd x))
  pow_even : ∀ (x : ℝ) (n : ℕ), Even n → A.pow (-x) n = A.pow x n
  cos_neg : ∀ x : ℝ, A.cos (-x) = A.cos x

/-- `a ≤ b` between data that are not NaN. -/
def Raw.le : Raw → Raw → Prop
  | .fin x, .fin y => x ≤ y
  | .inf true, .fin _ => True
  | .inf true, .inf _ => True
  | .fin _, .inf false => True
  | .inf false, .inf false => True
  | _, _ => False

/-- Monotone arithmetic: rounding is monotone (and never NaN), fixes zero, and fixes the finite
numbers it produces and their negatives. Overflow to infinities and underflow to zero are allowed.
True of IEEE arithmetic in every rounding mode. -/
structure Arith.Monotone (A : Arith) : Prop where
  rnd_mono : ∀ x y : ℝ, x ≤ y → Raw.le (A.rnd x) (A.rnd y)
  rnd_idem : ∀ x y : ℝ, A.rnd x = .fin y → A.rnd y = .fin y ∧ A.rnd (-y) = .fin (-y)
  rnd_zero : A.rnd 0 = .fin 0

/-- The `i`-th axis component of the gravity functions: which results change sign when observation
and source point are exchanged. -/
def GComp.odd : GComp → Prop
  | .e | .n | .u => True
  | _ => False

/-- The same outcome with the returned number negated. -/
def Py.negated {A : Arith} (call : Py (Fl A)) : Py (Fl A) := do return -(← call)

/-- Accurate arithmetic with unit roundoff `u`: results whose exact value is zero are exact, and
results whose exact magnitude lies between `lo` and `hi` (no underflow, no overflow) have relative
error at most `u`; smaller results have an absolute error of at most `u * lo` (gradual underflow).
An integer power `x ** n` may be computed by up to `n - 1` successive rounded
multiplications (Numba expands small constant exponents that way). -/
structure Arith.Accurate (A : Arith) (u lo hi : ℝ) : Prop where
  u_nonneg : 0 ≤ u
  u_small : u ≤ 1 / 128
  lo_pos : 0 < lo
  rnd_zero : A.rnd 0 = .fin 0
  pow_zero : ∀ n : ℕ, n ≠ 0 → A.pow 0 n = .fin 0
  rnd_rel : ∀ x : ℝ, lo ≤ |x| → |x| ≤ hi → ∃ δ : ℝ, |δ| ≤ u ∧ A.rnd x = .fin (x * (1 + δ))
  rnd_abs : ∀ x : ℝ, |x| ≤ hi → ∃ y : ℝ, A.rnd x = .fin y ∧ |y - x| ≤ u * max |x| lo
  pow_rel : ∀ (x : ℝ) (n : ℕ), 2 ≤ n → lo ≤ |x ^ n| → |x ^ n| ≤ hi →
    ∃ θ : ℝ, (1 - u) ^ (n - 1) ≤ θ ∧ θ ≤ ((1 - u) ^ (n - 1))⁻¹ ∧ A.pow x n = .fin (x ^ n * θ)

/-- The exact value of an intermediate result is zero or stays a factor two away from the
underflow and overflow thresholds. -/
def InSafeRange (lo hi x : ℝ) : Prop := x = 0 ∨ (2 * lo ≤ |x| ∧ 2 * |x| ≤ hi)

/-- Higham's `γ_k = k u / (1 - k u)`. -/
noncomputable def gammaErr (u : ℝ) (k : ℕ) : ℝ := k * u / (1 - k * u)

/-- The call returns a finite number with relative error at most `ε` from the exact value `x`. -/
def ReturnsNear {A : Arith} (call : Py (Fl A)) (x ε : ℝ) : Prop :=
  ∃ y : ℝ, Returns call y ∧ |y - x| ≤ ε * |x|

/-- The call returns a finite number within `δ` of the exact value `x`. -/
def ReturnsWithin {A : Arith} (call : Py (Fl A)) (x δ : ℝ) : Prop :=
  ∃ y : ℝ, Returns call y ∧ |y - x| ≤ δ

/-! ### Exact values of the intermediate results

The error bounds below ask that no intermediate result over- or underflows.  These lists spell out
the exact values of the intermediate results of each function. -/

/-- `distance_cartesian`: the three differences, their squares, the partial sums, the root. -/
noncomputable def distanceSteps (p q : Pt) : List ℝ :=
  [p.e - q.e, p.n - q.n, p.u - q.u, (p.e - q.e) ^ 2, (p.n - q.n) ^ 2, (p.u - q.u) ^ 2,
    (p.e - q.e) ^ 2 + (p.n - q.n) ^ 2, (p.e - q.e) ^ 2 + (p.n - q.n) ^ 2 + (p.u - q.u) ^ 2, dist3 p q]

/-- `point.gravity_pot` after the distance. -/
noncomputable def potSteps (p q : Pt) (m : ℝ) : List ℝ :=
  [Gc, Gc * m, 1 / dist3 p q, Gc * m * (1 / dist3 p q)]

/-- `point.gravity_e/n/u` after the distance; `d` is the coordinate difference of the component. -/
noncomputable def accSteps (p q : Pt) (d m : ℝ) : List ℝ :=
  [Gc, Gc * m, dist3 p q ^ 3, -d / dist3 p q ^ 3, Gc * m * (-d / dist3 p q ^ 3)]

/-- `point.gravity_en/eu/nu` after the distance; `d` and `d'` are the two coordinate differences. -/
noncomputable def offDiagSteps (p q : Pt) (d d' m : ℝ) : List ℝ :=
  [Gc, Gc * m, 3 * d, 3 * d * d', dist3 p q ^ 5, 3 * d * d' / dist3 p q ^ 5,
    Gc * m * (3 * d * d' / dist3 p q ^ 5)]

/-- `point.gravity_ee/nn/uu` after the distance; `d` is the coordinate difference of the component.
The two terms of the kernel may cancel: the list holds the sums of their magnitudes. -/
noncomputable def diagSteps (p q : Pt) (d m : ℝ) : List ℝ :=
  [Gc, Gc * m, d ^ 2, 3 * d ^ 2, dist3 p q ^ 5, 3 * d ^ 2 / dist3 p q ^ 5, dist3 p q ^ 3,
    1 / dist3 p q ^ 3, 3 * d ^ 2 / dist3 p q ^ 5 + 1 / dist3 p q ^ 3,
    |Gc * m| * (3 * d ^ 2 / dist3 p q ^ 5 + 1 / dist3 p q ^ 3)]

/-- third-order prism kernels with two equal indices. -/
noncomputable def iijSteps (x y z r : ℝ) : List ℝ :=
  [x * z, x ^ 2, y ^ 2, x ^ 2 + y ^ 2, (x ^ 2 + y ^ 2) * r, x * z / ((x ^ 2 + y ^ 2) * r)]

/-- third-order prism kernels with three equal indices. -/
noncomputable def iiiSteps (x y z r : ℝ) : List ℝ :=
  [x ^ 2, y ^ 2, z ^ 2, -y * z, 2 * x ^ 2, 2 * x ^ 2 + y ^ 2, 2 * x ^ 2 + y ^ 2 + z ^ 2,
    -y * z * (2 * x ^ 2 + y ^ 2 + z ^ 2), x ^ 2 + y ^ 2, x ^ 2 + z ^ 2,
    (x ^ 2 + y ^ 2) * (x ^ 2 + z ^ 2), (x ^ 2 + y ^ 2) * (x ^ 2 + z ^ 2) * r,
    -y * z * (2 * x ^ 2 + y ^ 2 + z ^ 2) / ((x ^ 2 + y ^ 2) * (x ^ 2 + z ^ 2) * r)]

/-- Third-order kernels. -/
def PKComp.thirdOrder : PKComp → Prop
  | .eee | .nnn | .uuu | .een | .eeu | .enn | .nnu | .euu | .nuu | .enu => True
  | _ => False

/-- Exact values of the intermediate results of a third-order kernel. -/
noncomputable def thirdOrderSteps (c : PKComp) (x y z r : ℝ) : List ℝ :=
  match c with
  | .eee => iiiSteps x y z r
  | .nnn => iiiSteps y z x r
  | .uuu => iiiSteps z y x r
  | .een => iijSteps x y z r
  | .eeu => iijSteps x z y r
  | .enn => iijSteps y x z r
  | .nnu => iijSteps y z x r
  | .euu => iijSteps z x y r
  | .nuu => iijSteps z y x r
  | _ => [-1 / r]

/-- The value of `np.pi` has relative error at most `u`. -/
def Arith.PiAccurate (A : Arith) (u : ℝ) : Prop := |A.pi - Real.pi| ≤ u * Real.pi

/-- The library functions are accurate: `np.pi`, `np.log` (absolute error `u` near 1, relative error
`u` elsewhere) and `np.arctan` (relative error `u`). -/
structure Arith.LibmAccurate (A : Arith) (u lo hi : ℝ) : Prop where
  pi : A.PiAccurate u
  log : ∀ x : ℝ, lo ≤ x → x ≤ hi →
    ∃ y : ℝ, A.log x = .fin y ∧ |y - Real.log x| ≤ u * (1 + |Real.log x|)
  atan : ∀ t : ℝ, 2 * lo ≤ |t| → |t| ≤ hi →
    ∃ δ : ℝ, |δ| ≤ u ∧ A.atan t = .fin (Real.arctan t * (1 + δ))
  atan_zero : A.atan 0 = .fin 0

/-- `dipole.magnetic_*` for the component with coordinate difference `d` and moment component `md`:
the intermediate results, with sums of magnitudes for the sums that may cancel. -/
noncomputable def dipoleSteps (p q m : Pt) (d md : ℝ) : List ℝ :=
  let S2 := |m.e * (p.e - q.e)| + |m.n * (p.n - q.n)|
  let S := S2 + |m.u * (p.u - q.u)|
  [m.e * (p.e - q.e), m.n * (p.n - q.n), m.u * (p.u - q.u), S2, S, 3 * S, 3 * S * |d|,
    dist3 p q ^ 5, 3 * S * |d| / dist3 p q ^ 5, dist3 p q ^ 3, md / dist3 p q ^ 3,
    3 * S * |d| / dist3 p q ^ 5 + |md / dist3 p q ^ 3|,
    mu0, mu0 / 4, mu0 / 4 / Real.pi,
    mu0 / 4 / Real.pi * (3 * S * |d| / dist3 p q ^ 5 + |md / dist3 p q ^ 3|)]

/-- Zero or of magnitude between `2⁻⁸⁰ ≈ 10⁻²⁴` and `2⁸⁰ ≈ 10²⁴`: every length in metres, density, mass
and magnetization a user may meet. -/
def ModerateSize (x : ℝ) : Prop := x = 0 ∨ ((2 : ℝ) ^ (-80 : ℤ) ≤ |x| ∧ |x| ≤ 2 ^ (80 : ℤ))

/-! ### Sizes of the terms of the prism kernels

The kernels of a prism are sums of products of coordinates with logarithms and arctangents, and the
gravity and magnetic functions are alternating sums of kernels over the eight vertices.  Those sums
cancel, so errors are measured against the sum of the magnitudes of all terms.  A logarithm counts as
`1 + |ln|`: a relative error of its argument is an absolute error of the logarithm. -/

/-- Sum of the magnitudes of the terms of a kernel at the vertex `(x, y, z)` at distance `r`. -/
noncomputable def kernelSize (c : PKComp) (x y z r : ℝ) : ℝ :=
  match c with
  | .pot => |x * y| * (1 + |docLn z r|) + |y * z| * (1 + |docLn x r|) + |x * z| * (1 + |docLn y r|)
      + x ^ 2 / 2 * |docAtan (y * z) (x * r)| + y ^ 2 / 2 * |docAtan (x * z) (y * r)|
      + z ^ 2 / 2 * |docAtan (x * y) (z * r)|
  | .e => |y| * (1 + |docLn z r|) + |z| * (1 + |docLn y r|) + |x| * |docAtan (y * z) (x * r)|
  | .n => |z| * (1 + |docLn x r|) + |x| * (1 + |docLn z r|) + |y| * |docAtan (x * z) (y * r)|
  | .u => |x| * (1 + |docLn y r|) + |y| * (1 + |docLn x r|) + |z| * |docAtan (x * y) (z * r)|
  | .en => 1 + |docLn z r|
  | .eu => 1 + |docLn y r|
  | .nu => 1 + |docLn x r|
  | c => |docKernel c x y z r|

/-- Sum over the eight vertices of a prism of a function of the vertex position relative to the
observation point and of its distance. -/
noncomputable def vertexSum (f : ℝ → ℝ → ℝ → ℝ → ℝ) (p : Pt) (P : Box) : ℝ :=
  let v x y z := f (x - p.e) (y - p.n) (z - p.u)
    (Real.sqrt ((x - p.e) ^ 2 + (y - p.n) ^ 2 + (z - p.u) ^ 2))
  v P.east P.north P.top + v P.east P.north P.bottom + v P.east P.south P.top + v P.east P.south P.bottom
    + v P.west P.north P.top + v P.west P.north P.bottom + v P.west P.south P.top
    + v P.west P.south P.bottom

/-- The six boundaries as seen from the observation point are of moderate size. -/
def ModerateOffsets (p : Pt) (P : Box) : Prop :=
  ModerateSize (P.west - p.e) ∧ ModerateSize (P.east - p.e) ∧ ModerateSize (P.south - p.n) ∧
    ModerateSize (P.north - p.n) ∧ ModerateSize (P.bottom - p.u) ∧ ModerateSize (P.top - p.u)

/-- The prism kernel of a gravity component. -/
def GComp.kernel : GComp → PKComp
  | .pot => .pot
  | .e => .e
  | .n => .n
  | .u => .u
  | .ee => .ee
  | .nn => .nn
  | .uu => .uu
  | .en => .en
  | .eu => .eu
  | .nu => .nu

/-- The prism kernel that multiplies the magnetization component along an axis in a component of the
magnetic field or of its gradient. -/
def MComp.kernel : MComp → Axis → PKComp
  | .e, .e => .ee
  | .e, .n => .en
  | .e, .u => .eu
  | .n, .e => .en
  | .n, .n => .nn
  | .n, .u => .nu
  | .u, .e => .eu
  | .u, .n => .nu
  | .u, .u => .uu
  | .ee, .e => .eee
  | .ee, .n => .een
  | .ee, .u => .eeu
  | .nn, .e => .enn
  | .nn, .n => .nnn
  | .nn, .u => .nnu
  | .uu, .e => .euu
  | .uu, .n => .nuu
  | .uu, .u => .uuu
  | .en, .e => .een
  | .en, .n => .enn
  | .en, .u => .enu
  | .eu, .e => .eeu
  | .eu, .n => .enu
  | .eu, .u => .euu
  | .nu, .e => .enu
  | .nu, .n => .nnu
  | .nu, .u => .nuu

open Classical in
/-- Sum of the magnitudes of everything that is added up in a prism function with a given kernel:
the terms of the kernel at the eight vertices and, on a face, the `4 π` of the face. -/
noncomputable def totalSize (k : PKComp) (p : Pt) (P : Box) : ℝ :=
  vertexSum (kernelSize k) p P +
    if (k = .ee ∧ p ∈ P.faceEast) ∨ (k = .nn ∧ p ∈ P.faceNorth) ∨ (k = .uu ∧ p ∈ P.faceTop) then 4 * Real.pi
    else 0

end Choclo
