# Formal model of fatiando/choclo in Lean 4

Scope: every function of `/repo/src/choclo` (`constants`, `utils`, `point`, `dipole`, `prism`), read as text.
91 functions and 2 constants; all of them are modelled, public and private.

Layout of `lean/Verif`:

* `Model/`  the translation of the source, one Lean definition per Python function, same name, same argument order,
  same expressions, same order of evaluation, same branches, loops kept as loops; each cites `file:first-last`;
* `Spec/`   what the properties are phrased in (points, boxes, distance, "the call returns x", "the call returns NaN",
  derivative, Newton's integrand, laws of floating-point arithmetics, gamma_k); nothing there mentions the code's internals;
* `Props/`  the property theorems `C<nn>_*`, each with a concrete non-trivial instance (`example`) of its hypotheses;
* `Lemmas/` everything in between.

`tools/fidelity.py` re-reads the source (Python `ast`, nothing is executed), normalises each function and compares it token by
token with the Lean definition of the same name, including argument lists, `@jit(nopython=True)` decorators and line
citations: 93 compared, 0 differences. It is a check on the hand translation, not part of any proof.

## 1. What is modelled and how

### 1.1 Values, arithmetic, exceptions (`Model/Arith.lean`)

choclo is scalar numerical code compiled by Numba (`@jit(nopython=True)`, default `error_model="python"`, no fastmath).
A float is

    Raw = nan | inf (sign) | fin (x : ℝ)

and the *arithmetic* is a parameter `A : Arith`:

* `A.rnd : ℝ → Raw`: rounding of the exact result of `+ - * / sqrt` and of decimal literals (it may overflow to an infinity
  or underflow to 0);
* `A.pow`, `A.log`, `A.atan`, `A.sin`, `A.cos`, `A.radians`: library functions at finite arguments;
* `A.pi`: the value of `np.pi`.

The IEEE rules for NaN and infinities (propagation, inf - inf, 0 * inf, ...) are built into the operations; comparisons
with NaN are false; `log 0 = -inf`; `log` and `sqrt` of a negative number are NaN. Division by zero **raises**
`ZeroDivisionError` (Numba's default error model; a comment in the repository's test-suite confirms that the authors rely on it).
A function is a Lean function into `Py (Fl A) = Except PyErr (Fl A)`.

One model, two families of theorems:

* at `A = Exact` (`rnd = fin`, exact `log`, `arctan`, ...): the mathematical content - integrals, derivatives,
  Laplace/Poisson, symmetries, absence of exceptions, NaN sets;
* for **every** `A`, or every `A` satisfying one of five laws stated in `Spec/Rounding.lean`
  (`SignSymmetric`, `Monotone`, `Accurate u lo hi`, `PiAccurate u`, `LibmAccurate u lo hi`): bit-for-bit statements, NaN
  propagation, absence of exceptions and rounding-error bounds.

`Model/Binary64.lean` constructs IEEE 754 binary64 with round-to-nearest-even (53 bits, gradual underflow, overflow to infinity)
and proves all five laws of it, so the generic theorems are not vacuous and the `*_double` corollaries speak of the arithmetic
choclo runs in. There `log`, `arctan`, ... and `x ** n` are taken as correctly rounded; actual libm implementations are within
1-2 ulp, for which the generic theorem is to be used with a larger `u` (e.g. `u = 2^-51`). `Model/NumbaPow.lean` replaces `x ** n` by
what Numba compiles for a constant exponent, repeated squaring and multiplication with a rounding after each product (`Numba64`); C90
proves the laws again for that arithmetic, bit-for-bit equality for everything that only squares, and the error bounds for the rest.

### 1.2 Not modelled

* the sign of zero (one zero) in `Model/*.lean`. This loses nothing: `Model/Signed` is a second copy of the model (generated by
  `tools/signed.py`) in an arithmetic with IEEE signed zeros, and C88 proves that dropping the signs of the zeros from its
  results gives the results of the model without them, for every function and all arguments;
* interpreted execution (`NUMBA_DISABLE_JIT=1`) is modelled by a further copy, `Model/Interp` (generated by `tools/interp.py` from
  `Model/Signed`), whose division is that of NumPy scalars: it does not raise. It treats integer literals as floats. `Model/Python` (generated by
  `tools/python.py`) removes both restrictions: every scalar is an integer, a built-in float or an `np.float64`, `**` on built-in
  floats raises `OverflowError`, a division of built-in numbers by zero raises, integer zeros have no sign (C137, C138).
  Not modelled: the `RuntimeWarning`s; integer arguments beyond the bounds of C144 (Python ints) to interpreted calls.
  Interpreted calls with `np.int64` scalars are modelled by `Model/NpInt` (C147), the typed model with NumPy's division; simplifications: the sign of the infinity from a division by zero is the sign of the numerator (a zero has no sign in this copy), and a literal `0` returned by a kernel is treated as in compiled code.
* the JIT compiler. Arguments are float64 in `Model/*.lean`; `Model/Typed` is a third copy of the model (generated by
  `tools/typed.py`) in which every scalar is an int64 or a float64, with Numba's rules for scalars (int64 op int64 is int64 with
  wrap-around, `/` and the numpy functions convert to float64, a mixed operation converts the integer), and C89 relates the two.
  Trusted: that these are Numba's rules (`Model/Typed/Arith.lean` lists them and one simplification). float32 arguments are
  modelled by a fourth copy, `Model/Mixed` (generated by `tools/mixed.py`), in which every scalar is a float32 or a float64; trusted:
  Numba's typing rules listed in `Model/Mixed/Arith.lean` (a float32 with a literal exponent stays float32, an operation with an
  integer literal or a float64 is done in float64, return values are unified) and the simplification stated there; C106-C108, C110-C113, C120-C122, C129 and C131 are
  about this copy. Unsigned integers are modelled for `distance_cartesian`, the point and the dipole functions (`Model/Unsigned`, generated by `tools/unsigned.py`, C148; trusted: Numba's rules listed in `Model/Unsigned/Arith.lean`), not for prisms. Complex arguments, and array arguments to the scalar functions, are not modelled;
* FMA contraction or re-association by LLVM (Numba does neither without fastmath);
* the accuracy of a particular libm (it enters as the hypotheses `LibmAccurate`, `TrigAccurate`);
* NumPy/Numba broadcasting: the API is scalar. The programs of the user guide that loop over many points and prisms are modelled
  (`Model/UserGuide.lean`), the parallel ones as interleavings of atomic reads, writes and calls by any number of threads
  (`Model/Parallel.lean`, sequentially consistent memory); `jacobian @ densities` adds the products in any order, with or without fused multiply-adds.
  Arrays whose lengths do not fit are modelled for the forward loops (`Model/Lengths.lean`, C132) and for `build_jacobian` and the
  product (`Model/JacobianLengths.lean`, C139);
* packaging, version string, the rest of the documentation.

## 2. Trusted base

* Lean 4.33 kernel; Mathlib's definitions (real numbers, `HasDerivAt`, Bochner integral, Lebesgue measure, `Real.log`, ...);
* axioms of every property theorem: `propext`, `Classical.choice`, `Quot.sound`, nothing else; no axioms are declared,
  no compiled evaluation (`native_decide`, `bv_decide`) is used;
* the faithfulness of `Model/*` to the cited lines (hand translation, cross-checked by `tools/fidelity.py`) and of the
  semantics of section 1.1 to Numba's.

## 3. Properties

Statements in English: `properties.jsonl`. "E" = exact arithmetic, "G" = every arithmetic (with the law named), "D" = IEEE double.

| | property | theorems | arithmetic | how |
|---|---|---|---|---|
| C01 | distance_cartesian is the Euclidean metric | `C01_distance_cartesian`, `C01_metric` | E | evaluation; `EuclideanSpace` norm |
| C02 | distance_spherical = chord of embedded points | `C02_distance_spherical`, `C02_periodic` | E | trigonometric identities; nonnegativity of the radicand |
| C03 | distance_spherical_core outputs | `C03_distance_spherical_core`, `C03_same_distance` | E | Cauchy-Schwarz for the cosine |
| C04 | distances symmetric to the last bit | `C04_distance_cartesian`, `C04_distance_spherical` | G SignSymmetric | case analysis on data |
| C05 | point kernels are the partial derivatives of 1/r to third order | `C05_kernels_are_derivatives`, `C05_kernel_pot` | E | `HasDerivAt` of powers of the distance |
| C06 | point kernels: Laplace | `C06_laplace` | E | `field_simp`/`ring` |
| C07 | point gravity raises exactly at the source | `C07_raises_iff` | E | |
| C08 | point acceleration/tensor are derivatives | `C08_gravity_derivatives` | E | from C05 |
| C09 | Newton's law; docstring formulas refuted | `C09_potential`, `C09_newton`, `C09_docstring_*_wrong` | E | |
| C10 | linear in mass, exchange parity | `C10_linear`, `C10_exchange`; `C10_exchange_bits`, `C10_negate_mass_bits` | E; G SignSymmetric | |
| C11 | translation, homogeneity | `C11_translation`, `C11_homogeneity` | E | |
| C12 | rotation equivariance | `C12_rotation` | E | orthogonal matrices |
| C13 | dipole field = components, to the bit | `C13_field_is_components` | G (all) | same computation up to naming |
| C14 | dipole raises exactly at the dipole | `C14_raises_iff`, `C14_field_raises_iff` | E | |
| C15 | dipole = -grad potential = point tensor . m | `C15_minus_gradient`, `C15_point_kernels` | E | |
| C16 | div B = 0, curl B = 0 | `C16_div_curl_free` | E | |
| C17 | dipole linearity, parity, reciprocity, scaling | `C17_*` | E | |
| C18 | point classification | `C18_interior`, `_edge`, `_edges_by_direction`, `_faces`, `_cover`, `_partition` | E | topological interior of a product of intervals; order case analysis |
| C19 | prism kernels: domain, NaN set, values | `C19_low_order`, `_high_order`, `_vertex`, `_never_raises` | E | branch analysis |
| C20 | log kernels even, monotone | `C20_*` | E | monotonicity of log and sqrt |
| C21 | prism potential = volume integral of point potential | `C21_point_integral`, `C21_newton_integral` | E | FTC three times, Fubini on ℝ×ℝ×ℝ, null exceptional sets |
| C22 | prism acceleration = volume integral | `C22_*` | E | as C21 (singular integrand, all points) |
| C23 | prism tensor = volume integral outside | `C23_point_integral` | E | |
| C24 | acceleration = grad potential everywhere | `C24_gradient` | E | derivative of the vertex sum; across coordinate planes by continuity of the derivative |
| C25 | tensor = derivatives of acceleration | `C25_diagonal`, `_face_hi`, `_face_lo`, `_off_diagonal` | E | |
| C26 | tensor NaN set | `C26_nan`, `_finite`, `_nan_iff` | E | |
| C27 | Laplace / Poisson | `C27_laplace_poisson` | E | arctan identity, sign patterns at the 8 vertices |
| C28 | face values are limits from outside | `C28_face_limit`, `C28_approachable` | E | arctan at ±∞ |
| C29 | linear in density | `C29_add`, `C29_smul`; `C29_negate_density_bits` | E; G SignSymmetric | |
| C30 | additivity under cuts | `C30_cut`, `_cut_field`, `_cut_off_plane` | E | telescoping vertex sum |
| C31 | translation | `C31_gravity`, `C31_magnetic` | E | |
| C32 | relabelling of axes | `C32_gravity`, `C32_magnetic` | E | |
| C33 | mirror symmetry, gravity | `C33_mirror` | E | parity of kernels modulo terms that cancel |
| C34 | scaling | `C34_gravity`, `C34_magnetic` | E | the log terms of the scale cancel in the vertex sum |
| C35 | attraction, signs | `C35_potential_positive`, `C35_attractive` | E | from C21, C22 |
| C36 | bounds by point masses | `C36_potential`, `C36_acceleration` | E | integral comparison |
| C37 | flat prisms | `C37_zero`, `_zero_off_normal`, `_flat_face` | E | |
| C38 | magnetic NaN set | `C38_nan_iff`, `C38_finite` | E | |
| C39 | prism field = components, to the bit | `C39_field_is_components` | G (all) | loop invariant on the three accumulators, exceptions included |
| C40 | Poisson's relation | `C40_poisson` | E | |
| C41 | prism field = integral of dipoles | `C41_dipole_integral` | E | from C23, C15 |
| C42 | trace of gradient | `C42_traceless` | E | |
| C43 | magnetic gradients are derivatives | `C43_gradient` | E | |
| C44 | linear in magnetization | `C44_add`, `C44_smul` | E | |
| C45 | cuts, magnetics | `C45_cut` | E | |
| C46 | mirror, magnetics | `C46_mirror` | E | |
| C47 | gradients = integral of third-order point kernels | `C47_kernel_integral` | E | |
| C48 | NaN in, NaN out | `C48_*` | G (all) | structural |
| C49 | singular points give NaN in floating point | `C49_gravity`, `C49_magnetic` | G (all) | comparisons are exact |
| C50 | rounding error, distance and point gravity | `C50_*`, `C50_double` | G Accurate; D | standard model, gamma_k |
| C51 | third-order prism kernels: small relative error | `C51_*`, `C51_double` | G Accurate; D | no cancellation |
| C52 | prism gravity/magnetic field never raise in floats; gradients can | `C52_gravity`, `C52_magnetic_field`, `C52_gradient_raises` | G Monotone; D | |
| C53 | far field of the prism potential | `C53_far_field` | E | Taylor bound under the integral |
| C54 | error of the diagonal point tensor | `C54_diagonal`, `C54_double` | G Accurate; D | |
| C55 | error of the dipole field | `C55_dipole`, `C55_double` | G Accurate; D | |
| C56 | error of all twenty prism kernels | `C56_kernel`, `C56_double` | G Accurate+Libm; D | |
| C57 | error of prism gravity | `C57_gravity`, `_double`, `_newton_double` | G; D | |
| C58 | error of prism magnetics | `C58_magnetic`, `C58_field`, `C58_double` | G; D | |
| C59 | translation invariance, bit for bit | `C59_*` | G (all) | only differences and comparisons of coordinates enter |
| C60 | sign symmetries of point, dipole, magnetization, bit for bit | `C60_*` | G SignSymmetric | |
| C61 | coincident points raise | `C61_*` | G ExactAtZero | |
| C62 | distance_spherical(p, p) = NaN at latitude 8 (finding) | `C62_nan` | D | Taylor enclosures of sine, cosine; evaluated roundings |
| C63 | error of distance_spherical | `C63_distance_spherical`, `C63_core`, `C63_double` | G Accurate+Trig; D | absolute error of the cosine, then of the radicand |
| C64 | Gauss's law for a point mass | `C64_inside`, `C64_outside` | E | face integrals by two applications of the fundamental theorem; the 24 arctangents sum to a product of signs |
| C65 | Gauss's law for a prism | `C65_*` | E | Fubini over face times prism (the solid angle bounds the inner integral), then C64 almost everywhere |
| C66 | zero magnetic flux through closed surfaces | `C66_*` | E | the flux of C64 is locally constant in the source: differentiate under the face integral; Fubini for prisms |
| C67 | far field of acceleration and tensor | `C67_acceleration`, `C67_tensor` | E | calculus of 2-jets along segments; point reflection of the prism removes the linear term |
| C68 | far field of prism magnetics is a dipole | `C68_dipole`, `C68_gradient` | E | as C67, with C41 and C47 |
| C69 | continuity, total differentiability | `C69_potential_continuous`, `C69_acceleration_continuous`, `C69_total_derivative`, `C69_tensor_continuous`, `C69_magnetic_continuous` | E | integral over a moving box of a locally integrable kernel (dominated convergence), continuous partials, C24, C29, C41 |
| C70 | path independence of line integrals | `C70_prism_gravity`, `C70_prism_gravity_closed`, `C70_point_gravity`, `C70_prism_tensor`, `C70_dipole`, `C70_prism_magnetic` | E | C69 and the fundamental theorem of calculus; `Spec/Path.lean` defines paths and work |
| C71 | decay bounds | `C71_dipole`, `C71_point_tensor`, `C71_prism_tensor`, `C71_prism_magnetic`, `C71_prism_gradient` | E | sharp bounds of the second- and third-order kernels as matrices, then C23, C41, C47 |
| C72 | infinite plate | `C72_bound`, `C72_bouguer` | E | C22 as an integral over slices, each the solid angle of a rectangle; dominated convergence |
| C73 | monotonicity of the potential | `C73_inclusion`, `C73_axis`, `C73_maximum` | E | C21; C24, C33 and C35 with the mean value theorem |
| C74 | continuity, face jumps | `C74_off_diagonal`, `C74_diagonal`, `C74_magnetic_face`, `C74_jump`, `C74_approachable` | E | continuity of the pairwise differences of the log and arctangent kernels; C27 for the jump |
| C75 | geometry of the spherical distance | `C75_triangle`, `C75_radii`, `C75_rotation`, `C75_scale`, `C75_special`, `C75_zero_iff` | E | C02 and trigonometry; vocabulary in `Spec/Sphere.lean` |
| C76 | grids of cells, point masses, dipoles | `C76_cells_field`, `C76_cells_tensor`, `C76_cells_magnetic`, `C76_points_potential`, `C76_points_acceleration`, `C76_points_tensor`, `C76_dipoles` | E | induction on the planes from C30, C45; C53, C67, C68 in each cell; `Spec/Grid.lean` |
| C77 | action and reaction | `C77_energy`, `C77_third_law`, `C77_no_self_force`, `C77_torque`, `C77_magnetic` | E | C21, C22, C41 and Fubini (integrability over pairs from Young's convolution argument); central, odd kernels |
| C78 | Newton's theorem | `C78_volume`, `C78_point_mass`, `C78_surface`, `C78_inside`, `C78_dipole`, `C78_kernel` | E | slices and polar coordinates on the axis, a measure-preserving reflection to the axis, then differentiation under the integral sign kernel by kernel |
| C79 | mean values, no extrema | `C79_gravity`, `C79_magnetic`, `C79_point`, `C79_strength` | E | C78's kernel identity, Fubini and parity of the kernels; a mean value excludes a strict extremum |
| C80 | horizontal exchange, bit for bit | `C80_distance`, `C80_kernel`, `C80_gravity`, `C80_dipole` | G (all) | additions commute; definitions then coincide |
| C81 | monotonicity in density, mass and offsets survives rounding | `C81_density`, `C81_mass`, `C81_zero`, `C81_distance`, `C81_potential` | G Monotone, SignSymmetric | the source strength enters in the last two products; every step is monotone |
| C82 | scaling by powers of two, bit for bit | `C82_distance`, `C82_kernel`, `C82_point`, `C82_dipole`, `C82_density`, `C82_magnetization`, `C82_diagonal`, `C82_gradient`, `C82_density_double`, `C82_mass_double` | G ScaleInvariant, D | `Model/Binary53.lean` (binary64 without exponent limits) meets the law; IEEE limits treated for density and mass |
| C83 | forward loop sums all prisms at all points | `C83_forward`, `C83_total`, `C83_pointwise`, `C83_empty`, `C83_exact`, `C83_reorder`, `C83_linear` | G (all), E | list induction over both loops |
| C84 | parallel forward loop = serial loop in every schedule; race over prisms | `C84_deterministic`, `C84_terminates`, `C84_progress`, `C84_returns`, `C84_moderate`, `C84_prisms_lose_update`, `C84_prisms_wrong` | G (all / Monotone) | invariant of the interleaving semantics of `Model/Parallel.lean`; step count |
| C85 | sensitivity matrix: entries, product, derivatives | `C85_entries`, `C85_returns`, `C85_terminates`, `C85_product`, `C85_derivative` | G (all / Monotone), E | same invariant; row loop writes every column |
| C86 | rounding error of the forward loop | `C86_sum`, `C86_finite`, `C86_newton`, `C86_moderate` | D | sums of floats are rounded with relative error only; induction over summation trees; C57 |
| C87 | jacobian @ densities = forward model up to rounding | `C87_product`, `C87_allclose`, `C87_moderate` | D | three roundings per entry plus two summation trees |
| C88 | 0.0 and -0.0 are interchangeable; the model without signed zeros is faithful | `C88_utils`, `C88_point_kernels`, `C88_point_gravity`, `C88_dipole`, `C88_prism_points`, `C88_prism_kernels`, `C88_prism_gravity`, `C88_prism_magnetic` and the same names with `_erase` | G (all) | second copy of the model in `Model/Signed` (generated by `tools/signed.py`), homomorphism that drops the signs |
| C89 | integer arguments give the same bits up to stated bounds; int64 overflow beyond | `C89_distance`, `C89_spherical`, `C89_point_gravity`, `C89_point_kernels`, `C89_point_kernels_third`, `C89_dipole`, `C89_prism_points`, `C89_prism_kernels`, `C89_prism_kernels_third`, `C89_prism_gravity`, `C89_prism_magnetic`, `C89_prism_gradients`, `C89_double`, `C89_overflow`, `C89_overflow_point` | G (integers up to L exact) / D | third copy of the model with int64/float64 scalars in `Model/Typed` (generated by `tools/typed.py`), simulation with magnitude bounds |
| C90 | powers by repeated multiplication, as compiled | `C90_powers`, `C90_laws`, `C90_same_bits`, `C90_point`, `C90_point_diagonal`, `C90_dipole`, `C90_prism`, `C90_coincident`, `C90_forward`, `C90_parallel`, `C90_matmul`, `C90_moderate` | D | `Numba64` (Model/NumbaPow.lean): the laws are proved again, error of the unrolled loop incl. near-overflow/underflow; homomorphism between arithmetics that agree on everything but higher powers |
| C91 | Sensitivity to the position of a face | `C91_gravity_hi`, `C91_gravity_lo`, `C91_anywhere_hi`, `C91_anywhere_lo`, `C91_magnetic_hi`, `C91_magnetic_lo` | E exact | the volume integral (C21–C23, C41) is sliced along the axis (Fubini); the slice integrals are continuous at the face (tube lemma, dominated convergence), so the fundamental theorem of calculus gives the derivative |
| C92 | Infinite differentiability off the sources | `C92_gravity`, `C92_magnetic`, `C92_point`, `C92_dipole` | E exact | outside: the volume integral of a smooth kernel over a compact set is smooth (induction on the order, differentiation under the integral); inside: all shifted coordinates are non-zero, where log and arctan kernels are smooth |
| C93 | Boundaries in the wrong order | `C93_potential_acceleration`, `C93_gravity`, `C93_magnetic`, `C93_magnetic_inside` | E exact | evaluation of the functions without an ordering hypothesis; the alternating vertex sum changes sign under the exchange of two boundaries; off the surface no edge or face test fires |
| C94 | Rounding error of all point kernels | `C94_kernels`, `C94_relative`, `C94_double` | G/D: accurate arithmetics; IEEE double | standard-model error analysis: k roundings give (1±u)^k; absolute bounds for the two-term kernels with |x| <= d |
| C95 | NaN results are warranted | `C95_off_diagonal`, `C95_diagonal`, `C95_approachable` | E | logarithmic lower bound for the edge term, other edges continuous; two straight approaches with different limits of the arctangent term |
| C96 | Euler's relation, invariants, source from data | `C96_euler_gravity`, `C96_euler_kernels`, `C96_euler_dipole`, `C96_source`, `C96_invariants`, `C96_dipole` | E | algebra over r^2 = x^2+y^2+z^2 on the evaluated kernels |
| C97 | signs of the prism tensor | `C97_off_diagonal`, `C97_between`, `C97_column` | E | off-diagonal: the component is the integral along the edge direction of the mixed difference of 1/r over the cross-section, whose sign is that of a convexity defect; diagonal: difference of the solid angles of the two faces, positive in front, decreasing with distance in the column |
| C98 | explicit error bounds, Laplace and Poisson in double | `C98_gravity`, `C98_diagonal`, `C98_laplace_poisson`, `C98_point_laplace`, `C98_magnetic_divergence` | D | C57, C58, C54 with the sizes of the terms bounded (the argument of every logarithm is between 2^-242 and 2^242), and the exact identities C27, C42 |
| C99 | finite differences | `C99_mean_value`, `C99_tensor_mean_value`, `C99_magnetic_mean_value`, `C99_lipschitz`, `C99_forward`, `C99_central`, `C99_forward_tensor`, `C99_point_forward`, `C99_point_forward_tensor`, `C99_forward_double` | E, D | Taylor bounds of the point kernels along an axis, integrated over the prism; rounding from C98 |
| C100 | Interpreted and compiled runs | `C100_utils`, `C100_point_kernels`, `C100_point_gravity`, `C100_dipole`, `C100_prism_kernels`, `C100_prism_gravity`, `C100_prism_magnetic`, `C100_finite`, `C100_coincident_pot`, `C100_coincident_pot_double`, `C100_coincident_gravity`, `C100_coincident_dipole` | G, with signed zeros; D | second copy of the model with the non-raising division; a value that is not finite stays not finite through every later operation up to the result, by induction over the programs |
| C101 | Distances in double: exact along an axis | `C101_axis`, `C101_axis_exact`, `C101_ge` | D, also with Numba's powers | the rounded root of a rounded square is the number itself (half-ulp argument on the significand), monotonicity of rounding |
| C102 | Range of point and dipole functions | `C102_point`, `C102_dipole`, `C102_close` | D double | interval arithmetic in powers of two: every operation of a correctly rounded arithmetic keeps dyadic bounds on finite values and dyadic lower bounds on the distance; squares below 2^-1075 round to zero |
| C103 | Infinite coordinates and boundaries | `C103_gravity`, `C103_magnetic`, `C103_point`, `C103_dipole`, `C103_diag`, `C103_west`, `C103_east`, `C103_south`, `C103_north`, `C103_bottom`, `C103_top`, `C103_point_axis`, `C103_gradient` | G monotone; E | a vertex with an infinite shift makes the kernel NaN or head for one infinity decided by a coordinate shared with a vertex of the opposite sign, so the alternating sum clashes into NaN; the limits by the decay of the arctangent kernel |
| C104 | Unresolved thickness | `C104_gravity`, `C104_magnetic`, `C104_lost`, `C104_lost_magnetic` | G monotone, sign-symmetric; D | the vertical index is the innermost, so the eight terms cancel pairwise and each partial sum is exact; a double absorbs a disturbance of less than a quarter of its last place |
| C105 | Magnetic field at edges | `C105_diverges`, `C105_unbounded`, `C105_warranted`, `C105_parallel` | E | divergence of the logarithm (C95), continuity of the other off-diagonal component (C74), bounded arctangents |
| C106 | float32 mixed with float64 arguments | `C106_distance`, `C106_point_kernels`, `C106_point_gravity`, `C106_dipole`, `C106_prism_gravity`, `C106_prism_magnetic` | G every pair of arithmetics | copy of the model over two types (`Model/Mixed`), every difference is a float64, all later operations follow |
| C107 | accuracy with float32 arguments | `C107_distance`, `C107_point`, `C107_diagonal`, `C107_dipole`, `C107_third_order` | D IEEE binary32 and binary64 with Numba's powers | rounding factors carried through the typed operations |
| C108 | overflow with float32 coordinates | `C108_gradient`, `C108_wrong_sign`, `C108_third_order` | D IEEE binary32 and binary64 with Numba's powers | monotonicity of rounding gives the overflow, error bounds for the remaining terms |
| C109 | Fields as face integrals | `C109_acceleration`, `C109_tensor`, `C109_magnetic`, `C109_bound`, `C109_magnetic_bound` | E | the derivative of a slid prism's volume integral is the difference of its face integrals; continuity of the face potentials by dominated convergence extends the acceleration to all points; solid angle bound of each face |
| C110 | Prism accuracy with float32 arguments | `C110_kernel`, `C110_gravity`, `C110_magnetic`, `C110_kernel_single`, `C110_gravity_single`, `C110_newton_single`, `C110_magnetic_single`, `C110_field_single` | G/D | the error analysis of C56-C58 repeated for the mixed model: differences and squares in single precision, logarithms and arctangents in either, sums in double precision |
| C111 | Fields are components, float32 | `C111_dipole`, `C111_prism` | G | loop unrolling in the mixed model, commutativity of mixed products |
| C112 | float32 arguments: no exception in gravity and field | `C112_gravity`, `C112_magnetic_field`, `C112_single`, `C112_gradient_raises` | G any pair of monotone arithmetics / D float32+float64 | the divisors in `_safe_log` and `_safe_atan2` are non-zero in whichever type they are computed: port of C52 to the mixed model; the exception by direct evaluation of underflowing squares |
| C113 | float32 arguments: exact classification and NaN | `C113_predicates`, `C113_gravity_nan`, `C113_magnetic_nan`, `C113_gravity_single`, `C113_magnetic_single` | G any pair of arithmetics / D float32+float64 | comparisons are exact in either type; outside the singular set C110 gives a finite value |
| C114 | strongest attraction at the centres of the faces | `C114_sideways`, `C114_between`, `C114_beyond`, `C114_maximum` | E | the signs of the tensor (C97) as derivatives of the acceleration (C25), continuity across the faces (C69), mirror symmetry (C33) |
| C115 | far field of a prism to fourth order | `C115_potential`, `C115_acceleration`, `C115_cube` | E | volume integral symmetrised about the centre, fourth-order Taylor bound of 1/r along lines through the centre, second moments of the box |
| C116 | a patch of data determines field and prism | `C116_continuation`, `C116_gravity_unique`, `C116_visible`, `C116_magnetic_continuation`, `C116_magnetic_unique` | E | real-analytic along lines (holomorphic extension of the volume integral), identity theorem, the space outside two boxes is connected, singular behaviour at the corners (C95, C105) |
| C117 | point sources are determined by a patch of data | `C117_point`, `C117_prism_not_point`, `C117_dipole`, `C117_prism_not_dipole` | E | continuation as in C116 with a point as a degenerate box; homogeneity of the kernels along a ray excludes a limit at the source; corner singularities of the prism |
| C118 | one magnetic component determines the source | `C118_prism`, `C118_visible`, `C118_dipole`, `C118_prism_not_dipole` | E | the gradient is symmetric and the field decays: beyond the source one component fixes the others by integration from infinity; continuation (C116) carries this everywhere; then C116, C117 |
| C119 | errors in the coordinates | `C119_volume`, `C119_potential`, `C119_acceleration`, `C119_tensor`, `C119_magnetic`, `C119_gradient`, `C119_coordinates`, `C119_coordinates_off`, `C119_largest` | E | volume integrals over the symmetric difference; layer-cake formula and the volume of balls bound the integrals of 1/r and 1/r^2 over a set of given volume; translation invariance moves the error of the observation point to the prism |
| C120 | Bit symmetries, float32 | `C120_distance_exchange`, `C120_spherical_exchange`, `C120_exchange`, `C120_negate_mass`, `C120_negate_density`, `C120_dipole_exchange`, `C120_dipole_negate`, `C120_magnetization_negate`, `C120_point_mirror`, `C120_dipole_mirror`, `C120_rename` | G every pair of sign-symmetric arithmetics | sign lemmas for each typed operation (the conversion to float64 commutes with negation), then the proofs of C04, C10, C29, C60 and C80 in the mixed model |
| C121 | NaN in, NaN out, float32 | `C121_distance`, `C121_spherical`, `C121_point_coordinate`, `C121_point_mass`, `C121_dipole`, `C121_prism_gravity`, `C121_prism_magnetic` | G every pair of arithmetics | NaN lemmas for each typed operation and each branch of the kernels, at the first or last vertex of the loop |
| C122 | Translations and coincident points, float32 | `C122_distance`, `C122_point`, `C122_dipole`, `C122_prism_gravity`, `C122_prism_magnetic`, `C122_distance_zero`, `C122_point_raises`, `C122_dipole_raises` | G every pair of arithmetics | only differences and comparisons of coordinates enter; differences of equal numbers are exact zeros in either type |
| C123 | densities of many prisms determined by data | `C123_densities`, `C123_corners`, `C123_jacobian`, `C123_overlap` | E | unique continuation up to the last corner in lexicographic order, where exactly one prism is singular; a spanning set of evaluations contains a basis |
| C124 | magnetizations of many prisms determined by data | `C124_magnetizations`, `C124_corners`, `C124_points` | E | one component gives all by integrating from infinity; continuation to the extreme corner, where the field of one prism is unbounded |
| C125 | finite point-mass and dipole distributions determined by data | `C125_masses`, `C125_dipoles`, `C125_points` | E | the complement of finitely many points is connected; unique continuation; each source is singular where all others are continuous |
| C126 | Data determine exactly the distribution | `C126_density`, `C126_magnetization` | E | refine both models to one grid, add up over the cells, and use the independence of the cells (C123/C124) |
| C127 | Survey designs that resolve the densities | `C127_jacobian`, `C127_few`, `C127_dense`, `C127_open`, `C127_recovery`, `C127_noise` | E; D double | columns of the Jacobian as independent functions; greedy choice of points; continuity of the field outside |
| C128 | Magnetic gradient at edges | `C128_unbounded`, `C128_along`, `C128_parallel` | E | mean value theorem on rays where the field diverges (C105), the trace vanishes (C42), third-order kernels along the edge are continuous between its ends |
| C129 | float32 spherical distances | `C129_distance_spherical`, `C129_core`, `C129_nan`, `C129_nonzero` | E | port of the C63 error analysis to the mixed float32/float64 model with unit roundoff 2^-23; binary32 rounding of sin, cos of 4 and 8 degrees from Taylor enclosures |
| C130 | Two-dimensional limit of long prisms | `C130_gravity`, `C130_tensor`, `C130_magnetic`, `C130_limit` | E | volume integrals C22, C23, C41 with the strike integrated first (Fubini), antiderivatives of 1/r^3 and 1/r^5 along the strike, tail of one end bounded by 1/(2L^2); `Spec/TwoD.lean` holds the textbook line fields |
| C131 | User-guide programs with float32 arrays | `C131_forward`, `C131_jacobian`, `C131_returns`, `C131_newton`, `C131_product`, `C131_moderate`, `C131_product_moderate` | E | loop invariants for the float64 accumulator; race freedom and termination as in C84; C110 per prism and the summation error of C86; the density enters in two float64 products, so the kernel errors cancel in the product |
| C132 | Arrays whose lengths do not fit | `C132_unpack`, `C132_empty`, `C132_fits`, `C132_raises`, `C132_returns`, `C132_compiled`, `C132_columns`, `C132_short` | G every monotone arithmetic | interpreted loop in an error monad with four exceptions; first-error lemma for nested loops; compiled loops on arrays extended by arbitrary memory (C-contiguous prisms) |
| C133 | integrals over planes | `C133_point`, `C133_prism`, `C133_part`, `C133_nested`, `C133_kernel`, `C133_tensor`, `C133_magnetic` | E | the plane integral of 1/r^3 is 2 pi / distance (two one-dimensional integrals); higher kernels are in-plane derivatives of decaying ones or, by Laplace, sums of such; Fubini over plane and prism, cutting the prism along the plane |
| C134 | Upward continuation | `C134_point`, `C134_kernel`, `C134_prism`, `C134_dipole`, `C134_magnetic`, `C134_weights`, `C134_error`, `C134_largest`, `C134_unique`, `C134_magnetic_unique` | E | Poisson integral of the half-space: harmonicity by differentiation under the integral, boundary values by an approximate-identity argument with a folded uniform continuity, maximum principle for the difference; tangential derivatives and the trace give the higher orders |
| C135 | Equivalent layers | `C135_point`, `C135_prism`, `C135_dipole`, `C135_magnetic` | E | the normal derivative of the layer's potential is the Poisson integral of C134; both potentials vanish at infinity; the other components by differentiation under the integral |
| C136 | Fields in the wavenumber domain | `C136_point`, `C136_prism`, `C136_closed`, `C136_continuation`, `C136_tensor`, `C136_magnetic` | E | the Poisson integral of a plane wave is the wave times a factor of the height; harmonicity turns into F'' = k^2 F, boundedness and the boundary value leave exp(-|k| h); tensor by differentiating under the integral, across the plane by integrating back from infinity; prisms by Fubini |
| C137 | Interpreted calls on built-in floats | `C137_distance`, `C137_spherical`, `C137_spherical_core`, `C137_point_gravity`, `C137_dipole`, `C137_point_kernels`, `C137_point_kernels3`, `C137_prism_kernels`, `C137_prism_gravity`, `C137_prism_magnetic` | G every arithmetic with rnd 0 = 0, pi ≠ 0 | fifth copy of the model (`Model/Python`) with tagged scalars and two exceptions; relation between compiled and interpreted computations preserved by every operation, loop and branch; results that are not finite stay so |
| C138 | When interpreted calls raise | `C138_distance`, `C138_spherical`, `C138_point_gravity`, `C138_dipole`, `C138_prism_gravity`, `C138_prism_tensor`, `C138_prism_magnetic`, `C138_distance_double`, `C138_point_double`, `C138_dipole_double`, `C138_prism_gravity_double`, `C138_prism_magnetic_double`, `C138_example_overflow`, `C138_zero_sign`, `C138_zero_sign_example`, `C138_zero_distance` | G, D | a loop that returns has computed every square; monotone rounding bounds the differences |
| C139 | Sensitivity matrix, arrays of any lengths | `C139_returns`, `C139_rows`, `C139_fits`, `C139_short`, `C139_narrow`, `C139_product` | G every monotone arithmetic | C85 for the arrays as the compiled loop sees them; offsets in a C-contiguous array; NaN propagation (C48) |
| C140 | Surveys of finite extent | `C140_point`, `C140_prism`, `C140_enough`, `C140_upward` | E | polar coordinates for the disc around the foot; monotonicity of the flux in the region and Fubini with the volume integral (C22); the weight of the outside of a disc in the Poisson integral (C134) |
| C141 | Depth and mass rules | `C141_prisms`, `C141_points`, `C141_depth`, `C141_sharp`, `C141_sharp_sideways` | E | inequalities between the kernels of one source, integrated over the prism (C21-C23) and added up; the rules are closed under sums because the normal acceleration has one sign |
| C142 | Equivalent sources | `C142_definite`, `C142_unique`, `C142_kernel`, `C142_dipole`, `C142_coincident` | E | upward continuation (C134) from the plane half way makes the quadratic form of the accelerations an integral of a square, zero only without sources (C125); the potentials are its integral over the depth, the gradients its derivative, negative because the form is midpoint convex and decays |
| C143 | first moments on a plane | `C143_point`, `C143_prisms`, `C143_centroid`, `C143_tensor`, `C143_dipole`, `C143_magnetic` | E | the offset splits at the foot of the source; the odd part vanishes over growing discs (compared with a disc around the foot), the mixed kernels reduce to absolutely convergent integrals, prisms by Fubini and dominated convergence |
| C144 | Interpreted calls with integers | `C144_distance`, `C144_spherical`, `C144_spherical_core`, `C144_point_gravity`, `C144_dipole`, `C144_point_kernels`, `C144_point_kernels3`, `C144_prism_kernels`, `C144_prism_kernels3`, `C144_prism_gravity`, `C144_prism_magnetic`, `C144_prism_gradient`, `C144_distance_double`, `C144_point_double`, `C144_dipole_double`, `C144_prism_gravity_double`, `C144_prism_magnetic_double`, `C144_prism_gradient_double`, `C144_no_wrap` | G, D | relation between compiled floats and interpreted scalars carrying a bound on every integer, pushed through each function body |
| C145 | The JIT switch does not change integer calls | `C145_distance`, `C145_spherical`, `C145_point_gravity`, `C145_dipole`, `C145_prism_gravity`, `C145_prism_magnetic`, `C145_prism_gradient` | G | composition of C89 (typed compiled calls) and C144 (interpreted calls) |
| C146 | Bodies of variable density | `C146_exact`, `C146_potential`, `C146_acceleration`, `C146_tensor`, `C146_magnetic`, `C146_sampled`, `C146_convergence` | E | sum of indicator integrals, Lebesgue integral bound of the difference, the ball bounds of C119; a.e. point is in one cell only |
| C147 | Integers without Numba (np.int64) | `C147_utils`, `C147_point_kernels`, `C147_point_gravity`, `C147_dipole`, `C147_prism_kernels`, `C147_prism_gravity`, `C147_prism_magnetic`, `C147_finite`, `C147_ints_point_gravity`, `C147_ints_prism_gravity`, `C147_ints_prism_magnetic`, `C147_ints_prism_gradients`, `C147_ints_dipole`, `C147_ints_double`, `C147_overflow` | G; E and D for overflow | third copy of the typed model (`Model/NpInt`, generated by `tools/npint.py`) with NumPy's non-raising division; the comparisons with 0 that guard the branches are exact because no non-zero integer rounds to 0; a value that is not finite stays not finite up to the result; composition with C89 |
| C148 | Unsigned integer coordinates | `C148_distance`, `C148_gravity`, `C148_third`, `C148_dipole`, `C148_acceleration`, `C148_wrong`, `C148_above`, `C148_double` | G ExactInts; E for the wrong values; D | copy of the model with uint64 scalars (`Model/Unsigned`, generated by `tools/unsigned.py`); every integer expression is congruent modulo 2^64 to the signed one, and equal to it once it is signed; composition with C89 |

## 4. Findings about the code

1. `point.gravity_pot/e/n/u` docstrings print the distance with the wrong exponent; the code is right (`C09_docstring_pot_wrong`,
   `C09_docstring_e_wrong` show that the printed formulas are not what is computed).
2. A prism with `west = east` and an observation point on it: `gravity_ee` returns 4πGρ instead of 0, likewise nn, uu
   (`C37_flat_face`): the face correction does not test for zero thickness.
3. Underflow: for offsets of about 2^-600 `prism.magnetic_ee` etc. raise `ZeroDivisionError` at points off the prism
   (`C52_gradient_raises`, in IEEE double): the guard tests the coordinates, the denominator contains their squares.
   By the same mechanism `_safe_log` may return -inf and the second-order kernels NaN off the edges. C56-C58 show
   that none of this happens for lengths of 1e-24..1e24.
4. `distance_spherical(p, q)` and `(q, p)` can differ only when doubling a radius overflows (hypothesis of `C04_distance_spherical`).
5. `distance_spherical(p, p)` is NaN, not 0, in double precision at latitudes such as 8, 12 and 82 degrees (`C62_nan` proves it for 8
   degrees, every longitude and radius): the computed cosine of the angle exceeds 1 and the radicand is negative. C63 shows
   that this is confined to points closer than 2^-22 of the radius (1.5 m on the Earth). C02's "never NaN" is about exact arithmetic.
6. Docstrings: `_kernel_iij` example for `kernel_nuu` has its arguments misprinted; `distance_spherical_core` says degrees in one place
   and radians in another (the code takes radians).
7. Integer coordinates (Python ints or integer arrays) make Numba compute parts of the third-order kernels in int64, which
   overflows silently: `prism.magnetic_ee` with integer coordinates raises `ZeroDivisionError` for a prism between 1 m and 65536 m
   seen from the origin, where the same call with floats returns a number (`C89_overflow`), and `point.kernel_eee` has the wrong sign
   at 2^21 m (`C89_overflow_point`). Up to 2048 m (gradients), 2^24 m (everything of lower order) the results are bit for bit those
   for floats (`C89_double`).
8. With exchanged boundaries (west > east) no point counts as interior, so the magnetic functions return numbers instead of NaN
   there (C93).
9. Compiled calls raise `ZeroDivisionError` at singular points where interpreted calls (`NUMBA_DISABLE_JIT=1`) return infinity or
   NaN; on `np.float64` arguments there is no other difference but the sign of a zero (C100, C137, C138_zero_sign). The test suite
   encodes this for `gravity_pot` only. On built-in floats interpreted calls raise `OverflowError` where the square of a coordinate
   difference overflows, compiled calls return infinity or zero (C138).
10. Distinct points closer than 2^-538 m in every coordinate raise `ZeroDivisionError` in all point mass and dipole functions: the
   squares of the differences underflow (C102). No docstring mentions an error for points that do not coincide.
11. Precision is lost with distance without any warning: at 2^55 times the prism's altitudes all prism functions return exactly
   0.0 in double precision where the exact values are not zero (C104; C98 bounds the error in between).
12. The magnetic functions return NaN on all edges; on an edge parallel to the magnetization the field has a finite limit (C105).
13. With float32 coordinates `distance**5` overflows beyond 53 000 km and `distance**7` beyond 328 km: the diagonal of the gravity
    gradient gets the wrong sign along the line of sight, the third-order point kernels lose their leading term (C108).
14. On the edges of a prism the components of the magnetic gradient are NaN although some of them have finite limits there
    (C128_along, C128_parallel); C112_gradient_raises: with float32 arguments they can raise `ZeroDivisionError`.
15. With float32 angles, the spherical distance from a point to itself is NaN at latitude 4° and more than 2 km (on the Earth) at
    latitude 8° (C129_nan, C129_nonzero); float32 distances are only meaningful above about 50 km (C129_distance_spherical).
16. Comparing `jacobian @ densities` with the forward model (as the user guide does) cannot reveal the single-precision errors of
    float32 arrays: both sides have the same ones and agree to double precision (C131_product).
17. The compiled loops of the user guide do not check lengths (Numba's default): with fewer densities than prisms they return
    numbers computed from whatever is in memory behind the array, possibly NaN everywhere, where the interpreted loop raises
    `IndexError` (C132_short); columns after the sixth are silently ignored (C132_columns).
18. `build_jacobian` of the user guide checks no lengths either: points without northing or upward coordinate get rows computed from
    what is in memory, with five columns the top of a prism is silently the west boundary of the next one (C139). A wrong number of
    densities, which the compiled forward loop does not notice, raises `ValueError` in `jacobian @ densities`.
19. Interpreted calls with elements of integer arrays (`np.int64`) wrap around silently like compiled ones, and where compiled code raises
    because a wrapped denominator is 0 they return infinity or NaN (C147); with Python ints the same calls are right (C144).
20. With unsigned integer coordinates the acceleration of a point mass is silently wrong, by a factor of about 10^18 and with the wrong sign, as
    soon as the observation point is east of, north of or above the mass: `-(easting_p - easting_q)` is computed modulo 2^64 (C148). The
    potential, the tensor and the distance are right.

## 5. Tests of the theorems

`seeded/LOG.jsonl`: edits of the model (each in a scratch copy), the claim they falsify, and the theorems whose proofs then fail.
Because properties are proved through shared evaluation lemmas (`Lemmas/*Eval`, `Kernels`), a wrong program usually fails there first
and every property theorem that depends on it is then not built; where only rounding differs, the bit-level and error theorems fail.

`Props/Witness.lean`, `Props/Witness2.lean`, `Props/Witness3.lean`, `Props/Witness4.lean`, `Props/Witness5.lean` and `Props/Witness6.lean` apply the theorems to concrete data (one prism, one observation point, one source, the
demonstration arrays of the user guide, built-in floats): a hypothesis that no call can meet would not be dischargeable there. Writing
them found one: in three of the C138 theorems a bound variable had the name of an argument, `∀ a ∈ [a, …], Moderate a`, which is false
for every call; these now read `∀ x ∈ [a, …], Moderate x` and are applied to numbers.
