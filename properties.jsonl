{"id": "C01", "title": "distance_cartesian is the Euclidean metric", "statement": "distance_cartesian never raises and returns the Euclidean distance between the two points: it is non-negative, zero exactly for coincident points, symmetric, and satisfies the triangle inequality.", "quantifier": "all pairs (triples, for the triangle inequality) of points with real coordinates, exact arithmetic", "why_tests_cant": "the tests check four literal pairs of points; a metric law ranges over all pairs and triples of real coordinates", "anchors": ["src/choclo/utils.py:distance_cartesian"]}
{"id": "C02", "title": "distance_spherical is the Euclidean distance of the embedded points", "statement": "For longitude/latitude in degrees and radius, distance_spherical returns the Euclidean distance between the Cartesian points (r cos(lat) cos(lon), r cos(lat) sin(lon), r sin(lat)); it never raises, is never NaN, and does not change when any longitude is shifted by 360 degrees.", "quantifier": "all real longitudes, latitudes and radii of both points, exact arithmetic", "why_tests_cant": "the argument of the square root could be negative, or an angle left in degrees, for inputs that no test samples", "anchors": ["src/choclo/utils.py:distance_spherical", "src/choclo/utils.py:distance_spherical_core"]}
{"id": "C03", "title": "distance_spherical_core outputs", "statement": "Called with the cosines and sines of two latitudes, distance_spherical_core returns the same distance as distance_spherical, the cosine of the angle between the two position directions (always in [-1, 1]) and the cosine of the longitude difference.", "quantifier": "all real longitudes (radians), latitudes and radii, exact arithmetic", "why_tests_cant": "tests check the distance on a handful of points and never the bound on the returned cosine", "anchors": ["src/choclo/utils.py:distance_spherical_core"]}
{"id": "C04", "title": "Distances do not depend on the order of the points, to the last bit", "statement": "distance_cartesian(p, q) and distance_cartesian(q, p) return the identical value, and so do distance_spherical(p, q) and distance_spherical(q, p) when doubling the radii is exact, in any sign-symmetric floating-point arithmetic.", "quantifier": "all arguments including NaN and infinities, every rounding function that commutes with negation", "why_tests_cant": "bit-for-bit identity over all floating-point inputs cannot be sampled", "anchors": ["src/choclo/utils.py:distance_cartesian", "src/choclo/utils.py:distance_spherical"]}
{"id": "C05", "title": "Point kernels are successive partial derivatives of 1/r", "statement": "kernel_pot is 1/r; kernel_e, kernel_n, kernel_u are its partial derivatives with respect to the observation point; the six second-order kernels are the partial derivatives of the first-order ones and the ten third-order kernels those of the second-order ones (mixed derivatives agree in every order), when distance is the distance between the points.", "quantifier": "all pairs of distinct points with real coordinates; exact arithmetic", "why_tests_cant": "tests compare with finite differences at a few points, within a tolerance", "anchors": ["src/choclo/point/_kernels.py:kernel_pot", "src/choclo/point/_kernels.py:kernel_e", "src/choclo/point/_kernels.py:kernel_ee", "src/choclo/point/_kernels.py:kernel_eee", "src/choclo/point/_kernels.py:kernel_enu"]}
{"id": "C06", "title": "Point kernels satisfy Laplace's equation", "statement": "kernel_ee + kernel_nn + kernel_uu = 0, and the three traces of third-order kernels (eee+nne+uue, een+nnn+uun, eeu+nnu+uuu) vanish, for distinct points.", "quantifier": "all pairs of distinct points with real coordinates; exact arithmetic", "why_tests_cant": "an identity over all pairs of points; tests sample a grid with tolerance", "anchors": ["src/choclo/point/_kernels.py:kernel_ee", "src/choclo/point/_kernels.py:kernel_nn", "src/choclo/point/_kernels.py:kernel_uu", "src/choclo/point/_kernels.py:kernel_eee", "src/choclo/point/_kernels.py:kernel_nne", "src/choclo/point/_kernels.py:kernel_uue"]}
{"id": "C07", "title": "Point gravity raises exactly at the source", "statement": "Each of the ten point.gravity_* functions raises ZeroDivisionError when the observation point is the source point and returns a finite number for every other observation point and mass.", "quantifier": "all real observation points, source points and masses; exact arithmetic", "why_tests_cant": "that no other input divides by zero or yields a non-finite number is a universal statement", "anchors": ["src/choclo/point/_forward.py:gravity_pot", "src/choclo/point/_forward.py:gravity_ee", "src/choclo/point/_kernels.py:kernel_pot"]}
{"id": "C08", "title": "Point gravity: acceleration is the gradient of the potential, tensor the gradient of the acceleration", "statement": "gravity_e/n/u are the partial derivatives of gravity_pot, and gravity_ee, gravity_en, ... the partial derivatives of gravity_e/n/u with respect to the observation coordinates (mixed components equal both mixed derivatives).", "quantifier": "all observation points different from the source, all masses; exact arithmetic", "why_tests_cant": "differentiability and the value of a derivative at every point cannot be sampled", "anchors": ["src/choclo/point/_forward.py:gravity_pot", "src/choclo/point/_forward.py:gravity_e", "src/choclo/point/_forward.py:gravity_ee", "src/choclo/point/_forward.py:gravity_en"]}
{"id": "C09", "title": "Point gravity follows Newton's law", "statement": "gravity_pot = G m / d, the acceleration vector is (G m / d^2) times the unit vector from the observation point to the source; the docstring formulas with d^2 in place of d (potential) and d^3 (components) are not what is computed.", "quantifier": "all observation points different from the source, all masses; exact arithmetic", "why_tests_cant": "universal over points and masses", "anchors": ["src/choclo/point/_forward.py:gravity_pot", "src/choclo/point/_forward.py:gravity_e", "src/choclo/point/_forward.py:gravity_n", "src/choclo/point/_forward.py:gravity_u", "src/choclo/constants.py:GRAVITATIONAL_CONST"]}
{"id": "C10", "title": "Point gravity: linearity in mass and exchange parity", "statement": "Every point.gravity_* is linear in the mass; exchanging observation and source point negates the acceleration components and leaves the potential and the tensor unchanged, and negating the mass negates every result - the exchange and sign laws hold to the last bit in any sign-symmetric floating-point arithmetic.", "quantifier": "all points and masses; for the bit-level laws all floating-point arguments and all sign-symmetric roundings", "why_tests_cant": "bit-for-bit laws over all inputs", "anchors": ["src/choclo/point/_forward.py:gravity_pot", "src/choclo/point/_forward.py:gravity_e", "src/choclo/point/_forward.py:gravity_ee", "src/choclo/point/_kernels.py:kernel_e"]}
{"id": "C11", "title": "Point gravity: translation invariance and homogeneity", "statement": "Translating both points leaves every point.gravity_* unchanged; scaling all coordinates by l > 0 scales the potential by 1/l, accelerations by 1/l^2 and tensor components by 1/l^3.", "quantifier": "all pairs of distinct points, translations, scale factors l > 0; exact arithmetic", "why_tests_cant": "universal over translations and scales", "anchors": ["src/choclo/point/_forward.py:gravity_pot", "src/choclo/point/_forward.py:gravity_e", "src/choclo/point/_forward.py:gravity_ee"]}
{"id": "C12", "title": "Point gravity is rotation equivariant", "statement": "For every orthogonal transformation of the coordinates the potential is invariant, the acceleration vector rotates as a vector and the gradient tensor as a rank-2 tensor.", "quantifier": "all pairs of distinct points, all orthogonal 3x3 matrices, all masses; exact arithmetic", "why_tests_cant": "a continuum of rotations; tests do not rotate at all", "anchors": ["src/choclo/point/_forward.py:gravity_pot", "src/choclo/point/_forward.py:gravity_e", "src/choclo/point/_forward.py:gravity_ee", "src/choclo/point/_forward.py:gravity_en"]}
{"id": "C13", "title": "Dipole: magnetic_field equals the three component functions, to the last bit", "statement": "dipole.magnetic_field returns exactly the triple (magnetic_e, magnetic_n, magnetic_u): same exception behaviour and bit-identical values.", "quantifier": "all arguments (including NaN, infinities, coincident points) in every floating-point arithmetic whatsoever", "why_tests_cant": "bit-for-bit agreement of separately coded functions over all inputs", "anchors": ["src/choclo/dipole/_forward.py:magnetic_field", "src/choclo/dipole/_forward.py:magnetic_e", "src/choclo/dipole/_forward.py:magnetic_n", "src/choclo/dipole/_forward.py:magnetic_u"]}
{"id": "C14", "title": "Dipole functions raise exactly at the dipole", "statement": "dipole.magnetic_* raise ZeroDivisionError when the observation point is the dipole location and return finite numbers everywhere else.", "quantifier": "all real points and moments; exact arithmetic", "why_tests_cant": "universal over inputs", "anchors": ["src/choclo/dipole/_forward.py:magnetic_field"]}
{"id": "C15", "title": "Dipole field is minus the gradient of the scalar potential and the point tensor applied to the moment", "statement": "The dipole field equals -grad of (mu0/4pi) m.r/r^3 and equals mu0/4pi times the matrix of point second-order kernels applied to the moment (so that it is consistent with choclo.point).", "quantifier": "all observation points different from the dipole, all moments; exact arithmetic", "why_tests_cant": "derivative statement at every point", "anchors": ["src/choclo/dipole/_forward.py:magnetic_field", "src/choclo/point/_kernels.py:kernel_ee", "src/choclo/point/_kernels.py:kernel_en"]}
{"id": "C16", "title": "Dipole field is divergence free and curl free", "statement": "Away from the dipole the partial derivatives of the field components exist, their trace is zero and the cross derivatives agree.", "quantifier": "all observation points different from the dipole, all moments; exact arithmetic", "why_tests_cant": "derivative statement at every point", "anchors": ["src/choclo/dipole/_forward.py:magnetic_field"]}
{"id": "C17", "title": "Dipole field: linearity, parity and reciprocity", "statement": "The field is linear in the moment, invariant under exchanging observation point and dipole, unchanged by translation, scales as 1/l^3, and m2 . B(m1 at q, seen from p) = m1 . B(m2 at p, seen from q).", "quantifier": "all distinct points and all moments; exact arithmetic", "why_tests_cant": "universal algebraic laws", "anchors": ["src/choclo/dipole/_forward.py:magnetic_field", "src/choclo/dipole/_forward.py:magnetic_e"]}
{"id": "C18", "title": "Prism point classification", "statement": "is_interior_point holds exactly on the topological interior of the closed prism, is_point_on_edge exactly on the closed edges (points of the prism with at least two coordinates on a boundary; the union of the three directional edge predicates), the face predicates exactly on the relative interiors of the east, north and top faces; for a proper prism interior, edges and the six open faces partition the closed prism.", "quantifier": "all points and all prism boundaries", "why_tests_cant": "equality of sets of points", "anchors": ["src/choclo/prism/_utils.py:is_interior_point", "src/choclo/prism/_utils.py:is_point_on_edge", "src/choclo/prism/_utils.py:is_point_on_east_face", "src/choclo/prism/_utils.py:is_point_on_north_face", "src/choclo/prism/_utils.py:is_point_on_top_face"]}
{"id": "C19", "title": "Prism kernels: defined everywhere, NaN exactly on the vertex, documented value elsewhere", "statement": "With radius = sqrt(e^2+n^2+u^2): no prism kernel ever raises; the potential and first-order kernels always return a finite number; the second- and third-order kernels return NaN iff the shifted vertex is the origin and otherwise a finite number, which equals the documented closed form (ln(x+r) where x+r>0, its regularisation -ln(-2x) on the negative half-axis, arctan quotients, rational functions).", "quantifier": "all real shifted coordinates; exact arithmetic", "why_tests_cant": "branch coverage of tests does not show absence of division by zero / log of zero for every input", "anchors": ["src/choclo/prism/_kernels.py:kernel_pot", "src/choclo/prism/_kernels.py:kernel_ee", "src/choclo/prism/_kernels.py:kernel_en", "src/choclo/prism/_kernels.py:kernel_eee", "src/choclo/prism/_kernels.py:_safe_log", "src/choclo/prism/_kernels.py:_safe_atan2", "src/choclo/prism/_kernels.py:_kernel_iii", "src/choclo/prism/_kernels.py:_kernel_iij"]}
{"id": "C20", "title": "Logarithmic prism kernels are even and strictly monotone", "statement": "kernel_en, kernel_eu and kernel_nu are even in the two transverse coordinates, strictly increase with the transverse distance for any fixed axial coordinate, and strictly increase with the axial coordinate for fixed non-zero transverse coordinates.", "quantifier": "all real shifted coordinates off the axis", "why_tests_cant": "monotonicity is tested on 1001 samples of an interval", "anchors": ["src/choclo/prism/_kernels.py:kernel_en", "src/choclo/prism/_kernels.py:kernel_eu", "src/choclo/prism/_kernels.py:kernel_nu", "src/choclo/prism/_kernels.py:_safe_log"]}
{"id": "C21", "title": "Prism potential is the volume integral of point potentials", "statement": "prism.gravity_pot never raises, is always finite, and equals the integral over the prism of G density / distance, i.e. of choclo.point's potential of the mass elements.", "quantifier": "all observation points (outside, on the boundary, on edges and vertices, inside), all prisms with ordered boundaries, all densities; exact arithmetic", "why_tests_cant": "an integral identity over a continuum of geometries including all singular configurations", "anchors": ["src/choclo/prism/_gravity.py:gravity_pot", "src/choclo/prism/_gravity.py:_evaluate_kernel", "src/choclo/prism/_kernels.py:kernel_pot"]}
{"id": "C22", "title": "Prism acceleration is the volume integral of point accelerations", "statement": "prism.gravity_e/n/u never raise, are always finite and equal the integral over the prism of G density (q - p)/|q - p|^3, at every observation point.", "quantifier": "all observation points including boundary and interior, all prisms with ordered boundaries, all densities; exact arithmetic", "why_tests_cant": "integral identity including singular configurations", "anchors": ["src/choclo/prism/_gravity.py:gravity_e", "src/choclo/prism/_gravity.py:gravity_n", "src/choclo/prism/_gravity.py:gravity_u", "src/choclo/prism/_kernels.py:kernel_e", "src/choclo/prism/_kernels.py:kernel_n", "src/choclo/prism/_kernels.py:kernel_u"]}
{"id": "C23", "title": "Prism tensor is the volume integral of point tensors outside", "statement": "At every observation point outside the closed prism each of prism.gravity_ee, ..., gravity_nu is the integral over the prism of the corresponding point.gravity_* of the mass elements.", "quantifier": "all observation points outside the closed prism (including the planes of its faces and the lines of its edges), all prisms, all densities; exact arithmetic", "why_tests_cant": "integral identity including the degenerate planes and lines", "anchors": ["src/choclo/prism/_gravity.py:gravity_ee", "src/choclo/prism/_gravity.py:gravity_nn", "src/choclo/prism/_gravity.py:gravity_uu", "src/choclo/prism/_gravity.py:gravity_en", "src/choclo/prism/_gravity.py:gravity_eu", "src/choclo/prism/_gravity.py:gravity_nu"]}
{"id": "C24", "title": "Prism acceleration is the gradient of the prism potential everywhere", "statement": "gravity_e, gravity_n, gravity_u are the partial derivatives of gravity_pot with respect to easting, northing, upward at every observation point.", "quantifier": "all observation points (no exception: also faces, edges, vertices, interior), all boundaries, all densities; exact arithmetic", "why_tests_cant": "finite differences at a few points with tolerance are what tests do", "anchors": ["src/choclo/prism/_gravity.py:gravity_pot", "src/choclo/prism/_gravity.py:gravity_e", "src/choclo/prism/_gravity.py:gravity_n", "src/choclo/prism/_gravity.py:gravity_u"]}
{"id": "C25", "title": "Prism tensor components are the partial derivatives of the acceleration", "statement": "Diagonal components: derivative of the corresponding acceleration component wherever the point is not on the closed pair of faces normal to that axis (interior included), and (for a prism of positive thickness along that axis) the one-sided outer derivative on those open faces. Off-diagonal components: both mixed derivatives wherever the component is not NaN.", "quantifier": "all observation points where the component is documented to be defined, all prisms with ordered boundaries, all densities; exact arithmetic", "why_tests_cant": "derivative statement at every point including planes of faces and lines of edges", "anchors": ["src/choclo/prism/_gravity.py:gravity_ee", "src/choclo/prism/_gravity.py:gravity_nn", "src/choclo/prism/_gravity.py:gravity_uu", "src/choclo/prism/_gravity.py:gravity_en", "src/choclo/prism/_gravity.py:gravity_eu", "src/choclo/prism/_gravity.py:gravity_nu"]}
{"id": "C26", "title": "Prism tensor: NaN exactly at the documented singular points", "statement": "gravity_ee/nn/uu return NaN exactly on vertices and edges perpendicular to their axis, gravity_en/eu/nu exactly on vertices and edges parallel to the remaining axis; everywhere else they return a finite number; none of them ever raises.", "quantifier": "all observation points, all proper prisms, all densities; exact arithmetic", "why_tests_cant": "'nowhere else' and 'never raises' are universal; NaN comes from two independent places (edge predicates and zero radius)", "anchors": ["src/choclo/prism/_gravity.py:gravity_ee", "src/choclo/prism/_gravity.py:gravity_nn", "src/choclo/prism/_gravity.py:gravity_uu", "src/choclo/prism/_gravity.py:gravity_en", "src/choclo/prism/_gravity.py:gravity_eu", "src/choclo/prism/_gravity.py:gravity_nu", "src/choclo/prism/_utils.py:is_point_on_easting_edge"]}
{"id": "C27", "title": "Prism gravity satisfies Laplace's and Poisson's equations", "statement": "Off the edges gravity_ee + gravity_nn + gravity_uu is 0 outside the prism and on its faces, and -4 pi G density in its interior.", "quantifier": "all observation points off the edges, all proper prisms, all densities; exact arithmetic", "why_tests_cant": "tests check the sum at a few points; the arctan branches make the identity depend on the sign pattern of eight vertices", "anchors": ["src/choclo/prism/_gravity.py:gravity_ee", "src/choclo/prism/_gravity.py:gravity_nn", "src/choclo/prism/_gravity.py:gravity_uu", "src/choclo/prism/_kernels.py:_safe_atan2"]}
{"id": "C28", "title": "Diagonal tensor components on a face are the limit from outside", "statement": "At a point of any of the six open faces gravity_ee, gravity_nn, gravity_uu return the limit of their values at exterior points approaching it.", "quantifier": "all points of the six open faces, all proper prisms, all densities, every approach from the exterior; exact arithmetic", "why_tests_cant": "a limit statement", "anchors": ["src/choclo/prism/_gravity.py:gravity_ee", "src/choclo/prism/_gravity.py:gravity_nn", "src/choclo/prism/_gravity.py:gravity_uu", "src/choclo/prism/_utils.py:is_point_on_east_face"]}
{"id": "C29", "title": "Prism gravity is linear in density", "statement": "Every prism.gravity_* is additive and homogeneous in density, with the same NaN set for every density; negating the density negates the result to the last bit in any sign-symmetric arithmetic.", "quantifier": "all observation points, prisms, densities", "why_tests_cant": "universal over inputs, including the NaN cases", "anchors": ["src/choclo/prism/_gravity.py:gravity_pot", "src/choclo/prism/_gravity.py:gravity_ee"]}
{"id": "C30", "title": "Prism gravity is additive under splitting a prism", "statement": "Cutting a prism by a plane perpendicular to an axis and adding the results of the two parts gives the result for the whole, for potential and accelerations at every point, for tensor components at every point that is off the cutting plane and not singular; on the interface, the diagonal component normal to the cut exceeds the value for the whole by exactly 4 pi G density.", "quantifier": "all observation points, all prisms, all cuts, all densities; exact arithmetic", "why_tests_cant": "universal over geometries; includes the face-correction logic", "anchors": ["src/choclo/prism/_gravity.py:gravity_pot", "src/choclo/prism/_gravity.py:gravity_e", "src/choclo/prism/_gravity.py:gravity_ee", "src/choclo/prism/_gravity.py:_evaluate_kernel"]}
{"id": "C31", "title": "Prism fields are translation invariant", "statement": "Translating the observation point and the prism together leaves every prism.gravity_* and prism.magnetic_* result (including NaN) unchanged.", "quantifier": "all observation points, prisms, translations, densities, magnetizations; exact arithmetic", "why_tests_cant": "universal over translations", "anchors": ["src/choclo/prism/_gravity.py:gravity_pot", "src/choclo/prism/_magnetic.py:magnetic_field"]}
{"id": "C32", "title": "Prism fields are consistent under relabelling of axes", "statement": "Permuting the three axes (coordinates, boundaries, magnetization) maps the component functions into one another: e.g. gravity_n is gravity_e with easting and northing exchanged, gravity_uu is gravity_ee with easting and upward exchanged, including NaN; same for magnetic components and gradients.", "quantifier": "all observation points, prisms, densities, magnetizations; exact arithmetic", "why_tests_cant": "would catch copy/paste errors between the components at inputs not sampled", "anchors": ["src/choclo/prism/_gravity.py:gravity_e", "src/choclo/prism/_gravity.py:gravity_n", "src/choclo/prism/_gravity.py:gravity_ee", "src/choclo/prism/_magnetic.py:magnetic_e", "src/choclo/prism/_magnetic.py:magnetic_n", "src/choclo/prism/_magnetic.py:magnetic_nn"]}
{"id": "C33", "title": "Prism gravity has the mirror symmetry of the prism", "statement": "Reflecting observation point and prism in an axis leaves the potential unchanged and multiplies each component by -1 per occurrence of that axis in its name, including points on faces and NaN points.", "quantifier": "all observation points, prisms, densities; exact arithmetic", "why_tests_cant": "east/west, north/south and top/bottom faces are coded asymmetrically (only one of each pair gets the 4 pi term); tests sample a few points", "anchors": ["src/choclo/prism/_gravity.py:gravity_pot", "src/choclo/prism/_gravity.py:gravity_e", "src/choclo/prism/_gravity.py:gravity_ee", "src/choclo/prism/_gravity.py:gravity_en"]}
{"id": "C34", "title": "Prism fields scale correctly", "statement": "Scaling all lengths by l > 0 multiplies the potential by l^2, accelerations by l, tensor components and magnetic field components by 1 and magnetic gradients by 1/l, including NaN: choice of length unit does not matter.", "quantifier": "all observation points, prisms, scale factors; exact arithmetic", "why_tests_cant": "logarithms of dimensional quantities only cancel after summation over vertices; the regularised branch -ln(-2x) scales with opposite sign", "anchors": ["src/choclo/prism/_gravity.py:gravity_pot", "src/choclo/prism/_gravity.py:gravity_en", "src/choclo/prism/_magnetic.py:magnetic_en"]}
{"id": "C35", "title": "Prism gravity is attractive", "statement": "For positive density and a proper prism: the potential is positive everywhere, and at every observation point the acceleration component along each axis has the sign of (centre of the prism - observation point) along that axis: negative above the centre plane (in particular on and above the top), positive below it, zero on it; at the centre all components vanish.", "quantifier": "all observation points and proper prisms, all positive densities; exact arithmetic", "why_tests_cant": "sign statement over a continuum", "anchors": ["src/choclo/prism/_gravity.py:gravity_pot", "src/choclo/prism/_gravity.py:gravity_e", "src/choclo/prism/_gravity.py:gravity_u"]}
{"id": "C36", "title": "Prism potential is bounded by point potentials of the total mass", "statement": "For non-negative density, if every point of the prism is at distance at least d1 > 0 and at most d2 from the observation point, then G M / d2 <= gravity_pot <= G M / d1 with M the prism mass; similarly |g| <= G M / d1^2.", "quantifier": "all exterior observation points, prisms, densities; exact arithmetic", "why_tests_cant": "inequality over a continuum", "anchors": ["src/choclo/prism/_gravity.py:gravity_pot", "src/choclo/prism/_gravity.py:gravity_e"]}
{"id": "C37", "title": "Prisms of zero volume produce no field", "statement": "If one dimension of the prism is zero, potential and accelerations are 0 everywhere, and tensor components are 0 at points that are not NaN and not on an east/north/top face; on the east face of a prism with west = east, gravity_ee returns 4 pi G density (observed behaviour of the code: the face correction does not test for zero thickness).", "quantifier": "all observation points, all prisms with at least one zero dimension; exact arithmetic", "why_tests_cant": "degenerate geometries are not tested", "anchors": ["src/choclo/prism/_gravity.py:gravity_pot", "src/choclo/prism/_gravity.py:gravity_ee", "src/choclo/prism/_utils.py:is_point_on_east_face"]}
{"id": "C38", "title": "Prism magnetics: NaN exactly on edges and in the interior", "statement": "prism.magnetic_field, magnetic_e/n/u and the six gradient functions return NaN exactly when the observation point is on an edge, a vertex or in the interior of the prism; everywhere else all components are finite; none of them ever raises (in exact arithmetic; see C52 for rounding).", "quantifier": "all observation points, all proper prisms, all magnetizations", "why_tests_cant": "universal; kernels contain divisions that must never be by zero", "anchors": ["src/choclo/prism/_magnetic.py:magnetic_field", "src/choclo/prism/_magnetic.py:magnetic_e", "src/choclo/prism/_magnetic.py:magnetic_ee", "src/choclo/prism/_magnetic.py:_calculate_component"]}
{"id": "C39", "title": "Prism magnetic_field equals the three component functions, to the last bit", "statement": "prism.magnetic_field returns exactly (magnetic_e, magnetic_n, magnetic_u): the same exception behaviour and bit-identical values, for all arguments and in every floating-point arithmetic.", "quantifier": "all arguments, every floating-point arithmetic", "why_tests_cant": "bit-for-bit agreement of separately coded loops", "anchors": ["src/choclo/prism/_magnetic.py:magnetic_field", "src/choclo/prism/_magnetic.py:magnetic_e", "src/choclo/prism/_magnetic.py:magnetic_n", "src/choclo/prism/_magnetic.py:magnetic_u", "src/choclo/prism/_magnetic.py:_calculate_component"]}
{"id": "C40", "title": "Poisson's relation between prism magnetics and gravity", "statement": "Wherever prism.magnetic_* is not NaN, G density times each component of B equals mu0/4pi times the corresponding row of the prism gravity tensor (for that density) applied to the magnetization, including on faces.", "quantifier": "all non-singular observation points, prisms, densities, magnetizations; exact arithmetic", "why_tests_cant": "universal; two modules with separately coded face corrections", "anchors": ["src/choclo/prism/_magnetic.py:magnetic_e", "src/choclo/prism/_magnetic.py:magnetic_n", "src/choclo/prism/_magnetic.py:magnetic_u", "src/choclo/prism/_gravity.py:gravity_ee", "src/choclo/prism/_gravity.py:gravity_en"]}
{"id": "C41", "title": "Prism magnetic field is the volume integral of dipole fields", "statement": "At every observation point outside the closed prism prism.magnetic_e/n/u equal the integral over the prism of dipole.magnetic_e/n/u with moment M dV.", "quantifier": "all exterior observation points, prisms, magnetizations; exact arithmetic", "why_tests_cant": "integral identity", "anchors": ["src/choclo/prism/_magnetic.py:magnetic_field", "src/choclo/prism/_magnetic.py:magnetic_e", "src/choclo/dipole/_forward.py:magnetic_e"]}
{"id": "C42", "title": "Prism magnetic gradients: divergence of B vanishes", "statement": "magnetic_ee + magnetic_nn + magnetic_uu = 0 at every observation point where they are not NaN.", "quantifier": "all non-singular observation points, prisms, magnetizations; exact arithmetic", "why_tests_cant": "universal identity", "anchors": ["src/choclo/prism/_magnetic.py:magnetic_ee", "src/choclo/prism/_magnetic.py:magnetic_nn", "src/choclo/prism/_magnetic.py:magnetic_uu", "src/choclo/prism/_kernels.py:_kernel_iii", "src/choclo/prism/_kernels.py:_kernel_iij"]}
{"id": "C43", "title": "Prism magnetic gradient functions are the partial derivatives of the field", "statement": "Outside the closed prism magnetic_ee, magnetic_nn, magnetic_uu are the derivatives of magnetic_e, magnetic_n, magnetic_u along their own axis, and magnetic_en, magnetic_eu, magnetic_nu equal both mixed derivatives.", "quantifier": "all exterior observation points (including face planes and edge lines), prisms, magnetizations; exact arithmetic", "why_tests_cant": "derivative statement at every point", "anchors": ["src/choclo/prism/_magnetic.py:magnetic_ee", "src/choclo/prism/_magnetic.py:magnetic_en", "src/choclo/prism/_magnetic.py:magnetic_eu", "src/choclo/prism/_magnetic.py:magnetic_nu"]}
{"id": "C44", "title": "Prism magnetics are linear in the magnetization", "statement": "Every prism.magnetic_* is additive and homogeneous in the magnetization vector and the NaN set does not depend on it.", "quantifier": "all observation points, prisms, magnetizations; exact arithmetic", "why_tests_cant": "universal over inputs, including face-correction terms", "anchors": ["src/choclo/prism/_magnetic.py:magnetic_field", "src/choclo/prism/_magnetic.py:magnetic_e", "src/choclo/prism/_magnetic.py:magnetic_ee"]}
{"id": "C45", "title": "Prism magnetics are additive under splitting", "statement": "Cutting a prism by a plane perpendicular to an axis, the fields of the parts add up to the field of the whole at every point that is not singular for any of the three.", "quantifier": "all observation points, prisms, cuts, magnetizations; exact arithmetic", "why_tests_cant": "universal over geometries", "anchors": ["src/choclo/prism/_magnetic.py:magnetic_e", "src/choclo/prism/_magnetic.py:magnetic_ee"]}
{"id": "C46", "title": "Prism magnetics have the mirror symmetry of the prism", "statement": "Reflecting observation point, prism and magnetization in an axis maps the field to its mirror image (component along the axis flips under the reflected magnetization as a vector), and gradient components change sign once per occurrence of the axis, including faces and NaN points.", "quantifier": "all observation points, prisms, magnetizations; exact arithmetic", "why_tests_cant": "asymmetrically coded face corrections", "anchors": ["src/choclo/prism/_magnetic.py:magnetic_field", "src/choclo/prism/_magnetic.py:magnetic_e", "src/choclo/prism/_magnetic.py:magnetic_en"]}
{"id": "C47", "title": "Prism magnetic gradients are volume integrals of third-order point kernels", "statement": "At every exterior observation point each magnetic gradient component is mu0/4pi times the integral over the prism of the third-order point kernels contracted with the magnetization.", "quantifier": "all exterior observation points, prisms, magnetizations; exact arithmetic", "why_tests_cant": "integral identity", "anchors": ["src/choclo/prism/_magnetic.py:magnetic_ee", "src/choclo/prism/_magnetic.py:magnetic_en", "src/choclo/point/_kernels.py:kernel_eee", "src/choclo/point/_kernels.py:kernel_een"]}
{"id": "C48", "title": "NaN never turns into a number", "statement": "If an observation coordinate, a source coordinate or the mass, density, moment or magnetization is NaN, no distance, point, dipole or prism forward function returns a finite number or infinity: it returns NaN. With a NaN coordinate the distance, point and dipole functions, and in every arithmetic with monotone rounding all prism gravity and magnetic field functions, do return (NaN in every component) and do not raise; a NaN mass or moment does not prevent the ZeroDivisionError of coincident points, nor NaN that of C52 for prism magnetic gradients.", "quantifier": "all arguments with at least one NaN among them, every floating-point arithmetic", "why_tests_cant": "branches on comparisons with NaN could silently select a finite value (e.g. the early return 0.0 of the third-order kernels)", "anchors": ["src/choclo/prism/_gravity.py:_evaluate_kernel", "src/choclo/prism/_kernels.py:_safe_log", "src/choclo/prism/_kernels.py:_safe_atan2", "src/choclo/point/_forward.py:gravity_pot", "src/choclo/dipole/_forward.py:magnetic_field"]}
{"id": "C49", "title": "Singular points give NaN in floating point too", "statement": "On the documented singular points (edges; interior for magnetics) prism functions return NaN in every floating-point arithmetic, because the test is made on the input coordinates themselves and before any rounding.", "quantifier": "all floating-point arguments, every rounding", "why_tests_cant": "universal over arithmetics", "anchors": ["src/choclo/prism/_gravity.py:gravity_ee", "src/choclo/prism/_magnetic.py:magnetic_field", "src/choclo/prism/_utils.py:is_point_on_edge"]}
{"id": "C50", "title": "Rounding error of distance_cartesian and the point gravity functions", "statement": "In any arithmetic whose operations have relative error at most u (no overflow/underflow), distance_cartesian, gravity_pot, gravity_e/n/u and gravity_en/eu/nu have relative error at most 4, 8, 19 and 32 roundings (Higham's gamma_k) from the exact value; in IEEE double precision, for coordinate differences and masses of magnitude 1e-24..1e24, at most 2^-47.", "quantifier": "all arguments without overflow/underflow, every rounding with unit roundoff u", "why_tests_cant": "an error bound over all inputs; tests use rtol on samples", "anchors": ["src/choclo/utils.py:distance_cartesian", "src/choclo/point/_forward.py:gravity_pot", "src/choclo/point/_forward.py:gravity_e"]}
{"id": "C51", "title": "Third-order prism kernels are free of cancellation", "statement": "In any arithmetic with unit roundoff u (no overflow/underflow), the ten third-order prism kernels have relative error at most gamma_13 from their documented closed form, uniformly in the shifted coordinates and for every non-zero radius, and gamma_16 when the radius is computed in the same arithmetic; in IEEE double precision at most 2^-48 for coordinates of magnitude 1e-24..1e24.", "quantifier": "all shifted coordinates without overflow/underflow, every rounding with unit roundoff u", "why_tests_cant": "the previous implementation suffered catastrophic cancellation for some inputs; tests look at one family of points", "anchors": ["src/choclo/prism/_kernels.py:_kernel_iij", "src/choclo/prism/_kernels.py:_kernel_iii", "src/choclo/prism/_kernels.py:kernel_enu"]}
{"id": "C52", "title": "Prism gravity never raises in floating point", "statement": "prism.gravity_* never raise ZeroDivisionError and neither do prism.magnetic_e/n/u/field, whatever the (finite, infinite or NaN) arguments, in any arithmetic with monotone sign-preserving rounding; the magnetic gradient functions can raise when squares of tiny offsets underflow to zero (observed behaviour, exhibited in IEEE double precision).", "quantifier": "all arguments, all monotone roundings", "why_tests_cant": "absence of an exception on every input", "anchors": ["src/choclo/prism/_gravity.py:gravity_pot", "src/choclo/prism/_gravity.py:gravity_ee", "src/choclo/prism/_kernels.py:_safe_log", "src/choclo/prism/_kernels.py:_safe_atan2", "src/choclo/prism/_kernels.py:_kernel_iij"]}
{"id": "C53", "title": "A distant prism attracts like a point mass", "statement": "Outside the circumscribed sphere of the prism (centre c, half diagonal h, R = distance to c > h), prism.gravity_pot differs from point.gravity_pot of the total mass at the centre by at most a factor 3 h^2 / (R (R - h)).", "quantifier": "all observation points outside the circumscribed sphere, all prisms with ordered boundaries, all densities; exact arithmetic", "why_tests_cant": "A test compares at a few distances; the bound has to hold uniformly in the shape of the prism, the direction and the distance.", "anchors": ["src/choclo/prism/_gravity.py: gravity_pot", "src/choclo/point.py: gravity_pot"]}
{"id": "C54", "title": "Absolute error of the diagonal point tensor components", "statement": "In any arithmetic with unit roundoff u (no overflow/underflow) point.gravity_ee/nn/uu differ from their exact values by at most 4 gamma_33 G|m|/d^3; in IEEE double precision, for magnitudes 1e-24..1e24, by at most 2^-44 G|m|/d^3.", "quantifier": "all pairs of distinct points and all masses without overflow/underflow, every rounding with unit roundoff u", "why_tests_cant": "an error bound over all inputs, including the cones where the two terms cancel", "anchors": ["src/choclo/point/_forward.py:gravity_ee", "src/choclo/point/_kernels.py:kernel_ee"]}
{"id": "C55", "title": "Absolute error of the dipole field", "statement": "In any arithmetic with unit roundoff u (no overflow/underflow) every component of dipole.magnetic_e/n/u/field differs from the exact dipole field by at most 4 gamma_38 (mu0/4pi) |m|/d^3; in IEEE double precision, for magnitudes 1e-24..1e24, by at most 2^-44 (mu0/4pi) |m|/d^3.", "quantifier": "all pairs of distinct points and all moments without overflow/underflow, every rounding with unit roundoff u", "why_tests_cant": "an error bound over all inputs, including directions where the two terms cancel", "anchors": ["src/choclo/dipole/_forward.py:magnetic_field", "src/choclo/dipole/_forward.py:magnetic_e"]}
{"id": "C56", "title": "Rounding error of the prism kernels", "statement": "In any arithmetic with unit roundoff u, the exponent range of IEEE double and accurate log/arctan/pi, every one of the twenty prism.kernel_* functions called with shifted coordinates that are zero or of magnitude 1e-24..1e24 and with the rounded radius returns a finite number within gamma_25 times the sum of the magnitudes of its terms (a logarithm counting as 1 + |ln|) of the documented value; in particular the logarithms do not lose accuracy where x + r cancels. In IEEE double precision the factor is 2^-47.", "quantifier": "all shifted coordinates of moderate size (radius nonzero for second and third order kernels), all twenty kernels, every rounding with unit roundoff u", "why_tests_cant": "an error bound over all inputs, including points arbitrarily close to the negative axes where the naive logarithm cancels catastrophically", "anchors": ["src/choclo/prism/_kernels.py:_safe_log", "src/choclo/prism/_kernels.py:_safe_atan2", "src/choclo/prism/_kernels.py:kernel_pot", "src/choclo/prism/_kernels.py:kernel_nu"]}
{"id": "C57", "title": "Rounding error of the prism gravity functions", "statement": "In any arithmetic with unit roundoff u, the exponent range of IEEE double and accurate log/arctan/pi, every prism.gravity_* function, for boundary offsets and density that are zero or of magnitude 1e-24..1e24 and an observation point off the documented singular edges, returns a finite number within gamma_38 G|rho| S of the exact result, S being the sum of the magnitudes of all terms added up at the eight vertices (plus 4 pi on a corrected face). In IEEE double precision the factor is 2^-46, and for potential and acceleration the exact result is Newton's volume integral.", "quantifier": "all prisms with ordered boundaries, observation points and densities of moderate size, all ten components, every rounding with unit roundoff u", "why_tests_cant": "an error bound over all geometries, including points on faces, edges and their extensions and close to them", "anchors": ["src/choclo/prism/_gravity.py:_evaluate_kernel", "src/choclo/prism/_gravity.py:gravity_pot", "src/choclo/prism/_gravity.py:gravity_ee"]}
{"id": "C58", "title": "Rounding error of the prism magnetic functions", "statement": "Under the same conditions, off the edges and the interior of the prism, every prism.magnetic_e/n/u, every component of prism.magnetic_field and every gradient prism.magnetic_ee..nu is a finite number within gamma_43 (mu0/4pi) sum_a |M_a| S_a of the exact result, S_a being the sum of the magnitudes of the terms that multiply M_a; in IEEE double precision the factor is 2^-46.", "quantifier": "all prisms with ordered boundaries, observation points and magnetizations of moderate size, all nine components and the field triple, every rounding with unit roundoff u", "why_tests_cant": "an error bound over all geometries and magnetizations, including points on faces and close to edges", "anchors": ["src/choclo/prism/_magnetic.py:_calculate_component", "src/choclo/prism/_magnetic.py:magnetic_field", "src/choclo/prism/_magnetic.py:magnetic_e", "src/choclo/prism/_magnetic.py:magnetic_ee"]}
{"id": "C59", "title": "Translation invariance, bit for bit", "statement": "Whatever the rounding, if observation point and source (point, dipole or prism) are moved by the same vector and the moved coordinates are exact, distance_cartesian, point.gravity_*, dipole.magnetic_*, prism.gravity_* and prism.magnetic_* return the identical number (or raise the identical exception): results depend on coordinate differences and coordinate comparisons only.", "quantifier": "all points, prisms, sources and translation vectors, every arithmetic", "why_tests_cant": "bit-level identity for all inputs and all roundings", "anchors": ["src/choclo/utils.py:distance_cartesian", "src/choclo/point/_forward.py", "src/choclo/dipole/_forward.py", "src/choclo/prism/_gravity.py", "src/choclo/prism/_magnetic.py"]}
{"id": "C60", "title": "Sign symmetries of point, dipole and magnetization, bit for bit", "statement": "In every sign-symmetric rounding (IEEE double among them): the dipole field is identical after exchanging observation point and dipole and negated with the moment; mirroring a coordinate axis of point mass and observation point (or of dipole, observation point and moment) changes exactly the signs of the components that are odd in that axis; negating the magnetization negates every prism.magnetic_* result.", "quantifier": "all points, moments, prisms, magnetizations and axes, every sign-symmetric arithmetic", "why_tests_cant": "bit-level identity for all inputs", "anchors": ["src/choclo/point/_forward.py", "src/choclo/dipole/_forward.py", "src/choclo/prism/_magnetic.py"]}
{"id": "C61", "title": "Coincident points raise ZeroDivisionError in floating point", "statement": "In every arithmetic that is exact at zero, distance_cartesian of a point with itself is 0 and all ten point.gravity_* and all dipole.magnetic_* raise ZeroDivisionError when observation point and source coincide, whatever mass or moment (0, NaN and infinity included).", "quantifier": "all points, all masses and moments including NaN and infinities, every arithmetic exact at zero", "why_tests_cant": "holds for all inputs and roundings", "anchors": ["src/choclo/utils.py:distance_cartesian", "src/choclo/point/_forward.py", "src/choclo/dipole/_forward.py"]}
{"id": "C62", "title": "distance_spherical of a point with itself can be NaN in double precision (finding)", "statement": "In IEEE double precision with correctly rounded sine and cosine, distance_spherical from a point at latitude 8 degrees to the same point returns NaN instead of 0, for every longitude up to 360 degrees and every radius between 2^-100 and 2^100: the computed cosine of the angle is 1 + 2^-52.", "quantifier": "all longitudes |lon| <= 360 and radii 2^-100..2^100", "why_tests_cant": "quantifies over all longitudes and radii; upstream tests do not hit these latitudes", "anchors": ["src/choclo/utils.py:distance_spherical", "src/choclo/utils.py:distance_spherical_core"]}
{"id": "C63", "title": "Rounding error of the spherical distance", "statement": "In any arithmetic with unit roundoff u <= 2^-20, the range of IEEE double and accurate radians, sine and cosine, for longitudes up to a turn, latitudes between the poles and radii 1e-24..1e24: if the exact distance d satisfies d^2 >= 400 u rp rq, distance_spherical returns a finite number (never NaN) within 7 u d + 192 u rp rq / d of d; distance_spherical_core, even on rounded sines and cosines, obeys the same bound and returns the cosine of the angle within 82 u and the cosine of the longitude difference within 53 u. In double precision: d^2 >= 2^-44 rp rq suffices and the error is at most 2^-50 d + 2^-45 rp rq / d.", "quantifier": "all geographic positions and radii of moderate size satisfying the distance condition, every arithmetic obeying the laws", "why_tests_cant": "an error bound over all pairs of positions", "anchors": ["src/choclo/utils.py:distance_spherical", "src/choclo/utils.py:distance_spherical_core"]}
{"id": "C64", "title": "Gauss's law for a point mass", "statement": "For every box with ordered bounds and every point mass not on its surface, the acceleration components returned by choclo.point are defined on the whole closed surface, integrable over each of the six faces, and their outward flux through the surface is -4 pi G m if the mass is strictly inside the box and 0 if it is outside the closed box, independently of the size and position of the box.", "quantifier": "all boxes, all positions of the mass off the surface (including in the plane of a face), all masses, in exact arithmetic", "why_tests_cant": "a surface integral over a continuum of observation points, for all surfaces", "anchors": ["src/choclo/point/_forward.py:gravity_e", "src/choclo/point/_forward.py:gravity_n", "src/choclo/point/_forward.py:gravity_u"]}
{"id": "C65", "title": "Gauss's law for a prism", "statement": "For any two boxes with ordered bounds, the outward flux through the surface of the second of the acceleration returned by choclo.prism for the first is -4 pi G times density times the volume of their intersection; in particular the whole mass when the prism is contained in the box, zero when they are disjoint. The surface may cut the prism or share faces, edges and vertices with it.", "quantifier": "all pairs of prism and box, all densities, in exact arithmetic", "why_tests_cant": "a surface integral over a continuum of observation points, for all surfaces and all relative positions", "anchors": ["src/choclo/prism/_gravity.py:gravity_e", "src/choclo/prism/_gravity.py:gravity_n", "src/choclo/prism/_gravity.py:gravity_u"]}
{"id": "C66", "title": "No magnetic monopoles", "statement": "The outward flux of the magnetic field returned by choclo.dipole (choclo.prism) through the surface of a box is zero whenever the surface does not pass through the dipole (does not meet the closed prism), whether it encloses the source or not; the same holds for every row of the gravity tensor of a point mass and of a prism.", "quantifier": "all boxes, all sources off the surface, all moments, magnetizations, masses and densities, in exact arithmetic", "why_tests_cant": "a surface integral over a continuum of observation points, for all surfaces", "anchors": ["src/choclo/dipole/_forward.py:magnetic_field", "src/choclo/prism/_magnetic.py:magnetic_field", "src/choclo/prism/_gravity.py:gravity_ee", "src/choclo/point/_forward.py:gravity_ee"]}
{"id": "C67", "title": "A distant prism has the acceleration and tensor of a point mass", "statement": "Let h be half the space diagonal of a prism and R > h the distance from the observation point to its centre. Every acceleration component returned by choclo.prism differs from that returned by choclo.point for a mass density*volume at the centre by at most 9 G |mass| h^2/(R-h)^4, and every tensor component by at most 84 G |mass| h^2/(R-h)^5: relative errors of order (h/R)^2.", "quantifier": "all prisms, all observation points outside the circumscribed sphere, all densities and components, in exact arithmetic", "why_tests_cant": "an asymptotic error bound over all prisms and directions", "anchors": ["src/choclo/prism/_gravity.py:gravity_e", "src/choclo/prism/_gravity.py:gravity_ee", "src/choclo/prism/_gravity.py:gravity_en", "src/choclo/point/_forward.py:gravity_e"]}
{"id": "C68", "title": "A distant magnetized prism is a dipole", "statement": "With h and R as in C67, every component of the magnetic field returned by choclo.prism differs from that returned by choclo.dipole for a dipole at the centre with moment magnetization*volume by at most mu0/(4 pi) * 84 V (|Me|+|Mn|+|Mu|) h^2/(R-h)^5; every magnetic gradient component differs from mu0/(4 pi) times the third-order point kernels contracted with the moment by at most mu0/(4 pi) * 960 V (|Me|+|Mn|+|Mu|) h^2/(R-h)^6.", "quantifier": "all prisms, all observation points outside the circumscribed sphere, all magnetizations and components, in exact arithmetic", "why_tests_cant": "an asymptotic error bound over all prisms and directions", "anchors": ["src/choclo/prism/_magnetic.py:magnetic_e", "src/choclo/prism/_magnetic.py:magnetic_ee", "src/choclo/dipole/_forward.py:magnetic_e", "src/choclo/point/_kernels.py:kernel_eee"]}
{"id": "C69", "title": "Prism fields are continuous and the potential is totally differentiable", "statement": "The potential and the three acceleration components returned by choclo.prism are continuous functions of the observation point on all of space, with no jump at faces, edges or vertices; the potential is totally (Frechet) differentiable everywhere, its first-order change for a displacement w being the scalar product of the returned acceleration with w. The tensor, the magnetic field and the magnetic gradient are continuous functions outside the closed prism.", "quantifier": "all ordered prisms (flat ones included), densities, magnetizations and observation points, in exact arithmetic", "why_tests_cant": "continuity quantifies over all sequences of observation points, including those approaching edges and vertices where the formulas are singular term by term", "anchors": ["src/choclo/prism/_gravity.py:gravity_pot", "src/choclo/prism/_gravity.py:gravity_e", "src/choclo/prism/_gravity.py:gravity_ee", "src/choclo/prism/_magnetic.py:magnetic_e", "src/choclo/prism/_magnetic.py:magnetic_ee"]}
{"id": "C70", "title": "Conservative fields: line integrals depend on the ends only", "statement": "Along every continuously differentiable path the line integral of the gravity returned by choclo.prism is the difference of the returned potential between its ends, also when the path passes through the prism, its faces, edges or vertices; zero along closed paths. The same for choclo.point along paths that avoid the mass; the line integral of a tensor row along a path outside the prism is the change of the acceleration component; that of the dipole field is the drop of the scalar potential; that of the magnetic field of a prism outside it is the change of mu0/(4 pi G) times magnetization dot unit-density acceleration.", "quantifier": "all paths, prisms, sources, densities, moments and magnetizations, in exact arithmetic", "why_tests_cant": "quantifies over all paths, an infinite-dimensional set", "anchors": ["src/choclo/prism/_gravity.py:gravity_pot", "src/choclo/prism/_gravity.py:gravity_e", "src/choclo/prism/_gravity.py:gravity_en", "src/choclo/point/_forward.py:gravity_e", "src/choclo/dipole/_forward.py:magnetic_e", "src/choclo/prism/_magnetic.py:magnetic_e"]}
{"id": "C71", "title": "Decay of tensor and magnetic fields with distance", "statement": "The magnitude of the field returned by choclo.dipole lies between mu0/(4 pi) |m|/r^3 and twice that. No gravity tensor component of a point mass exceeds 2 G |m|/r^3. If every point of a prism is at least d > 0 away from the observation point, no tensor component returned by choclo.prism exceeds 2 G |density| volume/d^3, the magnitude of its magnetic field is at most 2 mu0/(4 pi) |M| volume/d^3 and no magnetic gradient component exceeds 6 mu0/(4 pi) |M| volume/d^4.", "quantifier": "all points, prisms, distances, densities, moments and magnetizations, in exact arithmetic", "why_tests_cant": "a bound over all geometries", "anchors": ["src/choclo/dipole/_forward.py:magnetic_e", "src/choclo/point/_forward.py:gravity_ee", "src/choclo/prism/_gravity.py:gravity_ee", "src/choclo/prism/_magnetic.py:magnetic_e", "src/choclo/prism/_magnetic.py:magnetic_ee"]}
{"id": "C72", "title": "Bouguer plate: bound and limit of the attraction of wide prisms", "statement": "No acceleration component returned by choclo.prism exceeds 2 pi G |density| times the thickness of the prism along that axis, at any observation point. When the four bounds perpendicular to an axis go to infinity, in whatever way, the acceleration along the axis tends to 2 pi G density (|hi - x| - |x - lo|), x being the coordinate of the observation point along the axis: the infinite-plate value -2 pi G density thickness above the plate, its opposite below, linear inside.", "quantifier": "all prisms, observation points, densities, and all ways of letting the lateral bounds go to infinity, in exact arithmetic", "why_tests_cant": "a limit and a uniform bound over all geometries", "anchors": ["src/choclo/prism/_gravity.py:gravity_u", "src/choclo/prism/_gravity.py:gravity_e", "src/choclo/prism/_gravity.py:gravity_n", "src/choclo/prism/_kernels.py:kernel_u"]}
{"id": "C73", "title": "Ordering of prism potentials", "statement": "A prism contained in a larger one whose density is at least its own (non-negative) has at most its potential, at every observation point. For positive density, on every line parallel to an axis the potential returned by choclo.prism depends only on the distance to the mid-plane of the prism and decreases strictly with it; over all of space it is greatest at the centre of the prism and only there.", "quantifier": "all prisms of positive volume (ordered ones for the inclusion), densities and observation points, in exact arithmetic", "why_tests_cant": "a comparison over all pairs of points and prisms", "anchors": ["src/choclo/prism/_gravity.py:gravity_pot", "src/choclo/prism/_kernels.py:kernel_pot"]}
{"id": "C74", "title": "Continuity and face values of tensor and magnetic fields", "statement": "The off-diagonal gravity tensor components of a prism are continuous functions of the observation point wherever they return a number (off the four edges parallel to the third axis), across faces and inside included. The diagonal component aa is continuous off the two closed faces perpendicular to axis a; on those open faces it returns exactly 4 pi G density more than the limit of the values it returns at interior points, so the jump is the one Poisson's equation requires. On the six open faces each of the nine magnetic functions returns the limit of the values it returns at exterior points.", "quantifier": "all prisms (of positive volume for the face values), observation points, densities and magnetizations, in exact arithmetic", "why_tests_cant": "limits over all ways of approaching every point", "anchors": ["src/choclo/prism/_gravity.py:gravity_ee", "src/choclo/prism/_gravity.py:gravity_en", "src/choclo/prism/_magnetic.py:magnetic_e", "src/choclo/prism/_magnetic.py:magnetic_ee", "src/choclo/prism/_kernels.py:kernel_ee"]}
{"id": "C75", "title": "Geometry of distance_spherical", "statement": "distance_spherical satisfies the triangle inequality and, for non-negative radii, lies between the difference and the sum of the radii. It does not change when the same angle is added to both longitudes or when both longitudes or both latitudes change sign, and scales with the radii. Along a radius it is the difference of the radii, between antipodal directions their sum, between two points on one meridian or on the equator of the same sphere the chord 2 r |sin(angle/2)|. For positive radii and latitudes within 90 degrees it is 0 exactly when radii and latitudes agree and the longitudes differ by a multiple of 360 degrees or the points are at a pole.", "quantifier": "all longitudes, latitudes and radii (non-negative, positive or within 90 degrees where stated), in exact arithmetic", "why_tests_cant": "equalities and inequalities over a continuum of pairs and triples of points", "anchors": ["src/choclo/utils.py:distance_spherical", "src/choclo/utils.py:distance_spherical_core"]}
{"id": "C76", "title": "Subdividing a prism into cells, point masses and dipoles", "statement": "Cut a prism by any number of planes perpendicular to the axes, at any positions. Potential and acceleration of the prism are the sums of those of its cells at every point; tensor components are wherever the prism has a value and the point is off the cutting planes, and everywhere outside the prism; the nine magnetic functions everywhere outside. If all points of the prism are at least d from the observation point and the half-diagonals of the cells are at most h < d, replacing every cell by a point mass (dipole) at its centre changes the potential by at most 3 G |density| volume h^2/(d^2 (d-h)), each acceleration by 9 G |density| volume h^2/(d-h)^4, each tensor component by 84 G |density| volume h^2/(d-h)^5 and each magnetic field component by 84 mu0/(4 pi) |M|_1 volume h^2/(d-h)^5: second-order convergence under refinement.", "quantifier": "all grids (any number of planes, any positions in order), observation points, densities, magnetizations, in exact arithmetic", "why_tests_cant": "unbounded number of cells and all geometries", "anchors": ["src/choclo/prism/_gravity.py:gravity_pot", "src/choclo/prism/_gravity.py:gravity_e", "src/choclo/prism/_gravity.py:gravity_ee", "src/choclo/prism/_magnetic.py:magnetic_e", "src/choclo/point/_forward.py:gravity_pot", "src/choclo/dipole/_forward.py:magnetic_e"]}
{"id": "C77", "title": "Action and reaction between prisms", "statement": "For any two prisms, overlapping or not: the mutual energy (potential of one integrated over the mass of the other) is the same either way; the total force of one on the other (acceleration integrated over the mass) is opposite to the reaction, and so is the torque; a prism exerts no net force on itself. For two disjoint magnetized prisms the interaction energy (field of one scalar magnetization of the other, integrated) is the same either way.", "quantifier": "all pairs of prisms, densities, magnetizations, in exact arithmetic", "why_tests_cant": "integrals over all observation points of a body, for all pairs of bodies", "anchors": ["src/choclo/prism/_gravity.py:gravity_pot", "src/choclo/prism/_gravity.py:gravity_e", "src/choclo/prism/_gravity.py:gravity_n", "src/choclo/prism/_gravity.py:gravity_u", "src/choclo/prism/_magnetic.py:magnetic_e"]}
{"id": "C78", "title": "Newton's theorem on homogeneous balls", "statement": "Integrating any of the ten point-mass gravity functions over the mass elements of a homogeneous ball gives, outside the ball, exactly what the same function returns for the whole mass 4/3 pi R^3 rho at the centre (for the potential also on the surface); inside, the potentials of the elements sum to 2 pi G rho (R^2 - d^2/3). The same exterior statement holds for the three dipole functions (total moment at the centre) and for all twenty point kernels.", "quantifier": "all centres, radii, observation points outside/on/inside the ball, densities, magnetizations, components, in exact arithmetic", "why_tests_cant": "an integral over a body for every radius and every observation point", "anchors": ["src/choclo/point/_forward.py:gravity_pot", "src/choclo/point/_forward.py:gravity_ee", "src/choclo/point/_kernels.py:kernel_pot", "src/choclo/dipole/_forward.py:magnetic_e"]}
{"id": "C79", "title": "Mean value property and absence of extrema outside the source", "statement": "Outside a prism every gravity component and every magnetic component (field and gradients), averaged over the observation points of any ball not touching the prism, equals its value at the centre of the ball; consequently none of them has a strict local maximum or minimum there, nor has the strength of gravity or of the magnetic field a strict local maximum. The average property also holds for point masses.", "quantifier": "all prisms, densities, magnetizations, all balls disjoint from the closed prism, in exact arithmetic", "why_tests_cant": "averages over continua of observation points for every ball", "anchors": ["src/choclo/prism/_gravity.py:gravity_pot", "src/choclo/prism/_gravity.py:gravity_uu", "src/choclo/prism/_magnetic.py:magnetic_e", "src/choclo/prism/_magnetic.py:magnetic_ee", "src/choclo/point/_forward.py:gravity_pot"]}
{"id": "C80", "title": "Exchanging easting and northing, bit for bit", "statement": "Whatever the rounding, exchanging the roles of easting and northing in both points (and in the dipole moment) gives the identical distance, the identical point kernel and gravity component with the letters e and n exchanged in its name (all but kernel_en, kernel_enu, gravity_en, whose factors are multiplied in another order), and the identical dipole field component with its axis renamed: same bits, same exceptions.", "quantifier": "all points, masses, moments (NaN and infinities included), every arithmetic", "why_tests_cant": "bit-level identity for all inputs and all roundings", "anchors": ["src/choclo/utils.py:distance_cartesian", "src/choclo/point/_kernels.py", "src/choclo/point/_forward.py", "src/choclo/dipole/_forward.py"]}
{"id": "C81", "title": "Order survives rounding", "statement": "In floating point the value returned by prism.gravity_* is a monotone function of the density and that of point.gravity_* of the mass (rounding never makes it go back and forth), and zero density or mass gives exactly 0. distance_cartesian is monotone in the coordinate offsets: a pair of points at least as far apart along every axis never gets a smaller computed distance. point.gravity_pot of a nonnegative mass is never negative, and a farther point with a smaller mass never gets a larger potential.", "quantifier": "all observation points, prisms, densities, masses; every monotone, sign symmetric arithmetic with correctly rounded squares (IEEE binary64 is one)", "why_tests_cant": "ranges over all pairs and triples of inputs and all roundings", "anchors": ["src/choclo/utils.py:distance_cartesian", "src/choclo/point/_forward.py", "src/choclo/prism/_gravity.py"]}
{"id": "C82", "title": "Units that differ by powers of two, bit for bit", "statement": "In binary floating point without over- or underflow, multiplying all coordinates by 2^k and the source strength by 2^j multiplies distance_cartesian by exactly 2^k, point.kernel_* by 2^(-(1+letters)k), point.gravity_* by 2^(j-(1+letters)k), dipole.magnetic_* by 2^(j-3k), prism.gravity_ee/nn/uu by 1 and the prism magnetic gradients by 2^(j-k); prism.gravity_* and prism.magnetic_* are multiplied by exactly 2^j with density or magnetization; exceptions and NaN are the same. In IEEE double precision with its limits, the scaling with density and mass is exact whenever density or mass has magnitude 2^-980 to 2^1023 before and after scaling and neither result is subnormal or overflows.", "quantifier": "all points, prisms, densities, masses, moments, magnetizations (NaN and infinities included), all integers k and j; every arithmetic whose rounding commutes with powers of two", "why_tests_cant": "bit-level identity for all inputs and all powers of two", "anchors": ["src/choclo/utils.py:distance_cartesian", "src/choclo/point/_kernels.py", "src/choclo/point/_forward.py", "src/choclo/dipole/_forward.py", "src/choclo/prism/_gravity.py", "src/choclo/prism/_magnetic.py", "src/choclo/prism/_kernels.py"]}
{"id": "C83", "title": "The forward-modelling loop of the user guide sums every prism at every point", "statement": "gravity_upward(coordinates, prisms, densities) of the user guide returns at every observation point exactly the left-to-right sum, starting from zero, of prism.gravity_u over all prisms at that point: no point or prism is skipped, counted twice or mixed up; it never raises; what it returns at a point does not depend on the other points (NaN elsewhere does no harm). In exact arithmetic the result is linear in the densities and independent of the order of the prisms; without prisms it is zero.", "quantifier": "all numbers of points and prisms, all coordinates, prisms and densities (NaN and infinities included), every arithmetic (exact for linearity and reordering)", "why_tests_cant": "any number of points and prisms and all array contents", "anchors": ["doc/user_guide/how-to-use.rst:gravity_upward_slow", "doc/user_guide/how-to-use.rst:gravity_upward_jit", "src/choclo/prism/_gravity.py:gravity_u"]}
{"id": "C84", "title": "The parallel forward loop is deterministic", "statement": "gravity_upward_parallel (numba.prange over the observation points) returns exactly the array of the serial loop, bit for bit, for any number of threads, any distribution of the points over them and any interleaving of their memory accesses; it never blocks and every execution finishes after exactly N(3M+1) steps. Parallelising the loop over the prisms instead, which the guide advises against, can lose updates: some interleaving of two threads returns the contribution of one prism only. In double precision, under the conditions of C86 (at most 2^40 prisms, moderate offsets up to L and densities), the one array it can return is finite and within the bound of C86 of the sums of Newton's integrals.", "quantifier": "all schedules, thread counts, distributions, array contents and sizes; every (monotone) arithmetic", "why_tests_cant": "all interleavings of all thread counts", "anchors": ["doc/user_guide/how-to-use.rst:gravity_upward_parallel", "src/choclo/prism/_gravity.py:gravity_u"]}
{"id": "C85", "title": "The sensitivity matrix", "statement": "build_jacobian of the user guide, run in parallel with any schedule and any garbage in the freshly allocated array, returns the matrix whose entry [i, j] is prism.gravity_u of prism j at point i for density 1: every entry is written, by the right call. In exact arithmetic jacobian @ densities equals the forward model whatever the order of summation, with or without fused multiply-adds, and the entries are the partial derivatives of the forward model with respect to the densities.", "quantifier": "all schedules, thread counts, garbage contents, array sizes and contents; every arithmetic (exact for the product and the derivative)", "why_tests_cant": "all schedules and uninitialised contents; all densities", "anchors": ["doc/user_guide/jacobian.rst:build_jacobian", "src/choclo/prism/_gravity.py:gravity_u"]}
{"id": "C86", "title": "Rounding error of the forward loop", "statement": "In IEEE double precision, if the forward loop returns a finite number at a point, then all prism fields there are finite and the result differs from their exact sum by at most ((1+2^-53)^(M-1) - 1) times the sum of their magnitudes, with no assumption on the sizes of the numbers; it is finite whenever these magnitudes add up to less than about 2^1023. For prisms of moderate size it differs from the sum of Newton's volume integrals by at most the sum of the single-prism bounds of C57 plus that summation error. With at most 2^40 prisms, moderate offsets of magnitude up to L and moderate or zero densities the program always returns finite numbers, each within (2^-34 + M 2^-47) G L times the sum of the magnitudes of the densities of the exact sum of Newton's integrals.", "quantifier": "all numbers of prisms and points, all array contents (moderate sizes for the comparison with Newton's integrals); binary64", "why_tests_cant": "worst-case rounding over all inputs and any number of prisms", "anchors": ["doc/user_guide/how-to-use.rst:gravity_upward_jit", "src/choclo/prism/_gravity.py:gravity_u"]}
{"id": "C87", "title": "Jacobian times densities reproduces the forward model in double precision", "statement": "In IEEE double precision, as long as nothing underflows, jacobian @ densities (products added up in any order and grouping, with or without fused multiply-adds) and the forward loop differ at every point by at most 2((1+2^-53)^(M+3) - 1) times the sum of |jacobian[i, j] * densities[j]|, whenever both are finite. If these magnitudes add up to at most 2^24/(M+3) m/s^2, the difference is at most 1e-8, the absolute tolerance of the np.allclose comparison that ends the user guide. With at most 2^40 prisms, moderate offsets of magnitude up to L and moderate or zero densities, underflow included: build_jacobian returns, and whatever the schedule, the order of the additions and the use of fused multiply-adds, every number of jacobian @ densities is finite and within (2^-34 + M 2^-47) G L sum|densities| + M 2^-1073 of the sum of Newton's integrals.", "quantifier": "all numbers of prisms and points, schedules, summation orders and array contents without underflow; binary64", "why_tests_cant": "worst-case rounding over all inputs and summation orders", "anchors": ["doc/user_guide/jacobian.rst:build_jacobian", "doc/user_guide/how-to-use.rst:gravity_upward_parallel"]}
{"id": "C88", "title": "The sign of zero never matters", "statement": "Every function of choclo, given arguments that compare equal (so 0.0 and -0.0 may be exchanged anywhere), raises the same exception or returns the same numbers, except that a returned zero may have the other sign. The program with IEEE signed zeros, after the signs of zeros in its results are dropped, computes exactly what the program without signed zeros computes.", "quantifier": "all public functions (utils, point, dipole, prism kernels, predicates, gravity, magnetic), all arguments including NaN and infinities; every arithmetic", "why_tests_cant": "all arguments and all places where an intermediate zero may carry a sign", "anchors": ["src/choclo/utils.py:distance_cartesian", "src/choclo/point/_kernels.py:kernel_e", "src/choclo/dipole/_forward.py:magnetic_field", "src/choclo/prism/_kernels.py:_safe_atan2", "src/choclo/prism/_kernels.py:_safe_log", "src/choclo/prism/_gravity.py:gravity_ee", "src/choclo/prism/_magnetic.py:magnetic_field", "src/choclo/prism/_utils.py:is_point_on_edge"]}
{"id": "C89", "title": "Integer arguments", "statement": "Passing integers instead of floats for any of the arguments of a function of choclo (for the kernels: any but the distance or radius, which is a float) does not change the result by a single bit and still gives a float, as long as the integers are small enough: |coordinate| <= C with 12 C^2 <= 2^53 for distances, gravity and the prism magnetic field, 120 C^3 <= 2^53 for third-order point kernels, 64 C^4 <= 2^53 for prism magnetic gradients, 36 M C^2 <= 2^53 for dipoles with moments up to M. Beyond such bounds int64 arithmetic overflows silently: there are integer coordinates (65536 m) for which magnetic_ee raises ZeroDivisionError although the same call with floats returns a number, and (2097152 m) for which point.kernel_eee has the wrong sign.", "quantifier": "all public functions, every mixture of int64 and float64 arguments (integers within the bound, floats arbitrary including NaN and infinities); every arithmetic in which integers up to L are exact, in particular IEEE double with L = 2^53", "why_tests_cant": "all integers up to the bound in every argument position and mixture of types", "anchors": ["src/choclo/utils.py:distance_cartesian", "src/choclo/point/_kernels.py:kernel_eee", "src/choclo/point/_forward.py:gravity_u", "src/choclo/dipole/_forward.py:magnetic_field", "src/choclo/prism/_kernels.py:_kernel_iii", "src/choclo/prism/_kernels.py:_kernel_iij", "src/choclo/prism/_gravity.py:gravity_ee", "src/choclo/prism/_magnetic.py:magnetic_ee"]}
{"id": "C90", "title": "Compiled powers change nothing that matters", "statement": "Compiled code evaluates x**2, x**3, x**5, x**7 by repeated multiplication with a rounding after every product. In IEEE double precision with powers computed that way: the two distances, all prism kernels, gravity and magnetic functions return the same bits as with correctly rounded powers; all symmetry, monotonicity, exactness and accuracy laws of the arithmetic still hold; point-mass gravity and dipole fields of moderate size are still accurate to about 14 digits (bounds at most twice those of C50, C54, C55); a zero distance still raises ZeroDivisionError. The programs of the user guide (serial and parallel forward loop, build_jacobian, jacobian @ densities) return the same bits too; for at most 2^40 prisms with moderate offsets up to L and moderate densities the compiled programs return one array, finite, within the bounds of C86 and C87 of the sums of Newton's integrals.", "quantifier": "all floating-point arguments, array contents and schedules including NaN and infinities (same bits); all pairs of points, masses and moments of moderate size (accuracy)", "why_tests_cant": "Rounding of an intermediate product differs at isolated arguments among 2^64 per coordinate; a test compares a few values within a tolerance and cannot show equality of bits for all of them.", "anchors": ["src/choclo/point/_kernels.py:kernel_e", "src/choclo/point/_kernels.py:kernel_eee", "src/choclo/dipole/_forward.py:magnetic_field", "src/choclo/utils.py:distance_cartesian", "src/choclo/prism/_kernels.py:_safe_log"]}
{"id": "C91", "title": "Sensitivity to the position of a prism face", "statement": "When one face of a prism is moved along its axis, the ten gravity components at an exterior point change at the rate given by the surface integral over that face of the same component of choclo.point sources with the prism's density per unit area (plus sign for the east, north and top faces, minus for the west, south and bottom faces); the potential and acceleration do so at every point off the moved face, including inside; the magnetic field components do so with the dipoles of choclo.dipole.", "quantifier": "every non-flat prism, every axis and either face along it, every density or magnetization, every exterior observation point (every point off the closed face for the potential and acceleration); exact arithmetic", "why_tests_cant": "it is a derivative with respect to a geometric parameter equated with a surface integral, for a continuum of prisms and points", "anchors": ["src/choclo/prism/_gravity.py: gravity_pot, gravity_e, gravity_n, gravity_u, gravity_ee, gravity_nn, gravity_uu, gravity_en, gravity_eu, gravity_nu", "src/choclo/prism/_magnetic.py: magnetic_e, magnetic_n, magnetic_u", "src/choclo/point/_forward.py", "src/choclo/dipole/_forward.py"]}
{"id": "C92", "title": "Fields are infinitely differentiable off the sources", "statement": "Every gravity component of a prism is, as a function of the three observation coordinates, infinitely differentiable at every point that is not on the surface of the prism (inside and outside, including the planes of the faces and the lines of the edges); every magnetic component and magnetic gradient component is so at every point outside; the point-mass and dipole functions are so away from the source.", "quantifier": "every prism with ordered boundaries, all ten gravity and nine magnetic components, every density or magnetization, every observation point off the surface (outside for magnetics); exact arithmetic", "why_tests_cant": "existence of derivatives of all orders at a continuum of points is not observable by evaluation", "anchors": ["src/choclo/prism/_gravity.py: all gravity functions", "src/choclo/prism/_magnetic.py: all magnetic functions", "src/choclo/prism/_kernels.py: _safe_log, _safe_atan2", "src/choclo/point/_forward.py", "src/choclo/dipole/_forward.py"]}
{"id": "C93", "title": "Boundaries in the wrong order", "statement": "The prism functions do not check the order of the boundaries. If they are reversed along some axes (west > east, south > north, bottom > top), the potential and acceleration at every point, every tensor component at every point off the surface and every magnetic component at every point outside are those of the prism with sorted boundaries times -1 for each reversed axis. Inside the prism the magnetic functions, which return NaN for sorted boundaries, return an ordinary number as soon as some axis is reversed.", "quantifier": "all six boundaries in any order, all observation points (off the surface for tensor components, outside and inside for magnetics), all densities and magnetizations; exact arithmetic", "why_tests_cant": "the claim ranges over all arguments, including those the documentation does not expect", "anchors": ["src/choclo/prism/_gravity.py: all gravity functions", "src/choclo/prism/_magnetic.py: all magnetic functions", "src/choclo/prism/_utils.py: is_interior_point, is_point_on_edge and the face predicates"]}
{"id": "C94", "title": "Rounding error of all twenty point kernels", "statement": "Each of the 20 functions choclo.point.kernel_* (up to third order), called with the distance returned by distance_cartesian, returns in floating point a finite number whose distance to the exact value of the same call is at most 24·gamma_42/d^(k+1), where d is the distance of the two points and k the order of differentiation; the kernels made of a single term (pot, e, n, u, en, eu, nu, enu) have relative error at most gamma_41. In IEEE double precision, for coordinate differences that are zero or between 2^-80 and 2^80, these bounds are 2^-41/d^(k+1) and 2^-46, and nothing over- or underflows.", "quantifier": "every pair of distinct points, every kernel; every arithmetic with unit roundoff u <= 1/128 and no over/underflow in the listed intermediate results, and IEEE double precision", "why_tests_cant": "tests sample a few points with a loose tolerance; the third-order kernels subtract two terms of opposite sign, and cancellation shows only in particular directions", "anchors": ["src/choclo/point/_kernels.py: kernel_pot, kernel_e, kernel_ee, kernel_en, kernel_eee, kernel_een, kernel_enu (and the other 13)", "src/choclo/utils.py: distance_cartesian"]}
{"id": "C95", "title": "NaN results of the gravity tensor are warranted", "statement": "At every point where gravity_en, gravity_eu or gravity_nu of a proper prism of non-zero density returns NaN, the magnitude of the values it returns at neighbouring points grows beyond every bound as they approach. At every point where gravity_ee, gravity_nn or gravity_uu returns NaN, the values it returns at exterior points approaching it have no limit (they depend on the direction of approach). Such points can always be approached through exterior points. So no number could be returned there in place of NaN.", "quantifier": "every proper prism, every non-zero density, every point with a NaN result, every direction of approach; exact arithmetic", "why_tests_cant": "a statement about limits: tests see only finitely many points at finite distances from an edge", "anchors": ["src/choclo/prism/_gravity.py: gravity_ee, gravity_nn, gravity_uu, gravity_en, gravity_eu, gravity_nu", "src/choclo/prism/_kernels.py: kernel_en, kernel_ee, _safe_log, _safe_atan2"]}
{"id": "C96", "title": "Euler's relation, tensor invariants and the source from the data", "statement": "For a point mass the returned acceleration times the offset from the source is minus the returned potential, the tensor times the offset is minus twice the acceleration, and the third-order kernels times the offset are minus three times the second-order ones (Euler's homogeneity equation with structural index 1, 2, 3); a dipole's field falls off with the third power along every ray. Distance, position and mass of a point source are recovered from the returned potential and acceleration as V/|g|, p + V g/|g|^2 and V^2/(G|g|). The nine tensor components have sum of squares 6 (Gm/d^3)^2 and determinant 2 (Gm/d^3)^3. The scalar product of dipole field and offset is 2 (mu0/4pi) (m.d)/|d|^3, and its squared strength is (mu0/4pi)^2 (3 (m.d/|d|)^2 + |m|^2)/d^6.", "quantifier": "every pair of distinct points, every mass (positive for the inversion), every moment; exact arithmetic", "why_tests_cant": "identities between the results of different functions for all points, which interpretation methods such as Euler deconvolution assume", "anchors": ["src/choclo/point/_forward.py: gravity_*", "src/choclo/point/_kernels.py: kernel_*", "src/choclo/dipole/_forward.py: magnetic_e, magnetic_n, magnetic_u"]}
{"id": "C97", "title": "Signs of the gravity tensor of a prism", "statement": "For every prism with positive extents and every observation point: (a) wherever gravity_en, gravity_eu or gravity_nu does not return NaN, its sign is the sign of density times the offset of the point from the prism's centre along one axis times the offset along the other; in particular it is zero exactly on the two planes through the centre. (b) At every point strictly between the two faces perpendicular to an axis (inside the prism or beside it) the diagonal component of this axis has the opposite sign of the density. (c) At every point of the column that the prism spans along an axis, on or beyond its end faces, the diagonal component has the sign of the density unless it is NaN; this includes the faces themselves, where the value is the limit from outside.", "quantifier": "every prism with positive extents, every observation point (inside, outside, on faces and extensions of edges), every density, all six tensor components; exact arithmetic", "why_tests_cant": "The sign has to be right in every octant and in every region around the prism; a swapped bound, a dropped 4 pi or a wrong regularisation of the arctangent flips it only in some of them.", "anchors": ["src/choclo/prism/_gravity.py: gravity_ee, gravity_nn, gravity_uu, gravity_en, gravity_eu, gravity_nu", "src/choclo/prism/_kernels.py: kernel_ee, kernel_en"]}
{"id": "C98", "title": "Explicit error bounds and field equations in double precision", "statement": "In IEEE double precision, for prisms and points whose offsets along the axes are zero or between 2^-80 and 2^80 metres: (a) every prism gravity function that is not NaN at the point differs from the exact result by at most 2^-34 G|rho| L^k, where L bounds the offsets and k = 2 for the potential, 1 for the acceleration, 0 for the tensor; (b) for the diagonal components the bound is 2^-41 G|rho|; (c) off the edges the three computed diagonal components add up to -4 pi G rho inside and to 0 outside and on faces, up to 2^-39 G|rho|; (d) for a point mass the computed diagonal components add up to 0 up to 2^-42 G|m|/d^3; (e) the three computed diagonal components of the magnetic gradient tensor add up to 0 up to the sum of the bounds of C58.", "quantifier": "every prism, observation point, density, mass and magnetization of moderate size (including points on faces and on extensions of edges)", "why_tests_cant": "The tests check these sums at a few points with hand-picked tolerances; the bound must hold for every geometry, including points close to edges where the logarithms are large.", "anchors": ["src/choclo/prism/_gravity.py: gravity_pot ... gravity_nu", "src/choclo/prism/_magnetic.py: magnetic_ee, magnetic_nn, magnetic_uu", "src/choclo/point/_forward.py: gravity_ee, gravity_nn, gravity_uu", "test/test_prism_gravity.py: Laplace tests"]}
{"id": "C99", "title": "Finite differences of the returned values reproduce the derivative functions with a known error", "statement": "Between two observation points on a line along an axis the difference of the prism potential is exactly the acceleration component at some point in between times the displacement (also across and inside the prism); outside the same holds between acceleration and tensor, and between magnetic field and magnetic gradient. Moving the observation point changes the potential by at most 2 pi G |rho| (side lengths times displacements). If all points of a step h are at least D away from the source, the forward difference of the potential is within G M |h| / D^3 of the acceleration, the central difference within G M h^2 / D^4, the forward difference of an acceleration within 3 G M |h| / D^4 of the tensor (prisms and point masses). In double precision the rounding of the potentials adds at most 2^-33 G |rho| L^2 / |h| + 2^-34 G |rho| L.", "quantifier": "every ordered prism, point mass, magnetization, density, observation point, axis, nonzero step of either sign and distance bound", "why_tests_cant": "the finite-difference tests check a handful of points and steps against a guessed tolerance; the truncation and rounding errors depend continuously on step, distance and geometry", "anchors": ["src/choclo/prism/_gravity.py: gravity_pot, gravity_e, gravity_n, gravity_u, gravity_ee, gravity_en", "src/choclo/prism/_magnetic.py: magnetic_e, magnetic_ee, magnetic_en", "src/choclo/point/_forward.py: gravity_pot, gravity_e, gravity_ee", "test/test_prism_gravity.py: finite difference tests", "test/test_point_gravity.py: TestAccelerationFiniteDifferences"]}
{"id": "C100", "title": "Running without Numba gives the same numbers, and infinities or NaN instead of exceptions", "statement": "With NUMBA_DISABLE_JIT=1 (functions run by the Python interpreter on np.float64 scalars, where dividing by zero does not raise) every public function agrees with its compiled version at all arguments, including NaN, infinities and zeros of both signs: if the compiled call returns a value the interpreted call returns the identical value (in this model the integer literals 0 returned by the prism kernels are the float 0.0, so where such a zero is negated its sign is not claimed here: C137 and C138 keep integers apart); if the compiled call raises ZeroDivisionError the interpreted call returns infinity or NaN (for the functions returning three values, in at least one of them). Hence interpreted calls on np.float64 never raise and a finite number from an interpreted call is also the result of the compiled call. At the position of a point mass the interpreted potential is infinite with the sign of the mass and all other components, and the field of a dipole, are NaN.", "quantifier": "all public functions and all float arguments (finite, zero of either sign, infinite, NaN), every floating-point arithmetic; coincident points: all finite positions and masses/moments", "why_tests_cant": "The test suite is run once compiled and once interpreted on the same samples; whether the modes can disagree at other arguments (a division by a zero that is masked later, an exception swallowed by a branch) needs a statement over all arguments and all intermediate values.", "anchors": ["src/choclo/utils.py: distance_cartesian, distance_spherical, distance_spherical_core", "src/choclo/point/_kernels.py: kernel_*", "src/choclo/point/_forward.py: gravity_*", "src/choclo/dipole/_forward.py: magnetic_*", "src/choclo/prism/_kernels.py: kernel_*", "src/choclo/prism/_gravity.py: gravity_*", "src/choclo/prism/_magnetic.py: magnetic_*", "test/test_point_gravity.py: test_infinite_potential, test_division_by_zero", "Makefile: NUMBA_DISABLE_JIT"]}
{"id": "C101", "title": "distance_cartesian in double precision: exact along an axis, never below a coordinate difference", "statement": "In IEEE double precision (with correctly rounded powers or with Numba's compiled powers): for two points that differ in one coordinate only, distance_cartesian returns exactly the absolute value of the rounded difference of that coordinate, hence exactly the difference if it is a double; for any two points the returned distance is not smaller than the rounded difference of any of the coordinates. (Differences zero or between 2^-511 and 2^510 in size.)", "quantifier": "all pairs of points whose coordinate differences are zero or of size 2^-511..2^510", "why_tests_cant": "That sqrt(x*x) has no rounding error is a property of every one of the 2^62 doubles in range; the second part quantifies over all pairs of points. Tests compare with a tolerance.", "anchors": ["src/choclo/utils.py: distance_cartesian"]}
{"id": "C102", "title": "Point masses and dipoles over the range of doubles", "statement": "In IEEE double precision (with correctly rounded powers and with the repeated multiplication Numba compiles for integer powers) every gravity function of a point mass returns a finite number, at most 2^950 in absolute value, whenever the observation point and the source differ by at least 2^-214 m (about 4e-65 m) in some coordinate and by at most 2^500 m in every coordinate, for every mass up to 2^300 kg; the dipole functions do so up to 2^300 m and for moments up to 2^300. On the other side, two distinct points whose coordinates all differ by at most 2^-538 m are treated as coincident: every point mass and dipole function raises ZeroDivisionError there.", "quantifier": "every component, every pair of points within the stated separations, every mass or moment within the stated bounds", "why_tests_cant": "Overflow, underflow and the resulting infinities, NaNs or exceptions depend on every intermediate quantity over a range of 700 binades; tests sample a few separations.", "anchors": ["src/choclo/point/_kernels.py: kernel_pot, kernel_e, kernel_n, kernel_u, kernel_ee, kernel_nn, kernel_uu, kernel_en, kernel_eu, kernel_nu", "src/choclo/point/_forward.py: gravity_pot, gravity_e, gravity_n, gravity_u, gravity_ee, gravity_nn, gravity_uu, gravity_en, gravity_eu, gravity_nu", "src/choclo/dipole/_forward.py: magnetic_e, magnetic_n, magnetic_u", "src/choclo/utils.py: distance_cartesian"]}
{"id": "C103", "title": "Infinite coordinates and prisms that extend to infinity", "statement": "An infinite coordinate of the observation point or an infinite boundary of the prism never gives a finite, wrong field. prism.gravity_pot, the three acceleration functions, the three off-diagonal tensor functions, prism.magnetic_field and magnetic_e/n/u return NaN whenever any coordinate or boundary is infinite. gravity_ee, gravity_nn and gravity_uu return NaN when the infinite argument belongs to one of the other two axes; when one boundary on their own axis is -inf (west, south, bottom) or +inf (east, north, top), they return the limit of the values for prisms that extend further and further in that direction. distance_cartesian returns infinity or NaN when a coordinate is infinite, and the point mass and dipole functions then return zero or NaN, never another number; seen from infinity along one axis, the components of a point mass that do not involve that axis (the potential among them) are zero and the others NaN. The magnetic gradient functions (magnetic_ee to magnetic_nu), when they return, return NaN if any coordinate or boundary is infinite, unless the observation point has both boundaries of some axis at distance zero.", "quantifier": "every component, every argument that is infinite, every value (finite, infinite or NaN) of the other arguments; for the limits, every ordered prism and every observation point off the singular edges, every tolerance", "why_tests_cant": "Which infinities cancel into NaN and which vanish depends on the signs of all shifts at eight vertices; a test with one infinite prism says nothing about the other combinations nor about the limit being approached.", "anchors": ["src/choclo/prism/_utils.py: is_interior_point, is_point_on_edge, is_point_on_east_face, is_point_on_north_face, is_point_on_top_face", "src/choclo/prism/_kernels.py: kernel_pot, kernel_e, kernel_n, kernel_u, kernel_ee, kernel_nn, kernel_uu, kernel_en, kernel_eu, kernel_nu, _safe_atan2, _safe_log", "src/choclo/prism/_gravity.py: gravity_pot, gravity_e, gravity_n, gravity_u, gravity_ee, gravity_nn, gravity_uu, gravity_en, gravity_eu, gravity_nu", "src/choclo/prism/_magnetic.py: magnetic_field, magnetic_e, magnetic_n, magnetic_u, magnetic_ee, magnetic_nn, magnetic_uu, magnetic_en, magnetic_eu, magnetic_nu", "src/choclo/point/_forward.py: gravity_pot, gravity_e, gravity_n, gravity_u, gravity_ee, gravity_nn, gravity_uu, gravity_en, gravity_eu, gravity_nu", "src/choclo/dipole/_forward.py: magnetic_field, magnetic_e, magnetic_n, magnetic_u", "src/choclo/utils.py: distance_cartesian"]}
{"id": "C104", "title": "Prisms too thin or too far away to be resolved", "statement": "When the floating-point subtraction of the observation point's altitude gives the same number for the top and the bottom of a prism (a flat prism, or one whose thickness is below the resolution of the coordinates), every prism gravity function returns exactly zero or NaN, and every magnetic function and gradient that returns does so too, off the faces: no spurious nonzero number, in every rounded arithmetic. In IEEE double precision this is reached, for moderate geometries, as soon as the altitude of the observation point is at least 2^55 times the absolute altitudes of top and bottom: all gravity functions then return exactly 0.0 although the exact potential is positive and the exact vertical attraction is not zero, and all magnetic functions return exactly 0.0.", "quantifier": "every component, prism, observation point, density and magnetization (within 2^-80 to 2^80 for the double precision statement), every monotone sign-symmetric rounded arithmetic for the first part", "why_tests_cant": "Whether eight rounded kernel values cancel to exactly zero depends on the order of the summation and on idempotence of rounding for all values; a test can only try some prisms.", "anchors": ["src/choclo/prism/_gravity.py: _evaluate_kernel, gravity_pot, gravity_e, gravity_n, gravity_u, gravity_ee, gravity_nn, gravity_uu, gravity_en, gravity_eu, gravity_nu", "src/choclo/prism/_magnetic.py: _calculate_component, magnetic_e, magnetic_n, magnetic_u, magnetic_ee, magnetic_nn, magnetic_uu, magnetic_en, magnetic_eu, magnetic_nu"]}
{"id": "C105", "title": "Magnetic NaN on edges: warranted unless the magnetization is parallel to the edge", "statement": "On an edge of a prism the magnetic functions return NaN. At a point of an edge that is not a corner, if the magnetization has a component along an axis b other than that of the edge, the values the function of the third axis returns at exterior points tend to infinity in absolute value as the points approach the edge. Near every point of every edge, corners included, some magnetic component is unbounded at exterior points unless the magnetization is zero or the point is on the open edge and the magnetization is parallel to it. In that last case all three components have finite limits, and NaN is returned all the same.", "quantifier": "every prism with positive extent, every edge, every point of it, every magnetization, every neighbourhood and bound; exact arithmetic", "why_tests_cant": "Divergence and existence of a limit are statements about all points near the edge; a test sees finitely many.", "anchors": ["src/choclo/prism/_magnetic.py: magnetic_e, magnetic_n, magnetic_u", "src/choclo/prism/_utils.py: is_point_on_edge", "src/choclo/prism/_kernels.py: kernel_ee, kernel_nn, kernel_uu, kernel_en, kernel_eu, kernel_nu"]}
{"id": "C106", "title": "float32 arguments mixed with float64 ones", "statement": "If on each axis one of the two coordinates that are subtracted is a float64 (for example float64 observation points and a float32 model, or float32 observation points and float64 prisms), every function of choclo returns, bit for bit, the float64 numbers it returns when all arguments are converted to float64 first; masses, densities, moments and magnetizations may be of either type; and it raises in exactly the same cases.", "quantifier": "every function, every assignment of float32/float64 types with one float64 on each axis, every argument value including infinities and NaN, every pair of rounded arithmetics", "why_tests_cant": "The types of every intermediate value must be followed through all functions for all combinations of argument types; a test compiles and tries a few.", "anchors": ["src/choclo/utils.py: distance_cartesian", "src/choclo/point/_kernels.py: all kernels", "src/choclo/point/_forward.py: all functions", "src/choclo/dipole/_forward.py: all functions", "src/choclo/prism/_gravity.py: all functions", "src/choclo/prism/_magnetic.py: all functions"]}
{"id": "C107", "title": "Accuracy with float32 arguments", "statement": "With float32 arguments, or any mixture of float32 and float64, distance_cartesian is accurate to 2^-20, gravity_pot of a point mass to 2^-19, its acceleration and off-diagonal gradient to 2^-17, the diagonal of the gradient and the field of a dipole to 2^-14 of the natural size (G m / d^3 and mu_0 |m| / (4 pi d^3)), and the third-order prism kernels to 2^-18, if the coordinate differences are zero or between 2^-20 m and 2^24 m; they return without raising, and no overflow or underflow occurs.", "quantifier": "every pair of distinct points within that range, every mass within 2^-80..2^80, every moment within 2^-40..2^40, every assignment of types to the arguments", "why_tests_cant": "A bound on rounding errors for all arguments cannot be obtained by sampling.", "anchors": ["src/choclo/utils.py: distance_cartesian", "src/choclo/point/_forward.py: all functions", "src/choclo/dipole/_forward.py: magnetic_e, magnetic_n, magnetic_u", "src/choclo/prism/_kernels.py: kernel_eee, kernel_nnn, kernel_uuu, kernel_een, kernel_eeu, kernel_enn, kernel_nnu, kernel_euu, kernel_nuu, kernel_enu"]}
{"id": "C108", "title": "Overflow with float32 coordinates", "statement": "With float32 coordinates the powers of the distance overflow silently. If the points are more than 53 000 km apart, gravity_en, gravity_eu and gravity_nu of a point mass return exactly zero and gravity_ee, gravity_nn and gravity_uu return -G m / d^3 up to 2^-17, whatever the direction: along the line joining the points the sign is wrong (the exact value is 2 G m / d^3). If they are more than 328 km apart, the third-order point kernels lose the term in 1/d^7: kernel_enu returns zero, kernel_eee returns 9 dx / d^5, kernel_een 3 dy / d^5, and so on.", "quantifier": "every pair of points with float32 coordinates that far apart (up to 2^40 m, resp. 2^24 m), every mass within 2^-80..2^80", "why_tests_cant": "The claim is about all points beyond a distance; a test finds the wrong numbers only if it thinks of trying float32 arrays at such distances.", "anchors": ["src/choclo/point/_forward.py: gravity_ee, gravity_nn, gravity_uu, gravity_en, gravity_eu, gravity_nu", "src/choclo/point/_kernels.py: kernel_eee, kernel_nnn, kernel_uuu, kernel_een, kernel_eeu, kernel_nne, kernel_nnu, kernel_uue, kernel_uun, kernel_enu"]}
{"id": "C109", "title": "Fields of a prism as integrals over its faces (surface charges)", "statement": "The acceleration component of a prism along an axis equals the integral of choclo.point's potential over its low face perpendicular to that axis minus the integral over the opposite face (density taken per unit area), at every observation point including faces, edges and vertices; each tensor component is the same difference of choclo.point's acceleration, off the two faces; outside the prism each component of the magnetic field is the inverse-square field of the surface charge given by the normal component of the magnetization. Hence a diagonal tensor component never exceeds 4 pi G |density| in absolute value wherever it returns a number (2 pi G |density| unless the point lies between the two faces perpendicular to the axis), and the field component along the axis of an axially magnetized prism never exceeds mu0 |M| (half of it unless the point lies between the faces).", "quantifier": "all prisms, observation points, axes, densities and magnetizations (exact real arithmetic)", "why_tests_cant": "an identity between closed forms with eight logarithms and arctangents and a surface integral, and a uniform bound over all positions arbitrarily near edges, cannot be sampled", "anchors": ["src/choclo/prism/_gravity.py: gravity_e, gravity_n, gravity_u, gravity_ee, gravity_nn, gravity_uu, gravity_en, gravity_eu, gravity_nu", "src/choclo/prism/_magnetic.py: magnetic_e, magnetic_n, magnetic_u", "src/choclo/point/_forward.py: gravity_pot, gravity_e, gravity_n, gravity_u"]}
{"id": "C110", "title": "Accuracy of prism functions called with float32 arguments", "statement": "Whatever mixture of float32 and float64 numbers is passed, every prism kernel, gravity function and magnetic function (magnetic_field included) returns a finite number close to the exact value: the error is at most 2^-17 (kernels) or 2^-16 (forward functions) times the sum of the magnitudes of the terms added up at the eight vertices, times G |density| or mu0/4pi |magnetization|. For potential and acceleration the exact value is Newton's volume integral, at every observation point.", "quantifier": "all float32/float64 arguments whose point-boundary offsets are zero or between a micrometre and 16777 km, all ordered prisms, all points outside the documented singular sets, all densities and magnetizations of moderate size; in any pair of arithmetics with the stated accuracy, and in IEEE single and double precision with Numba's powers", "why_tests_cant": "the tests never pass float32 numbers; an error bound must hold for every geometry", "anchors": ["src/choclo/prism/_kernels.py: kernel_pot, kernel_e, kernel_ee, kernel_en, kernel_eee, kernel_een, kernel_enu, _safe_log, _safe_atan2", "src/choclo/prism/_gravity.py: gravity_pot, gravity_e, gravity_ee, gravity_en, _evaluate_kernel", "src/choclo/prism/_magnetic.py: magnetic_field, magnetic_e, magnetic_ee, _calculate_component"]}
{"id": "C111", "title": "Vector field functions agree with their components for float32 arguments", "statement": "dipole.magnetic_field and prism.magnetic_field return exactly what the three component functions return (and raise exactly when one of them raises) when any of the arguments are float32 numbers.", "quantifier": "all float32/float64 arguments, NaN and infinities included, in any pair of arithmetics", "why_tests_cant": "bit-for-bit agreement on all inputs and all 2^12 combinations of argument types", "anchors": ["src/choclo/dipole/_forward.py: magnetic_field, magnetic_e, magnetic_n, magnetic_u", "src/choclo/prism/_magnetic.py: magnetic_field, magnetic_e, magnetic_n, magnetic_u"]}
{"id": "C112", "title": "Prism gravity and magnetic field functions never raise with float32 arguments; the gradients can, much sooner than in float64", "statement": "Whatever mixture of float32 and float64 scalars is passed to prism.gravity_* or to prism.magnetic_e/n/u and prism.magnetic_field (finite, infinite, NaN, boundaries in any order), the call returns: no ZeroDivisionError. The gradient functions have no such guarantee: for a point outside the prism 2^-80 m from the line through an edge, magnetic_ee raises when the coordinates are float32 numbers and returns the right value when the same numbers are float64.", "quantifier": "all argument tuples in which each number is a float32 or a float64 (including infinities and NaN), all components, every pair of arithmetics with monotone rounding in which each float32 is a float64", "why_tests_cant": "The argument space has up to 64^12 points and 2^12 type combinations; the failing inputs are where squares underflow, which random tests never reach.", "anchors": ["src/choclo/prism/_gravity.py: gravity_pot, gravity_e, gravity_n, gravity_u, gravity_ee, gravity_nn, gravity_uu, gravity_en, gravity_eu, gravity_nu", "src/choclo/prism/_magnetic.py: magnetic_field, magnetic_e, magnetic_n, magnetic_u, magnetic_ee", "src/choclo/prism/_kernels.py: _safe_log, _safe_atan2, _kernel_iii"]}
{"id": "C113", "title": "With float32 arguments the point is classified exactly, and NaN is returned exactly at the documented singular points", "statement": "Called with any mixture of float32 and float64 numbers, the prism predicates (interior, edge, easting/northing/upward edge, east/north/top face) decide the exact geometric question about the numbers passed. prism.gravity_* returns NaN at the documented singular points and the magnetic functions return NaN on edges and inside; for offsets between a micrometre and 16777 km (or zero) they return NaN nowhere else.", "quantifier": "all mixtures of float32 and float64 arguments, all prisms and points, every pair of arithmetics (predicates, NaN at singular points); float32/float64 as compiled by Numba (nowhere else)", "why_tests_cant": "Edges, faces and interior are null sets or continua; tests sample a few points and do not mix argument types.", "anchors": ["src/choclo/prism/_utils.py: is_interior_point, is_point_on_edge, is_point_on_easting_edge, is_point_on_northing_edge, is_point_on_upward_edge, is_point_on_east_face, is_point_on_north_face, is_point_on_top_face", "src/choclo/prism/_gravity.py: gravity_ee, gravity_nn, gravity_uu, gravity_en, gravity_eu, gravity_nu", "src/choclo/prism/_magnetic.py: magnetic_field, magnetic_e, magnetic_n, magnetic_u, magnetic_ee, magnetic_nn, magnetic_uu, magnetic_en, magnetic_eu, magnetic_nu"]}
{"id": "C114", "title": "Where the acceleration of a prism is strongest", "statement": "For a prism with positive extents and non-zero density, moving an observation point sideways (along an axis b) away from the mid-plane of b makes the returned acceleration along any other axis a strictly weaker in absolute value, on every line above, below, beside or through the prism (on the mid-plane of a it is zero throughout). Moving along a itself it becomes strictly stronger from the mid-plane to the faces, inside and beside the prism, and strictly weaker beyond the faces in the column spanned by the prism. Hence gravity_e, gravity_n, gravity_u are strongest at the centres of the two faces perpendicular to the axis and weaker at every other point of space.", "quantifier": "all proper prisms, all non-zero densities, all observation points, all three axes", "why_tests_cant": "Monotonicity and a global maximum over all of space cannot be sampled.", "anchors": ["src/choclo/prism/_gravity.py: gravity_e, gravity_n, gravity_u", "src/choclo/prism/_kernels.py: kernel_e, kernel_n, kernel_u"]}
{"id": "C115", "title": "Far field of a prism to fourth order; cubes have no quadrupole", "statement": "Outside the sphere circumscribed about a prism (half diagonal h, distance R > h from the centre), gravity_pot of the prism differs from the point-mass gravity_pot at the centre plus sum_i L_i^2/24 times the point-mass gravity_ii by at most G |M| h^4/(R-h)^5, and each acceleration component differs from the point-mass acceleration plus G M sum_i L_i^2/24 times the third-order kernel by at most 25 G |M| h^4/(R-h)^6, M being density times volume and L_i the three extents. For a cube the correction vanishes, so prism and point mass agree up to the fourth order.", "quantifier": "for every ordered prism, every observation point beyond its circumscribed sphere, every density and every component of the acceleration; exact arithmetic", "why_tests_cant": "a test compares a few prisms with a point mass at a few distances; the order of the error and its constant are statements about all of them", "anchors": ["src/choclo/prism/_gravity.py: gravity_pot, gravity_e, gravity_n, gravity_u", "src/choclo/point/_forward.py: gravity_pot, gravity_e, gravity_n, gravity_u, gravity_ee, gravity_nn, gravity_uu", "src/choclo/point/_kernels.py: kernel_eee, kernel_nnn, kernel_uuu, kernel_een, kernel_eeu, kernel_nne, kernel_nnu, kernel_uue, kernel_uun"]}
{"id": "C116", "title": "A patch of data determines the field and the prism", "statement": "If one gravity component (potential, one acceleration component or one tensor component) of two prisms returns the same values on some non-empty open set outside both, it does so everywhere outside both; and if the prisms have positive extents and non-zero densities, they are the same prism with the same density. In particular no component of a prism of non-zero density vanishes on an open set outside it. Likewise, every magnetic field or gradient component that agrees on an open set agrees everywhere outside, and if the three field components agree on an open set, then prisms and magnetizations (non-zero) are equal.", "quantifier": "for every two prisms, every densities and magnetizations, every component and every open set that contains a point outside both prisms; exact arithmetic", "why_tests_cant": "tests can only exhibit pairs of prisms with different fields; that no two different prisms share a patch of data is a statement about all pairs and all patches", "anchors": ["src/choclo/prism/_gravity.py: gravity_pot, gravity_e, gravity_n, gravity_u, gravity_ee, gravity_nn, gravity_uu, gravity_en, gravity_eu, gravity_nu", "src/choclo/prism/_magnetic.py: magnetic_e, magnetic_n, magnetic_u, magnetic_ee, magnetic_nn, magnetic_uu, magnetic_en, magnetic_eu, magnetic_nu"]}
{"id": "C117", "title": "Point sources are determined by a patch of data, and no prism looks like a point source", "statement": "If one gravity component of two point sources (the first of non-zero mass) returns the same values on a non-empty open set away from both, then the sources have the same position and the same mass. If the three magnetic field components of two dipoles (the first of non-zero moment) agree on a non-empty open set, then the dipoles have the same position and the same moment. On no non-empty open set does any gravity component of a homogeneous prism of non-zero density coincide with that component of a point source, nor do the three magnetic components of a magnetized prism coincide with those of a dipole, whatever the mass, moment and position of the source.", "quantifier": "for every position, mass, moment, prism of positive extents, density, magnetization, every gravity component and every open set that contains a point off the sources; exact arithmetic", "why_tests_cant": "tests compare chosen pairs of sources at chosen points; that no other source reproduces the data is a statement about all sources and all patches", "anchors": ["src/choclo/point/_forward.py: gravity_pot, gravity_e, gravity_n, gravity_u, gravity_ee, gravity_nn, gravity_uu, gravity_en, gravity_eu, gravity_nu", "src/choclo/dipole/_forward.py: magnetic_e, magnetic_n, magnetic_u", "src/choclo/prism/_gravity.py: gravity_pot, gravity_e, gravity_n, gravity_u, gravity_ee, gravity_nn, gravity_uu, gravity_en, gravity_eu, gravity_nu", "src/choclo/prism/_magnetic.py: magnetic_e, magnetic_n, magnetic_u"]}
{"id": "C118", "title": "One magnetic component on a patch determines a magnetized prism or a dipole", "statement": "If a single component of the magnetic field or of its gradient (any of magnetic_e, ..., magnetic_nu) of two uniformly magnetized prisms returns the same values on a non-empty open set outside both, then the prisms and their magnetizations are equal; no component of a magnetized prism vanishes on an open set outside it. A single magnetic component on an open set determines position and moment of a dipole, and no single field component of a magnetized prism is that of a dipole on an open set.", "quantifier": "for every two prisms of positive extents, every non-zero magnetizations, all nine components, all dipoles, and every open set that contains a point off the sources; exact arithmetic", "why_tests_cant": "a test shows that two chosen sources differ at chosen points; that no two different sources share one component on any patch is a statement about all pairs and all patches", "anchors": ["src/choclo/prism/_magnetic.py: magnetic_e, magnetic_n, magnetic_u, magnetic_ee, magnetic_nn, magnetic_uu, magnetic_en, magnetic_eu, magnetic_nu", "src/choclo/dipole/_forward.py: magnetic_e, magnetic_n, magnetic_u"]}
{"id": "C119", "title": "Errors in the coordinates change the results continuously, with explicit bounds; largest potential and attraction of a prism", "statement": "Two prisms of the same density: at every observation point (outside, on the surface, inside) the potentials differ by at most 2 pi G |rho| R^2 and the acceleration vectors by at most 4 pi G |rho| R, where a ball of radius R has the volume that does not belong to both prisms; at distance at least d from both, the gravity gradients differ by at most 2 G |rho| v / d^3, the magnetic components by 2 mu0/4pi |M| v / d^3 and the magnetic gradients by 6 mu0/4pi |M| v / d^4, v being that volume. If every coordinate of the observation point and every boundary is wrong by at most delta, v is at most 2 delta times the surface area of the prism grown by 2 delta. In particular no prism of volume V has a potential above 2 pi G |rho| R^2 or an attraction above 4 pi G |rho| R anywhere, R being the radius of the ball of volume V.", "quantifier": "for every two prisms, every two observation points, every density and magnetization, every delta and every component; exact arithmetic", "why_tests_cant": "a test perturbs chosen coordinates by chosen amounts; the bound is for all perturbations, including those that move the observation point through a face of the prism, where derivatives of the acceleration do not exist", "anchors": ["src/choclo/prism/_gravity.py: gravity_pot, gravity_e, gravity_n, gravity_u, gravity_ee, gravity_nn, gravity_uu, gravity_en, gravity_eu, gravity_nu", "src/choclo/prism/_magnetic.py: magnetic_e, magnetic_n, magnetic_u, magnetic_ee, magnetic_nn, magnetic_uu, magnetic_en, magnetic_eu, magnetic_nu"]}
{"id": "C120", "title": "Sign, exchange, mirror and renaming symmetries hold to the last bit for float32 and float64 arguments", "statement": "When every argument may be a float32 or a float64: distance_cartesian and distance_spherical are symmetric in the two points; exchanging observation point and source negates the acceleration of a point mass and leaves potential, tensor and dipole field unchanged; negating mass, density, moment or magnetization negates every result; negating one coordinate of both points (and of the moment) changes the sign once per occurrence of the axis in the component; exchanging the roles of easting and northing renames the components (gravity_en excepted). All of this bit for bit, with the same type of the result and the same exceptions, NaN and infinities included.", "quantifier": "every pair of sign-symmetric arithmetics (IEEE binary32 with binary64 among them), every argument and every assignment of the two types; for the spherical distance radii whose double does not overflow", "why_tests_cant": "the claim ranges over every bit pattern and every mixture of types; the type of an intermediate result decides where rounding happens and a test suite exercises only float64", "anchors": ["src/choclo/utils.py: distance_cartesian, distance_spherical", "src/choclo/point/_forward.py: gravity_pot, gravity_e, gravity_ee, gravity_en, …", "src/choclo/dipole/_forward.py: magnetic_e, magnetic_n, magnetic_u", "src/choclo/prism/_gravity.py: gravity_pot, gravity_ee, …", "src/choclo/prism/_magnetic.py: magnetic_e, magnetic_ee, …"]}
{"id": "C121", "title": "NaN in, NaN out for float32 and float64 arguments", "statement": "When every argument may be a float32 or a float64, a NaN among the coordinates makes both distance functions and all point.gravity_* return NaN without an exception; a NaN mass, moment, density, magnetization, coordinate or boundary never lets point.gravity_*, dipole.magnetic_*, prism.gravity_* or prism.magnetic_* return a number that is not NaN.", "quantifier": "every pair of arithmetics, every argument and every assignment of the two types", "why_tests_cant": "a missing propagation would show only for particular positions of the NaN, branches of the kernels and types", "anchors": ["src/choclo/utils.py: distance_cartesian, distance_spherical", "src/choclo/point/_forward.py", "src/choclo/dipole/_forward.py", "src/choclo/prism/_kernels.py: _safe_log, _safe_atan2, _kernel_iii, _kernel_iij", "src/choclo/prism/_gravity.py", "src/choclo/prism/_magnetic.py"]}
{"id": "C122", "title": "Exact translations and coincident points for float32 and float64 arguments", "statement": "For every assignment of float32 and float64 to the coordinates: translating observation point and source exactly (all translated numbers being the arguments passed) changes no bit of any distance, point, dipole or prism result, exceptions and NaN included; at the source itself the distance is exactly 0 and every point.gravity_* and dipole.magnetic_* raises ZeroDivisionError, whatever mass or moment.", "quantifier": "every pair of arithmetics (exact at zero for the second part), all points, prisms with boundaries in any order (opposite boundaries of the same type), all source parameters, every assignment of types", "why_tests_cant": "quantifies over all points and types; float32 and float64 coordinates of the same point must cancel exactly in the mixed subtraction", "anchors": ["src/choclo/utils.py: distance_cartesian", "src/choclo/point/_forward.py", "src/choclo/dipole/_forward.py", "src/choclo/prism/_gravity.py: _evaluate_kernel", "src/choclo/prism/_magnetic.py: _calculate_component"]}
{"id": "C123", "title": "The densities of a model made of prisms are determined by gravity data outside it", "statement": "For finitely many prisms that do not overlap, one gravity component summed over the prisms (the potential, a component of the acceleration or of the tensor), known on any open patch outside a box around them, determines the density of every prism. In such a patch there are as many observation points as prisms at which the Jacobian of the user guide is invertible, whatever the threads do, and at which the forward model of the user guide determines the densities. If prisms overlap this can fail: a prism minus its two halves has no field outside.", "quantifier": "for every finite family of proper prisms with disjoint interiors (more generally: with different high corners), every component, all densities, every box around the prisms, every open patch reaching outside it, and for the Jacobian every number of threads, distribution of points and schedule; exact arithmetic", "why_tests_cant": "it says that no vector of densities, for no model, is invisible on any patch: an open set of points and infinitely many models", "anchors": ["src/choclo/prism/_gravity.py: gravity_pot, gravity_e, gravity_n, gravity_u, gravity_ee, gravity_nn, gravity_uu, gravity_en, gravity_eu, gravity_nu", "doc/user_guide/jacobian.rst: build_jacobian", "doc/user_guide/how-to-use.rst: gravity_upward_jit"]}
{"id": "C124", "title": "The magnetizations of a model made of prisms are determined by magnetic data outside it", "statement": "For finitely many prisms that do not overlap, one component of the magnetic field or of its gradient summed over the prisms, known on any open patch outside a box around them, determines the magnetization vector of every prism; three well-chosen points of the patch for each prism are enough.", "quantifier": "for every finite family of proper prisms with disjoint interiors (more generally: with different high corners), every field or gradient component, all magnetizations, every box around the prisms and every open patch reaching outside it; exact arithmetic", "why_tests_cant": "it says that no nonzero choice of magnetizations is invisible to one component on any patch: an open set of points and infinitely many models", "anchors": ["src/choclo/prism/_magnetic.py: magnetic_e, magnetic_n, magnetic_u, magnetic_ee, magnetic_nn, magnetic_uu, magnetic_en, magnetic_eu, magnetic_nu"]}
{"id": "C125", "title": "A finite distribution of point masses or dipoles is determined by its field on a patch", "statement": "If two finite distributions of point masses have the same total of one gravity component on an open patch, they consist of the same masses at the same places; the same holds for dipoles and one component of the magnetic field. For sources at given different places, in any patch there are as many observation points as sources at which the data determine the masses (equivalent sources).", "quantifier": "for all finite distributions of masses or moments over points of space, every component, every nonempty open patch; exact arithmetic", "why_tests_cant": "it excludes every alternative distribution, of any number of sources, as an explanation of the same data", "anchors": ["src/choclo/point/_forward.py: gravity_pot, gravity_e, gravity_n, gravity_u, gravity_ee, gravity_nn, gravity_uu, gravity_en, gravity_eu, gravity_nu", "src/choclo/dipole/_forward.py: magnetic_e, magnetic_n, magnetic_u"]}
{"id": "C126", "title": "External data determine exactly the distribution a model of prisms represents", "statement": "Take any two models made of prisms with positive edges, of whatever number and shape, overlapping or not, inside a box. The sums of one gravity component (any of the ten) returned for the two models agree on an open patch outside the box if and only if the two models have the same total density at every point that is on no face. The same holds for any component of the magnetic field or gradient and the total magnetization.", "quantifier": "all finite families of prisms and densities / magnetizations, all components, all patches; exact arithmetic", "why_tests_cant": "the claim is about all models and about data on a continuum of points; a test compares two models at a few points", "anchors": ["src/choclo/prism/_gravity.py: gravity_pot, gravity_e, gravity_n, gravity_u, gravity_ee, gravity_nn, gravity_uu, gravity_en, gravity_eu, gravity_nu", "src/choclo/prism/_magnetic.py: magnetic_e, magnetic_n, magnetic_u, magnetic_ee, magnetic_nn, magnetic_uu, magnetic_en, magnetic_eu, magnetic_nu"]}
{"id": "C127", "title": "Which observation points make the user guide's inverse problem solvable", "statement": "For the forward model and Jacobian of the user guide: the data determine the densities if and only if the columns of the Jacobian that `build_jacobian` returns (whatever the schedule) are linearly independent; with fewer points than prisms they never do; with at least as many points as prisms that do not overlap, arbitrarily small displacements of any points outside make the data determine the densities; and once they do, they do for all points near by. Any left inverse of the matrix of Newton's integrals, applied to the data the forward model returns in double precision, recovers the densities up to the absolute values of its entries times the error bound of the data. For at most 2^40 prisms and moderate positions and densities the data are always finite and every density is recovered within the sum of the magnitudes of its row of the inverse times the explicit bound of C86.", "quantifier": "all numbers of points and prisms, all positions, all thread schedules", "why_tests_cant": "genericity is a statement about an open dense set of survey designs, and the schedule is arbitrary", "anchors": ["doc/user_guide/how-to-use.rst: gravity_upward", "doc/user_guide/jacobian.rst: build_jacobian", "src/choclo/prism/_gravity.py: gravity_u"]}
{"id": "C128", "title": "Magnetic gradient at edges: NaN warranted for components across the edge, unnecessary for those along it", "statement": "On an edge parallel to axis a (corners included) the six magnetic gradient functions return NaN. If the magnetization has a component along another axis b, and c is the third axis, the functions bb, bc and cc are unbounded at exterior points in every neighbourhood of every point of the edge. On the open edge the functions that involve a (aa, ab, ac) have finite limits from outside whatever the magnetization, and so have all six if the magnetization is parallel to the edge: NaN is returned there although a continuous value exists.", "quantifier": "all proper prisms, edges, points of edges and magnetizations; exact arithmetic", "why_tests_cant": "limits and unboundedness in every neighbourhood are not observable at finitely many points", "anchors": ["src/choclo/prism/_magnetic.py: magnetic_ee, magnetic_nn, magnetic_uu, magnetic_en, magnetic_eu, magnetic_nu", "src/choclo/prism/_utils.py: is_point_on_edge"]}
{"id": "C129", "title": "Spherical distances with float32 arguments", "statement": "Calls of distance_spherical with any mixture of float32 and float64 arguments return, between geographic positions with radii between 1e-6 and 1e12 m whose exact distance d satisfies d^2 >= 2^-14 rp rq (about 50 km on the Earth), a finite number within 2^-20 d + 2^-15 rp rq / d of the exact distance, never NaN; distance_spherical_core on rounded sines, cosines and longitudes satisfies the same bound, its cosine of the angle is within 2^-16 and the cosine of the longitude difference within 2^-17 of the exact ones. Closer points are not covered, and cannot be: with float32 angles the distance from a point at latitude 4 degrees to itself is NaN, and at latitude 8 degrees it is about r/2900 (more than 2 km on the Earth), for every longitude and radius.", "quantifier": "all mixtures of argument types, all geographic angles, all radii in the range, all pairs of positions", "why_tests_cant": "The accuracy depends on rounding at every step of the float32 code path for every pair of positions; NaN appears only at isolated latitudes, which sampled tests in double precision do not hit.", "anchors": ["src/choclo/utils.py: distance_spherical, distance_spherical_core"]}
{"id": "C130", "title": "Long prisms become two-dimensional bodies, with an explicit truncation error", "statement": "If a prism extends at least L beyond the observation point on both sides along northing, then its easting and upward accelerations differ from those of its cross-section filled with infinite lines of mass (2 G density times offset over squared distance, integrated over the section) by at most G |density| x section area x reach / L^2, and its northing acceleration is at most G |density| x section area / L, at any observation point, inside or on the boundary included. Outside the prism every tensor component differs from that of the two-dimensional body by at most 2 G |density| area / L^2, and every magnetic component from that of infinite lines of dipoles (in which the magnetization along the strike plays no part) by at most 2 (mu0/4 pi) (|Me|+|Mn|+|Mu|) area / L^2. Hence, as south goes to minus infinity and north to plus infinity in whatever way, the returned values converge to the two-dimensional fields.", "quantifier": "all prisms, all observation points strictly between the southern and northern bounds (outside the prism for tensor and magnetic field), all lengths L > 0 available on both sides, all densities and magnetizations, all families of prisms with a fixed section and bounds going to infinity (exact arithmetic)", "why_tests_cant": "A test compares one long prism with one two-dimensional formula up to a tolerance chosen to make it pass; the truncation error as a function of length, section and point, and the limit itself, quantify over all of them.", "anchors": ["src/choclo/prism/_gravity.py: gravity_e, gravity_n, gravity_u, gravity_ee, gravity_nn, gravity_uu, gravity_en, gravity_eu, gravity_nu", "src/choclo/prism/_magnetic.py: magnetic_e, magnetic_n, magnetic_u", "src/choclo/prism/_kernels.py: kernel_e, kernel_n, kernel_u, kernel_ee, kernel_nn, kernel_uu, kernel_en, kernel_eu, kernel_nu"]}
{"id": "C131", "title": "User-guide programs with float32 arrays: forward model, Jacobian and their product", "statement": "Run the forward loops and build_jacobian of the user guide with float32 arrays for coordinates, prisms or densities (or a mixture). Each result is the left-to-right float64 sum, from zero, of what gravity_u returns, converted to float64; each entry of the Jacobian is what gravity_u returns for the density 1.0, converted to float64. With Numba's types and arithmetic the serial loop, the parallel loop and build_jacobian always return, and the parallel loop returns bit for bit what the serial one does for every distribution of the points and every interleaving. A finite result differs from the sum of Newton's integrals by at most the sum of the single-precision bounds of the prisms plus a double-precision summation error; jacobian @ densities (in any order, with or without fused multiply-adds) differs from the forward model by rounding in double precision only, although both have single-precision errors. With ordered prisms, offsets that are zero or between 2^-20 and 2^24 m, moderate densities and at most 2^40 prisms, both are finite at every point, with the explicit bound (2^-4 + M 2^-47) G L sum |density| against the sum of Newton's integrals, where L bounds the offsets (plus M 2^-1073 for the product); for the forward model also with the sharper sum of the bounds of the prisms.", "quantifier": "all numbers of points, prisms and threads, all array contents (any mixture of float32 and float64), all distributions of points to threads, all interleavings, all summation orders of the matrix product; for the bounds: ordered prisms, offsets zero or between 2^-20 and 2^24 m, moderate densities", "why_tests_cant": "ranges over all array contents, sizes and schedules; the bounds are against integrals of real numbers", "anchors": ["doc/user_guide/how-to-use.rst: gravity_upward_jit, gravity_upward_parallel", "doc/user_guide/jacobian.rst: build_jacobian", "src/choclo/prism/_gravity.py: gravity_u"]}
{"id": "C132", "title": "User-guide loops with arrays whose lengths do not fit", "statement": "gravity_upward_slow on three coordinate arrays returns if and only if there are no points, or no prisms, or northing and upward are at least as long as easting, densities is at least as long as prisms, and prisms has six columns; what is beyond these lengths is ignored. Otherwise it raises: ValueError unless there are three coordinate arrays; IndexError if northing, upward or densities is empty; else TypeError if prisms does not have six columns; else IndexError. When the lengths fit, the compiled loops (serial and parallel) read nothing beyond the arrays and return exactly what the interpreted loop returns, whatever is in memory next to the arrays. Unlike the interpreted loop, the compiled ones ignore columns after the sixth, and with too few densities they do not raise but read beyond the array, which can make every result NaN.", "quantifier": "all lengths and contents of the arrays, all contents of memory beyond them, all thread counts, distributions and interleavings, every monotone arithmetic", "why_tests_cant": "ranges over all lengths, contents and out-of-range memory", "anchors": ["doc/user_guide/how-to-use.rst: gravity_upward_slow, gravity_upward_jit, gravity_upward_parallel", "src/choclo/prism/_gravity.py: gravity_u"]}
{"id": "C133", "title": "Integrals over whole planes: total mass and zero net gradients", "statement": "In exact arithmetic, on every plane perpendicular to a coordinate axis: the acceleration component normal to the plane of a point source off the plane is integrable over the whole plane and integrates to 2 pi G mass (negative when the source is on the lower side), and that of a prism, the plane touching or cutting it included, to 2 pi G times the mass above minus 2 pi G times the mass below the plane, whatever the shape, position and distance (so the mass can be read off one survey plane); over any part of the plane the integral never exceeds 2 pi G |density| volume, and for a non-negative density it grows with the part.  All second- and third-order point kernels, all gravity tensor components of point sources and prisms, the field of dipoles, and the field and the field's gradients of prisms integrate to zero over every plane that misses the source.", "quantifier": "every axis, plane, point source, mass, prism, density, magnetization vector, dipole moment, kernel and component; every part of the plane", "why_tests_cant": "the integrals extend over unbounded planes with uncountably many observation points; quadrature on a grid only samples them", "anchors": ["src/choclo/point/_forward.py: gravity_e, gravity_n, gravity_u, gravity_ee, gravity_nn, gravity_uu, gravity_en, gravity_eu, gravity_nu", "src/choclo/point/_kernels.py: kernel_ee, kernel_eee, kernel_enu", "src/choclo/prism/_gravity.py: gravity_e, gravity_n, gravity_u, gravity_ee, gravity_nn, gravity_uu, gravity_en, gravity_eu, gravity_nu", "src/choclo/prism/_magnetic.py: magnetic_e, magnetic_n, magnetic_u, magnetic_ee, magnetic_nn, magnetic_uu, magnetic_en, magnetic_eu, magnetic_nu", "src/choclo/dipole/_forward.py: magnetic_e, magnetic_n, magnetic_u"]}
{"id": "C134", "title": "Upward continuation", "statement": "Take any axis-parallel plane with all sources on its lower side. The value returned at any point above the plane is the average of the values returned on the plane with the weights height/(2 pi distance^3): that integral exists and equals the value. This holds for every component of gravity_* of a point source and every kernel_* of choclo.point, for every gravity_* of a prism strictly below the plane (for potential and acceleration also of one that touches it), for magnetic_e/n/u of a dipole, and for every magnetic field and gradient component of a prism strictly below the plane. The weights are non-negative with integral one, so errors in data on the plane are not amplified above it and no value above exceeds the largest on the plane; and one gravity component (or the three magnetic ones) on any open patch of the plane determines the prism and its density (magnetization).", "quantifier": "all ordered prisms, point sources and dipoles, all axes and planes above them, all observation points above the plane, all components, all real densities, masses, moments and magnetizations, all measurable data; exact arithmetic", "why_tests_cant": "an identity between the value at a point and an integral over an infinite plane, for a continuum of planes, points and sources", "anchors": ["src/choclo/point/_forward.py: gravity_pot, gravity_e, gravity_ee, gravity_en", "src/choclo/point/_kernels.py: kernel_pot, kernel_e, kernel_eee", "src/choclo/prism/_gravity.py: gravity_pot, gravity_u, gravity_uu, gravity_en", "src/choclo/dipole/_forward.py: magnetic_e, magnetic_n, magnetic_u", "src/choclo/prism/_magnetic.py: magnetic_e, magnetic_ee, magnetic_eu"]}
{"id": "C135", "title": "Equivalent layers: a field above a plane from its normal component on the plane", "statement": "Take any axis-parallel plane with the source on its lower side (for gravity a prism may touch it) and let sigma be the normal acceleration returned on the plane divided by -2 pi G. Point masses spread over the plane with surface density sigma have the total mass of the source, and at every point above the plane the integral of gravity_* of those point masses is what gravity_* returns for the source itself, for all ten components. Likewise the three components magnetic_e/n/u of a dipole or a prism, and the six gradient components of a prism strictly below the plane, above the plane are integrals of the single component normal to the plane.", "quantifier": "all ordered prisms, point sources and dipoles, all axes and planes above them, all observation points above the plane, all components, all real densities, masses, moments and magnetizations; exact arithmetic", "why_tests_cant": "an equality between the field of a body and the integral of the fields of uncountably many point masses on an infinite plane, at every point above", "anchors": ["src/choclo/point/_forward.py: gravity_pot, gravity_e, gravity_ee, gravity_en", "src/choclo/point/_kernels.py: kernel_ee, kernel_en", "src/choclo/prism/_gravity.py: gravity_pot, gravity_u, gravity_uu, gravity_en", "src/choclo/dipole/_forward.py: magnetic_e, magnetic_n, magnetic_u", "src/choclo/prism/_magnetic.py: magnetic_e, magnetic_ee, magnetic_eu"]}
{"id": "C136", "title": "Fields in the wavenumber domain", "statement": "Let S(k) be the two-dimensional Fourier transform over an axis-parallel plane of the acceleration normal to it, as returned by gravity_e/n/u, with all sources on the lower side. For a point mass S(k) = -2 pi G m exp(-|k| depth) exp(-i k.position); for a prism (which may touch the plane) S(k) is the integral of that over its volume, with the usual closed form as a product of three differences of exponentials. Moving the plane up by d multiplies S by exp(-|k| d). The transform of every tensor component g_ij is S times K_i K_j / (-|k|), and that of magnetic_e/n/u of a dipole or prism is mu0/(4 pi G) K_i (K.M) / (-|k|) times the S of a unit mass or density, where K is i k along the plane and -|k| across it: the filters used for derivatives, upward continuation, pseudo-gravity and reduction to the pole are exact for this library's fields.", "quantifier": "all ordered prisms, point masses and dipoles, all axes and planes above them, all wave vectors, all tensor and magnetic field components, all real densities, masses, moments and magnetizations; exact arithmetic", "why_tests_cant": "integrals of oscillating functions over an infinite plane, for a continuum of wave vectors, planes and sources; a discrete transform of finitely many samples only approximates them", "anchors": ["src/choclo/point/_forward.py: gravity_e, gravity_n, gravity_u, gravity_ee, gravity_en", "src/choclo/prism/_gravity.py: gravity_e, gravity_n, gravity_u, gravity_uu, gravity_en", "src/choclo/dipole/_forward.py: magnetic_e, magnetic_n, magnetic_u", "src/choclo/prism/_magnetic.py: magnetic_e, magnetic_n, magnetic_u"]}
{"id": "C137", "title": "Interpreted calls on built-in floats, np.float64 or a mixture give the compiled result or a known exception", "statement": "With NUMBA_DISABLE_JIT=1 and arguments that are built-in floats, np.float64 or any mixture (including NaN, infinities and zeros of both signs): if the interpreted call returns, the compiled call on the same numbers returns the same number (up to the sign of a zero), or it raises ZeroDivisionError and the interpreted result is infinite or NaN. The forward functions and distances never raise ZeroDivisionError when interpreted; kernels called directly do so only if the distance is not an np.float64, and then the compiled kernel raises too. OverflowError is raised only if the power of a finite built-in float overflows: the square of a coordinate difference (for kernels called directly also the third power of one or a power up to 7 of the distance).", "quantifier": "all public functions; all float arguments of either Python type in every mixture; every floating-point arithmetic that rounds 0 to 0 and has a nonzero pi", "why_tests_cant": "The type of an intermediate value (built-in or NumPy) depends on the types of all arguments it is computed from, so the exceptions possible form a case distinction over 2^n mixtures of argument types and all values.", "anchors": ["src/choclo/utils.py: distance_cartesian, distance_spherical, distance_spherical_core", "src/choclo/point/_kernels.py: kernel_pot, kernel_e, kernel_ee, kernel_eee", "src/choclo/point/_forward.py: gravity_pot, gravity_e, gravity_ee", "src/choclo/dipole/_forward.py: magnetic_field, magnetic_e, magnetic_n, magnetic_u", "src/choclo/prism/_kernels.py: kernel_pot, kernel_ee, kernel_eee, _safe_atan2, _safe_log", "src/choclo/prism/_gravity.py: gravity_pot, gravity_ee, _evaluate_kernel", "src/choclo/prism/_magnetic.py: magnetic_field, magnetic_e, _calculate_component"]}
{"id": "C138", "title": "When an interpreted call on built-in floats raises", "statement": "An interpreted distance, point mass or dipole function, prism potential or prism acceleration raises OverflowError exactly if the square of one of the coordinate differences it uses is a built-in float that overflows; the prism tensor and magnetic functions then raise OverflowError or return NaN. In double precision, if all coordinates are floats of size at most 2^510, no forward function raises when interpreted, whatever the other arguments, and the result is the compiled one whenever the compiled call returns. With built-in floats the distance from (2^600, 0, 0) to the origin raises OverflowError. A point kernel called with a zero distance raises ZeroDivisionError if the distance is a built-in float and returns infinity if it is an np.float64. A prism kernel whose angle is 0/0 returns the integer 0 when interpreted and -0.0 when compiled.", "quantifier": "all float arguments of either Python type in every mixture; overflow criterion for every arithmetic, range for IEEE binary64", "why_tests_cant": "Whether one of the up to 24 squares formed in the eight-fold loop raises depends on all coordinates; that no call raises in a range of coordinates is a statement about all of them.", "anchors": ["src/choclo/utils.py: distance_cartesian, distance_spherical, distance_spherical_core", "src/choclo/point/_kernels.py: kernel_pot, kernel_e, kernel_ee, kernel_eee", "src/choclo/point/_forward.py: gravity_pot, gravity_e, gravity_ee", "src/choclo/dipole/_forward.py: magnetic_field, magnetic_e, magnetic_n, magnetic_u", "src/choclo/prism/_kernels.py: kernel_pot, kernel_ee, kernel_eee, _safe_atan2, _safe_log", "src/choclo/prism/_gravity.py: gravity_pot, gravity_ee, _evaluate_kernel", "src/choclo/prism/_magnetic.py: magnetic_field, magnetic_e, _calculate_component"]}
{"id": "C139", "title": "The sensitivity matrix of the user guide with arrays whose lengths do not fit", "statement": "build_jacobian of the user guide returns exactly one matrix for arrays of any lengths and any number of columns, given the contents of memory, whatever the threads do. Rows of points that have all three coordinates are correct whatever is in memory beyond the arrays (entries: gravity_u of unit density from the first six columns); so if northing and upward are at least as long as easting and there are at least six columns the matrix does not depend on memory, threads or further columns. Points without northing or upward coordinate raise nothing, and their rows can be NaN. With five columns the top of a prism is taken from the west boundary of the next prism. jacobian @ densities raises ValueError exactly if the number of densities is not the number of prisms, although the compiled forward loop returns numbers for the same arrays.", "quantifier": "all array lengths, numbers of columns, contents, contents of memory beyond the arrays, numbers of threads, distributions and interleavings; every monotone arithmetic", "why_tests_cant": "Reads beyond an array give different results in every process; that the other rows are unaffected and that nothing raises must hold for all memory contents and schedules.", "anchors": ["doc/user_guide/jacobian.rst: build_jacobian", "doc/user_guide/how-to-use.rst: gravity_upward_parallel", "src/choclo/prism/_gravity.py: gravity_u"]}
{"id": "C140", "title": "Surveys of finite extent: what part of the mass they find, and the truncation error of upward continuation", "statement": "Over the disc of radius R around the point straight above a point mass at depth h, the normal acceleration returned by point.gravity_u (or gravity_e, gravity_n for vertical planes) integrates to 2 pi G mass (1 - h / sqrt(h^2 + R^2)). For a prism of non-negative density below a plane, lying between the depths h1 and h2 and within the horizontal distance d of a centre: a survey of any shape that contains the disc of radius R > d around the centre finds at least the part 1 - h2 / sqrt(h2^2 + (R - d)^2) of 2 pi G times its mass and never more than all of it, and a survey contained in that disc finds at most the part 1 - h1 / sqrt(h1^2 + (R + d)^2). In particular R >= d + h2/eps suffices for the mass to be right to the fraction eps. Continuing upward only the data of a region that contains the disc of radius R around the point below p changes the value at p, at height h above the plane, by at most K h / sqrt(h^2 + R^2) if the data left out are at most K in absolute value.", "quantifier": "all planes perpendicular to an axis, all sources below them, all prisms (also touching the plane), all survey shapes, radii, densities and masses; exact arithmetic", "why_tests_cant": "the integrals are over continuous regions of the plane and the bounds hold for every shape and size of survey and every prism", "anchors": ["src/choclo/point/_forward.py: gravity_e, gravity_n, gravity_u", "src/choclo/prism/_gravity.py: gravity_e, gravity_n, gravity_u", "src/choclo/point/_kernels.py: kernel_e, kernel_n, kernel_u"]}
{"id": "C141", "title": "Depth and mass bounds from values at a single point", "statement": "For every model made of finitely many prisms of non-negative density, or of point masses, all at least h below an observation point in the direction of an axis a, the summed exact values of the gravity functions at that point satisfy: the acceleration along a points to the sources; h |g_a| <= V; 2 h |g_b| <= V for the other accelerations; h |T_bc| <= 2 |g_a| for every gradient component and 2 h |T_bc| <= 3 |g_a| for the off-diagonal ones; h^2 |g_a| <= G M and h V <= G M for the total mass M. Hence the top of the shallowest source is no deeper than 2 |g_a| / |T_bc| (1.5 |g_a| / |T_bc| off the diagonal), whatever the model. All the constants are sharp: attained by one point mass straight below the point or at 45 degrees.", "quantifier": "all finite models of prisms or point masses with non-negative densities or masses, all observation points above them, all three directions, all components; exact arithmetic", "why_tests_cant": "the bounds hold for every number, shape and position of sources; tests evaluate chosen models only", "anchors": ["src/choclo/prism/_gravity.py: gravity_pot, gravity_e, gravity_n, gravity_u, gravity_ee, gravity_nn, gravity_uu, gravity_en, gravity_eu, gravity_nu", "src/choclo/point/_forward.py: gravity_pot, gravity_e, gravity_n, gravity_u, gravity_ee, gravity_nn, gravity_uu, gravity_en, gravity_eu, gravity_nu"]}
{"id": "C142", "title": "Equivalent sources straight below the observation points: one and only one solution", "statement": "Put one point mass at a fixed depth h > 0 straight below each of finitely many different observation points of a plane. The matrix of the potentials these sources produce at the points is positive definite, that of the normal accelerations negative definite, that of the normal gradients positive definite. Hence for any data of one of these three kinds there is exactly one choice of masses (or of coefficients of kernel_pot, kernel_u, kernel_uu) that reproduces them, and the same holds for dipoles with moments normal to the plane and the normal magnetic component. If two observation points coincide, masses that are not all zero produce no field.", "quantifier": "any finite number of different points of any plane perpendicular to an axis, any depth, any data; exact arithmetic", "why_tests_cant": "solvability of the linear system for every configuration of points, every depth and all data", "anchors": ["src/choclo/point/_forward.py: gravity_pot, gravity_e, gravity_n, gravity_u, gravity_ee, gravity_nn, gravity_uu", "src/choclo/point/_kernels.py: kernel_pot, kernel_e, kernel_n, kernel_u, kernel_ee, kernel_nn, kernel_uu", "src/choclo/dipole/_forward.py: magnetic_e, magnetic_n, magnetic_u"]}
{"id": "C143", "title": "First moments of data on a plane: centre of mass and total magnetic moment", "statement": "On a plane above the sources, the first moment of the normal acceleration (its values times the offset along an axis in the plane from a reference point), taken over discs around the reference point that grow without bound, tends to -2 pi G times the first moment of the mass: mass times offset for a point source, and the sum of density times volume times offset of the centre for any finite family of prisms, which may touch the plane. So the moment divided by the total over the plane gives the horizontal place of the centre of mass. Of the components of the gravity gradient only the one along the normal and the axis of the moment has a first moment, 2 pi G times the mass. For a dipole, and for any finite family of uniformly magnetized prisms strictly below the plane, the first moment of the normal field component tends to mu0/2 times the component of the total magnetic moment along the axis, that of the component along the axis to mu0/2 times the normal component of the total magnetic moment, and that of the third component to zero (Helbig's integrals), wherever the sources are and about whatever reference point.", "quantifier": "all three orientations of the plane, both axes in it, all reference points, all positions and masses or moments, all finite families of ordered prisms below the plane with any densities or magnetizations (exact arithmetic)", "why_tests_cant": "the statement is a limit of conditionally convergent integrals over an unbounded plane, for a continuum of sources", "anchors": ["src/choclo/point/_forward.py: gravity_e, gravity_n, gravity_u, gravity_eu, gravity_nu", "src/choclo/prism/_gravity.py: gravity_e, gravity_n, gravity_u, gravity_ee, gravity_eu, gravity_nu", "src/choclo/dipole/_forward.py: magnetic_e, magnetic_n, magnetic_u", "src/choclo/prism/_magnetic.py: magnetic_e, magnetic_n, magnetic_u"]}
{"id": "C144", "title": "Interpreted calls with integers", "statement": "With the JIT disabled, coordinates, masses, densities, moments and magnetizations may be Python integers, floats or a mixture: as long as the integers are below a bound that keeps every integer of the call exactly representable (12 C^2 <= 2^53 for distances, gravity and magnetic field, so C = 2^24; 120 C^3 for the third-order point kernels; 64 C^4 for magnetic gradients, so C = 2048), the call returns the number that the compiled function returns for the same values as floats, raises ZeroDivisionError only when the compiled function does, and raises OverflowError only if the square (or cube) of a difference of float coordinates overflows. In double precision with moderate coordinates it never raises. Python integers do not wrap around, so the interpreted call stays right where the compiled one on int64 overflows.", "quantifier": "every function and kernel, every mixture of Python integers (within the bound), built-in floats and np.float64 as arguments, every arithmetic exact on integers up to L", "why_tests_cant": "The kinds of twelve arguments can be mixed in 3^12 ways and the boundary at which integer arithmetic stops being exact is far from the values that tests use.", "anchors": ["src/choclo/utils.py: distance_cartesian, distance_spherical, distance_spherical_core", "src/choclo/point/_kernels.py: kernel_e, kernel_eee, …", "src/choclo/point/_forward.py: gravity_pot, gravity_u, …", "src/choclo/dipole/_forward.py: magnetic_field, magnetic_e, …", "src/choclo/prism/_kernels.py: kernel_pot, kernel_eee, _kernel_iii, …", "src/choclo/prism/_gravity.py: gravity_pot, gravity_ee, …", "src/choclo/prism/_magnetic.py: magnetic_field, magnetic_e, magnetic_ee, …"]}
{"id": "C145", "title": "The JIT switch does not change integer calls", "statement": "Calling a distance, gravity or magnetic function with any mixture of Python integers (up to the bounds of C89 and C144) and floats, the compiled function (which receives int64 and float64) and the interpreted function (NUMBA_DISABLE_JIT=1, which receives Python integers and floats) return the same number, as a float; the interpreted call returns infinity or NaN where the compiled one raises ZeroDivisionError, never raises ZeroDivisionError itself, and raises OverflowError only if the square of a difference of float coordinates overflows.", "quantifier": "every distance, gravity and magnetic function, every mixture of integers within the bounds and floats, every arithmetic exact on integers up to L < 2^63", "why_tests_cant": "The test suite is run once compiled and once interpreted (Makefile) on a handful of float arguments; equality of the two programs on every mixture of types is a relation between two semantics.", "anchors": ["src/choclo/utils.py: distance_cartesian, distance_spherical", "src/choclo/point/_forward.py: gravity_pot, gravity_u, …", "src/choclo/dipole/_forward.py: magnetic_field, …", "src/choclo/prism/_gravity.py: gravity_pot, …", "src/choclo/prism/_magnetic.py: magnetic_field, magnetic_ee, …"]}
{"id": "C146", "title": "Models made of prisms stand for bodies of variable density or magnetization, with an explicit error", "statement": "The sum of the values returned for the prisms of a model - touching, overlapping or of negative density - is the value of the body whose density is at each point the sum of the densities of the prisms that contain it. If the density of a body differs from that of the model by at most delta almost everywhere in a box B that contains the model, the sum of gravity_pot over the model differs from the potential integral of the body by at most what gravity_pot returns for B with density delta, at every observation point; each acceleration component by at most 4 pi G delta R, where B has at most the volume of a ball of radius R, at every observation point; each tensor component by at most 2 G delta vol(B)/d^3 and, for a vector magnetization that varies in length and direction, each magnetic field component by at most 2 (mu0/4pi) delta vol(B)/d^3, where B is at distance d or more. Cells of half diagonal h or less with the density sampled at their centres have delta <= K h when the density changes by at most K per metre, so refining the model converges.", "quantifier": "every finite family of prisms, every box that contains them, every measurable density or magnetization, every observation point (at distance d or more for the tensor and the magnetic field)", "why_tests_cant": "the number, shape and overlap of the prisms and the density function are unbounded; convergence is a statement about all refinements", "anchors": ["src/choclo/prism/_gravity.py: gravity_pot, gravity_e, gravity_n, gravity_u, gravity_ee, gravity_nn, gravity_uu, gravity_en, gravity_eu, gravity_nu", "src/choclo/prism/_magnetic.py: magnetic_e, magnetic_n, magnetic_u", "src/choclo/prism/_kernels.py: kernel_pot, kernel_e, kernel_n, kernel_u, kernel_ee, kernel_nn, kernel_uu, kernel_en, kernel_eu, kernel_nu", "src/choclo/point/_forward.py: gravity_ee", "src/choclo/dipole/_forward.py: magnetic_e"]}
{"id": "C147", "title": "Integer arguments without Numba: NumPy int64 scalars", "statement": "With NUMBA_DISABLE_JIT=1 and arguments that are np.int64 or np.float64 scalars in any mixture (the elements of integer arrays), every kernel and forward function agrees with its compiled version called with the same int64 and float64 arguments, whatever the integers, also when int64 arithmetic wraps around: if the compiled call returns, the interpreted call returns the identical number; if the compiled call raises ZeroDivisionError, the interpreted call returns something that is not a finite number. Hence interpreted calls never raise and a finite result is the compiled one; for integers within the bounds of C89 it is the result for the same numbers given as floats, bit for bit; and beyond those bounds the wrong results of compiled calls occur too: point.kernel_eee has the wrong sign for a displacement of 2^21 m, and prism.magnetic_ee of the prism from 1 m to 65536 m returns infinity or NaN where it returns a number for floats. (Python ints do not wrap around: C144.)", "quantifier": "all int64 and float64 arguments of every kernel and forward function, in any mixture, including integers whose squares and products wrap around, NaN, infinities; every rounding with finite non-zero images of the non-zero integers; for the comparison with floats, all integers within the bounds of C89", "why_tests_cant": "The test suite runs with and without the JIT on float64 arrays only; integer arguments and wrap-around form an unbounded space and the errors are silent.", "anchors": ["src/choclo/utils.py: distance_cartesian, distance_spherical, distance_spherical_core", "src/choclo/point/_kernels.py: kernel_pot, kernel_e, kernel_ee, kernel_eee", "src/choclo/point/_forward.py: gravity_pot, gravity_e, gravity_ee", "src/choclo/prism/_kernels.py: kernel_pot, kernel_ee, kernel_eee, _kernel_iii, _kernel_iij, _kernel_ijk", "src/choclo/prism/_gravity.py: gravity_pot, gravity_ee", "src/choclo/prism/_magnetic.py: magnetic_field, magnetic_ee", "src/choclo/dipole/_forward.py: magnetic_field, magnetic_e"]}
{"id": "C148", "title": "Unsigned integer coordinates", "statement": "When coordinates are integers, signed and unsigned in any mixture, within the bounds of C89, distance_cartesian, the potential and the six components of the gravity tensor of a point mass (of any mass), the third-order point kernels and the components of the field of a dipole with integer moment return, bit for bit, what they return for the same numbers given as floats, although the differences of unsigned coordinates wrap around modulo 2^64 when they are negative. The components of the acceleration agree too if, along their direction, the observation point is not beyond the source (not east of, north of, above it) or one of the two coordinates is signed. Otherwise they are wrong: the numerator of the kernel is 2^64 - (p - q) instead of -(p - q). For instance the gravity of a mass k metres below the observation point, all coordinates unsigned, points away from the mass and is more than 10^18/k times too strong.", "quantifier": "all int64 and uint64 coordinates within the bounds, in any mixture (the wrong values: all uint64 p > q), all masses, all integer moments within the bounds; every arithmetic that represents the integers up to L exactly", "why_tests_cant": "The tests use float64 arrays; whether a wrap-around cancels depends on signs and types of six coordinates at once, and the wrong results are returned silently.", "anchors": ["src/choclo/utils.py: distance_cartesian", "src/choclo/point/_kernels.py: kernel_e, kernel_n, kernel_u, kernel_ee, kernel_en, kernel_eee, kernel_enu", "src/choclo/point/_forward.py: gravity_pot, gravity_e, gravity_n, gravity_u, gravity_ee, gravity_en", "src/choclo/dipole/_forward.py: magnetic_e, magnetic_n, magnetic_u"]}
