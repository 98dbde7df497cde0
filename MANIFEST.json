{
 "claims": [
  {
   "property": "C01",
   "status": "proved",
   "theorems": [
    "C01_distance_cartesian",
    "C01_metric"
   ],
   "note": ""
  },
  {
   "property": "C02",
   "status": "proved",
   "theorems": [
    "C02_distance_spherical",
    "C02_periodic"
   ],
   "note": ""
  },
  {
   "property": "C03",
   "status": "proved",
   "theorems": [
    "C03_distance_spherical_core",
    "C03_same_distance"
   ],
   "note": ""
  },
  {
   "property": "C04",
   "status": "proved",
   "theorems": [
    "C04_distance_cartesian",
    "C04_distance_spherical"
   ],
   "note": ""
  },
  {
   "property": "C05",
   "status": "proved",
   "theorems": [
    "C05_kernels_are_derivatives",
    "C05_kernel_pot"
   ],
   "note": ""
  },
  {
   "property": "C06",
   "status": "proved",
   "theorems": [
    "C06_laplace"
   ],
   "note": ""
  },
  {
   "property": "C07",
   "status": "proved",
   "theorems": [
    "C07_raises_iff"
   ],
   "note": ""
  },
  {
   "property": "C08",
   "status": "proved",
   "theorems": [
    "C08_gravity_derivatives"
   ],
   "note": ""
  },
  {
   "property": "C09",
   "status": "proved",
   "theorems": [
    "C09_potential",
    "C09_newton",
    "C09_docstring_pot_wrong",
    "C09_docstring_e_wrong"
   ],
   "note": ""
  },
  {
   "property": "C10",
   "status": "proved",
   "theorems": [
    "C10_exchange_bits",
    "C10_negate_mass_bits",
    "C10_linear",
    "C10_exchange"
   ],
   "note": ""
  },
  {
   "property": "C11",
   "status": "proved",
   "theorems": [
    "C11_translation",
    "C11_homogeneity"
   ],
   "note": ""
  },
  {
   "property": "C12",
   "status": "proved",
   "theorems": [
    "C12_rotation"
   ],
   "note": ""
  },
  {
   "property": "C13",
   "status": "proved",
   "theorems": [
    "C13_field_is_components"
   ],
   "note": ""
  },
  {
   "property": "C14",
   "status": "proved",
   "theorems": [
    "C14_raises_iff",
    "C14_field_raises_iff"
   ],
   "note": ""
  },
  {
   "property": "C15",
   "status": "proved",
   "theorems": [
    "C15_minus_gradient",
    "C15_point_kernels"
   ],
   "note": ""
  },
  {
   "property": "C16",
   "status": "proved",
   "theorems": [
    "C16_div_curl_free"
   ],
   "note": ""
  },
  {
   "property": "C17",
   "status": "proved",
   "theorems": [
    "C17_linear",
    "C17_exchange",
    "C17_translation",
    "C17_homogeneity",
    "C17_reciprocity"
   ],
   "note": ""
  },
  {
   "property": "C18",
   "status": "proved",
   "theorems": [
    "C18_interior",
    "C18_edge",
    "C18_edges_by_direction",
    "C18_faces",
    "C18_cover",
    "C18_partition"
   ],
   "note": ""
  },
  {
   "property": "C19",
   "status": "proved",
   "theorems": [
    "C19_low_order",
    "C19_high_order",
    "C19_vertex",
    "C19_never_raises"
   ],
   "note": ""
  },
  {
   "property": "C20",
   "status": "proved",
   "theorems": [
    "C20_even",
    "C20_transverse",
    "C20_transverse_axis",
    "C20_axial"
   ],
   "note": ""
  },
  {
   "property": "C21",
   "status": "proved",
   "theorems": [
    "C21_point_integral",
    "C21_newton_integral"
   ],
   "note": ""
  },
  {
   "property": "C22",
   "status": "proved",
   "theorems": [
    "C22_point_integral",
    "C22_newton_integral"
   ],
   "note": ""
  },
  {
   "property": "C23",
   "status": "proved",
   "theorems": [
    "C23_point_integral"
   ],
   "note": ""
  },
  {
   "property": "C24",
   "status": "proved",
   "theorems": [
    "C24_gradient"
   ],
   "note": ""
  },
  {
   "property": "C25",
   "status": "proved",
   "theorems": [
    "C25_diagonal",
    "C25_face_hi",
    "C25_face_lo",
    "C25_off_diagonal"
   ],
   "note": ""
  },
  {
   "property": "C26",
   "status": "proved",
   "theorems": [
    "C26_nan",
    "C26_finite",
    "C26_nan_iff"
   ],
   "note": ""
  },
  {
   "property": "C27",
   "status": "proved",
   "theorems": [
    "C27_laplace_poisson"
   ],
   "note": ""
  },
  {
   "property": "C28",
   "status": "proved",
   "theorems": [
    "C28_face_limit",
    "C28_approachable"
   ],
   "note": ""
  },
  {
   "property": "C29",
   "status": "proved",
   "theorems": [
    "C29_negate_density_bits",
    "C29_add",
    "C29_smul"
   ],
   "note": ""
  },
  {
   "property": "C30",
   "status": "proved",
   "theorems": [
    "C30_cut",
    "C30_cut_field",
    "C30_cut_off_plane"
   ],
   "note": ""
  },
  {
   "property": "C31",
   "status": "proved",
   "theorems": [
    "C31_gravity",
    "C31_magnetic"
   ],
   "note": ""
  },
  {
   "property": "C32",
   "status": "proved",
   "theorems": [
    "C32_gravity",
    "C32_magnetic"
   ],
   "note": ""
  },
  {
   "property": "C33",
   "status": "proved",
   "theorems": [
    "C33_mirror"
   ],
   "note": ""
  },
  {
   "property": "C34",
   "status": "proved",
   "theorems": [
    "C34_gravity",
    "C34_magnetic"
   ],
   "note": ""
  },
  {
   "property": "C35",
   "status": "proved",
   "theorems": [
    "C35_potential_positive",
    "C35_attractive"
   ],
   "note": ""
  },
  {
   "property": "C36",
   "status": "proved",
   "theorems": [
    "C36_potential",
    "C36_acceleration"
   ],
   "note": ""
  },
  {
   "property": "C37",
   "status": "proved",
   "theorems": [
    "C37_zero",
    "C37_zero_off_normal",
    "C37_flat_face"
   ],
   "note": ""
  },
  {
   "property": "C38",
   "status": "proved",
   "theorems": [
    "C38_nan_iff",
    "C38_finite"
   ],
   "note": ""
  },
  {
   "property": "C39",
   "status": "proved",
   "theorems": [
    "C39_field_is_components"
   ],
   "note": ""
  },
  {
   "property": "C40",
   "status": "proved",
   "theorems": [
    "C40_poisson"
   ],
   "note": ""
  },
  {
   "property": "C41",
   "status": "proved",
   "theorems": [
    "C41_dipole_integral"
   ],
   "note": ""
  },
  {
   "property": "C42",
   "status": "proved",
   "theorems": [
    "C42_traceless"
   ],
   "note": ""
  },
  {
   "property": "C43",
   "status": "proved",
   "theorems": [
    "C43_gradient"
   ],
   "note": ""
  },
  {
   "property": "C44",
   "status": "proved",
   "theorems": [
    "C44_add",
    "C44_smul"
   ],
   "note": ""
  },
  {
   "property": "C45",
   "status": "proved",
   "theorems": [
    "C45_cut"
   ],
   "note": ""
  },
  {
   "property": "C46",
   "status": "proved",
   "theorems": [
    "C46_mirror"
   ],
   "note": ""
  },
  {
   "property": "C47",
   "status": "proved",
   "theorems": [
    "C47_kernel_integral"
   ],
   "note": ""
  },
  {
   "property": "C48",
   "status": "proved",
   "theorems": [
    "C48_distance_cartesian",
    "C48_distance_spherical",
    "C48_point_coordinate",
    "C48_point_mass",
    "C48_dipole",
    "C48_prism_gravity",
    "C48_prism_magnetic",
    "C48_dipole_coordinate",
    "C48_prism_gravity_returns",
    "C48_prism_field_returns"
   ],
   "note": ""
  },
  {
   "property": "C49",
   "status": "proved",
   "theorems": [
    "C49_gravity",
    "C49_magnetic"
   ],
   "note": ""
  },
  {
   "property": "C50",
   "status": "proved",
   "theorems": [
    "C50_distance",
    "C50_potential",
    "C50_acceleration",
    "C50_off_diagonal",
    "C50_double"
   ],
   "note": ""
  },
  {
   "property": "C51",
   "status": "proved",
   "theorems": [
    "C51_third_order",
    "C51_third_order_radius",
    "C51_double"
   ],
   "note": ""
  },
  {
   "property": "C52",
   "status": "proved",
   "theorems": [
    "C52_gravity",
    "C52_magnetic_field",
    "C52_gradient_raises"
   ],
   "note": ""
  },
  {
   "property": "C53",
   "status": "proved",
   "theorems": [
    "C53_far_field"
   ],
   "note": ""
  },
  {
   "property": "C54",
   "status": "proved",
   "theorems": [
    "C54_diagonal",
    "C54_double"
   ],
   "note": ""
  },
  {
   "property": "C55",
   "status": "proved",
   "theorems": [
    "C55_dipole",
    "C55_double"
   ],
   "note": ""
  },
  {
   "property": "C56",
   "status": "proved",
   "theorems": [
    "C56_kernel",
    "C56_double"
   ],
   "note": ""
  },
  {
   "property": "C57",
   "status": "proved",
   "theorems": [
    "C57_gravity",
    "C57_double",
    "C57_newton_double"
   ],
   "note": ""
  },
  {
   "property": "C58",
   "status": "proved",
   "theorems": [
    "C58_magnetic",
    "C58_field",
    "C58_double"
   ],
   "note": ""
  },
  {
   "property": "C59",
   "status": "proved",
   "theorems": [
    "C59_distance",
    "C59_point",
    "C59_dipole",
    "C59_prism_gravity",
    "C59_prism_magnetic",
    "C59_prism_field"
   ],
   "note": ""
  },
  {
   "property": "C60",
   "status": "proved",
   "theorems": [
    "C60_dipole_exchange",
    "C60_dipole_negate",
    "C60_point_mirror",
    "C60_dipole_mirror",
    "C60_magnetization_negate"
   ],
   "note": ""
  },
  {
   "property": "C61",
   "status": "proved",
   "theorems": [
    "C61_distance_zero",
    "C61_point",
    "C61_dipole"
   ],
   "note": ""
  },
  {
   "property": "C62",
   "status": "proved",
   "theorems": [
    "C62_nan"
   ],
   "note": ""
  },
  {
   "property": "C63",
   "status": "proved",
   "theorems": [
    "C63_distance_spherical",
    "C63_core",
    "C63_double"
   ],
   "note": ""
  },
  {
   "property": "C64",
   "status": "proved",
   "theorems": [
    "C64_inside",
    "C64_outside"
   ],
   "note": ""
  },
  {
   "property": "C65",
   "status": "proved",
   "theorems": [
    "C65_gauss",
    "C65_contained",
    "C65_disjoint"
   ],
   "note": ""
  },
  {
   "property": "C66",
   "status": "proved",
   "theorems": [
    "C66_point_tensor",
    "C66_dipole",
    "C66_prism_tensor",
    "C66_prism"
   ],
   "note": ""
  },
  {
   "property": "C67",
   "status": "proved",
   "theorems": [
    "C67_acceleration",
    "C67_tensor"
   ],
   "note": ""
  },
  {
   "property": "C68",
   "status": "proved",
   "theorems": [
    "C68_dipole",
    "C68_gradient"
   ],
   "note": ""
  },
  {
   "property": "C69",
   "status": "proved",
   "theorems": [
    "C69_potential_continuous",
    "C69_acceleration_continuous",
    "C69_total_derivative",
    "C69_tensor_continuous",
    "C69_magnetic_continuous"
   ],
   "note": ""
  },
  {
   "property": "C70",
   "status": "proved",
   "theorems": [
    "C70_prism_gravity",
    "C70_prism_gravity_closed",
    "C70_point_gravity",
    "C70_prism_tensor",
    "C70_dipole",
    "C70_prism_magnetic"
   ],
   "note": ""
  },
  {
   "property": "C71",
   "status": "proved",
   "theorems": [
    "C71_dipole",
    "C71_point_tensor",
    "C71_prism_tensor",
    "C71_prism_magnetic",
    "C71_prism_gradient"
   ],
   "note": ""
  },
  {
   "property": "C72",
   "status": "proved",
   "theorems": [
    "C72_bound",
    "C72_bouguer"
   ],
   "note": ""
  },
  {
   "property": "C73",
   "status": "proved",
   "theorems": [
    "C73_inclusion",
    "C73_axis",
    "C73_maximum"
   ],
   "note": ""
  },
  {
   "property": "C74",
   "status": "proved",
   "theorems": [
    "C74_off_diagonal",
    "C74_diagonal",
    "C74_magnetic_face",
    "C74_jump",
    "C74_approachable"
   ],
   "note": ""
  },
  {
   "property": "C75",
   "status": "proved",
   "theorems": [
    "C75_triangle",
    "C75_radii",
    "C75_rotation",
    "C75_scale",
    "C75_special",
    "C75_zero_iff"
   ],
   "note": ""
  },
  {
   "property": "C76",
   "status": "proved",
   "theorems": [
    "C76_cells_field",
    "C76_cells_tensor",
    "C76_cells_magnetic",
    "C76_points_potential",
    "C76_points_acceleration",
    "C76_points_tensor",
    "C76_dipoles"
   ],
   "note": ""
  },
  {
   "property": "C77",
   "status": "proved",
   "theorems": [
    "C77_energy",
    "C77_third_law",
    "C77_no_self_force",
    "C77_torque",
    "C77_magnetic"
   ],
   "note": ""
  },
  {
   "property": "C78",
   "status": "proved",
   "theorems": [
    "C78_volume",
    "C78_point_mass",
    "C78_surface",
    "C78_inside",
    "C78_dipole",
    "C78_kernel"
   ],
   "note": ""
  },
  {
   "property": "C79",
   "status": "proved",
   "theorems": [
    "C79_gravity",
    "C79_magnetic",
    "C79_point",
    "C79_strength"
   ],
   "note": ""
  },
  {
   "property": "C80",
   "status": "proved",
   "theorems": [
    "C80_distance",
    "C80_kernel",
    "C80_gravity",
    "C80_dipole"
   ],
   "note": ""
  },
  {
   "property": "C81",
   "status": "proved",
   "theorems": [
    "C81_density",
    "C81_mass",
    "C81_zero",
    "C81_distance",
    "C81_potential"
   ],
   "note": ""
  },
  {
   "property": "C82",
   "status": "proved",
   "theorems": [
    "C82_distance",
    "C82_kernel",
    "C82_point",
    "C82_dipole",
    "C82_density",
    "C82_magnetization",
    "C82_diagonal",
    "C82_gradient",
    "C82_density_double",
    "C82_mass_double"
   ],
   "note": ""
  },
  {
   "property": "C83",
   "status": "proved",
   "theorems": [
    "C83_forward",
    "C83_total",
    "C83_pointwise",
    "C83_empty",
    "C83_exact",
    "C83_reorder",
    "C83_linear"
   ],
   "note": ""
  },
  {
   "property": "C84",
   "status": "proved",
   "theorems": [
    "C84_moderate",
    "C84_deterministic",
    "C84_terminates",
    "C84_progress",
    "C84_returns",
    "C84_prisms_lose_update",
    "C84_prisms_wrong"
   ],
   "note": ""
  },
  {
   "property": "C85",
   "status": "proved",
   "theorems": [
    "C85_entries",
    "C85_returns",
    "C85_terminates",
    "C85_product",
    "C85_derivative"
   ],
   "note": ""
  },
  {
   "property": "C86",
   "status": "proved",
   "theorems": [
    "C86_moderate",
    "C86_sum",
    "C86_finite",
    "C86_newton"
   ],
   "note": ""
  },
  {
   "property": "C87",
   "status": "proved",
   "theorems": [
    "C87_moderate",
    "C87_product",
    "C87_allclose"
   ],
   "note": ""
  },
  {
   "property": "C88",
   "status": "proved",
   "theorems": [
    "C88_utils_erase",
    "C88_utils",
    "C88_point_kernels_erase",
    "C88_point_kernels",
    "C88_point_gravity_erase",
    "C88_point_gravity",
    "C88_dipole_erase",
    "C88_dipole",
    "C88_prism_kernels_erase",
    "C88_prism_kernels",
    "C88_prism_gravity_erase",
    "C88_prism_gravity",
    "C88_prism_magnetic_erase",
    "C88_prism_magnetic",
    "C88_prism_points_erase",
    "C88_prism_points"
   ],
   "note": ""
  },
  {
   "property": "C89",
   "status": "proved",
   "theorems": [
    "C89_distance",
    "C89_spherical",
    "C89_point_gravity",
    "C89_prism_gravity",
    "C89_prism_magnetic",
    "C89_prism_gradients",
    "C89_dipole",
    "C89_point_kernels",
    "C89_point_kernels_third",
    "C89_prism_kernels",
    "C89_prism_kernels_third",
    "C89_prism_points",
    "C89_double",
    "C89_overflow",
    "C89_overflow_point"
   ],
   "note": ""
  },
  {
   "property": "C90",
   "status": "proved",
   "theorems": [
    "C90_forward",
    "C90_parallel",
    "C90_matmul",
    "C90_moderate",
    "C90_powers",
    "C90_laws",
    "C90_same_bits",
    "C90_point",
    "C90_point_diagonal",
    "C90_dipole",
    "C90_prism",
    "C90_coincident"
   ],
   "note": ""
  },
  {
   "property": "C91",
   "status": "proved",
   "theorems": [
    "C91_gravity_hi",
    "C91_gravity_lo",
    "C91_anywhere_hi",
    "C91_anywhere_lo",
    "C91_magnetic_hi",
    "C91_magnetic_lo"
   ],
   "note": ""
  },
  {
   "property": "C92",
   "status": "proved",
   "theorems": [
    "C92_gravity",
    "C92_magnetic",
    "C92_point",
    "C92_dipole"
   ],
   "note": ""
  },
  {
   "property": "C93",
   "status": "proved",
   "theorems": [
    "C93_potential_acceleration",
    "C93_gravity",
    "C93_magnetic",
    "C93_magnetic_inside"
   ],
   "note": ""
  },
  {
   "property": "C94",
   "status": "proved",
   "theorems": [
    "C94_kernels",
    "C94_relative",
    "C94_double"
   ],
   "note": ""
  },
  {
   "property": "C95",
   "status": "proved",
   "theorems": [
    "C95_off_diagonal",
    "C95_diagonal",
    "C95_approachable"
   ],
   "note": ""
  },
  {
   "property": "C96",
   "status": "proved",
   "theorems": [
    "C96_euler_gravity",
    "C96_euler_kernels",
    "C96_source",
    "C96_invariants",
    "C96_dipole",
    "C96_euler_dipole"
   ],
   "note": ""
  },
  {
   "property": "C97",
   "status": "proved",
   "theorems": [
    "C97_off_diagonal",
    "C97_between",
    "C97_column"
   ],
   "note": ""
  },
  {
   "property": "C98",
   "status": "proved",
   "theorems": [
    "C98_gravity",
    "C98_diagonal",
    "C98_laplace_poisson",
    "C98_point_laplace",
    "C98_magnetic_divergence"
   ],
   "note": ""
  },
  {
   "property": "C99",
   "status": "proved",
   "theorems": [
    "C99_mean_value",
    "C99_tensor_mean_value",
    "C99_magnetic_mean_value",
    "C99_lipschitz",
    "C99_forward",
    "C99_central",
    "C99_forward_tensor",
    "C99_point_forward",
    "C99_point_forward_tensor",
    "C99_forward_double"
   ],
   "note": ""
  },
  {
   "property": "C100",
   "status": "proved",
   "theorems": [
    "C100_utils",
    "C100_point_kernels",
    "C100_point_gravity",
    "C100_dipole",
    "C100_prism_kernels",
    "C100_prism_gravity",
    "C100_prism_magnetic",
    "C100_finite",
    "C100_coincident_pot",
    "C100_coincident_pot_double",
    "C100_coincident_gravity",
    "C100_coincident_dipole"
   ],
   "note": ""
  },
  {
   "property": "C101",
   "status": "proved",
   "theorems": [
    "C101_axis",
    "C101_axis_exact",
    "C101_ge"
   ],
   "note": ""
  },
  {
   "property": "C102",
   "status": "proved",
   "theorems": [
    "C102_point",
    "C102_dipole",
    "C102_close"
   ],
   "note": ""
  },
  {
   "property": "C103",
   "status": "proved",
   "theorems": [
    "C103_gravity",
    "C103_magnetic",
    "C103_point",
    "C103_dipole",
    "C103_diag",
    "C103_west",
    "C103_east",
    "C103_south",
    "C103_north",
    "C103_bottom",
    "C103_top",
    "C103_point_axis",
    "C103_gradient"
   ],
   "note": ""
  },
  {
   "property": "C104",
   "status": "proved",
   "theorems": [
    "C104_gravity",
    "C104_magnetic",
    "C104_lost",
    "C104_lost_magnetic"
   ],
   "note": ""
  },
  {
   "property": "C105",
   "status": "proved",
   "theorems": [
    "C105_diverges",
    "C105_unbounded",
    "C105_warranted",
    "C105_parallel"
   ],
   "note": ""
  },
  {
   "property": "C106",
   "status": "proved",
   "theorems": [
    "C106_distance",
    "C106_point_kernels",
    "C106_point_gravity",
    "C106_dipole",
    "C106_prism_gravity",
    "C106_prism_magnetic"
   ],
   "note": ""
  },
  {
   "property": "C107",
   "status": "proved",
   "theorems": [
    "C107_distance",
    "C107_point",
    "C107_diagonal",
    "C107_dipole",
    "C107_third_order"
   ],
   "note": ""
  },
  {
   "property": "C108",
   "status": "proved",
   "theorems": [
    "C108_gradient",
    "C108_wrong_sign",
    "C108_third_order"
   ],
   "note": ""
  },
  {
   "property": "C109",
   "status": "proved",
   "theorems": [
    "C109_acceleration",
    "C109_tensor",
    "C109_magnetic",
    "C109_bound",
    "C109_magnetic_bound"
   ],
   "note": ""
  },
  {
   "property": "C110",
   "status": "proved",
   "theorems": [
    "C110_kernel",
    "C110_gravity",
    "C110_magnetic",
    "C110_kernel_single",
    "C110_gravity_single",
    "C110_newton_single",
    "C110_magnetic_single",
    "C110_field_single"
   ],
   "note": ""
  },
  {
   "property": "C111",
   "status": "proved",
   "theorems": [
    "C111_dipole",
    "C111_prism"
   ],
   "note": ""
  },
  {
   "property": "C112",
   "status": "proved",
   "theorems": [
    "C112_gravity",
    "C112_magnetic_field",
    "C112_single",
    "C112_gradient_raises"
   ],
   "note": ""
  },
  {
   "property": "C113",
   "status": "proved",
   "theorems": [
    "C113_predicates",
    "C113_gravity_nan",
    "C113_magnetic_nan",
    "C113_gravity_single",
    "C113_magnetic_single"
   ],
   "note": ""
  },
  {
   "property": "C114",
   "status": "proved",
   "theorems": [
    "C114_sideways",
    "C114_between",
    "C114_beyond",
    "C114_maximum"
   ],
   "note": ""
  },
  {
   "property": "C115",
   "status": "proved",
   "theorems": [
    "C115_potential",
    "C115_acceleration",
    "C115_cube"
   ],
   "note": ""
  },
  {
   "property": "C116",
   "status": "proved",
   "theorems": [
    "C116_continuation",
    "C116_gravity_unique",
    "C116_magnetic_continuation",
    "C116_magnetic_unique",
    "C116_visible"
   ],
   "note": ""
  },
  {
   "property": "C117",
   "status": "proved",
   "theorems": [
    "C117_point",
    "C117_prism_not_point",
    "C117_dipole",
    "C117_prism_not_dipole"
   ],
   "note": ""
  },
  {
   "property": "C118",
   "status": "proved",
   "theorems": [
    "C118_prism",
    "C118_visible",
    "C118_dipole",
    "C118_prism_not_dipole"
   ],
   "note": ""
  },
  {
   "property": "C119",
   "status": "proved",
   "theorems": [
    "C119_volume",
    "C119_potential",
    "C119_acceleration",
    "C119_tensor",
    "C119_magnetic",
    "C119_gradient",
    "C119_coordinates",
    "C119_coordinates_off",
    "C119_largest"
   ],
   "note": ""
  },
  {
   "property": "C120",
   "status": "proved",
   "theorems": [
    "C120_distance_exchange",
    "C120_spherical_exchange",
    "C120_exchange",
    "C120_negate_mass",
    "C120_negate_density",
    "C120_dipole_exchange",
    "C120_dipole_negate",
    "C120_magnetization_negate",
    "C120_point_mirror",
    "C120_dipole_mirror",
    "C120_rename"
   ],
   "note": ""
  },
  {
   "property": "C121",
   "status": "proved",
   "theorems": [
    "C121_distance",
    "C121_spherical",
    "C121_point_coordinate",
    "C121_point_mass",
    "C121_dipole",
    "C121_prism_gravity",
    "C121_prism_magnetic"
   ],
   "note": ""
  },
  {
   "property": "C122",
   "status": "proved",
   "theorems": [
    "C122_distance",
    "C122_point",
    "C122_dipole",
    "C122_prism_gravity",
    "C122_prism_magnetic",
    "C122_distance_zero",
    "C122_point_raises",
    "C122_dipole_raises"
   ],
   "note": ""
  },
  {
   "property": "C123",
   "status": "proved",
   "theorems": [
    "C123_corners",
    "C123_densities",
    "C123_jacobian",
    "C123_overlap"
   ],
   "note": ""
  },
  {
   "property": "C124",
   "status": "proved",
   "theorems": [
    "C124_corners",
    "C124_magnetizations",
    "C124_points"
   ],
   "note": ""
  },
  {
   "property": "C125",
   "status": "proved",
   "theorems": [
    "C125_masses",
    "C125_dipoles",
    "C125_points"
   ],
   "note": ""
  },
  {
   "property": "C126",
   "status": "proved",
   "theorems": [
    "C126_density",
    "C126_magnetization"
   ],
   "note": ""
  },
  {
   "property": "C127",
   "status": "proved",
   "theorems": [
    "C127_jacobian",
    "C127_few",
    "C127_dense",
    "C127_open",
    "C127_recovery",
    "C127_noise"
   ],
   "note": ""
  },
  {
   "property": "C128",
   "status": "proved",
   "theorems": [
    "C128_unbounded",
    "C128_along",
    "C128_parallel"
   ],
   "note": ""
  },
  {
   "property": "C129",
   "status": "proved",
   "theorems": [
    "C129_distance_spherical",
    "C129_core",
    "C129_nan",
    "C129_nonzero"
   ],
   "note": ""
  },
  {
   "property": "C130",
   "status": "proved",
   "theorems": [
    "C130_gravity",
    "C130_tensor",
    "C130_magnetic",
    "C130_limit"
   ],
   "note": ""
  },
  {
   "property": "C131",
   "status": "proved",
   "theorems": [
    "C131_moderate",
    "C131_product_moderate",
    "C131_forward",
    "C131_jacobian",
    "C131_returns",
    "C131_newton",
    "C131_product"
   ],
   "note": ""
  },
  {
   "property": "C132",
   "status": "proved",
   "theorems": [
    "C132_unpack",
    "C132_empty",
    "C132_fits",
    "C132_raises",
    "C132_returns",
    "C132_compiled",
    "C132_columns",
    "C132_short"
   ],
   "note": ""
  },
  {
   "property": "C133",
   "status": "proved",
   "theorems": [
    "C133_point",
    "C133_prism",
    "C133_part",
    "C133_nested",
    "C133_kernel",
    "C133_tensor",
    "C133_magnetic"
   ],
   "note": ""
  },
  {
   "property": "C134",
   "status": "proved",
   "theorems": [
    "C134_point",
    "C134_kernel",
    "C134_prism",
    "C134_dipole",
    "C134_magnetic",
    "C134_weights",
    "C134_error",
    "C134_largest",
    "C134_unique",
    "C134_magnetic_unique"
   ],
   "note": ""
  },
  {
   "property": "C135",
   "status": "proved",
   "theorems": [
    "C135_point",
    "C135_prism",
    "C135_dipole",
    "C135_magnetic"
   ],
   "note": ""
  },
  {
   "property": "C136",
   "status": "proved",
   "theorems": [
    "C136_point",
    "C136_prism",
    "C136_closed",
    "C136_continuation",
    "C136_tensor",
    "C136_magnetic"
   ],
   "note": ""
  },
  {
   "property": "C137",
   "status": "proved",
   "theorems": [
    "C137_distance",
    "C137_spherical",
    "C137_spherical_core",
    "C137_point_gravity",
    "C137_dipole",
    "C137_point_kernels",
    "C137_point_kernels3",
    "C137_prism_kernels",
    "C137_prism_gravity",
    "C137_prism_magnetic"
   ],
   "note": ""
  },
  {
   "property": "C138",
   "status": "proved",
   "theorems": [
    "C138_distance_double",
    "C138_point_double",
    "C138_dipole_double",
    "C138_prism_gravity_double",
    "C138_prism_magnetic_double",
    "C138_example_overflow",
    "C138_zero_sign",
    "C138_zero_sign_example",
    "C138_zero_distance",
    "C138_distance",
    "C138_spherical",
    "C138_point_gravity",
    "C138_dipole",
    "C138_prism_gravity",
    "C138_prism_tensor",
    "C138_prism_magnetic"
   ],
   "note": ""
  },
  {
   "property": "C139",
   "status": "proved",
   "theorems": [
    "C139_returns",
    "C139_rows",
    "C139_fits",
    "C139_short",
    "C139_narrow",
    "C139_product"
   ],
   "note": ""
  },
  {
   "property": "C140",
   "status": "proved",
   "theorems": [
    "C140_point",
    "C140_prism",
    "C140_enough",
    "C140_upward"
   ],
   "note": ""
  },
  {
   "property": "C141",
   "status": "proved",
   "theorems": [
    "C141_prisms",
    "C141_points",
    "C141_depth",
    "C141_sharp",
    "C141_sharp_sideways"
   ],
   "note": ""
  },
  {
   "property": "C142",
   "status": "proved",
   "theorems": [
    "C142_definite",
    "C142_unique",
    "C142_kernel",
    "C142_dipole",
    "C142_coincident"
   ],
   "note": ""
  },
  {
   "property": "C143",
   "status": "proved",
   "theorems": [
    "C143_point",
    "C143_prisms",
    "C143_centroid",
    "C143_tensor",
    "C143_dipole",
    "C143_magnetic"
   ],
   "note": ""
  },
  {
   "property": "C144",
   "status": "proved",
   "theorems": [
    "C144_distance",
    "C144_spherical",
    "C144_spherical_core",
    "C144_point_gravity",
    "C144_dipole",
    "C144_point_kernels",
    "C144_point_kernels3",
    "C144_prism_kernels",
    "C144_prism_kernels3",
    "C144_prism_gravity",
    "C144_prism_magnetic",
    "C144_prism_gradient",
    "C144_distance_double",
    "C144_point_double",
    "C144_dipole_double",
    "C144_prism_gravity_double",
    "C144_prism_magnetic_double",
    "C144_prism_gradient_double",
    "C144_no_wrap"
   ],
   "note": ""
  },
  {
   "property": "C145",
   "status": "proved",
   "theorems": [
    "C145_distance",
    "C145_spherical",
    "C145_point_gravity",
    "C145_dipole",
    "C145_prism_gravity",
    "C145_prism_magnetic",
    "C145_prism_gradient"
   ],
   "note": ""
  },
  {
   "property": "C146",
   "status": "proved",
   "theorems": [
    "C146_potential",
    "C146_acceleration",
    "C146_tensor",
    "C146_magnetic",
    "C146_sampled",
    "C146_convergence",
    "C146_exact"
   ],
   "note": ""
  },
  {
   "property": "C147",
   "status": "proved",
   "theorems": [
    "C147_utils",
    "C147_point_kernels",
    "C147_point_gravity",
    "C147_dipole",
    "C147_prism_kernels",
    "C147_prism_gravity",
    "C147_prism_magnetic",
    "C147_finite",
    "C147_ints_point_gravity",
    "C147_ints_prism_gravity",
    "C147_ints_prism_magnetic",
    "C147_ints_prism_gradients",
    "C147_ints_dipole",
    "C147_ints_double",
    "C147_overflow"
   ],
   "note": ""
  },
  {
   "property": "C148",
   "status": "proved",
   "theorems": [
    "C148_distance",
    "C148_gravity",
    "C148_third",
    "C148_dipole",
    "C148_acceleration",
    "C148_wrong",
    "C148_above",
    "C148_double"
   ],
   "note": ""
  }
 ]
}