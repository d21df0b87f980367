{
 "claims": [
  {
   "property": "C01",
   "status": "proved",
   "theorems": [
    "BladeX.C01_translate_points",
    "BladeX.C01_translate_group"
   ],
   "note": ""
  },
  {
   "property": "C02",
   "status": "proved",
   "theorems": [
    "BladeX.C02_rotate_points",
    "BladeX.C02_rotate_isometry",
    "BladeX.C02_rotate_add",
    "BladeX.C02_rotate_inverse"
   ],
   "note": ""
  },
  {
   "property": "C03",
   "status": "proved",
   "theorems": [
    "BladeX.C03_rotate_args",
    "BladeX.C03_rotate_degrees",
    "BladeX.C03_rotate_ragged"
   ],
   "note": ""
  },
  {
   "property": "C04",
   "status": "proved",
   "theorems": [
    "BladeX.C04_reflect_points",
    "BladeX.C04_reflect_involution"
   ],
   "note": ""
  },
  {
   "property": "C05",
   "status": "proved",
   "theorems": [
    "BladeX.C05_scale_points",
    "BladeX.C05_scale_distances",
    "BladeX.C05_scale_reference",
    "BladeX.C05_scale_compose",
    "BladeX.C05_scale_tolerance_lost",
    "BladeX.C05_scale_plain"
   ],
   "note": ""
  },
  {
   "property": "C06",
   "status": "proved",
   "theorems": [
    "BladeX.C06_reference_is_midpoint",
    "BladeX.C06_reference_translate_reflect",
    "BladeX.C06_reference_rotate_closed",
    "BladeX.C06_open_trailing_edge_fails",
    "BladeX.C06_open_trailing_edge_drifts"
   ],
   "note": ""
  },
  {
   "property": "C07",
   "status": "proved",
   "theorems": [
    "BladeX.C07_edge_check",
    "BladeX.C07_edge_empty"
   ],
   "note": ""
  },
  {
   "property": "C08",
   "status": "proved",
   "theorems": [
    "BladeX.C08_on_line",
    "BladeX.C08_stations"
   ],
   "note": ""
  },
  {
   "property": "C09",
   "status": "proved",
   "theorems": [
    "BladeX.C09_camber_line",
    "BladeX.C09_max_thickness",
    "BladeX.C09_incompatible",
    "BladeX.C09_thickness_motion"
   ],
   "note": ""
  },
  {
   "property": "C10",
   "status": "proved",
   "theorems": [
    "BladeX.C10_set_thickness",
    "BladeX.C10_zero_thickness",
    "BladeX.C10_defined"
   ],
   "note": ""
  },
  {
   "property": "C11",
   "status": "proved",
   "theorems": [
    "BladeX.C11_deform_camber",
    "BladeX.C11_compose"
   ],
   "note": ""
  },
  {
   "property": "C12",
   "status": "proved",
   "theorems": [
    "BladeX.C12_defined",
    "BladeX.C12_max_camber_spec",
    "BladeX.C12_set_camber",
    "BladeX.C12_zero_camber"
   ],
   "note": ""
  },
  {
   "property": "C13",
   "status": "proved",
   "theorems": [
    "BladeX.C13_argument_checks",
    "BladeX.C13_succeeds_iff",
    "BladeX.C13_result"
   ],
   "note": "RBF reconstruction as in C29."
  },
  {
   "property": "C14",
   "status": "proved",
   "theorems": [
    "BladeX.C14_parameters",
    "BladeX.C14_zero_thickness",
    "BladeX.C14_unknown_convention",
    "BladeX.C14_history",
    "BladeX.C14_stale_chord"
   ],
   "note": ""
  },
  {
   "property": "C15",
   "status": "proved",
   "theorems": [
    "BladeX.C15_check_iff",
    "BladeX.C15_none_or_ragged",
    "BladeX.C15_ctor",
    "BladeX.C15_tolerances_agree",
    "BladeX.C15_tolerance_gap",
    "BladeX.C15_unequal_lengths",
    "BladeX.C15_other_keywords"
   ],
   "note": ""
  },
  {
   "property": "C16",
   "status": "proved",
   "theorems": [
    "BladeX.C16_ctor"
   ],
   "note": ""
  },
  {
   "property": "C17",
   "status": "proved",
   "theorems": [
    "BladeX.C17_roundtrip",
    "BladeX.C17_negative_camber_lost"
   ],
   "note": ""
  },
  {
   "property": "C18",
   "status": "proved",
   "theorems": [
    "BladeX.C18_roundtrip"
   ],
   "note": ""
  },
  {
   "property": "C19",
   "status": "proved",
   "theorems": [
    "BladeX.C19_british"
   ],
   "note": ""
  },
  {
   "property": "C20",
   "status": "proved",
   "theorems": [
    "BladeX.C20_orthogonal",
    "BladeX.C20_american_mean"
   ],
   "note": ""
  },
  {
   "property": "C21",
   "status": "proved",
   "theorems": [
    "BladeX.C21_four_digits",
    "BladeX.C21_five_digits"
   ],
   "note": ""
  },
  {
   "property": "C22",
   "status": "proved",
   "theorems": [
    "BladeX.C22_half_thickness",
    "BladeX.C22_upper_above_lower"
   ],
   "note": ""
  },
  {
   "property": "C23",
   "status": "proved",
   "theorems": [
    "BladeX.C23_camber_line",
    "BladeX.C23_mean_line"
   ],
   "note": ""
  },
  {
   "property": "C24",
   "status": "proved",
   "theorems": [
    "BladeX.C24_symmetric",
    "BladeX.C24_thickness_linear"
   ],
   "note": ""
  },
  {
   "property": "C25",
   "status": "proved",
   "theorems": [
    "BladeX.C25_lift_digit_ignored",
    "BladeX.C25_mean_line",
    "BladeX.C25_camber_line",
    "BladeX.C25_published_constants"
   ],
   "note": "The look-up by splrep/splev is a parameter; C25_published_constants uses the tabulated values (C116 instantiates it)."
  },
  {
   "property": "C26",
   "status": "proved",
   "theorems": [
    "BladeX.C26_arguments",
    "BladeX.C26_type_error",
    "BladeX.C26_float_truncated",
    "BladeX.C26_boolean",
    "BladeX.C26_default_spacing",
    "BladeX.C26_bad_digits",
    "BladeX.C26_zero_points"
   ],
   "note": ""
  },
  {
   "property": "C27",
   "status": "proved",
   "theorems": [
    "BladeX.C27_wendland_shape",
    "BladeX.C27_other_bases",
    "BladeX.C27_thin_plate",
    "BladeX.C27_names",
    "BladeX.C27_basis_names"
   ],
   "note": ""
  },
  {
   "property": "C28",
   "status": "proved",
   "theorems": [
    "BladeX.C28_weights_matrix",
    "BladeX.C28_wendland_matrix"
   ],
   "note": ""
  },
  {
   "property": "C29",
   "status": "proved",
   "theorems": [
    "BladeX.C29_interpolates",
    "BladeX.C29_interpolates_nodes"
   ],
   "note": ""
  },
  {
   "property": "C30",
   "status": "proved",
   "theorems": [
    "BladeX.C30_accumulates",
    "BladeX.C30_second_call_doubles",
    "BladeX.C30_linear",
    "BladeX.C30_duplicate_node"
   ],
   "note": ""
  },
  {
   "property": "C31",
   "status": "proved",
   "theorems": [
    "BladeX.C31_separated_nodes"
   ],
   "note": ""
  },
  {
   "property": "C32",
   "status": "proved",
   "theorems": [
    "BladeX.C32_solvable_iff_distinct",
    "BladeX.C32_positive_definite",
    "BladeX.C32_interpolates_distinct"
   ],
   "note": ""
  },
  {
   "property": "C33",
   "status": "proved",
   "theorems": [
    "BladeX.C33_knots"
   ],
   "note": ""
  },
  {
   "property": "C34",
   "status": "proved",
   "theorems": [
    "BladeX.C34_curve",
    "BladeX.C34_convex",
    "BladeX.C34_bounding_box",
    "BladeX.C34_affine",
    "BladeX.C34_end_points",
    "BladeX.C34_errors"
   ],
   "note": ""
  },
  {
   "property": "C35",
   "status": "proved",
   "theorems": [
    "BladeX.Deform.C35_unknown_name",
    "BladeX.Deform.C35_control_points_first",
    "BladeX.Deform.C35_spline_first",
    "BladeX.Deform.C35_never_forgotten"
   ],
   "note": ""
  },
  {
   "property": "C36",
   "status": "proved",
   "theorems": [
    "BladeX.Deform.C36_update",
    "BladeX.Deform.C36_repeated",
    "BladeX.Deform.C36_length",
    "BladeX.Deform.C36_compute_all_idempotent",
    "BladeX.Deform.C36_compute_all_keeps_input"
   ],
   "note": ""
  },
  {
   "property": "C37",
   "status": "proved",
   "theorems": [
    "BladeX.Deform.C37_values",
    "BladeX.Deform.C37_succeeds_iff",
    "BladeX.Deform.C37_failure"
   ],
   "note": ""
  },
  {
   "property": "C38",
   "status": "proved",
   "theorems": [
    "BladeX.Deform.C38_plot_zero",
    "BladeX.Deform.C38_computed_zero"
   ],
   "note": ""
  },
  {
   "property": "C39",
   "status": "proved",
   "theorems": [
    "BladeX.Deform.C39_export",
    "BladeX.Deform.C39_outcome",
    "BladeX.Deform.C39_degree_lost"
   ],
   "note": "Number codec as in C40."
  },
  {
   "property": "C40",
   "status": "proved",
   "theorems": [
    "BladeX.ParamFile.C40_round_trip",
    "BladeX.ParamFile.C40_same_numbers"
   ],
   "note": "Conversion of numbers to text is a Codec parameter (parse after format is the identity)."
  },
  {
   "property": "C41",
   "status": "proved",
   "theorems": [
    "BladeX.ParamFile.C41_consistent",
    "BladeX.ParamFile.C41_errors",
    "BladeX.ParamFile.C41_writable"
   ],
   "note": "Number codec as in C40."
  },
  {
   "property": "C42",
   "status": "proved",
   "theorems": [
    "BladeX.ParamFile.C42_accepts",
    "BladeX.ParamFile.C42_rejects",
    "BladeX.ParamFile.C42_idempotent"
   ],
   "note": ""
  },
  {
   "property": "C43",
   "status": "proved",
   "theorems": [
    "BladeX.ParamFile.C43_keeps_files",
    "BladeX.ParamFile.C43_default",
    "BladeX.ParamFile.C43_stale_object"
   ],
   "note": "Number codec as in C40."
  },
  {
   "property": "C44",
   "status": "proved",
   "theorems": [
    "BladeX.C44_constructor",
    "BladeX.C44_short_thickness"
   ],
   "note": ""
  },
  {
   "property": "C45",
   "status": "proved",
   "theorems": [
    "BladeX.C45_pitch_angle",
    "BladeX.C45_induced_rake"
   ],
   "note": ""
  },
  {
   "property": "C46",
   "status": "proved",
   "theorems": [
    "BladeX.C46_placed",
    "BladeX.C46_placed_geometry",
    "BladeX.C46_defined",
    "BladeX.C46_thickness_camber"
   ],
   "note": ""
  },
  {
   "property": "C47",
   "status": "proved",
   "theorems": [
    "BladeX.C47_on_cylinder",
    "BladeX.C47_distances"
   ],
   "note": ""
  },
  {
   "property": "C48",
   "status": "proved",
   "theorems": [
    "BladeX.C48_reversed",
    "BladeX.C48_faces",
    "BladeX.C48_build_defined"
   ],
   "note": "Acceptance of a loft by the CAD kernel is a parameter (occ)."
  },
  {
   "property": "C49",
   "status": "proved",
   "theorems": [
    "BladeX.C49_rotate",
    "BladeX.C49_rotations",
    "BladeX.C49_compose",
    "BladeX.C49_refused"
   ],
   "note": ""
  },
  {
   "property": "C50",
   "status": "proved",
   "theorems": [
    "BladeX.C50_in_step",
    "BladeX.C50_faces_match",
    "BladeX.C50_out_of_step"
   ],
   "note": "Faces are the lists of their sections, moved pointwise."
  },
  {
   "property": "C51",
   "status": "proved",
   "theorems": [
    "BladeX.C51_reflection_spec",
    "BladeX.C51_three_points",
    "BladeX.C51_point_normal",
    "BladeX.C51_refused",
    "BladeX.C51_wrongly_accepted",
    "BladeX.C51_refused_iff"
   ],
   "note": ""
  },
  {
   "property": "C52",
   "status": "proved",
   "theorems": [
    "BladeX.C52_apply_many",
    "BladeX.C52_never_refused",
    "BladeX.C52_reset"
   ],
   "note": ""
  },
  {
   "property": "C53",
   "status": "proved",
   "theorems": [
    "BladeX.C53_layout",
    "BladeX.C53_restored",
    "BladeX.C53_failures",
    "BladeX.C53_leftover"
   ],
   "note": "Rendering of numbers is a parameter."
  },
  {
   "property": "C54",
   "status": "proved",
   "theorems": [
    "BladeX.C54_no_coordinates",
    "BladeX.C54_initially",
    "BladeX.C54_rotate_without_faces"
   ],
   "note": ""
  },
  {
   "property": "C55",
   "status": "proved",
   "theorems": [
    "BladeX.C55_blades",
    "BladeX.C55_symmetric"
   ],
   "note": ""
  },
  {
   "property": "C56",
   "status": "proved",
   "theorems": [
    "BladeX.C56_base_blade",
    "BladeX.C56_cached",
    "BladeX.C56_first_access"
   ],
   "note": "Shapes are what is handed to sewing."
  },
  {
   "property": "C57",
   "status": "proved",
   "theorems": [
    "BladeX.C57_vertices",
    "BladeX.C57_blades_and_stem",
    "BladeX.C57_by_coords",
    "BladeX.C57_blades_only",
    "BladeX.C57_other_selector",
    "BladeX.C57_no_facets",
    "BladeX.C57_public_method_fails"
   ],
   "note": "The tessellation is a parameter."
  },
  {
   "property": "C58",
   "status": "proved",
   "theorems": [
    "BladeX.C58_extension",
    "BladeX.C58_dispatch",
    "BladeX.C58_refused"
   ],
   "note": ""
  },
  {
   "property": "C59",
   "status": "proved",
   "theorems": [
    "BladeX.C59_normalised",
    "BladeX.C59_camber",
    "BladeX.C59_refused"
   ],
   "note": "Geometry queries of the CAD kernel are parameters of the model (all answers)."
  },
  {
   "property": "C60",
   "status": "proved",
   "theorems": [
    "BladeX.C60_section",
    "BladeX.C60_pitch_angle",
    "BladeX.C60_round_trip"
   ],
   "note": "Geometry queries of the CAD kernel are parameters of the model (all answers)."
  },
  {
   "property": "C61",
   "status": "proved",
   "theorems": [
    "BladeX.C61_shape",
    "BladeX.C61_exchanged"
   ],
   "note": "Geometry queries of the CAD kernel are parameters of the model (all answers)."
  },
  {
   "property": "C62",
   "status": "proved",
   "theorems": [
    "BladeX.C62_section",
    "BladeX.C62_unrotated",
    "BladeX.C62_seam"
   ],
   "note": "Geometry queries of the CAD kernel are parameters of the model (all answers)."
  },
  {
   "property": "C63",
   "status": "proved",
   "theorems": [
    "BladeX.C63_parity",
    "BladeX.C63_rotate",
    "BladeX.C63_repeat",
    "BladeX.C63_reverse",
    "BladeX.C63_far",
    "BladeX.C63_triangle",
    "BladeX.C63_fan",
    "BladeX.C63_counterexamples"
   ],
   "note": ""
  },
  {
   "property": "C64",
   "status": "proved",
   "theorems": [
    "BladeX.C64_reconstruct"
   ],
   "note": ""
  },
  {
   "property": "C65",
   "status": "proved",
   "theorems": [
    "BladeX.C65_path",
    "BladeX.C65_refused"
   ],
   "note": ""
  },
  {
   "property": "C66",
   "status": "proved",
   "theorems": [
    "BladeX.C66_program",
    "BladeX.C66_shared_exact",
    "BladeX.C66_shared_abscissae",
    "BladeX.C66_blade",
    "BladeX.C66_two_blades",
    "BladeX.C66_same_object",
    "BladeX.C66_same_object_succeeds"
   ],
   "note": ""
  },
  {
   "property": "C67",
   "status": "proved",
   "theorems": [
    "BladeX.C67_rejected",
    "BladeX.C67_sections",
    "BladeX.C67_one_section",
    "BladeX.C67_blade_faces"
   ],
   "note": ""
  },
  {
   "property": "C68",
   "status": "proved",
   "theorems": [
    "BladeX.Deform.C68_optimal",
    "BladeX.Deform.C68_exact_fit",
    "BladeX.Deform.C68_defined"
   ],
   "note": "minimize/lstsq are assumed to return a minimiser."
  },
  {
   "property": "C69",
   "status": "proved",
   "theorems": [
    "BladeX.Deform.C69_first_section"
   ],
   "note": "As C68."
  },
  {
   "property": "C70",
   "status": "proved",
   "theorems": [
    "BladeX.C70_curve_points",
    "BladeX.C70_defined",
    "BladeX.C70_failures",
    "BladeX.C70_wrong_section"
   ],
   "note": ""
  },
  {
   "property": "C71",
   "status": "proved",
   "theorems": [
    "BladeX.C71_cylinder",
    "BladeX.C71_defaults",
    "BladeX.C71_refused"
   ],
   "note": ""
  },
  {
   "property": "C72",
   "status": "proved",
   "theorems": [
    "BladeX.C72_sections",
    "BladeX.C72_refused",
    "BladeX.C72_accepted",
    "BladeX.C72_accepted_generic"
   ],
   "note": "Geometry queries of the CAD kernel are parameters of the model (all answers)."
  },
  {
   "property": "C73",
   "status": "proved",
   "theorems": [
    "BladeX.C73_faces",
    "BladeX.C73_unbuilt",
    "BladeX.C73_curves_on_faces",
    "BladeX.C73_curves_after_mirror",
    "BladeX.C73_propeller_once"
   ],
   "note": "Which shapes are written, not the file contents."
  },
  {
   "property": "C74",
   "status": "proved",
   "theorems": [
    "BladeX.C74_plot",
    "BladeX.C74_profile_plot",
    "BladeX.C74_profile_refused",
    "BladeX.C74_stale_lines"
   ],
   "note": "Which curves are drawn."
  },
  {
   "property": "C75",
   "status": "proved",
   "theorems": [
    "BladeX.C75_edges",
    "BladeX.C75_vertex_ignored",
    "BladeX.C75_pitch_angle"
   ],
   "note": "Geometry queries of the CAD kernel are parameters of the model (all answers)."
  },
  {
   "property": "C76",
   "status": "proved",
   "theorems": [
    "BladeX.C76_voronoi",
    "BladeX.C76_empty",
    "BladeX.C76_samples",
    "BladeX.C76_rolled"
   ],
   "note": "Geometry queries of the CAD kernel are parameters of the model (all answers). Voronoi vertices are a parameter."
  },
  {
   "property": "C77",
   "status": "proved",
   "theorems": [
    "BladeX.C77_extent",
    "BladeX.C77_cut_off",
    "BladeX.C77_chord",
    "BladeX.C77_chord_ends",
    "BladeX.C77_camber",
    "BladeX.C77_truncated"
   ],
   "note": "Geometry queries of the CAD kernel are parameters of the model (all answers)."
  },
  {
   "property": "C78",
   "status": "proved",
   "theorems": [
    "BladeX.C78_saved",
    "BladeX.C78_determines"
   ],
   "note": "str of an array is a parameter (injective where claimed)."
  },
  {
   "property": "C79",
   "status": "proved",
   "theorems": [
    "BladeX.C79_display"
   ],
   "note": ""
  },
  {
   "property": "C80",
   "status": "proved",
   "theorems": [
    "BladeX.C80_thickness",
    "BladeX.C80_reference",
    "BladeX.C80_zero_camber",
    "BladeX.C80_stored",
    "BladeX.C80_rebuilt",
    "BladeX.C80_defined",
    "BladeX.C80_not_translation_invariant",
    "BladeX.C80_coordinates",
    "BladeX.C80_point_off_surface"
   ],
   "note": "newton and RBFInterpolator are parameters; C80_thickness assumes an exact solver."
  },
  {
   "property": "C81",
   "status": "proved",
   "theorems": [
    "BladeX.C81_similar"
   ],
   "note": ""
  },
  {
   "property": "C82",
   "status": "proved",
   "theorems": [
    "BladeX.C82_rake_skew"
   ],
   "note": ""
  },
  {
   "property": "C83",
   "status": "proved",
   "theorems": [
    "BladeX.C83_screw"
   ],
   "note": ""
  },
  {
   "property": "C84",
   "status": "proved",
   "theorems": [
    "BladeX.C84_displaced",
    "BladeX.C84_scaled"
   ],
   "note": ""
  },
  {
   "property": "C85",
   "status": "proved",
   "theorems": [
    "BladeX.C85_reflect_is_negative_chord",
    "BladeX.C85_other_hand"
   ],
   "note": ""
  },
  {
   "property": "C86",
   "status": "proved",
   "theorems": [
    "BladeX.Deform.C86_bounds",
    "BladeX.Deform.C86_response"
   ],
   "note": ""
  },
  {
   "property": "C87",
   "status": "proved",
   "theorems": [
    "BladeX.Deform.C87_fit_linear",
    "BladeX.Deform.C87_compute_all_linear"
   ],
   "note": ""
  },
  {
   "property": "C88",
   "status": "proved",
   "theorems": [
    "BladeX.C88_translate",
    "BladeX.C88_scale_plain",
    "BladeX.C88_float_program",
    "BladeX.C88_rotate_reflect",
    "BladeX.C88_scale",
    "BladeX.C88_thickness",
    "BladeX.C88_no_rounding",
    "BladeX.C88_blade_float",
    "BladeX.C88_blade_integer",
    "BladeX.C88_construct",
    "BladeX.C88_construct_parameters"
   ],
   "note": ""
  },
  {
   "property": "C89",
   "status": "proved",
   "theorems": [
    "BladeX.C89_one",
    "BladeX.C89_failed",
    "BladeX.C89_value_error",
    "BladeX.C89_one_file",
    "BladeX.C89_shown",
    "BladeX.C89_stops"
   ],
   "note": ""
  },
  {
   "property": "C90",
   "status": "proved",
   "theorems": [
    "BladeX.HandFile.C90_reads",
    "BladeX.HandFile.C90_same",
    "BladeX.HandFile.C90_says",
    "BladeX.HandFile.C90_order",
    "BladeX.HandFile.C90_newline",
    "BladeX.HandFile.C90_gaps",
    "BladeX.C90_before_sections",
    "BladeX.C90_section_twice",
    "BladeX.C90_option_twice",
    "BladeX.C90_no_delimiter"
   ],
   "note": ""
  },
  {
   "property": "C91",
   "status": "proved",
   "theorems": [
    "BladeX.C91_distinct_points",
    "BladeX.C91_distance_basis",
    "BladeX.C91_distinct_numbers",
    "BladeX.C91_thin_plate_fails"
   ],
   "note": ""
  },
  {
   "property": "C92",
   "status": "proved",
   "theorems": [
    "BladeX.C92_mirrored",
    "BladeX.C92_reversed",
    "BladeX.C92_which_edge"
   ],
   "note": ""
  },
  {
   "property": "C93",
   "status": "proved",
   "theorems": [
    "BladeX.ParamFile.C93_success",
    "BladeX.ParamFile.C93_refused",
    "BladeX.ParamFile.C93_all_read",
    "BladeX.ParamFile.C93_failure",
    "BladeX.ParamFile.C93_check",
    "BladeX.ParamFile.C93_files",
    "BladeX.ParamFile.C93_missing",
    "BladeX.ParamFile.C93_history",
    "BladeX.ParamFile.C93_mixed",
    "BladeX.ParamFile.C93_zero_padded"
   ],
   "note": ""
  },
  {
   "property": "C94",
   "status": "proved",
   "theorems": [
    "BladeX.Naca.C94_half_thickness",
    "BladeX.Naca.C94_thickest",
    "BladeX.Naca.C94_thickness_digits",
    "BladeX.Naca.C94_max_thickness",
    "BladeX.Naca.C94_camber5_peak",
    "BladeX.Naca.C94_position",
    "BladeX.Naca.C94_foil5",
    "BladeX.Naca.C94_reflexed_line",
    "BladeX.Naca.C94_reflex_missing",
    "BladeX.Naca.C94_not_normal"
   ],
   "note": ""
  },
  {
   "property": "C95",
   "status": "proved",
   "theorems": [
    "BladeX.Rounded.C95_one_map",
    "BladeX.Rounded.C95_closed",
    "BladeX.Rounded.C95_reflect",
    "BladeX.Rounded.C95_representable",
    "BladeX.Rounded.C95_order",
    "BladeX.Rounded.C95_error",
    "BladeX.Rounded.C95_double",
    "BladeX.Rounded.C95_back",
    "BladeX.Rounded.C95_merge",
    "BladeX.Rounded.C95_exports",
    "BladeX.Rounded.C95_drift"
   ],
   "note": ""
  },
  {
   "property": "C96",
   "status": "proved",
   "theorems": [
    "BladeX.Rounded.C96_on_cylinder",
    "BladeX.Rounded.C96_closed",
    "BladeX.Rounded.C96_accuracy",
    "BladeX.Rounded.C96_propeller",
    "BladeX.Rounded.C96_double"
   ],
   "note": ""
  },
  {
   "property": "C97",
   "status": "proved",
   "theorems": [
    "BladeX.C97_points",
    "BladeX.C97_refused",
    "BladeX.C97_set_camber",
    "BladeX.C97_naca_abscissae",
    "BladeX.C97_naca_refused"
   ],
   "note": ""
  },
  {
   "property": "C98",
   "status": "proved",
   "theorems": [
    "BladeX.C98_always",
    "BladeX.C98_solid",
    "BladeX.C98_in_step",
    "BladeX.C98_stale",
    "BladeX.C98_stale_example"
   ],
   "note": ""
  },
  {
   "property": "C99",
   "status": "proved",
   "theorems": [
    "BladeX.C99_monotone",
    "BladeX.C99_strict",
    "BladeX.C99_no_jumps",
    "BladeX.C99_linear"
   ],
   "note": ""
  },
  {
   "property": "C100",
   "status": "proved",
   "theorems": [
    "BladeX.Deform.C100_unique",
    "BladeX.Deform.C100_not_unique",
    "BladeX.Deform.C100_reproduced",
    "BladeX.Deform.C100_control_radii",
    "BladeX.Deform.C100_spline_radii",
    "BladeX.Deform.C100_succeeds_iff",
    "BladeX.Deform.C100_tolerance",
    "BladeX.Deform.C100_monotone",
    "BladeX.Deform.C100_defaults",
    "BladeX.Deform.C100_defaults_fail"
   ],
   "note": ""
  },
  {
   "property": "C101",
   "status": "proved",
   "theorems": [
    "BladeX.C101_sections",
    "BladeX.C101_no_overlap",
    "BladeX.C101_blades",
    "BladeX.C101_disjoint",
    "BladeX.C101_from_inputs",
    "BladeX.C101_touching_accepted"
   ],
   "note": ""
  },
  {
   "property": "C102",
   "status": "proved",
   "theorems": [
    "BladeX.C102_defined",
    "BladeX.C102_lines",
    "BladeX.C102_moves",
    "BladeX.C102_linear",
    "BladeX.C102_far",
    "BladeX.C102_american",
    "BladeX.C102_not_translation_invariant",
    "BladeX.C102_point_off_surface",
    "BladeX.C102_interpolating"
   ],
   "note": ""
  },
  {
   "property": "C103",
   "status": "proved",
   "theorems": [
    "BladeX.Foil.C103_calls",
    "BladeX.Foil.C103_untouched",
    "BladeX.Foil.C103_independent",
    "BladeX.Foil.C103_coordinates",
    "BladeX.Foil.C103_parameters",
    "BladeX.Foil.C103_edges",
    "BladeX.Foil.C103_projection",
    "BladeX.Foil.C103_failed_parameters",
    "BladeX.Foil.C103_mixed",
    "BladeX.Foil.C103_no_edges",
    "BladeX.Foil.C103_lost_edges",
    "BladeX.Foil.C103_new",
    "BladeX.Foil.C103_naca_reset"
   ],
   "note": ""
  },
  {
   "property": "C104",
   "status": "proved",
   "theorems": [
    "BladeX.C104_transformed",
    "BladeX.C104_coordinates",
    "BladeX.C104_faces",
    "BladeX.C104_gap",
    "BladeX.C104_naca"
   ],
   "note": ""
  },
  {
   "property": "C105",
   "status": "proved",
   "theorems": [
    "BladeX.Deform.C105_line",
    "BladeX.Deform.C105_line_deformed",
    "BladeX.Deform.C105_interpolates",
    "BladeX.Deform.C105_polynomial",
    "BladeX.Deform.C105_polynomial_deformed"
   ],
   "note": ""
  },
  {
   "property": "C106",
   "status": "proved",
   "theorems": [
    "BladeX.C106_applies",
    "BladeX.C106_sensitivity",
    "BladeX.C106_continuous"
   ],
   "note": ""
  },
  {
   "property": "C107",
   "status": "proved",
   "theorems": [
    "BladeX.C107_translated",
    "BladeX.C107_translated_propeller",
    "BladeX.C107_enlarged",
    "BladeX.C107_enlarged_propeller",
    "BladeX.C107_turned",
    "BladeX.C107_turned_accepted",
    "BladeX.C107_turned_generic",
    "BladeX.C107_mirrored"
   ],
   "note": ""
  },
  {
   "property": "C108",
   "status": "proved",
   "theorems": [
    "BladeX.C108_distribution",
    "BladeX.C108_reaction",
    "BladeX.C108_crossings",
    "BladeX.C108_deformation",
    "BladeX.C108_convex"
   ],
   "note": ""
  },
  {
   "property": "C109",
   "status": "proved",
   "theorems": [
    "BladeX.C109_points",
    "BladeX.C109_length",
    "BladeX.C109_nose_tail",
    "BladeX.C109_edges",
    "BladeX.C109_screw_surface"
   ],
   "note": ""
  },
  {
   "property": "C110",
   "status": "proved",
   "theorems": [
    "BladeX.Deform.C110_separate",
    "BladeX.Deform.C110_fresh_start",
    "BladeX.Deform.C110_provenance",
    "BladeX.Deform.C110_counted",
    "BladeX.Deform.C110_stale"
   ],
   "note": ""
  },
  {
   "property": "C111",
   "status": "proved",
   "theorems": [
    "BladeX.C111_determines",
    "BladeX.C111_lower_abscissae_lost",
    "BladeX.C111_after_apply"
   ],
   "note": ""
  },
  {
   "property": "C112",
   "status": "proved",
   "theorems": [
    "BladeX.RbfRows.C112_columns",
    "BladeX.RbfRows.C112_one_column",
    "BladeX.RbfRows.C112_interpolates",
    "BladeX.RbfRows.C112_refused",
    "BladeX.RbfRows.C112_short_output"
   ],
   "note": ""
  },
  {
   "property": "C113",
   "status": "proved",
   "theorems": [
    "BladeX.ListBlade.C113_same_outcome",
    "BladeX.ListBlade.C113_equal_sections",
    "BladeX.ListBlade.C113_unequal",
    "BladeX.ListBlade.C113_unequal_after",
    "BladeX.ListBlade.C113_unequal_forever",
    "BladeX.ListBlade.C113_half_rotated"
   ],
   "note": ""
  },
  {
   "property": "C114",
   "status": "proved",
   "theorems": [
    "BladeX.C114_design",
    "BladeX.C114_response",
    "BladeX.C114_local",
    "BladeX.C114_uniform",
    "BladeX.C114_small",
    "BladeX.C114_jump",
    "BladeX.C114_jump_example"
   ],
   "note": ""
  },
  {
   "property": "C115",
   "status": "proved",
   "theorems": [
    "BladeX.C115_defined",
    "BladeX.C115_spline",
    "BladeX.C115_cubic",
    "BladeX.C115_linear",
    "BladeX.C115_accuracy",
    "BladeX.C115_in_range",
    "BladeX.C115_accepts",
    "BladeX.C115_exact",
    "BladeX.C115_converges",
    "BladeX.C115_too_few",
    "BladeX.C115_accepts_generic"
   ],
   "note": ""
  },
  {
   "property": "C116",
   "status": "proved",
   "theorems": [
    "BladeX.Naca.C116_published",
    "BladeX.Naca.C116_extrapolated",
    "BladeX.Naca.C116_height",
    "BladeX.Naca.C116_accepts",
    "BladeX.Naca.C116_trailing_edge"
   ],
   "note": "splrep/splev by their documentation: the not-a-knot cubic spline, continued."
  },
  {
   "property": "C117",
   "status": "proved",
   "theorems": [
    "BladeX.Propeller.C117_tmp_stl",
    "BladeX.Propeller.C117_tmp_current",
    "BladeX.Propeller.C117_export_first",
    "BladeX.Propeller.C117_other_files",
    "BladeX.Propeller.C117_new"
   ],
   "note": "Sewing, meshing and fusing are parameters (Kernel); the writer status is ignored as in the code."
  },
  {
   "property": "C118",
   "status": "proved",
   "theorems": [
    "BladeX.Reverse.C118_wire",
    "BladeX.Reverse.C118_split",
    "BladeX.Reverse.C118_closed",
    "BladeX.Reverse.C118_edges"
   ],
   "note": "BRepBuilderAPI_MakeWire by its documentation; vertices compared exactly."
  },
  {
   "property": "C119",
   "status": "proved",
   "theorems": [
    "BladeX.Reverse.C119_accepts",
    "BladeX.Reverse.C119_points",
    "BladeX.Reverse.C119_swap",
    "BladeX.Reverse.C119_middle",
    "BladeX.Reverse.C119_seam"
   ],
   "note": "What the kernel finds on a plane is a parameter."
  },
  {
   "property": "C120",
   "status": "proved",
   "theorems": [
    "BladeX.C120_section",
    "BladeX.C120_parameters",
    "BladeX.C120_blade"
   ],
   "note": "Tutorial 6 as a workflow; section parameters are carried by the profile objects."
  },
  {
   "property": "C121",
   "status": "proved",
   "theorems": [
    "BladeX.C121_position",
    "BladeX.C121_outline",
    "BladeX.C121_camber"
   ],
   "note": "Heights of vertices are excluded because there the code is wrong (C63)."
  },
  {
   "property": "C122",
   "status": "proved",
   "theorems": [
    "BladeX.C122_interpolates",
    "BladeX.C122_points",
    "BladeX.C122_mirrored",
    "BladeX.C122_off_chord",
    "BladeX.C122_no_skew"
   ],
   "note": "The kernel and the interpolation are parameters."
  },
  {
   "property": "C123",
   "status": "proved",
   "theorems": [
    "BladeX.ParamFile.C123_early",
    "BladeX.ParamFile.C123_late",
    "BladeX.ParamFile.C123_newline",
    "BladeX.ParamFile.C123_interrupted",
    "BladeX.ParamFile.C123_crash",
    "BladeX.ParamFile.C123_old_lost",
    "BladeX.ParamFile.C123_silent"
   ],
   "note": "Number codec as in C40. The text reaches the disk in order; losses by the operating system are not modelled."
  },
  {
   "property": "C124",
   "status": "proved",
   "theorems": [
    "BladeX.ParamFile.C124_last_write",
    "BladeX.ParamFile.C124_last_crash",
    "BladeX.ParamFile.C124_refused",
    "BladeX.ParamFile.C124_other_files",
    "BladeX.ParamFile.C124_copy",
    "BladeX.ParamFile.C124_other_objects",
    "BladeX.ParamFile.C124_objects"
   ],
   "note": "Calls are atomic except for crashes; number rendering as in C40."
  },
  {
   "property": "C125",
   "status": "proved",
   "theorems": [
    "BladeX.C125_is_area",
    "BladeX.C125_profile_area",
    "BladeX.C125_motions",
    "BladeX.C125_thickness",
    "BladeX.C125_camber",
    "BladeX.C125_custom",
    "BladeX.C125_blade",
    "BladeX.C125_blade_thickness"
   ],
   "note": ""
  },
  {
   "property": "C126",
   "status": "proved",
   "theorems": [
    "BladeX.Rounded.C126_coordinates",
    "BladeX.Rounded.C126_back",
    "BladeX.Rounded.C126_upright",
    "BladeX.Rounded.C126_again",
    "BladeX.Rounded.C126_parameters",
    "BladeX.Rounded.C126_chord",
    "BladeX.Rounded.C126_double"
   ],
   "note": ""
  },
  {
   "property": "C127",
   "status": "proved",
   "theorems": [
    "BladeX.Ieee.C127_agrees",
    "BladeX.Ieee.C127_camber_agrees",
    "BladeX.Ieee.C127_zero_radius",
    "BladeX.Ieee.C127_no_camber",
    "BladeX.Ieee.C127_symmetric",
    "BladeX.Ieee.C127_symmetric_blade",
    "BladeX.Ieee.C127_vertical"
   ],
   "note": "Infinities and nan, but no rounding, overflow or signed zeros (the sign of a zero divisor is a parameter)."
  },
  {
   "property": "C128",
   "status": "proved",
   "theorems": [
    "BladeX.C128_accepts",
    "BladeX.C128_rebuilt",
    "BladeX.C128_round_trip",
    "BladeX.C128_exact",
    "BladeX.C128_upside_down",
    "BladeX.C128_left_handed"
   ],
   "note": "The bodies of the methods with num_sections, recons_sections supplied (as they stand they raise AttributeError, C64); the kernel section is the parameter of C115."
  },
  {
   "property": "C129",
   "status": "proved",
   "theorems": [
    "BladeX.C129_kept",
    "BladeX.C129_overwritten",
    "BladeX.C129_copies_safe",
    "BladeX.C129_second_refused",
    "BladeX.C129_second_scaled"
   ],
   "note": ""
  },
  {
   "property": "C130",
   "status": "proved",
   "theorems": [
    "BladeX.C130_radius_scaled",
    "BladeX.C130_lost",
    "BladeX.C130_camber_lost",
    "BladeX.C130_thickness_lost",
    "BladeX.C130_blade",
    "BladeX.C130_edge_check",
    "BladeX.C130_not_similar"
   ],
   "note": ""
  },
  {
   "property": "C131",
   "status": "proved",
   "theorems": [
    "BladeX.C131_thickness",
    "BladeX.C131_edges",
    "BladeX.C131_nose_tail",
    "BladeX.C131_same_as_sections",
    "BladeX.C131_points",
    "BladeX.C131_camber"
   ],
   "note": ""
  },
  {
   "property": "C132",
   "status": "proved",
   "theorems": [
    "BladeX.Blade.C132_written",
    "BladeX.Blade.C132_rows",
    "BladeX.Blade.C132_never_written",
    "BladeX.Blade.C132_no_coordinates",
    "BladeX.Blade.C132_files",
    "BladeX.Blade.C132_checks"
   ],
   "note": ""
  },
  {
   "property": "C133",
   "status": "proved",
   "theorems": [
    "BladeX.Rounded.C133_points",
    "BladeX.Rounded.C133_constructed",
    "BladeX.Rounded.C133_order",
    "BladeX.Rounded.C133_double",
    "BladeX.Rounded.C133_symmetric"
   ],
   "note": ""
  },
  {
   "property": "C134",
   "status": "proved",
   "theorems": [
    "BladeX.C134_overhang",
    "BladeX.C134_no_overhang"
   ],
   "note": ""
  },
  {
   "property": "C135",
   "status": "proved",
   "theorems": [
    "BladeX.C135_like_new",
    "BladeX.C135_pairing",
    "BladeX.C135_accepts",
    "BladeX.C135_shifted",
    "BladeX.C135_refused",
    "BladeX.C135_one_pitch"
   ],
   "note": ""
  },
  {
   "property": "C136",
   "status": "proved",
   "theorems": [
    "BladeX.C136_float_output",
    "BladeX.C136_same_failures",
    "BladeX.C136_rounded",
    "BladeX.C136_integer",
    "BladeX.C136_data_lost",
    "BladeX.C136_order_matters"
   ],
   "note": ""
  },
  {
   "property": "C137",
   "status": "proved",
   "theorems": [
    "BladeX.C137_blade_text",
    "BladeX.C137_blade_unambiguous",
    "BladeX.C137_blade_unprintable",
    "BladeX.C137_params_unambiguous",
    "BladeX.C137_params_text"
   ],
   "note": ""
  },
  {
   "property": "C138",
   "status": "proved",
   "theorems": [
    "BladeX.ParamFile.C138_line_ends",
    "BladeX.ParamFile.C138_converted",
    "BladeX.ParamFile.C138_round_trip",
    "BladeX.ParamFile.C138_missing",
    "BladeX.ParamFile.C138_interrupted"
   ],
   "note": ""
  },
  {
   "property": "C139",
   "status": "proved",
   "theorems": [
    "BladeX.C139_blade",
    "BladeX.C139_blade_unbuilt",
    "BladeX.C139_blade_exported",
    "BladeX.C139_blade_moved",
    "BladeX.C139_blade_stale",
    "BladeX.Propeller.C139_propeller",
    "BladeX.Propeller.C139_propeller_frozen",
    "BladeX.C139_shafts"
   ],
   "note": ""
  },
  {
   "property": "C140",
   "status": "proved",
   "theorems": [
    "BladeX.C140_refused",
    "BladeX.C140_mixed",
    "BladeX.C140_retry"
   ],
   "note": ""
  },
  {
   "property": "C141",
   "status": "proved",
   "theorems": [
    "BladeX.C141_one_curve",
    "BladeX.C141_refined",
    "BladeX.C141_dense"
   ],
   "note": ""
  },
  {
   "property": "C142",
   "status": "proved",
   "theorems": [
    "BladeX.C142_area_of_the_curve",
    "BladeX.C142_area",
    "BladeX.C142_refining",
    "BladeX.C142_camber_free"
   ],
   "note": ""
  },
  {
   "property": "C143",
   "status": "proved",
   "theorems": [
    "BladeX.C143_one_similarity",
    "BladeX.C143_refused",
    "BladeX.C143_order",
    "BladeX.C143_translate_scale_commute",
    "BladeX.C143_undo"
   ],
   "note": ""
  },
  {
   "property": "C144",
   "status": "proved",
   "theorems": [
    "BladeX.C144_similar",
    "BladeX.C144_faces_congruent"
   ],
   "note": ""
  },
  {
   "property": "C145",
   "status": "proved",
   "theorems": [
    "BladeX.C145_defined",
    "BladeX.C145_sensitivity",
    "BladeX.C145_between"
   ],
   "note": ""
  },
  {
   "property": "C146",
   "status": "proved",
   "theorems": [
    "BladeX.C146_local",
    "BladeX.C146_assembled",
    "BladeX.C146_selected"
   ],
   "note": ""
  },
  {
   "property": "C147",
   "status": "proved",
   "theorems": [
    "BladeX.C147_similar",
    "BladeX.C147_line",
    "BladeX.C147_foil",
    "BladeX.C147_radius_kept",
    "BladeX.C147_order"
   ],
   "note": ""
  },
  {
   "property": "C148",
   "status": "proved",
   "theorems": [
    "BladeX.C148_reversed",
    "BladeX.C148_refined",
    "BladeX.C148_local",
    "BladeX.C148_degree_zero"
   ],
   "note": ""
  },
  {
   "property": "C149",
   "status": "proved",
   "theorems": [
    "BladeX.C149_shape",
    "BladeX.C149_sensitivity",
    "BladeX.C149_defined",
    "BladeX.C149_within"
   ],
   "note": ""
  },
  {
   "property": "C150",
   "status": "proved",
   "theorems": [
    "BladeX.C150_length",
    "BladeX.C150_variation",
    "BladeX.C150_chord",
    "BladeX.C150_finer"
   ],
   "note": ""
  },
  {
   "property": "C151",
   "status": "proved",
   "theorems": [
    "BladeX.C151_accepted",
    "BladeX.C151_refused",
    "BladeX.C151_same",
    "BladeX.C151_minus",
    "BladeX.C151_inside_out"
   ],
   "note": ""
  },
  {
   "property": "C152",
   "status": "proved",
   "theorems": [
    "BladeX.C152_design",
    "BladeX.C152_coordinates",
    "BladeX.C152_outcome",
    "BladeX.C152_forgets",
    "BladeX.C152_reassigned"
   ],
   "note": ""
  },
  {
   "property": "C153",
   "status": "proved",
   "theorems": [
    "BladeX.C153_curves",
    "BladeX.C153_refined",
    "BladeX.C153_dense",
    "BladeX.C153_naca"
   ],
   "note": ""
  },
  {
   "property": "C154",
   "status": "proved",
   "theorems": [
    "BladeX.C154_chords",
    "BladeX.C154_between",
    "BladeX.C154_graph",
    "BladeX.Deform.C154_values",
    "BladeX.Deform.C154_sections",
    "BladeX.Deform.C154_resampled",
    "BladeX.Deform.C154_rises"
   ],
   "note": ""
  }
 ]
}