{
 "claims": [
  {
   "property": "C01",
   "status": "proved",
   "theorems": [
    "Composipy.C01_ortho_ok",
    "Composipy.C01_ortho_zeroDiv",
    "Composipy.C01_ortho_valueError",
    "Composipy.C01_ortho_only_errors",
    "Composipy.C01_ortho_refuses_negative",
    "Composipy.C01_ortho_refuses_poisson"
   ],
   "note": ""
  },
  {
   "property": "C02",
   "status": "partial",
   "theorems": [
    "Composipy.C02_iso_ok",
    "Composipy.C02_iso_valueError",
    "Composipy.C02_iso_omitted_allowable_raises",
    "Composipy.C02_iso_optional_allowables_false"
   ],
   "note": "The unchanged code violates the property as stated; omitting an allowable raises ValueError (C02_iso_optional_allowables_false). Acceptance with all seven numbers is characterised exactly."
  },
  {
   "property": "C03",
   "status": "proved",
   "theorems": [
    "Composipy.C03_defaults",
    "Composipy.C03_plate_ok",
    "Composipy.C03_plate_err",
    "Composipy.C03_plate_refuses_noninteger"
   ],
   "note": ""
  },
  {
   "property": "C04",
   "status": "proved",
   "theorems": [
    "Composipy.C04_Q0_inverse_compliance"
   ],
   "note": ""
  },
  {
   "property": "C05",
   "status": "partial",
   "theorems": [
    "Composipy.C05_Q0_raises_iff",
    "Composipy.C05_Q0_only_zeroDiv",
    "Composipy.C05_Q0_posDef_iff",
    "Composipy.C05_accepted_but_unreadable",
    "Composipy.C05_accepted_but_indefinite"
   ],
   "note": "The unchanged code violates the property as stated; accepted materials can have an unreadable or indefinite Q_0. The exact conditions are proved (C05_Q0_raises_iff, C05_Q0_posDef_iff)."
  },
  {
   "property": "C06",
   "status": "proved",
   "theorems": [
    "Composipy.C06_iso_eq_ortho",
    "Composipy.C06_iso_never_raises",
    "Composipy.C06_iso_posDef",
    "Composipy.C06_iso_rotation_invariant",
    "Composipy.C06_iso_rotation_invariant_conv"
   ],
   "note": ""
  },
  {
   "property": "C07",
   "status": "proved",
   "theorems": [
    "Composipy.C07_ortho_eq",
    "Composipy.C07_iso_eq",
    "Composipy.C07_nan_not_reflexive",
    "Composipy.C07_ortho_equivalence",
    "Composipy.C07_other_class_raises"
   ],
   "note": ""
  },
  {
   "property": "C08",
   "status": "proved",
   "theorems": [
    "Composipy.C08_name_determined",
    "Composipy.C08_name_stable",
    "Composipy.C08_auto_names_distinct",
    "Composipy.C08_user_name",
    "Composipy.C08_failed_construction_consumes_nothing"
   ],
   "note": ""
  },
  {
   "property": "C09",
   "status": "proved",
   "theorems": [
    "Composipy.C09_invariants_rotate",
    "Composipy.C09_invariants_ok_iff",
    "Composipy.C09_iso_no_invariants"
   ],
   "note": ""
  },
  {
   "property": "C10",
   "status": "proved",
   "theorems": [
    "Composipy.C10_single",
    "Composipy.C10_list"
   ],
   "note": ""
  },
  {
   "property": "C11",
   "status": "proved",
   "theorems": [
    "Composipy.C11_z_position",
    "Composipy.C11_monotone"
   ],
   "note": ""
  },
  {
   "property": "C12",
   "status": "proved",
   "theorems": [
    "Composipy.C12_Qlayup_entries",
    "Composipy.C12_rotation_law",
    "Composipy.C12_symmetric",
    "Composipy.C12_energy",
    "Composipy.C12_posDef",
    "Composipy.C12_zero",
    "Composipy.C12_ninety",
    "Composipy.C12_opposite_angle",
    "Composipy.C12_period",
    "Composipy.C12_Tlayup"
   ],
   "note": ""
  },
  {
   "property": "C13",
   "status": "proved",
   "theorems": [
    "Composipy.C13_A_integral",
    "Composipy.C13_B_integral",
    "Composipy.C13_D_integral",
    "Composipy.C13_field_exists",
    "Composipy.C13_readable_iff"
   ],
   "note": ""
  },
  {
   "property": "C14",
   "status": "proved",
   "theorems": [
    "Composipy.C14_ABD_blocks_symmetric",
    "Composipy.C14_ABD_readable"
   ],
   "note": ""
  },
  {
   "property": "C15",
   "status": "proved",
   "theorems": [
    "Composipy.C15_posDef"
   ],
   "note": ""
  },
  {
   "property": "C16",
   "status": "proved",
   "theorems": [
    "Composipy.C16_A_perm"
   ],
   "note": ""
  },
  {
   "property": "C17",
   "status": "proved",
   "theorems": [
    "Composipy.C17_reverse",
    "Composipy.C17_symmetric_B_zero"
   ],
   "note": ""
  },
  {
   "property": "C18",
   "status": "proved",
   "theorems": [
    "Composipy.C18_negated_angles",
    "Composipy.C18_balanced_A",
    "Composipy.C18_antisymmetric_D",
    "Composipy.C18_crossply"
   ],
   "note": ""
  },
  {
   "property": "C19",
   "status": "proved",
   "theorems": [
    "Composipy.C19_roundtrip",
    "Composipy.C19_iso_refused"
   ],
   "note": ""
  },
  {
   "property": "C20",
   "status": "proved",
   "theorems": [
    "Composipy.C20_feasible",
    "Composipy.C20_empty"
   ],
   "note": ""
  },
  {
   "property": "C21",
   "status": "proved",
   "theorems": [
    "Composipy.C21_xi_unchanged",
    "Composipy.C21_scaling"
   ],
   "note": ""
  },
  {
   "property": "C22",
   "status": "proved",
   "theorems": [
    "Composipy.C22_split",
    "Composipy.C22_zero_ply"
   ],
   "note": ""
  },
  {
   "property": "C23",
   "status": "proved",
   "theorems": [
    "Composipy.C23_read_order_irrelevant",
    "Composipy.C23_dict_readable"
   ],
   "note": ""
  },
  {
   "property": "C24",
   "status": "partial",
   "theorems": [
    "Composipy.C24_second_read_returns_garbage",
    "Composipy.C24_failed_read_keeps_failing_false",
    "Composipy.C24_failed_read_keeps_failing_partial"
   ],
   "note": "The unchanged code violates the property as stated; the second read returns zeros or a truncated list for every stack with an unreadable ply (C24_second_read_returns_garbage)."
  },
  {
   "property": "C25",
   "status": "proved",
   "theorems": [
    "Composipy.C25_accepts_iff",
    "Composipy.C25_refuses",
    "Composipy.C25_fields"
   ],
   "note": ""
  },
  {
   "property": "C26",
   "status": "proved",
   "theorems": [
    "Composipy.C26_lp_matrices",
    "Composipy.C26_xiD_none",
    "Composipy.C26_no_xiA_singular",
    "Composipy.C26_no_xiA_epsilon0"
   ],
   "note": ""
  },
  {
   "property": "C27",
   "status": "partial",
   "theorems": [
    "Composipy.C27_eq_iff_layup",
    "Composipy.C27_equal_stiffness_partial",
    "Composipy.C27_lp_always_equal",
    "Composipy.C27_equal_stiffness_false"
   ],
   "note": "The unchanged code violates the property as stated; any two lamination-parameter laminates compare equal. Proved for stackings."
  },
  {
   "property": "C28",
   "status": "proved",
   "theorems": [
    "Composipy.C28_mutation_safe",
    "Composipy.C28_xi_follows"
   ],
   "note": ""
  },
  {
   "property": "C29",
   "status": "proved",
   "theorems": [
    "Composipy.C29_singular_all",
    "Composipy.C29_epsilon0_unique",
    "Composipy.C29_singular_iff",
    "Composipy.C29_admissible",
    "Composipy.C29_empty"
   ],
   "note": ""
  },
  {
   "property": "C30",
   "status": "proved",
   "theorems": [
    "Composipy.C30_strain_linear",
    "Composipy.C30_stress_linear",
    "Composipy.C30_success_independent"
   ],
   "note": ""
  },
  {
   "property": "C31",
   "status": "proved",
   "theorems": [
    "Composipy.C31_strain_table",
    "Composipy.C31_stress_labels",
    "Composipy.C31_continuous",
    "Composipy.C31_errors"
   ],
   "note": ""
  },
  {
   "property": "C32",
   "status": "proved",
   "theorems": [
    "Composipy.C32_consistent"
   ],
   "note": ""
  },
  {
   "property": "C33",
   "status": "proved",
   "theorems": [
    "Composipy.C33_no_corruption",
    "Composipy.C33_repeatable",
    "Composipy.C33_full_shear"
   ],
   "note": ""
  },
  {
   "property": "C34",
   "status": "proved",
   "theorems": [
    "Composipy.C34_equilibrium"
   ],
   "note": ""
  },
  {
   "property": "C35",
   "status": "proved",
   "theorems": [
    "Composipy.C35_margins",
    "Composipy.C35_computable"
   ],
   "note": ""
  },
  {
   "property": "C36",
   "status": "proved",
   "theorems": [
    "Composipy.C36_critical",
    "Composipy.C36_critical_exists"
   ],
   "note": ""
  },
  {
   "property": "C37",
   "status": "partial",
   "theorems": [
    "Composipy.C37_labels_partial",
    "Composipy.C37_labels_false"
   ],
   "note": "The unchanged code violates the property as stated; the position label is swapped in every row (C37_labels_false); ply and angle agree."
  },
  {
   "property": "C38",
   "status": "proved",
   "theorems": [
    "Composipy.C38_load_scaling"
   ],
   "note": ""
  },
  {
   "property": "C39",
   "status": "proved",
   "theorems": [
    "Composipy.C39_lp_refused"
   ],
   "note": ""
  },
  {
   "property": "C40",
   "status": "proved",
   "theorems": [
    "Composipy.C40_sizes",
    "Composipy.C40_accepted_iff"
   ],
   "note": ""
  },
  {
   "property": "C41",
   "status": "proved",
   "theorems": [
    "Composipy.C41_pinned",
    "Composipy.C41_clamped",
    "Composipy.C41_unknown_word",
    "Composipy.C41_other_values",
    "Composipy.C41_spelling",
    "Composipy.C41_flags"
   ],
   "note": ""
  },
  {
   "property": "C42",
   "status": "partial",
   "theorems": [
    "Composipy.C42_own_flags_partial",
    "Composipy.C42_own_flags_false",
    "Composipy.C42_foreign_flag_applied"
   ],
   "note": "The unchanged code violates the property as stated; on y edges v and w follow the flags of u (C42_own_flags_false, C42_foreign_flag_applied); u on all edges and v, w on x edges are proved."
  },
  {
   "property": "C43",
   "status": "partial",
   "theorems": [
    "Composipy.C43_word_edges_free_partial",
    "Composipy.C43_word_meaning_false"
   ],
   "note": "The unchanged code violates the property as stated; a word edge in a mixed dictionary is free (C43_word_edges_free_partial)."
  },
  {
   "property": "C44",
   "status": "proved",
   "theorems": [
    "Composipy.C44_edge_conditions",
    "Composipy.C44_free_edge_moves"
   ],
   "note": ""
  },
  {
   "property": "C45",
   "status": "proved",
   "theorems": [
    "Composipy.C45_bubble",
    "Composipy.C45_second_derivative",
    "Composipy.C45_parity",
    "Composipy.C45_low_values",
    "Composipy.C45_orthogonal"
   ],
   "note": ""
  },
  {
   "property": "C46",
   "status": "proved",
   "theorems": [
    "Composipy.C46_fxi",
    "Composipy.C46_sxieta",
    "Composipy.C46_sxieta_vector"
   ],
   "note": ""
  },
  {
   "property": "C47",
   "status": "proved",
   "theorems": [
    "Composipy.C47_integrals",
    "Composipy.C47_symmetric"
   ],
   "note": ""
  },
  {
   "property": "C48",
   "status": "proved",
   "theorems": [
    "Composipy.C48_symmetric"
   ],
   "note": ""
  },
  {
   "property": "C49",
   "status": "proved",
   "theorems": [
    "Composipy.C49_energy",
    "Composipy.C49_energy_clamped",
    "Composipy.C49_posSemidef",
    "Composipy.C49_posDef_clamped"
   ],
   "note": ""
  },
  {
   "property": "C50",
   "status": "proved",
   "theorems": [
    "Composipy.C50_linear",
    "Composipy.C50_load_scaling",
    "Composipy.C50_stiffness_scaling"
   ],
   "note": ""
  },
  {
   "property": "C51",
   "status": "proved",
   "theorems": [
    "Composipy.C51_computed_iff",
    "Composipy.C51_no_key_error",
    "Composipy.C51_clamped_key_error",
    "Composipy.C51_zero_side"
   ],
   "note": ""
  },
  {
   "property": "C52",
   "status": "partial",
   "theorems": [
    "Composipy.C52_bending_block",
    "Composipy.C52_computed",
    "Composipy.C52_symmetric_partial",
    "Composipy.C52_symmetric_iff",
    "Composipy.C52_coupled_false",
    "Composipy.C52_symmetric_false"
   ],
   "note": "The unchanged code violates the property as stated; K of calc_K_KG_ABD is not symmetric in general. The bending blocks, and symmetry when a = b and B = 0, are proved."
  },
  {
   "property": "C53",
   "status": "proved",
   "theorems": [
    "Composipy.C53_solves",
    "Composipy.C53_refused",
    "Composipy.C53_failure_keeps"
   ],
   "note": ""
  },
  {
   "property": "C54",
   "status": "partial",
   "theorems": [
    "Composipy.C54_critical_reported_partial",
    "Composipy.C54_small_multiplier_missed",
    "Composipy.C54_overloaded_missed",
    "Composipy.C54_false"
   ],
   "note": "The unchanged code violates the property as stated; the critical multiplier can be dropped when it is below 1 (C54_false, C54_overloaded_missed). Proved when every positive multiplier is at least 1."
  },
  {
   "property": "C55",
   "status": "proved",
   "theorems": [
    "Composipy.C55_normalised",
    "Composipy.C55_zero",
    "Composipy.C55_default_loads"
   ],
   "note": ""
  },
  {
   "property": "C56",
   "status": "proved",
   "theorems": [
    "Composipy.C56_triangle",
    "Composipy.C56_parabola",
    "Composipy.C56_triangle_in_parabola",
    "Composipy.C56_lengths",
    "Composipy.C56_stack_natural",
    "Composipy.C56_stack_triangle"
   ],
   "note": ""
  },
  {
   "property": "C57",
   "status": "proved",
   "theorems": [
    "Composipy.C57_warnings",
    "Composipy.C57_always"
   ],
   "note": ""
  },
  {
   "property": "C58",
   "status": "proved",
   "theorems": [
    "Composipy.C58_no_buckling",
    "Composipy.C58_safe_accepted",
    "Composipy.C58_objective",
    "Composipy.C58_box",
    "Composipy.C58_thickness_scaling"
   ],
   "note": "The hypothesis \"the first reported multiplier is the smallest positive one\" is Spec.FirstIsCritical; first_is_critical derives it from the eigensolver contract when all positive multipliers are at least 1."
  },
  {
   "property": "C59",
   "status": "proved",
   "theorems": [
    "Composipy.C59_objective",
    "Composipy.C59_minimising_maximises",
    "Composipy.C59_start_feasible",
    "Composipy.C59_feasible_set",
    "Composipy.C59_weight_start"
   ],
   "note": ""
  },
  {
   "property": "C60",
   "status": "proved",
   "theorems": [
    "Composipy.C60_expands"
   ],
   "note": ""
  },
  {
   "property": "C61",
   "status": "partial",
   "theorems": [
    "Composipy.C61_symmetric",
    "Composipy.C61_palindrome",
    "Composipy.C61_uppercase_raises"
   ],
   "note": "The unchanged code violates the property as stated; an upper-case S always raises ValueError (C61_uppercase_raises). Lower-case s is proved."
  },
  {
   "property": "C62",
   "status": "partial",
   "theorems": [
    "Composipy.C62_example_returns",
    "Composipy.C62_example_false",
    "Composipy.C62_pm_opposite"
   ],
   "note": "The unchanged code violates the property as stated; the documented example is wrong (C62_example_false); what it returns is C62_example_returns."
  },
  {
   "property": "C63",
   "status": "partial",
   "theorems": [
    "Composipy.C63_card",
    "Composipy.C63_plies_in_order",
    "Composipy.C63_glued_mark_false",
    "Composipy.C63_success_iff",
    "Composipy.C63_pid"
   ],
   "note": "The unchanged code violates the property as stated; the continuation mark is glued to the last field of full lines (C63_glued_mark_false). The exact card and the order of the plies are proved."
  },
  {
   "property": "C64",
   "status": "proved",
   "theorems": [
    "Composipy.C64_spelling",
    "Composipy.C64_fiber",
    "Composipy.C64_all",
    "Composipy.C64_sout_iff",
    "Composipy.C64_sout_refused",
    "Composipy.C64_convert",
    "Composipy.C64_length_mismatch",
    "Composipy.C64_empty_fiber"
   ],
   "note": ""
  },
  {
   "property": "C65",
   "status": "partial",
   "theorems": [
    "Composipy.C65_slice",
    "Composipy.C65_surface_partial",
    "Composipy.C65_border",
    "Composipy.C65_unequal_raises"
   ],
   "note": "The unchanged code violates the property as stated; unequal grid numbers raise IndexError (C65_unequal_raises). Square grids are proved."
  },
  {
   "property": "C66",
   "status": "proved",
   "theorems": [
    "Composipy.C66_bad_mode",
    "Composipy.C66_fresh",
    "Composipy.C66_plots_keep_state",
    "Composipy.C66_new_plate"
   ],
   "note": ""
  },
  {
   "property": "C67",
   "status": "proved",
   "theorems": [
    "Composipy.C67_history_free",
    "Composipy.C67_loads_restored"
   ],
   "note": ""
  },
  {
   "property": "C68",
   "status": "partial",
   "theorems": [
    "Composipy.C68_truncated_table",
    "Composipy.C68_rows_missing",
    "Composipy.C68_margin_nan",
    "Composipy.C68_failed_call_keeps_failing_false"
   ],
   "note": "The unchanged code violates the property as stated; later calls return a truncated table (C68_truncated_table, C68_failed_call_keeps_failing_false)."
  },
  {
   "property": "C69",
   "status": "partial",
   "theorems": [
    "Composipy.C69_mutated_stress",
    "Composipy.C69_longer_raises",
    "Composipy.C69_list_change_false"
   ],
   "note": "The unchanged code violates the property as stated; the caller's list is read again (C69_mutated_stress, C69_list_change_false, C69_longer_raises). Plate-axis stresses of the listed plies stay."
  },
  {
   "property": "C70",
   "status": "partial",
   "theorems": [
    "Composipy.C70_agrees_partial",
    "Composipy.C70_negative_zero",
    "Composipy.C70_critical_wrong",
    "Composipy.C70_zero_stress_false"
   ],
   "note": "The unchanged code violates the property as stated; for sigma_1 or sigma_2 equal to -0.0 the tension margin is -inf and critical (C70_negative_zero, C70_critical_wrong, C70_zero_stress_false); all other finite stresses are proved."
  },
  {
   "property": "C71",
   "status": "proved",
   "theorems": [
    "Composipy.C71_stiffness_turns",
    "Composipy.C71_response_turns",
    "Composipy.C71_margins_invariant",
    "Composipy.C71_stress_turns"
   ],
   "note": ""
  },
  {
   "property": "C72",
   "status": "proved",
   "theorems": [
    "Composipy.C72_membrane",
    "Composipy.C72_bending"
   ],
   "note": ""
  },
  {
   "property": "C73",
   "status": "proved",
   "theorems": [
    "Composipy.C73_quasi_isotropic"
   ],
   "note": ""
  },
  {
   "property": "C74",
   "status": "proved",
   "theorems": [
    "Composipy.C74_readable_B",
    "Composipy.C74_trace",
    "Composipy.C74_readable"
   ],
   "note": ""
  },
  {
   "property": "C75",
   "status": "proved",
   "theorems": [
    "Composipy.C75_homogeneous"
   ],
   "note": ""
  },
  {
   "property": "C76",
   "status": "proved",
   "theorems": [
    "Composipy.C76_mirror_response",
    "Composipy.C76_mirror_stress",
    "Composipy.C76_mirror_margin"
   ],
   "note": ""
  },
  {
   "property": "C77",
   "status": "proved",
   "theorems": [
    "Composipy.C77_reciprocity",
    "Composipy.C77_work_positive"
   ],
   "note": ""
  },
  {
   "property": "C78",
   "status": "partial",
   "theorems": [
    "Composipy.C78_grid",
    "Composipy.C78_fails_iff",
    "Composipy.C78_curves",
    "Composipy.C78_contour_is_objective_partial",
    "Composipy.C78_contour_scaled",
    "Composipy.C78_contour_false"
   ],
   "note": "The unchanged code violates the property as stated; the contour uses the loads as given, the objective the normalised ones (C78_contour_false, C78_contour_scaled); grid, mask, curves and failures are proved."
  },
  {
   "property": "C79",
   "status": "proved",
   "theorems": [
    "Composipy.C79_similar",
    "Composipy.C79_scale_model"
   ],
   "note": ""
  },
  {
   "property": "C80",
   "status": "proved",
   "theorems": [
    "Composipy.C80_exchange",
    "Composipy.C80_flag_lists"
   ],
   "note": ""
  },
  {
   "property": "C81",
   "status": "proved",
   "theorems": [
    "Composipy.C81_refinement",
    "Composipy.C81_refinement_clamped"
   ],
   "note": ""
  },
  {
   "property": "C82",
   "status": "proved",
   "theorems": [
    "Composipy.C82_monotone"
   ],
   "note": ""
  },
  {
   "property": "C83",
   "status": "proved",
   "theorems": [
    "Composipy.C83_tension",
    "Composipy.C83_compression"
   ],
   "note": ""
  },
  {
   "property": "C84",
   "status": "proved",
   "theorems": [
    "Composipy.C84_mirror",
    "Composipy.C84_negated_angles"
   ],
   "note": ""
  },
  {
   "property": "C85",
   "status": "proved",
   "theorems": [
    "Composipy.C85_quarter_turn"
   ],
   "note": ""
  },
  {
   "property": "C86",
   "status": "proved",
   "theorems": [
    "Composipy.C86_energy_error",
    "Composipy.C86_almost_nonneg",
    "Composipy.C86_mode_balance",
    "Composipy.C86_not_exact"
   ],
   "note": ""
  },
  {
   "property": "C87",
   "status": "proved",
   "theorems": [
    "Composipy.C87_supported",
    "Composipy.C87_words",
    "Composipy.C87_named",
    "Composipy.C87_shipped_gap",
    "Composipy.C87_free_degenerate",
    "Composipy.C87_free_exact"
   ],
   "note": ""
  },
  {
   "property": "C88",
   "status": "proved",
   "theorems": [
    "Composipy.C88_blocks",
    "Composipy.C88_clamped",
    "Composipy.C88_iff",
    "Composipy.C88_energy",
    "Composipy.C88_square"
   ],
   "note": ""
  },
  {
   "property": "C89",
   "status": "proved",
   "theorems": [
    "Composipy.C89_strips",
    "Composipy.C89_euler",
    "Composipy.C89_rayleigh",
    "Composipy.C89_reported"
   ],
   "note": ""
  },
  {
   "property": "C90",
   "status": "proved",
   "theorems": [
    "Composipy.C90_bending",
    "Composipy.C90_membrane",
    "Composipy.C90_same_stiffness",
    "Composipy.C90_penalty_region",
    "Composipy.C90_natural_region",
    "Composipy.C90_buildable"
   ],
   "note": ""
  },
  {
   "property": "C91",
   "status": "proved",
   "theorems": [
    "Composipy.C91_only_errors",
    "Composipy.C91_index_iff",
    "Composipy.C91_angles_from_text"
   ],
   "note": ""
  },
  {
   "property": "C92",
   "status": "partial",
   "theorems": [
    "Composipy.C92_unclosed_dropped",
    "Composipy.C92_unclosed_empty",
    "Composipy.C92_missing_count_raises",
    "Composipy.C92_unbalanced_raises_false"
   ],
   "note": "The unchanged code violates the property as stated; an unclosed group is dropped without an exception (C92_unbalanced_raises_false, C92_unclosed_dropped, C92_unclosed_empty); a group without a count raises (C92_missing_count_raises)."
  },
  {
   "property": "C93",
   "status": "proved",
   "theorems": [
    "Composipy.C93_usable_terms",
    "Composipy.C93_zero_side",
    "Composipy.C93_outcome",
    "Composipy.C93_returns_iff",
    "Composipy.C93_only_errors",
    "Composipy.C93_named_limits"
   ],
   "note": ""
  },
  {
   "property": "C94",
   "status": "proved",
   "theorems": [
    "Composipy.C94_laminate",
    "Composipy.C94_laminate_fails",
    "Composipy.C94_script",
    "Composipy.C94_clamped_script",
    "Composipy.C94_strength_script"
   ],
   "note": ""
  },
  {
   "property": "C95",
   "status": "proved",
   "theorems": [
    "Composipy.C95_held",
    "Composipy.C95_named",
    "Composipy.C95_clamped",
    "Composipy.C95_shipped",
    "Composipy.C95_isotropic",
    "Composipy.C95_rayleigh",
    "Composipy.C95_square"
   ],
   "note": "Exact for CLAMPED with the shipped tables and for all supports with exact integrals; for other supports the shipped tables are rounded and C95_shipped carries the error term of C86."
  },
  {
   "property": "C96",
   "status": "proved",
   "theorems": [
    "Composipy.C96_stacked",
    "Composipy.C96_repeated",
    "Composipy.C96_mirrored",
    "Composipy.C96_limit"
   ],
   "note": ""
  },
  {
   "property": "C97",
   "status": "proved",
   "theorems": [
    "Composipy.C97_energy",
    "Composipy.C97_A_D",
    "Composipy.C97_buckling"
   ],
   "note": "Buckling part for CLAMPED plates with the shipped tables."
  },
  {
   "property": "C98",
   "status": "proved",
   "theorems": [
    "Composipy.C98_box",
    "Composipy.C98_convex",
    "Composipy.C98_unloaded",
    "Composipy.C98_part",
    "Composipy.C98_factor",
    "Composipy.C98_some",
    "Composipy.C98_finite"
   ],
   "note": "Finite loads; margins over the reals with the IEEE infinities of numpy division."
  },
  {
   "property": "C99",
   "status": "proved",
   "theorems": [
    "Composipy.C99_bound_iff",
    "Composipy.C99_held",
    "Composipy.C99_clamped",
    "Composipy.C99_upper",
    "Composipy.C99_converges",
    "Composipy.C99_square"
   ],
   "note": "Exact integrals for PINNED and other supports; for CLAMPED the lower bound also with the shipped tables (C99_clamped). The limit needs more terms than the 30 of the shipped tables, so it is about exact integrals only."
  },
  {
   "property": "C100",
   "status": "proved",
   "theorems": [
    "Composipy.C100_energy",
    "Composipy.C100_relative",
    "Composipy.C100_work",
    "Composipy.C100_posDef",
    "Composipy.C100_multipliers",
    "Composipy.C100_critical",
    "Composipy.C100_bounds",
    "Composipy.C100_work_any",
    "Composipy.C100_shear",
    "Composipy.C100_reported"
   ],
   "note": "Plates held along the four edges; for other supports the rounding is bounded by C86. tableAcc are proved upper bounds, not the exact values; C100_shear covers shear and tensile loads."
  },
  {
   "property": "C101",
   "status": "proved",
   "theorems": [
    "Composipy.C101_stiffness",
    "Composipy.C101_parameters",
    "Composipy.C101_response",
    "Composipy.C101_rational",
    "Composipy.C101_tables",
    "Composipy.C101_built",
    "Composipy.C101_test_ABD",
    "Composipy.C101_test_Q0",
    "Composipy.C101_test_parameters",
    "Composipy.C101_test_example3",
    "Composipy.C101_test_example6"
   ],
   "note": "Orthotropic plies. The tests are restated with numpy.testing tolerances; the two references of order 1e-17 are replaced by the exact value 0."
  },
  {
   "property": "C102",
   "status": "proved",
   "theorems": [
    "Composipy.C102_clamped",
    "Composipy.C102_quotient",
    "Composipy.C102_pinned_exact",
    "Composipy.C102_pinned",
    "Composipy.C102_pinned_reported",
    "Composipy.C102_clamped_reported",
    "Composipy.C102_test_pinned",
    "Composipy.C102_test_clamped",
    "Composipy.C102_test_equivalent",
    "Composipy.C102_test_LP"
   ],
   "note": "The order of the eigenvalues is an assumption on the solver (CayleySorted), as in C54; the lower bound 1 on the multiplier is needed for the reason given there. math.isclose of the tests is restated on the reals."
  },
  {
   "property": "C103",
   "status": "proved",
   "theorems": [
    "Composipy.C103_trial",
    "Composipy.C103_quotient",
    "Composipy.C103_two",
    "Composipy.C103_shear",
    "Composipy.C103_design",
    "Composipy.C103_even",
    "Composipy.C103_best",
    "Composipy.C103_test_maximize",
    "Composipy.C103_shear_bound",
    "Composipy.C103_test_weight"
   ],
   "note": "scipy.optimize.minimize stays outside the model: the statements are about the global optimum of the problem handed to it, not about where its search stops. In the weight test thinner designs than 0.35 are excluded because there the first value could be a spurious large multiplier (C54); the lamination parameters of that test are not determined by these bounds, only the thickness."
  },
  {
   "property": "C104",
   "status": "proved",
   "theorems": [
    "Composipy.C104_mix",
    "Composipy.C104_concave",
    "Composipy.C104_maximize",
    "Composipy.C104_weight",
    "Composipy.C104_test_maximize",
    "Composipy.C104_test_weight"
   ],
   "note": "That minimize stops at a local minimum is outside the model. The hypothesis on the feasible designs is needed: below it the first value need not be the least multiplier (C54)."
  },
  {
   "property": "C105",
   "status": "proved",
   "theorems": [
    "Composipy.C105_repr_state",
    "Composipy.C105_repr_state_iso",
    "Composipy.C105_repr_ortho",
    "Composipy.C105_repr_iso",
    "Composipy.C105_texts",
    "Composipy.C105_repr_class",
    "Composipy.C105_repr_eq",
    "Composipy.C105_repr_laminate",
    "Composipy.C105_repr_blind",
    "Composipy.C105_eq_comm",
    "Composipy.C105_ne",
    "Composipy.C105_material_other",
    "Composipy.C105_laminate_other",
    "Composipy.C105_laminates",
    "Composipy.C105_hash"
   ],
   "note": "The text of a number and of a dictionary are parameters; objects that compare entry by entry (arrays) are left out."
  },
  {
   "property": "C106",
   "status": "proved",
   "theorems": [
    "Composipy.C106_energy",
    "Composipy.C106_bound",
    "Composipy.C106_shipped",
    "Composipy.C106_quotient",
    "Composipy.C106_first",
    "Composipy.C106_test_weight",
    "Composipy.C106_test_thin"
   ],
   "note": "C106_test_weight removes the restriction T >= 0.35 of C103 and C104."
  },
  {
   "property": "C107",
   "status": "proved",
   "theorems": [
    "Composipy.C107_lower",
    "Composipy.C107_upper",
    "Composipy.C107_infimum",
    "Composipy.C107_converges",
    "Composipy.C107_none",
    "Composipy.C107_navier",
    "Composipy.C107_square",
    "Composipy.C107_clamped"
   ],
   "note": "Generalises C99_converges to any supports, coupling and shear; the limit is over exact integrals (the shipped tables end at 30 terms)."
  },
  {
   "property": "C108",
   "status": "proved",
   "theorems": [
    "Composipy.C108_terms",
    "Composipy.C108_monotone",
    "Composipy.C108_all",
    "Composipy.C108_all_clamped",
    "Composipy.C108_lower",
    "Composipy.C108_upper",
    "Composipy.C108_converges",
    "Composipy.C108_limits"
   ],
   "note": "C108_terms is for the shipped tables; C108_monotone, C108_converges and C108_limits for exact integrals."
  },
  {
   "property": "C109",
   "status": "proved",
   "theorems": [
    "Composipy.C109_ordered",
    "Composipy.C109_clamped",
    "Composipy.C109_accuracy",
    "Composipy.C109_reported"
   ],
   "note": "The contract of eigsh (EigshFull, CayleySorted) is a hypothesis; exists_full shows that it can be met. C54 says why the bound 1 is needed."
  },
  {
   "property": "C110",
   "status": "proved",
   "theorems": [
    "Composipy.C110_z_position",
    "Composipy.C110_A",
    "Composipy.C110_B",
    "Composipy.C110_D",
    "Composipy.C110_symmetric",
    "Composipy.C110_exact",
    "Composipy.C110_ordered",
    "Composipy.C110_small"
   ],
   "note": "Model/Rounded repeats the calculation with a rounding after every operation; Spec/Nearest builds round-to-nearest with p+1 bits and shows that it meets the contract."
  },
  {
   "property": "C111",
   "status": "proved",
   "theorems": [
    "Composipy.C111_Q0",
    "Composipy.C111_ply",
    "Composipy.C111_stack",
    "Composipy.C111_invariants",
    "Composipy.C111_parameters"
   ],
   "note": "The error of np.linalg.inv and of cos, sin and @ are hypotheses; nearestLib meets them. The examples bound the error of two double-precision stacks."
  },
  {
   "property": "C112",
   "status": "proved",
   "theorems": [
    "Composipy.C112_bending",
    "Composipy.C112_geometric",
    "Composipy.C112_matrices",
    "Composipy.C112_multipliers",
    "Composipy.C112_precision"
   ],
   "note": "Model/RoundedPlate repeats calc_k33_ijkl, calc_kG33_ijkl and calc_K_KG_D with a rounding after every operation and reading of the tables; eigsh itself is not rounded here, the multipliers are those of the computed matrices."
  },
  {
   "property": "C113",
   "status": "proved",
   "theorems": [
    "Composipy.C113_strain",
    "Composipy.C113_stress",
    "Composipy.C113_inverse",
    "Composipy.C113_safe",
    "Composipy.C113_quiet",
    "Composipy.C113_margins",
    "Composipy.C113_flexibility",
    "Composipy.C113_ABD"
   ],
   "note": "Model/RoundedStrength repeats strength.py with a rounding after every operation; products with vectors meet the usual error bound and np.linalg.inv has a bounded error on ABD. The example bounds a double-precision margin table."
  },
  {
   "property": "C114",
   "status": "proved",
   "theorems": [
    "Composipy.C114_convert",
    "Composipy.C114_shape",
    "Composipy.C114_pre",
    "Composipy.C114_keys",
    "Composipy.C114_key_texts"
   ],
   "note": "Sympy is a parameter (products, derivatives, integrals, str). The reader is a separate specification of the part of the Python grammar that occurs. The functions and integrals themselves are the subject of the properties on Model/ShapeFunctions."
  },
  {
   "property": "C115",
   "status": "proved",
   "theorems": [
    "Composipy.C115_tables",
    "Composipy.C115_multipliers",
    "Composipy.C115_verdict"
   ],
   "note": "Underflow and overflow are left out. The stability of the inversions is a hypothesis on numpy (Spec.StableInv), satisfied by rounding the exact inverse."
  },
  {
   "property": "C116",
   "status": "proved",
   "theorems": [
    "Composipy.C116_terms",
    "Composipy.C116_edges",
    "Composipy.C116_selected",
    "Composipy.C116_script"
   ],
   "note": "The contract of eigsh is a hypothesis of the last part. print and plot_eigenvalue are left out."
  },
  {
   "property": "C117",
   "status": "proved",
   "theorems": [
    "Composipy.C117_negative",
    "Composipy.C117_zero",
    "Composipy.C117_default"
   ],
   "note": "Stresses are real numbers with one zero; C70 treats -0.0."
  },
  {
   "property": "C118",
   "status": "proved",
   "theorems": [
    "Composipy.C118_ssss",
    "Composipy.C118_cccc",
    "Composipy.C118_ssfs",
    "Composipy.C118_shear",
    "Composipy.C118_kasP",
    "Composipy.C118_kasC",
    "Composipy.C118_kasF",
    "Composipy.C118_opt",
    "Composipy.C118_testP",
    "Composipy.C118_testC"
   ],
   "note": "The matrices are those of the shipped tables with the exact stiffness; the multipliers are enclosed by certificates that the kernel checks."
  },
  {
   "property": "C119",
   "status": "proved",
   "theorems": [
    "Composipy.C119_maximize",
    "Composipy.C119_natural",
    "Composipy.C119_weight"
   ],
   "note": "The matrices are those of the shipped tables at the lamination parameters; the optimum is enclosed by tangent planes of the multiplier, all checked by the kernel. Termination and accuracy of scipy.optimize.minimize are not modelled."
  },
  {
   "property": "C120",
   "status": "proved",
   "theorems": [
    "Composipy.C120_tables"
   ],
   "note": "Exact values from C101, compared by the kernel with the printed text of the tables (pandas rounds to three digits there)."
  },
  {
   "property": "C121",
   "status": "proved",
   "theorems": [
    "Composipy.C121_stiffness",
    "Composipy.C121_multipliers"
   ],
   "note": "Concrete case: the seven plates of C122."
  },
  {
   "property": "C122",
   "status": "proved",
   "theorems": [
    "Composipy.C122_stack",
    "Composipy.C122_ssss",
    "Composipy.C122_cccc",
    "Composipy.C122_shear",
    "Composipy.C122_kasP",
    "Composipy.C122_kasC",
    "Composipy.C122_testP",
    "Composipy.C122_testC"
   ],
   "note": "The rounding of the material data (literals such as 0.07) to doubles is included; the angles, sides and loads of these plates are exact. Overflow, underflow and the roundings inside eigsh are not included."
  },
  {
   "property": "C123",
   "status": "proved",
   "theorems": [
    "Composipy.C123_buckling",
    "Composipy.C123_default",
    "Composipy.C123_times",
    "Composipy.C123_plot_eigenvalue",
    "Composipy.C123_ncr",
    "Composipy.C123_constraint",
    "Composipy.C123_constraint_default",
    "Composipy.C123_plot_optimization",
    "Composipy.C123_raise"
   ],
   "note": "Times are differences of the readings of a clock parameter."
  },
  {
   "property": "C124",
   "status": "proved",
   "theorems": [
    "Composipy.C124_tables",
    "Composipy.C124_margin",
    "Composipy.C124_session"
   ],
   "note": ""
  },
  {
   "property": "C125",
   "status": "proved",
   "theorems": [
    "Composipy.C125_Q0",
    "Composipy.C125_ply",
    "Composipy.C125_stack",
    "Composipy.C125_small",
    "Composipy.C125_plate",
    "Composipy.C125_multipliers"
   ],
   "note": "Concrete case: panel_SSSS of the notebooks with changed modulus and angles."
  },
  {
   "property": "C126",
   "status": "proved",
   "theorems": [
    "Composipy.C126_flexibility",
    "Composipy.C126_strain",
    "Composipy.C126_stress",
    "Composipy.C126_safe",
    "Composipy.C126_margins"
   ],
   "note": "Concrete case: two plies with changed modulus, strength, angle and load."
  },
  {
   "property": "C127",
   "status": "proved",
   "theorems": [
    "Composipy.C127_work",
    "Composipy.C127_plate",
    "Composipy.C127_compression"
   ],
   "note": "Concrete cases: a clamped plate under compression, and with shear, all data off by a thousandth."
  },
  {
   "property": "C128",
   "status": "proved",
   "theorems": [
    "Composipy.C128_normalised",
    "Composipy.C128_constraints",
    "Composipy.C128_feasible",
    "Composipy.C128_feasible_weight",
    "Composipy.C128_panel",
    "Composipy.C128_value",
    "Composipy.C128_exact",
    "Composipy.C128_maximize",
    "Composipy.C128_weight"
   ],
   "note": "Concrete case: with enough bits rounding to nearest evaluates the objective of the demonstration panel to six digits. The roundings inside eigsh are not covered."
  },
  {
   "property": "C129",
   "status": "proved",
   "theorems": [
    "Composipy.C129_residual",
    "Composipy.C129_plate",
    "Composipy.C129_stack",
    "Composipy.C129_maximize"
   ],
   "note": "Concrete cases: a wrong pair of a diagonal pencil; an inexact solver on the clamped demonstration plate with rounding to nearest."
  },
  {
   "property": "C130",
   "status": "proved",
   "theorems": [
    "Composipy.C130_material",
    "Composipy.C130_parameters",
    "Composipy.C130_laminate",
    "Composipy.C130_getters",
    "Composipy.C130_parameters_laminate",
    "Composipy.C130_last_plies",
    "Composipy.C130_layup_early",
    "Composipy.C130_layup_late",
    "Composipy.C130_strength",
    "Composipy.C130_plate",
    "Composipy.C130_plot_model",
    "Composipy.C130_plot_assigned"
   ],
   "note": "Concrete case: a carbon laminate keeps A after its stacking and plies were replaced. C130_layup_late states what a late assignment of layup mixes up."
  },
  {
   "property": "C131",
   "status": "proved",
   "theorems": [
    "Composipy.C131_material",
    "Composipy.C131_matrices",
    "Composipy.C131_plies",
    "Composipy.C131_parameters",
    "Composipy.C131_ABD"
   ],
   "note": "Concrete case: zeros written into A of a carbon ply. Results are shared, not copied."
  },
  {
   "property": "C132",
   "status": "proved",
   "theorems": [
    "Composipy.C132_accepted_all",
    "Composipy.C132_Q0",
    "Composipy.C132_invariants",
    "Composipy.C132_raise",
    "Composipy.C132_agrees_Q0",
    "Composipy.C132_agrees_invariants",
    "Composipy.C132_U2",
    "Composipy.C132_ply",
    "Composipy.C132_stack",
    "Composipy.C132_stack_ok",
    "Composipy.C132_thickness",
    "Composipy.C132_agrees_z",
    "Composipy.C132_agrees",
    "Composipy.C132_epsilon0",
    "Composipy.C132_strength",
    "Composipy.C132_spoilt",
    "Composipy.C132_agrees_margin",
    "Composipy.C132_nan_margin",
    "Composipy.C132_inf_margin",
    "Composipy.C132_accepted",
    "Composipy.C132_agrees_strength"
   ],
   "note": "Concrete cases: an infinite modulus gives Q_0 with infinity and NaN; NaN in one of two plies leaves no number in A. The assumption on np.linalg.inv is satisfiable (goodInv_exists)."
  },
  {
   "property": "C133",
   "status": "proved",
   "theorems": [
    "Composipy.C133_raise",
    "Composipy.C133_agrees",
    "Composipy.C133_plate",
    "Composipy.C133_stack",
    "Composipy.C133_raise_ABD",
    "Composipy.C133_plate_ABD",
    "Composipy.C133_agrees_ABD",
    "Composipy.C133_lp",
    "Composipy.C133_agrees_lp",
    "Composipy.C133_xi",
    "Composipy.C133_agrees_xi",
    "Composipy.C133_accepted"
   ],
   "note": "What scipy.sparse.linalg.eigsh does with a matrix that holds NaN is not modelled."
  },
  {
   "property": "C134",
   "status": "proved",
   "theorems": [
    "Composipy.C134_loads",
    "Composipy.C134_infinite",
    "Composipy.C134_normalize_raise",
    "Composipy.C134_agrees_normalize",
    "Composipy.C134_warnings",
    "Composipy.C134_agrees_warnings",
    "Composipy.C134_constraint_functions",
    "Composipy.C134_constraint",
    "Composipy.C134_agrees_constraints",
    "Composipy.C134_arrays",
    "Composipy.C134_raise",
    "Composipy.C134_maximize_blind",
    "Composipy.C134_constant",
    "Composipy.C134_minimize",
    "Composipy.C134_minimize_none",
    "Composipy.C134_agrees_ncr",
    "Composipy.C134_agrees"
   ],
   "note": "What eigsh does with arrays that hold NaN, and the order list.sort gives to lists with NaN, are parameters; scipy.optimize.minimize is external."
  },
  {
   "property": "C135",
   "status": "proved",
   "theorems": [
    "Composipy.C135_error",
    "Composipy.C135_loaded",
    "Composipy.C135_positive",
    "Composipy.C135_raises",
    "Composipy.C135_rows"
   ],
   "note": "That these are the behaviours of the versions of pandas is part of the trusted base."
  },
  {
   "property": "C136",
   "status": "proved",
   "theorems": [
    "Composipy.C136_lists",
    "Composipy.C136_card",
    "Composipy.C136_raises",
    "Composipy.C136_single",
    "Composipy.C136_misfit"
   ],
   "note": ""
  },
  {
   "property": "C137",
   "status": "proved",
   "theorems": [
    "Composipy.C137_shipped",
    "Composipy.C137_exact",
    "Composipy.C137_limit",
    "Composipy.C137_named",
    "Composipy.C137_tables",
    "Composipy.C137_same_terms_false"
   ],
   "note": "C137_same_terms_false shows that the added terms are needed."
  },
  {
   "property": "C138",
   "status": "proved",
   "theorems": [
    "Composipy.C138_stiffness",
    "Composipy.C138_load",
    "Composipy.C138_gradient",
    "Composipy.C138_case1",
    "Composipy.C138_case2",
    "Composipy.C138_case3",
    "Composipy.C138_case4",
    "Composipy.C138_maximum",
    "Composipy.C138_some_case",
    "Composipy.C138_square",
    "Composipy.C138_plate",
    "Composipy.C138_printed"
   ],
   "note": "C138_case2 shows for which plates the empty set stored for case 2 is wrong."
  },
  {
   "property": "C139",
   "status": "proved",
   "theorems": [
    "Composipy.C139_several",
    "Composipy.C139_one",
    "Composipy.C139_no_dimension",
    "Composipy.C139_numbers",
    "Composipy.C139_empty"
   ],
   "note": "The versions of numpy are a parameter."
  }
 ]
}
