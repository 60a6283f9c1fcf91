# Axioms of the property theorems

Written by `tools/axioms.py` (`Lean.collectAxioms`).

| property | theorem | axioms |
|---|---|---|
| C01 | `Composipy.C01_ortho_ok` | Classical.choice, Quot.sound, propext |
| C01 | `Composipy.C01_ortho_zeroDiv` | Classical.choice, Quot.sound, propext |
| C01 | `Composipy.C01_ortho_valueError` | Classical.choice, Quot.sound, propext |
| C01 | `Composipy.C01_ortho_only_errors` | Classical.choice, Quot.sound, propext |
| C01 | `Composipy.C01_ortho_refuses_negative` | Classical.choice, Quot.sound, propext |
| C01 | `Composipy.C01_ortho_refuses_poisson` | Classical.choice, Quot.sound, propext |
| C02 | `Composipy.C02_iso_ok` | Classical.choice, Quot.sound, propext |
| C02 | `Composipy.C02_iso_valueError` | Classical.choice, Quot.sound, propext |
| C02 | `Composipy.C02_iso_omitted_allowable_raises` | Classical.choice, Quot.sound, propext |
| C02 | `Composipy.C02_iso_optional_allowables_false` | Classical.choice, Quot.sound, propext |
| C03 | `Composipy.C03_defaults` | Classical.choice, Quot.sound, propext |
| C03 | `Composipy.C03_plate_ok` | Classical.choice, Quot.sound, propext |
| C03 | `Composipy.C03_plate_err` | Classical.choice, Quot.sound, propext |
| C03 | `Composipy.C03_plate_refuses_noninteger` | Classical.choice, Quot.sound, propext |
| C04 | `Composipy.C04_Q0_inverse_compliance` | Classical.choice, Quot.sound, propext |
| C05 | `Composipy.C05_Q0_raises_iff` | Classical.choice, Quot.sound, propext |
| C05 | `Composipy.C05_Q0_only_zeroDiv` | Classical.choice, Quot.sound, propext |
| C05 | `Composipy.C05_Q0_posDef_iff` | Classical.choice, Quot.sound, propext |
| C05 | `Composipy.C05_accepted_but_unreadable` | Classical.choice, Quot.sound, propext |
| C05 | `Composipy.C05_accepted_but_indefinite` | Classical.choice, Quot.sound, propext |
| C06 | `Composipy.C06_iso_eq_ortho` | Classical.choice, Quot.sound, propext |
| C06 | `Composipy.C06_iso_never_raises` | Classical.choice, Quot.sound, propext |
| C06 | `Composipy.C06_iso_posDef` | Classical.choice, Quot.sound, propext |
| C06 | `Composipy.C06_iso_rotation_invariant` | Classical.choice, Quot.sound, propext |
| C06 | `Composipy.C06_iso_rotation_invariant_conv` | Classical.choice, Quot.sound, propext |
| C07 | `Composipy.C07_ortho_eq` | Classical.choice, Quot.sound, propext |
| C07 | `Composipy.C07_iso_eq` | Classical.choice, Quot.sound, propext |
| C07 | `Composipy.C07_nan_not_reflexive` | Classical.choice, Quot.sound, propext |
| C07 | `Composipy.C07_ortho_equivalence` | Classical.choice, Quot.sound, propext |
| C07 | `Composipy.C07_other_class_raises` | Classical.choice, Quot.sound, propext |
| C08 | `Composipy.C08_name_determined` | Classical.choice, Quot.sound, propext |
| C08 | `Composipy.C08_name_stable` | Classical.choice, Quot.sound, propext |
| C08 | `Composipy.C08_auto_names_distinct` | Classical.choice, Quot.sound, propext |
| C08 | `Composipy.C08_user_name` | Classical.choice, Quot.sound, propext |
| C08 | `Composipy.C08_failed_construction_consumes_nothing` | Classical.choice, Quot.sound, propext |
| C09 | `Composipy.C09_invariants_rotate` | Classical.choice, Quot.sound, propext |
| C09 | `Composipy.C09_invariants_ok_iff` | Classical.choice, Quot.sound, propext |
| C09 | `Composipy.C09_iso_no_invariants` | Classical.choice, Quot.sound, propext |
| C10 | `Composipy.C10_single` | Classical.choice, Quot.sound, propext |
| C10 | `Composipy.C10_list` | Classical.choice, Quot.sound, propext |
| C11 | `Composipy.C11_z_position` | Classical.choice, Quot.sound, propext |
| C11 | `Composipy.C11_monotone` | Classical.choice, Quot.sound, propext |
| C12 | `Composipy.C12_Qlayup_entries` | Classical.choice, Quot.sound, propext |
| C12 | `Composipy.C12_rotation_law` | Classical.choice, Quot.sound, propext |
| C12 | `Composipy.C12_symmetric` | Classical.choice, Quot.sound, propext |
| C12 | `Composipy.C12_energy` | Classical.choice, Quot.sound, propext |
| C12 | `Composipy.C12_posDef` | Classical.choice, Quot.sound, propext |
| C12 | `Composipy.C12_zero` | Classical.choice, Quot.sound, propext |
| C12 | `Composipy.C12_ninety` | Classical.choice, Quot.sound, propext |
| C12 | `Composipy.C12_opposite_angle` | Classical.choice, Quot.sound, propext |
| C12 | `Composipy.C12_period` | Classical.choice, Quot.sound, propext |
| C12 | `Composipy.C12_Tlayup` | Classical.choice, Quot.sound, propext |
| C13 | `Composipy.C13_A_integral` | Classical.choice, Quot.sound, propext |
| C13 | `Composipy.C13_B_integral` | Classical.choice, Quot.sound, propext |
| C13 | `Composipy.C13_D_integral` | Classical.choice, Quot.sound, propext |
| C13 | `Composipy.C13_field_exists` | Classical.choice, Quot.sound, propext |
| C13 | `Composipy.C13_readable_iff` | Classical.choice, Quot.sound, propext |
| C14 | `Composipy.C14_ABD_blocks_symmetric` | Classical.choice, Quot.sound, propext |
| C14 | `Composipy.C14_ABD_readable` | Classical.choice, Quot.sound, propext |
| C15 | `Composipy.C15_posDef` | Classical.choice, Quot.sound, propext |
| C16 | `Composipy.C16_A_perm` | Classical.choice, Quot.sound, propext |
| C17 | `Composipy.C17_reverse` | Classical.choice, Quot.sound, propext |
| C17 | `Composipy.C17_symmetric_B_zero` | Classical.choice, Quot.sound, propext |
| C18 | `Composipy.C18_negated_angles` | Classical.choice, Quot.sound, propext |
| C18 | `Composipy.C18_balanced_A` | Classical.choice, Quot.sound, propext |
| C18 | `Composipy.C18_antisymmetric_D` | Classical.choice, Quot.sound, propext |
| C18 | `Composipy.C18_crossply` | Classical.choice, Quot.sound, propext |
| C19 | `Composipy.C19_roundtrip` | Classical.choice, Quot.sound, propext |
| C19 | `Composipy.C19_iso_refused` | Classical.choice, Quot.sound, propext |
| C20 | `Composipy.C20_feasible` | Classical.choice, Quot.sound, propext |
| C20 | `Composipy.C20_empty` | Classical.choice, Quot.sound, propext |
| C21 | `Composipy.C21_xi_unchanged` | Classical.choice, Quot.sound, propext |
| C21 | `Composipy.C21_scaling` | Classical.choice, Quot.sound, propext |
| C22 | `Composipy.C22_split` | Classical.choice, Quot.sound, propext |
| C22 | `Composipy.C22_zero_ply` | Classical.choice, Quot.sound, propext |
| C23 | `Composipy.C23_read_order_irrelevant` | Classical.choice, Quot.sound, propext |
| C23 | `Composipy.C23_dict_readable` | Classical.choice, Quot.sound, propext |
| C24 | `Composipy.C24_second_read_returns_garbage` | Classical.choice, Quot.sound, propext |
| C24 | `Composipy.C24_failed_read_keeps_failing_false` | Classical.choice, Quot.sound, propext |
| C24 | `Composipy.C24_failed_read_keeps_failing_partial` | Classical.choice, Quot.sound, propext |
| C25 | `Composipy.C25_accepts_iff` | Classical.choice, Quot.sound, propext |
| C25 | `Composipy.C25_refuses` | Classical.choice, Quot.sound, propext |
| C25 | `Composipy.C25_fields` | Classical.choice, Quot.sound, propext |
| C26 | `Composipy.C26_lp_matrices` | Classical.choice, Quot.sound, propext |
| C26 | `Composipy.C26_xiD_none` | Classical.choice, Quot.sound, propext |
| C26 | `Composipy.C26_no_xiA_singular` | Classical.choice, Quot.sound, propext |
| C26 | `Composipy.C26_no_xiA_epsilon0` | Classical.choice, Quot.sound, propext |
| C27 | `Composipy.C27_eq_iff_layup` | Classical.choice, Quot.sound, propext |
| C27 | `Composipy.C27_equal_stiffness_partial` | Classical.choice, Quot.sound, propext |
| C27 | `Composipy.C27_lp_always_equal` | Classical.choice, Quot.sound, propext |
| C27 | `Composipy.C27_equal_stiffness_false` | Classical.choice, Quot.sound, propext |
| C28 | `Composipy.C28_mutation_safe` | Classical.choice, Quot.sound, propext |
| C28 | `Composipy.C28_xi_follows` | Classical.choice, Quot.sound, propext |
| C29 | `Composipy.C29_singular_all` | Classical.choice, Quot.sound, propext |
| C29 | `Composipy.C29_epsilon0_unique` | Classical.choice, Quot.sound, propext |
| C29 | `Composipy.C29_singular_iff` | Classical.choice, Quot.sound, propext |
| C29 | `Composipy.C29_admissible` | Classical.choice, Quot.sound, propext |
| C29 | `Composipy.C29_empty` | Classical.choice, Quot.sound, propext |
| C30 | `Composipy.C30_strain_linear` | Classical.choice, Quot.sound, propext |
| C30 | `Composipy.C30_stress_linear` | Classical.choice, Quot.sound, propext |
| C30 | `Composipy.C30_success_independent` | Classical.choice, Quot.sound, propext |
| C31 | `Composipy.C31_strain_table` | Classical.choice, Quot.sound, propext |
| C31 | `Composipy.C31_stress_labels` | Classical.choice, Quot.sound, propext |
| C31 | `Composipy.C31_continuous` | Classical.choice, Quot.sound, propext |
| C31 | `Composipy.C31_errors` | Classical.choice, Quot.sound, propext |
| C32 | `Composipy.C32_consistent` | Classical.choice, Quot.sound, propext |
| C33 | `Composipy.C33_no_corruption` | Classical.choice, Quot.sound, propext |
| C33 | `Composipy.C33_repeatable` | Classical.choice, Quot.sound, propext |
| C33 | `Composipy.C33_full_shear` | Classical.choice, Quot.sound, propext |
| C34 | `Composipy.C34_equilibrium` | Classical.choice, Quot.sound, propext |
| C35 | `Composipy.C35_margins` | Classical.choice, Quot.sound, propext |
| C35 | `Composipy.C35_computable` | Classical.choice, Quot.sound, propext |
| C36 | `Composipy.C36_critical` | Classical.choice, Quot.sound, propext |
| C36 | `Composipy.C36_critical_exists` | Classical.choice, Quot.sound, propext |
| C37 | `Composipy.C37_labels_partial` | Classical.choice, Quot.sound, propext |
| C37 | `Composipy.C37_labels_false` | Classical.choice, Quot.sound, propext |
| C38 | `Composipy.C38_load_scaling` | Classical.choice, Quot.sound, propext |
| C39 | `Composipy.C39_lp_refused` | Classical.choice, Quot.sound, propext |
| C40 | `Composipy.C40_sizes` | Classical.choice, Quot.sound, propext |
| C40 | `Composipy.C40_accepted_iff` | Classical.choice, Quot.sound, propext |
| C41 | `Composipy.C41_pinned` | Classical.choice, Quot.sound, propext |
| C41 | `Composipy.C41_clamped` | Classical.choice, Quot.sound, propext |
| C41 | `Composipy.C41_unknown_word` | Classical.choice, Quot.sound, propext |
| C41 | `Composipy.C41_other_values` | Quot.sound, propext |
| C41 | `Composipy.C41_spelling` | Classical.choice, Quot.sound, propext |
| C41 | `Composipy.C41_flags` | Classical.choice, Quot.sound, propext |
| C42 | `Composipy.C42_own_flags_partial` | Classical.choice, Quot.sound, propext |
| C42 | `Composipy.C42_own_flags_false` | Quot.sound, propext |
| C42 | `Composipy.C42_foreign_flag_applied` | Classical.choice, Quot.sound, propext |
| C43 | `Composipy.C43_word_edges_free_partial` | Quot.sound, propext |
| C43 | `Composipy.C43_word_meaning_false` | Quot.sound, propext |
| C44 | `Composipy.C44_edge_conditions` | Classical.choice, Quot.sound, propext |
| C44 | `Composipy.C44_free_edge_moves` | Classical.choice, Quot.sound, propext |
| C45 | `Composipy.C45_bubble` | Classical.choice, Quot.sound, propext |
| C45 | `Composipy.C45_second_derivative` | Classical.choice, Quot.sound, propext |
| C45 | `Composipy.C45_parity` | Classical.choice, Quot.sound, propext |
| C45 | `Composipy.C45_low_values` | Classical.choice, Quot.sound, propext |
| C45 | `Composipy.C45_orthogonal` | Classical.choice, Quot.sound, propext |
| C46 | `Composipy.C46_fxi` | Classical.choice, Quot.sound, propext |
| C46 | `Composipy.C46_sxieta` | Classical.choice, Quot.sound, propext |
| C46 | `Composipy.C46_sxieta_vector` | Classical.choice, Quot.sound, propext |
| C47 | `Composipy.C47_integrals` | Classical.choice, Quot.sound, propext |
| C47 | `Composipy.C47_symmetric` | Classical.choice, Quot.sound, propext |
| C48 | `Composipy.C48_symmetric` | Classical.choice, Quot.sound, propext |
| C49 | `Composipy.C49_energy` | Classical.choice, Quot.sound, propext |
| C49 | `Composipy.C49_energy_clamped` | Classical.choice, Quot.sound, propext |
| C49 | `Composipy.C49_posSemidef` | Classical.choice, Quot.sound, propext |
| C49 | `Composipy.C49_posDef_clamped` | Classical.choice, Quot.sound, propext |
| C50 | `Composipy.C50_linear` | Classical.choice, Quot.sound, propext |
| C50 | `Composipy.C50_load_scaling` | Classical.choice, Quot.sound, propext |
| C50 | `Composipy.C50_stiffness_scaling` | Classical.choice, Quot.sound, propext |
| C51 | `Composipy.C51_computed_iff` | Classical.choice, Quot.sound, propext |
| C51 | `Composipy.C51_no_key_error` | Classical.choice, Quot.sound, propext |
| C51 | `Composipy.C51_clamped_key_error` | Classical.choice, Quot.sound, propext |
| C51 | `Composipy.C51_zero_side` | Classical.choice, Quot.sound, propext |
| C52 | `Composipy.C52_bending_block` | Classical.choice, Quot.sound, propext |
| C52 | `Composipy.C52_computed` | Classical.choice, Quot.sound, propext |
| C52 | `Composipy.C52_symmetric_partial` | Classical.choice, Quot.sound, propext |
| C52 | `Composipy.C52_symmetric_iff` | Classical.choice, Quot.sound, propext |
| C52 | `Composipy.C52_coupled_false` | Classical.choice, Quot.sound, propext |
| C52 | `Composipy.C52_symmetric_false` | Classical.choice, Quot.sound, propext |
| C53 | `Composipy.C53_solves` | Classical.choice, Quot.sound, propext |
| C53 | `Composipy.C53_refused` | Classical.choice, Quot.sound, propext |
| C53 | `Composipy.C53_failure_keeps` | Classical.choice, Quot.sound, propext |
| C54 | `Composipy.C54_critical_reported_partial` | Classical.choice, Quot.sound, propext |
| C54 | `Composipy.C54_small_multiplier_missed` | Classical.choice, Quot.sound, propext |
| C54 | `Composipy.C54_overloaded_missed` | Classical.choice, Quot.sound, propext |
| C54 | `Composipy.C54_false` | Classical.choice, Quot.sound, propext |
| C55 | `Composipy.C55_normalised` | Classical.choice, Quot.sound, propext |
| C55 | `Composipy.C55_zero` | Classical.choice, Quot.sound, propext |
| C55 | `Composipy.C55_default_loads` | Classical.choice, Quot.sound, propext |
| C56 | `Composipy.C56_triangle` | Classical.choice, Quot.sound, propext |
| C56 | `Composipy.C56_parabola` | Classical.choice, Quot.sound, propext |
| C56 | `Composipy.C56_triangle_in_parabola` | Classical.choice, Quot.sound, propext |
| C56 | `Composipy.C56_lengths` | Classical.choice, Quot.sound, propext |
| C56 | `Composipy.C56_stack_natural` | Classical.choice, Quot.sound, propext |
| C56 | `Composipy.C56_stack_triangle` | Classical.choice, Quot.sound, propext |
| C57 | `Composipy.C57_warnings` | Classical.choice, Quot.sound, propext |
| C57 | `Composipy.C57_always` | Classical.choice, Quot.sound, propext |
| C58 | `Composipy.C58_no_buckling` | Classical.choice, Quot.sound, propext |
| C58 | `Composipy.C58_safe_accepted` | Classical.choice, Quot.sound, propext |
| C58 | `Composipy.C58_objective` | Classical.choice, Quot.sound, propext |
| C58 | `Composipy.C58_box` | Classical.choice, Quot.sound, propext |
| C58 | `Composipy.C58_thickness_scaling` | Classical.choice, Quot.sound, propext |
| C59 | `Composipy.C59_objective` | Classical.choice, Quot.sound, propext |
| C59 | `Composipy.C59_minimising_maximises` | Classical.choice, Quot.sound, propext |
| C59 | `Composipy.C59_start_feasible` | Classical.choice, Quot.sound, propext |
| C59 | `Composipy.C59_feasible_set` | Classical.choice, Quot.sound, propext |
| C59 | `Composipy.C59_weight_start` | Classical.choice, Quot.sound, propext |
| C60 | `Composipy.C60_expands` | Classical.choice, Quot.sound, propext |
| C61 | `Composipy.C61_symmetric` | Classical.choice, Quot.sound, propext |
| C61 | `Composipy.C61_palindrome` | Classical.choice, Quot.sound, propext |
| C61 | `Composipy.C61_uppercase_raises` | Classical.choice, Quot.sound, propext |
| C62 | `Composipy.C62_example_returns` | Classical.choice, Quot.sound, propext |
| C62 | `Composipy.C62_example_false` | Classical.choice, Quot.sound, propext |
| C62 | `Composipy.C62_pm_opposite` | Classical.choice, Quot.sound, propext |
| C63 | `Composipy.C63_card` | Classical.choice, Quot.sound, propext |
| C63 | `Composipy.C63_plies_in_order` | Classical.choice, Quot.sound, propext |
| C63 | `Composipy.C63_glued_mark_false` | propext |
| C63 | `Composipy.C63_success_iff` | Classical.choice, Quot.sound, propext |
| C63 | `Composipy.C63_pid` | Classical.choice, Quot.sound, propext |
| C64 | `Composipy.C64_spelling` | Classical.choice, Quot.sound, propext |
| C64 | `Composipy.C64_fiber` | Quot.sound, propext |
| C64 | `Composipy.C64_all` | Quot.sound, propext |
| C64 | `Composipy.C64_sout_iff` | Quot.sound, propext |
| C64 | `Composipy.C64_sout_refused` | propext |
| C64 | `Composipy.C64_convert` | Quot.sound, propext |
| C64 | `Composipy.C64_length_mismatch` | Classical.choice, Quot.sound, propext |
| C64 | `Composipy.C64_empty_fiber` | Classical.choice, Quot.sound, propext |
| C65 | `Composipy.C65_slice` | Quot.sound, propext |
| C65 | `Composipy.C65_surface_partial` | Classical.choice, Quot.sound, propext |
| C65 | `Composipy.C65_border` | Classical.choice, Quot.sound, propext |
| C65 | `Composipy.C65_unequal_raises` | Classical.choice, Quot.sound, propext |
| C66 | `Composipy.C66_bad_mode` | Classical.choice, Quot.sound, propext |
| C66 | `Composipy.C66_fresh` | Classical.choice, Quot.sound, propext |
| C66 | `Composipy.C66_plots_keep_state` | Classical.choice, Quot.sound, propext |
| C66 | `Composipy.C66_new_plate` | Classical.choice, Quot.sound, propext |
| C67 | `Composipy.C67_history_free` | Classical.choice, Quot.sound, propext |
| C67 | `Composipy.C67_loads_restored` | Classical.choice, Quot.sound, propext |
| C68 | `Composipy.C68_truncated_table` | Classical.choice, Quot.sound, propext |
| C68 | `Composipy.C68_rows_missing` | Classical.choice, Quot.sound, propext |
| C68 | `Composipy.C68_margin_nan` | Classical.choice, Quot.sound, propext |
| C68 | `Composipy.C68_failed_call_keeps_failing_false` | Classical.choice, Quot.sound, propext |
| C69 | `Composipy.C69_mutated_stress` | Classical.choice, Quot.sound, propext |
| C69 | `Composipy.C69_longer_raises` | Classical.choice, Quot.sound, propext |
| C69 | `Composipy.C69_list_change_false` | Classical.choice, Quot.sound, propext |
| C70 | `Composipy.C70_agrees_partial` | Classical.choice, Quot.sound, propext |
| C70 | `Composipy.C70_negative_zero` | Classical.choice, Quot.sound, propext |
| C70 | `Composipy.C70_critical_wrong` | Classical.choice, Quot.sound, propext |
| C70 | `Composipy.C70_zero_stress_false` | Classical.choice, Quot.sound, propext |
| C71 | `Composipy.C71_stiffness_turns` | Classical.choice, Quot.sound, propext |
| C71 | `Composipy.C71_response_turns` | Classical.choice, Quot.sound, propext |
| C71 | `Composipy.C71_margins_invariant` | Classical.choice, Quot.sound, propext |
| C71 | `Composipy.C71_stress_turns` | Classical.choice, Quot.sound, propext |
| C72 | `Composipy.C72_membrane` | Classical.choice, Quot.sound, propext |
| C72 | `Composipy.C72_bending` | Classical.choice, Quot.sound, propext |
| C73 | `Composipy.C73_quasi_isotropic` | Classical.choice, Quot.sound, propext |
| C74 | `Composipy.C74_readable_B` | Classical.choice, Quot.sound, propext |
| C74 | `Composipy.C74_trace` | Classical.choice, Quot.sound, propext |
| C74 | `Composipy.C74_readable` | Classical.choice, Quot.sound, propext |
| C75 | `Composipy.C75_homogeneous` | Classical.choice, Quot.sound, propext |
| C76 | `Composipy.C76_mirror_response` | Classical.choice, Quot.sound, propext |
| C76 | `Composipy.C76_mirror_stress` | Classical.choice, Quot.sound, propext |
| C76 | `Composipy.C76_mirror_margin` | Classical.choice, Quot.sound, propext |
| C77 | `Composipy.C77_reciprocity` | Classical.choice, Quot.sound, propext |
| C77 | `Composipy.C77_work_positive` | Classical.choice, Quot.sound, propext |
| C78 | `Composipy.C78_grid` | Classical.choice, Quot.sound, propext |
| C78 | `Composipy.C78_fails_iff` | Classical.choice, Quot.sound, propext |
| C78 | `Composipy.C78_curves` | Classical.choice, Quot.sound, propext |
| C78 | `Composipy.C78_contour_is_objective_partial` | Classical.choice, Quot.sound, propext |
| C78 | `Composipy.C78_contour_scaled` | Classical.choice, Quot.sound, propext |
| C78 | `Composipy.C78_contour_false` | Classical.choice, Quot.sound, propext |
| C79 | `Composipy.C79_similar` | Classical.choice, Quot.sound, propext |
| C79 | `Composipy.C79_scale_model` | Classical.choice, Quot.sound, propext |
| C80 | `Composipy.C80_exchange` | Classical.choice, Quot.sound, propext |
| C80 | `Composipy.C80_flag_lists` | Classical.choice, Quot.sound, propext |
| C81 | `Composipy.C81_refinement` | Classical.choice, Quot.sound, propext |
| C81 | `Composipy.C81_refinement_clamped` | Classical.choice, Quot.sound, propext |
| C82 | `Composipy.C82_monotone` | Classical.choice, Quot.sound, propext |
| C83 | `Composipy.C83_tension` | Classical.choice, Quot.sound, propext |
| C83 | `Composipy.C83_compression` | Classical.choice, Quot.sound, propext |
| C84 | `Composipy.C84_mirror` | Classical.choice, Quot.sound, propext |
| C84 | `Composipy.C84_negated_angles` | Classical.choice, Quot.sound, propext |
| C85 | `Composipy.C85_quarter_turn` | Classical.choice, Quot.sound, propext |
| C86 | `Composipy.C86_energy_error` | Classical.choice, Quot.sound, propext |
| C86 | `Composipy.C86_almost_nonneg` | Classical.choice, Quot.sound, propext |
| C86 | `Composipy.C86_mode_balance` | Classical.choice, Quot.sound, propext |
| C86 | `Composipy.C86_not_exact` | Classical.choice, Quot.sound, propext |
| C87 | `Composipy.C87_supported` | Classical.choice, Quot.sound, propext |
| C87 | `Composipy.C87_words` | Classical.choice, Quot.sound, propext |
| C87 | `Composipy.C87_named` | Classical.choice, Quot.sound, propext |
| C87 | `Composipy.C87_shipped_gap` | Classical.choice, Quot.sound, propext |
| C87 | `Composipy.C87_free_degenerate` | Classical.choice, Quot.sound, propext |
| C87 | `Composipy.C87_free_exact` | Classical.choice, Quot.sound, propext |
| C88 | `Composipy.C88_blocks` | Classical.choice, Quot.sound, propext |
| C88 | `Composipy.C88_clamped` | Classical.choice, Quot.sound, propext |
| C88 | `Composipy.C88_iff` | Classical.choice, Quot.sound, propext |
| C88 | `Composipy.C88_energy` | Classical.choice, Quot.sound, propext |
| C88 | `Composipy.C88_square` | Classical.choice, Quot.sound, propext |
| C89 | `Composipy.C89_strips` | Classical.choice, Quot.sound, propext |
| C89 | `Composipy.C89_euler` | Classical.choice, Quot.sound, propext |
| C89 | `Composipy.C89_rayleigh` | Classical.choice, Quot.sound, propext |
| C89 | `Composipy.C89_reported` | Classical.choice, Quot.sound, propext |
| C90 | `Composipy.C90_bending` | Classical.choice, Quot.sound, propext |
| C90 | `Composipy.C90_membrane` | Classical.choice, Quot.sound, propext |
| C90 | `Composipy.C90_same_stiffness` | Classical.choice, Quot.sound, propext |
| C90 | `Composipy.C90_penalty_region` | Classical.choice, Quot.sound, propext |
| C90 | `Composipy.C90_natural_region` | Classical.choice, Quot.sound, propext |
| C90 | `Composipy.C90_buildable` | Classical.choice, Quot.sound, propext |
| C91 | `Composipy.C91_only_errors` | Classical.choice, Quot.sound, propext |
| C91 | `Composipy.C91_index_iff` | Classical.choice, Quot.sound, propext |
| C91 | `Composipy.C91_angles_from_text` | Classical.choice, Quot.sound, propext |
| C92 | `Composipy.C92_unclosed_dropped` | Classical.choice, Quot.sound, propext |
| C92 | `Composipy.C92_unclosed_empty` | Classical.choice, Quot.sound, propext |
| C92 | `Composipy.C92_missing_count_raises` | Classical.choice, Quot.sound, propext |
| C92 | `Composipy.C92_unbalanced_raises_false` | Classical.choice, Quot.sound, propext |
| C93 | `Composipy.C93_usable_terms` | Classical.choice, Quot.sound, propext |
| C93 | `Composipy.C93_zero_side` | Classical.choice, Quot.sound, propext |
| C93 | `Composipy.C93_outcome` | Classical.choice, Quot.sound, propext |
| C93 | `Composipy.C93_returns_iff` | Classical.choice, Quot.sound, propext |
| C93 | `Composipy.C93_only_errors` | Classical.choice, Quot.sound, propext |
| C93 | `Composipy.C93_named_limits` | Classical.choice, Quot.sound, propext |
| C94 | `Composipy.C94_laminate` | Classical.choice, Quot.sound, propext |
| C94 | `Composipy.C94_laminate_fails` | Classical.choice, Quot.sound, propext |
| C94 | `Composipy.C94_script` | Classical.choice, Quot.sound, propext |
| C94 | `Composipy.C94_clamped_script` | Classical.choice, Quot.sound, propext |
| C94 | `Composipy.C94_strength_script` | Classical.choice, Quot.sound, propext |
| C95 | `Composipy.C95_held` | Classical.choice, Quot.sound, propext |
| C95 | `Composipy.C95_named` | Classical.choice, Quot.sound, propext |
| C95 | `Composipy.C95_clamped` | Classical.choice, Quot.sound, propext |
| C95 | `Composipy.C95_shipped` | Classical.choice, Quot.sound, propext |
| C95 | `Composipy.C95_isotropic` | Classical.choice, Quot.sound, propext |
| C95 | `Composipy.C95_rayleigh` | Classical.choice, Quot.sound, propext |
| C95 | `Composipy.C95_square` | Classical.choice, Quot.sound, propext |
| C96 | `Composipy.C96_stacked` | Classical.choice, Quot.sound, propext |
| C96 | `Composipy.C96_repeated` | Classical.choice, Quot.sound, propext |
| C96 | `Composipy.C96_mirrored` | Classical.choice, Quot.sound, propext |
| C96 | `Composipy.C96_limit` | Classical.choice, Quot.sound, propext |
| C97 | `Composipy.C97_energy` | Classical.choice, Quot.sound, propext |
| C97 | `Composipy.C97_A_D` | Classical.choice, Quot.sound, propext |
| C97 | `Composipy.C97_buckling` | Classical.choice, Quot.sound, propext |
| C98 | `Composipy.C98_box` | Classical.choice, Quot.sound, propext |
| C98 | `Composipy.C98_convex` | Classical.choice, Quot.sound, propext |
| C98 | `Composipy.C98_unloaded` | Classical.choice, Quot.sound, propext |
| C98 | `Composipy.C98_part` | Classical.choice, Quot.sound, propext |
| C98 | `Composipy.C98_factor` | Classical.choice, Quot.sound, propext |
| C98 | `Composipy.C98_some` | Classical.choice, Quot.sound, propext |
| C98 | `Composipy.C98_finite` | Classical.choice, Quot.sound, propext |
| C99 | `Composipy.C99_bound_iff` | Classical.choice, Quot.sound, propext |
| C99 | `Composipy.C99_held` | Classical.choice, Quot.sound, propext |
| C99 | `Composipy.C99_clamped` | Classical.choice, Quot.sound, propext |
| C99 | `Composipy.C99_upper` | Classical.choice, Quot.sound, propext |
| C99 | `Composipy.C99_converges` | Classical.choice, Quot.sound, propext |
| C99 | `Composipy.C99_square` | Classical.choice, Quot.sound, propext |
| C100 | `Composipy.C100_energy` | Classical.choice, Quot.sound, propext |
| C100 | `Composipy.C100_relative` | Classical.choice, Quot.sound, propext |
| C100 | `Composipy.C100_work` | Classical.choice, Quot.sound, propext |
| C100 | `Composipy.C100_posDef` | Classical.choice, Quot.sound, propext |
| C100 | `Composipy.C100_multipliers` | Classical.choice, Quot.sound, propext |
| C100 | `Composipy.C100_critical` | Classical.choice, Quot.sound, propext |
| C100 | `Composipy.C100_bounds` | Classical.choice, Quot.sound, propext |
| C100 | `Composipy.C100_work_any` | Classical.choice, Quot.sound, propext |
| C100 | `Composipy.C100_shear` | Classical.choice, Quot.sound, propext |
| C100 | `Composipy.C100_reported` | Classical.choice, Quot.sound, propext |
| C101 | `Composipy.C101_stiffness` | Classical.choice, Quot.sound, propext |
| C101 | `Composipy.C101_parameters` | Classical.choice, Quot.sound, propext |
| C101 | `Composipy.C101_response` | Classical.choice, Quot.sound, propext |
| C101 | `Composipy.C101_rational` | Classical.choice, Quot.sound, propext |
| C101 | `Composipy.C101_tables` | Classical.choice, Quot.sound, propext |
| C101 | `Composipy.C101_built` | Classical.choice, Quot.sound, propext |
| C101 | `Composipy.C101_test_ABD` | Classical.choice, Quot.sound, propext |
| C101 | `Composipy.C101_test_Q0` | Classical.choice, Quot.sound, propext |
| C101 | `Composipy.C101_test_parameters` | Classical.choice, Quot.sound, propext |
| C101 | `Composipy.C101_test_example3` | Classical.choice, Quot.sound, propext |
| C101 | `Composipy.C101_test_example6` | Classical.choice, Quot.sound, propext |
| C102 | `Composipy.C102_clamped` | Classical.choice, Quot.sound, propext |
| C102 | `Composipy.C102_quotient` | Classical.choice, Quot.sound, propext |
| C102 | `Composipy.C102_pinned_exact` | Classical.choice, Quot.sound, propext |
| C102 | `Composipy.C102_pinned` | Classical.choice, Quot.sound, propext |
| C102 | `Composipy.C102_pinned_reported` | Classical.choice, Quot.sound, propext |
| C102 | `Composipy.C102_clamped_reported` | Classical.choice, Quot.sound, propext |
| C102 | `Composipy.C102_test_pinned` | Classical.choice, Quot.sound, propext |
| C102 | `Composipy.C102_test_clamped` | Classical.choice, Quot.sound, propext |
| C102 | `Composipy.C102_test_equivalent` | Classical.choice, Quot.sound, propext |
| C102 | `Composipy.C102_test_LP` | Classical.choice, Quot.sound, propext |
| C103 | `Composipy.C103_trial` | Classical.choice, Quot.sound, propext |
| C103 | `Composipy.C103_quotient` | Classical.choice, Quot.sound, propext |
| C103 | `Composipy.C103_two` | Classical.choice, Quot.sound, propext |
| C103 | `Composipy.C103_shear` | Classical.choice, Quot.sound, propext |
| C103 | `Composipy.C103_design` | Classical.choice, Quot.sound, propext |
| C103 | `Composipy.C103_even` | Classical.choice, Quot.sound, propext |
| C103 | `Composipy.C103_best` | Classical.choice, Quot.sound, propext |
| C103 | `Composipy.C103_test_maximize` | Classical.choice, Quot.sound, propext |
| C103 | `Composipy.C103_shear_bound` | Classical.choice, Quot.sound, propext |
| C103 | `Composipy.C103_test_weight` | Classical.choice, Quot.sound, propext |
| C104 | `Composipy.C104_mix` | Classical.choice, Quot.sound, propext |
| C104 | `Composipy.C104_concave` | Classical.choice, Quot.sound, propext |
| C104 | `Composipy.C104_maximize` | Classical.choice, Quot.sound, propext |
| C104 | `Composipy.C104_weight` | Classical.choice, Quot.sound, propext |
| C104 | `Composipy.C104_test_maximize` | Classical.choice, Quot.sound, propext |
| C104 | `Composipy.C104_test_weight` | Classical.choice, Quot.sound, propext |
| C105 | `Composipy.C105_repr_state` | Classical.choice, Quot.sound, propext |
| C105 | `Composipy.C105_repr_state_iso` | Classical.choice, Quot.sound, propext |
| C105 | `Composipy.C105_repr_ortho` | Classical.choice, Quot.sound, propext |
| C105 | `Composipy.C105_repr_iso` | Classical.choice, Quot.sound, propext |
| C105 | `Composipy.C105_texts` | Classical.choice, Quot.sound, propext |
| C105 | `Composipy.C105_repr_class` | Classical.choice, Quot.sound, propext |
| C105 | `Composipy.C105_repr_eq` | Classical.choice, Quot.sound, propext |
| C105 | `Composipy.C105_repr_laminate` | Classical.choice, Quot.sound, propext |
| C105 | `Composipy.C105_repr_blind` | Classical.choice, Quot.sound, propext |
| C105 | `Composipy.C105_eq_comm` | Classical.choice, Quot.sound, propext |
| C105 | `Composipy.C105_ne` | Classical.choice, Quot.sound, propext |
| C105 | `Composipy.C105_material_other` | Classical.choice, Quot.sound, propext |
| C105 | `Composipy.C105_laminate_other` | Classical.choice, Quot.sound, propext |
| C105 | `Composipy.C105_laminates` | Classical.choice, Quot.sound, propext |
| C105 | `Composipy.C105_hash` | Classical.choice, Quot.sound, propext |
| C106 | `Composipy.C106_energy` | Classical.choice, Quot.sound, propext |
| C106 | `Composipy.C106_bound` | Classical.choice, Quot.sound, propext |
| C106 | `Composipy.C106_shipped` | Classical.choice, Quot.sound, propext |
| C106 | `Composipy.C106_quotient` | Classical.choice, Quot.sound, propext |
| C106 | `Composipy.C106_first` | Classical.choice, Quot.sound, propext |
| C106 | `Composipy.C106_test_weight` | Classical.choice, Quot.sound, propext |
| C106 | `Composipy.C106_test_thin` | Classical.choice, Quot.sound, propext |
| C107 | `Composipy.C107_lower` | Classical.choice, Quot.sound, propext |
| C107 | `Composipy.C107_upper` | Classical.choice, Quot.sound, propext |
| C107 | `Composipy.C107_infimum` | Classical.choice, Quot.sound, propext |
| C107 | `Composipy.C107_converges` | Classical.choice, Quot.sound, propext |
| C107 | `Composipy.C107_none` | Classical.choice, Quot.sound, propext |
| C107 | `Composipy.C107_navier` | Classical.choice, Quot.sound, propext |
| C107 | `Composipy.C107_square` | Classical.choice, Quot.sound, propext |
| C107 | `Composipy.C107_clamped` | Classical.choice, Quot.sound, propext |
| C108 | `Composipy.C108_terms` | Classical.choice, Quot.sound, propext |
| C108 | `Composipy.C108_monotone` | Classical.choice, Quot.sound, propext |
| C108 | `Composipy.C108_all` | Classical.choice, Quot.sound, propext |
| C108 | `Composipy.C108_all_clamped` | Classical.choice, Quot.sound, propext |
| C108 | `Composipy.C108_lower` | Classical.choice, Quot.sound, propext |
| C108 | `Composipy.C108_upper` | Classical.choice, Quot.sound, propext |
| C108 | `Composipy.C108_converges` | Classical.choice, Quot.sound, propext |
| C108 | `Composipy.C108_limits` | Classical.choice, Quot.sound, propext |
| C109 | `Composipy.C109_ordered` | Classical.choice, Quot.sound, propext |
| C109 | `Composipy.C109_clamped` | Classical.choice, Quot.sound, propext |
| C109 | `Composipy.C109_accuracy` | Classical.choice, Quot.sound, propext |
| C109 | `Composipy.C109_reported` | Classical.choice, Quot.sound, propext |
| C110 | `Composipy.C110_z_position` | Classical.choice, Quot.sound, propext |
| C110 | `Composipy.C110_A` | Classical.choice, Quot.sound, propext |
| C110 | `Composipy.C110_B` | Classical.choice, Quot.sound, propext |
| C110 | `Composipy.C110_D` | Classical.choice, Quot.sound, propext |
| C110 | `Composipy.C110_symmetric` | Classical.choice, Quot.sound, propext |
| C110 | `Composipy.C110_exact` | Classical.choice, Quot.sound, propext |
| C110 | `Composipy.C110_ordered` | Classical.choice, Quot.sound, propext |
| C110 | `Composipy.C110_small` | Classical.choice, Quot.sound, propext |
| C111 | `Composipy.C111_Q0` | Classical.choice, Quot.sound, propext |
| C111 | `Composipy.C111_ply` | Classical.choice, Quot.sound, propext |
| C111 | `Composipy.C111_stack` | Classical.choice, Quot.sound, propext |
| C111 | `Composipy.C111_invariants` | Classical.choice, Quot.sound, propext |
| C111 | `Composipy.C111_parameters` | Classical.choice, Quot.sound, propext |
| C112 | `Composipy.C112_bending` | Classical.choice, Quot.sound, propext |
| C112 | `Composipy.C112_geometric` | Classical.choice, Quot.sound, propext |
| C112 | `Composipy.C112_matrices` | Classical.choice, Quot.sound, propext |
| C112 | `Composipy.C112_multipliers` | Classical.choice, Quot.sound, propext |
| C112 | `Composipy.C112_precision` | Classical.choice, Quot.sound, propext |
| C113 | `Composipy.C113_strain` | Classical.choice, Quot.sound, propext |
| C113 | `Composipy.C113_stress` | Classical.choice, Quot.sound, propext |
| C113 | `Composipy.C113_inverse` | Classical.choice, Quot.sound, propext |
| C113 | `Composipy.C113_safe` | Classical.choice, Quot.sound, propext |
| C113 | `Composipy.C113_quiet` | Classical.choice, Quot.sound, propext |
| C113 | `Composipy.C113_margins` | Classical.choice, Quot.sound, propext |
| C113 | `Composipy.C113_flexibility` | Classical.choice, Quot.sound, propext |
| C113 | `Composipy.C113_ABD` | Classical.choice, Quot.sound, propext |
| C114 | `Composipy.C114_convert` | Classical.choice, Quot.sound, propext |
| C114 | `Composipy.C114_shape` | Classical.choice, Quot.sound, propext |
| C114 | `Composipy.C114_pre` | Classical.choice, Quot.sound, propext |
| C114 | `Composipy.C114_keys` | Classical.choice, Quot.sound, propext |
| C114 | `Composipy.C114_key_texts` | Classical.choice, Quot.sound, propext |
| C115 | `Composipy.C115_tables` | Classical.choice, Quot.sound, propext |
| C115 | `Composipy.C115_multipliers` | Classical.choice, Quot.sound, propext |
| C115 | `Composipy.C115_verdict` | Classical.choice, Quot.sound, propext |
| C116 | `Composipy.C116_terms` | Classical.choice, Quot.sound, propext |
| C116 | `Composipy.C116_edges` | Classical.choice, Quot.sound, propext |
| C116 | `Composipy.C116_selected` | Classical.choice, Quot.sound, propext |
| C116 | `Composipy.C116_script` | Classical.choice, Quot.sound, propext |
| C117 | `Composipy.C117_negative` | Classical.choice, Quot.sound, propext |
| C117 | `Composipy.C117_zero` | Classical.choice, Quot.sound, propext |
| C117 | `Composipy.C117_default` | Classical.choice, Quot.sound, propext |
| C118 | `Composipy.C118_ssss` | Classical.choice, Quot.sound, propext |
| C118 | `Composipy.C118_cccc` | Classical.choice, Quot.sound, propext |
| C118 | `Composipy.C118_ssfs` | Classical.choice, Quot.sound, propext |
| C118 | `Composipy.C118_shear` | Classical.choice, Quot.sound, propext |
| C118 | `Composipy.C118_kasP` | Classical.choice, Quot.sound, propext |
| C118 | `Composipy.C118_kasC` | Classical.choice, Quot.sound, propext |
| C118 | `Composipy.C118_kasF` | Classical.choice, Quot.sound, propext |
| C118 | `Composipy.C118_opt` | Classical.choice, Quot.sound, propext |
| C118 | `Composipy.C118_testP` | Classical.choice, Quot.sound, propext |
| C118 | `Composipy.C118_testC` | Classical.choice, Quot.sound, propext |
| C119 | `Composipy.C119_maximize` | Classical.choice, Quot.sound, propext |
| C119 | `Composipy.C119_natural` | Classical.choice, Quot.sound, propext |
| C119 | `Composipy.C119_weight` | Classical.choice, Quot.sound, propext |
| C120 | `Composipy.C120_tables` | Classical.choice, Quot.sound, propext |
| C121 | `Composipy.C121_stiffness` | Classical.choice, Quot.sound, propext |
| C121 | `Composipy.C121_multipliers` | Classical.choice, Quot.sound, propext |
| C122 | `Composipy.C122_stack` | Classical.choice, Quot.sound, propext |
| C122 | `Composipy.C122_ssss` | Classical.choice, Quot.sound, propext |
| C122 | `Composipy.C122_cccc` | Classical.choice, Quot.sound, propext |
| C122 | `Composipy.C122_shear` | Classical.choice, Quot.sound, propext |
| C122 | `Composipy.C122_kasP` | Classical.choice, Quot.sound, propext |
| C122 | `Composipy.C122_kasC` | Classical.choice, Quot.sound, propext |
| C122 | `Composipy.C122_testP` | Classical.choice, Quot.sound, propext |
| C122 | `Composipy.C122_testC` | Classical.choice, Quot.sound, propext |
| C123 | `Composipy.C123_buckling` | Classical.choice, Quot.sound, propext |
| C123 | `Composipy.C123_default` | Classical.choice, Quot.sound, propext |
| C123 | `Composipy.C123_times` | Classical.choice, Quot.sound, propext |
| C123 | `Composipy.C123_plot_eigenvalue` | Classical.choice, Quot.sound, propext |
| C123 | `Composipy.C123_ncr` | Classical.choice, Quot.sound, propext |
| C123 | `Composipy.C123_constraint` | Classical.choice, Quot.sound, propext |
| C123 | `Composipy.C123_constraint_default` | Classical.choice, Quot.sound, propext |
| C123 | `Composipy.C123_plot_optimization` | Classical.choice, Quot.sound, propext |
| C123 | `Composipy.C123_raise` | Classical.choice, Quot.sound, propext |
| C124 | `Composipy.C124_tables` | Classical.choice, Quot.sound, propext |
| C124 | `Composipy.C124_margin` | Classical.choice, Quot.sound, propext |
| C124 | `Composipy.C124_session` | Classical.choice, Quot.sound, propext |
| C125 | `Composipy.C125_Q0` | Classical.choice, Quot.sound, propext |
| C125 | `Composipy.C125_ply` | Classical.choice, Quot.sound, propext |
| C125 | `Composipy.C125_stack` | Classical.choice, Quot.sound, propext |
| C125 | `Composipy.C125_small` | Classical.choice, Quot.sound, propext |
| C125 | `Composipy.C125_plate` | Classical.choice, Quot.sound, propext |
| C125 | `Composipy.C125_multipliers` | Classical.choice, Quot.sound, propext |
| C126 | `Composipy.C126_flexibility` | Classical.choice, Quot.sound, propext |
| C126 | `Composipy.C126_strain` | Classical.choice, Quot.sound, propext |
| C126 | `Composipy.C126_stress` | Classical.choice, Quot.sound, propext |
| C126 | `Composipy.C126_safe` | Classical.choice, Quot.sound, propext |
| C126 | `Composipy.C126_margins` | Classical.choice, Quot.sound, propext |
| C127 | `Composipy.C127_work` | Classical.choice, Quot.sound, propext |
| C127 | `Composipy.C127_plate` | Classical.choice, Quot.sound, propext |
| C127 | `Composipy.C127_compression` | Classical.choice, Quot.sound, propext |
| C128 | `Composipy.C128_normalised` | Classical.choice, Quot.sound, propext |
| C128 | `Composipy.C128_constraints` | Classical.choice, Quot.sound, propext |
| C128 | `Composipy.C128_feasible` | Classical.choice, Quot.sound, propext |
| C128 | `Composipy.C128_feasible_weight` | Classical.choice, Quot.sound, propext |
| C128 | `Composipy.C128_panel` | Classical.choice, Quot.sound, propext |
| C128 | `Composipy.C128_value` | Classical.choice, Quot.sound, propext |
| C128 | `Composipy.C128_exact` | Classical.choice, Quot.sound, propext |
| C128 | `Composipy.C128_maximize` | Classical.choice, Quot.sound, propext |
| C128 | `Composipy.C128_weight` | Classical.choice, Quot.sound, propext |
| C129 | `Composipy.C129_residual` | Classical.choice, Quot.sound, propext |
| C129 | `Composipy.C129_plate` | Classical.choice, Quot.sound, propext |
| C129 | `Composipy.C129_stack` | Classical.choice, Quot.sound, propext |
| C129 | `Composipy.C129_maximize` | Classical.choice, Quot.sound, propext |
| C130 | `Composipy.C130_material` | Classical.choice, Quot.sound, propext |
| C130 | `Composipy.C130_parameters` | Classical.choice, Quot.sound, propext |
| C130 | `Composipy.C130_laminate` | Classical.choice, Quot.sound, propext |
| C130 | `Composipy.C130_getters` | Classical.choice, Quot.sound, propext |
| C130 | `Composipy.C130_parameters_laminate` | Classical.choice, Quot.sound, propext |
| C130 | `Composipy.C130_last_plies` | Classical.choice, Quot.sound, propext |
| C130 | `Composipy.C130_layup_early` | Classical.choice, Quot.sound, propext |
| C130 | `Composipy.C130_layup_late` | Classical.choice, Quot.sound, propext |
| C130 | `Composipy.C130_strength` | Classical.choice, Quot.sound, propext |
| C130 | `Composipy.C130_plate` | Classical.choice, Quot.sound, propext |
| C130 | `Composipy.C130_plot_model` | Classical.choice, Quot.sound, propext |
| C130 | `Composipy.C130_plot_assigned` | Classical.choice, Quot.sound, propext |
| C131 | `Composipy.C131_material` | Classical.choice, Quot.sound, propext |
| C131 | `Composipy.C131_matrices` | Classical.choice, Quot.sound, propext |
| C131 | `Composipy.C131_plies` | Classical.choice, Quot.sound, propext |
| C131 | `Composipy.C131_parameters` | Classical.choice, Quot.sound, propext |
| C131 | `Composipy.C131_ABD` | Classical.choice, Quot.sound, propext |
| C132 | `Composipy.C132_accepted_all` | Classical.choice, Quot.sound, propext |
| C132 | `Composipy.C132_Q0` | Classical.choice, Quot.sound, propext |
| C132 | `Composipy.C132_invariants` | Classical.choice, Quot.sound, propext |
| C132 | `Composipy.C132_raise` | Classical.choice, Quot.sound, propext |
| C132 | `Composipy.C132_agrees_Q0` | Classical.choice, Quot.sound, propext |
| C132 | `Composipy.C132_agrees_invariants` | Classical.choice, Quot.sound, propext |
| C132 | `Composipy.C132_U2` | Classical.choice, Quot.sound, propext |
| C132 | `Composipy.C132_ply` | Classical.choice, Quot.sound, propext |
| C132 | `Composipy.C132_stack` | Classical.choice, Quot.sound, propext |
| C132 | `Composipy.C132_stack_ok` | Classical.choice, Quot.sound, propext |
| C132 | `Composipy.C132_thickness` | Classical.choice, Quot.sound, propext |
| C132 | `Composipy.C132_agrees_z` | Classical.choice, Quot.sound, propext |
| C132 | `Composipy.C132_agrees` | Classical.choice, Quot.sound, propext |
| C132 | `Composipy.C132_epsilon0` | Classical.choice, Quot.sound, propext |
| C132 | `Composipy.C132_strength` | Classical.choice, Quot.sound, propext |
| C132 | `Composipy.C132_spoilt` | Classical.choice, Quot.sound, propext |
| C132 | `Composipy.C132_agrees_margin` | Classical.choice, Quot.sound, propext |
| C132 | `Composipy.C132_nan_margin` | Classical.choice, Quot.sound, propext |
| C132 | `Composipy.C132_inf_margin` | Classical.choice, Quot.sound, propext |
| C132 | `Composipy.C132_accepted` | Classical.choice, Quot.sound, propext |
| C132 | `Composipy.C132_agrees_strength` | Classical.choice, Quot.sound, propext |
| C133 | `Composipy.C133_raise` | Classical.choice, Quot.sound, propext |
| C133 | `Composipy.C133_agrees` | Classical.choice, Quot.sound, propext |
| C133 | `Composipy.C133_plate` | Classical.choice, Quot.sound, propext |
| C133 | `Composipy.C133_stack` | Classical.choice, Quot.sound, propext |
| C133 | `Composipy.C133_raise_ABD` | Classical.choice, Quot.sound, propext |
| C133 | `Composipy.C133_plate_ABD` | Classical.choice, Quot.sound, propext |
| C133 | `Composipy.C133_agrees_ABD` | Classical.choice, Quot.sound, propext |
| C133 | `Composipy.C133_lp` | Classical.choice, Quot.sound, propext |
| C133 | `Composipy.C133_agrees_lp` | Classical.choice, Quot.sound, propext |
| C133 | `Composipy.C133_xi` | Classical.choice, Quot.sound, propext |
| C133 | `Composipy.C133_agrees_xi` | Classical.choice, Quot.sound, propext |
| C133 | `Composipy.C133_accepted` | Classical.choice, Quot.sound, propext |
| C134 | `Composipy.C134_loads` | Classical.choice, Quot.sound, propext |
| C134 | `Composipy.C134_infinite` | Classical.choice, Quot.sound, propext |
| C134 | `Composipy.C134_normalize_raise` | Classical.choice, Quot.sound, propext |
| C134 | `Composipy.C134_agrees_normalize` | Classical.choice, Quot.sound, propext |
| C134 | `Composipy.C134_warnings` | Classical.choice, Quot.sound, propext |
| C134 | `Composipy.C134_agrees_warnings` | Classical.choice, Quot.sound, propext |
| C134 | `Composipy.C134_constraint_functions` | Classical.choice, Quot.sound, propext |
| C134 | `Composipy.C134_constraint` | Classical.choice, Quot.sound, propext |
| C134 | `Composipy.C134_agrees_constraints` | Classical.choice, Quot.sound, propext |
| C134 | `Composipy.C134_arrays` | Classical.choice, Quot.sound, propext |
| C134 | `Composipy.C134_raise` | Classical.choice, Quot.sound, propext |
| C134 | `Composipy.C134_maximize_blind` | Classical.choice, Quot.sound, propext |
| C134 | `Composipy.C134_constant` | Classical.choice, Quot.sound, propext |
| C134 | `Composipy.C134_minimize` | Classical.choice, Quot.sound, propext |
| C134 | `Composipy.C134_minimize_none` | Classical.choice, Quot.sound, propext |
| C134 | `Composipy.C134_agrees_ncr` | Classical.choice, Quot.sound, propext |
| C134 | `Composipy.C134_agrees` | Classical.choice, Quot.sound, propext |
| C135 | `Composipy.C135_error` | Classical.choice, Quot.sound, propext |
| C135 | `Composipy.C135_loaded` | Classical.choice, Quot.sound, propext |
| C135 | `Composipy.C135_positive` | Classical.choice, Quot.sound, propext |
| C135 | `Composipy.C135_raises` | Classical.choice, Quot.sound, propext |
| C135 | `Composipy.C135_rows` | Classical.choice, Quot.sound, propext |
| C136 | `Composipy.C136_lists` | Classical.choice, Quot.sound, propext |
| C136 | `Composipy.C136_card` | Classical.choice, Quot.sound, propext |
| C136 | `Composipy.C136_raises` | Classical.choice, Quot.sound, propext |
| C136 | `Composipy.C136_single` | Classical.choice, Quot.sound, propext |
| C136 | `Composipy.C136_misfit` | Classical.choice, Quot.sound, propext |
| C137 | `Composipy.C137_shipped` | Classical.choice, Quot.sound, propext |
| C137 | `Composipy.C137_exact` | Classical.choice, Quot.sound, propext |
| C137 | `Composipy.C137_limit` | Classical.choice, Quot.sound, propext |
| C137 | `Composipy.C137_named` | Classical.choice, Quot.sound, propext |
| C137 | `Composipy.C137_tables` | Classical.choice, Quot.sound, propext |
| C137 | `Composipy.C137_same_terms_false` | Classical.choice, Quot.sound, propext |
| C138 | `Composipy.C138_stiffness` | Classical.choice, Quot.sound, propext |
| C138 | `Composipy.C138_load` | Classical.choice, Quot.sound, propext |
| C138 | `Composipy.C138_gradient` | Classical.choice, Quot.sound, propext |
| C138 | `Composipy.C138_case1` | Classical.choice, Quot.sound, propext |
| C138 | `Composipy.C138_case2` | Classical.choice, Quot.sound, propext |
| C138 | `Composipy.C138_case3` | Classical.choice, Quot.sound, propext |
| C138 | `Composipy.C138_case4` | Classical.choice, Quot.sound, propext |
| C138 | `Composipy.C138_maximum` | Classical.choice, Quot.sound, propext |
| C138 | `Composipy.C138_some_case` | Classical.choice, Quot.sound, propext |
| C138 | `Composipy.C138_square` | Classical.choice, Quot.sound, propext |
| C138 | `Composipy.C138_plate` | Classical.choice, Quot.sound, propext |
| C138 | `Composipy.C138_printed` | Classical.choice, Quot.sound, propext |
| C139 | `Composipy.C139_several` | Classical.choice, Quot.sound, propext |
| C139 | `Composipy.C139_one` | Classical.choice, Quot.sound, propext |
| C139 | `Composipy.C139_no_dimension` | Classical.choice, Quot.sound, propext |
| C139 | `Composipy.C139_numbers` | Classical.choice, Quot.sound, propext |
| C139 | `Composipy.C139_empty` | Classical.choice, Quot.sound, propext |
