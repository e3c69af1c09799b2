# Axioms used by each claim theorem

Output of `#print axioms` (built with the committed sources).

| theorem | axioms |
|---|---|
| `Fibermat.C01_matCheck_iff` | propext, Classical.choice, Quot.sound |
| `Fibermat.C01_nan_rejected` | propext, Classical.choice, Quot.sound |
| `Fibermat.C01_unit_iff_sqrt` | propext, Classical.choice, Quot.sound |
| `Fibermat.C02_keyError_iff` | propext, Classical.choice, Quot.sound |
| `Fibermat.C02_attributeError_iff` | propext, Classical.choice, Quot.sound |
| `Fibermat.C02_indexError_iff` | propext, Classical.choice, Quot.sound |
| `Fibermat.C02_valueError_iff` | propext, Classical.choice, Quot.sound |
| `Fibermat.C02_outcomes` | propext, Classical.choice, Quot.sound |
| `Fibermat.C02_skip` | propext, Classical.choice, Quot.sound |
| `Fibermat.C03_matNew_ok_iff` | propext, Classical.choice, Quot.sound |
| `Fibermat.C03_matNew_error` | propext, Classical.choice, Quot.sound |
| `Fibermat.C03_matNew_result` | propext, Classical.choice, Quot.sound |
| `Fibermat.C04_seed_deterministic` | propext, Quot.sound |
| `Fibermat.C04_seed_state` | propext, Classical.choice, Quot.sound |
| `Fibermat.C05_columns` | propext, Classical.choice, Quot.sound |
| `Fibermat.C05_independence` | propext, Classical.choice, Quot.sound |
| `Fibermat.C06_netNew_ok` | propext, Classical.choice, Quot.sound |
| `Fibermat.C06_labels` | propext, Classical.choice, Quot.sound |
| `Fibermat.C06_increasing` | propext, Classical.choice, Quot.sound |
| `Fibermat.C07_end_row` | propext, Classical.choice, Quot.sound |
| `Fibermat.C08_nodes_on_fibers` | propext, Classical.choice, Quot.sound |
| `Fibermat.C09_nearest_points` | propext, Classical.choice, Quot.sound |
| `Fibermat.C10_row_is_crossing` | propext, Classical.choice, Quot.sound |
| `Fibermat.C10_crossing_is_row` | propext, Classical.choice, Quot.sound |
| `Fibermat.C11_row_is_crossing` | propext, Classical.choice, Quot.sound |
| `Fibermat.C11_crossing_is_row` | propext, Classical.choice, Quot.sound |
| `Fibermat.C12_heights_irrelevant` | propext, Classical.choice, Quot.sound |
| `Fibermat.C13_pairs` | propext, Classical.choice, Quot.sound |
| `Fibermat.C14_netCheck_decides` | propext, Classical.choice, Quot.sound |
| `Fibermat.C14_netCheck_iff` | propext, Classical.choice, Quot.sound |
| `Fibermat.C14_skip` | propext, Classical.choice, Quot.sound |
| `Fibermat.C15_unique_optimum` | propext, Classical.choice, Quot.sound |
| `Fibermat.C15_stack_ok` | propext, Classical.choice, Quot.sound |
| `Fibermat.C16_greedy` | propext, Classical.choice, Quot.sound |
| `Fibermat.C17_no_overlap` | propext, Classical.choice, Quot.sound |
| `Fibermat.C18_vertical` | propext, Classical.choice, Quot.sound |
| `Fibermat.C19_threshold` | propext, Classical.choice, Quot.sound |
| `Fibermat.C20_supported` | propext, Classical.choice, Quot.sound |
| `Fibermat.C21_initial_heights` | propext, Classical.choice, Quot.sound |
| `Fibermat.C21_idempotent` | propext, Classical.choice, Quot.sound |
| `Fibermat.C22_height_bound` | propext, Classical.choice, Quot.sound |
| `Fibermat.C22_monotone` | propext, Classical.choice, Quot.sound |
| `Fibermat.C23_mesh_nodes` | propext, Classical.choice, Quot.sound |
| `Fibermat.C24_mesh_sorted` | propext, Classical.choice, Quot.sound |
| `Fibermat.C25_beams_cyclic` | propext, Classical.choice, Quot.sound |
| `Fibermat.C25_beams_permutation` | propext, Classical.choice, Quot.sound |
| `Fibermat.C25_beam_same_fiber` | propext, Classical.choice, Quot.sound |
| `Fibermat.C26_constraints` | propext, Classical.choice, Quot.sound |
| `Fibermat.C26_reciprocal` | propext, Classical.choice, Quot.sound |
| `Fibermat.C27_meshNew_iff` | propext, Classical.choice, Quot.sound |
| `Fibermat.C27_meshNew_outcomes` | propext, Classical.choice, Quot.sound |
| `Fibermat.C27_mesh_of_net` | propext, Classical.choice, Quot.sound |
| `Fibermat.C27_mesh_of_stack` | propext, Classical.choice, Quot.sound |
| `Fibermat.C28_meshCheck_decides` | propext, Classical.choice, Quot.sound |
| `Fibermat.C28_meshCheck_iff` | propext, Classical.choice, Quot.sound |
| `Fibermat.C28_skip` | propext, Classical.choice, Quot.sound |
| `Fibermat.C29_beam_lengths` | propext, Classical.choice, Quot.sound |
| `Fibermat.C30_symmetric` | propext, Classical.choice, Quot.sound |
| `Fibermat.C31_positive` | propext, Classical.choice, Quot.sound |
| `Fibermat.C31_indefinite` | propext, Classical.choice, Quot.sound |
| `Fibermat.C32_translation` | propext, Classical.choice, Quot.sound |
| `Fibermat.C32_rotation` | propext, Classical.choice, Quot.sound |
| `Fibermat.C33_no_energy_iff` | propext, Classical.choice, Quot.sound |
| `Fibermat.C34_local` | propext, Classical.choice, Quot.sound |
| `Fibermat.C34_beams` | propext, Quot.sound |
| `Fibermat.C34_coupled` | propext, Classical.choice, Quot.sound |
| `Fibermat.C35_total` | propext, Quot.sound |
| `Fibermat.C35_bounds` | propext, Classical.choice, Quot.sound |
| `Fibermat.C35_affine` | propext, Classical.choice, Quot.sound |
| `Fibermat.C35_order` | propext, Classical.choice, Quot.sound |
| `Fibermat.C35_unchanged` | propext, Classical.choice, Quot.sound |
| `Fibermat.C35_stiffness_total` | propext, Classical.choice, Quot.sound |
| `Fibermat.C36_no_beam` | propext, Classical.choice, Quot.sound |
| `Fibermat.C36_empty` | propext, Classical.choice, Quot.sound |
| `Fibermat.C37_geometric` | propext, Classical.choice, Quot.sound |
| `Fibermat.C37_total` | propext, Classical.choice, Quot.sound |
| `Fibermat.C38_stacked` | propext, Classical.choice, Quot.sound |
| `Fibermat.C38_chain` | propext, Classical.choice, Quot.sound |
| `Fibermat.C39_only_h` | propext, Quot.sound |
| `Fibermat.C40_itermax` | propext, Classical.choice, Quot.sound |
| `Fibermat.C40_below` | propext, Classical.choice, Quot.sound |
| `Fibermat.C40_no_step` | propext, Classical.choice, Quot.sound |
| `Fibermat.C40_reached` | propext, Quot.sound |
| `Fibermat.C41_down` | propext, Classical.choice, Quot.sound |
| `Fibermat.C41_packing` | propext, Classical.choice, Quot.sound |
| `Fibermat.C42_admissible` | propext, Classical.choice, Quot.sound |
| `Fibermat.C43_equilibrium` | propext, Classical.choice, Quot.sound |
| `Fibermat.C43_small` | propext, Classical.choice, Quot.sound |
| `Fibermat.C43_exact` | propext, Classical.choice, Quot.sound |
| `Fibermat.C44_active` | propext, Classical.choice, Quot.sound |
| `Fibermat.C44_masks` | propext, Classical.choice, Quot.sound |
| `Fibermat.C44_complementary` | propext, Classical.choice, Quot.sound |
| `Fibermat.C45_terminates` | propext, Classical.choice, Quot.sound |
| `Fibermat.C46_nonPenetrating` | propext, Classical.choice, Quot.sound |
| `Fibermat.C46_thickness` | propext, Classical.choice, Quot.sound |
| `Fibermat.C47_monotone` | propext, Classical.choice, Quot.sound |
| `Fibermat.C47_nonneg` | propext, Classical.choice, Quot.sound |
| `Fibermat.C48_perm` | propext, Classical.choice, Quot.sound |
| `Fibermat.C49_rotations` | propext, Classical.choice, Quot.sound |
| `Fibermat.C49_inactive` | propext, Classical.choice, Quot.sound |
| `Fibermat.C50_bounds` | propext, Classical.choice, Quot.sound |
| `Fibermat.C50_plate` | propext, Classical.choice, Quot.sound |
| `Fibermat.C51_data` | propext, Classical.choice, Quot.sound |
| `Fibermat.C51_ends` | propext, Classical.choice, Quot.sound |
| `Fibermat.C52_weights` | propext, Classical.choice, Quot.sound |
| `Fibermat.C52_outside` | propext, Classical.choice, Quot.sound |
| `Fibermat.C53_monotone` | propext, Classical.choice, Quot.sound |
| `Fibermat.C53_antitone` | propext, Classical.choice, Quot.sound |
| `Fibermat.C54_admissible` | propext, Classical.choice, Quot.sound |
| `Fibermat.C54_plate` | propext, Classical.choice, Quot.sound |
| `Fibermat.C55_previous` | propext, Classical.choice, Quot.sound |
| `Fibermat.C55_last_step` | propext, Classical.choice, Quot.sound |
| `Fibermat.C56_locate` | propext, Classical.choice, Quot.sound |
| `Fibermat.C56_duplicate` | propext, Classical.choice, Quot.sound |
| `Fibermat.C56_shrunk` | propext, Classical.choice, Quot.sound |
| `Fibermat.C56_no_mixing` | propext, Classical.choice, Quot.sound |
| `Fibermat.C57_nodes` | propext, Classical.choice, Quot.sound |
| `Fibermat.C57_slope` | propext, Classical.choice, Quot.sound |
| `Fibermat.C57_translation` | propext, Quot.sound |
| `Fibermat.C58_accepts` | propext, Quot.sound |
| `Fibermat.C58_others` | propext, Quot.sound |
| `Fibermat.C58_read_back` | propext, Classical.choice, Quot.sound |
| `Fibermat.C58_reads` | propext, Classical.choice, Quot.sound |
| `Fibermat.C58_calls_append` | propext, Quot.sound |
| `Fibermat.C58_calls_accept` | propext, Quot.sound |
| `Fibermat.C58_last_wins` | propext, Classical.choice, Quot.sound |
| `Fibermat.C58_unwritten` | propext, Quot.sound |
| `Fibermat.C58_refused` | propext, Quot.sound |
| `Fibermat.C58_ranges` | propext, Classical.choice, Quot.sound |
| `Fibermat.C59_switch_restores` | propext, Quot.sound |
| `Fibermat.C59_switched_off` | propext, Quot.sound |
| `Fibermat.C60_net` | propext, Quot.sound |
| `Fibermat.C60_mesh` | propext, Quot.sound |
| `Fibermat.C60_wrap` | propext |
| `Fibermat.C60_sharing` | propext, Classical.choice, Quot.sound |
| `Fibermat.C60_write` | propext, Classical.choice, Quot.sound |
| `Fibermat.C61_modelled` | propext, Classical.choice, Quot.sound |
| `Fibermat.C62_singular` | propext, Classical.choice, Quot.sound |
| `Fibermat.C62_blocked` | propext, Classical.choice, Quot.sound |
| `Fibermat.C63_jammed` | propext, Classical.choice, Quot.sound |
| `Fibermat.C64_completion` | propext, Classical.choice, Quot.sound |
| `Fibermat.C65_lengths` | propext, Classical.choice, Quot.sound |
| `Fibermat.C65_entries` | propext, Classical.choice, Quot.sound |
| `Fibermat.C65_energy` | propext, Classical.choice, Quot.sound |
| `Fibermat.C66_transverse` | propext, Classical.choice, Quot.sound |
| `Fibermat.C66_bounds` | propext, Classical.choice, Quot.sound |
| `Fibermat.C66_subdivision` | propext, Classical.choice, Quot.sound |
| `Fibermat.C67_fiber` | propext, Classical.choice, Quot.sound |
| `Fibermat.C67_plates` | propext, Classical.choice, Quot.sound |
| `Fibermat.C67_moment` | propext, Classical.choice, Quot.sound |
| `Fibermat.C68_work` | propext, Classical.choice, Quot.sound |
| `Fibermat.C68_energy` | propext, Classical.choice, Quot.sound |
| `Fibermat.C69_stiffening` | propext, Classical.choice, Quot.sound |
| `Fibermat.C70_least_energy` | propext, Classical.choice, Quot.sound |
| `Fibermat.C70_guided` | propext, Classical.choice, Quot.sound |
| `Fibermat.C71_pulling` | propext, Classical.choice, Quot.sound |
| `Fibermat.C71_minimum` | propext, Classical.choice, Quot.sound |
| `Fibermat.C72_rigid` | propext, Classical.choice, Quot.sound |
| `Fibermat.C72_regular` | propext, Classical.choice, Quot.sound |
| `Fibermat.C73_translation` | propext, Classical.choice, Quot.sound |
| `Fibermat.C73_blocked` | propext, Classical.choice, Quot.sound |
| `Fibermat.C73_completion` | propext, Classical.choice, Quot.sound |
| `Fibermat.C74_determined` | propext, Classical.choice, Quot.sound |
| `Fibermat.C75_kept` | propext, Classical.choice, Quot.sound |
| `Fibermat.C75_touches` | propext, Classical.choice, Quot.sound |
| `Fibermat.C75_stiffness` | propext, Classical.choice, Quot.sound |
| `Fibermat.C75_constraint` | propext, Classical.choice, Quot.sound |
| `Fibermat.C75_restart` | propext, Classical.choice, Quot.sound |
| `Fibermat.C76_least` | propext, Classical.choice, Quot.sound |
| `Fibermat.C76_monotone` | propext, Classical.choice, Quot.sound |
| `Fibermat.C76_downward` | propext, Classical.choice, Quot.sound |
| `Fibermat.C76_lifts` | propext, Classical.choice, Quot.sound |
| `Fibermat.C77_supported` | propext, Classical.choice, Quot.sound |
| `Fibermat.C77_held` | propext, Classical.choice, Quot.sound |
| `Fibermat.C78_beam_lengths` | propext, Classical.choice, Quot.sound |
| `Fibermat.C78_positive` | propext, Classical.choice, Quot.sound |
| `Fibermat.C78_runs` | propext, Classical.choice, Quot.sound |
| `Fibermat.C78_supported` | propext, Classical.choice, Quot.sound |
| `Fibermat.C78_nonPenetrating` | propext, Classical.choice, Quot.sound |
| `Fibermat.C78_end` | propext, Classical.choice, Quot.sound |
| `Fibermat.C78_determined` | propext, Classical.choice, Quot.sound |
| `Fibermat.C78_downward` | propext, Classical.choice, Quot.sound |
| `Fibermat.C78_threshold` | propext, Classical.choice, Quot.sound |
| `Fibermat.C79_unique` | propext, Classical.choice, Quot.sound |
| `Fibermat.C79_rows_are_crossings` | propext, Classical.choice, Quot.sound |
| `Fibermat.C79_lost` | propext, Classical.choice, Quot.sound |
| `Fibermat.C80_solve` | propext, Classical.choice, Quot.sound |
| `Fibermat.C80_periodic_net` | propext, Classical.choice, Quot.sound |
| `Fibermat.C80_plain_net` | propext, Classical.choice, Quot.sound |
| `Fibermat.C80_periodic` | propext, Classical.choice, Quot.sound |
| `Fibermat.C80_plain` | propext, Classical.choice, Quot.sound |
| `Fibermat.C80_long` | propext, Classical.choice, Quot.sound |
| `Fibermat.C81_solve` | propext, Classical.choice, Quot.sound |
| `Fibermat.C81_net` | propext, Classical.choice, Quot.sound |
| `Fibermat.C81_stack` | propext, Classical.choice, Quot.sound |
| `Fibermat.C81_mesh` | propext, Classical.choice, Quot.sound |
| `Fibermat.C81_chain` | propext, Classical.choice, Quot.sound |
| `Fibermat.C81_tol` | propext, Classical.choice, Quot.sound |
| `Fibermat.C82_exists` | propext, Quot.sound |
| `Fibermat.C82_limit` | propext, Classical.choice, Quot.sound |
| `Fibermat.C82_final` | propext, Classical.choice, Quot.sound |
| `Fibermat.C82_reached` | propext, Classical.choice, Quot.sound |
| `Fibermat.C82_never` | propext, Classical.choice, Quot.sound |
| `Fibermat.C82_uniform` | propext, Classical.choice, Quot.sound |
| `Fibermat.C83_field` | propext, Classical.choice, Quot.sound |
| `Fibermat.C83_deflection_partial` | propext, Classical.choice, Quot.sound |
| `Fibermat.C83_error` | propext, Classical.choice, Quot.sound |
| `Fibermat.C83_wrong` | propext, Classical.choice, Quot.sound |
| `Fibermat.C84_tiling` | propext, Classical.choice, Quot.sound |
| `Fibermat.C84_periodic` | propext, Classical.choice, Quot.sound |
| `Fibermat.C84_four` | propext, Classical.choice, Quot.sound |
| `Fibermat.C84_long` | propext, Classical.choice, Quot.sound |
| `Fibermat.C85_layers` | propext, Classical.choice, Quot.sound |
| `Fibermat.C85_classes` | propext, Classical.choice, Quot.sound |
| `Fibermat.C85_error` | propext, Classical.choice, Quot.sound |
| `Fibermat.C85_mismatch` | propext, Classical.choice, Quot.sound |
| `Fibermat.C86_accepts` | propext, Quot.sound |
| `Fibermat.C86_reads` | propext, Classical.choice, Quot.sound |
| `Fibermat.C86_defaults` | propext, Classical.choice, Quot.sound |
| `Fibermat.C86_lost` | propext, Classical.choice, Quot.sound |
| `Fibermat.C86_ranges` | propext, Classical.choice, Quot.sound |
| `Fibermat.C87_runs` | propext, Classical.choice, Quot.sound |
| `Fibermat.C87_reproducible` | propext, Quot.sound |
| `Fibermat.C87_iterations` | propext, Classical.choice, Quot.sound |
| `Fibermat.C87_result` | propext, Classical.choice, Quot.sound |
| `Fibermat.C87_half_circle` | propext, Classical.choice, Quot.sound |
| `Fibermat.C88_fields` | propext, Classical.choice, Quot.sound |
| `Fibermat.C88_last` | propext, Classical.choice, Quot.sound |
| `Fibermat.C88_balance` | propext, Classical.choice, Quot.sound |
| `Fibermat.C88_between` | propext, Classical.choice, Quot.sound |
| `Fibermat.C89_gaps` | propext, Classical.choice, Quot.sound |
| `Fibermat.C89_exact` | propext, Classical.choice, Quot.sound |
| `Fibermat.C89_plate` | propext, Classical.choice, Quot.sound |
| `Fibermat.C89_norm` | propext, Classical.choice, Quot.sound |
| `Fibermat.C89_binary` | propext, Classical.choice, Quot.sound |
| `Fibermat.C89_norm_small` | propext, Classical.choice, Quot.sound |
| `Fibermat.C89_norm_special` | propext, Quot.sound |
| `Fibermat.C90_flat` | propext, Classical.choice, Quot.sound |
| `Fibermat.C90_rigid` | propext, Classical.choice, Quot.sound |
| `Fibermat.C90_mat` | propext, Classical.choice, Quot.sound |
| `Fibermat.C90_mesh` | propext, Classical.choice, Quot.sound |
| `Fibermat.C90_net` | propext, Classical.choice, Quot.sound |
| `Fibermat.C90_stack` | propext, Classical.choice, Quot.sound |
| `Fibermat.C90_between` | propext, Classical.choice, Quot.sound |
| `Fibermat.C90_plates` | propext, Classical.choice, Quot.sound |
| `Fibermat.C91_runs` | propext, Classical.choice, Quot.sound |
| `Fibermat.C91_gaps` | propext, Classical.choice, Quot.sound |
| `Fibermat.C91_plate` | propext, Classical.choice, Quot.sound |
| `Fibermat.C91_exact` | propext, Quot.sound |
| `Fibermat.C91_stack_exact` | propext, Classical.choice, Quot.sound |
| `Fibermat.C91_stack` | propext, Classical.choice, Quot.sound |
| `Fibermat.C91_rests` | propext, Classical.choice, Quot.sound |
| `Fibermat.C91_compressed` | propext, Classical.choice, Quot.sound |
| `Fibermat.C91_completes` | propext, Classical.choice, Quot.sound |
| `Fibermat.C92_exact` | propext, Classical.choice, Quot.sound |
| `Fibermat.C92_runs` | propext, Classical.choice, Quot.sound |
| `Fibermat.C92_increasing` | propext, Classical.choice, Quot.sound |
| `Fibermat.C92_end_row` | propext, Classical.choice, Quot.sound |
| `Fibermat.C92_nodes` | propext, Classical.choice, Quot.sound |
| `Fibermat.C92_mesh` | propext, Classical.choice, Quot.sound |
| `Fibermat.C92_heights` | propext, Classical.choice, Quot.sound |
| `Fibermat.C92_crossing` | propext, Classical.choice, Quot.sound |
| `Fibermat.C92_connected` | propext, Classical.choice, Quot.sound |
| `Fibermat.C92_found` | propext, Classical.choice, Quot.sound |
| `Fibermat.C93_exact` | propext, Classical.choice, Quot.sound |
| `Fibermat.C93_heights` | propext, Quot.sound |
| `Fibermat.C93_self` | propext, Classical.choice, Quot.sound |
| `Fibermat.C93_ends` | propext, Classical.choice, Quot.sound |
| `Fibermat.C93_distance` | propext, Classical.choice, Quot.sound |
| `Fibermat.C93_found` | propext, Classical.choice, Quot.sound |
| `Fibermat.C93_connected` | propext, Classical.choice, Quot.sound |
| `Fibermat.C93_crossing` | propext, Classical.choice, Quot.sound |
| `Fibermat.C93_sqrt` | propext, Classical.choice, Quot.sound |
| `Fibermat.C93_lost` | propext, Classical.choice, Quot.sound |
| `Fibermat.C94_beam` | propext, Classical.choice, Quot.sound |
| `Fibermat.C94_runs` | propext, Classical.choice, Quot.sound |
| `Fibermat.C94_overlap` | propext, Classical.choice, Quot.sound |
| `Fibermat.C94_plate` | propext, Classical.choice, Quot.sound |
| `Fibermat.C94_binary` | propext, Classical.choice, Quot.sound |
| `Fibermat.C94_grid` | propext, Classical.choice, Quot.sound |
| `Fibermat.C94_doubles` | propext, Classical.choice, Quot.sound |
| `Fibermat.C94_main_mat` | propext, Classical.choice, Quot.sound |
| `Fibermat.C94_accepts` | propext, Classical.choice, Quot.sound |
| `Fibermat.C94_only` | propext, Classical.choice, Quot.sound |
| `Fibermat.C94_matNew_ok_iff` | propext, Classical.choice, Quot.sound |
| `Fibermat.C94_matNew_result` | propext, Classical.choice, Quot.sound |
| `Fibermat.C94_checks` | propext, Classical.choice, Quot.sound |
| `Fibermat.C94_near` | propext, Classical.choice, Quot.sound |
| `Fibermat.C94_exact` | propext, Classical.choice, Quot.sound |
| `Fibermat.C94_length` | propext, Classical.choice, Quot.sound |
| `Fibermat.C94_circle` | propext, Classical.choice, Quot.sound |
| `Fibermat.C94_main_py` | propext, Classical.choice, Quot.sound |
| `Fibermat.C95_weights` | propext, Classical.choice, Quot.sound |
| `Fibermat.C95_exact` | propext, Classical.choice, Quot.sound |
| `Fibermat.C95_steps` | propext, Classical.choice, Quot.sound |
| `Fibermat.C95_infinite` | propext, Classical.choice, Quot.sound |
| `Fibermat.C95_single` | propext, Classical.choice, Quot.sound |
| `Fibermat.C95_single_resampled` | propext, Classical.choice, Quot.sound |
| `Fibermat.C95_one_sample` | propext, Classical.choice, Quot.sound |
| `Fibermat.C95_outside` | propext, Classical.choice, Quot.sound |
| `Fibermat.C95_clear` | propext, Classical.choice, Quot.sound |
| `Fibermat.C95_bounded` | propext, Classical.choice, Quot.sound |
| `Fibermat.C95_results` | propext, Classical.choice, Quot.sound |
| `Fibermat.C95_bounds` | propext, Classical.choice, Quot.sound |
| `Fibermat.C95_deformed` | propext, Classical.choice, Quot.sound |
| `Fibermat.C95_main_py` | propext, Classical.choice, Quot.sound |
| `Fibermat.C96_empty` | propext, Classical.choice, Quot.sound |
| `Fibermat.C96_picture` | propext, Classical.choice, Quot.sound |
| `Fibermat.C96_loads` | propext, Classical.choice, Quot.sound |
| `Fibermat.C96_range` | propext, Classical.choice, Quot.sound |
| `Fibermat.C96_identical` | propext, Classical.choice, Quot.sound |
| `Fibermat.C96_top` | propext, Classical.choice, Quot.sound |
| `Fibermat.C96_colors` | propext, Classical.choice, Quot.sound |
| `Fibermat.C96_contacts` | propext, Classical.choice, Quot.sound |
| `Fibermat.C96_not_unique` | propext, Classical.choice, Quot.sound |
| `Fibermat.C96_dual` | propext, Classical.choice, Quot.sound |
| `Fibermat.C96_exists` | propext, Classical.choice, Quot.sound |
| `Fibermat.C97_drawing` | propext, Classical.choice, Quot.sound |
| `Fibermat.C97_fibers_covered` | propext, Classical.choice, Quot.sound |
| `Fibermat.C97_ends` | propext, Classical.choice, Quot.sound |
| `Fibermat.C97_stacked` | propext, Classical.choice, Quot.sound |
| `Fibermat.C97_displaced` | propext, Classical.choice, Quot.sound |
| `Fibermat.C97_packed` | propext, Classical.choice, Quot.sound |
| `Fibermat.C98_single` | propext, Classical.choice, Quot.sound |
| `Fibermat.C98_linear` | propext, Classical.choice, Quot.sound |
| `Fibermat.C98_timoshenko` | propext, Classical.choice, Quot.sound |
| `Fibermat.C98_euler` | propext, Classical.choice, Quot.sound |
| `Fibermat.C98_small_psi` | propext, Classical.choice, Quot.sound |
| `Fibermat.C98_large_psi` | propext, Classical.choice, Quot.sound |
| `Fibermat.C99_picture` | propext, Quot.sound |
| `Fibermat.C99_region` | propext, Classical.choice, Quot.sound |
| `Fibermat.C99_points` | propext, Classical.choice, Quot.sound |
| `Fibermat.C99_mat` | propext, Classical.choice, Quot.sound |
| `Fibermat.C99_runs` | propext, Classical.choice, Quot.sound |
| `Fibermat.C99_result` | propext, Classical.choice, Quot.sound |
| `Fibermat.C100_unknown` | propext, Quot.sound |
| `Fibermat.C100_misspelled` | propext, Quot.sound |
| `Fibermat.C100_written_out` | propext, Quot.sound |
| `Fibermat.C100_negative_size` | propext, Classical.choice, Quot.sound |
| `Fibermat.C100_fresh` | propext, Classical.choice, Quot.sound |
| `Fibermat.C100_fraction` | propext, Quot.sound |
| `Fibermat.C100_refused` | propext, Classical.choice, Quot.sound |
| `Fibermat.C100_values` | propext, Classical.choice, Quot.sound |
| `Fibermat.C100_main` | propext, Classical.choice, Quot.sound |
| `Fibermat.C100_runs` | propext, Classical.choice, Quot.sound |
| `Fibermat.C100_again` | propext, Classical.choice, Quot.sound |
| `Fibermat.C100_result` | propext, Classical.choice, Quot.sound |
| `Fibermat.C100_last` | propext, Classical.choice, Quot.sound |
| `Fibermat.C100_tutorial` | propext, Classical.choice, Quot.sound |
| `Fibermat.C101_stream` | propext, Classical.choice, Quot.sound |
| `Fibermat.C101_unique` | propext, Classical.choice, Quot.sound |
| `Fibermat.C101_unit` | propext, Classical.choice, Quot.sound |
| `Fibermat.C101_exact` | propext, Classical.choice, Quot.sound |
| `Fibermat.C101_runs` | propext, Classical.choice, Quot.sound |
| `Fibermat.C101_tutorial` | propext, Classical.choice, Quot.sound |
| `Fibermat.C101_main_py` | propext, Classical.choice, Quot.sound |
| `Fibermat.C102_vertex` | propext, Classical.choice, Quot.sound |
| `Fibermat.C102_supports` | propext, Classical.choice, Quot.sound |
| `Fibermat.C102_count` | propext, Classical.choice, Quot.sound |
| `Fibermat.C102_force` | propext, Classical.choice, Quot.sound |
| `Fibermat.C102_choice` | propext, Classical.choice, Quot.sound |
| `Fibermat.C102_whole` | propext, Classical.choice, Quot.sound |
| `Fibermat.C102_dual` | propext, Classical.choice, Quot.sound |
| `Fibermat.C102_picture` | propext, Classical.choice, Quot.sound |
| `Fibermat.C102_loads` | propext, Classical.choice, Quot.sound |
| `Fibermat.C103_pairs` | propext, Classical.choice, Quot.sound |
| `Fibermat.C103_sub` | propext, Classical.choice, Quot.sound |
| `Fibermat.C103_all` | propext, Classical.choice, Quot.sound |
| `Fibermat.C103_range` | propext, Classical.choice, Quot.sound |
| `Fibermat.C103_order_long` | propext, Classical.choice, Quot.sound |
| `Fibermat.C104_mesh` | propext, Classical.choice, Quot.sound |
| `Fibermat.C104_solve` | propext, Classical.choice, Quot.sound |
| `Fibermat.C104_chain` | propext, Classical.choice, Quot.sound |
| `Fibermat.C104_concurrent` | propext, Classical.choice, Quot.sound |
| `Fibermat.C104_net` | propext, Classical.choice, Quot.sound |
| `Fibermat.C104_stack` | propext, Classical.choice, Quot.sound |
| `Fibermat.C105_prefix` | propext, Classical.choice, Quot.sound |
| `Fibermat.C105_cut` | propext, Classical.choice, Quot.sound |
| `Fibermat.C105_chain` | propext, Classical.choice, Quot.sound |
| `Fibermat.C105_options` | propext, Quot.sound |
| `Fibermat.C106_data` | propext, Classical.choice, Quot.sound |
| `Fibermat.C106_ends` | propext, Classical.choice, Quot.sound |
| `Fibermat.C106_range` | propext, Classical.choice, Quot.sound |
| `Fibermat.C106_monotone` | propext, Classical.choice, Quot.sound |
| `Fibermat.C106_previous` | propext, Classical.choice, Quot.sound |
| `Fibermat.C106_bool` | propext, Classical.choice, Quot.sound |
| `Fibermat.C107_net` | propext, Classical.choice, Quot.sound |
| `Fibermat.C107_stack` | propext, Classical.choice, Quot.sound |
| `Fibermat.C107_mesh` | propext, Classical.choice, Quot.sound |
| `Fibermat.C107_solve` | propext, Classical.choice, Quot.sound |
| `Fibermat.C107_chain` | propext, Classical.choice, Quot.sound |
| `Fibermat.C107_order` | propext, Classical.choice, Quot.sound |
| `Fibermat.C108_mode` | propext, Classical.choice, Quot.sound |
| `Fibermat.C108_described` | none |
| `Fibermat.C108_versions` | propext, Quot.sound |
| `Fibermat.C108_status` | propext, Classical.choice, Quot.sound |
| `Fibermat.C108_command` | propext, Classical.choice, Quot.sound |
| `Fibermat.C109_net` | propext, Classical.choice, Quot.sound |
| `Fibermat.C109_mesh` | propext, Classical.choice, Quot.sound |
| `Fibermat.C109_solve` | propext, Classical.choice, Quot.sound |
| `Fibermat.C109_chain` | propext, Classical.choice, Quot.sound |
| `Fibermat.C109_upsideDown` | propext, Quot.sound |
| `Fibermat.C109_periodic` | propext, Classical.choice, Quot.sound |
| `Fibermat.C110_unique` | propext, Classical.choice, Quot.sound |
| `Fibermat.C110_spline` | propext, Classical.choice, Quot.sound |
| `Fibermat.C110_resampled` | propext, Classical.choice, Quot.sound |
| `Fibermat.C110_polynomial` | propext, Classical.choice, Quot.sound |
| `Fibermat.C110_data` | propext, Classical.choice, Quot.sound |
| `Fibermat.C110_outside` | propext, Quot.sound |
| `Fibermat.C110_few` | propext, Quot.sound |
| `Fibermat.C110_combination` | propext, Classical.choice, Quot.sound |
| `Fibermat.C110_backwards` | propext, Classical.choice, Quot.sound |
| `Fibermat.C110_line` | propext, Classical.choice, Quot.sound |
| `Fibermat.C110_demo` | propext, Classical.choice, Quot.sound |
| `Fibermat.C110_overshoot` | propext, Classical.choice, Quot.sound |
| `Fibermat.C111_plain` | propext, Classical.choice, Quot.sound |
| `Fibermat.C111_periodic` | propext, Classical.choice, Quot.sound |
| `Fibermat.C111_middle` | propext, Classical.choice, Quot.sound |
| `Fibermat.C111_order` | propext, Classical.choice, Quot.sound |
| `Fibermat.C112_net` | propext, Classical.choice, Quot.sound |
| `Fibermat.C112_lower` | propext, Classical.choice, Quot.sound |
| `Fibermat.C112_heights` | propext, Classical.choice, Quot.sound |
| `Fibermat.C112_stack` | propext, Classical.choice, Quot.sound |
| `Fibermat.C112_top` | propext, Classical.choice, Quot.sound |
| `Fibermat.C112_axes` | propext, Classical.choice, Quot.sound |
| `Fibermat.C112_thickness` | propext, Classical.choice, Quot.sound |
| `Fibermat.C112_below` | propext, Classical.choice, Quot.sound |
| `Fibermat.C113_tile` | propext, Classical.choice, Quot.sound |
| `Fibermat.C113_net` | propext, Classical.choice, Quot.sound |
| `Fibermat.C113_stack` | propext, Classical.choice, Quot.sound |
| `Fibermat.C113_mesh` | propext, Classical.choice, Quot.sound |
| `Fibermat.C113_solve` | propext, Classical.choice, Quot.sound |
| `Fibermat.C113_chain` | propext, Classical.choice, Quot.sound |
| `Fibermat.C113_repeated` | propext, Classical.choice, Quot.sound |
| `Fibermat.C113_long` | propext, Classical.choice, Quot.sound |
| `Fibermat.C114_slope` | propext, Classical.choice, Quot.sound |
| `Fibermat.C114_step` | propext, Classical.choice, Quot.sound |
| `Fibermat.C114_start` | propext, Classical.choice, Quot.sound |
| `Fibermat.C114_work` | propext, Classical.choice, Quot.sound |
| `Fibermat.C114_shear` | propext, Classical.choice, Quot.sound |
| `Fibermat.C115_timoshenko` | propext, Classical.choice, Quot.sound |
| `Fibermat.C115_energy` | propext, Classical.choice, Quot.sound |
| `Fibermat.C115_bounds` | propext, Classical.choice, Quot.sound |
| `Fibermat.C115_other` | propext, Classical.choice, Quot.sound |
| `Fibermat.C115_bending` | propext, Classical.choice, Quot.sound |
| `Fibermat.C115_divided` | propext, Classical.choice, Quot.sound |
| `Fibermat.C116_dropped` | propext, Classical.choice, Quot.sound |
| `Fibermat.C116_clearance` | propext, Classical.choice, Quot.sound |
| `Fibermat.C116_between` | propext, Classical.choice, Quot.sound |
| `Fibermat.C116_open` | propext, Classical.choice, Quot.sound |
| `Fibermat.C116_pierced` | propext, Classical.choice, Quot.sound |
| `Fibermat.C117_order` | propext, Classical.choice, Quot.sound |
| `Fibermat.C117_step` | propext, Classical.choice, Quot.sound |
| `Fibermat.C117_start` | propext, Classical.choice, Quot.sound |
| `Fibermat.C117_work` | propext, Classical.choice, Quot.sound |
| `Fibermat.C117_coupled` | propext, Classical.choice, Quot.sound |
| `Fibermat.C118_exists` | propext, Classical.choice, Quot.sound |
| `Fibermat.C118_connected` | propext, Classical.choice, Quot.sound |
| `Fibermat.C118_mean` | propext, Classical.choice, Quot.sound |
| `Fibermat.C118_uniform` | propext, Classical.choice, Quot.sound |
| `Fibermat.C118_mesh` | propext, Classical.choice, Quot.sound |
| `Fibermat.C118_isotropic` | propext, Classical.choice, Quot.sound |
| `Fibermat.C118_independent` | propext, Classical.choice, Quot.sound |
| `Fibermat.C118_variance` | propext, Classical.choice, Quot.sound |
| `Fibermat.C119_rows` | propext, Classical.choice, Quot.sound |
| `Fibermat.C119_inside` | propext, Classical.choice, Quot.sound |
| `Fibermat.C119_heights` | propext, Classical.choice, Quot.sound |
| `Fibermat.C119_nodes` | propext, Classical.choice, Quot.sound |
| `Fibermat.C119_run` | propext, Classical.choice, Quot.sound |
| `Fibermat.C120_agrees` | propext, Quot.sound |
| `Fibermat.C120_refused` | propext, Quot.sound |
| `Fibermat.C120_call` | propext, Classical.choice, Quot.sound |
| `Fibermat.C120_grey` | propext, Quot.sound |
| `Fibermat.C120_ranges` | propext, Classical.choice, Quot.sound |
| `Fibermat.C120_switch` | propext, Classical.choice, Quot.sound |
| `Fibermat.C120_value` | propext, Classical.choice, Quot.sound |
| `Fibermat.C120_not_unchanged` | propext, Classical.choice, Quot.sound |
| `Fibermat.C121_nodes` | propext, Classical.choice, Quot.sound |
| `Fibermat.C121_stacked` | propext, Classical.choice, Quot.sound |
| `Fibermat.C121_mesh` | propext, Classical.choice, Quot.sound |
| `Fibermat.C121_forest` | propext, Classical.choice, Quot.sound |
| `Fibermat.C121_binomial` | propext, Classical.choice, Quot.sound |
| `Fibermat.C121_isolated` | propext, Classical.choice, Quot.sound |
| `Fibermat.C121_concentration` | propext, Classical.choice, Quot.sound |
| `Fibermat.C122_lower` | propext, Classical.choice, Quot.sound |
| `Fibermat.C122_lower_mean` | propext, Classical.choice, Quot.sound |
| `Fibermat.C122_pile` | propext, Classical.choice, Quot.sound |
| `Fibermat.C122_tail` | propext, Classical.choice, Quot.sound |
| `Fibermat.C122_mean` | propext, Classical.choice, Quot.sound |
| `Fibermat.C122_count` | propext, Classical.choice, Quot.sound |
| `Fibermat.C122_floor` | propext, Classical.choice, Quot.sound |
| `Fibermat.C122_floor_mean` | propext, Classical.choice, Quot.sound |
| `Fibermat.C123_degree` | propext, Classical.choice, Quot.sound |
| `Fibermat.C123_mesh` | propext, Classical.choice, Quot.sound |
| `Fibermat.C123_isolated` | propext, Classical.choice, Quot.sound |
| `Fibermat.C123_floor` | propext, Classical.choice, Quot.sound |
| `Fibermat.C123_floor_mean` | propext, Classical.choice, Quot.sound |
| `Fibermat.C123_rows` | propext, Classical.choice, Quot.sound |
| `Fibermat.C124_uniform` | propext, Classical.choice, Quot.sound |
| `Fibermat.C124_joint` | propext, Classical.choice, Quot.sound |
| `Fibermat.C124_nodes` | propext, Classical.choice, Quot.sound |
| `Fibermat.C124_free` | propext, Classical.choice, Quot.sound |
| `Fibermat.C124_poisson` | propext, Classical.choice, Quot.sound |
| `Fibermat.C124_gap` | propext, Classical.choice, Quot.sound |
| `Fibermat.C125_connected` | propext, Classical.choice, Quot.sound |
| `Fibermat.C125_mean` | propext, Classical.choice, Quot.sound |
| `Fibermat.C125_limit` | propext, Classical.choice, Quot.sound |
| `Fibermat.C126_locate` | propext, Classical.choice, Quot.sound |
| `Fibermat.C126_field` | propext, Classical.choice, Quot.sound |
| `Fibermat.C126_picture` | propext, Classical.choice, Quot.sound |
| `Fibermat.C126_tree` | propext, Classical.choice, Quot.sound |
| `Fibermat.C126_shrunk` | propext, Classical.choice, Quot.sound |
| `Fibermat.C126_exact` | propext, Quot.sound |
| `Fibermat.C126_close` | propext, Classical.choice, Quot.sound |
| `Fibermat.C127_rows` | propext, Classical.choice, Quot.sound |
| `Fibermat.C127_step` | propext, Classical.choice, Quot.sound |
| `Fibermat.C127_push` | propext, Classical.choice, Quot.sound |
| `Fibermat.C127_chain` | propext, Classical.choice, Quot.sound |
| `Fibermat.C127_pulls_chain` | propext, Classical.choice, Quot.sound |
| `Fibermat.C127_pulls` | propext, Classical.choice, Quot.sound |
| `Fibermat.C128_force` | propext, Classical.choice, Quot.sound |
| `Fibermat.C128_straight` | propext, Classical.choice, Quot.sound |
| `Fibermat.C128_between` | propext, Classical.choice, Quot.sound |
| `Fibermat.C128_level` | propext, Classical.choice, Quot.sound |
| `Fibermat.C129_force` | propext, Classical.choice, Quot.sound |
| `Fibermat.C129_moment` | propext, Classical.choice, Quot.sound |
| `Fibermat.C129_untouched` | propext, Classical.choice, Quot.sound |
| `Fibermat.C129_statics` | propext, Classical.choice, Quot.sound |
| `Fibermat.C129_hanging` | propext, Classical.choice, Quot.sound |
| `Fibermat.C129_three_point` | propext, Classical.choice, Quot.sound |
| `Fibermat.C130_step` | propext, Classical.choice, Quot.sound |
| `Fibermat.C130_held` | propext, Classical.choice, Quot.sound |
| `Fibermat.C130_free` | propext, Classical.choice, Quot.sound |
| `Fibermat.C130_unchanged` | propext, Classical.choice, Quot.sound |
| `Fibermat.C130_grows` | propext, Classical.choice, Quot.sound |
| `Fibermat.C130_force` | propext, Classical.choice, Quot.sound |
| `Fibermat.C130_energy` | propext, Classical.choice, Quot.sound |
| `Fibermat.C131_restart` | propext, Classical.choice, Quot.sound |
| `Fibermat.C131_shape` | propext, Classical.choice, Quot.sound |
| `Fibermat.C132_flow` | propext, Classical.choice, Quot.sound |
| `Fibermat.C132_springs` | propext, Classical.choice, Quot.sound |
| `Fibermat.C132_exact` | propext, Classical.choice, Quot.sound |
| `Fibermat.C132_chain` | propext, Classical.choice, Quot.sound |
| `Fibermat.C133_monotone` | propext, Classical.choice, Quot.sound |
| `Fibermat.C133_convex` | propext, Classical.choice, Quot.sound |
| `Fibermat.C133_above` | propext, Classical.choice, Quot.sound |
| `Fibermat.C133_area` | propext, Classical.choice, Quot.sound |
| `Fibermat.C134_free` | propext, Classical.choice, Quot.sound |
| `Fibermat.C134_grows` | propext, Classical.choice, Quot.sound |
| `Fibermat.C134_still` | propext, Classical.choice, Quot.sound |
| `Fibermat.C134_carried` | propext, Classical.choice, Quot.sound |
| `Fibermat.C134_stays` | propext, Classical.choice, Quot.sound |
| `Fibermat.C134_first` | propext, Classical.choice, Quot.sound |
| `Fibermat.C135_supported` | propext, Classical.choice, Quot.sound |
| `Fibermat.C135_kept` | propext, Classical.choice, Quot.sound |
| `Fibermat.C135_based` | propext, Classical.choice, Quot.sound |
| `Fibermat.C135_grows` | propext, Classical.choice, Quot.sound |
| `Fibermat.C135_positive` | propext, Classical.choice, Quot.sound |
| `Fibermat.C135_curve` | propext, Classical.choice, Quot.sound |
| `Fibermat.C136_undeformed` | propext, Classical.choice, Quot.sound |
| `Fibermat.C136_balance` | propext, Classical.choice, Quot.sound |
| `Fibermat.C136_borne` | propext, Classical.choice, Quot.sound |
| `Fibermat.C136_grows` | propext, Classical.choice, Quot.sound |
| `Fibermat.C136_parts` | propext, Classical.choice, Quot.sound |
| `Fibermat.C137_first` | propext, Classical.choice, Quot.sound |
| `Fibermat.C137_height` | propext, Classical.choice, Quot.sound |
| `Fibermat.C138_step` | propext, Classical.choice, Quot.sound |
| `Fibermat.C138_same` | propext, Classical.choice, Quot.sound |
| `Fibermat.C138_earlier` | propext, Classical.choice, Quot.sound |
| `Fibermat.C138_run` | propext, Classical.choice, Quot.sound |
| `Fibermat.C139_pi` | propext, Classical.choice, Quot.sound |
| `Fibermat.C139_area` | propext, Classical.choice, Quot.sound |
| `Fibermat.C139_inertia` | propext, Classical.choice, Quot.sound |
| `Fibermat.C139_volume` | propext, Classical.choice, Quot.sound |
| `Fibermat.C139_compliance` | propext, Classical.choice, Quot.sound |
| `Fibermat.C139_stiffness` | propext, Classical.choice, Quot.sound |
| `Fibermat.C139_weight` | propext, Classical.choice, Quot.sound |
| `Fibermat.C140_least` | propext, Classical.choice, Quot.sound |
| `Fibermat.C140_element` | propext, Classical.choice, Quot.sound |
| `Fibermat.C140_bending` | propext, Classical.choice, Quot.sound |
| `Fibermat.C140_mat` | propext, Classical.choice, Quot.sound |
| `Fibermat.C141_lower` | propext, Classical.choice, Quot.sound |
| `Fibermat.C141_upper` | propext, Classical.choice, Quot.sound |
| `Fibermat.C142_limit` | propext, Classical.choice, Quot.sound |
| `Fibermat.C142_excess` | propext, Classical.choice, Quot.sound |
| `Fibermat.C142_string` | propext, Classical.choice, Quot.sound |
| `Fibermat.C142_spans` | propext, Classical.choice, Quot.sound |
| `Fibermat.C143_split` | propext, Classical.choice, Quot.sound |
| `Fibermat.C143_nested` | propext, Classical.choice, Quot.sound |
| `Fibermat.C144_step` | propext, Classical.choice, Quot.sound |
| `Fibermat.C144_start` | propext, Classical.choice, Quot.sound |
| `Fibermat.C144_work` | propext, Classical.choice, Quot.sound |
| `Fibermat.C145_energy` | propext, Classical.choice, Quot.sound |
| `Fibermat.C145_step` | propext, Classical.choice, Quot.sound |
| `Fibermat.C145_start` | propext, Classical.choice, Quot.sound |
| `Fibermat.C145_work` | propext, Classical.choice, Quot.sound |
