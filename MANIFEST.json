{
 "claims": [
  {
   "property": "C01",
   "status": "proved",
   "theorems": [
    "Fibermat.C01_matCheck_iff",
    "Fibermat.C01_nan_rejected",
    "Fibermat.C01_unit_iff_sqrt"
   ],
   "note": ""
  },
  {
   "property": "C02",
   "status": "proved",
   "theorems": [
    "Fibermat.C02_keyError_iff",
    "Fibermat.C02_attributeError_iff",
    "Fibermat.C02_indexError_iff",
    "Fibermat.C02_valueError_iff",
    "Fibermat.C02_outcomes",
    "Fibermat.C02_skip"
   ],
   "note": ""
  },
  {
   "property": "C03",
   "status": "proved",
   "theorems": [
    "Fibermat.C03_matNew_ok_iff",
    "Fibermat.C03_matNew_error",
    "Fibermat.C03_matNew_result"
   ],
   "note": ""
  },
  {
   "property": "C04",
   "status": "proved",
   "theorems": [
    "Fibermat.C04_seed_deterministic",
    "Fibermat.C04_seed_state"
   ],
   "note": ""
  },
  {
   "property": "C05",
   "status": "proved",
   "theorems": [
    "Fibermat.C05_columns",
    "Fibermat.C05_independence"
   ],
   "note": ""
  },
  {
   "property": "C06",
   "status": "proved",
   "theorems": [
    "Fibermat.C06_netNew_ok",
    "Fibermat.C06_labels",
    "Fibermat.C06_increasing"
   ],
   "note": ""
  },
  {
   "property": "C07",
   "status": "proved",
   "theorems": [
    "Fibermat.C07_end_row"
   ],
   "note": ""
  },
  {
   "property": "C08",
   "status": "proved",
   "theorems": [
    "Fibermat.C08_nodes_on_fibers"
   ],
   "note": ""
  },
  {
   "property": "C09",
   "status": "proved",
   "theorems": [
    "Fibermat.C09_nearest_points"
   ],
   "note": ""
  },
  {
   "property": "C10",
   "status": "proved",
   "theorems": [
    "Fibermat.C10_row_is_crossing",
    "Fibermat.C10_crossing_is_row"
   ],
   "note": ""
  },
  {
   "property": "C11",
   "status": "proved",
   "theorems": [
    "Fibermat.C11_row_is_crossing",
    "Fibermat.C11_crossing_is_row"
   ],
   "note": ""
  },
  {
   "property": "C12",
   "status": "proved",
   "theorems": [
    "Fibermat.C12_heights_irrelevant"
   ],
   "note": ""
  },
  {
   "property": "C13",
   "status": "proved",
   "theorems": [
    "Fibermat.C13_pairs"
   ],
   "note": ""
  },
  {
   "property": "C14",
   "status": "proved",
   "theorems": [
    "Fibermat.C14_netCheck_decides",
    "Fibermat.C14_netCheck_iff",
    "Fibermat.C14_skip"
   ],
   "note": ""
  },
  {
   "property": "C15",
   "status": "proved",
   "theorems": [
    "Fibermat.C15_unique_optimum",
    "Fibermat.C15_stack_ok"
   ],
   "note": ""
  },
  {
   "property": "C16",
   "status": "proved",
   "theorems": [
    "Fibermat.C16_greedy"
   ],
   "note": ""
  },
  {
   "property": "C17",
   "status": "proved",
   "theorems": [
    "Fibermat.C17_no_overlap"
   ],
   "note": ""
  },
  {
   "property": "C18",
   "status": "proved",
   "theorems": [
    "Fibermat.C18_vertical"
   ],
   "note": ""
  },
  {
   "property": "C19",
   "status": "proved",
   "theorems": [
    "Fibermat.C19_threshold"
   ],
   "note": ""
  },
  {
   "property": "C20",
   "status": "proved",
   "theorems": [
    "Fibermat.C20_supported"
   ],
   "note": ""
  },
  {
   "property": "C21",
   "status": "proved",
   "theorems": [
    "Fibermat.C21_initial_heights",
    "Fibermat.C21_idempotent"
   ],
   "note": ""
  },
  {
   "property": "C22",
   "status": "proved",
   "theorems": [
    "Fibermat.C22_height_bound",
    "Fibermat.C22_monotone"
   ],
   "note": ""
  },
  {
   "property": "C23",
   "status": "proved",
   "theorems": [
    "Fibermat.C23_mesh_nodes"
   ],
   "note": ""
  },
  {
   "property": "C24",
   "status": "proved",
   "theorems": [
    "Fibermat.C24_mesh_sorted"
   ],
   "note": ""
  },
  {
   "property": "C25",
   "status": "proved",
   "theorems": [
    "Fibermat.C25_beams_cyclic",
    "Fibermat.C25_beams_permutation",
    "Fibermat.C25_beam_same_fiber"
   ],
   "note": ""
  },
  {
   "property": "C26",
   "status": "proved",
   "theorems": [
    "Fibermat.C26_constraints",
    "Fibermat.C26_reciprocal"
   ],
   "note": ""
  },
  {
   "property": "C27",
   "status": "proved",
   "theorems": [
    "Fibermat.C27_meshNew_iff",
    "Fibermat.C27_meshNew_outcomes",
    "Fibermat.C27_mesh_of_net",
    "Fibermat.C27_mesh_of_stack"
   ],
   "note": ""
  },
  {
   "property": "C28",
   "status": "proved",
   "theorems": [
    "Fibermat.C28_meshCheck_decides",
    "Fibermat.C28_meshCheck_iff",
    "Fibermat.C28_skip"
   ],
   "note": ""
  },
  {
   "property": "C29",
   "status": "proved",
   "theorems": [
    "Fibermat.C29_beam_lengths"
   ],
   "note": ""
  },
  {
   "property": "C30",
   "status": "proved",
   "theorems": [
    "Fibermat.C30_symmetric"
   ],
   "note": ""
  },
  {
   "property": "C31",
   "status": "proved",
   "theorems": [
    "Fibermat.C31_positive",
    "Fibermat.C31_indefinite"
   ],
   "note": ""
  },
  {
   "property": "C32",
   "status": "proved",
   "theorems": [
    "Fibermat.C32_translation",
    "Fibermat.C32_rotation"
   ],
   "note": ""
  },
  {
   "property": "C33",
   "status": "proved",
   "theorems": [
    "Fibermat.C33_no_energy_iff"
   ],
   "note": ""
  },
  {
   "property": "C34",
   "status": "proved",
   "theorems": [
    "Fibermat.C34_local",
    "Fibermat.C34_beams",
    "Fibermat.C34_coupled"
   ],
   "note": ""
  },
  {
   "property": "C35",
   "status": "proved",
   "theorems": [
    "Fibermat.C35_total",
    "Fibermat.C35_bounds",
    "Fibermat.C35_affine",
    "Fibermat.C35_order",
    "Fibermat.C35_unchanged",
    "Fibermat.C35_stiffness_total"
   ],
   "note": ""
  },
  {
   "property": "C36",
   "status": "proved",
   "theorems": [
    "Fibermat.C36_no_beam",
    "Fibermat.C36_empty"
   ],
   "note": ""
  },
  {
   "property": "C37",
   "status": "proved",
   "theorems": [
    "Fibermat.C37_geometric",
    "Fibermat.C37_total"
   ],
   "note": ""
  },
  {
   "property": "C38",
   "status": "proved",
   "theorems": [
    "Fibermat.C38_stacked",
    "Fibermat.C38_chain"
   ],
   "note": ""
  },
  {
   "property": "C39",
   "status": "proved",
   "theorems": [
    "Fibermat.C39_only_h"
   ],
   "note": ""
  },
  {
   "property": "C40",
   "status": "proved",
   "theorems": [
    "Fibermat.C40_itermax",
    "Fibermat.C40_below",
    "Fibermat.C40_no_step",
    "Fibermat.C40_reached"
   ],
   "note": ""
  },
  {
   "property": "C41",
   "status": "proved",
   "theorems": [
    "Fibermat.C41_down",
    "Fibermat.C41_packing"
   ],
   "note": ""
  },
  {
   "property": "C42",
   "status": "proved",
   "theorems": [
    "Fibermat.C42_admissible"
   ],
   "note": ""
  },
  {
   "property": "C43",
   "status": "proved",
   "theorems": [
    "Fibermat.C43_equilibrium",
    "Fibermat.C43_small",
    "Fibermat.C43_exact"
   ],
   "note": ""
  },
  {
   "property": "C44",
   "status": "proved",
   "theorems": [
    "Fibermat.C44_active",
    "Fibermat.C44_masks",
    "Fibermat.C44_complementary"
   ],
   "note": ""
  },
  {
   "property": "C45",
   "status": "proved",
   "theorems": [
    "Fibermat.C45_terminates"
   ],
   "note": ""
  },
  {
   "property": "C46",
   "status": "proved",
   "theorems": [
    "Fibermat.C46_nonPenetrating",
    "Fibermat.C46_thickness"
   ],
   "note": ""
  },
  {
   "property": "C47",
   "status": "proved",
   "theorems": [
    "Fibermat.C47_monotone",
    "Fibermat.C47_nonneg"
   ],
   "note": ""
  },
  {
   "property": "C48",
   "status": "proved",
   "theorems": [
    "Fibermat.C48_perm"
   ],
   "note": ""
  },
  {
   "property": "C49",
   "status": "proved",
   "theorems": [
    "Fibermat.C49_rotations",
    "Fibermat.C49_inactive"
   ],
   "note": ""
  },
  {
   "property": "C50",
   "status": "proved",
   "theorems": [
    "Fibermat.C50_bounds",
    "Fibermat.C50_plate"
   ],
   "note": ""
  },
  {
   "property": "C51",
   "status": "proved",
   "theorems": [
    "Fibermat.C51_data",
    "Fibermat.C51_ends"
   ],
   "note": ""
  },
  {
   "property": "C52",
   "status": "proved",
   "theorems": [
    "Fibermat.C52_weights",
    "Fibermat.C52_outside"
   ],
   "note": ""
  },
  {
   "property": "C53",
   "status": "proved",
   "theorems": [
    "Fibermat.C53_monotone",
    "Fibermat.C53_antitone"
   ],
   "note": ""
  },
  {
   "property": "C54",
   "status": "proved",
   "theorems": [
    "Fibermat.C54_admissible",
    "Fibermat.C54_plate"
   ],
   "note": ""
  },
  {
   "property": "C55",
   "status": "proved",
   "theorems": [
    "Fibermat.C55_previous",
    "Fibermat.C55_last_step"
   ],
   "note": ""
  },
  {
   "property": "C56",
   "status": "proved",
   "theorems": [
    "Fibermat.C56_locate",
    "Fibermat.C56_duplicate",
    "Fibermat.C56_shrunk",
    "Fibermat.C56_no_mixing"
   ],
   "note": ""
  },
  {
   "property": "C57",
   "status": "proved",
   "theorems": [
    "Fibermat.C57_nodes",
    "Fibermat.C57_slope",
    "Fibermat.C57_translation"
   ],
   "note": ""
  },
  {
   "property": "C58",
   "status": "proved",
   "theorems": [
    "Fibermat.C58_accepts",
    "Fibermat.C58_others",
    "Fibermat.C58_read_back",
    "Fibermat.C58_reads",
    "Fibermat.C58_calls_append",
    "Fibermat.C58_calls_accept",
    "Fibermat.C58_last_wins",
    "Fibermat.C58_unwritten",
    "Fibermat.C58_refused",
    "Fibermat.C58_ranges"
   ],
   "note": ""
  },
  {
   "property": "C59",
   "status": "proved",
   "theorems": [
    "Fibermat.C59_switch_restores",
    "Fibermat.C59_switched_off"
   ],
   "note": ""
  },
  {
   "property": "C60",
   "status": "proved",
   "theorems": [
    "Fibermat.C60_net",
    "Fibermat.C60_mesh",
    "Fibermat.C60_wrap",
    "Fibermat.C60_sharing",
    "Fibermat.C60_write"
   ],
   "note": ""
  },
  {
   "property": "C61",
   "status": "proved",
   "theorems": [
    "Fibermat.C61_modelled"
   ],
   "note": ""
  },
  {
   "property": "C62",
   "status": "proved",
   "theorems": [
    "Fibermat.C62_singular",
    "Fibermat.C62_blocked"
   ],
   "note": ""
  },
  {
   "property": "C63",
   "status": "proved",
   "theorems": [
    "Fibermat.C63_jammed"
   ],
   "note": ""
  },
  {
   "property": "C64",
   "status": "proved",
   "theorems": [
    "Fibermat.C64_completion"
   ],
   "note": ""
  },
  {
   "property": "C65",
   "status": "proved",
   "theorems": [
    "Fibermat.C65_lengths",
    "Fibermat.C65_entries",
    "Fibermat.C65_energy"
   ],
   "note": ""
  },
  {
   "property": "C66",
   "status": "proved",
   "theorems": [
    "Fibermat.C66_transverse",
    "Fibermat.C66_bounds",
    "Fibermat.C66_subdivision"
   ],
   "note": ""
  },
  {
   "property": "C67",
   "status": "proved",
   "theorems": [
    "Fibermat.C67_fiber",
    "Fibermat.C67_plates",
    "Fibermat.C67_moment"
   ],
   "note": ""
  },
  {
   "property": "C68",
   "status": "proved",
   "theorems": [
    "Fibermat.C68_work",
    "Fibermat.C68_energy"
   ],
   "note": ""
  },
  {
   "property": "C69",
   "status": "proved",
   "theorems": [
    "Fibermat.C69_stiffening"
   ],
   "note": ""
  },
  {
   "property": "C70",
   "status": "proved",
   "theorems": [
    "Fibermat.C70_least_energy",
    "Fibermat.C70_guided"
   ],
   "note": ""
  },
  {
   "property": "C71",
   "status": "proved",
   "theorems": [
    "Fibermat.C71_pulling",
    "Fibermat.C71_minimum"
   ],
   "note": ""
  },
  {
   "property": "C72",
   "status": "proved",
   "theorems": [
    "Fibermat.C72_rigid",
    "Fibermat.C72_regular"
   ],
   "note": ""
  },
  {
   "property": "C73",
   "status": "proved",
   "theorems": [
    "Fibermat.C73_translation",
    "Fibermat.C73_blocked",
    "Fibermat.C73_completion"
   ],
   "note": ""
  },
  {
   "property": "C74",
   "status": "proved",
   "theorems": [
    "Fibermat.C74_determined"
   ],
   "note": ""
  },
  {
   "property": "C75",
   "status": "proved",
   "theorems": [
    "Fibermat.C75_kept",
    "Fibermat.C75_touches",
    "Fibermat.C75_stiffness",
    "Fibermat.C75_constraint",
    "Fibermat.C75_restart"
   ],
   "note": ""
  },
  {
   "property": "C76",
   "status": "proved",
   "theorems": [
    "Fibermat.C76_least",
    "Fibermat.C76_monotone",
    "Fibermat.C76_downward",
    "Fibermat.C76_lifts"
   ],
   "note": ""
  },
  {
   "property": "C77",
   "status": "proved",
   "theorems": [
    "Fibermat.C77_supported",
    "Fibermat.C77_held"
   ],
   "note": ""
  },
  {
   "property": "C78",
   "status": "proved",
   "theorems": [
    "Fibermat.C78_beam_lengths",
    "Fibermat.C78_positive",
    "Fibermat.C78_runs",
    "Fibermat.C78_supported",
    "Fibermat.C78_nonPenetrating",
    "Fibermat.C78_end",
    "Fibermat.C78_determined",
    "Fibermat.C78_downward",
    "Fibermat.C78_threshold"
   ],
   "note": ""
  },
  {
   "property": "C79",
   "status": "proved",
   "theorems": [
    "Fibermat.C79_unique",
    "Fibermat.C79_rows_are_crossings",
    "Fibermat.C79_lost"
   ],
   "note": ""
  },
  {
   "property": "C80",
   "status": "proved",
   "theorems": [
    "Fibermat.C80_solve",
    "Fibermat.C80_periodic_net",
    "Fibermat.C80_plain_net",
    "Fibermat.C80_periodic",
    "Fibermat.C80_plain",
    "Fibermat.C80_long"
   ],
   "note": ""
  },
  {
   "property": "C81",
   "status": "proved",
   "theorems": [
    "Fibermat.C81_solve",
    "Fibermat.C81_net",
    "Fibermat.C81_stack",
    "Fibermat.C81_mesh",
    "Fibermat.C81_chain",
    "Fibermat.C81_tol"
   ],
   "note": ""
  },
  {
   "property": "C82",
   "status": "proved",
   "theorems": [
    "Fibermat.C82_exists",
    "Fibermat.C82_limit",
    "Fibermat.C82_final",
    "Fibermat.C82_reached",
    "Fibermat.C82_never",
    "Fibermat.C82_uniform"
   ],
   "note": ""
  },
  {
   "property": "C83",
   "status": "partial",
   "theorems": [
    "Fibermat.C83_field",
    "Fibermat.C83_deflection_partial",
    "Fibermat.C83_error",
    "Fibermat.C83_wrong"
   ],
   "note": ""
  },
  {
   "property": "C84",
   "status": "proved",
   "theorems": [
    "Fibermat.C84_tiling",
    "Fibermat.C84_periodic",
    "Fibermat.C84_four",
    "Fibermat.C84_long"
   ],
   "note": ""
  },
  {
   "property": "C85",
   "status": "proved",
   "theorems": [
    "Fibermat.C85_layers",
    "Fibermat.C85_classes",
    "Fibermat.C85_error",
    "Fibermat.C85_mismatch"
   ],
   "note": ""
  },
  {
   "property": "C86",
   "status": "proved",
   "theorems": [
    "Fibermat.C86_accepts",
    "Fibermat.C86_reads",
    "Fibermat.C86_defaults",
    "Fibermat.C86_lost",
    "Fibermat.C86_ranges"
   ],
   "note": ""
  },
  {
   "property": "C87",
   "status": "proved",
   "theorems": [
    "Fibermat.C87_runs",
    "Fibermat.C87_reproducible",
    "Fibermat.C87_iterations",
    "Fibermat.C87_result",
    "Fibermat.C87_half_circle"
   ],
   "note": ""
  },
  {
   "property": "C88",
   "status": "proved",
   "theorems": [
    "Fibermat.C88_fields",
    "Fibermat.C88_last",
    "Fibermat.C88_balance",
    "Fibermat.C88_between"
   ],
   "note": ""
  },
  {
   "property": "C89",
   "status": "proved",
   "theorems": [
    "Fibermat.C89_gaps",
    "Fibermat.C89_exact",
    "Fibermat.C89_plate",
    "Fibermat.C89_norm",
    "Fibermat.C89_binary",
    "Fibermat.C89_norm_small",
    "Fibermat.C89_norm_special"
   ],
   "note": ""
  },
  {
   "property": "C90",
   "status": "proved",
   "theorems": [
    "Fibermat.C90_flat",
    "Fibermat.C90_rigid",
    "Fibermat.C90_mat",
    "Fibermat.C90_mesh",
    "Fibermat.C90_net",
    "Fibermat.C90_stack",
    "Fibermat.C90_between",
    "Fibermat.C90_plates"
   ],
   "note": ""
  },
  {
   "property": "C91",
   "status": "proved",
   "theorems": [
    "Fibermat.C91_runs",
    "Fibermat.C91_gaps",
    "Fibermat.C91_plate",
    "Fibermat.C91_exact",
    "Fibermat.C91_stack_exact",
    "Fibermat.C91_stack",
    "Fibermat.C91_rests",
    "Fibermat.C91_compressed",
    "Fibermat.C91_completes"
   ],
   "note": ""
  },
  {
   "property": "C92",
   "status": "proved",
   "theorems": [
    "Fibermat.C92_exact",
    "Fibermat.C92_runs",
    "Fibermat.C92_increasing",
    "Fibermat.C92_end_row",
    "Fibermat.C92_nodes",
    "Fibermat.C92_mesh",
    "Fibermat.C92_heights",
    "Fibermat.C92_crossing",
    "Fibermat.C92_connected",
    "Fibermat.C92_found"
   ],
   "note": ""
  },
  {
   "property": "C93",
   "status": "proved",
   "theorems": [
    "Fibermat.C93_exact",
    "Fibermat.C93_heights",
    "Fibermat.C93_self",
    "Fibermat.C93_ends",
    "Fibermat.C93_distance",
    "Fibermat.C93_found",
    "Fibermat.C93_connected",
    "Fibermat.C93_crossing",
    "Fibermat.C93_sqrt",
    "Fibermat.C93_lost"
   ],
   "note": ""
  },
  {
   "property": "C94",
   "status": "proved",
   "theorems": [
    "Fibermat.C94_beam",
    "Fibermat.C94_runs",
    "Fibermat.C94_overlap",
    "Fibermat.C94_plate",
    "Fibermat.C94_binary",
    "Fibermat.C94_grid",
    "Fibermat.C94_doubles",
    "Fibermat.C94_main_mat",
    "Fibermat.C94_accepts",
    "Fibermat.C94_only",
    "Fibermat.C94_matNew_ok_iff",
    "Fibermat.C94_matNew_result",
    "Fibermat.C94_checks",
    "Fibermat.C94_near",
    "Fibermat.C94_exact",
    "Fibermat.C94_length",
    "Fibermat.C94_circle",
    "Fibermat.C94_main_py"
   ],
   "note": ""
  },
  {
   "property": "C95",
   "status": "proved",
   "theorems": [
    "Fibermat.C95_weights",
    "Fibermat.C95_exact",
    "Fibermat.C95_steps",
    "Fibermat.C95_infinite",
    "Fibermat.C95_single",
    "Fibermat.C95_single_resampled",
    "Fibermat.C95_one_sample",
    "Fibermat.C95_outside",
    "Fibermat.C95_clear",
    "Fibermat.C95_bounded",
    "Fibermat.C95_results",
    "Fibermat.C95_bounds",
    "Fibermat.C95_deformed",
    "Fibermat.C95_main_py"
   ],
   "note": ""
  },
  {
   "property": "C96",
   "status": "proved",
   "theorems": [
    "Fibermat.C96_empty",
    "Fibermat.C96_picture",
    "Fibermat.C96_loads",
    "Fibermat.C96_range",
    "Fibermat.C96_identical",
    "Fibermat.C96_top",
    "Fibermat.C96_colors",
    "Fibermat.C96_contacts",
    "Fibermat.C96_not_unique",
    "Fibermat.C96_dual",
    "Fibermat.C96_exists"
   ],
   "note": ""
  },
  {
   "property": "C97",
   "status": "proved",
   "theorems": [
    "Fibermat.C97_drawing",
    "Fibermat.C97_fibers_covered",
    "Fibermat.C97_ends",
    "Fibermat.C97_stacked",
    "Fibermat.C97_displaced",
    "Fibermat.C97_packed"
   ],
   "note": ""
  },
  {
   "property": "C98",
   "status": "proved",
   "theorems": [
    "Fibermat.C98_single",
    "Fibermat.C98_linear",
    "Fibermat.C98_timoshenko",
    "Fibermat.C98_euler",
    "Fibermat.C98_small_psi",
    "Fibermat.C98_large_psi"
   ],
   "note": ""
  },
  {
   "property": "C99",
   "status": "proved",
   "theorems": [
    "Fibermat.C99_picture",
    "Fibermat.C99_region",
    "Fibermat.C99_points",
    "Fibermat.C99_mat",
    "Fibermat.C99_runs",
    "Fibermat.C99_result"
   ],
   "note": ""
  },
  {
   "property": "C100",
   "status": "proved",
   "theorems": [
    "Fibermat.C100_unknown",
    "Fibermat.C100_misspelled",
    "Fibermat.C100_written_out",
    "Fibermat.C100_negative_size",
    "Fibermat.C100_fresh",
    "Fibermat.C100_fraction",
    "Fibermat.C100_refused",
    "Fibermat.C100_values",
    "Fibermat.C100_main",
    "Fibermat.C100_runs",
    "Fibermat.C100_again",
    "Fibermat.C100_result",
    "Fibermat.C100_last",
    "Fibermat.C100_tutorial"
   ],
   "note": ""
  },
  {
   "property": "C101",
   "status": "proved",
   "theorems": [
    "Fibermat.C101_stream",
    "Fibermat.C101_unique",
    "Fibermat.C101_unit",
    "Fibermat.C101_exact",
    "Fibermat.C101_runs",
    "Fibermat.C101_tutorial",
    "Fibermat.C101_main_py"
   ],
   "note": ""
  },
  {
   "property": "C102",
   "status": "proved",
   "theorems": [
    "Fibermat.C102_vertex",
    "Fibermat.C102_supports",
    "Fibermat.C102_count",
    "Fibermat.C102_force",
    "Fibermat.C102_choice",
    "Fibermat.C102_whole",
    "Fibermat.C102_dual",
    "Fibermat.C102_picture",
    "Fibermat.C102_loads"
   ],
   "note": ""
  },
  {
   "property": "C103",
   "status": "proved",
   "theorems": [
    "Fibermat.C103_pairs",
    "Fibermat.C103_sub",
    "Fibermat.C103_all",
    "Fibermat.C103_range",
    "Fibermat.C103_order_long"
   ],
   "note": ""
  },
  {
   "property": "C104",
   "status": "proved",
   "theorems": [
    "Fibermat.C104_mesh",
    "Fibermat.C104_solve",
    "Fibermat.C104_chain",
    "Fibermat.C104_concurrent",
    "Fibermat.C104_net",
    "Fibermat.C104_stack"
   ],
   "note": ""
  },
  {
   "property": "C105",
   "status": "proved",
   "theorems": [
    "Fibermat.C105_prefix",
    "Fibermat.C105_cut",
    "Fibermat.C105_chain",
    "Fibermat.C105_options"
   ],
   "note": ""
  },
  {
   "property": "C106",
   "status": "proved",
   "theorems": [
    "Fibermat.C106_data",
    "Fibermat.C106_ends",
    "Fibermat.C106_range",
    "Fibermat.C106_monotone",
    "Fibermat.C106_previous",
    "Fibermat.C106_bool"
   ],
   "note": ""
  },
  {
   "property": "C107",
   "status": "proved",
   "theorems": [
    "Fibermat.C107_net",
    "Fibermat.C107_stack",
    "Fibermat.C107_mesh",
    "Fibermat.C107_solve",
    "Fibermat.C107_chain",
    "Fibermat.C107_order"
   ],
   "note": ""
  },
  {
   "property": "C108",
   "status": "proved",
   "theorems": [
    "Fibermat.C108_mode",
    "Fibermat.C108_described",
    "Fibermat.C108_versions",
    "Fibermat.C108_status",
    "Fibermat.C108_command"
   ],
   "note": ""
  },
  {
   "property": "C109",
   "status": "proved",
   "theorems": [
    "Fibermat.C109_net",
    "Fibermat.C109_mesh",
    "Fibermat.C109_solve",
    "Fibermat.C109_chain",
    "Fibermat.C109_upsideDown",
    "Fibermat.C109_periodic"
   ],
   "note": ""
  },
  {
   "property": "C110",
   "status": "proved",
   "theorems": [
    "Fibermat.C110_unique",
    "Fibermat.C110_spline",
    "Fibermat.C110_resampled",
    "Fibermat.C110_polynomial",
    "Fibermat.C110_data",
    "Fibermat.C110_outside",
    "Fibermat.C110_few",
    "Fibermat.C110_combination",
    "Fibermat.C110_backwards",
    "Fibermat.C110_line",
    "Fibermat.C110_demo",
    "Fibermat.C110_overshoot"
   ],
   "note": ""
  },
  {
   "property": "C111",
   "status": "proved",
   "theorems": [
    "Fibermat.C111_plain",
    "Fibermat.C111_periodic",
    "Fibermat.C111_middle",
    "Fibermat.C111_order"
   ],
   "note": ""
  },
  {
   "property": "C112",
   "status": "proved",
   "theorems": [
    "Fibermat.C112_net",
    "Fibermat.C112_lower",
    "Fibermat.C112_heights",
    "Fibermat.C112_stack",
    "Fibermat.C112_top",
    "Fibermat.C112_axes",
    "Fibermat.C112_thickness",
    "Fibermat.C112_below"
   ],
   "note": ""
  },
  {
   "property": "C113",
   "status": "proved",
   "theorems": [
    "Fibermat.C113_tile",
    "Fibermat.C113_net",
    "Fibermat.C113_stack",
    "Fibermat.C113_mesh",
    "Fibermat.C113_solve",
    "Fibermat.C113_chain",
    "Fibermat.C113_repeated",
    "Fibermat.C113_long"
   ],
   "note": ""
  },
  {
   "property": "C114",
   "status": "proved",
   "theorems": [
    "Fibermat.C114_slope",
    "Fibermat.C114_step",
    "Fibermat.C114_start",
    "Fibermat.C114_work",
    "Fibermat.C114_shear"
   ],
   "note": ""
  },
  {
   "property": "C115",
   "status": "proved",
   "theorems": [
    "Fibermat.C115_timoshenko",
    "Fibermat.C115_energy",
    "Fibermat.C115_bounds",
    "Fibermat.C115_other",
    "Fibermat.C115_bending",
    "Fibermat.C115_divided"
   ],
   "note": ""
  },
  {
   "property": "C116",
   "status": "proved",
   "theorems": [
    "Fibermat.C116_dropped",
    "Fibermat.C116_clearance",
    "Fibermat.C116_between",
    "Fibermat.C116_open",
    "Fibermat.C116_pierced"
   ],
   "note": ""
  },
  {
   "property": "C117",
   "status": "proved",
   "theorems": [
    "Fibermat.C117_order",
    "Fibermat.C117_step",
    "Fibermat.C117_start",
    "Fibermat.C117_work",
    "Fibermat.C117_coupled"
   ],
   "note": ""
  },
  {
   "property": "C118",
   "status": "proved",
   "theorems": [
    "Fibermat.C118_exists",
    "Fibermat.C118_connected",
    "Fibermat.C118_mean",
    "Fibermat.C118_uniform",
    "Fibermat.C118_mesh",
    "Fibermat.C118_isotropic",
    "Fibermat.C118_independent",
    "Fibermat.C118_variance"
   ],
   "note": ""
  },
  {
   "property": "C119",
   "status": "proved",
   "theorems": [
    "Fibermat.C119_rows",
    "Fibermat.C119_inside",
    "Fibermat.C119_heights",
    "Fibermat.C119_nodes",
    "Fibermat.C119_run"
   ],
   "note": ""
  },
  {
   "property": "C120",
   "status": "proved",
   "theorems": [
    "Fibermat.C120_agrees",
    "Fibermat.C120_refused",
    "Fibermat.C120_call",
    "Fibermat.C120_grey",
    "Fibermat.C120_ranges",
    "Fibermat.C120_switch",
    "Fibermat.C120_value",
    "Fibermat.C120_not_unchanged"
   ],
   "note": ""
  },
  {
   "property": "C121",
   "status": "proved",
   "theorems": [
    "Fibermat.C121_nodes",
    "Fibermat.C121_stacked",
    "Fibermat.C121_mesh",
    "Fibermat.C121_forest",
    "Fibermat.C121_binomial",
    "Fibermat.C121_isolated",
    "Fibermat.C121_concentration"
   ],
   "note": ""
  },
  {
   "property": "C122",
   "status": "proved",
   "theorems": [
    "Fibermat.C122_lower",
    "Fibermat.C122_lower_mean",
    "Fibermat.C122_pile",
    "Fibermat.C122_tail",
    "Fibermat.C122_mean",
    "Fibermat.C122_count",
    "Fibermat.C122_floor",
    "Fibermat.C122_floor_mean"
   ],
   "note": ""
  },
  {
   "property": "C123",
   "status": "proved",
   "theorems": [
    "Fibermat.C123_degree",
    "Fibermat.C123_mesh",
    "Fibermat.C123_isolated",
    "Fibermat.C123_floor",
    "Fibermat.C123_floor_mean",
    "Fibermat.C123_rows"
   ],
   "note": ""
  },
  {
   "property": "C124",
   "status": "proved",
   "theorems": [
    "Fibermat.C124_uniform",
    "Fibermat.C124_joint",
    "Fibermat.C124_nodes",
    "Fibermat.C124_free",
    "Fibermat.C124_poisson",
    "Fibermat.C124_gap"
   ],
   "note": ""
  },
  {
   "property": "C125",
   "status": "proved",
   "theorems": [
    "Fibermat.C125_connected",
    "Fibermat.C125_mean",
    "Fibermat.C125_limit"
   ],
   "note": ""
  },
  {
   "property": "C126",
   "status": "proved",
   "theorems": [
    "Fibermat.C126_locate",
    "Fibermat.C126_field",
    "Fibermat.C126_picture",
    "Fibermat.C126_tree",
    "Fibermat.C126_shrunk",
    "Fibermat.C126_exact",
    "Fibermat.C126_close"
   ],
   "note": ""
  },
  {
   "property": "C127",
   "status": "proved",
   "theorems": [
    "Fibermat.C127_rows",
    "Fibermat.C127_step",
    "Fibermat.C127_push",
    "Fibermat.C127_chain",
    "Fibermat.C127_pulls_chain",
    "Fibermat.C127_pulls"
   ],
   "note": ""
  },
  {
   "property": "C128",
   "status": "proved",
   "theorems": [
    "Fibermat.C128_force",
    "Fibermat.C128_straight",
    "Fibermat.C128_between",
    "Fibermat.C128_level"
   ],
   "note": ""
  },
  {
   "property": "C129",
   "status": "proved",
   "theorems": [
    "Fibermat.C129_force",
    "Fibermat.C129_moment",
    "Fibermat.C129_untouched",
    "Fibermat.C129_statics",
    "Fibermat.C129_hanging",
    "Fibermat.C129_three_point"
   ],
   "note": ""
  },
  {
   "property": "C130",
   "status": "proved",
   "theorems": [
    "Fibermat.C130_step",
    "Fibermat.C130_held",
    "Fibermat.C130_free",
    "Fibermat.C130_unchanged",
    "Fibermat.C130_grows",
    "Fibermat.C130_force",
    "Fibermat.C130_energy"
   ],
   "note": ""
  },
  {
   "property": "C131",
   "status": "proved",
   "theorems": [
    "Fibermat.C131_restart",
    "Fibermat.C131_shape"
   ],
   "note": ""
  },
  {
   "property": "C132",
   "status": "proved",
   "theorems": [
    "Fibermat.C132_flow",
    "Fibermat.C132_springs",
    "Fibermat.C132_exact",
    "Fibermat.C132_chain"
   ],
   "note": ""
  },
  {
   "property": "C133",
   "status": "proved",
   "theorems": [
    "Fibermat.C133_monotone",
    "Fibermat.C133_convex",
    "Fibermat.C133_above",
    "Fibermat.C133_area"
   ],
   "note": ""
  },
  {
   "property": "C134",
   "status": "proved",
   "theorems": [
    "Fibermat.C134_free",
    "Fibermat.C134_grows",
    "Fibermat.C134_still",
    "Fibermat.C134_carried",
    "Fibermat.C134_stays",
    "Fibermat.C134_first"
   ],
   "note": ""
  },
  {
   "property": "C135",
   "status": "proved",
   "theorems": [
    "Fibermat.C135_supported",
    "Fibermat.C135_kept",
    "Fibermat.C135_based",
    "Fibermat.C135_grows",
    "Fibermat.C135_positive",
    "Fibermat.C135_curve"
   ],
   "note": ""
  },
  {
   "property": "C136",
   "status": "proved",
   "theorems": [
    "Fibermat.C136_undeformed",
    "Fibermat.C136_balance",
    "Fibermat.C136_borne",
    "Fibermat.C136_grows",
    "Fibermat.C136_parts"
   ],
   "note": ""
  },
  {
   "property": "C137",
   "status": "proved",
   "theorems": [
    "Fibermat.C137_first",
    "Fibermat.C137_height"
   ],
   "note": ""
  },
  {
   "property": "C138",
   "status": "proved",
   "theorems": [
    "Fibermat.C138_step",
    "Fibermat.C138_same",
    "Fibermat.C138_earlier",
    "Fibermat.C138_run"
   ],
   "note": ""
  },
  {
   "property": "C139",
   "status": "proved",
   "theorems": [
    "Fibermat.C139_pi",
    "Fibermat.C139_area",
    "Fibermat.C139_inertia",
    "Fibermat.C139_volume",
    "Fibermat.C139_compliance",
    "Fibermat.C139_stiffness",
    "Fibermat.C139_weight"
   ],
   "note": ""
  },
  {
   "property": "C140",
   "status": "proved",
   "theorems": [
    "Fibermat.C140_least",
    "Fibermat.C140_element",
    "Fibermat.C140_bending",
    "Fibermat.C140_mat"
   ],
   "note": ""
  },
  {
   "property": "C141",
   "status": "proved",
   "theorems": [
    "Fibermat.C141_lower",
    "Fibermat.C141_upper"
   ],
   "note": ""
  },
  {
   "property": "C142",
   "status": "proved",
   "theorems": [
    "Fibermat.C142_limit",
    "Fibermat.C142_excess",
    "Fibermat.C142_string",
    "Fibermat.C142_spans"
   ],
   "note": ""
  },
  {
   "property": "C143",
   "status": "proved",
   "theorems": [
    "Fibermat.C143_split",
    "Fibermat.C143_nested"
   ],
   "note": ""
  },
  {
   "property": "C144",
   "status": "proved",
   "theorems": [
    "Fibermat.C144_step",
    "Fibermat.C144_start",
    "Fibermat.C144_work"
   ],
   "note": ""
  },
  {
   "property": "C145",
   "status": "proved",
   "theorems": [
    "Fibermat.C145_energy",
    "Fibermat.C145_step",
    "Fibermat.C145_start",
    "Fibermat.C145_work"
   ],
   "note": ""
  }
 ]
}