{
 "claims": [
  {
   "property": "C01",
   "status": "proved",
   "theorems": [
    "Soil.C01_grid_accepts",
    "Soil.C01_grid_rejects",
    "Soil.C01_grid_regular"
   ],
   "note": ""
  },
  {
   "property": "C02",
   "status": "proved",
   "theorems": [
    "Soil.C02_body_accepts",
    "Soil.C02_body_rejects",
    "Soil.C02_simParam_iff"
   ],
   "note": ""
  },
  {
   "property": "C03",
   "status": "proved",
   "theorems": [
    "Soil.C03_fresh_state",
    "Soil.C03_fresh_checks"
   ],
   "note": ""
  },
  {
   "property": "C04",
   "status": "proved",
   "theorems": [
    "Soil.C04_hamilton",
    "Soil.C04_laws"
   ],
   "note": ""
  },
  {
   "property": "C05",
   "status": "proved",
   "theorems": [
    "Soil.C05_linear",
    "Soil.C05_dot",
    "Soil.C05_cross",
    "Soil.C05_scale",
    "Soil.C05_compose",
    "Soil.C05_identity"
   ],
   "note": ""
  },
  {
   "property": "C06",
   "status": "proved",
   "theorems": [
    "Soil.C06_replay",
    "Soil.C06_body_frame",
    "Soil.C06_index",
    "Soil.C06_index_needs_hypothesis"
   ],
   "note": ""
  },
  {
   "property": "C07",
   "status": "proved",
   "theorems": [
    "Soil.C07_unit",
    "Soil.C07_zyx"
   ],
   "note": ""
  },
  {
   "property": "C08",
   "status": "proved",
   "theorems": [
    "Soil.C08_normal",
    "Soil.C08_swap",
    "Soil.C08_equivariant",
    "Soil.C08_collinear"
   ],
   "note": ""
  },
  {
   "property": "C09",
   "status": "proved",
   "theorems": [
    "Soil.C09_rigid",
    "Soil.C09_distances",
    "Soil.C09_width"
   ],
   "note": ""
  },
  {
   "property": "C10",
   "status": "proved",
   "theorems": [
    "Soil.C10_no_movement_iff",
    "Soil.C10_warning_iff",
    "Soil.C10_repeated_pose",
    "Soil.C10_translation"
   ],
   "note": ""
  },
  {
   "property": "C11",
   "status": "proved",
   "theorems": [
    "Soil.C11_first_step",
    "Soil.C11_new_body"
   ],
   "note": ""
  },
  {
   "property": "C12",
   "status": "proved",
   "theorems": [
    "Soil.C12_step",
    "Soil.C12_updated_iff"
   ],
   "note": ""
  },
  {
   "property": "C13",
   "status": "proved",
   "theorems": [
    "Soil.C13_shuffle_perm",
    "Soil.C13_shuffle_reaches",
    "Soil.C13_permTable",
    "Soil.C13_entries",
    "Soil.C13_directions"
   ],
   "note": ""
  },
  {
   "property": "C14",
   "status": "proved",
   "theorems": [
    "Soil.C14_include",
    "Soil.C14_no_filling"
   ],
   "note": ""
  },
  {
   "property": "C15",
   "status": "proved",
   "theorems": [
    "Soil.C15_wall",
    "Soil.C15_walls",
    "Soil.C15_guard",
    "Soil.C15_unsorted_fails"
   ],
   "note": ""
  },
  {
   "property": "C16",
   "status": "proved",
   "theorems": [
    "Soil.C16_line",
    "Soil.C16_terminates",
    "Soil.C16_boundary_start",
    "Soil.C16_spurious_cell"
   ],
   "note": ""
  },
  {
   "property": "C17",
   "status": "proved",
   "theorems": [
    "Soil.C17_rectangle",
    "Soil.C17_triangle",
    "Soil.C17_vertical",
    "Soil.C17_rectangle_cells",
    "Soil.C17_triangle_cells"
   ],
   "note": ""
  },
  {
   "property": "C18",
   "status": "proved",
   "theorems": [
    "Soil.C18_erases",
    "Soil.C18_new_body",
    "Soil.C18_safe"
   ],
   "note": ""
  },
  {
   "property": "C19",
   "status": "proved",
   "theorems": [
    "Soil.C19_relaxTerrain",
    "Soil.C19_relaxBodySoil",
    "Soil.C19_relaxLoop",
    "Soil.C19_moveIntersectingCells",
    "Soil.C19_updateBodySoil",
    "Soil.C19_step"
   ],
   "note": ""
  },
  {
   "property": "C20",
   "status": "proved",
   "theorems": [
    "Soil.C20_conserves",
    "Soil.C20_follows",
    "Soil.C20_safe"
   ],
   "note": ""
  },
  {
   "property": "C21",
   "status": "proved",
   "theorems": [
    "Soil.C21_locate",
    "Soil.C21_safe_iff",
    "Soil.C21_locate_exact"
   ],
   "note": ""
  },
  {
   "property": "C22",
   "status": "proved",
   "theorems": [
    "Soil.C22_push_terrain",
    "Soil.C22_terrain_free"
   ],
   "note": ""
  },
  {
   "property": "C23",
   "status": "proved",
   "theorems": [
    "Soil.C23_push_body_soil",
    "Soil.C23_no_warning"
   ],
   "note": ""
  },
  {
   "property": "C24",
   "status": "proved",
   "theorems": [
    "Soil.C24_safe",
    "Soil.C24_terrain_terminates",
    "Soil.C24_fuel_irrelevant",
    "Soil.C24_terminates"
   ],
   "note": ""
  },
  {
   "property": "C25",
   "status": "proved",
   "theorems": [
    "Soil.C25_locate"
   ],
   "note": ""
  },
  {
   "property": "C26",
   "status": "proved",
   "theorems": [
    "Soil.C26_terrain_code",
    "Soil.C26_terrain_stable",
    "Soil.C26_body_code",
    "Soil.C26_body_stable"
   ],
   "note": ""
  },
  {
   "property": "C27",
   "status": "proved",
   "theorems": [
    "Soil.C27_relaxTerrain",
    "Soil.C27_columns"
   ],
   "note": ""
  },
  {
   "property": "C28",
   "status": "proved",
   "theorems": [
    "Soil.C28_pair",
    "Soil.C28_swap_forever"
   ],
   "note": ""
  },
  {
   "property": "C29",
   "status": "proved",
   "theorems": [
    "Soil.C29_relaxTerrain",
    "Soil.C29_relaxBodySoil",
    "Soil.C29_never_bury"
   ],
   "note": ""
  },
  {
   "property": "C30",
   "status": "proved",
   "theorems": [
    "Soil.C30_relaxBodySoil",
    "Soil.C30_tan_nonneg"
   ],
   "note": ""
  },
  {
   "property": "C31",
   "status": "proved",
   "theorems": [
    "Soil.C31_any",
    "Soil.C31_equilibrium"
   ],
   "note": ""
  },
  {
   "property": "C32",
   "status": "proved",
   "theorems": [
    "Soil.C32_relaxTerrain",
    "Soil.C32_relaxBodySoil",
    "Soil.C32_round"
   ],
   "note": ""
  },
  {
   "property": "C33",
   "status": "proved",
   "theorems": [
    "Soil.C33_relaxTerrain",
    "Soil.C33_window",
    "Soil.C33_areas"
   ],
   "note": ""
  },
  {
   "property": "C34",
   "status": "partial",
   "theorems": [
    "Soil.C34_partial",
    "Soil.C34_lost"
   ],
   "note": "Proved for every interior column whose indices are at least two, with or without a body. The code violates the claim for interior columns with an index equal to one (C34_lost): the lower side of the new relaxation area is clamped to two."
  },
  {
   "property": "C35",
   "status": "proved",
   "theorems": [
    "Soil.C35_converges",
    "Soil.C35_settles",
    "Soil.C35_livelock"
   ],
   "note": ""
  },
  {
   "property": "C36",
   "status": "proved",
   "theorems": [
    "Soil.C36_step",
    "Soil.C36_history"
   ],
   "note": ""
  },
  {
   "property": "C37",
   "status": "proved",
   "theorems": [
    "Soil.C37_total",
    "Soil.C37_history",
    "Soil.C37_end_to_end"
   ],
   "note": ""
  },
  {
   "property": "C38",
   "status": "proved",
   "theorems": [
    "Soil.C38_checkSoil_iff",
    "Soil.C38_checkSoil_iff_exact"
   ],
   "note": ""
  },
  {
   "property": "C39",
   "status": "proved",
   "theorems": [
    "Soil.C39_checkVolume_iff"
   ],
   "note": ""
  },
  {
   "property": "C40",
   "status": "proved",
   "theorems": [
    "Soil.C40_rounds",
    "Soil.C40_terminates"
   ],
   "note": ""
  },
  {
   "property": "C41",
   "status": "proved",
   "theorems": [
    "Soil.C41_any",
    "Soil.C41_noise_safe",
    "Soil.C41_init",
    "Soil.C41_init_real",
    "Soil.C41_float"
   ],
   "note": ""
  },
  {
   "property": "C42",
   "status": "proved",
   "theorems": [
    "Soil.C42_contents",
    "Soil.C42_names",
    "Soil.C42_writeSoil",
    "Soil.C42_writeBody",
    "Soil.C42_body_soil_overwrites",
    "Soil.C42_rows",
    "Soil.C42_body_rows"
   ],
   "note": ""
  },
  {
   "property": "C43",
   "status": "proved",
   "theorems": [
    "Soil.C43_equilibrium",
    "Soil.C43_at_rest"
   ],
   "note": ""
  },
  {
   "property": "C44",
   "status": "proved",
   "theorems": [
    "Soil.C44_hull",
    "Soil.C44_edges",
    "Soil.C44_inside",
    "Soil.C44_only",
    "Soil.C44_heights",
    "Soil.C44_nudge",
    "Soil.C44_heightOf"
   ],
   "note": ""
  },
  {
   "property": "C45",
   "status": "proved",
   "theorems": [
    "Soil.C45_step",
    "Soil.C45_history"
   ],
   "note": ""
  },
  {
   "property": "C46",
   "status": "proved",
   "theorems": [
    "Soil.C46_open",
    "Soil.C46_removed",
    "Soil.C46_step"
   ],
   "note": ""
  },
  {
   "property": "C47",
   "status": "proved",
   "theorems": [
    "Soil.C47_step",
    "Soil.C47_history"
   ],
   "note": ""
  },
  {
   "property": "C48",
   "status": "proved",
   "theorems": [
    "Soil.C48_margin",
    "Soil.C48_margin_end_to_end",
    "Soil.C48_safe",
    "Soil.C48_fuel",
    "Soil.C48_end_to_end"
   ],
   "note": ""
  },
  {
   "property": "C49",
   "status": "proved",
   "theorems": [
    "Soil.C49_poses",
    "Soil.C49_constructed",
    "Soil.C49_history",
    "Soil.C49_float"
   ],
   "note": ""
  },
  {
   "property": "C50",
   "status": "proved",
   "theorems": [
    "Soil.C50_terrain",
    "Soil.C50_body",
    "Soil.C50_relax"
   ],
   "note": ""
  },
  {
   "property": "C51",
   "status": "proved",
   "theorems": [
    "Soil.C51_highest",
    "Soil.C51_lowest"
   ],
   "note": ""
  },
  {
   "property": "C52",
   "status": "proved",
   "theorems": [
    "Soil.C52_step",
    "Soil.C52_history"
   ],
   "note": ""
  },
  {
   "property": "C53",
   "status": "proved",
   "theorems": [
    "Soil.C53_nodes",
    "Soil.C53_ends",
    "Soil.C53_tangent",
    "Soil.C53_flat",
    "Soil.C53_blade_turns"
   ],
   "note": ""
  },
  {
   "property": "C54",
   "status": "proved",
   "theorems": [
    "Soil.C54_schedule",
    "Soil.C54_moves",
    "Soil.C54_first_jump"
   ],
   "note": ""
  },
  {
   "property": "C55",
   "status": "proved",
   "theorems": [
    "Soil.C55_simulate",
    "Soil.C55_program",
    "Soil.C55_shipped",
    "Soil.C55_random_bucket",
    "Soil.C55_random_blade"
   ],
   "note": ""
  },
  {
   "property": "C56",
   "status": "proved",
   "theorems": [
    "Soil.C56_cells",
    "Soil.C56_step",
    "Soil.C56_outside",
    "Soil.C56_end_to_end",
    "Soil.C56_random_blade"
   ],
   "note": ""
  },
  {
   "property": "C57",
   "status": "proved",
   "theorems": [
    "Soil.C57_end_to_end",
    "Soil.C57_step",
    "Soil.C57_cone"
   ],
   "note": ""
  },
  {
   "property": "C58",
   "status": "proved",
   "theorems": [
    "Soil.C58_transport",
    "Soil.C58_history",
    "Soil.C58_end_to_end"
   ],
   "note": ""
  },
  {
   "property": "C59",
   "status": "proved",
   "theorems": [
    "Soil.C59_amplitude",
    "Soil.C59_flat",
    "Soil.C59_corner",
    "Soil.C59_slope",
    "Soil.C59_at_rest"
   ],
   "note": ""
  },
  {
   "property": "C60",
   "status": "proved",
   "theorems": [
    "Soil.C60_order",
    "Soil.C60_frames",
    "Soil.C60_returns",
    "Soil.C60_full",
    "Soil.C60_shipped"
   ],
   "note": ""
  },
  {
   "property": "C61",
   "status": "proved",
   "theorems": [
    "Soil.C61_transport",
    "Soil.C61_push",
    "Soil.C61_relax",
    "Soil.C61_step",
    "Soil.C61_history"
   ],
   "note": ""
  },
  {
   "property": "C62",
   "status": "proved",
   "theorems": [
    "Soil.C62_terrain",
    "Soil.C62_bodySoil",
    "Soil.C62_squeezed",
    "Soil.C62_relaxation"
   ],
   "note": ""
  },
  {
   "property": "C63",
   "status": "proved",
   "theorems": [
    "Soil.C63_step",
    "Soil.C63_place",
    "Soil.C63_placed",
    "Soil.C63_size"
   ],
   "note": ""
  },
  {
   "property": "C64",
   "status": "proved",
   "theorems": [
    "Soil.C64_place",
    "Soil.C64_places"
   ],
   "note": ""
  },
  {
   "property": "C65",
   "status": "proved",
   "theorems": [
    "Soil.C65_constructed",
    "Soil.C65_any",
    "Soil.C65_run"
   ],
   "note": ""
  },
  {
   "property": "C66",
   "status": "proved",
   "theorems": [
    "Soil.C66_any",
    "Soil.C66_run",
    "Soil.C66_constructed"
   ],
   "note": ""
  },
  {
   "property": "C67",
   "status": "proved",
   "theorems": [
    "Soil.C67_rotation",
    "Soil.C67_moved",
    "Soil.C67_movedWith",
    "Soil.C67_column",
    "Soil.C67_same",
    "Soil.C67_back",
    "Soil.C67_records"
   ],
   "note": ""
  },
  {
   "property": "C68",
   "status": "proved",
   "theorems": [
    "Soil.C68_ahead",
    "Soil.C68_forward"
   ],
   "note": ""
  },
  {
   "property": "C69",
   "status": "proved",
   "theorems": [
    "Soil.C69_back",
    "Soil.C69_thickness",
    "Soil.C69_rigid",
    "Soil.C69_heel",
    "Soil.C69_flat"
   ],
   "note": ""
  },
  {
   "property": "C70",
   "status": "proved",
   "theorems": [
    "Soil.C70_terrain",
    "Soil.C70_units",
    "Soil.C70_kept"
   ],
   "note": ""
  },
  {
   "property": "C71",
   "status": "proved",
   "theorems": [
    "Soil.C71_middle",
    "Soil.C71_width",
    "Soil.C71_direction",
    "Soil.C71_square"
   ],
   "note": ""
  },
  {
   "property": "C72",
   "status": "proved",
   "theorems": [
    "Soil.C72_noticed",
    "Soil.C72_warned",
    "Soil.C72_ignored",
    "Soil.C72_follows"
   ],
   "note": ""
  }
 ]
}