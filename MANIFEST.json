{
 "claims": [
  {
   "property": "C01",
   "status": "proved",
   "theorems": [
    "Barbarosa.C01_move_then_inverse"
   ],
   "note": "All 30 pairs (cube type, move type) of the crate, every state."
  },
  {
   "property": "C02",
   "status": "proved",
   "theorems": [
    "Barbarosa.C02_alg_then_reversed",
    "Barbarosa.C02_reversed_reversed",
    "Barbarosa.C02_reversed_append"
   ],
   "note": "All pairs (cube type, move type), algs of every length."
  },
  {
   "property": "C03",
   "status": "proved",
   "theorems": [
    "Barbarosa.C03_amounts_add",
    "Barbarosa.C03_add_counts_quarters",
    "Barbarosa.C03_amount_is_repeated_quarter",
    "Barbarosa.C03_half_turns"
   ],
   "note": "Also shows that an amount is a number of repeated quarter turns, independently of Amount::add."
  },
  {
   "property": "C04",
   "status": "proved",
   "theorems": [
    "Barbarosa.C04_same_axis_commute"
   ],
   "note": "All face and wide turns, all depths (not only legal ones)."
  },
  {
   "property": "C05",
   "status": "proved",
   "theorems": [
    "Barbarosa.C05_turn_permutes",
    "Barbarosa.C05_move",
    "Barbarosa.C05_alg"
   ],
   "note": "For valid cubes. The rigid turn of a layer is specified on its own, by coordinates."
  },
  {
   "property": "C06",
   "status": "partial",
   "theorems": [
    "Barbarosa.C06_cells_distinct",
    "Barbarosa.C06_cube4",
    "Barbarosa.C06_cube6",
    "Barbarosa.C06_cube5_partial",
    "Barbarosa.C06_cube7_partial",
    "Barbarosa.C06_center_edges_wrong"
   ],
   "note": "Proved on 4x4 and 6x6 and for all other piece types of 5x5, 7x7; refuted for centre edges of 5x5 and 7x7 (C06_center_edges_wrong), which ignore the depth of the move."
  },
  {
   "property": "C07",
   "status": "partial",
   "theorems": [
    "Barbarosa.C07_plain_move_is_wide",
    "Barbarosa.C07_partial"
   ],
   "note": "Refuted (C07_plain_move_is_wide): a plain move is applied as the widest move; C07_partial says what it does and where the claim holds."
  },
  {
   "property": "C08",
   "status": "proved",
   "theorems": [
    "Barbarosa.C08_every_size",
    "Barbarosa.C08_corners",
    "Barbarosa.C08_edges",
    "Barbarosa.C08_wings_and_centers",
    "Barbarosa.C08_cubes",
    "Barbarosa.C08_solved_valid"
   ],
   "note": "Every operation of every piece type and every cube from 2x2 to 7x7; random outcomes are arbitrary."
  },
  {
   "property": "C09",
   "status": "proved",
   "theorems": [
    "Barbarosa.C09_new_accepts",
    "Barbarosa.C09_reported_duplicate"
   ],
   "note": "For every piece type, by the laws of a piece descriptor."
  },
  {
   "property": "C10",
   "status": "proved",
   "theorems": [
    "Barbarosa.C10_lookups",
    "Barbarosa.C10_instances"
   ],
   "note": "For every descriptor that satisfies the laws, and C10_instances shows that all of the crate do."
  },
  {
   "property": "C11",
   "status": "proved",
   "theorems": [
    "Barbarosa.C11_swap"
   ],
   "note": "For every piece type."
  },
  {
   "property": "C12",
   "status": "proved",
   "theorems": [
    "Barbarosa.C12_conserved",
    "Barbarosa.C12_lawful"
   ],
   "note": "Every valid state, also unsolvable ones; algs of every length. Signs are Mathlib's Equiv.Perm.sign."
  },
  {
   "property": "C13",
   "status": "proved",
   "theorems": [
    "Barbarosa.C13_random_lawful",
    "Barbarosa.C13_steps"
   ],
   "note": "Includes: no panic (expect, debug_assert), and which slots each step touches."
  },
  {
   "property": "C14",
   "status": "proved",
   "theorems": [
    "Barbarosa.C14_random_solvable"
   ],
   "note": "With an explicit bound of 45 moves."
  },
  {
   "property": "C15",
   "status": "proved",
   "theorems": [
    "Barbarosa.C15_reachable_iff",
    "Barbarosa.C15_single_defects"
   ],
   "note": "Also: flipping an edge, twisting a corner, swapping two pieces of a solvable state makes it unsolvable."
  },
  {
   "property": "C16",
   "status": "proved",
   "theorems": [
    "Barbarosa.C16_number_of_states",
    "Barbarosa.C16_one_in_twelve"
   ],
   "note": "Also: exactly one in twelve valid arrangements is reachable."
  },
  {
   "property": "C17",
   "status": "partial",
   "theorems": [
    "Barbarosa.C17_reachable_iff",
    "Barbarosa.C17_random_partial",
    "Barbarosa.C17_not_covering",
    "Barbarosa.C17_draws"
   ],
   "note": "Solvability proved; coverage is refuted (C17_not_covering): the 2x2 generator never draws orientations."
  },
  {
   "property": "C18",
   "status": "proved",
   "theorems": [
    "Barbarosa.C18_pieces",
    "Barbarosa.C18_facelets"
   ],
   "note": "C18_facelets is about valid cubes; validity is necessary there."
  },
  {
   "property": "C19",
   "status": "partial",
   "theorems": [
    "Barbarosa.C19_accepts_unsolved",
    "Barbarosa.C19_rejects_solved",
    "Barbarosa.C19_partial"
   ],
   "note": "Refuted both ways: C19_accepts_unsolved (4, 6, 7), C19_rejects_solved (5); C19_partial characterises is_solved."
  },
  {
   "property": "C20",
   "status": "proved",
   "theorems": [
    "Barbarosa.C20_arrays",
    "Barbarosa.C20_lookup"
   ],
   "note": "Valid cubes and arrays of every kind, also unsolvable ones; index? = some says no panic, overflow or underflow (64-bit usize)."
  },
  {
   "property": "C21",
   "status": "proved",
   "theorems": [
    "Barbarosa.C21_edges_index",
    "Barbarosa.C21_edges_from_index",
    "Barbarosa.C21_corners_index",
    "Barbarosa.C21_corners_from_index",
    "Barbarosa.C21_zero",
    "Barbarosa.C21_out_of_range"
   ],
   "note": "Also: from_index panics exactly beyond the table size."
  },
  {
   "property": "C22",
   "status": "proved",
   "theorems": [
    "Barbarosa.C22_rebuild",
    "Barbarosa.C22_reachable"
   ],
   "note": "Every valid cube with twist sum 0 mod 3; injectivity on reachable cubes."
  },
  {
   "property": "C23",
   "status": "proved",
   "theorems": [
    "Barbarosa.C23_positions_rank",
    "Barbarosa.C23_positions_unrank",
    "Barbarosa.C23_positions_out_of_range",
    "Barbarosa.C23_orientations"
   ],
   "note": "All S, N, bases whose number range fits into usize."
  },
  {
   "property": "C24",
   "status": "proved",
   "theorems": [
    "Barbarosa.C24_corners",
    "Barbarosa.C24_edges",
    "Barbarosa.C24_passes"
   ],
   "note": "Unconditional: the build terminates with exact distances (depth 11 for corners, at most 15 for edges)."
  },
  {
   "property": "C25",
   "status": "proved",
   "theorems": [
    "Barbarosa.C25_exact",
    "Barbarosa.C25_admissible",
    "Barbarosa.C25_fallback"
   ],
   "note": "For the tables the build yields (they exist by C24)."
  },
  {
   "property": "C26",
   "status": "proved",
   "theorems": [
    "Barbarosa.C26_search_sound",
    "Barbarosa.C26_search_walk",
    "Barbarosa.C26_solve_sound"
   ],
   "note": "For any state type, any successor function and any arithmetic of the costs (floats included)."
  },
  {
   "property": "C27",
   "status": "proved",
   "theorems": [
    "Barbarosa.C27_optimal",
    "Barbarosa.C27_bounded"
   ],
   "note": "C27_bounded bounds the length by what the heuristic says along any one solution, admissible or not."
  },
  {
   "property": "C28",
   "status": "proved",
   "theorems": [
    "Barbarosa.C28_terminates_finite",
    "Barbarosa.C28_terminates_nonneg",
    "Barbarosa.C28_complete_general",
    "Barbarosa.C28_integer",
    "Barbarosa.C28_none",
    "Barbarosa.C28_floats"
   ],
   "note": "C28_floats transfers it to machine floats; the fuel is only a bound on the depth of the recursion and is shown to suffice."
  },
  {
   "property": "C29",
   "status": "proved",
   "theorems": [
    "Barbarosa.C29_optimal",
    "Barbarosa.C29_unreachable",
    "Barbarosa.C29_zero",
    "Barbarosa.C29_floats",
    "Barbarosa.C29_mus"
   ],
   "note": "Every reachable cube, every nonnegative admissible integer heuristic, exact and float-like arithmetic; unreachable cubes: None for any heuristic."
  },
  {
   "property": "C30",
   "status": "proved",
   "theorems": [
    "Barbarosa.C30_exact"
   ],
   "note": "Lower bound for algs of every length, attained."
  },
  {
   "property": "C31",
   "status": "proved",
   "theorems": [
    "Barbarosa.C31_heuristic",
    "Barbarosa.C31_solve_cross",
    "Barbarosa.C31_solve_cross_fast",
    "Barbarosa.C31_floats"
   ],
   "note": "Every valid cube, also unreachable ones; at most eight moves. Also: solve_cross_fast always succeeds and is at most one move longer than optimal."
  },
  {
   "property": "C32",
   "status": "proved",
   "theorems": [
    "Barbarosa.C32_positions",
    "Barbarosa.C32_count"
   ],
   "note": "For every face and every cube."
  },
  {
   "property": "C33",
   "status": "partial",
   "theorems": [
    "Barbarosa.C33_overestimates",
    "Barbarosa.C33_partial"
   ],
   "note": "Refuted for half turns (C33_overestimates); proved with half turns weighted 3/2, hence for quarter-turn algs and for 2/3 of the heuristic."
  },
  {
   "property": "C34",
   "status": "proved",
   "theorems": [
    "Barbarosa.C34_terminates",
    "Barbarosa.C34_effect",
    "Barbarosa.C34_length"
   ],
   "note": "For every cube type from 2x2 to 7x7."
  },
  {
   "property": "C35",
   "status": "partial",
   "theorems": [
    "Barbarosa.C35_not_reduced",
    "Barbarosa.C35_not_idempotent",
    "Barbarosa.C35_reduced_partial",
    "Barbarosa.C35_fixed_points_partial",
    "Barbarosa.C35_iterate_partial"
   ],
   "note": "False as stated: `R F F' R L` normalises to `L R R`, and that to `L R2` (C35_not_reduced, C35_not_idempotent). The partial theorems say for which algs it holds, which algs are fixed points, and that half as many repetitions as the alg has moves always suffice."
  },
  {
   "property": "C36",
   "status": "proved",
   "theorems": [
    "Barbarosa.C36_random_alg",
    "Barbarosa.C36_no_redundancy",
    "Barbarosa.C36_progress",
    "Barbarosa.C36_unnormalized"
   ],
   "note": "The random source is arbitrary; C36_progress says that the loop goes on whatever is drawn."
  },
  {
   "property": "C37",
   "status": "proved",
   "theorems": [
    "Barbarosa.C37_axis_moves",
    "Barbarosa.C37_combined_moves",
    "Barbarosa.C37_combined_moves_distinct"
   ],
   "note": "Whole finite lists."
  },
  {
   "property": "C38",
   "status": "proved",
   "theorems": [
    "Barbarosa.C38_effect",
    "Barbarosa.C38_answers"
   ],
   "note": "For every combined move, every move and every cube type."
  },
  {
   "property": "C39",
   "status": "proved",
   "theorems": [
    "Barbarosa.C39_connect",
    "Barbarosa.C39_connect_unique",
    "Barbarosa.C39_try_from_states_succeeds",
    "Barbarosa.C39_first_unconnected",
    "Barbarosa.C39_try_from_states_replays",
    "Barbarosa.C39_round_trip"
   ],
   "note": "Uniqueness and the round trip for valid 3x3 cubes, the rest for every cube."
  },
  {
   "property": "C40",
   "status": "proved",
   "theorems": [
    "Barbarosa.C40_effect",
    "Barbarosa.C40_length"
   ],
   "note": "For every alg and every cube type."
  },
  {
   "property": "C41",
   "status": "proved",
   "theorems": [
    "Barbarosa.C41_display_spells",
    "Barbarosa.C41_round_trip",
    "Barbarosa.C41_alg_layout",
    "Barbarosa.C41_alg",
    "Barbarosa.C41_combined"
   ],
   "note": "All moves and algs of every length, all layouts of white space; for every NumberClass."
  },
  {
   "property": "C42",
   "status": "proved",
   "theorems": [
    "Barbarosa.C42_exact",
    "Barbarosa.C42_one_spelling",
    "Barbarosa.C42_alg",
    "Barbarosa.C42_words_unique"
   ],
   "note": "Equivalence over all texts; the parser never panics."
  },
  {
   "property": "C43",
   "status": "partial",
   "theorems": [
    "Barbarosa.C43_round_trip_partial",
    "Barbarosa.C43_printed_form",
    "Barbarosa.C43_not_round_trip",
    "Barbarosa.C43_never_deeper",
    "Barbarosa.C43_overflow"
   ],
   "note": "Refuted for depth 2 and more (C43_not_round_trip, C43_never_deeper); proved for depth 0 and 1."
  },
  {
   "property": "C44",
   "status": "proved",
   "theorems": [
    "Barbarosa.C44_depth_le",
    "Barbarosa.C44_fail_exactly",
    "Barbarosa.C44_alg_widen",
    "Barbarosa.C44_sample_no_panic"
   ],
   "note": "Every value obtainable through the API, including parsing."
  },
  {
   "property": "C45",
   "status": "partial",
   "theorems": [
    "Barbarosa.C45_panics_exactly",
    "Barbarosa.C45_Rw_panics",
    "Barbarosa.C45_wide_partial",
    "Barbarosa.C45_deep",
    "Barbarosa.C45_deep_off_by_two",
    "Barbarosa.C45_3Rw",
    "Barbarosa.C45_ignores_orientation"
   ],
   "note": "Refuted: panics exactly at half the size (C45_panics_exactly), deep moves turn two layers too few (C45_deep, C45_deep_off_by_two), orientation is ignored (C45_ignores_orientation). Proved for depths below half the size and above the size."
  },
  {
   "property": "C46",
   "status": "partial",
   "theorems": [
    "Barbarosa.C46_sides_partial",
    "Barbarosa.C46_picture_partial",
    "Barbarosa.C46_only_half_turns",
    "Barbarosa.C46_M"
   ],
   "note": "Refuted: on the 3x3 correct exactly for half turns about an axis that is in place (C46_only_half_turns); sides for all sizes in C46_sides_partial."
  },
  {
   "property": "C47",
   "status": "proved",
   "theorems": [
    "Barbarosa.C47_count",
    "Barbarosa.C47_try_from",
    "Barbarosa.C47_rotate",
    "Barbarosa.C47_sequence",
    "Barbarosa.C47_all_reached",
    "Barbarosa.C47_undo",
    "Barbarosa.C47_sees_one_colour",
    "Barbarosa.C47_picture"
   ],
   "note": "All sequences of rotations, through an independent description in space; also the picture seen by the holder."
  },
  {
   "property": "C48",
   "status": "partial",
   "theorems": [
    "Barbarosa.C48_rotations_partial",
    "Barbarosa.C48_misled"
   ],
   "note": "Refuted: false for exactly six of the 24 orientations (C48_misled)."
  },
  {
   "property": "C49",
   "status": "partial",
   "theorems": [
    "Barbarosa.C49_turns_seen_face_partial",
    "Barbarosa.C49_turns_image",
    "Barbarosa.C49_faithful_only",
    "Barbarosa.C49_after_y",
    "Barbarosa.C49_picture_partial"
   ],
   "note": "Refuted: true in exactly eight of the 24 orientations (C49_faithful_only); C49_turns_image says what is turned instead."
  },
  {
   "property": "C50",
   "status": "proved",
   "theorems": [
    "Barbarosa.C50_undo",
    "Barbarosa.C50_undo_alg"
   ],
   "note": "All six cube sizes, all orientations, all extended moves, algs of every length."
  },
  {
   "property": "C51",
   "status": "proved",
   "theorems": [
    "Barbarosa.C51_drawing",
    "Barbarosa.C51_facelets",
    "Barbarosa.C51_picture_injective",
    "Barbarosa.C51_display_injective",
    "Barbarosa.C51_net_folds"
   ],
   "note": "C51_net_folds says where the squares of the printed net are on the cube."
  },
  {
   "property": "C52",
   "status": "proved",
   "theorems": [
    "Barbarosa.C52_files",
    "Barbarosa.C52_exact",
    "Barbarosa.C52_heuristic",
    "Barbarosa.C52_untouched",
    "Barbarosa.C52_short_stuck",
    "Barbarosa.C52_init",
    "Barbarosa.C52_init_exact",
    "Barbarosa.C52_only_size",
    "Barbarosa.C52_load_missing",
    "Barbarosa.C52_no_error_swallowed",
    "Barbarosa.C52_load"
   ],
   "note": "One process at a time, any kills, errors and restarts. Beyond the statement: a short file is never repaired (C52_short_stuck), the size is all that is checked (C52_only_size). C52_load gives every outcome of Cache::load."
  },
  {
   "property": "C53",
   "status": "proved",
   "theorems": [
    "Barbarosa.C53_once",
    "Barbarosa.C53_attempts",
    "Barbarosa.C53_get_or_init",
    "Barbarosa.C53_get",
    "Barbarosa.C53_no_deadlock",
    "Barbarosa.C53_fallback"
   ],
   "note": "All traces of any number of threads; also: attempts after panics, no deadlock."
  },
  {
   "property": "C54",
   "status": "partial",
   "theorems": [
    "Barbarosa.C54_bad_line",
    "Barbarosa.C54_good_line_partial",
    "Barbarosa.C54_dies_exactly",
    "Barbarosa.C54_Rw_ends",
    "Barbarosa.C54_session",
    "Barbarosa.C54_says_unique"
   ],
   "note": "Refuted as stated: Rw ends the program (C54_Rw_ends, C54_dies_exactly gives exactly when). Bad lines change nothing; whole sessions are characterised by C54_session."
  },
  {
   "property": "C55",
   "status": "proved",
   "theorems": [
    "Barbarosa.C55_orders",
    "Barbarosa.C55_no_smaller"
   ],
   "note": "For every state; C55_no_smaller shows that the orders are exact."
  },
  {
   "property": "C56",
   "status": "proved",
   "theorems": [
    "Barbarosa.C56_corner",
    "Barbarosa.C56_edge",
    "Barbarosa.C56_depth_pieces",
    "Barbarosa.C56_cube3_alg",
    "Barbarosa.C56_cube7_alg",
    "Barbarosa.C56_wide_algs",
    "Barbarosa.C56_plain_algs"
   ],
   "note": "For every piece type and every cube type."
  },
  {
   "property": "C57",
   "status": "proved",
   "theorems": [
    "Barbarosa.C57_around_is_quarter_turn",
    "Barbarosa.C57_face_rotated",
    "Barbarosa.C57_vector_rotated",
    "Barbarosa.C57_axis_rotated",
    "Barbarosa.C57_rotation_of_move",
    "Barbarosa.C57_sequences",
    "Barbarosa.C57_normal_injective",
    "Barbarosa.C57_cross_product",
    "Barbarosa.C57_coords_contains_index",
    "Barbarosa.C57_axis_order",
    "Barbarosa.C57_conversions",
    "Barbarosa.C57_vectors_of_faces"
   ],
   "note": "Whole finite tables, lifted to sequences of rotations of any length by C57_sequences."
  },
  {
   "property": "C58",
   "status": "proved",
   "theorems": [
    "Barbarosa.C58_uniform"
   ],
   "note": "Every solvable state has exactly 12 preimages."
  },
  {
   "property": "C59",
   "status": "proved",
   "theorems": [
    "Barbarosa.C59_wide_exact",
    "Barbarosa.C59_wide_alg"
   ],
   "note": "Equivalence over all texts, all maximum depths; the parser never panics."
  },
  {
   "property": "C60",
   "status": "proved",
   "theorems": [
    "Barbarosa.C60_extended_exact",
    "Barbarosa.C60_extended_alg"
   ],
   "note": "Equivalence over all texts; the parser never panics."
  },
  {
   "property": "C61",
   "status": "partial",
   "theorems": [
    "Barbarosa.C61_is_solved_partial",
    "Barbarosa.C61_rotated_unsolved"
   ],
   "note": "Refuted (C61_rotated_unsolved); C61_is_solved_partial says exactly when it is reported as solved."
  },
  {
   "property": "C62",
   "status": "proved",
   "theorems": [
    "Barbarosa.C62_bytes",
    "Barbarosa.C62_admissible",
    "Barbarosa.C62_race"
   ],
   "note": "Bytes are exact or zero in every run (C62_bytes), hence admissible; exactness can be lost for good (C62_race)."
  },
  {
   "property": "C63",
   "status": "partial",
   "theorems": [
    "Barbarosa.C63_T",
    "Barbarosa.C63_J",
    "Barbarosa.C63_U_partial",
    "Barbarosa.C63_U_no_corners",
    "Barbarosa.C63_complete",
    "Barbarosa.C63_texts"
   ],
   "note": "T and J as documented; refuted for U, whose documentation names corners although it cycles three edges (C63_U_no_corners, C63_U_partial)."
  },
  {
   "property": "C64",
   "status": "partial",
   "theorems": [
    "Barbarosa.C64_near_optimal",
    "Barbarosa.C64_succeeds_partial",
    "Barbarosa.C64_floats"
   ],
   "note": "Near-optimality, termination and None for unreachable cubes proved in full; success proved for cubes at most 23 moves from solved (that all are is not proved)."
  },
  {
   "property": "C65",
   "status": "partial",
   "theorems": [
    "Barbarosa.C65_cube4_follows",
    "Barbarosa.C65_cube6_follows",
    "Barbarosa.C65_cube5_follows_partial",
    "Barbarosa.C65_cube7_follows_partial",
    "Barbarosa.C65_center_edges_leave",
    "Barbarosa.C65_solves",
    "Barbarosa.C65_solver",
    "Barbarosa.C65_parity"
   ],
   "note": "4x4 and 6x6 in full; refuted for center edges of the 5x5 and 7x7 (C65_center_edges_leave), the rest of those cubes in the _partial theorems."
  },
  {
   "property": "C66",
   "status": "proved",
   "theorems": [
    "Barbarosa.C66_core",
    "Barbarosa.C66_no_single_twist",
    "Barbarosa.C66_odd",
    "Barbarosa.C66_even"
   ],
   "note": "Equivalences: exactly the lawful small cube states occur inside the big cubes."
  },
  {
   "property": "C67",
   "status": "partial",
   "theorems": [
    "Barbarosa.C67_corner_axis",
    "Barbarosa.C67_corner_sticker",
    "Barbarosa.C67_twist",
    "Barbarosa.C67_orientation_index",
    "Barbarosa.C67_is_oriented_partial",
    "Barbarosa.C67_is_oriented_doc",
    "Barbarosa.C67_corner_move",
    "Barbarosa.C67_orientation_face",
    "Barbarosa.C67_edge_oriented",
    "Barbarosa.C67_edge_move",
    "Barbarosa.C67_four_flips",
    "Barbarosa.C67_no_flips"
   ],
   "note": "All of it; the documentation of is_oriented names the wrong axis (C67_is_oriented_doc), hence one _partial theorem for the part that holds."
  },
  {
   "property": "C68",
   "status": "proved",
   "theorems": [
    "Barbarosa.C68_number_of_states",
    "Barbarosa.C68_two_by_two_distances"
   ],
   "note": "Bijection and exact distances, from C17, C21 and C24."
  },
  {
   "property": "C69",
   "status": "partial",
   "theorems": [
    "Barbarosa.C69_four_pieces",
    "Barbarosa.C69_parity",
    "Barbarosa.C69_index_sum_partial",
    "Barbarosa.C69_index_sum_doc",
    "Barbarosa.C69_index_doc"
   ],
   "note": "True statement proved for all valid cubes; the two inaccurate sentences of the documentation are refuted (C69_index_sum_doc, C69_index_doc)."
  },
  {
   "property": "C70",
   "status": "partial",
   "theorems": [
    "Barbarosa.C70_complete_partial",
    "Barbarosa.C70_cube5_no_wings",
    "Barbarosa.C70_cube5_blind"
   ],
   "note": "Proved for 2, 3, 4, 6, 7. False for the 5x5: 24 cubies have no piece (C70_cube5_no_wings); C70_cube5_blind is a sequence the 5x5 does not notice."
  },
  {
   "property": "C71",
   "status": "proved",
   "theorems": [
    "Barbarosa.C71_cube4",
    "Barbarosa.C71_cube6",
    "Barbarosa.C71_cube4_uniform",
    "Barbarosa.C71_cube6_uniform",
    "Barbarosa.C71_cube4_number",
    "Barbarosa.C71_cube6_number"
   ],
   "note": "Equivalence with the laws, solvability, solvability up to equal-looking centers, and the exact number of states, for 4x4 and 6x6."
  },
  {
   "property": "C72",
   "status": "partial",
   "theorems": [
    "Barbarosa.C72_center_edges_stuck",
    "Barbarosa.C72_cube5_partial",
    "Barbarosa.C72_cube7_partial",
    "Barbarosa.C72_cube5_number_partial",
    "Barbarosa.C72_cube7_number_partial"
   ],
   "note": "False: the center edges never separate from the edges (C72_center_edges_stuck). Proved: exactly which states can be reached instead and their number; missing are the arrangements of center edges and, on the 5x5, wings."
  },
  {
   "property": "C73",
   "status": "proved",
   "theorems": [
    "Barbarosa.C73_no_detour",
    "Barbarosa.C73_target",
    "Barbarosa.C73_cube3"
   ],
   "note": "FreshWalk invariant of the recursion; no assumption on costs."
  },
  {
   "property": "C74",
   "status": "proved",
   "theorems": [
    "Barbarosa.C74_random_count",
    "Barbarosa.C74_normal_forms"
   ],
   "note": "Enumeration of ordered algs (nodup, complete), recurrence for its length."
  },
  {
   "property": "C75",
   "status": "proved",
   "theorems": [
    "Barbarosa.C75_eighteen",
    "Barbarosa.C75_cube2",
    "Barbarosa.C75_random",
    "Barbarosa.C75_search",
    "Barbarosa.C75_cube4",
    "Barbarosa.C75_cube5",
    "Barbarosa.C75_cube6",
    "Barbarosa.C75_cube7"
   ],
   "note": "Normal forms (C34, C35) and the number of states (C16, C68, C71, C72) with the pigeonhole principle; for big cubes all words of wide moves are counted."
  },
  {
   "property": "C76",
   "status": "proved",
   "theorems": [
    "Barbarosa.C76_corners",
    "Barbarosa.C76_edges",
    "Barbarosa.C76_eta"
   ],
   "note": "Invariant of the sweep (C24) and a bijection between set entries and states within the distance; times as exact rationals instead of f64."
  },
  {
   "property": "C77",
   "status": "proved",
   "theorems": [
    "Barbarosa.C77_probability",
    "Barbarosa.C77_total",
    "Barbarosa.C77_not_uniform",
    "Barbarosa.C77_pairs_likelier"
   ],
   "note": "The loop as a probability recursion over the candidates, each equally likely (contract of rand's choose); formula by induction on the rest of the alg."
  },
  {
   "property": "C78",
   "status": "proved",
   "theorems": [
    "Barbarosa.C78_depth",
    "Barbarosa.C78_depth_solution",
    "Barbarosa.C78_depth_infinite",
    "Barbarosa.C78_deep",
    "Barbarosa.C78_infinite_start",
    "Barbarosa.C78_depth_needed",
    "Barbarosa.C78_cube3"
   ],
   "note": "Depth of the recursion is the fuel of the model; bounds from above and below. Infinite and NaN estimates with their comparison rules (specialOps); negative infinity and rounding left out there."
  },
  {
   "property": "C79",
   "status": "partial",
   "theorems": [
    "Barbarosa.C79_looks_solved",
    "Barbarosa.C79_turned_moves",
    "Barbarosa.C79_number",
    "Barbarosa.C79_rejects",
    "Barbarosa.C79_cube2_partial",
    "Barbarosa.C79_cube3",
    "Barbarosa.C79_hold",
    "Barbarosa.C79_positions"
   ],
   "note": "Proved for valid 3x3 cubes; refuted for the 2x2 (C79_rejects): exactly which states look solved (C79_looks_solved) and how many (C79_number)."
  },
  {
   "property": "C80",
   "status": "proved",
   "theorems": [
    "Barbarosa.C80_effect",
    "Barbarosa.C80_round_trip",
    "Barbarosa.C80_reversed",
    "Barbarosa.C80_normal_form",
    "Barbarosa.C80_every_alg"
   ],
   "note": "Model in Model/Combined.lean; uniqueness and existence by induction over the algs."
  },
  {
   "property": "C81",
   "status": "partial",
   "theorems": [
    "Barbarosa.C81_edge_position",
    "Barbarosa.C81_edge",
    "Barbarosa.C81_edge_cell",
    "Barbarosa.C81_wing_new",
    "Barbarosa.C81_wing",
    "Barbarosa.C81_wing_cell",
    "Barbarosa.C81_center_edge",
    "Barbarosa.C81_center_edge_cell",
    "Barbarosa.C81_center_wing_new",
    "Barbarosa.C81_pseudo_orientation",
    "Barbarosa.C81_rotated",
    "Barbarosa.C81_slice_coords_partial",
    "Barbarosa.C81_slice_coords_swapped"
   ],
   "note": "slice_coords answers in the other order for the Y axis (C81_slice_coords_swapped); the partial theorem says what it does. Everything else is proved in full."
  },
  {
   "property": "C82",
   "status": "partial",
   "theorems": [
    "Barbarosa.C82_debug_distinguishes",
    "Barbarosa.C82_center_corners",
    "Barbarosa.C82_braces_partial"
   ],
   "note": "The text of a corner is not balanced (last part of C82_braces_partial); everything else holds. For center corners, how nalgebra prints a vector is a parameter (C82_center_corners). Only the plain form of the texts is modelled."
  },
  {
   "property": "C83",
   "status": "partial",
   "theorems": [
    "Barbarosa.C83_integer_coordinates",
    "Barbarosa.C83_rounding_errors",
    "Barbarosa.C83_range",
    "Barbarosa.C83_too_far_partial",
    "Barbarosa.C83_too_far_grows",
    "Barbarosa.C83_closest_partial",
    "Barbarosa.C83_closest_only_three",
    "Barbarosa.C83_rows",
    "Barbarosa.C83_drawing",
    "Barbarosa.C83_corners_partial",
    "Barbarosa.C83_last_row_empty",
    "Barbarosa.C83_small_panics"
   ],
   "note": "False for sizes other than 3 (C83_closest_only_three, C83_too_far_grows, C83_last_row_empty, C83_small_panics are the negations); the _partial theorems are the part that holds. Coordinates are rationals instead of f32, C83_rounding_errors says which error does no harm."
  },
  {
   "property": "C84",
   "status": "proved",
   "theorems": [
    "Barbarosa.C84_one_state_shows_effect",
    "Barbarosa.C84_repeat",
    "Barbarosa.C84_pieces_independent",
    "Barbarosa.C84_pieces_independent_wide"
   ],
   "note": "All six cubes with all their kinds of moves (30 systems in cubeSystems)."
  },
  {
   "property": "C85",
   "status": "partial",
   "theorems": [
    "Barbarosa.C85_long_algs_partial",
    "Barbarosa.C85_long_algs_two",
    "Barbarosa.C85_number_of_effects",
    "Barbarosa.C85_not_eighteen"
   ],
   "note": "Proved with 45 instead of 20 for the 3x3 (with 11 for the 2x2, which is exact by C105); the bound 20 needs a computation that is far out of reach here."
  },
  {
   "property": "C86",
   "status": "proved",
   "theorems": [
    "Barbarosa.C86_first",
    "Barbarosa.C86_same_answer",
    "Barbarosa.C86_cube3",
    "Barbarosa.C86_ordered",
    "Barbarosa.C86_solve",
    "Barbarosa.C86_mus"
   ],
   "note": "Exact arithmetic; C28_floats carries over to floats for heuristics in the range in which they count exactly."
  },
  {
   "property": "C87",
   "status": "proved",
   "theorems": [
    "Barbarosa.C87_same_search",
    "Barbarosa.C87_failing_round",
    "Barbarosa.C87_successful_round",
    "Barbarosa.C87_only_reachable",
    "Barbarosa.C87_panics",
    "Barbarosa.C87_no_panic",
    "Barbarosa.C87_round_calls",
    "Barbarosa.C87_calls",
    "Barbarosa.C87_cube3_calls",
    "Barbarosa.C87_repeats",
    "Barbarosa.C87_mus",
    "Barbarosa.C87_cross_calls"
   ],
   "note": "Model/Trace.lean repeats the search with a record of the calls and with heuristics that may panic; C87_same_search and C87_no_panic tie it to Model/Search.lean."
  },
  {
   "property": "C88",
   "status": "proved",
   "theorems": [
    "Barbarosa.C88_from_indices_iff",
    "Barbarosa.C88_domain",
    "Barbarosa.C88_same_indices",
    "Barbarosa.C88_number",
    "Barbarosa.C88_contiguous",
    "Barbarosa.C88_not_unique_not_contiguous"
   ],
   "note": "Exact domain of from_indices, number of triples, contiguity of each number; the documentation of indices is refuted by C88_not_unique_not_contiguous."
  },
  {
   "property": "C89",
   "status": "proved",
   "theorems": [
    "Barbarosa.C89_factorial",
    "Barbarosa.C89_sizes",
    "Barbarosa.C89_second_half",
    "Barbarosa.C89_doc_example"
   ],
   "note": "The example in the documentation of adjust_second_edges_for_indexing is refuted by C89_doc_example."
  },
  {
   "property": "C90",
   "status": "proved",
   "theorems": [
    "Barbarosa.C90_last_twist",
    "Barbarosa.C90_one_move",
    "Barbarosa.C90_alg",
    "Barbarosa.C90_zero",
    "Barbarosa.C90_turned_over"
   ],
   "note": "For the tables that the code builds (C24)."
  },
  {
   "property": "C91",
   "status": "proved",
   "theorems": [
    "Barbarosa.C91_at_most_eight",
    "Barbarosa.C91_sometimes_eight",
    "Barbarosa.C91_only_cross_edges",
    "Barbarosa.C91_solve_cross",
    "Barbarosa.C91_good_heuristic",
    "Barbarosa.C91_good_heuristic_overestimates",
    "Barbarosa.C91_fast_not_optimal"
   ],
   "note": "Kernel computation over all arrangements of four edges, tied to the model by mem_level and mem_heavy. C31_solve_cross_fast builds on it."
  },
  {
   "property": "C92",
   "status": "proved",
   "theorems": [
    "Barbarosa.C92_value",
    "Barbarosa.C92_filtered",
    "Barbarosa.C92_zero",
    "Barbarosa.C92_zero_number",
    "Barbarosa.C92_one_move",
    "Barbarosa.C92_alg",
    "Barbarosa.C92_range"
   ],
   "note": "All of it; f32 values are modelled by rationals (they are exact multiples of 1/16)."
  },
  {
   "property": "C93",
   "status": "proved",
   "theorems": [
    "Barbarosa.C93_center_edge",
    "Barbarosa.C93_edge_sides",
    "Barbarosa.C93_edge_rotate",
    "Barbarosa.C93_center_wing",
    "Barbarosa.C93_widen",
    "Barbarosa.C93_flipped",
    "Barbarosa.C93_oriented"
   ],
   "note": "All of it."
  },
  {
   "property": "C94",
   "status": "proved",
   "theorems": [
    "Barbarosa.C94_axis_move",
    "Barbarosa.C94_axis_move_default",
    "Barbarosa.C94_rotation",
    "Barbarosa.C94_wide",
    "Barbarosa.C94_wide_any",
    "Barbarosa.C94_slice"
   ],
   "note": "All of it. That wide moves ignore the orientation of the cube is C45."
  },
  {
   "property": "C95",
   "status": "proved",
   "theorems": [
    "Barbarosa.C95_good_cache",
    "Barbarosa.C95_disk_to_solution",
    "Barbarosa.C95_same_length"
   ],
   "note": "All of it. That a file of the right size with wrong bytes is accepted is C52."
  },
  {
   "property": "C96",
   "status": "proved",
   "theorems": [
    "Barbarosa.C96_constant",
    "Barbarosa.C96_sound",
    "Barbarosa.C96_terminates",
    "Barbarosa.C96_terminates_nonneg",
    "Barbarosa.C96_bounded",
    "Barbarosa.C96_optimal",
    "Barbarosa.C96_complete",
    "Barbarosa.C96_fallback",
    "Barbarosa.C96_fallback_manhattan"
   ],
   "note": "All of it. That every cube is within 23 moves is not proved (C64, C85)."
  },
  {
   "property": "C97",
   "status": "proved",
   "theorems": [
    "Barbarosa.C97_layout",
    "Barbarosa.C97_lines",
    "Barbarosa.C97_display",
    "Barbarosa.C97_net",
    "Barbarosa.C97_not_as_documented"
   ],
   "note": "All of it. Escape codes are abstract tokens; C97_not_as_documented refutes the net in the documentation."
  },
  {
   "property": "C98",
   "status": "proved",
   "theorems": [
    "Barbarosa.C98_rounding",
    "Barbarosa.C98_representable",
    "Barbarosa.C98_comparison",
    "Barbarosa.C98_heuristics",
    "Barbarosa.C98_distances",
    "Barbarosa.C98_mus_values",
    "Barbarosa.C98_search",
    "Barbarosa.C98_search_limit",
    "Barbarosa.C98_solve_manhattan",
    "Barbarosa.C98_solve_zero",
    "Barbarosa.C98_solve_cross",
    "Barbarosa.C98_solve_mus",
    "Barbarosa.C98_pictures",
    "Barbarosa.C98_display",
    "Barbarosa.C98_pictures_limit",
    "Barbarosa.C98_not_a_number",
    "Barbarosa.C98_rgb",
    "Barbarosa.Square.C98_nearest",
    "Barbarosa.C98_stats"
   ],
   "note": "All of it. The format is IEEE 754 binary32/binary64 with one NaN; C98_rounding and C98_representable say that the rounding function is rounding to nearest. C98_search_limit, C98_pictures_limit and C98_not_a_number are the limits."
  },
  {
   "property": "C99",
   "status": "proved",
   "theorems": [
    "Barbarosa.C99_numbers",
    "Barbarosa.C99_text",
    "Barbarosa.C99_readable",
    "Barbarosa.C99_hundred",
    "Barbarosa.C99_hundred_early",
    "Barbarosa.C99_corners",
    "Barbarosa.C99_edges",
    "Barbarosa.C99_printed"
   ],
   "note": "All of it; the numbers are IEEE 754 as in C98. How std::fmt prints integers and rounds floats to two decimals is its contract. C99_hundred_early is the finding."
  },
  {
   "property": "C100",
   "status": "proved",
   "theorems": [
    "Barbarosa.C100_same_state",
    "Barbarosa.C100_solutions",
    "Barbarosa.C100_moves_needed",
    "Barbarosa.C100_is_solved",
    "Barbarosa.C100_is_solved_depends_on_rotation",
    "Barbarosa.C100_solver",
    "Barbarosa.C100_manhattan",
    "Barbarosa.C100_cross",
    "Barbarosa.C100_solve_cross",
    "Barbarosa.C100_cross_not_reversed"
   ],
   "note": "All of it. C100_is_solved_depends_on_rotation is the finding, C100_cross_not_reversed the exception for reversed scrambles. Wide moves have no rotation in the crate; for them the face is rotated."
  },
  {
   "property": "C101",
   "status": "proved",
   "theorems": [
    "Barbarosa.C101_at_most",
    "Barbarosa.C101_reached",
    "Barbarosa.C101_all_at_once"
   ],
   "note": "All of it."
  },
  {
   "property": "C102",
   "status": "proved",
   "theorems": [
    "Barbarosa.C102_distances",
    "Barbarosa.C102_solve_cross",
    "Barbarosa.C102_random",
    "Barbarosa.C102_mean"
   ],
   "note": "All of it."
  },
  {
   "property": "C103",
   "status": "proved",
   "theorems": [
    "Barbarosa.C103_only_obvious",
    "Barbarosa.C103_canonical",
    "Barbarosa.C103_shortest",
    "Barbarosa.C103_reduced_iff",
    "Barbarosa.C103_random_shortest",
    "Barbarosa.C103_random_represents",
    "Barbarosa.C103_effect"
   ],
   "note": "All of it."
  },
  {
   "property": "C104",
   "status": "proved",
   "theorems": [
    "Barbarosa.C104_wide",
    "Barbarosa.C104_extended",
    "Barbarosa.C104_plain",
    "Barbarosa.C104_axis",
    "Barbarosa.C104_u32",
    "Barbarosa.C104_u32_not_from_str",
    "Barbarosa.C104_alg",
    "Barbarosa.C104_algs",
    "Barbarosa.C104_deep_message",
    "Barbarosa.C104_number_message",
    "Barbarosa.C104_printed_then_refused"
   ],
   "note": "All of it. What pest itself says about a text outside the grammar is left out."
  },
  {
   "property": "C105",
   "status": "proved",
   "theorems": [
    "Barbarosa.C105_eleven_suffice",
    "Barbarosa.C105_eleven_needed",
    "Barbarosa.C105_shortest_alg",
    "Barbarosa.C105_table"
   ],
   "note": "Exact. The kernel evaluates whole sets of 2x2 arrangements."
  },
  {
   "property": "C106",
   "status": "proved",
   "theorems": [
    "Barbarosa.C106_cube4_at_most",
    "Barbarosa.C106_cube5_at_most",
    "Barbarosa.C106_cube4_reached",
    "Barbarosa.C106_cube5_reached",
    "Barbarosa.C106_cube6_reached",
    "Barbarosa.C106_cube7_reached",
    "Barbarosa.C106_all_at_once"
   ],
   "note": "Exact for each size. That the numbers are reached is shown by existence."
  },
  {
   "property": "C107",
   "status": "proved",
   "theorems": [
    "Barbarosa.C107_states_by_half_turns",
    "Barbarosa.C107_half_turn_states",
    "Barbarosa.C107_fifteen_half_turns",
    "Barbarosa.C107_not_fourteen",
    "Barbarosa.C107_solved_by_half_turns"
   ],
   "note": "Exact. The kernel evaluates the whole sets of states."
  },
  {
   "property": "C108",
   "status": "proved",
   "theorems": [
    "Barbarosa.C108_within",
    "Barbarosa.C108_exactly",
    "Barbarosa.C108_all",
    "Barbarosa.C108_most"
   ],
   "note": "Exact. The kernel evaluates and counts the whole sets of arrangements."
  },
  {
   "property": "C109",
   "status": "proved",
   "theorems": [
    "Barbarosa.C109_debug_distinguishes",
    "Barbarosa.C109_not_connected",
    "Barbarosa.C109_not_connected_big",
    "Barbarosa.C109_duplicate",
    "Barbarosa.C109_place_in_message"
   ],
   "note": "How nalgebra prints vectors is a parameter, needed from the 4x4 on."
  },
  {
   "property": "C110",
   "status": "proved",
   "theorems": [
    "Barbarosa.C110_with_quarter_turn",
    "Barbarosa.C110_seven_moves",
    "Barbarosa.C110_normal_forms_decide",
    "Barbarosa.C110_eight_moves",
    "Barbarosa.C110_first_coincidence",
    "Barbarosa.C110_counts"
   ],
   "note": "States are told apart by twelve of the twenty pieces; the search of short algs runs in the kernel."
  },
  {
   "property": "C111",
   "status": "proved",
   "theorems": [
    "Barbarosa.C111_prefix_free",
    "Barbarosa.C111_hash",
    "Barbarosa.C111_table",
    "Barbarosa.C111_lengths"
   ],
   "note": "How nalgebra feeds a vector is a parameter; the hasher is arbitrary."
  },
  {
   "property": "C112",
   "status": "proved",
   "theorems": [
    "Barbarosa.C112_screen",
    "Barbarosa.C112_tidy",
    "Barbarosa.C112_no_color",
    "Barbarosa.C112_pictures",
    "Barbarosa.C112_bytes",
    "Barbarosa.C112_told_apart",
    "Barbarosa.C112_display",
    "Barbarosa.C112_by_face"
   ],
   "note": "The escape sequences of crossterm are external and taken as documented; the terminal is part of the specification."
  },
  {
   "property": "C113",
   "status": "proved",
   "theorems": [
    "Barbarosa.C113_texts_join",
    "Barbarosa.C113_solve_typed",
    "Barbarosa.C113_playground",
    "Barbarosa.C113_cross"
   ],
   "note": "A composition of C31, C41, C42, C54, C62, C95, C98 and C112."
  },
  {
   "property": "C114",
   "status": "proved",
   "theorems": [
    "Barbarosa.C114_refused",
    "Barbarosa.C114_accepted",
    "Barbarosa.C114_set_depth_sequence",
    "Barbarosa.C114_alg",
    "Barbarosa.C114_same",
    "Barbarosa.C114_message",
    "Barbarosa.C114_parser"
   ],
   "note": "u32 is modelled by Nat; nothing is added to depths here."
  },
  {
   "property": "C115",
   "status": "proved",
   "theorems": [
    "Barbarosa.C115_cube2",
    "Barbarosa.C115_cube3",
    "Barbarosa.C115_superflip",
    "Barbarosa.C115_cube4",
    "Barbarosa.C115_cube6",
    "Barbarosa.C115_cube5",
    "Barbarosa.C115_cube7",
    "Barbarosa.C115_big_superflip"
   ],
   "note": "Spec/Centre.lean has the flip of all edges; the classification is for all algs through tables over all pieces. On the 5x5 and 7x7 the result inherits the defect of C72 (center edges follow the edges)."
  },
  {
   "property": "C116",
   "status": "proved",
   "theorems": [
    "Barbarosa.C116_three_wide",
    "Barbarosa.C116_even",
    "Barbarosa.C116_avoid_wide",
    "Barbarosa.C116_odd",
    "Barbarosa.C116_avoid",
    "Barbarosa.C116_cube3",
    "Barbarosa.C116_three",
    "Barbarosa.C116_cube2",
    "Barbarosa.C116_one_of_each",
    "Barbarosa.C116_eleven",
    "Barbarosa.C116_looks"
   ],
   "note": "Both directions for every set of faces, on the sizes 2 to 7 (wide moves from 4 on); tables over all pieces and the laws of rotations (C56), lifted to all algs by induction."
  },
  {
   "property": "C117",
   "status": "proved",
   "theorems": [
    "Barbarosa.C117_cube4",
    "Barbarosa.C117_cube5",
    "Barbarosa.C117_cube6",
    "Barbarosa.C117_cube7",
    "Barbarosa.C117_plain"
   ],
   "note": "For every set of depths, both directions, four sizes; C117_plain follows with the widening of plain moves (C93)."
  },
  {
   "property": "C118",
   "status": "proved",
   "theorems": [
    "Barbarosa.C118_one_direction",
    "Barbarosa.C118_amounts"
   ],
   "note": "For all twelve ways of turning a face in the crate (six sizes, plain and wide)."
  },
  {
   "property": "C119",
   "status": "proved",
   "theorems": [
    "Barbarosa.C119_edges_of_one_corners_of_other",
    "Barbarosa.C119_counts"
   ],
   "note": "For the 3x3; quarter turns are counted in either direction."
  },
  {
   "property": "C120",
   "status": "proved",
   "theorems": [
    "Barbarosa.C120_three_every_size",
    "Barbarosa.C120_three_times_every_size",
    "Barbarosa.C120_commutator_every_size",
    "Barbarosa.C120_cycles_every_size",
    "Barbarosa.C120_setup",
    "Barbarosa.C120_nothing_in_common",
    "Barbarosa.C120_three_corners",
    "Barbarosa.C120_three_edges",
    "Barbarosa.C120_every_size",
    "Barbarosa.C120_setup_every_size"
   ],
   "note": "For the 3x3. The three-cycle theorems give the number of changed pieces and that three repetitions do nothing."
  },
  {
   "property": "C121",
   "status": "proved",
   "theorems": [
    "Barbarosa.C121_never_one"
   ],
   "note": ""
  }
 ]
}