{"id": "C01", "title": "A move followed by its inverse is the identity", "statement": "For every cube size 2 to 7 and every move type the size accepts (AxisMove, WideAxisMove, QuarterAxisMove, NonRedundantAxisMove), applying a move and then its inverse gives back exactly the state one started from, and inverting twice gives back the move.", "quantifier": "every state of every cube type (including states that are not reachable or not even valid), every move of every accepted move type", "why_tests_cant": "A 3x3 alone has 4.3e19 reachable states and the bigger cubes far more; a test tries a handful.", "anchors": ["barbarosa/src/generic/moves.rs: Move::inverse, Movable::moved", "barbarosa/src/cube_n/moves/mod.rs: AxisMove::inverse", "barbarosa/src/cube_n/moves/wide.rs: WideAxisMove::inverse, DepthPieceSet::apply", "barbarosa/src/cube_n/cube2/mod.rs", "barbarosa/src/cube_n/cube3/mod.rs", "barbarosa/src/cube_n/cube4/mod.rs", "barbarosa/src/cube_n/cube5/mod.rs", "barbarosa/src/cube_n/cube6/mod.rs", "barbarosa/src/cube_n/cube7/mod.rs"]}
{"id": "C02", "title": "An alg followed by its reverse is the identity", "statement": "Applying any sequence of moves and then Alg::reversed of it restores the original state, on every cube type; reversing twice gives the same alg; reversing a concatenation is the concatenation of the reverses in the other order.", "quantifier": "every alg of every length, every starting state, every cube size", "why_tests_cant": "Algs have unbounded length; only an induction covers all of them.", "anchors": ["barbarosa/src/generic/alg.rs: Alg::reversed, Movable<[M]>::apply"]}
{"id": "C03", "title": "Amounts compose like quarter turns", "statement": "Turning a face by amount a and then by amount b has the effect of the amount a + b (nothing when a + b is None); four single turns, two double turns and a single plus an inverse turn are each the identity.", "quantifier": "every face, every pair of amounts, every depth, every state of every cube size", "why_tests_cant": "State space too large to enumerate; the law must hold at every state.", "anchors": ["barbarosa/src/cube_n/moves/amount.rs: Add, Mul<Direction>", "barbarosa/src/cube_n/moves/rotation.rs: rotate_vec2", "barbarosa/src/cube_n/moves/mod.rs: AxisMove"]}
{"id": "C04", "title": "Moves on opposite faces commute", "statement": "Two moves on the same axis can be applied in either order with the same result, for every legal pair of depths.", "quantifier": "every axis, every pair of amounts, every pair of depths allowed by the cube type, every state of cubes 2 to 7", "why_tests_cant": "Redundancy elimination silently relies on it at every state; tests only look at states near solved.", "anchors": ["barbarosa/src/cube_n/moves/non_redundant.rs: absorve, normalized", "barbarosa/src/cube_n/moves/wide.rs: DepthPieceSet::apply", "barbarosa/src/cube_n/pieces/corner.rs", "barbarosa/src/cube_n/pieces/edge.rs", "barbarosa/src/cube_n/pieces/wing.rs", "barbarosa/src/cube_n/pieces/center/corner.rs", "barbarosa/src/cube_n/pieces/center/edge.rs", "barbarosa/src/cube_n/pieces/center/wing.rs"]}
{"id": "C05", "title": "Moves on the 3x3 permute the stickers like the physical puzzle", "statement": "The colour shown on any facelet after a move is the colour that a rigid quarter/half turn of the outer layer brings there: a facelet in the turned layer shows the colour of the facelet that the turn carries onto it and any other facelet is unchanged.", "quantifier": "every state of the 3x3 whose pieces occupy distinct positions, every move, every one of the 54 facelets; by induction every alg", "why_tests_cant": "Orientation bookkeeping (corner axis, edge flips on the Z axis) can be wrong only in particular piece/position/move combinations and compositions of them.", "anchors": ["barbarosa/src/cube_n/pieces/corner.rs: rotate, apply", "barbarosa/src/cube_n/pieces/edge.rs: rotate, apply, orientation_face", "barbarosa/src/cube_n/visualization/mod.rs: Colored", "barbarosa/src/cube_n/visualization/unfolded/mod.rs: From<Cube3>"]}
{"id": "C06", "title": "Wide moves turn exactly the outer layers, rigidly", "statement": "On cubes 4 to 7, a move of face f with depth d carries every piece whose cubie lies in the outermost d+1 layers of f by the rigid rotation of the move and leaves every other piece in place.", "quantifier": "every piece type (corner, edge, wing, centre corner, centre edge, centre wing), every position of the piece, every face, amount and depth", "why_tests_cant": "Needs an independent geometric reading of each abstract position and all combinations with every depth.", "anchors": ["barbarosa/src/cube_n/moves/wide.rs: DepthPieceSet::apply", "barbarosa/src/cube_n/pieces/wing.rs: is_in_wide_move, wing_normal_direction", "barbarosa/src/cube_n/pieces/center/corner.rs", "barbarosa/src/cube_n/pieces/center/edge.rs", "barbarosa/src/cube_n/pieces/center/wing.rs"]}
{"id": "C07", "title": "A plain face move on a big cube turns only the outer layer", "statement": "Applying AxisMove (or WideAxisMove with maximum depth 0) to a 4x4..7x7 has the same effect as the wide move of depth 0 on the same face.", "quantifier": "every state of cubes 4 to 7, every axis move", "why_tests_cant": "The claim relates two trait implementations at every state.", "anchors": ["barbarosa/src/cube_n/moves/wide.rs: impl_movable_wide_move_inductively, Movable<WideAxisMove<0>>"]}
{"id": "C08", "title": "No operation ever puts two pieces in one place", "statement": "If a piece set passes validate, it still passes after any sequence of moves, shuffles with any RNG outcome, swaps, flips and twists.", "quantifier": "every piece set type, every sequence of operations of any length, every RNG outcome", "why_tests_cant": "Histories are unbounded.", "anchors": ["barbarosa/src/generic/piece/set.rs: PieceSet::{validate, shuffle, swap, apply}", "barbarosa/src/cube_n/moves/wide.rs: DepthPieceSet::apply", "barbarosa/src/cube_n/invariants.rs"]}
{"id": "C09", "title": "PieceSet::new accepts exactly duplicate-free arrays", "statement": "PieceSet::new succeeds if and only if no two pieces share a position; when it fails because of a position, the reported position really occurs twice and is the earliest one to repeat.", "quantifier": "every array of pieces of every piece type and every length", "why_tests_cant": "Input space is all arrays (24^12 for edges alone).", "anchors": ["barbarosa/src/generic/piece/set.rs: new, validate, find_duplicates"]}
{"id": "C10", "title": "Looking up by original and by current position are inverse and never panic", "statement": "In a valid piece set piece_originally_at(p) is the piece whose home is p, original_position_of_piece_at(q) is the home of the piece now at q, each undoes the other, and neither panics for any position.", "quantifier": "every valid piece set of corners, edges, wings and centres, every position", "why_tests_cant": "Panic freedom and inversion for all permutations.", "anchors": ["barbarosa/src/generic/piece/set.rs: piece_originally_at, original_position_of_piece_at"]}
{"id": "C11", "title": "swap exchanges exactly two pieces", "statement": "swap(a, b) exchanges the pieces whose homes are a and b and touches no other piece; doing it twice, or with a = b, changes nothing.", "quantifier": "every piece set, every pair of positions", "why_tests_cant": "All sets and pairs.", "anchors": ["barbarosa/src/generic/piece/set.rs: swap"]}
{"id": "C12", "title": "Moves preserve the three solvability invariants", "statement": "Every move on the 3x3 preserves: the parity of the edge permutation equals the parity of the corner permutation; the number of oriented edges is even; the corner orientation indices sum to a multiple of 3.", "quantifier": "every valid 3x3 state, every move, hence every alg of every length", "why_tests_cant": "An invariant over unbounded move histories.", "anchors": ["barbarosa/src/cube_n/invariants.rs: module docs", "barbarosa/src/cube_n/pieces/corner.rs: orientation_index", "barbarosa/src/cube_n/pieces/edge.rs: rotate"]}
{"id": "C13", "title": "Random 3x3 cubes satisfy the solvability invariants", "statement": "Whatever the random generator returns, a sampled Cube3 is a valid arrangement that satisfies all three invariants, and none of the three fix-up steps undoes another.", "quantifier": "every outcome of both shuffles, of every orientation draw", "why_tests_cant": "12!*8!*2^12*3^8 outcomes; a seeded test sees a few.", "anchors": ["barbarosa/src/cube_n/cube3/mod.rs: Distribution<Cube3>", "barbarosa/src/cube_n/invariants.rs: fix_swap_parity, swap_cycles, fix_edge_flip_parity, fix_corner_multiplicity"]}
{"id": "C14", "title": "Random 3x3 cubes can be solved", "statement": "For every random Cube3 there is an alg of at most 45 moves that brings it to SOLVED.", "quantifier": "every RNG outcome", "why_tests_cant": "Existence of a solution for each of 4.3e19 states.", "anchors": ["barbarosa/src/cube_n/cube3/mod.rs: Distribution<Cube3>", "barbarosa/src/cube_n/invariants.rs"]}
{"id": "C15", "title": "Reachable means: valid and the three invariants hold", "statement": "A Cube3 state can be obtained from SOLVED by face turns if and only if it is a valid arrangement whose permutation parities agree, whose edge flips are even and whose corner twists sum to 0 mod 3. In particular one flipped edge, one twisted corner or two swapped pieces can never be solved.", "quantifier": "every Cube3 value", "why_tests_cant": "An if-and-only-if over all states and all algs.", "anchors": ["barbarosa/src/cube_n/invariants.rs: module docs"]}
{"id": "C16", "title": "The 3x3 has exactly the documented number of states", "statement": "The number of Cube3 values reachable from SOLVED is 43,252,003,274,489,856,000.", "quantifier": "the set of all reachable states", "why_tests_cant": "Cannot be enumerated.", "anchors": ["barbarosa/src/cube_n/cube3/mus/mod.rs: module docs"]}
{"id": "C17", "title": "Random 2x2 cubes are solvable and cover the puzzle", "statement": "Every sampled Cube2 can be solved (in at most 11 moves), and every state reachable by turns can be sampled by some RNG outcome.", "quantifier": "every RNG outcome; every reachable 2x2 state", "why_tests_cant": "Coverage of all reachable states by all RNG outcomes.", "anchors": ["barbarosa/src/cube_n/cube2/mod.rs: Distribution<Cube2>"]}
{"id": "C18", "title": "is_solved on the 3x3 and 2x2 means every face shows one colour in place", "statement": "Cube3::is_solved (Cube2::is_solved) is true exactly when every piece is at home with the home orientation, which for valid 3x3 states is exactly when every one of the 54 facelets shows the colour of its face; the per-piece-set is_solved agrees with equality with SOLVED.", "quantifier": "every state", "why_tests_cant": "All states must be distinguished correctly.", "anchors": ["barbarosa/src/generic/mod.rs: Cube::is_solved", "barbarosa/src/generic/piece/set.rs: is_solved", "barbarosa/src/cube_n/visualization/unfolded/mod.rs"]}
{"id": "C19", "title": "is_solved on the big cubes means every face shows one colour", "statement": "On cubes 4 to 7 is_solved is true exactly for states in which every corner, edge and wing is home and every centre piece is on the face of its colour.", "quantifier": "every state reachable from solved on cubes 4, 5, 6 and 7", "why_tests_cant": "Quantifies over all reachable states of huge puzzles; a wrong per-piece test is only visible in states where centres trade faces.", "anchors": ["barbarosa/src/cube_n/cube4/mod.rs: is_solved", "barbarosa/src/cube_n/cube5/mod.rs", "barbarosa/src/cube_n/cube6/mod.rs: is_solved", "barbarosa/src/cube_n/cube7/mod.rs: is_solved", "barbarosa/src/cube_n/pieces/center/corner.rs: is_solved"]}
{"id": "C20", "title": "Cache lookups never read out of bounds", "statement": "For every valid 3x3 (solvable or not) the corner index and both edge indices are smaller than the sizes of the respective tables, so the unchecked table reads are in bounds; for every state in a half-built search the index is in bounds too; none of the intermediate computations overflow or underflow.", "quantifier": "every valid Cube3, every valid set of 8 corners or 6 edges", "why_tests_cant": "Memory safety must hold for all inputs; unchecked indexing makes a single miss undefined behaviour.", "anchors": ["barbarosa/src/cube_n/cube3/mus/index/mod.rs", "barbarosa/src/cube_n/cube3/mus/cache/mod.rs: Cache::get", "barbarosa/src/cube_n/cube3/mus/cache/generation.rs"]}
{"id": "C21", "title": "Indexing of corners and edge halves is a bijection", "statement": "from_index(index(x)) = x for every valid x (for corners: with twist sum 0 mod 3) and index(from_index(i)) = i for every i below TOTAL_SET_SIZE; from_index never panics on such i and always yields a valid arrangement; index 0 is the solved arrangement.", "quantifier": "all 88,179,840 corner states and all 42,577,920 half-edge states, all indices", "why_tests_cant": "Too many for unit tests; a collision would silently corrupt the pruning table.", "anchors": ["barbarosa/src/cube_n/cube3/mus/index/mod.rs: Indexable", "barbarosa/src/cube_n/cube3/mus/deindex/mod.rs: Deindexable", "barbarosa/src/cube_n/cube3/mus/deindex/implementations.rs"]}
{"id": "C22", "title": "A cube can be rebuilt from its indices", "statement": "Cube3::from_indices(cube.indices()) = cube, without panicking, for every valid cube whose corner twists sum to 0 mod 3 (so for every reachable cube); hence two such cubes with equal indices are equal.", "quantifier": "every valid Cube3 with corner twist sum 0", "why_tests_cant": "All states.", "anchors": ["barbarosa/src/cube_n/cube3/mus/index/mod.rs: Cube3::indices", "barbarosa/src/cube_n/cube3/mus/deindex/mod.rs: Cube3::from_indices"]}
{"id": "C23", "title": "Ranking and unranking of arrangements is correct for all sizes", "statement": "For any universe size S and any length N <= S, the disposition index is a bijection between duplicate-free N-sequences over S values and the numbers below S!/(S-N)!, and unranking inverts it; the mixed-radix orientation index is a bijection with the numbers below base^N.", "quantifier": "all S, all N <= S, all sequences, all indices", "why_tests_cant": "Generic const parameters; tests fix two or three of them.", "anchors": ["barbarosa/src/cube_n/cube3/mus/index/mod.rs: disposition_multipliers, disposition_choices, position_disposition_index, orientation_permutation_index", "barbarosa/src/cube_n/cube3/mus/deindex/mod.rs: deindex_choices, choices_to_permutations, deindex_orientations"]}
{"id": "C24", "title": "The built cache holds exact distances", "statement": "When the cache build finishes, every entry is the exact minimum number of moves between the solved arrangement and the arrangement with that index; the build finishes for both tables, no entry is left unset and the depth counter never reaches the sentinel value 255; the greatest entry of the corner table is 11 and none of the edge table exceeds 15.", "quantifier": "every table entry, every state of the two move graphs", "why_tests_cant": "130 million entries; tests are marked #[ignore] because the build takes too long.", "anchors": ["barbarosa/src/cube_n/cube3/mus/cache/generation.rs: cache_neighbours_at_depth, build_partial, PartialEntry"]}
{"id": "C25", "title": "The MUS heuristic never overestimates", "statement": "mus(cube) is at most the number of moves of any alg that solves the cube, it is 0 on the solved cube, and it equals the maximum of the exact solving distances of the corners, of edges 0-5 and of edges 6-11 (the latter looked up through the x2 symmetry).", "quantifier": "every valid Cube3, every alg that solves it", "why_tests_cant": "For all states and all algs.", "anchors": ["barbarosa/src/cube_n/cube3/heuristics/mus.rs", "barbarosa/src/cube_n/cube3/mus/cache/mod.rs: Cache::get", "barbarosa/src/cube_n/cube3/mus/index/mod.rs: adjust_second_edges_for_indexing"]}
{"id": "C26", "title": "IDA* only returns real solutions", "statement": "If search returns (alg, end), then applying alg to the start gives end and end satisfies the target predicate; solve returns only algs that solve the cube. No assumption on the heuristic (any floats, even NaN-like comparisons).", "quantifier": "every puzzle, heuristic, target predicate, start state, depth limit; any successor function that lists true successors", "why_tests_cant": "Higher-order parameters; no finite set of tests covers all heuristics.", "anchors": ["barbarosa/src/generic/search/ida.rs: search, search_impl", "barbarosa/src/generic/search/mod.rs: Solver::solve"]}
{"id": "C27", "title": "IDA* is optimal with an admissible heuristic", "statement": "If the heuristic is non-negative and never exceeds the true remaining distance, any returned alg is a shortest one.", "quantifier": "every puzzle, admissible heuristic, start state", "why_tests_cant": "All algs of smaller length must be excluded.", "anchors": ["barbarosa/src/generic/search/ida.rs"]}
{"id": "C28", "title": "IDA* finds a solution whenever one is within the limit", "statement": "With an admissible integer-valued heuristic, search returns a result whenever some solution has length at most h(start) + max_depth, and returns None when no solution exists; with max_depth negative it returns None.", "quantifier": "every puzzle, heuristic, start, limit", "why_tests_cant": "Completeness is a universally quantified liveness-style claim.", "anchors": ["barbarosa/src/generic/search/ida.rs: search"]}
{"id": "C29", "title": "solve_with_heuristic solves every reachable 3x3 optimally", "statement": "For every Cube3 reachable from solved and any admissible integer-valued heuristic (in particular zero and mus) solve_with_heuristic returns an alg, the alg solves the cube and no shorter alg does; for an unreachable cube it returns None.", "quantifier": "every Cube3", "why_tests_cant": "4.3e19 states.", "anchors": ["barbarosa/src/cube_n/search.rs: solve_with_heuristic", "barbarosa/src/generic/search/mod.rs: Solver::solve"]}
{"id": "C30", "title": "min_moves_to_solve is exact for a single edge", "statement": "min_moves_to_solve(home, edge) is the length of the shortest alg that brings that edge to its home position with the right orientation, and lies between 0 and 3.", "quantifier": "every home position, every edge state, every alg", "why_tests_cant": "The minimum ranges over all algs; the code itself says it was found case by case.", "anchors": ["barbarosa/src/cube_n/pieces/edge.rs: min_moves_to_solve"]}
{"id": "C31", "title": "solve_cross is optimal and always succeeds", "statement": "solve_cross returns, for every reachable cube and every bottom face, an alg after which the four cross edges of that face are solved, with no shorter alg doing so; the returned cube is the result of the alg. solve_cross_fast returns only correct solutions.", "quantifier": "every reachable Cube3, every face", "why_tests_cant": "All states, all algs.", "anchors": ["barbarosa/src/cube_n/cube3/cfop/cross.rs"]}
{"id": "C32", "title": "Cross pieces are counted correctly", "statement": "get_cross_pieces(face) lists exactly the four edge positions touching the face, is_cross_edge recognises exactly those, count_cross_pieces is the number of them solved and is between 0 and 4.", "quantifier": "every face, every Cube3", "why_tests_cant": "All states.", "anchors": ["barbarosa/src/cube_n/cube3/cfop/cross.rs: get_cross_pieces, is_cross_edge, count_cross_pieces"]}
{"id": "C33", "title": "The Manhattan heuristic never overestimates", "statement": "manhattan(cube) is at most the number of moves of any alg that solves the cube.", "quantifier": "every Cube3, every solving alg", "why_tests_cant": "All states and algs.", "anchors": ["barbarosa/src/cube_n/cube3/heuristics/manhattan.rs"]}
{"id": "C34", "title": "normalized keeps the effect of the alg", "statement": "Applying alg.normalized() to any state of any cube gives the same state as applying alg; the result is never longer than the input; the loop always terminates.", "quantifier": "every alg of every length, every state of every cube on which opposite faces commute", "why_tests_cant": "Unbounded inputs; stack-manipulating loop.", "anchors": ["barbarosa/src/cube_n/moves/non_redundant.rs: normalized, absorve"]}
{"id": "C35", "title": "normalized removes the obvious redundancies", "statement": "In alg.normalized() no two moves of the same face are adjacent or separated only by moves of the opposite face; normalizing twice is the same as normalizing once.", "quantifier": "every alg", "why_tests_cant": "Depends on interleavings of cancellations; tests have a few examples.", "anchors": ["barbarosa/src/cube_n/moves/non_redundant.rs: normalized"]}
{"id": "C36", "title": "Random algs have the requested length and no redundancy", "statement": "random_with_rng(n) returns exactly n moves, in which no two consecutive moves turn the same face and no three consecutive moves are on the same axis; random_unnormalized returns exactly n moves.", "quantifier": "every length, every RNG outcome", "why_tests_cant": "All RNG outcomes.", "anchors": ["barbarosa/src/cube_n/moves/non_redundant.rs: random_with_rng", "barbarosa/src/generic/alg.rs: random_unnormalized_with_rng"]}
{"id": "C37", "title": "Move enumerations are complete and duplicate free", "statement": "AxisMove::all lists each of the 18 moves exactly once and fills its whole array (no uninitialised slot is read); NonRedundantAxisMove::of_axis lists the 15 non-trivial combined turns of an axis once each, given_last_axis the 30 of the other two axes, all the 45.", "quantifier": "all moves", "why_tests_cant": "The array is created from uninitialised memory, so the fill must be total.", "anchors": ["barbarosa/src/cube_n/moves/mod.rs: AxisMove::all", "barbarosa/src/cube_n/moves/non_redundant.rs: of_axis, given_last_axis, all"]}
{"id": "C38", "title": "absorve keeps the combined effect", "statement": "absorve(nr, m) leaves a combined move whose effect is nr followed by m (equivalently m followed by nr) unless it answers NotAdded, in which case nr is unchanged and the axes differ; the four answers mean what their docs say.", "quantifier": "every optional combined move, every axis move, every state", "why_tests_cant": "All states and combinations.", "anchors": ["barbarosa/src/cube_n/moves/non_redundant.rs: absorve"]}
{"id": "C39", "title": "connect and try_from_states recover the moves", "statement": "connect(a, b) returns a move taking a to b if there is one and None otherwise; for valid 3x3 states the move is unique. try_from_states succeeds exactly if each consecutive pair is connected and the alg it returns replays the states; if it fails, the error names the first two consecutive states that no move connects; recording the states while applying an alg to a valid 3x3 and calling try_from_states returns that alg.", "quantifier": "every pair of states, every list of states, every alg", "why_tests_cant": "All states and histories.", "anchors": ["barbarosa/src/generic/moves.rs: connect", "barbarosa/src/generic/alg.rs: try_from_states"]}
{"id": "C40", "title": "Quarter-turn conversion keeps the effect", "statement": "Converting an alg to quarter turns does not change its effect on any state and gives an alg whose length is the number of quarter turns (at most double).", "quantifier": "every alg, every state", "why_tests_cant": "Unbounded algs, all states.", "anchors": ["barbarosa/src/cube_n/moves/quarter.rs: From<Alg<AxisMove>>"]}
{"id": "C41", "title": "Parsing a printed alg gives it back", "statement": "parse(display(x)) = Ok(x) for axis moves, faces, amounts and algs of axis moves of any length, with any amount of extra white space between and around moves.", "quantifier": "every move, every alg, every white-space layout", "why_tests_cant": "Unbounded algs.", "anchors": ["barbarosa/src/cube_n/moves/mod.rs: Display", "barbarosa/src/generic/alg.rs: Display, parse", "barbarosa/src/cube_n/parser/mod.rs: AxisMove", "barbarosa/src/grammar/cube_n.pest"]}
{"id": "C42", "title": "The parser accepts exactly the notation", "statement": "A word parses as an axis move if and only if it is one of the 18 spellings; an alg parses if and only if each white-space separated word does, and then has one move per word in order: no partial results.", "quantifier": "every string", "why_tests_cant": "All strings.", "anchors": ["barbarosa/src/cube_n/parser/mod.rs", "barbarosa/src/generic/parse.rs: Parsable::parse", "barbarosa/src/generic/alg.rs: parse"]}
{"id": "C43", "title": "Wide moves print to what they parse from", "statement": "Parsing the printed form of a wide move gives the same wide move.", "quantifier": "every wide move of every depth", "why_tests_cant": "All depths (u32).", "anchors": ["barbarosa/src/cube_n/moves/wide.rs: Display", "barbarosa/src/cube_n/parser/mod.rs: WideAxisMove"]}
{"id": "C44", "title": "A wide move never exceeds its maximum depth", "statement": "Every WideAxisMove<N> obtainable through the API (new, set_depth, set_max_depth, widen, inverse, parse, sampling, Alg::widen) has depth at most N, and the operations fail exactly when the requested depth exceeds the maximum.", "quantifier": "every N, every depth, every sequence of operations", "why_tests_cant": "Type-level invariant over histories.", "anchors": ["barbarosa/src/cube_n/moves/wide.rs: WideAxisMove"]}
{"id": "C45", "title": "Extended wide moves never crash and act as documented", "statement": "Applying a wide ExtendedAxisMove of any depth to an Orientable cube of any size never panics, and with depth at least N-1 it is the same as rotating the whole cube.", "quantifier": "every cube size 2 to 7, every depth, every state", "why_tests_cant": "All depth/size combinations.", "anchors": ["barbarosa/src/cube_n/moves/extended.rs: impl_movable_extended"]}
{"id": "C46", "title": "Slice moves turn the middle, not the sides", "statement": "A slice move M/E/S on an Orientable cube is the whole-cube rotation combined with turning both outer faces back, so that relative to the viewer the outer layers stay where they were.", "quantifier": "every state, every slice, every amount", "why_tests_cant": "All states.", "anchors": ["barbarosa/src/cube_n/moves/extended.rs: Slice", "barbarosa/src/cube_n/parser/mod.rs: parse_slice_move"]}
{"id": "C47", "title": "Orientation tracks where R and U went", "statement": "After any sequence of whole-cube rotations r_face() and u_face() are the images of R and U under the composed rotation; rotate never panics; rotating and rotating back restores the orientation; there are exactly 24 orientations and try_from accepts exactly perpendicular pairs.", "quantifier": "every orientation, every sequence of rotations", "why_tests_cant": "Unbounded sequences.", "anchors": ["barbarosa/src/cube_n/orientable/orientation.rs: rotate, u_face, TryFrom"]}
{"id": "C48", "title": "Orientation::rotations leads from the default orientation to the current one", "statement": "Applying the rotations listed by rotations() to the default orientation gives the current orientation.", "quantifier": "all 24 orientations", "why_tests_cant": "The existing test covers one orientation.", "anchors": ["barbarosa/src/cube_n/orientable/orientation.rs: rotations, connecting_rotation, connecting_rotation_with_face"]}
{"id": "C49", "title": "On a rotated cube a face move turns the face the user sees", "statement": "Applying a face move to an Orientable cube turns the physical face that currently is in that place: rotating the cube and then turning equals turning the face that was brought there and then rotating.", "quantifier": "every orientation, every state, every move", "why_tests_cant": "All states and orientations.", "anchors": ["barbarosa/src/cube_n/orientable/mod.rs: Movable<M>::apply"]}
{"id": "C50", "title": "Extended moves can be undone", "statement": "Whenever an extended move can be applied without panicking, applying its inverse afterwards restores cube and orientation.", "quantifier": "every cube size, state, orientation, extended move", "why_tests_cant": "All states.", "anchors": ["barbarosa/src/cube_n/moves/extended.rs: inverse, apply", "barbarosa/src/cube_n/orientable/mod.rs"]}
{"id": "C51", "title": "Drawing a 3x3 never fails and shows every sticker once", "statement": "Unfolding a valid 3x3 never panics, writes each non-centre facelet exactly once and never touches a centre; different valid cubes give different pictures.", "quantifier": "every valid Cube3", "why_tests_cant": "All states.", "anchors": ["barbarosa/src/cube_n/visualization/unfolded/mod.rs: populate_with, transform_coord, indices", "barbarosa/src/cube_n/visualization/mod.rs: colors"]}
{"id": "C52", "title": "A crash while writing the cache is never mistaken for a good cache", "statement": "Whatever point the process dies at while building or writing a table, the next load either reports the file as missing, panics because of its size, or returns exactly the bytes of the finished table; load_or_build rebuilds exactly when the file is missing and passes other errors on.", "quantifier": "every crash point, every prior file state, every IO error", "why_tests_cant": "All crash points.", "anchors": ["barbarosa/src/cube_n/cube3/mus/cache/disk_storage.rs"]}
{"id": "C53", "title": "The shared cache is initialised once and read consistently", "statement": "Under any interleaving of threads calling get and get_or_init, the cache is built at most once, every get_or_init returns the value for that one cache, get returns None only before initialisation completed, and mus_with_fallback uses the fallback exactly then.", "quantifier": "every schedule of any number of threads", "why_tests_cant": "All interleavings.", "anchors": ["barbarosa/src/cube_n/cube3/mus/cache/mod.rs: get, get_or_init, CACHE_LOCK", "barbarosa/src/cube_n/cube3/heuristics/mus.rs: mus_with_fallback"]}
{"id": "C54", "title": "A bad line in the playground changes nothing", "statement": "In the playground a line that does not parse leaves the cube exactly as it was; a line that parses applies all its moves in order; the loop survives any number of bad lines.", "quantifier": "every sequence of input lines", "why_tests_cant": "Unbounded sessions.", "anchors": ["barbarosa/src/main.rs: playground_3x3"]}
{"id": "C55", "title": "The named algs have their known orders", "statement": "Six SEXY moves, two T perms, three U perms and two J perms restore every state of the 3x3 (valid or not).", "quantifier": "every Cube3 state", "why_tests_cant": "All states.", "anchors": ["barbarosa/src/cube_n/moves/perms.rs"]}
{"id": "C56", "title": "Rotating the whole picture commutes with moving", "statement": "Rotating all pieces of a cube and then applying a rotated move is the same as applying the move and then rotating all pieces; likewise for whole algs.", "quantifier": "every rotation, move, alg, piece state of corners, edges, wings and centres", "why_tests_cant": "All states and algs.", "anchors": ["barbarosa/src/cube_n/moves/rotation.rs: Rotatable", "barbarosa/src/cube_n/pieces/corner.rs", "barbarosa/src/cube_n/pieces/edge.rs", "barbarosa/src/cube_n/pieces/wing.rs", "barbarosa/src/cube_n/pieces/center/corner.rs", "barbarosa/src/cube_n/pieces/center/edge.rs", "barbarosa/src/cube_n/pieces/center/wing.rs"]}
{"id": "C57", "title": "Faces, axes and vectors rotate consistently", "statement": "next_around/prev_around are the geometric quarter turns, inverse to each other and of order four; rotating a face, an axis or a vector agrees with the 3D rotation matrix; cross is the vector cross product and is None exactly for parallel faces.", "quantifier": "all faces, axes, vectors, rotations, sequences of rotations", "why_tests_cant": "Composition over sequences of rotations.", "anchors": ["barbarosa/src/cube_n/space/face.rs", "barbarosa/src/cube_n/space/axis.rs", "barbarosa/src/cube_n/moves/rotation.rs"]}
{"id": "C58", "title": "Random 3x3 cubes are unbiased", "statement": "Every solvable Cube3 state is returned by the random generator for exactly the same number (12) of outcomes of the draws, and no other state is ever returned; so uniform draws give uniform random states.", "quantifier": "every Cube3 value; all outcomes of both shuffles and of all orientation draws", "why_tests_cant": "A statement about the exact number of preimages of each of 4.3e19 states.", "anchors": ["barbarosa/src/cube_n/cube3/mod.rs: Distribution<Cube3>", "barbarosa/src/cube_n/invariants.rs"]}
{"id": "C59", "title": "The wide notation is read exactly", "statement": "A text parses as WideAxisMove<N> if and only if it is a plain move (depth 0) or an optional single digit followed by a capital with w or a small letter and an amount; no digit and digit 0 mean depth 1, otherwise the digit is the depth; depths above N are refused. Algs of wide moves parse exactly when all their words do. The parser never panics.", "quantifier": "every text, every N", "why_tests_cant": "All strings.", "anchors": ["barbarosa/src/cube_n/parser/mod.rs: WideAxisMove", "barbarosa/src/grammar/cube_n.pest: wide_move"]}
{"id": "C60", "title": "The extended notation is read exactly", "statement": "A text parses as an ExtendedAxisMove if and only if it spells a face move, a wide move, a rotation x/y/z or a slice M/E/S/m/e/s with an amount; M and E are rotations against their axis, S along it; small letters mean the wide slice. Any bad word makes the whole alg fail, and the parser never panics.", "quantifier": "every text", "why_tests_cant": "All strings.", "anchors": ["barbarosa/src/cube_n/parser/mod.rs: ExtendedAxisMove, parse_slice_move", "barbarosa/src/grammar/cube_n.pest: extended_move"]}
{"id": "C61", "title": "A solved cube stays solved when it is turned round in the hand", "statement": "If an Orientable cube is solved, it is still reported as solved after any whole-cube rotation; more generally is_solved() of an Orientable cube does not depend on its orientation.", "quantifier": "all rotations, all cubes and orientations", "why_tests_cant": "Tests look at is_solved of plain cubes only; the claim is about every cube in every orientation.", "anchors": ["barbarosa/src/cube_n/orientable/mod.rs:68-73", "barbarosa/src/generic/mod.rs:59-64"]}
{"id": "C62", "title": "Processes that build the cache at the same time never make the heuristic overestimate", "statement": "When several processes build the cache at the same time in the same directory, some of them are killed and others load in the meantime, every cache that any of them obtains gives lower bounds on the number of moves: each byte is either the exact distance or zero. It need not be exact: two builders and a kill can leave a file of the right size that is partly zero, which everyone accepts from then on.", "quantifier": "any number of processes, all interleavings of their reads and (piecewise) writes, all kills, all IO errors", "why_tests_cant": "Interleavings of processes and kill points are unbounded.", "anchors": ["barbarosa/src/cube_n/cube3/mus/cache/disk_storage.rs", "barbarosa/src/cube_n/cube3/mus/cache/mod.rs"]}
{"id": "C63", "title": "The named algs do what their documentation says", "statement": "On every valid 3x3 the T perm exchanges RUF with RUB and RU with LU, the J perm exchanges RU with UF and RUF with RUB, and the U perm cycles the three pieces named in its documentation; no other sticker moves. The texts parse, so using the constants never panics.", "quantifier": "all valid 3x3 states, all 54 stickers", "why_tests_cant": "A test applies the alg to the solved cube and compares one picture; the documentation is about every cube.", "anchors": ["barbarosa/src/cube_n/moves/perms.rs:9-27"]}
{"id": "C64", "title": "Solving with the Manhattan heuristic ends and is nearly optimal", "statement": "solve_with_heuristic(manhattan) ends on every cube, returns None for unreachable cubes and a solution for every reachable cube. Although the heuristic overestimates (C33), the solution has at most two moves more than the shortest one, and at most one and a half times as many.", "quantifier": "all cubes, all competing solutions", "why_tests_cant": "Tests cannot compare with all other solutions nor run on all cubes; the heuristic is not admissible so the usual argument does not apply.", "anchors": ["barbarosa/src/cube_n/cube3/heuristics/manhattan.rs:39-44", "barbarosa/src/generic/search/ida.rs", "barbarosa/src/cube_n/search.rs"]}
{"id": "C65", "title": "Big cubes can be solved by reduction to a 3x3", "statement": "Once the wings of a big cube are paired and its centers are on their faces, turns of the outermost layer keep it so and act on it exactly as on the 3x3 it looks like. In particular what the 3x3 solver returns solves the reduced cube, and is_solved then says so.", "quantifier": "all reduced states of the 4x4 to 7x7, all algs of outer turns, all heuristics", "why_tests_cant": "The tests of the big cubes apply a few moves to the solved state; the claim is about all reduced states and all algs.", "anchors": ["barbarosa/src/cube_n/moves/wide.rs:186-234", "barbarosa/src/cube_n/pieces/wing.rs:151-174", "barbarosa/src/cube_n/pieces/center/corner.rs:69-89", "barbarosa/src/cube_n/pieces/center/edge.rs:125-142", "barbarosa/src/cube_n/pieces/center/wing.rs:144-174"]}
{"id": "C66", "title": "Every big cube contains a small cube that obeys its own laws", "statement": "Wide moves of every depth (and plain moves) move the corners of a 4x4 or 6x6 exactly like a 2x2, the corners and edges of a 5x5 or 7x7 exactly like a 3x3. So the arrangements of these pieces that occur are exactly those that the invariants of the small cube allow, and no legal sequence twists a single corner of any cube.", "quantifier": "all states, all algs of wide moves of mixed depths, all small cube states", "why_tests_cant": "Impossibility of a state is a statement about all move sequences.", "anchors": ["barbarosa/src/cube_n/cube4/mod.rs:41-47", "barbarosa/src/cube_n/cube5/mod.rs:39-46", "barbarosa/src/cube_n/cube6/mod.rs:56-65", "barbarosa/src/cube_n/cube7/mod.rs:67-79"]}
{"id": "C67", "title": "Orientation means what the documentation says", "statement": "The orientation axis of a corner is the axis of its U-D coloured sticker; twist turns the corner by a third of a turn counter-clockwise seen from outside; orientation_index is the number of such twists from the oriented corner (the documentation only says 'i think'). An edge is oriented iff its orientation sticker is on the orientation face of the place where it is; exactly the quarter turns of F and B change edge orientations, of exactly the four edges of the face.", "quantifier": "all corners, edges and homes, all moves, all valid cubes, all algs", "why_tests_cant": "No test relates orientation to stickers; the statements about algs are about all sequences.", "anchors": ["barbarosa/src/cube_n/pieces/edge.rs:30-48", "barbarosa/src/cube_n/pieces/edge.rs:205-221", "barbarosa/src/cube_n/pieces/corner.rs:26-29", "barbarosa/src/cube_n/pieces/corner.rs:118-157"]}
{"id": "C68", "title": "The corner table is a table of optimal 2x2 solutions", "statement": "Reachable 2x2 states and entries of the corner table correspond one to one (88179840 of them), and the entry of a state is the least number of turns that solve that 2x2.", "quantifier": "all reachable 2x2 states, all indices", "why_tests_cant": "88 million states; optimality is a statement about all shorter sequences.", "anchors": ["barbarosa/src/cube_n/cube3/mus/cache/generation.rs", "barbarosa/src/cube_n/cube3/mus/deindex/implementations.rs", "barbarosa/src/cube_n/cube2/mod.rs:12-37"]}
{"id": "C69", "title": "One move does to the pieces what the invariants documentation says", "statement": "A move moves exactly four edges and four corners, each by an odd permutation (quarter turn) or an even one (half turn), flips 0 or 4 edges (C67), and changes the sum of the corner orientation indices by a multiple of three between -6 and 6. (The documentation says 0 or 6, and defines the orientation index in the opposite direction to the code; both refuted.)", "quantifier": "all valid cubes, all moves", "why_tests_cant": "The derivation of the invariants in the module documentation rests on these facts for all states; no test states them.", "anchors": ["barbarosa/src/cube_n/invariants.rs:7-20", "barbarosa/src/cube_n/pieces/corner.rs:118-130"]}
{"id": "C70", "title": "Every visible cubie of a cube is represented by exactly one piece", "statement": "On a valid NxN cube the pieces occupy pairwise different places, and together exactly the visible places (for odd N all but the fixed middles of the faces). (False for the 5x5, which has no wings: 24 places are missing, and there are turns after which the crate calls a 5x5 solved although a real one is not.)", "quantifier": "all valid cubes of sizes 2 to 7, all places in space", "why_tests_cant": "Tests apply moves to the pieces that exist; a missing kind of piece never makes such a test fail, and the claim is about all valid states.", "anchors": ["barbarosa/src/cube_n/cube5/mod.rs:19-24", "barbarosa/src/cube_n/cube4/mod.rs", "barbarosa/src/cube_n/cube6/mod.rs", "barbarosa/src/cube_n/cube7/mod.rs"]}
{"id": "C71", "title": "Exactly the lawful states of the 4x4 and 6x6 can be reached", "statement": "A 4x4 (6x6) state can be reached from the solved cube by turns of one or more layers iff corners obey the law of the 2x2, the center orbits have the parities demanded by the corners (and wings), and pieces stay in their orbits; the same states can be solved. Up to the arrangement of centers within a face every valid 4x4 or 6x6 with lawful corners can be solved. There are 88179840*24!*(24!/2) resp. 88179840*(24!)^2*(24!/2)^4 states.", "quantifier": "all states of the 4x4 and the 6x6", "why_tests_cant": "About 10^53 and 10^116 states; unreachability is a statement about all move sequences.", "anchors": ["barbarosa/src/cube_n/cube4/mod.rs:17-48", "barbarosa/src/cube_n/cube6/mod.rs:19-71", "barbarosa/src/cube_n/moves/wide.rs"]}
{"id": "C72", "title": "Exactly the lawful states of the 5x5 and 7x7 can be reached", "statement": "As C71, with the corners and edges forming a lawful 3x3 and the center edges anywhere as far as their parity allows. (False: on this 5x5 and 7x7 center edges never leave the sticker of the edge they started beside, so all lawful arrangements that separate them are unreachable. Proved: which states can be reached instead, and how many.)", "quantifier": "all states of the 5x5 and the 7x7, all move sequences", "why_tests_cant": "Whether an arrangement is unreachable is a statement about all move sequences.", "anchors": ["barbarosa/src/cube_n/cube5/mod.rs:19-52", "barbarosa/src/cube_n/cube7/mod.rs:19-85", "barbarosa/src/cube_n/pieces/center/edge.rs:136"]}
{"id": "C73", "title": "Solutions make no detours", "statement": "Following the alg returned by search never comes back to a state that was visited before and meets a target only at the very end; searching from a target can only return the empty alg. In particular solve_with_heuristic never returns an alg with a move directly followed by its inverse, or with any block of moves that does nothing. Nothing is assumed about the heuristic.", "quantifier": "every puzzle, heuristic (any arithmetic), target, depth limit, start state", "why_tests_cant": "A heuristic that is not admissible can make the search wander; no finite set of heuristics and cubes shows that it never walks in a circle.", "anchors": ["barbarosa/src/generic/search/ida.rs:42-119", "barbarosa/src/generic/search/mod.rs:25-33", "barbarosa/src/cube_n/search.rs:15-19"]}
{"id": "C74", "title": "How many algs Alg::random can return", "statement": "Alg::random can return 1 alg of length 0, 18 of length 1, 243 of length 2, and 12 times the number of the length before plus 18 times the number of the length two before for every other length. For every length this is also the number of algs that normalized leaves unchanged.", "quantifier": "all lengths", "why_tests_cant": "The number of algs grows exponentially; sampling cannot count them.", "anchors": ["barbarosa/src/cube_n/moves/non_redundant.rs"]}
{"id": "C75", "title": "How many moves are needed at least", "statement": "More than half of the reachable states of the 3x3 cannot be solved in fewer than 18 moves, so random algs with at most 17 moves give fewer than half of the states, and search without a heuristic and with a max_depth below 18 returns None for more than half of the reachable cubes. More than nine tenths of the 2x2 states need 7 moves, more than four fifths of the 4x4 states 36, of the 5x5 nine tenths 28, of the 6x6 two thirds 87, of the 7x7 nine tenths 93.", "quantifier": "all algs, all reachable states", "why_tests_cant": "Lower bounds quantify over all algs; 4.3e19 states and more.", "anchors": ["barbarosa/src/cube_n/moves/non_redundant.rs", "barbarosa/src/generic/search/ida.rs:98-119", "barbarosa/src/cube_n/cube3/mod.rs", "barbarosa/src/cube_n/cube4/mod.rs", "barbarosa/src/cube_n/cube6/mod.rs"]}
{"id": "C76", "title": "The progress messages of the table builder tell the truth", "statement": "While a table is built, the message for depth d gives the number of arrangements that take fewer than d moves. The first says 1, the amounts strictly increase (no pass is wasted), the last is the size of the table, and there are exactly 12 messages for the corners and at least 8 and at most 16 for the edges. Printing does not change the table. Computing the statistics does not panic unless more than three years have passed, and the announced remaining time is the time taken so far scaled by states left to states done.", "quantifier": "both tables, every round; every cache and every elapsed time", "why_tests_cant": "A build takes minutes to hours and the counts are breadth first counts over 88 and 42 million states; the panic depends on the clock.", "anchors": ["barbarosa/src/cube_n/cube3/mus/cache/generation.rs:46-74", "barbarosa/src/cube_n/cube3/mus/cache/generation.rs:99-151"]}
{"id": "C77", "title": "How likely each random alg is", "statement": "With a truly random generator Alg::random(n), n >= 1, returns each alg it can return with probability w / (45 * 30^(r-1)), where r is the number of runs of moves on one axis and w is 4 if the last move turns a positive face and 1 otherwise. These probabilities add up to 1. So the algs of one length are not equally likely: for every n some alg is four times as likely as another, and replacing a change of axis by a pair of opposite faces makes an alg thirty times as likely.", "quantifier": "all lengths, all algs", "why_tests_cant": "There are more than 10^18 algs of ordinary scramble length, so frequencies cannot be observed; the bias towards R, U and F comes only from cutting a pair at the end.", "anchors": ["barbarosa/src/cube_n/moves/non_redundant.rs:256-281", "barbarosa/src/cube_n/moves/non_redundant.rs"]}
{"id": "C78", "title": "How deep the search recurses", "statement": "With a heuristic that is never negative at most floor(h(start)) + max_depth + 2 calls of search_impl are open at the same time; with an admissible heuristic and a solution of n moves at most n + 2, and at least as many as the returned alg is long plus one. So the recursion cannot exhaust the stack. Infinite estimates do no harm elsewhere, but if the estimate of the start itself is infinite or NaN and there is no solution, the search ignores max_depth and goes as deep as the longest walk without repetitions.", "quantifier": "all puzzles, heuristics, targets, limits and starts", "why_tests_cant": "Depth depends on all paths of the search tree; the unbounded case does not end.", "anchors": ["barbarosa/src/generic/search/ida.rs:42-86", "barbarosa/src/generic/search/ida.rs:98-119", "barbarosa/src/cube_n/search.rs:15-19"]}
{"id": "C79", "title": "is_solved holds exactly for cubes that look solved", "statement": "A cube is reported as solved exactly if each of its faces shows only one colour. True for valid 3x3 cubes. False for the 2x2, which has no centres: exactly 24 of its states look solved (the solved cube turned round in the hand, reachable by turning opposite faces together), only one is reported as solved. Not counting how it is held the 2x2 has 3674160 positions, the code distinguishes 88179840.", "quantifier": "all states of the 2x2, all valid states of the 3x3", "why_tests_cant": "That no other state looks solved concerns all 24^8 arrays of corners.", "anchors": ["barbarosa/src/cube_n/cube2/mod.rs:13-36", "barbarosa/src/generic/mod.rs:59-64", "barbarosa/src/cube_n/visualization/mod.rs:84-105"]}
{"id": "C80", "title": "Combined moves and face moves can be converted into each other", "statement": "Converting a combined move, or an alg of combined moves, into face moves does not change what it does on any state of any cube; wrapping the moves of an alg and converting back gives the alg; the converted reverse undoes the converted alg. Algs of combined moves whose neighbours are of different axes correspond one to one to the algs in which neighbouring moves of one axis are a positive face and then the opposite one. Every alg has the effect of such an alg of combined moves that is not longer, neither in combined nor in face moves.", "quantifier": "all algs, all states of all six cubes", "why_tests_cant": "Lists of any length, and uniqueness among all of them.", "anchors": ["barbarosa/src/cube_n/moves/non_redundant.rs:364-396", "barbarosa/src/cube_n/moves/non_redundant.rs:72-87"]}
{"id": "C81", "title": "A piece made from faces is the piece on these faces", "statement": "Edge::try_from, Edge::position_from_faces, Wing::try_from_faces and CenterEdge::try_from_faces fail exactly for faces of one axis, and otherwise give the only piece that reports these faces (for a wing also this direction); Wing::new and CenterWing::new likewise. On a cube of any size it is the cubie there. Turning the faces first gives the turned piece. slice_coords gives the slice position of a place: false for places whose normal axis is Y, where the two coordinates are in the other order.", "quantifier": "all faces, directions, rotations, cube sizes and layers", "why_tests_cant": "Cube sizes and layers are unbounded; uniqueness ranges over all pieces.", "anchors": ["barbarosa/src/cube_n/pieces/edge.rs:187-203", "barbarosa/src/cube_n/pieces/edge.rs:255-267", "barbarosa/src/cube_n/pieces/wing.rs:126-148", "barbarosa/src/cube_n/pieces/center/edge.rs:93-101", "barbarosa/src/cube_n/pieces/center/wing.rs:70-90", "barbarosa/src/generic/utils.rs:28-36"]}
{"id": "C82", "title": "Debug texts tell pieces apart", "statement": "Pieces (faces, colours) with the same debug text are equal, so a failed lookup or an error that prints pieces says exactly which ones. The texts have balanced brackets: false for corners, whose text opens a brace and closes a parenthesis.", "quantifier": "all pairs of pieces of each kind; for center corners, every way of printing vectors that prints different vectors differently", "why_tests_cant": "Distinctness is about all pairs.", "anchors": ["barbarosa/src/cube_n/pieces/corner.rs:160-170", "barbarosa/src/cube_n/pieces/edge.rs:246-253", "barbarosa/src/cube_n/pieces/wing.rs:176-186", "barbarosa/src/cube_n/pieces/center/corner.rs:19-23", "barbarosa/src/cube_n/pieces/center/wing.rs:133-142", "barbarosa/src/cube_n/space/face.rs:26-31", "barbarosa/src/cube_n/visualization/mod.rs:69-82"]}
{"id": "C83", "title": "Square::at finds the square closest to a point, and pictures of any size show the pieces where they belong", "statement": "For integer coordinates (as pieces have) the square is the same on pictures of every size whether the arithmetic is exact or slightly off. On a 3-picture the answer is the closest square, and None exactly for points more than half a square outside. The documentation promises the same for every size, and that 'too far' gets smaller with the size: both are false for every other size, the scaling is right for 3 only. Drawing a cube on an N-picture with N of at least 3 never panics and gives the 3-picture with its rows at 0, about N/3 and about 2N/3; corners are in the corner squares for N from 2 to 4; for N of at least 5 nothing is drawn in the last row and column; for N of at most 1 it panics.", "quantifier": "all picture sizes, all (rational) coordinates, all states", "why_tests_cant": "Sizes and coordinates are unbounded; the repository only draws 3-pictures.", "anchors": ["barbarosa/src/cube_n/visualization/unfolded/mod.rs:43-106", "barbarosa/src/cube_n/visualization/unfolded/mod.rs:166-193"]}
{"id": "C84", "title": "One state shows what an alg does", "statement": "If two algs lead from one valid state (say the solved one) to the same state, they have the same effect on every state, reachable or not. Every alg repeated often enough does nothing, and how often does not depend on the state. Where a piece goes does not depend on the other pieces.", "quantifier": "all algs, all states, every cube with every kind of moves it accepts", "why_tests_cant": "Comparing effects needs all states; a test compares algs on the solved state and relies on exactly this.", "anchors": ["barbarosa/src/generic/alg.rs:146-158", "barbarosa/src/generic/piece/set.rs:177-187", "barbarosa/src/cube_n/moves/wide.rs:220-234"]}
{"id": "C85", "title": "Long algs are redundant", "statement": "Every alg has the same effect on every state as one of at most 20 moves, so longer algs are redundant, as the documentation says. (Proved with 45 instead of 20 for the 3x3, and for the 2x2 even with 11.) There are exactly 43252003274489856000 different effects; more than half of them need at least 18 moves.", "quantifier": "all algs, all states of the 3x3 and 2x2", "why_tests_cant": "Algs are unbounded and the effects too many to enumerate.", "anchors": ["barbarosa/src/cube_n/moves/non_redundant.rs:28-31"]}
{"id": "C86", "title": "Which of several shortest solutions is returned", "statement": "With an admissible heuristic the search returns, among all shortest ways to a target, the one that comes first when algs are sorted like words, with the moves in the order in which the successors are listed. So the answer does not depend on the heuristic: any two admissible ones lead to the same alg, the MUS tables lead to the alg that no heuristic at all would find. On the 3x3 the alg never turns one face twice in a row, and opposite faces only in the order right-left, up-down, front-back.", "quantifier": "all puzzles, start states, targets, admissible heuristics; all states of the 3x3", "why_tests_cant": "Being first is a statement about all other shortest solutions, and independence one about all heuristics.", "anchors": ["barbarosa/src/generic/search/ida.rs:42-119", "barbarosa/src/cube_n/search.rs:15-19", "barbarosa/src/generic/search/mod.rs:25-33"]}
{"id": "C87", "title": "On which states the heuristic is called", "statement": "A round calls the heuristic once for each walk that has no state twice and goes on only from states within the bound that are no targets, in the order of a dictionary, up to the solution if there is one; the same state is looked at several times if several walks lead to it. Only states reachable from the start are looked at, so a heuristic that panics elsewhere does not matter: a search panics exactly if the heuristic panics on one of these states. Solving with the MUS tables never reads outside of a table on valid cubes. The number of calls is at most 1 + (n+1)(1 + 18(1 + 17 + ... + 17^n)) on a 3x3 that is n moves away from the target. solve_cross makes never more than 1200702249532 calls.", "quantifier": "all puzzles, heuristics, arithmetics (also NaN) and bounds; all states of the 3x3", "why_tests_cant": "The walks are too many to enumerate, and panics depend on states that a test would have to hit.", "anchors": ["barbarosa/src/generic/search/ida.rs:42-119", "barbarosa/src/cube_n/search.rs:15-19", "barbarosa/src/cube_n/cube3/mus/cache/mod.rs:37-49"]}
{"id": "C88", "title": "Which numbers belong to a cube", "statement": "from_indices returns a cube for three numbers exactly if they are the indices of a valid cube whose twists add up to a multiple of three (and then returns that cube), otherwise it panics: when a number is not below the size of its table, or when the two halves put edges in one place. There are 173008013097959424000 such triples, four times as many as reachable states. Each of the three numbers alone is contiguous: every number below its table size belongs to a reachable cube. Two valid cubes have equal indices exactly if they differ at most in the twist of corner 7. (So the documentation of indices, unique and contiguous, holds for reachable cubes and for each number alone only.)", "quantifier": "all triples of numbers; all valid 3x3 cubes", "why_tests_cant": "There are 10^23 triples below the table sizes; a test samples round trips that start from cubes.", "anchors": ["barbarosa/src/cube_n/cube3/mus/index/mod.rs:148-179", "barbarosa/src/cube_n/cube3/mus/deindex/mod.rs:90-108"]}
{"id": "C89", "title": "The constants of the numbering and the second half of the edges", "statement": "factorial(n) is n! whenever that fits into 64 bits and 0 exactly if it does not (n > 20). The table sizes computed from it are the true numbers of arrangements of eight corners and of six edges. SOLVED[n] and SOLVED[n + 6] differ by an x2 rotation, and the second edge number is 0 exactly if edges 6 to 11 are at home. (The example in the documentation of the helper that prepares the second half is wrong: edge 6 is at DB, not BR, and U2 B does not bring it to UF.)", "quantifier": "all n; all valid 3x3 cubes", "why_tests_cant": "The sizes count tens of millions of arrangements, and the meaning of number 0 is a claim about all cubes.", "anchors": ["barbarosa/src/cube_n/cube3/mus/index/mod.rs:15-24", "barbarosa/src/cube_n/cube3/mus/index/mod.rs:181-200", "barbarosa/src/cube_n/pieces/edge.rs:84-99", "barbarosa/src/cube_n/cube3/mus/index/implementations.rs:55-87"]}
{"id": "C90", "title": "The MUS heuristic changes by at most one per move", "statement": "One move changes mus by at most one, so mus of two cubes differs by at most the number of moves between them, on all valid cubes, solvable or not. mus is 0 only on the solved cube (and on the unsolvable cubes that differ from it in the twist of corner 7 only). It gives the same value for a scramble and for the scramble done with the cube turned over (x2).", "quantifier": "all valid 3x3 cubes, all algs", "why_tests_cant": "Needs all pairs of neighbouring states of 43 quintillion, and the tables take minutes to build.", "anchors": ["barbarosa/src/cube_n/cube3/heuristics/mus.rs:12-18", "barbarosa/src/cube_n/cube3/mus/cache/mod.rs:37-49", "barbarosa/src/cube_n/cube3/mus/index/mod.rs:181-200"]}
{"id": "C91", "title": "How many moves a cross takes", "statement": "Every cross of every valid 3x3 can be solved in at most eight moves, so solve_cross never returns more than eight; for every face there are eight moves after which no shorter cross exists, so eight is exact. How many moves are needed depends on the four edges of the cross only. good_cross_heuristic exceeds the number of moves needed by at most one (and, as documented, sometimes does: by one after a turn of the face), so solve_cross_fast returns at most one move more than necessary and never more than nine; it is, as documented, not always optimal: after U2 B2 it returns U2 D2 F2 although B2 U2 is shorter.", "quantifier": "all valid 3x3 cubes, all six faces, all algs", "why_tests_cant": "A test solves a sample of scrambles; the bound is a statement about all 190080 arrangements of the cross edges and all algs, and the suite has no second solver to compare with.", "anchors": ["barbarosa/src/cube_n/cube3/cfop/cross.rs:53-105", "barbarosa/src/cube_n/pieces/edge.rs: min_moves_to_solve"]}
{"id": "C92", "title": "The values of the Manhattan heuristic", "statement": "manhattan is one sixteenth of the sum over all pieces of the taxicab distance between where the piece is and where it belongs; manhattan_filtered is the same sum over the pieces that pass the filter, so a filter and its opposite add up to the whole. The values are multiples of 1/8 from 0 to 6, and 0 and 6 both occur on cubes that can be reached. The value is 0 exactly if every piece is in its place, however it is turned: 4478976 reachable cubes have the value 0. One move changes the value by at most 3/2, a quarter turn by at most 1, so an alg changes it by at most 3/2 times its length.", "quantifier": "all 3x3 cubes, all filters, all valid cubes for the change per move, all algs", "why_tests_cant": "No test of the suite looks at the values of the heuristic; the bounds and the zeros are statements about all 4.3e19 states.", "anchors": ["barbarosa/src/cube_n/cube3/heuristics/manhattan.rs:20-55"]}
{"id": "C93", "title": "No assertion about pieces ever fails", "statement": "The assertions, unwraps and unreachable arms in the piece code never fire, whatever the piece: side_face and normal_axis of a center edge always answer (with an axis other than the main one, resp. the third axis), rotating an edge or a center edge always succeeds and rotates its faces, direction_on_axis and contains answer for every edge and axis (and say which faces the edge lies on), a center wing can always say whether a move of any width turns it (it does exactly if its cubie lies in the layers turned, on cubes of any size), and widening a plain move never fails. Edge::flipped turns an edge over in its place, undoes itself and commutes with moves; Edge::oriented makes the solved edge.", "quantifier": "all pieces, all rotations, all moves, all depths and sizes", "why_tests_cant": "Depths and sizes are unbounded; the tests rotate a few pieces.", "anchors": ["barbarosa/src/cube_n/pieces/center/edge.rs:65-122", "barbarosa/src/cube_n/pieces/center/wing.rs:144-174", "barbarosa/src/cube_n/pieces/edge.rs:101-243", "barbarosa/src/cube_n/space/face.rs:170-179", "barbarosa/src/cube_n/moves/wide.rs:135-141"]}
{"id": "C94", "title": "Moves converted to extended moves keep their meaning", "statement": "ExtendedAxisMove::from applied to a face move, a wide move, a rotation or a slice gives a move with the same effect on every orientable cube: a face move acts as before (on a cube that has not been turned round it turns that face), a rotation turns the cube round as the rotation of space does and leaves the pieces alone, a wide move that fits the cube never panics and turns the same layers, and a slice turns both sides against the rotation and turns the cube round. Converting commutes with inverting, and different moves stay different.", "quantifier": "all orientable cubes from 2x2 to 7x7 in all orientations, all moves of all depths", "why_tests_cant": "No test of the suite uses the conversions on cubes that have been turned round; there are 24 orientations and arbitrarily many states.", "anchors": ["barbarosa/src/cube_n/moves/extended.rs:60-139"]}
{"id": "C95", "title": "From the disk to the solution", "statement": "Whatever cache Cache::init or Cache::load gives to a process - after any history of processes that read, built and wrote the files at the same time, failed or were killed, starting from files whose bytes are right or zero - solving with the MUS heuristic on it is right: on every valid cube solve_with_heuristic(mus) ends and does not panic, returns a shortest solution if the cube can be reached and None otherwise, also in f32 arithmetic. So any two processes find solutions of the same length.", "quantifier": "all histories of any number of processes, all valid cubes", "why_tests_cant": "Needs all interleavings of file operations and all 43 quintillion cubes; a damaged table that is never compared with anything shows up in no test.", "anchors": ["barbarosa/src/cube_n/cube3/mus/cache/disk_storage.rs:13-106", "barbarosa/src/cube_n/cube3/mus/cache/mod.rs:24-71", "barbarosa/src/cube_n/cube3/heuristics/mus.rs:16-18", "barbarosa/src/cube_n/search.rs:15-19"]}
{"id": "C96", "title": "Searching with a heuristic that changes its answers", "statement": "The search does not rely on the heuristic giving the same answer twice. Whatever it answers at whatever call, a returned alg leads to a target and the search ends (if no call panics). If no answer is ever negative or an overestimate the returned alg is a shortest one, and with integer answers a solution within reach of max_depth is always found. In particular solving with mus_with_fallback while another thread initialises the cache, at any moment, returns a shortest solution of every reachable cube if the fallback is a natural number that is never an overestimate; with the Manhattan heuristic as fallback at most two moves more, and every cube within 23 moves is solved.", "quantifier": "all puzzles, all sequences of answers, all moments at which the cache is initialised", "why_tests_cant": "The moment of the switch is a race between threads; tests see a few schedules.", "anchors": ["barbarosa/src/cube_n/cube3/heuristics/mus.rs:4-10", "barbarosa/src/generic/search/ida.rs:42-119", "barbarosa/src/cube_n/cube3/mus/cache/mod.rs:24-66"]}
{"id": "C97", "title": "The printed net is the net of a cube", "statement": "Printing a picture of any size N writes 4(N+1) lines in which the six squares stand upright in the net U over L F R over D over B, with one empty line or column between neighbouring squares, and no other coloured cell. For a valid 3x3 every facelet's colour is printed where the paper net of a cube has that facelet (B hinged at D, so upside down, as documented): no two facelets share a cell, neighbouring cells of a square are neighbouring facelets, and cells that face each other across a fold belong to the same cubelet. (The net drawn in the documentation has R and L exchanged: no picture of a cube is printed like that.)", "quantifier": "all pictures of all sizes, all valid cubes, all lines and columns", "why_tests_cant": "No test reads the printed text; a test would compare single pictures only.", "anchors": ["barbarosa/src/cube_n/visualization/unfolded/mod.rs:108-145", "barbarosa/src/cube_n/visualization/unfolded/mod.rs:196-243", "barbarosa/src/cube_n/visualization/mod.rs:160-165"]}
{"id": "C98", "title": "The machine's floating point arithmetic does not change the results", "statement": "Computed in IEEE 754 single precision (rounding after every operation, signed zeros, infinities, NaN) the heuristics are exactly the rational numbers they stand for, on every cube; solving with the zero, Manhattan and MUS heuristics and both cross solvers return what they return in exact arithmetic; the picture of every cube is the same for every size up to 6291455 (and the colours printed are the same), and a general point lands in the closest cell up to an error of N/2^21 cells. The statistics in double precision are right up to a relative error of 2^-50, and the share is 1 only when the table is finished (for the rounded text see C99). Limits: with heuristic values from 2^25 on the search no longer finds shortest algs; pictures from size 6291458 on get cells wrong; a NaN or infinitely far point is not rejected by Square::at but put in the first cell.", "quantifier": "all cubes, faces, start values of sums, caches, elapsed times; all picture sizes in the stated range; all coordinates up to 2^60; all puzzles and heuristics with multiples of 1/16 in the stated range", "why_tests_cant": "Rounding errors depend on the values; tests look at a few cubes and points.", "anchors": ["barbarosa/src/generic/search/ida.rs:42-119", "barbarosa/src/cube_n/cube3/heuristics/manhattan.rs:20-55", "barbarosa/src/cube_n/cube3/heuristics/mus.rs:4-18", "barbarosa/src/cube_n/cube3/cfop/cross.rs:58-105", "barbarosa/src/cube_n/visualization/unfolded/mod.rs:43-106", "barbarosa/src/cube_n/visualization/mod.rs:44-59", "barbarosa/src/cube_n/cube3/mus/cache/generation.rs:103-135"]}
{"id": "C99", "title": "What the progress messages say", "statement": "Building a table announces its file, then for each depth the number of arrangements that take fewer moves (in a column of eight characters), their share in percent rounded to hundredths, the seconds since the start, the speed rounded to hundredths and the remaining time in whole minutes, with 'Finished caching!' exactly in the last of these rounds, then that the table is stored. The numbers are right up to half a unit of the last digit shown plus 2^-30 (percent) or 0.01 (speed). No clock within three years makes the messages panic, different amounts give different texts, and release builds print nothing. Finding: 100.00% is announced although states are missing when these are fewer than about one in 20000 (up to 2128 states of the edge table, 4408 of the corner table).", "quantifier": "all clocks within 10^11 ms of the start, all caches with at least one entry, both tables", "why_tests_cant": "The texts depend on the time taken and on a computation of many minutes; tests do not look at them.", "anchors": ["barbarosa/src/cube_n/cube3/mus/cache/generation.rs:44-151", "barbarosa/src/cube_n/cube3/mus/cache/disk_storage.rs:44-100"]}
{"id": "C100", "title": "Rotating or reversing a scramble makes it neither harder nor easier", "statement": "Two algs that lead to the same state still do so when all their moves are rotated in the same way, or when both are reversed. The solutions of a rotated scramble are the rotated solutions, the solutions of the reversed scramble are the reversed solutions, so all three need the same number of moves, and an optimal solver returns solutions of the same length. The Manhattan heuristic gives all three the same number. After a rotated scramble the cross of the rotated face looks like the cross of the face after the scramble: as many edges in place, the same estimates of both cross heuristics, solutions of solve_cross of the same length; for the reversed scramble this is not so. Finding: is_solved agrees with this on the 2x2, 3x3 and 5x5, but on the 4x4, 6x6 and 7x7 it can be true after an alg and false after the same alg rotated.", "quantifier": "all scrambles, all sequences of rotations, cubes of every size, plain and wide moves; for the solver all admissible integer-valued heuristics; for the cross all faces", "why_tests_cant": "Lengths of shortest solutions for all scrambles are out of reach of tests, and a test of a heuristic looks at a few scrambles in one orientation.", "anchors": ["barbarosa/src/cube_n/moves/rotation.rs:113-125", "barbarosa/src/generic/alg.rs:146-158", "barbarosa/src/generic/alg.rs:40-48", "barbarosa/src/cube_n/search.rs:15-19", "barbarosa/src/cube_n/cube3/heuristics/manhattan.rs:20-44", "barbarosa/src/cube_n/cube3/cfop/cross.rs:21-105"]}
{"id": "C101", "title": "How often an alg has to be repeated", "statement": "On the 3x3 every alg leaves every state as it is when repeated a certain number of times, which is at most 1260; R U2 D' B D' has to be repeated exactly 1260 times. On the 2x2 of this crate (which counts the whole cube turned round as a different state) the number is 45. 55440 repetitions of any alg leave every 3x3 as it is, and every number that does so for all algs is a multiple of 55440.", "quantifier": "all algs, all states of the 2x2 and of the 3x3", "why_tests_cant": "There are infinitely many algs and more states than can be visited; a test repeats one alg.", "anchors": ["barbarosa/src/generic/alg.rs:146-158", "barbarosa/src/cube_n/cube3/mod.rs:49-54", "barbarosa/src/cube_n/cube2/mod.rs:32-36"]}
{"id": "C102", "title": "How many crosses take how many moves", "statement": "Of every 190080 reachable cubes exactly 1, 15, 158, 1394, 9809, 46381, 97254, 34966 and 102 have a cross that needs 0, 1, 2, 3, 4, 5, 6, 7 and 8 moves; these are also the probabilities (in 190080ths) for the cubes that random returns when the draws are uniform, and the numbers of moves solve_cross returns. All six faces are alike. The mean is 1104756/190080, a little more than 5.81 moves.", "quantifier": "all reachable 3x3 cubes, all six faces, all outcomes of the draws of random", "why_tests_cant": "A test samples some cubes and sees approximate frequencies; it can neither count 43 quintillion cubes nor show that a shorter cross does not exist.", "anchors": ["barbarosa/src/cube_n/cube3/cfop/cross.rs:58-105", "barbarosa/src/cube_n/cube3/mod.rs:66-81"]}
{"id": "C103", "title": "Normal forms of algs", "statement": "Call two algs obviously the same if exchanging neighbouring moves of one axis, merging neighbouring moves of one face and leaving out moves that undo each other leads from one to the other. normalized only takes such steps; normalizing half as many times as the longer alg has moves gives the same result for two algs exactly if they are obviously the same, and this result is the shortest such alg. An alg has no redundancy in the sense of C35 exactly if no shorter one is obviously the same. Every alg is obviously the same as exactly one alg that random can return. Algs that are obviously the same act alike on every puzzle; the converse is false.", "quantifier": "all algs of any length", "why_tests_cant": "A test compares the result with an expected one for a few algs; that no other sequence of simplifications leads to a shorter or different result is a statement about all of them.", "anchors": ["barbarosa/src/cube_n/moves/non_redundant.rs: normalized", "barbarosa/src/cube_n/moves/non_redundant.rs: random_with_rng"]}
{"id": "C104", "title": "What the errors of parsing say", "statement": "A text that is refused as an amount, face, axis, move or rotation is refused by the grammar (ParseError::Pest). A text that is refused as a wide move gets Uknown exactly if it is well spelled but too deep, with a message naming the depth written and the maximum; NumParseError exactly if the number in front is not a decimal digit; and Pest otherwise. Extended moves are the same without the limit. Unreachable and UnexpectedEndOfTokens never occur. An alg gets the error of its first bad word. u32::parse reads the empty text as 0 and single digits and refuses 12, so it is not FromStr as the documentation of Parsable suggests. The deepest move of a cube, printed and read back, is refused with a depth one too great in the message.", "quantifier": "every text, every maximum depth, every alg, every class of numbers", "why_tests_cant": "A test tries a few bad texts; which error each of infinitely many texts gets, and that two of the variants never occur, is a statement about all of them.", "anchors": ["barbarosa/src/generic/parse.rs: ParseError", "barbarosa/src/cube_n/parser/mod.rs: WideAxisMove::from_pest", "barbarosa/src/cube_n/parser/mod.rs: u32::from_pest", "barbarosa/src/generic/alg.rs: parse", "barbarosa/src/cube_n/moves/wide.rs: WideMoveCreationError"]}
{"id": "C105", "title": "A 2x2 takes at most eleven moves", "statement": "Every 2x2 that turns lead to is solved by an alg of at most 11 moves, and so every alg has the same effect on the 2x2 as one of at most 11 moves. This is exact: after R U R U R F2 R F' R F2 U2 no alg of 10 moves or fewer solves the 2x2, not even if it may end up rotated, and the greatest entry of the corner table is 11.", "quantifier": "all 2x2 states that turns lead to, all algs, all rotations", "why_tests_cant": "88 million states and all shorter sequences.", "anchors": ["barbarosa/src/cube_n/cube2/mod.rs", "barbarosa/src/cube_n/cube3/mus/cache/generation.rs", "barbarosa/src/cube_n/moves/non_redundant.rs:28-31"]}
{"id": "C106", "title": "How often an alg has to be repeated on the big cubes", "statement": "Every alg of legal wide moves, repeated often enough, leaves every state as it is: on the 4x4 at most 765765 times are needed, on the 5x5 at most 180180 times (its center edges follow the edges, C72), on the 6x6 and the 7x7 at most 5354228880 times. Each number is reached: some alg brings the solved cube back exactly after every multiple of it. 5354228880 (the least common multiple of the numbers up to 24) repetitions do it for all algs of all four sizes at once, and on each size it is the least number that does.", "quantifier": "all algs of legal wide moves, all states, all numbers of repetitions", "why_tests_cant": "Infinitely many algs, more than 10^40 states, billions of repetitions.", "anchors": ["barbarosa/src/cube_n/cube4/mod.rs:17-48", "barbarosa/src/cube_n/cube6/mod.rs:19-71", "barbarosa/src/cube_n/moves/wide.rs"]}
{"id": "C107", "title": "What algs of half turns do", "statement": "Algs of half turns alone bring the solved 3x3 into exactly 663552 states. At most n of them reach exactly 1, 7, 34, 154, 673, 2605, 9089, 29399, 84433, 198325, 376820, 556016, 645744, 661920, 663408 states for n from 0 to 14, and all 663552 for every larger n. So every alg of half turns has the same effect as one of at most fifteen half turns, and for some algs none with fewer has.", "quantifier": "all algs of half turns, all states, all numbers of moves", "why_tests_cant": "Infinitely many algs; that fourteen half turns do not suffice is a statement about 6^14 of them.", "anchors": ["barbarosa/src/cube_n/moves/amount.rs:9-13", "barbarosa/src/cube_n/cube3/mod.rs", "barbarosa/src/generic/moves.rs"]}
{"id": "C108", "title": "How many moves a 2x2 takes until it looks solved", "statement": "A 2x2 has no centers and looks solved in 24 attitudes. Of the 3674160 arrangements (each in 24 attitudes) that turns lead to, exactly 1, 9, 54, 321, 1847, 9992, 50136, 227536, 870072, 1887748, 623800, 2644 take exactly 0, 1, ..., 11 moves until every face shows one colour, and none takes more. More than half take nine moves or more.", "quantifier": "all states of the 2x2, all algs, all numbers of moves", "why_tests_cant": "88179840 states, and that a state takes n moves is a statement about all shorter algs.", "anchors": ["barbarosa/src/cube_n/cube2/mod.rs", "barbarosa/src/generic/moves.rs", "barbarosa/src/generic/alg.rs"]}
{"id": "C109", "title": "Error messages tell what is wrong", "statement": "Different states of a cube of any size have different Debug texts. The message of the error of try_from_states names exactly the first two consecutive states that no move connects: which two states is certain from the text. The message of the error of PieceSet::new always is 'Duplicate position (..)' with the text of the first place that is taken a second time, never 'Duplicate piece (..)', and for each kind of pieces the place can be told from the text.", "quantifier": "all states of all cubes, all lists of states, all arrays of pieces of any size, any text for vectors that can be read", "why_tests_cant": "That no two of 10^19 to 10^160 states, nor two pairs of them, share a text is about all pairs; texts without separators could be ambiguous only for rare pairs.", "anchors": ["barbarosa/src/generic/alg.rs:117-121", "barbarosa/src/generic/piece/set.rs:39-42", "barbarosa/src/generic/piece/set.rs:168-175", "barbarosa/src/cube_n/moves/wide.rs:200-209", "barbarosa/src/cube_n/cube3/mod.rs:29-36", "barbarosa/src/cube_n/cube7/mod.rs:15-29"]}
{"id": "C110", "title": "Which short algs do the same", "statement": "Two algs of the 3x3 that have at most seven moves together lead to the same state exactly when that is obvious (neighbouring moves of one axis exchanged, neighbouring moves of one face merged or cancelled), so exactly when normalizing four times gives the same alg. With at most eight moves together this still holds if one of them is a quarter turn; otherwise there is exactly one more reason: the half turns of both faces of an axis can be exchanged with those of another axis (R2 L2 U2 D2 = U2 D2 R2 L2, which is not obvious). Exactly 1, 19, 262, 3502 and 46741 states are at most 0, 1, 2, 3 and 4 moves from solved.", "quantifier": "all pairs of algs with at most seven (eight) moves together, all states", "why_tests_cant": "There are more than 10^10 algs of eight moves; that a normal form loses no coincidence cannot be sampled, because only fifteen pairs of ordered algs of four moves coincide.", "anchors": ["barbarosa/src/cube_n/cube3/mod.rs:29-36", "barbarosa/src/cube_n/moves/mod.rs:66-82", "barbarosa/src/cube_n/moves/non_redundant.rs:303-344", "barbarosa/src/generic/alg.rs:146-158", "barbarosa/src/generic/alg.rs:40-42"]}
{"id": "C111", "title": "States can be keys of hash tables", "statement": "Axes, directions, faces, pieces of all kinds, sets of pieces of any size and the cubes 2x2, 3x3 and 4x4 feed a hasher such that the words of one value are never the words, or the beginning of the words, of another. So two states are equal exactly if their hashes agree with every hasher. A hash table with any hasher and any number of buckets contains exactly the states put in, each once. Every state of one size feeds the same number of words (49, 122, 339).", "quantifier": "all values, all hashers, all tables, all sequences of insertions, any unambiguous feeding of vectors by nalgebra", "why_tests_cant": "That no two of 10^19 (10^45) states are fed alike is about all pairs; with a good hasher a test would see no collision even if a field of a rare piece were skipped.", "anchors": ["barbarosa/src/generic/piece/set.rs:39-42", "barbarosa/src/cube_n/moves/wide.rs:200-209", "barbarosa/src/cube_n/cube2/mod.rs:12-16", "barbarosa/src/cube_n/cube3/mod.rs:29-36", "barbarosa/src/cube_n/cube4/mod.rs:15-20", "barbarosa/src/cube_n/pieces/edge.rs:22-48", "barbarosa/src/cube_n/pieces/corner.rs:21-29", "barbarosa/src/generic/search/ida.rs:26"]}
{"id": "C112", "title": "What a terminal shows when a cube is printed", "statement": "Printing a picture of any size with any colour scheme puts exactly the facelets of the net on the terminal, each one line high and two columns wide with the background that the scheme has for it; nothing else is coloured or visible, and afterwards the background is reset. The components of a colour are saturated and truncated to bytes, never in the wrong order, and colours given as bytes keep their bytes. Two valid 3x3 cubes print the same text exactly if they are equal, provided the six colours differ as bytes (they do by default); if two of them are equal, there are two reachable states that print the same. With NO_COLOR set all cubes print the same blanks. Colorscheme::new takes the colours in the order R, U, F, L, D, B, and Unfolded::iter gives each face with its own square.", "quantifier": "all pictures of all sizes, all colour schemes including NaN and infinite components, all valid cubes", "why_tests_cant": "There are 2^96 colours per face and 10^19 cubes; that no two cubes print alike, and that nothing but the facelets is coloured in any size, is about all of them.", "anchors": ["barbarosa/src/cube_n/visualization/mod.rs:44-59", "barbarosa/src/cube_n/visualization/mod.rs:128-158", "barbarosa/src/cube_n/visualization/mod.rs:160-165", "barbarosa/src/cube_n/visualization/unfolded/mod.rs:108-128", "barbarosa/src/cube_n/visualization/unfolded/mod.rs:166-170", "barbarosa/src/cube_n/visualization/unfolded/mod.rs:195-243"]}
{"id": "C113", "title": "From a scramble typed in to a solution printed", "statement": "For every text that is read as an alg, the solver with the MUS heuristic, in f32 and with any cache that loading from the disk can give, comes to an end on the scrambled cube with a solution: the cube is_solved after it, it has at most as many moves as the text has words, and no alg is shorter (these are the assertions of the benchmark). The printed solution typed behind the scramble is read as the scramble followed by the solution, and the cube then prints like a solved one. In the playground the two lines show the scrambled cube and then the first drawing again. For every face solve_cross needs at most as many moves as any solution of the cube.", "quantifier": "all texts that are algs, all caches that C62 lets through, all faces, all colour schemes, both settings of NO_COLOR", "why_tests_cant": "There are infinitely many scrambles; the benchmark asserts this for five of them, and termination of the search with an optimal answer cannot be observed by running it.", "anchors": ["barbarosa/benches/solving/mod.rs:21-38", "barbarosa/src/main.rs:26-57", "barbarosa/src/generic/alg.rs:45-57", "barbarosa/src/cube_n/search.rs:12-20"]}
{"id": "C114", "title": "What is said when a wide move is refused", "statement": "WideAxisMove::new, set_depth, set_max_depth, AxisMove::widen and Alg::widen refuse exactly what is deeper than allowed; the error has the depth asked for and the largest one allowed, in this order, and its text tells both. Otherwise the result is the move asked for. A refused set_depth changes nothing, so after any sequence of them the depth is the last one accepted. Alg::widen widens every move in place or fails as its first move does; the empty alg never fails. Reading a move that is too deep fails with the same text.", "quantifier": "all maximal depths, depths, faces, amounts, algs of any length, all sequences of set_depth", "why_tests_cant": "The maximum is a const generic and the depth any u32; a test fixes both.", "anchors": ["barbarosa/src/cube_n/moves/wide.rs:42-104", "barbarosa/src/cube_n/moves/mod.rs:84-87", "barbarosa/src/cube_n/moves/wide.rs:170-183", "barbarosa/src/cube_n/parser/mod.rs:112-131"]}
{"id": "C115", "title": "Which algs may be done before or after any other", "statement": "On the 2x2, 4x4 and 6x6 an alg gives the same result before and after every other alg only if it does nothing. On the 3x3 there is exactly one other effect with this property: flipping all twelve edges in their places; an alg of twenty moves has it, and it undoes itself. On the 5x5 and the 7x7 the only other effect is flipping all edges together with the center edges beside them, and it can be reached.", "quantifier": "all algs (of legal wide moves on the big cubes), all algs they are exchanged with, all states", "why_tests_cant": "Infinitely many pairs of algs; that no other alg commutes with all others is a statement about every alg.", "anchors": ["barbarosa/src/generic/alg.rs:146-158", "barbarosa/src/cube_n/cube3/mod.rs:49-54", "barbarosa/src/cube_n/cube5/mod.rs:39-46", "barbarosa/src/cube_n/pieces/edge.rs:180-182"]}
{"id": "C116", "title": "Which faces have to be turned", "statement": "Everything that can be reached on the 3x3 can be reached with the turns of a given set of faces exactly if at most one face is left out; avoiding a face takes at most twelve further moves for each of its turns. On the 2x2 a set of faces is enough exactly if it has two opposite faces and one of another axis; it then takes at most five times as many moves. If the 2x2 only has to look solved, one face of each axis is enough too, with the same number of moves (never more than eleven), and no other sets are. With wide moves of any allowed depth the 4x4 and the 6x6 need the same sets of faces as the 2x2, the 5x5 and the 7x7 the same as the 3x3.", "quantifier": "all sets of faces, all reachable cubes, algs of any length", "why_tests_cant": "That a position cannot be reached is a statement about all algs with these faces; that all can is one about more positions than can be enumerated.", "anchors": ["barbarosa/src/cube_n/cube2/mod.rs:32-36", "barbarosa/src/cube_n/cube3/mod.rs:49-54", "barbarosa/src/cube_n/pieces/edge.rs:124-131", "barbarosa/src/cube_n/moves/wide.rs:25-32"]}
{"id": "C117", "title": "Every depth of the wide moves is needed", "statement": "On the 4x4 and the 5x5 everything reachable can be reached with moves of some depths exactly if one and two layers are both among them; on the 6x6 and the 7x7 exactly if one, two and three layers are. As plain moves always turn half of a big cube, they alone do not reach everything on any of the four.", "quantifier": "all sets of depths, all algs of any length, all reachable states, four sizes", "why_tests_cant": "That a state is out of reach is a statement about all algs.", "anchors": ["barbarosa/src/cube_n/pieces/center/corner.rs:69-89", "barbarosa/src/cube_n/cube4/mod.rs:41-47", "barbarosa/src/cube_n/cube6/mod.rs:56-65", "barbarosa/src/cube_n/cube7/mod.rs:67-79", "barbarosa/src/cube_n/moves/wide.rs:135-141"]}
{"id": "C118", "title": "Which amounts have to be turned", "statement": "On every size and for plain and wide moves, every sequence of turns can be replaced by one whose turns are all quarter turns in one chosen direction, at most three times as long, with the same effect on every cube. With the turns of some amounts everything is reached exactly if there is a quarter turn among them.", "quantifier": "all sizes, all kinds of face turns, all sets of amounts, all sequences, all states", "why_tests_cant": "Infinitely many sequences; that half turns never do it is a statement about all of them.", "anchors": ["barbarosa/src/cube_n/moves/amount.rs:9-13", "barbarosa/src/cube_n/pieces/corner.rs:56-70"]}
{"id": "C119", "title": "Edges and corners know only one bit of each other", "statement": "For any two algs there is an alg (of at most 45 moves) that does to the edges what the first does and to the corners what the second does, on every 3x3, exactly if the numbers of quarter turns of both are even or both are odd. So the reachable cubes have 88179840 arrangements of corners and 980995276800 of edges, and with the edges (corners) of any of them go exactly half of the arrangements of the corners (edges).", "quantifier": "all pairs of algs, all 3x3 states", "why_tests_cant": "Infinitely many pairs of algs and 4.3e19 states; that no alg exists for the odd pairs cannot be tested.", "anchors": ["barbarosa/src/cube_n/cube3/mod.rs:30-54", "barbarosa/src/cube_n/moves/amount.rs:9-13"]}
{"id": "C120", "title": "Set-up moves, algs with nothing in common, and commutators", "statement": "How many pieces of each kind an alg changes does not depend on the (valid) cube, and stays the same with set-up moves that are undone afterwards. Algs that change no piece in common can be done in either order, and one valid cube shows what they have in common. Doing two algs and undoing both changes, of each kind of pieces, at most three times as many as both algs change, and exactly three if both change one and bring it to another place; if this or nothing is in common of each kind, three times this does nothing. An alg that changes no corner or edge and three or none of each other kind does nothing when done three times. All of this on every size and with every kind of moves.", "quantifier": "all sizes, all kinds of moves, all algs, all pairs of algs, all valid cubes", "why_tests_cant": "Infinitely many algs and pairs of algs; each test shows one pair on one cube.", "anchors": ["barbarosa/src/generic/alg.rs:40-42", "barbarosa/src/cube_n/cube3/mod.rs:30-54", "barbarosa/src/cube_n/pieces/corner.rs:56-70", "barbarosa/src/cube_n/pieces/edge.rs:124-131"]}
{"id": "C121", "title": "No alg changes exactly one piece of any kind", "statement": "On every size and with every kind of moves the cube accepts, no sequence of moves changes exactly one corner, exactly one edge, exactly one wing or exactly one center of any of the kinds, whatever it does to the pieces of the other kinds; on every valid cube, solvable or not.", "quantifier": "all sizes, all kinds of moves, all algs, all valid cubes", "why_tests_cant": "Infinitely many algs, and more states than can be listed.", "anchors": ["barbarosa/src/cube_n/cube3/mod.rs:30-54", "barbarosa/src/cube_n/moves/wide.rs: DepthPieceSet::apply", "barbarosa/src/generic/piece/set.rs: PieceSet::validate"]}
