# Formal model of barbarosa

The Lean project in `lean/` contains a model of the Rust crate in `/repo/barbarosa/src`
(paths below are relative to that directory), an independent specification and proofs.
Everything is about the *model*; nothing here runs the Rust code.

## Layout

| directory | contents |
|---|---|
| `Verif/Model/*` | function-by-function transcription of the Rust code; each definition cites file and lines |
| `Verif/Spec/*` | independent specifications (integer 3D geometry, sticker cube, word problems, ...) |
| `Verif/Lemmas/*` | helper lemmas |
| `Verif/Props/*` | the property theorems, one file per theme, each theorem that has hypotheses or a claim about all inputs with a concrete case beside it |

## Modelling conventions

* Enums and structs become Lean inductives and structures with the same fields.
* `&mut self` methods become functions returning the new value. `Movable::apply/moved` is `moved`.
* `[P; N]` is `Fin N → P`; `PieceSet<P, N>` and `DepthPieceSet` are that array (their only field);
  `Alg<M>` is `List M` (its only field).
* `panic!`, `unwrap`, `expect`, `unreachable!`: the faithful version of the function has a `?` suffix and
  returns `Option` (`none` = panic).  Where the panic is unreachable there is a theorem
  `f? x = some (f x)` (*no panic*) and the total `f` is used from there on.
* Randomness is a parameter: a shuffle is an arbitrary permutation, a draw is an arbitrary value of the type,
  `choose` is an arbitrary element of the candidate list.  Theorems quantify over all of them.
* `f32` costs: IDA* is modelled over an arbitrary cost type with arbitrary operations for soundness, and over
  `ℚ` for optimality/completeness.  That `f32` gives the same results is proved (C98) with a model of IEEE 754
  (`Model/Float.lean`) and of the functions as they compute with it (`Model/FloatCode.lean`).
* `usize`/`u32`/`u8`: naturals, with separate theorems that the values stay within range where it matters.
* Strings are `List Char`; the pest grammar is transcribed as a PEG recogniser by hand.
* The file system is a small state machine (directory present or not, each file absent or its bytes); files are read and written piecewise.

## Trusted base

* Lean 4.33.0's kernel, with the axioms `propext`, `Classical.choice`, `Quot.sound` at most. No `sorry`, no
  `native_decide`, no further axioms.
* That the transcription in `Verif/Model` is faithful; the comments give the lines to compare.
* `f32` and `f64` are IEEE 754 binary32 and binary64 with correctly rounded operations, and are not fused or reordered (Rust guarantees this);
  `nalgebra`'s `dot` for three components multiplies componentwise and adds from the left.
* External crates, by their documented behaviour: `itertools::iproduct!` enumerates lexicographically with the last
  factor fastest; `cartesian_array_map!` with the *first* factor fastest (its source is not at hand; the repository's
  test `cube_n/cube6/test.rs:60-71` asserts the places of center wings 0 and 1, which fixes the order); `strum::EnumIter` enumerates in declaration order;
  `rand`'s `shuffle` applies some permutation and `choose` returns some element; `pest`'s PEG semantics;
  `OnceLock`'s documented semantics; what `#[derive(Hash)]`, `[T; N]` and `bool` feed to a hasher; the escape sequences of `crossterm` 0.27.0 for a background colour and for resetting it; `fs::write` truncates and then writes a prefix-growing file.

## Validation of the transcription

`Props/Conformance.lean` runs the repository's own unit tests and documentation tests with fixed inputs on the model, as
`example`s. They are tests of the model and not claims of the manifest. They once found an error: an earlier version
enumerated the reference positions of corners, wings and centers with the last factor fastest. Apart from that, the model was compared with the source a second
time, line by line, after it was finished; no further difference was found.

## Not modelled

Power loss (a killed process leaves what it wrote), deleting files or the directory while processes run, failing writes to the terminal.
How the time of day is written before each progress message, `clap` argument parsing, hash functions (what is fed to them is, C111), `{:#?}` output, what pest says about a text outside the grammar
(the other messages of parsing are modelled, C104), how nalgebra prints a vector (a parameter in C82 and C109), memory layout/`transmute` (modelled as identity).

## Plan per property

* **C01 C02 C03 C04** every piece type: pointwise laws by kernel evaluation over *all* states of one piece and all
  moves (24 or 48 states x 18 moves x depths; depth arithmetic is split by cases on the comparisons so there is no
  bound on depth), lifted to cubes pointwise and to algs by induction.
* **C05 C18 C51** independent sticker model: facelets are pairs (cubie coordinates, outward normal) in ℤ³, a turn is a
  rotation matrix on the layer; the picture of a valid cube is compared facelet by facelet.
* **C06** coordinates of each piece type in ℤ³ in "layer units"; false for centre edges (depth of the move is ignored),
  so: theorem for the other five types, negation for centre edges, and a `_partial` for centre edges at full depth.
* **C07** false: `widen(max)` is used. Negation with witness, plus theorem of what is computed.
* **C08 C09 C10 C11** list/function lemmas (`Nodup`, injectivity), generic in the piece type. `C08_every_size` (`Props/Independent.lean`): for all move types a cube
  accepts, valid before if and only if valid after.
* **C12–C17, C58** where the pieces are is an `Equiv.Perm`, parity is `Equiv.Perm.sign` (the code's cycle counting is proved
  to compute it, `swapCycles?_eq`); twist sums live in `ZMod 3`. Reachability: four stages, of at
  most 7, 10, 13 and 15 moves (edges oriented; corners oriented and the slice between U and D filled; everything where half turns
  can take it; solved, with half turns only). The first is a generated table with a word for each of the 2048 cases
  (`Lemmas/StagesTable.lean`), each of which the kernel runs on each piece (`Lemmas/StagesSound.lean`). The others are breadth-first
  searches that the kernel carries out on rows of bits: `Lemmas/Blocks.lean` says and proves what a row of bits means,
  `Lemmas/PhasesTable.lean` is generated data, checked in the kernel against the moves, and `PhaseOrient`, `PhaseSort`,
  `PhaseHalf` do 1082565, 29400 and 663552 states. Six edges alone
  (15 moves) in the same way in `Lemmas/PartStages.lean`; corners alone (11 moves) see C105. The searches that produced the tables are not trusted.
  Counting: every solvable state comes from exactly 12 of the 12!*8!*2^12*3^8 draws. C17 (2x2): coverage is false
  (orientations are never drawn): `C17_not_covering` and `C17_random_partial`; `Props/RandomTwo.lean` counts the draws
  and those that look solved.
* **C19** false on 4, 6, 7 (centre corners compare only a direction) and on 5 (strict equality): witnesses + what does hold.
* **C20–C23** ranking/unranking for general N, S by induction on the list of used places (`Lemmas/Ranking.lean`), instantiated to
  corners and edges (`Lemmas/Mus.lean`). Every product and sum goes through a 64-bit overflow check in the model.
* **C24** invariant of the sweep: after the pass for depth d exactly the states at distance ≤ d are filled (`Lemmas/Table.lean`); it
  ends because every arrangement is at most 11 (corners, C105) or 15 (edges) turns away. The tables themselves are never
  evaluated.
* **C25** projection of algs to corner/half-edge arrangements + x2 conjugation.
* **C26–C29** generic IDA* model with fuel = remaining budget; soundness by induction, optimality by the usual bound argument.
* **C29** `C28_integer` + every reachable cube is solvable in at most 45 moves (below the limit of 200), for every integer-valued
  admissible heuristic; unreachable cubes give `None` for every heuristic and arithmetic; float version through `FloatLike`.
* **C30** finite tables (one step changes the value by at most one; some step lowers it) lifted to algs by induction.
* **C31** optimality from the search theorems; success from C91. Also: `solve_cross_fast` succeeds and is at most one
  move longer, because its heuristic exceeds the distance by at most one (C91).
* **C32** finite tables over positions; counting for every cube.
* **C33** false for half turns: negation with witness `R2`; proved with half turns weighted 3/2, hence for quarter turns (`_partial`).
* **C64** values are multiples of 1/8 from 0 to 6 (tables over one piece, summed); with C33's weighted bound, estimates along a shortest
  solution stay below its length + 2; then `C27_bounded`, `C28_complete_general`. `_partial`: success is proved for cubes at
  most 23 moves away (all of them, if 20 moves always suffice, which is not proved here).
* **C34** invariant "effect of (rest, held, stack) is constant"; lexicographic termination measure.
* **C35** false: witness `R F F' R L` (normalising once gives `L R R`, twice `L R2`); partial results.
* **C36–C40** induction over loops.
* **C41 C42 C59 C60** `Model/Parser.lean` has a small PEG interpreter (`Peg.run`), the grammar files as PEG terms, and the
  code that walks the resulting pairs, with panics as a third outcome next to ok and err. The Unicode class `NUMBER` is a
  parameter `num` of the interpreter, of which only "contains the ASCII digits, and nothing else that is ASCII" is assumed
  (`NumberClass`). White space is Rust's list of code points. `Spec/Notation.lean` says which texts spell which moves, without the
  grammar; the theorems are equivalences, over all texts.
* **C43** false for depth ≥ 2 (`C43_not_round_trip`, `C43_never_deeper`, `C43_overflow`): the printer writes depth + 1, the
  parser reads the number as depth. `C43_round_trip_partial` has depth 0 and 1.
* **C44** inductive predicate over everything the API can produce, including parsing and parsing algs.
* **C45–C50, C61** `Spec/Orientable.lean` turns an orientation into a map of ℤ³ (from `r_face` and `u_face` only) and says what the
  holder of a 3x3 sees at each facelet (`Orientable.Sees`). C47, C50 hold. C45, C46, C48, C49, C61 are false as stated: there are
  negations and equivalences giving the exact cases in which they hold. Linear maps are compared on the three unit vectors by
  kernel evaluation over the 24 orientations and lifted to all points.
* **C52 C62** `Model/Disk.lean`: code that touches files is a program (`Prog`: read, write, make the directory, panic, done), executed by
  processes over a shared directory. A read or a write happens piece by piece, a write truncates first, any operation may report an
  error, and a process may be killed between any two pieces (`Proc.Step`). C52 is about one process at a time with any
  number of kills and restarts, C62 about any number of processes at once. Both by invariants over all runs (`Lemmas/Disk.lean`).
  Found: a file that a kill left short is never accepted, but never repaired either, every later `init` panics until somebody deletes it
  (`C52_short_stuck`); the size is the only thing that is checked (`C52_only_size`); every outcome of `Cache::load` is listed in `C52_load`; two builders and a kill can leave a zero-filled table
  of full size that everybody accepts (`C62_race`), which is still admissible (`C62_admissible`) but not exact.
* **C53** transition system of threads over the once cell (`Model/Shared.lean`), theorems over all traces of events.
  Where `C53_fallback` assumes which caches `init` yields, `C52_init_exact` gives it.
* **C54** one round of the loop as a partial function (`none` = the program dies), sessions by induction. What lines say is `Spec/Notation`.
  False as stated: `Rw` ends the program (`C54_Rw_ends`, `C54_dies_exactly`); so does the end of the input.
* **C55 C56 C57** kernel evaluation over all states of one piece, lifted. `C56_wide_algs`, `C56_plain_algs`: rotating the pieces of a cube of any
  size commutes with every alg. The conversions into vectors of bytes (`Model/Vectors.lean`) are compared with the normals of the faces; no product overflows.
* **C63** `C05_alg` reduces each alg to a table of where the 54 facelets go, compared by the kernel with the documented exchanges
  (`Transports`). False for the U perm: the documentation cycles RUF, RUB, RUL, but no corner moves and RUL is no piece
  (`C63_U_no_corners`); what it does is `C63_U_partial`.
* **C65** `Spec/Reduction.lean`: a relation "this big cube looks like that 3x3" (same corners, both wings of an edge go where the edge
  goes, centers on their faces); kernel tables for one piece, induction over algs. Holds for the 4x4 and 6x6. False for the 5x5 and 7x7,
  because center edges follow outer turns as if these were wide (`C65_center_edges_leave`, see C06); `_partial` has
  everything but center edges. `C65_parity`: a reduced 4x4 may look like an unsolvable 3x3, as on a real 4x4, so lawfulness is needed.
* **C66** projection to the small cube commutes with moves; with C15 and C17 this gives equivalences.
* **C67** `Spec/Meaning.lean`: a third of a turn as a coordinate formula (`thirdTurn_rotation` shows it is a rotation of order three
  about the diagonal), the orientation face as in the documentation. Kernel tables over all pieces; counting of flipped edges through the
  arrangement permutation; induction over algs. The documentation of `is_oriented` says X axis, it is Y (`C67_is_oriented_doc`).
* **C68** C17 (which 2x2 states are reachable) with C21 (indexing) and C24 (table): the corner table is a table of the 2x2.
* **C69** pieces that move are counted through the arrangement permutation; signs from the quarter turn permutations of C12; the change of an
  orientation index is bounded per position (table) and the bounds are summed over a valid arrangement.
* **C70** `Spec/Surface.lean` says which points of space hold a visible cubie; the places of a valid set are a rearrangement of the places of
  the solved set, the rest is a kernel check over the (finite) grid. False for the 5x5: it has no wings (`C70_cube5_no_wings`), so that
  there are turns it does not notice (`C70_cube5_blind`).
* **C71 C72** `Spec/Reach.lean` has the laws. Necessity: signs of the permutations that a turn does to the orbits, by induction. Sufficiency:
  one group of permutations of all orbits at once (`Lemmas/Reach.lean`). For each orbit the tables give a word that
  cycles three pieces of this orbit and moves nothing else, and words that take two given pieces anywhere; hence the group contains all even
  permutations of that orbit (`Lemmas/Groups.lean`, Jordan's theorem from Mathlib), and what remains is corrected by parities. The
  counts follow by a bijection. C72 is false, because center edges turn with every depth (see C06): `C72_center_edges_stuck`;
  the `_partial` theorems say what is reachable instead.
* **C73** a walk whose every step leads to a state that is not on the path, from a state that is not a target, is an invariant of the recursion.
* **C74** `orderedAlgs` enumerates the ordered algs without repetition; its length obeys the recurrence. C36 says these are the results of
  `Alg::random`, C35 that they are, in the other order of directions, the fixed points of `normalized`.
* **C75** every alg has the effect of an ordered one that is not longer (C34, C35), so at most as many states are within `n` moves as there are
  ordered algs up to that length; compared with the number of states (C16, C68). For the big cubes words of well formed wide moves are counted.
  "Obtained" is meant in the code's sense, where equal looking centers are different pieces.
* **C76** `Model/Progress.lean` repeats the build loop with its messages; `buildLoopLog_table` shows that it builds the same table. The
  invariant of C24 gives a bijection between set entries and arrangements within the distance. `Stats` uses exact rationals instead of `f64` (see C98 for `f64`)
  (its error is far below the second that is printed); `Duration::seconds` panics as `chrono` documents. The text: C99.
* **C77** `Model/RandomAlg.lean` turns the loop into a recursion on probabilities (rationals); that `choose` takes every element with the same
  probability is the contract of the `rand` crate. Which candidates start with the next move of the result is settled by a table over all moves,
  the rest is induction. Finding: `Alg::random` is not uniform; a pair cut off at the end makes algs that end in R, U or F four times as likely.
* **C78** the fuel of `searchImpl` counts open calls; that a certain amount is enough (the result is not `none`) bounds the depth. The bound of
  each round is at most one more than the previous one; with a solution of `n` moves no round's bound exceeds `n`. `specialOps` has infinity and
  NaN with their comparison rules: nothing is greater than either, so nothing is cut off (`C78_infinite_start`, a finding).
* **C79** two opposite corners settle the colours of all faces; a table over their 24 · 24 states shows that then some corner fits nowhere or the
  cube is turned round. On the 3x3 the centre of each face gives its colour, so C18 applies. Finding: `R L'` on a 2x2 is not reported as solved.
* **C80** `Model/Combined.lean` has the nested push loops. Existence and uniqueness by recursion over the algs; a shorter or equal alg of combined
  moves is built from the back with `absorve` (C38).
* **C81** tables over all faces and pieces, lifted to all cube sizes through `cell` (`Spec/BigCubes.lean`). Finding: `slice_coords` (public, unused)
  orders the coordinates for Y differently from `Axis::basis` and from slice positions.
* **C82** `Model/Debug.lean` has the plain `{:?}` texts (not `{:#?}`); how nalgebra prints a vector is a parameter (center corners). Finding: unbalanced text
  of corners.
* **C83** `Model/AnySize.lean` repeats `Square::at` and the drawing with rational coordinates and any size; `C83_integer_coordinates` ties it to
  `Model/Visualization.lean`. Linear arithmetic on the rounding function. Findings: the scaling `(x + 1) * N / 3` is right for 3 only (the doc
  comment promises every size); from 5 on the last row and column are never drawn; a 1-picture panics.
* **C84** an alg acts on each piece by itself (it maps over the array), and every valid state contains every piece, so one valid state shows the
  effect on all pieces (`C84_pieces_independent_wide` for the other cubes). Repetition: the states are finitely many and moves can be undone.
* **C85** C84 with the solution lengths of C15 (45 moves) and C17 (11 moves) and the counts of C16 and C75. The bound 20 (God's number) is not provable here.
* **C86** `Spec/FirstSolution.lean` has walks given by places in the list of successors, and the order of a dictionary. For any arithmetic a round
  answers with the first walk that it may answer with (`Qual`); the bound of the successful round is the length of a shortest solution (C27), so
  all shortest walks are among them.
* **C87** `Model/Trace.lean` repeats the search with a record of the calls, and for heuristics that may panic. The record is characterised by
  induction over the recursion: a list of walks in strictly increasing order whose members are exactly the explored walks. The count uses that one of
  the 18 moves leads back. `C87_cross_calls` (`Props/Workflow.lean`) applies it to `solve_cross`, where eight moves are always enough. Not counted:
  calls of `successors` and of `is_target`.
* **C88** `Cube3.fromIndices?` succeeds iff the cube has these indices: the ranking lemmas of C21 for all numbers in range, `C21_out_of_range` for the
  others. The count goes through a bijection with valid cubes modulo the twist of corner 7. The last number is contiguous because turning a scramble
  over exchanges the halves.
* **C89** `mus.factorial` against `Nat.factorial`; the sizes against `Nat.card` of the arrangements; the x2 table over all twelve homes.
* **C90** from C25 (exact distances) and the triangle inequality; valid cubes with an impossible twist are reduced to the cube with corner 7 put right
  (`Spec/Indices.lean`), which no move undoes.
* **C91** breadth first search over all arrangements of four edges, done by the kernel (`decide +kernel`) on sets of arrangements that are single
  numbers, one bit per arrangement (`Lemmas/CrossBits.lean`, `Lemmas/CrossBfs.lean`). `mem_level` proves that a bit of level n is set iff an alg of at most n
  moves brings the four edges home; level 8 is everything, level 7 is not. The same for the heuristic (`Lemmas/CrossHeavy.lean`). That the fast solver is
  not optimal is one run of the search on a concrete cube (with `searchLoop_mono` for all larger fuels).
* **C92** `Props/ManhattanValues.lean`: sums over the pieces, the triangle inequality (`manhattan_step` of C33 for a move and its inverse), and a
  bijection between reachable cubes with all pieces in place and flips and twists that add up to zero. 6 is the value of the cube with opposite pieces
  exchanged, which is lawful (C15).
* **C93** `Props/Convert.lean`: the functions with explicit panics (`...?`) against what they should answer, by tables over all pieces; the depths of
  center wings by linear arithmetic for all sizes.
* **C94** unfolding the conversion and the move; the orientation by `place_rotate` (C47), wide moves by C45.
* **C95** `Props/Changing.lean`: composition of C62 (bytes right or zero), C20 (lookups succeed), C25 (admissible), C87 (no panic) and C29 (optimal).
* **C96** `Model/Changing.lean` is the search once more with the heuristic as a function of the number of the call; it equals the search of C87 when
  the answers do not change (`C96_constant`). The proofs of C26-C28 go through with the estimates of all moments.
* **C97** `Props/Layout.lean`: the text is cut into lines and looked up by line and column; the place of a facelet is given by a formula in its
  coordinates. Lists for every `N`; the folds by `decide +kernel` over all pairs of the 54 facelets. Before, C51 spoke about the cells of the squares
  but not about where the squares are printed, so exchanging L and R in `Unfolded::write` would have gone unnoticed.
* **C98** `Model/Float.lean` defines rounding to nearest for any binary format and the operations from it; `Spec/Float.lean` says which numbers have a
  place in a format, and `C98_rounding`, `C98_representable` tie the two together. A number that fits the significand is not rounded, which
  gives the heuristics and the searches (`C28_floats` with `float32`); for pictures the only rounded operation is the division by 3, off by
  at most 1/8 below `2^22`, and `C83_rounding_errors` tolerates 1/6. `C98_comparison` gives `<` on all values, special ones included;
  `C98_mus_values` gives the MUS heuristic in `f32`, with and without a cache. General points and `Stats`: error analysis of three operations.
  Not modelled: NaN payloads, exception flags.
* **C99** `Model/ProgressText.lean` has the texts, made from the statistics in `f64` of C98. The rounding of the text is added to the error bounds of
  C98; the rounds are those of C76. That different numbers give different texts: the digits can be read back (`C99_numbers`, `C99_readable`).
  Finding: `100.00%` is printed before the table is finished (`C99_hundred_early`).
* **C100** `Spec/Symmetry.lean`, `Props/Symmetry.lean`: rotating the pieces commutes with algs (C56) and is onto, and one state shows what an alg does
  (C84), so rotations are automorphisms. Manhattan and the cross: a table over all slots says where a piece goes when the scramble is rotated; the reversed
  scramble permutes the summands. Finding: `is_solved` of the 4x4, 6x6, 7x7 depends on how the alg is rotated (`C100_is_solved_depends_on_rotation`, from
  the finding of C19).
* **C101** `Props/Orders.lean`: twists and flips at most multiply the order of the permutation of the corners by 3 and of the edges by 2; the two
  permutations have the same sign (C15). `orderTable` enumerates orders and signs from the cycle types of Mathlib; `decide +kernel` over that table.
* **C102** `Props/CrossDistances.lean`: the sets of arrangements of C91 (numbers with 331776 bits) are counted by casting out in base `2^20`
  (`Lemmas/CrossCount.lean`). An alg takes the cubes with one arrangement of the cross edges bijectively to those with the cross solved, so every
  arrangement belongs to equally many reachable cubes; C58 carries this over to random cubes.
* **C103** `Props/NormalForm.lean`, `Spec/Rewriting.lean`: `SameObviously` is the equivalence generated by the three kinds of steps, stated without
  `normalized`. `Blocks` (`Lemmas/NormalForm.lean`) is a puzzle that remembers exactly the class of an alg; it obeys the laws that make `normalized`
  keep the effect, and an ordered alg can be read off from it, so ordered algs in one class are equal.
* **C104** `Props/Errors.lean`: `WideRefusal` and `ExtendedRefusal` say in terms of the notation (`Spec/Notation.lean`) which error a text deserves; the case
  distinctions are those of C59 and C60 (`wideMove_parse_cases`, `extended_parse_cases`). The documentation of `Parsable` is wrong about `u32`
  (`C104_u32_not_from_str`), and the error of C43 shows in the messages (`C104_printed_then_refused`).
* **C105** The 2x2 is reduced to arrangements of six corners and turns of three faces: every arrangement is a rotation of one whose last
  corner is at home, and the turn of a face is the turn of the opposite face and a rotation (`Lemmas/TwoReduce.lean`). Sets of arrangements
  are trees with numbers as leaves (`Lemmas/TwoTree.lean`); the kernel computes what is one turn away from a set. Sequences of five or six turns in
  which turns can be replaced by turns of the opposite face so that every attitude comes out (`Lemmas/TwoWords.lean`) and another six or
  five turns give all 3674160 arrangements (`Lemmas/TwoFull.lean`), in every attitude: 11 moves suffice. What ten turns give does not
  contain one arrangement (`Lemmas/TwoFar.lean`): 11 are needed, in any attitude. Used for C17, C24, C25, C68, C76, C85.
* **C106** `Props/BigOrders.lean`: the laws of C71 and C72 give the permutations of the orbits and the relations of their signs; the pairs of order and
  sign of the permutations of up to 24 things are a closed list (`Lemmas/Orders24.lean`: the kernel checks for the whole list that a further
  cycle does not lead out of it). That the numbers are reached follows from the other direction of C71 and C72: states with cycles of the
  right lengths are lawful, so algs lead to them; the algs themselves are not written down.
* **C107** `Props/HalfTurns.lean`: a state that half turns reach is a number below 96 (its corners) and one below 24^3 (its edges, slice by
  slice); `Lemmas/HalfCount.lean` shows that cubes and numbers fit one to one and counts. `Lemmas/Blocks.lean` (nothing wrong gets into a set)
  and `Lemmas/BlocksComplete.lean` (nothing is left out) give the sets for every number of half turns; the kernel computes and counts them up to 15.
* **C108** `Props/TwoCounts.lean`: the sets of C105, counted (`Lemmas/TwoCount.lean`). States of the 2x2 are pairs of an attitude and an arrangement
  with the last corner at home; that the trees have the arrangements at most n moves away and no others holds for every n, and the kernel
  counts their bits up to 11. What "looks solved" means is the specification of C79.
* **C109** `Model/Messages.lean` has the derived `Debug` texts of sets and cubes and the two messages. `Readable` (`Props/Messages.lean`): a text that
  can be read from the left; texts of pieces are (none is the beginning of another, whole tables), so arrays and structs of them are. What is reported
  is from C09 and C39. The hypothesis on nalgebra is shown for `[[Positive, Negative, Positive]]`.
* **C110** `Spec/ShortAlgs.lean` adds the exchange of pairs of half turns to the obvious steps of C103 and says which states are within n moves. An alg
  of eight moves with a quarter turn that does nothing can be shifted around, rotated (C100) and reversed until it begins with `R`. The kernel
  (`Lemmas/ShortTable.lean`) puts the states after `R` and at most three moves into a search tree, finds 3502 of them, and finds exactly 3502 ordered
  algs of at most four moves that lead to one of them; as many are obviously the same as one of the algs in the tree, so there are no others
  (`Lemmas/ShortAlgs.lean`). Half turns alone are counted in the same way: 688 ordered algs, 673 states, and fifteen pairs that the exchange
  explains. A state is a number made of twelve pieces there; that this is enough is part of the count and not assumed.
* **C111** `Model/Hashing.lean` has what `#[derive(Hash)]` feeds, as a list of calls of the hasher, and a hash table with buckets as far as it matters
  (the table and the hasher are Rust's, not of this crate). `Props/Hashing.lean`: feeding is put together from parts that can be told apart, arrays
  by induction on their length. The hypothesis on nalgebra is shown for rows, columns, entries. `Cube5`, `Cube6` and `Cube7` derive no `Hash`, so
  they cannot be keys, and `search` cannot be called with them.
* **C112** `Model/Terminal.lean` has colour schemes with any `f32` components and the characters that are written for a picture. `Props/Terminal.lean`
  specifies a terminal (a state machine for `ESC [ .. m`, lines and backgrounds) and shows by induction on the tokens what it displays; with C97 this gives
  the place of every facelet. That equal colours hide something is shown with an alg for each pair of faces that exchanges two pairs of edges. The bytes
  follow from rounding to nearest (C98); the 256 colours given by bytes are evaluated by the kernel. With `NO_COLOR` all cubes print as the same blanks, because
  `crossterm` then leaves out the colour and a cell has no other character.
* **C113** puts the parts together (`Props/Workflow.lean`): reading (C42), the search in `f32` with a cache from the disk (C98, C95), printing (C41, C112) and
  the playground (C54). New is that two texts with white space between them are read as one alg after the other, by induction on the layout of the first, and
  that plain moves in the playground do to a cube held as at the start what they do to the cube itself. Nothing new is modelled.
* **C114** `Model/DepthErrors.lean` transcribes the five functions once more with the contents of the error; `C114_same` ties them to the ones of `Model/Moves.lean`
  that everything else uses. By cases on the comparison, induction on the alg and on the sequence; the text is taken apart at its comma (C104).
* **C115** `Props/Centre.lean`. An alg acts on each kind of piece by one map (C84). If it commutes with all turns, a piece and its image are left by the same
  turns, which for every piece leaves at most the ways of turning it in place (tables over all pieces), and two such maps that agree on one piece agree on all
  that can be reached from it. The laws of C15, C17, C71, C72 exclude twisted corners.
* **C116** `Props/Generators.lean`. Enough: a turn of the face left out is written with the others (tables over all pieces) and put in for every move of the alg (`C116_avoid`, `C116_three` also count the moves).
  Not enough: the edge between two faces left out never moves, if they are opposite an edge is never flipped against their axis; on the 2x2 some corner never
  moves or stays in its layer. `Props/TwoFaces.lean` asks for a 2x2 that looks solved only: a face and the opposite one then do the same up to turning the
  cube round, so one face of each axis is enough, with no further moves. The larger cubes are in
  `Props/BigFaces.lean`, for wide moves: turning both halves of a 4x4 or 6x6 rotates all its pieces, so a turn of any face is a rotation, a turn of
  another face and the rotation back (`C116_three_wide`, by the laws of C56); on the 5x5 and 7x7 the middle layers stay, their pieces are a table, the others
  are rotated (`C116_avoid_wide`). The other direction is the 2x2 or 3x3 inside (C66). `C116_even` and `C116_odd` have both.
* **C117** `Props/Depths.lean`. Without single layers a center corner stays beside its corner; without two layers the two kinds of center corners move alike;
  without the deepest moves the innermost center corners stay on their face. Each is kept by all moves of the other depths, hence by all algs, and one move of
  the missing depth breaks it.
* **C118** `Props/Amounts.lean`, over `turnSystems`. Enough: C03 makes two and three quarter turns of one. Not enough: half turns never change the orientation axis of a
  corner, a turn of R does.
* **C119** `Props/Halves.lean`. The sign of both permutations is the parity of the number of quarter turns (C69), so C15 decides which halves go together; that
  the alg then works on every state is C84. The counts follow from those of C16 and C68: a turn of R exchanges the even and the odd arrangements.
* **C120** `Props/Commutators.lean`. Corners and edges are moved one by one and moves do not look at how a piece is turned in its place (`MovedAlone`, tables over
  all pieces and moves); the rest is reasoning about what two reversible maps leave alone, for all algs. These are about the 3x3.
  `Props/Independent.lean` has the second part for all sizes and all kinds of moves: what two algs have in common is seen on one valid cube (`C120_every_size`);
  the pieces are moved by injective maps that do not look at how a piece is turned (the `PieceByPiece` of C84).
  `C120_setup_every_size` has the first part: how many pieces of each kind an alg changes is the same on all valid cubes of that size and not affected by set-up
  moves. `Props/Common.lean` has the third part (`C120_commutator_every_size`): the pieces a commutator changes are those on which the two algs do not commute, which
  are on, before or behind a piece that both change. So at most three times as many, for each kind; exactly three wings or centers if one is in common. For
  corners and edges "exactly three" needs that both algs bring the piece elsewhere: `Props/Away.lean`, `C120_three_every_size`, and that three times it does nothing is
  `C120_three_times_every_size`; both follow the common piece and its two neighbours. `C120_cycles_every_size`: every alg, commutator or not, that permutes three
  wings or centers of a kind has order three.
* **C121** `Props/NeverOne.lean`, over `countSystems`. A piece that is changed alone stays in its place, because the array is valid before and after. So it is turned
  there, which wings and centers cannot be, and which for corners and edges changes the sum of the orientations; corners and edges of every size move like those of the 3x3.
