import Verif.Spec.Heuristics
import Verif.Lemmas.CrossHeavy
import Mathlib.Tactic.Ring
import Mathlib.Tactic.Linarith

/-!
# Properties C29–C33: optimal solving, the cross, the Manhattan heuristic
-/

namespace Barbarosa

/-! ## C29 -/

/-- `solve` with the search written out -/
theorem returns_solve {K : Type} {ops : CostOps K} {h : Cube3 → K} {c : Cube3} {r}
    (hs : Returns (fun fuel => search? ops h Cube3.successors 200 fuel c Cube.isSolved) r) :
    Returns (fun fuel => Cube3.solveWithHeuristic? ops h fuel c) (r.map (·.1)) := by
  obtain ⟨F, hF⟩ := hs
  refine ⟨F, fun fuel hle => ?_⟩
  have e := hF fuel hle
  simp only at e
  show Cube3.solveWithHeuristic? ops h fuel c = _
  unfold Cube3.solveWithHeuristic? solve?
  rcases r with _ | ⟨alg, e'⟩
  · rw [e]; rfl
  · have := (C26_search_sound ops h Cube3.successors cube3_successors_true 200 fuel c Cube.isSolved alg e' e).2
    rw [e]
    simp [this]

/-- **C29** For every reachable cube and every integer-valued admissible heuristic `solve_with_heuristic` comes to an end and
returns an alg; it solves the cube; no alg that solves the cube is shorter. -/
theorem C29_optimal (h : Cube3 → ℚ) (hh : ∀ c, 0 ≤ h c) (hz : ∀ c, ∃ z : ℤ, h c = z)
    (ha : ∀ (c : Cube3) (alg : List AxisMove), movedAlg c alg = Cube3.SOLVED → h c ≤ alg.length)
    (c : Cube3) (hc : c.Reachable) :
    ∃ alg : List AxisMove, Returns (fun fuel => Cube3.solveWithHeuristic? exactOps h fuel c) (some alg) ∧
      movedAlg c alg = Cube3.SOLVED ∧
      (∀ alg' : List AxisMove, movedAlg c alg' = Cube3.SOLVED → alg.length ≤ alg'.length) ∧ alg.length ≤ 45 := by
  have key : ∀ c : Cube3, Cube.isSolved c = true ↔ c = Cube3.SOLVED := fun c => decide_eq_true_iff
  obtain ⟨w, hw1, hw2⟩ := lawful_solvable c ((C15_reachable_iff c).1.1 hc)
  obtain ⟨alg, h1, h2, h3⟩ := cube3_search_optimal Cube.isSolved h hh (fun c alg hs => ha c alg ((key _).1 hs)) hz 200 c w
    ((key _).2 hw2) (by omega)
  refine ⟨alg, returns_solve h1, (key _).1 h2, fun alg' h' => h3 alg' ((key _).2 h'), ?_⟩
  exact (h3 w ((key _).2 hw2)).trans hw1

/-- the constant 0 and a cube four moves away -/
example : ∃ alg : List AxisMove,
    Returns (fun fuel => Cube3.solveWithHeuristic? exactOps (fun _ => 0) fuel (movedAlg Cube3.SOLVED Perms.SEXY_MOVE)) (some alg) ∧
      alg.length ≤ 4 := by
  obtain ⟨alg, h1, -, h2, -⟩ := C29_optimal (fun _ => 0) (fun _ => le_rfl) (fun _ => ⟨0, by simp⟩) (fun _ _ _ => by simp)
    (movedAlg Cube3.SOLVED Perms.SEXY_MOVE) ⟨_, rfl⟩
  exact ⟨alg, h1, h2 (reversed Perms.SEXY_MOVE) (by decide +kernel)⟩

/-- there are finitely many states -/
@[instance_reducible] noncomputable def cube3Fintype : Fintype Cube3 :=
  Fintype.ofInjective (fun c => (c.edges, c.corners)) (by
    rintro ⟨e, c⟩ ⟨e', c'⟩ h
    simp only [Prod.mk.injEq] at h
    rw [h.1, h.2])

/-- **C29** For an unreachable cube it comes to an end and returns `None`, whatever the heuristic and the arithmetic. -/
theorem C29_unreachable {K : Type} (ops : CostOps K) (h : Cube3 → K) (c : Cube3) (hc : ¬ c.Reachable) :
    Returns (fun fuel => Cube3.solveWithHeuristic? ops h fuel c) none := by
  have : Fintype Cube3 := cube3Fintype
  obtain ⟨r, F, hF⟩ := C28_terminates_finite ops h Cube3.successors 200 c Cube.isSolved
  have : r = none := (C28_none ops h Cube3.successors Cube.isSolved 200 c F).1 (fun steps hw => by
    rw [← cube3_alg_of_walk hw]
    apply decide_eq_false
    intro hs
    exact hc ((reachable_solvable c).2 ⟨_, hs⟩)) r (hF F le_rfl)
  subst this
  exact returns_solve (r := none) ⟨F, hF⟩

/-- one flipped edge, with any heuristic -/
example (h : Cube3 → ℚ) : Returns (fun fuel => Cube3.solveWithHeuristic? exactOps h fuel oneFlip) none :=
  C29_unreachable exactOps h oneFlip fun hr =>
    (C15_single_defects Cube3.SOLVED ⟨[], rfl⟩).1 3 ((C15_reachable_iff _).2.1.2 ((C15_reachable_iff _).1.1 hr))

/-- **C29** In particular with the zero heuristic: a shortest solution for every reachable cube, `None` for the others. -/
theorem C29_zero (c : Cube3) :
    (c.Reachable → ∃ alg : List AxisMove,
      Returns (fun fuel => Cube3.solveWithHeuristic? exactOps zeroHeuristic fuel c) (some alg) ∧
      movedAlg c alg = Cube3.SOLVED ∧
      ∀ alg' : List AxisMove, movedAlg c alg' = Cube3.SOLVED → alg.length ≤ alg'.length) ∧
    (¬ c.Reachable → Returns (fun fuel => Cube3.solveWithHeuristic? exactOps zeroHeuristic fuel c) none) := by
  refine ⟨fun hc => ?_, C29_unreachable exactOps _ c⟩
  obtain ⟨alg, h1, h2, h3, -⟩ := C29_optimal zeroHeuristic (fun _ => le_rfl) (fun _ => ⟨0, by simp [zeroHeuristic]⟩)
    (fun _ _ _ => by simp [zeroHeuristic]) c hc
  exact ⟨alg, h1, h2, h3⟩

/-- a scramble of eighteen moves and a cube with a flipped edge -/
example : (∃ alg : List AxisMove,
      Returns (fun fuel => Cube3.solveWithHeuristic? exactOps zeroHeuristic fuel (movedAlg Cube3.SOLVED (Perms.T ++ Perms.SEXY_MOVE))) (some alg) ∧
      movedAlg (movedAlg Cube3.SOLVED (Perms.T ++ Perms.SEXY_MOVE)) alg = Cube3.SOLVED) ∧
    Returns (fun fuel => Cube3.solveWithHeuristic? exactOps zeroHeuristic fuel oneFlip) none := by
  obtain ⟨alg, h1, h2, -⟩ := (C29_zero (movedAlg Cube3.SOLVED (Perms.T ++ Perms.SEXY_MOVE))).1 ⟨_, rfl⟩
  exact ⟨⟨alg, h1, h2⟩, (C29_zero oneFlip).2 fun hr =>
    (C15_single_defects Cube3.SOLVED ⟨[], rfl⟩).1 3 ((C15_reachable_iff _).2.1.2 ((C15_reachable_iff _).1.1 hr))⟩

/-- **C29** The same in floating point arithmetic, for heuristics with values in a range in which floats count exactly. -/
theorem C29_floats {K : Type} {ops : CostOps K} {q : Nat} {R : ℚ} (fl : FloatLike ops q R) (h : Cube3 → K) (H : ℚ)
    (hok : ∀ c, fl.ok (h c)) (h0 : ∀ c, 0 ≤ fl.val (h c)) (hz : ∀ c, ∃ z : ℤ, fl.val (h c) = z)
    (hH : ∀ c, fl.val (h c) ≤ H) (hR : 2 * H + 201 ≤ R)
    (ha : ∀ (c : Cube3) (alg : List AxisMove), movedAlg c alg = Cube3.SOLVED → fl.val (h c) ≤ alg.length) (c : Cube3) :
    (c.Reachable → ∃ alg : List AxisMove, Returns (fun fuel => Cube3.solveWithHeuristic? ops h fuel c) (some alg) ∧
      movedAlg c alg = Cube3.SOLVED ∧
      ∀ alg' : List AxisMove, movedAlg c alg' = Cube3.SOLVED → alg.length ≤ alg'.length) ∧
    (¬ c.Reachable → Returns (fun fuel => Cube3.solveWithHeuristic? ops h fuel c) none) := by
  refine ⟨fun hc => ?_, C29_unreachable ops _ c⟩
  obtain ⟨alg, ⟨F, hF⟩, h2, h3, -⟩ := C29_optimal (fun c => fl.val (h c)) h0 hz ha c hc
  refine ⟨alg, ⟨F, fun fuel hle => ?_⟩, h2, h3⟩
  rw [← hF fuel hle]
  show Cube3.solveWithHeuristic? ops h fuel c = Cube3.solveWithHeuristic? exactOps (fun c => fl.val (h c)) fuel c
  unfold Cube3.solveWithHeuristic? solve?
  rw [C28_floats fl h H hok (fun c => by
      obtain ⟨z, hz⟩ := hz c
      exact ⟨q * z, by rw [hz]; push_cast; rfl⟩) h0 hH Cube3.successors Cube.isSolved 200 c (by
      have := hH c
      norm_num
      linarith) fuel]

/-- a reachable cube (six turns away), the zero heuristic and a heuristic that is not constant -/
example : Cube3.Reachable (movedAlg Cube3.SOLVED Perms.SEXY_MOVE) ∧
    (∀ (c : Cube3) (alg : List AxisMove), movedAlg c alg = Cube3.SOLVED →
      (if c = Cube3.SOLVED then (0 : ℚ) else 1) ≤ alg.length) ∧ ¬ oneFlip.Reachable := by
  refine ⟨⟨_, rfl⟩, fun c alg h => ?_, fun h => ?_⟩
  · split
    · positivity
    · rename_i hne
      rcases alg with _ | ⟨m, l⟩
      · exact absurd h hne
      · push_cast [List.length_cons]
        have : (0 : ℚ) ≤ l.length := by positivity
        linarith
  · have := ((C15_reachable_iff oneFlip).1.1 h).flips
    revert this
    decide +kernel

/-- one turn away: the search finds the inverse turn -/
example : Cube3.solveWithHeuristic? exactOps zeroHeuristic 3 (moved Cube3.SOLVED (⟨Face.R, .single⟩ : AxisMove)) =
    some (some [⟨Face.R, .inverse⟩]) := by decide +kernel

/-! ## C30 -/

/-- **C30** `min_moves_to_solve(home, edge)` is the length of a shortest alg that brings the edge to its home, oriented, and
is at most 3. -/
theorem C30_exact (home : Edge.Pos) (e : Edge) :
    (∃ alg : List AxisMove, alg.length = Edge.minMovesToSolve home e ∧
      (movedAlg e alg).position = home ∧ (movedAlg e alg).oriented = true) ∧
    (∀ alg : List AxisMove, (movedAlg e alg).position = home → (movedAlg e alg).oriented = true →
      Edge.minMovesToSolve home e ≤ alg.length) ∧
    Edge.minMovesToSolve home e ≤ 3 := by
  refine ⟨?_, fun alg h1 h2 => minMoves_lower home e alg ?_, minMoves_le home e⟩
  · obtain ⟨alg, h1, h2⟩ := minMoves_reached home _ e rfl
    exact ⟨alg, h1, by rw [h2]; rfl, by rw [h2]⟩
  · rcases home with ⟨a, v⟩
    have h3 : (movedAlg e alg).normalAxis = a := congrArg Prod.fst h1
    have h4 : (movedAlg e alg).slicePosition = v := congrArg Prod.snd h1
    rw [← h3, ← h4, ← h2]

/-- all four values occur -/
example : ∀ k : Fin 4, ∃ home e, Edge.minMovesToSolve home e = k.val := by decide +kernel

/-! ## C32 -/

theorem isCrossEdge_iff : ∀ (p : Edge.Pos) (f : Face), isCrossEdge p f = true ↔ Edge.Touches p f := by decide +kernel

/-- **C32** `get_cross_pieces` never panics; it lists each edge position that touches the face once and nothing else;
`is_cross_edge` says yes on exactly those; there are four. -/
theorem C32_positions (f : Face) :
    ∃ l, getCrossPieces? f = some l ∧ l.Nodup ∧ l.length = 4 ∧
      (∀ p, p ∈ l ↔ Edge.Touches p f) ∧ ∀ p, isCrossEdge p f = true ↔ Edge.Touches p f := by
  have h : ∀ f : Face, ((getCrossPieces? f).getD []).Nodup ∧ ((getCrossPieces? f).getD []).length = 4 ∧
      (∀ p, p ∈ (getCrossPieces? f).getD [] ↔ Edge.Touches p f) ∧ getCrossPieces? f ≠ none := by decide +kernel
  obtain ⟨h1, h2, h3, h4⟩ := h f
  obtain ⟨l, hl⟩ := Option.ne_none_iff_exists'.1 h4
  rw [hl] at h1 h2 h3
  exact ⟨l, hl, h1, h2, h3, fun p => isCrossEdge_iff p f⟩

/-- the four places of the cross of D -/
example : (getCrossPieces? Face.D).map List.length = some 4 := by
  obtain ⟨l, h1, -, h2, -⟩ := C32_positions Face.D
  rw [h1]
  exact congrArg some h2

/-- **C32** `count_cross_pieces` is the number of homes touching the face whose edge is in place and oriented; at most 4, and 4
exactly when the cross is solved. -/
theorem C32_count (c : Cube3) (f : Face) :
    countCrossPieces c f = (Finset.univ.filter fun i : Fin 12 =>
      Edge.Touches (Edge.REFERENCE_POSITIONS i) f ∧ c.edges i = PieceSet.SOLVED Edge i).card ∧
    countCrossPieces c f ≤ 4 ∧ (countCrossPieces c f = 4 ↔ c.CrossSolved f) := by
  refine ⟨?_, ?_, ?_⟩
  · rw [countCrossPieces_eq, crossSlots, List.filter_filter]
    have hnd : ((List.finRange 12).filter fun i => decide (c.edges i = PieceSet.SOLVED Edge i) &&
        isCrossEdge (Edge.REFERENCE_POSITIONS i) f).Nodup := (List.nodup_finRange 12).filter _
    rw [← List.toFinset_card_of_nodup hnd]
    congr 1
    ext i
    simp only [List.mem_toFinset, List.mem_filter, List.mem_finRange, true_and, Bool.and_eq_true, decide_eq_true_eq,
      isCrossEdge_iff, Finset.mem_filter, Finset.mem_univ]
    tauto
  · rw [countCrossPieces_eq, ← crossSlots_length f]
    exact List.length_filter_le _ _
  · have := countCrossPieces_four c f
    rw [beq_iff_eq] at this
    rw [this]
    exact forall_congr' fun i => by rw [isCrossEdge_iff]

/-- on the solved cube 4; after `R` one edge of the cross of `U` has left, all of `R` have moved, none of `L` -/
example : countCrossPieces Cube3.SOLVED Face.U = 4 ∧
    countCrossPieces (moved Cube3.SOLVED (⟨Face.R, .single⟩ : AxisMove)) Face.U = 3 ∧
    countCrossPieces (moved Cube3.SOLVED (⟨Face.R, .single⟩ : AxisMove)) Face.R = 0 ∧
    countCrossPieces (moved Cube3.SOLVED (⟨Face.R, .single⟩ : AxisMove)) Face.L = 4 := by decide +kernel

/-! ## C31 -/

/-- the heuristic of `solve_cross` is an integer between 0 and 3 and never more than the number of moves left -/
theorem worseCross_props (c : Cube3) (f : Face) :
    0 ≤ worseCrossHeuristic c f ∧ worseCrossHeuristic c f ≤ 3 ∧ (∃ z : ℤ, worseCrossHeuristic c f = z) ∧
    ∀ alg : List AxisMove, (countCrossPieces (movedAlg c alg) f == 4) = true → worseCrossHeuristic c f ≤ alg.length := by
  obtain ⟨-, n, hn, e⟩ := worseCrossHeuristic?_eq c f
  rw [e]
  refine ⟨by positivity, by exact_mod_cast crossMoves_le n hn, ⟨n, by simp⟩, fun alg h => ?_⟩
  exact_mod_cast crossMoves_lower h n hn

/-- the cross heuristics never panic, and the one of `solve_cross` never overestimates -/
theorem C31_heuristic (c : Cube3) (f : Face) :
    worseCrossHeuristic? c f = some (worseCrossHeuristic c f) ∧
    ∀ alg : List AxisMove, (movedAlg c alg).CrossSolved f → worseCrossHeuristic c f ≤ alg.length :=
  ⟨(worseCrossHeuristic?_eq c f).1, fun alg h => (worseCross_props c f).2.2.2 alg
    (beq_iff_eq.2 ((C32_count _ f).2.2.2 h))⟩

/-- after the sexy move -/
example : worseCrossHeuristic (movedAlg Cube3.SOLVED Perms.SEXY_MOVE) Face.U ≤ 4 :=
  (C31_heuristic (movedAlg Cube3.SOLVED Perms.SEXY_MOVE) Face.U).2 (reversed Perms.SEXY_MOVE) (by decide +kernel)

/-- **C31** For every valid cube (reachable or not) and every face, `solve_cross` comes to an end and returns an alg and a
cube: the cube is the result of the alg, the cross of the face is solved in it, and no shorter alg solves the cross. The
alg has at most eight moves (C91). -/
theorem C31_solve_cross (c : Cube3) (hv : c.valid) (f : Face) :
    ∃ (alg : List AxisMove) (d : Cube3), Returns (fun fuel => solveCross? fuel c f) (some (alg, d)) ∧
      movedAlg c alg = d ∧ d.CrossSolved f ∧
      (∀ alg' : List AxisMove, (movedAlg c alg').CrossSolved f → alg.length ≤ alg'.length) ∧ alg.length ≤ 8 := by
  have key : ∀ d : Cube3, (countCrossPieces d f == 4) = true ↔ d.CrossSolved f := fun d => by
    rw [beq_iff_eq]; exact (C32_count d f).2.2
  obtain ⟨he, -⟩ := (valid_iff c).1 hv
  obtain ⟨w, hw1, hw2⟩ := cross_exists c he f
  obtain ⟨alg, h1, h2, h3⟩ := cube3_search_optimal (fun c => countCrossPieces c f == 4) (fun c => worseCrossHeuristic c f)
    (fun c => (worseCross_props c f).1) (fun c alg h => (worseCross_props c f).2.2.2 alg h)
    (fun c => (worseCross_props c f).2.2.1) 200 c w hw2 (by omega)
  exact ⟨alg, _, h1, rfl, (key _).1 h2, fun alg' h' => h3 alg' ((key _).2 h'), (h3 w hw2).trans hw1⟩

/-- with a flipped edge somewhere, on a cube that cannot be solved -/
example : ∃ (alg : List AxisMove) (d : Cube3), Returns (fun fuel => solveCross? fuel oneFlip Face.U) (some (alg, d)) ∧ d.CrossSolved Face.U := by
  obtain ⟨alg, d, h1, -, h2, -⟩ := C31_solve_cross oneFlip (by unfold Cube3.valid; decide +kernel) Face.U
  exact ⟨alg, d, h1, h2⟩

theorem crossEdgeMoves_sum (c : Cube3) (f : Face) : (crossEdgeMoves c f).sum =
    ∑ k, Edge.minMovesToSolve (Edge.REFERENCE_POSITIONS (Bits.slot f k)) (c.edges (Bits.slot f k)) := by
  rw [crossEdgeMoves_eq]
  have : crossSlots f = [Bits.slot f 0, Bits.slot f 1, Bits.slot f 2, Bits.slot f 3] := by revert f; decide +kernel
  rw [this, Fin.sum_univ_four]
  simp only [List.map_cons, List.map_nil, List.sum_cons, List.sum_nil]
  omega

/-- the heuristic of `solve_cross_fast`: half integers between 0 and 6, at most one more than the number of moves left -/
theorem goodCross_props (c : Cube3) (f : Face) :
    0 ≤ goodCrossHeuristic c f ∧ goodCrossHeuristic c f ≤ 6 ∧ (∃ z : ℤ, (2 : ℚ) * goodCrossHeuristic c f = z) ∧
    ∀ alg : List AxisMove, (countCrossPieces (movedAlg c alg) f == 4) = true → goodCrossHeuristic c f ≤ alg.length + 1 := by
  have hl := crossEdgeMoves_length c f
  have hs : ∀ B, (∀ n ∈ crossEdgeMoves c f, n ≤ B) → goodCrossHeuristic c f ≤ 2 * (B : ℚ) := by
    intro B hB
    have := List.sum_le_card_nsmul _ B hB
    rw [hl, smul_eq_mul] at this
    have h' : (((crossEdgeMoves c f).sum : ℕ) : ℚ) ≤ 4 * B := by exact_mod_cast this
    unfold goodCrossHeuristic
    linarith
  refine ⟨?_, ?_, ⟨((crossEdgeMoves c f).sum : ℕ), ?_⟩, fun alg h => ?_⟩
  · unfold goodCrossHeuristic
    positivity
  · have := hs 3 crossMoves_le
    norm_num at this
    exact this
  · unfold goodCrossHeuristic
    rw [Int.cast_natCast]
    ring
  · have h1 := Bits.need_le f (fun k => c.edges (Bits.slot f k)) alg ((cross_iff_homes c alg f).1 h)
    rw [← crossEdgeMoves_sum] at h1
    have h2 : (((crossEdgeMoves c f).sum : ℕ) : ℚ) ≤ 2 * alg.length + 2 := by exact_mod_cast h1
    unfold goodCrossHeuristic
    linarith

/-- **C31** `solve_cross_fast` also ends on every valid cube and returns a solution of the cross together with the resulting
cube; it has at most one move more than any other solution, hence at most nine. -/
theorem C31_solve_cross_fast (c : Cube3) (hv : c.valid) (f : Face) :
    ∃ (alg : List AxisMove) (d : Cube3), Returns (fun fuel => solveCrossFast? fuel c f) (some (alg, d)) ∧
      movedAlg c alg = d ∧ d.CrossSolved f ∧
      (∀ alg' : List AxisMove, (movedAlg c alg').CrossSolved f → alg.length ≤ alg'.length + 1) ∧ alg.length ≤ 9 := by
  have key : ∀ d : Cube3, (countCrossPieces d f == 4) = true ↔ d.CrossSolved f := fun d => by
    rw [beq_iff_eq]; exact (C32_count d f).2.2
  obtain ⟨he, -⟩ := (valid_iff c).1 hv
  have bound : ∀ w : List AxisMove, (countCrossPieces (movedAlg c w) f == 4) = true →
      ∃ steps, IsWalk Cube3.successors c steps ∧ (countCrossPieces (walkEnd c steps) f == 4) = true ∧
        (c :: steps.map (·.1)).Nodup ∧ steps.length ≤ w.length ∧
        ∀ pre suf, steps = pre ++ suf → (pre.length : ℚ) + goodCrossHeuristic (walkEnd c pre) f ≤ w.length + 1 := by
    intro w hw
    obtain ⟨st0, h1, h2, h3⟩ := cube3_walk_of_alg c w
    obtain ⟨st, g1, g2, g3, g4, -⟩ := exists_simple_walk st0.length c st0 le_rfl h1
    have hlen : st0.length = w.length := by rw [← h2, List.length_map]
    have ht : (countCrossPieces (walkEnd c st) f == 4) = true := by rw [g2, h3]; exact hw
    refine ⟨st, g1, ht, g4, by omega, ?_⟩
    rintro pre suf rfl
    obtain ⟨-, k2⟩ := isWalk_append.1 g1
    have k3 := (goodCross_props (walkEnd c pre) f).2.2.2 (suf.map (·.2)) (by
      rw [cube3_alg_of_walk k2, ← walkEnd_append]; exact ht)
    have k5 : ((pre.length + suf.length : ℕ) : ℚ) ≤ w.length := by
      rw [List.length_append] at g3
      exact_mod_cast g3.trans hlen.le
    rw [List.length_map] at k3
    push_cast at k5
    linarith
  obtain ⟨w, hw1, hw2⟩ := cross_exists c he f
  obtain ⟨r, F, hF⟩ := C28_terminates_nonneg (fun c => goodCrossHeuristic c f) (fun c => (goodCross_props c f).1)
    Cube3.successors 200 c (fun c => countCrossPieces c f == 4)
  have hs := hF F le_rfl
  rcases r with _ | ⟨alg, d⟩
  · exfalso
    obtain ⟨st, g1, g2, g3, g4, g5⟩ := bound w hw2
    refine C28_complete_general (fun c => goodCrossHeuristic c f) Cube3.successors (fun c => countCrossPieces c f == 4) 2
      (by norm_num) (fun c => by simpa using (goodCross_props c f).2.2.1) 200 F c st g1 g2 g3 (w.length + 1) g5 ?_ hs
    have h0 := (goodCross_props c f).1
    have h1 : (w.length : ℚ) ≤ 8 := by exact_mod_cast hw1
    norm_num
    linarith
  · obtain ⟨h1, h2⟩ := C26_search_sound exactOps _ Cube3.successors cube3_successors_true 200 F c _ alg d hs
    have hb : ∀ alg' : List AxisMove, (movedAlg c alg').CrossSolved f → alg.length ≤ alg'.length + 1 := ?_
    · exact ⟨alg, d, ⟨F, hF⟩, h1, (key _).1 h2, hb, (hb w ((key _).1 hw2)).trans (by omega)⟩
    intro alg' h'
    obtain ⟨st, g1, g2, g3, g4, g5⟩ := bound alg' ((key _).2 h')
    have := C27_bounded (fun c => goodCrossHeuristic c f) Cube3.successors (fun c => countCrossPieces c f == 4)
      (fun c => (goodCross_props c f).1) 200 F c alg d hs st g1 g2 g3 (alg'.length + 1) g5
    exact_mod_cast this

/-- one move more at most -/
example : ∃ (alg : List AxisMove) (d : Cube3),
    Returns (fun fuel => solveCrossFast? fuel (movedAlg Cube3.SOLVED Perms.SEXY_MOVE) Face.U) (some (alg, d)) ∧ alg.length ≤ 5 := by
  obtain ⟨alg, d, h1, -, -, h2, -⟩ := C31_solve_cross_fast (movedAlg Cube3.SOLVED Perms.SEXY_MOVE)
    (C08_cubes.2.1 _ _ C08_solved_valid.2.1) Face.U
  exact ⟨alg, d, h1, h2 (reversed Perms.SEXY_MOVE) (by decide +kernel)⟩

/-- **C31** With the `f32` arithmetic of the code the two functions return the same as with exact arithmetic, provided the
heuristic values themselves are computed exactly (they are halves of integers up to 12). -/
theorem C31_floats {K : Type} {ops : CostOps K} {R : ℚ} (fl : FloatLike ops 16 R) (hR : 213 ≤ R) (f : Face)
    (h : Cube3 → K) (hok : ∀ c, fl.ok (h c)) (fuel : Nat) (c : Cube3) :
    ((∀ c, fl.val (h c) = worseCrossHeuristic c f) → solveCrossDirectly? ops fuel c f h = solveCross? fuel c f) ∧
    ((∀ c, fl.val (h c) = goodCrossHeuristic c f) → solveCrossDirectly? ops fuel c f h = solveCrossFast? fuel c f) := by
  constructor
  · intro hv
    have := C28_floats fl h 6 hok (fun c => by
      obtain ⟨z, hz⟩ := (worseCross_props c f).2.2.1
      exact ⟨16 * z, by rw [hv, hz]; push_cast; rfl⟩) (fun c => by rw [hv]; exact (worseCross_props c f).1)
      (fun c => by rw [hv]; linarith [(worseCross_props c f).2.1]) Cube3.successors (fun c => countCrossPieces c f == 4)
      200 c (by rw [hv]; norm_num; linarith [(worseCross_props c f).2.1]) fuel
    simp only [hv] at this
    exact this
  · intro hv
    have := C28_floats fl h 6 hok (fun c => by
      obtain ⟨z, hz⟩ := (goodCross_props c f).2.2.1
      refine ⟨8 * z, ?_⟩
      rw [hv]; push_cast; rw [← hz]; ring) (fun c => by rw [hv]; exact (goodCross_props c f).1)
      (fun c => by rw [hv]; exact (goodCross_props c f).2.1) Cube3.successors (fun c => countCrossPieces c f == 4)
      200 c (by rw [hv]; norm_num; linarith [(goodCross_props c f).2.1]) fuel
    simp only [hv] at this
    exact this

/-- a cube with an unsolved cross; a single edge flipped is not reachable but still valid -/
example : (movedAlg Cube3.SOLVED Perms.SEXY_MOVE).valid ∧ ¬ (movedAlg Cube3.SOLVED Perms.SEXY_MOVE).CrossSolved Face.U ∧
    oneFlip.valid ∧ Cube3.CrossSolved Cube3.SOLVED Face.U := by
  refine ⟨?_, by decide +kernel, ?_, by decide +kernel⟩ <;> unfold Cube3.valid <;> decide +kernel

/-! ## C33 -/

theorem pieceSetManhattan_eq {P : Type} {n : Nat} [PieceSetDescriptor P n] [Coordinates P] (s : PieceSet P n) :
    pieceSetManhattan s = ∑ i, pieceManhattan (PieceSetDescriptor.REFERENCE_POSITIONS (P := P) i) (s i) := by
  unfold pieceSetManhattan
  rw [PieceSet.iterWithPos_eq, List.map_ofFn, List.sum_ofFn]
  rfl

/-- **C33** is false: one half turn away from solved the heuristic says one and a half. -/
theorem C33_overestimates :
    manhattan (moved Cube3.SOLVED (⟨Face.R, .double⟩ : AxisMove)) = 3 / 2 ∧
    movedAlg (moved Cube3.SOLVED (⟨Face.R, .double⟩ : AxisMove)) [(⟨Face.R, .double⟩ : AxisMove)] = Cube3.SOLVED := by
  constructor
  · unfold manhattan
    have : pieceSetManhattan (moved Cube3.SOLVED (⟨Face.R, .double⟩ : AxisMove)).edges +
      pieceSetManhattan (moved Cube3.SOLVED (⟨Face.R, .double⟩ : AxisMove)).corners = 24 := by decide +kernel
    rw [this]
    norm_num
  · decide +kernel

theorem vecManhattan_triangle (a b c : Int × Int × Int) : vecManhattan a c ≤ vecManhattan a b + vecManhattan b c := by
  unfold vecManhattan
  have h1 := abs_sub_le a.1 b.1 c.1
  have h2 := abs_sub_le a.2.1 b.2.1 c.2.1
  have h3 := abs_sub_le a.2.2 b.2.2 c.2.2
  omega

/-- how far a move carries the piece at a position -/
def edgeTravel (m : AxisMove) (p : Edge.Pos) : Int :=
  vecManhattan (Coordinates.coordinatesPos (P := Edge) p)
    (Coordinates.coordinatesPos (P := Edge) (Piece.position (moved (⟨p.1, p.2, true⟩ : Edge) m)))

/-- how far a move carries the piece at a position -/
def cornerTravel (m : AxisMove) (p : Vec3) : Int :=
  vecManhattan (Coordinates.coordinatesPos (P := Corner) p)
    (Coordinates.coordinatesPos (P := Corner) (Piece.position (moved (⟨p, .X⟩ : Corner) m)))

theorem travel_sum : ∀ m : AxisMove, (∑ i, edgeTravel m (Edge.REFERENCE_POSITIONS i)) +
    (∑ i, cornerTravel m (Corner.REFERENCE_POSITIONS i)) = match m.amount with | .double => 24 | _ => 16 := by
  decide +kernel

theorem edgeTravel_pos (m : AxisMove) (e : Edge) : edgeTravel m (Piece.position e) =
    vecManhattan (Coordinates.coordinatesPos (P := Edge) (Piece.position e))
      (Coordinates.coordinatesPos (P := Edge) (Piece.position (moved e m))) := by
  revert m e
  decide +kernel

theorem cornerTravel_pos (m : AxisMove) (e : Corner) : cornerTravel m (Piece.position e) =
    vecManhattan (Coordinates.coordinatesPos (P := Corner) (Piece.position e))
      (Coordinates.coordinatesPos (P := Corner) (Piece.position (moved e m))) := by
  revert m e
  decide +kernel

/-- one move lowers the sums of distances by at most 16, or 24 if it is a half turn -/
theorem manhattan_step (c : Cube3) (he : c.edges.Valid) (hc : c.corners.Valid) (m : AxisMove) :
    pieceSetManhattan c.edges + pieceSetManhattan c.corners ≤
      pieceSetManhattan (moved c m).edges + pieceSetManhattan (moved c m).corners +
        match m.amount with | .double => 24 | _ => 16 := by
  obtain ⟨σ, hσ⟩ := he.arranged
  obtain ⟨τ, hτ⟩ := hc.arranged
  rw [← travel_sum m]
  have h1 : ∑ i, edgeTravel m (Piece.position (c.edges i)) = _ := Arranged.sum hσ (edgeTravel m)
  have h2 : ∑ i, cornerTravel m (Piece.position (c.corners i)) = _ := Arranged.sum hτ (cornerTravel m)
  have e1 : pieceSetManhattan c.edges ≤
      pieceSetManhattan (moved c m).edges + ∑ i, edgeTravel m (Edge.REFERENCE_POSITIONS i) := by
    refine le_trans ?_ (add_le_add_right h1.le _)
    rw [pieceSetManhattan_eq, pieceSetManhattan_eq, ← Finset.sum_add_distrib]
    refine Finset.sum_le_sum fun i _ => ?_
    rw [edgeTravel_pos, add_comm]
    exact vecManhattan_triangle _ _ _
  have e2 : pieceSetManhattan c.corners ≤
      pieceSetManhattan (moved c m).corners + ∑ i, cornerTravel m (Corner.REFERENCE_POSITIONS i) := by
    refine le_trans ?_ (add_le_add_right h2.le _)
    rw [pieceSetManhattan_eq, pieceSetManhattan_eq, ← Finset.sum_add_distrib]
    refine Finset.sum_le_sum fun i _ => ?_
    rw [cornerTravel_pos, add_comm]
    exact vecManhattan_triangle _ _ _
  linarith

/-- **C33**, what is true: `manhattan` is at most the number of moves of any alg that solves the cube if half turns count one
and a half times; so two thirds of it never overestimate, and it never overestimates algs of quarter turns. Missing: the
claim for algs with half turns, which is false (`C33_overestimates`). -/
theorem C33_partial (c : Cube3) (alg : List AxisMove) (h : movedAlg c alg = Cube3.SOLVED) :
    manhattan c ≤ weightedLength alg ∧ 2 / 3 * manhattan c ≤ alg.length ∧
    ((∀ m ∈ alg, m.amount ≠ .double) → manhattan c ≤ alg.length) ∧ 0 ≤ manhattan c ∧ ∃ z : ℤ, 16 * manhattan c = z := by
  have h1 : manhattan c ≤ weightedLength alg := by
    have hl : c.Lawful := (C15_reachable_iff c).2.1.1 ⟨alg, h⟩
    have he := hl.edges_valid
    have hc := hl.corners_valid
    clear hl
    induction alg generalizing c with
    | nil =>
      have : c = Cube3.SOLVED := h
      subst this
      have h0 : pieceSetManhattan Cube3.SOLVED.edges + pieceSetManhattan Cube3.SOLVED.corners = 0 := by decide +kernel
      unfold manhattan
      rw [h0]
      simp [weightedLength]
    | cons m l ih =>
      obtain ⟨v1, v2⟩ := valid_alg c he hc [m]
      have h2 := ih (moved c m) h v1 v2
      have h3 := manhattan_step c he hc m
      have h4 : ((pieceSetManhattan c.edges + pieceSetManhattan c.corners : Int) : ℚ) ≤
        ((pieceSetManhattan (moved c m).edges + pieceSetManhattan (moved c m).corners +
          match m.amount with | .double => 24 | _ => 16 : Int) : ℚ) := by exact_mod_cast h3
      unfold manhattan at h2 ⊢
      rcases m with ⟨f, _ | _ | _⟩ <;> simp only [weightedLength] at h4 ⊢ <;> push_cast at h2 h4 ⊢ <;> linarith
  have h2 : weightedLength alg ≤ 3 / 2 * alg.length := by
    clear h h1
    induction alg with
    | nil => simp [weightedLength]
    | cons m l ih =>
      rcases m with ⟨f, _ | _ | _⟩ <;> simp only [weightedLength, List.length_cons] <;> push_cast <;> linarith
  refine ⟨h1, by linarith, fun hq => h1.trans ?_, ?_, pieceSetManhattan c.edges + pieceSetManhattan c.corners, ?_⟩
  · clear h h1 h2
    induction alg with
    | nil => simp [weightedLength]
    | cons m l ih =>
      have h3 := ih fun m hm => hq m (List.mem_cons_of_mem _ hm)
      have h4 := hq m List.mem_cons_self
      rcases m with ⟨f, _ | _ | _⟩ <;> simp only [weightedLength, List.length_cons] <;> push_cast <;>
        first | linarith | exact absurd rfl h4
  · have : ∀ a b, 0 ≤ vecManhattan a b := fun a b => by unfold vecManhattan; positivity
    have e1 : 0 ≤ pieceSetManhattan c.edges := by
      rw [pieceSetManhattan_eq]; exact Finset.sum_nonneg fun i _ => this _ _
    have e2 : 0 ≤ pieceSetManhattan c.corners := by
      rw [pieceSetManhattan_eq]; exact Finset.sum_nonneg fun i _ => this _ _
    unfold manhattan
    have : (0 : ℚ) ≤ ((pieceSetManhattan c.edges + pieceSetManhattan c.corners : Int) : ℚ) := by exact_mod_cast add_nonneg e1 e2
    positivity
  · unfold manhattan
    ring

/-- the bounds are reached: `R` has distance 1, `R2` one and a half -/
example : weightedLength [⟨Face.R, .single⟩, ⟨Face.U, .double⟩] = 5 / 2 ∧
    manhattan (moved Cube3.SOLVED (⟨Face.R, .single⟩ : AxisMove)) = 1 := by
  constructor
  · norm_num [weightedLength]
  · unfold manhattan
    have : pieceSetManhattan (moved Cube3.SOLVED (⟨Face.R, .single⟩ : AxisMove)).edges +
      pieceSetManhattan (moved Cube3.SOLVED (⟨Face.R, .single⟩ : AxisMove)).corners = 16 := by decide +kernel
    rw [this]
    norm_num

end Barbarosa
