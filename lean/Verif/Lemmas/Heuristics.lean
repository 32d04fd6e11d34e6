import Verif.Model.Heuristics
import Verif.Lemmas.CrossBfs
import Verif.Props.Algs
import Verif.Props.Search
import Verif.Props.Invariants

/-!
# Heuristics: lemmas
-/

namespace Barbarosa

/-! ## Algs of the 3x3 and walks along its successors -/

theorem mem_allMoves : ∀ m : AxisMove, m ∈ AxisMove.all := C37_axis_moves.2.1

theorem cube3_walk_of_alg (c : Cube3) (alg : List AxisMove) :
    ∃ steps, IsWalk Cube3.successors c steps ∧ steps.map (·.2) = alg ∧ walkEnd c steps = movedAlg c alg := by
  induction alg generalizing c with
  | nil => exact ⟨[], trivial, rfl, rfl⟩
  | cons m l ih =>
    obtain ⟨steps, h1, h2, h3⟩ := ih (moved c m)
    refine ⟨(moved c m, m) :: steps, ⟨?_, h1⟩, by simp [h2], h3⟩
    exact List.mem_map.2 ⟨m, mem_allMoves m, rfl⟩

theorem cube3_alg_of_walk {c : Cube3} {steps : List (Cube3 × AxisMove)} (h : IsWalk Cube3.successors c steps) :
    movedAlg c (steps.map (·.2)) = walkEnd c steps := walk_moved cube3_successors_true h

/-- admissible in terms of algs -/
theorem cube3_admissible_iff (isTarget : Cube3 → Bool) (h : Cube3 → ℚ) :
    Admissible Cube3.successors isTarget h ↔ ∀ c alg, isTarget (movedAlg c alg) = true → h c ≤ (alg : List AxisMove).length := by
  constructor
  · intro ha c alg ht
    obtain ⟨steps, h1, rfl, h3⟩ := cube3_walk_of_alg c alg
    have := ha c steps h1 (by rw [h3]; exact ht)
    simpa using this
  · intro ha c steps hw ht
    have := ha c (steps.map (·.2)) (by rw [cube3_alg_of_walk hw]; exact ht)
    simpa using this

/-- Searching a 3x3 with an integer heuristic that is admissible: always the shortest alg, if there is one within the
depth limit. -/
theorem cube3_search_optimal (isTarget : Cube3 → Bool) (h : Cube3 → ℚ) (hh : ∀ c, 0 ≤ h c)
    (ha : ∀ c alg, isTarget (movedAlg c alg) = true → h c ≤ (alg : List AxisMove).length)
    (hz : ∀ c, ∃ z : ℤ, h c = z) (n : Nat) (c : Cube3) (w : List AxisMove) (hw : isTarget (movedAlg c w) = true)
    (hn : w.length ≤ n) :
    ∃ alg : List AxisMove,
      Returns (fun fuel => search? exactOps h Cube3.successors n fuel c isTarget) (some (alg, movedAlg c alg)) ∧
      isTarget (movedAlg c alg) = true ∧
      ∀ alg' : List AxisMove, isTarget (movedAlg c alg') = true → alg.length ≤ alg'.length := by
  have ha' := (cube3_admissible_iff isTarget h).2 ha
  obtain ⟨steps, h1, h2, h3⟩ := cube3_walk_of_alg c w
  obtain ⟨alg, e, F, hF⟩ := (C28_integer h Cube3.successors isTarget hh ha' hz n c).2
    ⟨steps, h1, by rw [h3]; exact hw, by
      have h4 : steps.length = w.length := by rw [← h2, List.length_map]
      have h5 : (steps.length : ℚ) ≤ n := by rw [h4]; exact_mod_cast hn
      have := hh c
      push_cast
      linarith⟩
  have hs := hF F le_rfl
  obtain ⟨rfl, h5⟩ := C26_search_sound exactOps h Cube3.successors cube3_successors_true n F c isTarget alg e hs
  refine ⟨alg, ⟨F, hF⟩, h5, fun alg' h' => ?_⟩
  obtain ⟨st, h6, rfl, h8⟩ := cube3_walk_of_alg c alg'
  have := C27_optimal h Cube3.successors isTarget hh ha' n F c alg _ hs st h6 (by rw [h8]; exact h')
  simpa using this

/-! ## One edge -/

theorem minMoves_zero : ∀ (orig : Edge.Pos) (e : Edge),
    Edge.minMovesToSolve orig e = 0 ↔ e = ⟨orig.1, orig.2, true⟩ := by decide +kernel

theorem minMoves_le : ∀ (orig : Edge.Pos) (e : Edge), Edge.minMovesToSolve orig e ≤ 3 := by decide +kernel

theorem minMoves_step : ∀ (m : AxisMove) (orig : Edge.Pos) (e : Edge),
    Edge.minMovesToSolve orig e ≤ Edge.minMovesToSolve orig (moved e m) + 1 := by decide +kernel

theorem minMoves_down : ∀ (orig : Edge.Pos) (e : Edge), Edge.minMovesToSolve orig e ≠ 0 →
    ∃ m : AxisMove, Edge.minMovesToSolve orig (moved e m) + 1 = Edge.minMovesToSolve orig e := by decide +kernel

/-- the value is a lower bound -/
theorem minMoves_lower (orig : Edge.Pos) (e : Edge) (alg : List AxisMove)
    (h : movedAlg e alg = ⟨orig.1, orig.2, true⟩) : Edge.minMovesToSolve orig e ≤ alg.length := by
  induction alg generalizing e with
  | nil => exact ((minMoves_zero orig e).2 h).le
  | cons m l ih =>
    have h1 := ih (moved e m) h
    have h2 := minMoves_step m orig e
    simp only [List.length_cons]
    omega

/-- the value is reached -/
theorem minMoves_reached (orig : Edge.Pos) (k : Nat) (e : Edge) (hk : Edge.minMovesToSolve orig e = k) :
    ∃ alg : List AxisMove, alg.length = k ∧ movedAlg e alg = ⟨orig.1, orig.2, true⟩ := by
  induction k generalizing e with
  | zero => exact ⟨[], rfl, (minMoves_zero orig e).1 hk⟩
  | succ k ih =>
    obtain ⟨m, hm⟩ := minMoves_down orig e (by omega)
    obtain ⟨alg, h1, h2⟩ := ih (moved e m) (by omega)
    exact ⟨m :: alg, by simp [h1], h2⟩

/-! ## The cross as a set of slots -/

theorem edges_iterWithPos (s : PieceSet Edge 12) :
    s.iterWithPos = (List.finRange 12).map fun i => (Edge.REFERENCE_POSITIONS i, s i) := by
  rw [PieceSet.iterWithPos_eq, List.ofFn_eq_map]
  rfl

theorem filter_map_cross (s : PieceSet Edge 12) (f : Face) :
    (s.iterWithPos.filter fun x => isCrossEdge x.1 f) = (crossSlots f).map fun i => (Edge.REFERENCE_POSITIONS i, s i) := by
  rw [edges_iterWithPos, List.filter_map]
  rfl

theorem solved_edge_iff (e : Edge) (i : Fin 12) :
    (decide (Piece.position e = Edge.REFERENCE_POSITIONS i) && e.oriented) = true ↔ e = PieceSet.SOLVED Edge i := by
  revert e i
  decide +kernel

theorem countCrossPieces_eq (c : Cube3) (f : Face) :
    countCrossPieces c f = ((crossSlots f).filter fun i => decide (c.edges i = PieceSet.SOLVED Edge i)).length := by
  unfold countCrossPieces crossSlots
  rw [edges_iterWithPos, List.filter_map, List.length_map, List.filter_filter]
  congr 1
  apply List.filter_congr
  intro i _
  have := solved_edge_iff (c.edges i) i
  simp only [Function.comp]
  rw [Bool.eq_iff_iff]
  simp only [Bool.and_eq_true, decide_eq_true_eq] at this ⊢
  tauto

theorem countCrossPieces_four (c : Cube3) (f : Face) :
    (countCrossPieces c f == 4) = true ↔
      ∀ i, isCrossEdge (Edge.REFERENCE_POSITIONS i) f = true → c.edges i = PieceSet.SOLVED Edge i := by
  rw [beq_iff_eq, countCrossPieces_eq]
  constructor
  · intro h i hi
    have h2 : (crossSlots f).filter (fun i => decide (c.edges i = PieceSet.SOLVED Edge i)) = crossSlots f :=
      List.filter_sublist.eq_of_length (by rw [h, crossSlots_length])
    have h3 := List.filter_eq_self.1 h2 i (List.mem_filter.2 ⟨List.mem_finRange i, hi⟩)
    exact of_decide_eq_true h3
  · intro h
    rw [List.filter_eq_self.2, crossSlots_length]
    intro i hi
    exact decide_eq_true (h i (List.mem_filter.1 hi).2)

theorem crossEdgeMoves_eq (c : Cube3) (f : Face) :
    crossEdgeMoves c f = (crossSlots f).map fun i => Edge.minMovesToSolve (Edge.REFERENCE_POSITIONS i) (c.edges i) := by
  unfold crossEdgeMoves
  rw [filter_map_cross, List.map_map]
  rfl

theorem solved_edge (i : Fin 12) :
    PieceSet.SOLVED Edge i = ⟨(Edge.REFERENCE_POSITIONS i).1, (Edge.REFERENCE_POSITIONS i).2, true⟩ := by
  revert i
  decide +kernel

theorem crossMoves_lower {c : Cube3} {f : Face} {alg : List AxisMove}
    (h : (countCrossPieces (movedAlg c alg) f == 4) = true) : ∀ n ∈ crossEdgeMoves c f, n ≤ alg.length := by
  intro n hn
  rw [crossEdgeMoves_eq] at hn
  obtain ⟨i, hi, rfl⟩ := List.mem_map.1 hn
  apply minMoves_lower
  rw [← cube3_edges_alg, ← solved_edge]
  exact (countCrossPieces_four _ f).1 h i (List.mem_filter.1 hi).2

theorem crossMoves_le {c : Cube3} {f : Face} : ∀ n ∈ crossEdgeMoves c f, n ≤ 3 := by
  intro n hn
  rw [crossEdgeMoves_eq] at hn
  obtain ⟨i, hi, rfl⟩ := List.mem_map.1 hn
  exact minMoves_le _ _

theorem crossEdgeMoves_length (c : Cube3) (f : Face) : (crossEdgeMoves c f).length = 4 := by
  rw [crossEdgeMoves_eq, List.length_map, crossSlots_length]

/-- the `expect` of `worse_cross_heuristic` never panics, and the value is one of the four numbers -/
theorem worseCrossHeuristic?_eq (c : Cube3) (f : Face) :
    worseCrossHeuristic? c f = some (worseCrossHeuristic c f) ∧
      ∃ n ∈ crossEdgeMoves c f, worseCrossHeuristic c f = n := by
  have h4 := crossEdgeMoves_length c f
  rcases h : (crossEdgeMoves c f).max? with _ | n
  · rw [List.max?_eq_none_iff] at h
    rw [h] at h4
    cases h4
  · have e : worseCrossHeuristic? c f = some (n : ℚ) := by unfold worseCrossHeuristic?; rw [h]; rfl
    have e2 : worseCrossHeuristic c f = n := by unfold worseCrossHeuristic; rw [e]
    refine ⟨by rw [e, e2], n, ?_, e2⟩
    exact List.max?_mem h

/-! ## Every valid cube has a cross within eight moves, and some need eight -/

theorem slot_spec : ∀ (f : Face), (∀ k, isCrossEdge (Edge.REFERENCE_POSITIONS (Bits.slot f k)) f = true) ∧
    (∀ i : Fin 12, isCrossEdge (Edge.REFERENCE_POSITIONS i) f = true → ∃ k, Bits.slot f k = i) ∧
    ∀ k l, Bits.slot f k = Bits.slot f l → k = l := by decide +kernel

theorem cross_iff_homes (c : Cube3) (w : List AxisMove) (f : Face) :
    (countCrossPieces (movedAlg c w) f == 4) = true ↔ ∀ k, movedAlg (c.edges (Bits.slot f k)) w = Bits.homes f k := by
  rw [countCrossPieces_four]
  simp only [cube3_edges_alg]
  constructor
  · intro h k
    exact h _ ((slot_spec f).1 k)
  · intro h i hi
    obtain ⟨k, rfl⟩ := (slot_spec f).2.1 i hi
    exact h k

theorem cross_exists (c : Cube3) (he : c.edges.Valid) (f : Face) :
    ∃ w : List AxisMove, w.length ≤ 8 ∧ (countCrossPieces (movedAlg c w) f == 4) = true := by
  obtain ⟨w, h1, h2⟩ := Bits.within_eight f (fun k => c.edges (Bits.slot f k)) (fun k l h => by
    exact (slot_spec f).2.2 _ _ (he h))
  exact ⟨w, h1, (cross_iff_homes c w f).2 h2⟩

end Barbarosa
