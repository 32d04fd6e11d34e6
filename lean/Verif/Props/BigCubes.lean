import Verif.Lemmas.BigCubes
import Verif.Lemmas.PieceSet
import Verif.Props.Moves

/-!
# Properties C06, C07, C19: the cubes 4x4 to 7x7
-/

namespace Barbarosa

/-! ## C06 -/

/-- **C06** The cell of a piece tells everything about it (for corners and edges: its position), so saying where the cell
goes says what the move does. -/
theorem C06_cells_distinct :
    (∀ N ∈ [4, 5, 6, 7], ∀ a b : Corner, a.cell N = b.cell N → a.position = b.position) ∧
    (∀ N ∈ [5, 7], ∀ a b : Edge, a.cell N = b.cell N → a.position = b.position) ∧
    (∀ N ∈ [4, 6, 7], ∀ k ≤ N / 2 - 1, 1 ≤ k → Function.Injective (Wing.cell N k)) ∧
    (∀ N ∈ [4, 5, 6, 7], ∀ k ≤ N / 2 - 1, 1 ≤ k → Function.Injective (CenterCorner.cell N k)) ∧
    (∀ N ∈ [5, 7], ∀ k ≤ N / 2 - 1, 1 ≤ k → Function.Injective (CenterEdge.cell N k)) ∧
    (∀ N ∈ [6, 7], Function.Injective (CenterWing.cell N 1 2)) := by
  refine ⟨by decide +kernel, by decide +kernel, ?_, ?_, ?_, ?_⟩ <;> unfold Function.Injective <;> decide +kernel

/-- two wings on one edge of the 6x6 have different cells -/
example : Wing.cell 6 1 (PieceSet.SOLVED Wing 0) ≠ Wing.cell 6 1 (PieceSet.SOLVED Wing 1) :=
  fun h => absurd (C06_cells_distinct.2.2.1 6 (by decide) 1 (by decide) (by decide) h) (by decide +kernel)

/-- **C06** 4x4: a wide move carries exactly the pieces of the outermost `depth + 1` layers, rigidly. -/
theorem C06_cube4 (c : Cube4) (m : WideAxisMove 1) (hm : m.WF) :
    (∀ i, ((moved c m).corners i).cell 4 = wideTurn 4 m.depth m.axisMove ((c.corners i).cell 4)) ∧
    (∀ i, ((moved c m).wings i).cell 4 1 = wideTurn 4 m.depth m.axisMove ((c.wings i).cell 4 1)) ∧
    (∀ i, ((moved c m).centers i).cell 4 1 = wideTurn 4 m.depth m.axisMove ((c.centers i).cell 4 1)) := by
  have hd : m.depth ≤ 1 := hm
  exact ⟨fun i => corner_wide 4 _ (by omega) _ _, fun i => wing_wide 4 1 _ (by omega) (by omega) _ _,
    fun i => centerCorner_wide 4 1 _ (by omega) (by omega) _ _⟩

/-- `r` on any 4x4, `Rw` in the other notation -/
example (c : Cube4) (i : Fin 24) : ((moved c (⟨1, ⟨Face.R, .single⟩⟩ : WideAxisMove 1)).wings i).cell 4 1 =
    wideTurn 4 1 ⟨Face.R, .single⟩ ((c.wings i).cell 4 1) :=
  (C06_cube4 c ⟨1, ⟨Face.R, .single⟩⟩ (by unfold WideAxisMove.WF; decide)).2.1 i

/-- **C06** 6x6: the same. -/
theorem C06_cube6 (c : Cube6) (m : WideAxisMove 2) (hm : m.WF) :
    (∀ i, ((moved c m).corners i).cell 6 = wideTurn 6 m.depth m.axisMove ((c.corners i).cell 6)) ∧
    (∀ i, ((moved c m).wings1 i).cell 6 1 = wideTurn 6 m.depth m.axisMove ((c.wings1 i).cell 6 1)) ∧
    (∀ i, ((moved c m).wings2 i).cell 6 2 = wideTurn 6 m.depth m.axisMove ((c.wings2 i).cell 6 2)) ∧
    (∀ i, ((moved c m).centerCorners1 i).cell 6 1 = wideTurn 6 m.depth m.axisMove ((c.centerCorners1 i).cell 6 1)) ∧
    (∀ i, ((moved c m).centerCorners2 i).cell 6 2 = wideTurn 6 m.depth m.axisMove ((c.centerCorners2 i).cell 6 2)) ∧
    (∀ i, ((moved c m).centerWings i).cell 6 1 2 = wideTurn 6 m.depth m.axisMove ((c.centerWings i).cell 6 1 2)) := by
  have hd : m.depth ≤ 2 := hm
  exact ⟨fun i => corner_wide 6 _ (by omega) _ _, fun i => wing_wide 6 1 _ (by omega) (by omega) _ _,
    fun i => wing_wide 6 2 _ (by omega) (by omega) _ _, fun i => centerCorner_wide 6 1 _ (by omega) (by omega) _ _,
    fun i => centerCorner_wide 6 2 _ (by omega) (by omega) _ _,
    fun i => centerWing_wide 6 1 2 _ (by omega) (by omega) (by omega) _ _⟩

/-- the second layer of the 6x6 -/
example (c : Cube6) (i : Fin 48) : ((moved c (⟨1, ⟨Face.U, .double⟩⟩ : WideAxisMove 2)).centerWings i).cell 6 1 2 =
    wideTurn 6 1 ⟨Face.U, .double⟩ ((c.centerWings i).cell 6 1 2) :=
  (C06_cube6 c ⟨1, ⟨Face.U, .double⟩⟩ (by unfold WideAxisMove.WF; decide)).2.2.2.2.2 i

/-- **C06** 5x5. Missing: center edges at depth 0, for which the claim is false (`C06_center_edges_wrong`): they always move as
if the depth was 1. (The cube type has no wings.) -/
theorem C06_cube5_partial (c : Cube5) (m : WideAxisMove 1) (hm : m.WF) :
    (∀ i, ((moved c m).corners i).cell 5 = wideTurn 5 m.depth m.axisMove ((c.corners i).cell 5)) ∧
    (∀ i, ((moved c m).edges i).cell 5 = wideTurn 5 m.depth m.axisMove ((c.edges i).cell 5)) ∧
    (∀ i, ((moved c m).cornerCenters i).cell 5 1 = wideTurn 5 m.depth m.axisMove ((c.cornerCenters i).cell 5 1)) ∧
    (∀ i, ((moved c m).cornerEdges i).cell 5 1 = wideTurn 5 1 m.axisMove ((c.cornerEdges i).cell 5 1)) := by
  have hd : m.depth ≤ 1 := hm
  exact ⟨fun i => corner_wide 5 _ (by omega) _ _, fun i => edge_wide 5 _ (by omega) (by omega) _ _,
    fun i => centerCorner_wide 5 1 _ (by omega) (by omega) _ _, fun i => centerEdge_wide 5 1 _ (by omega) (by omega) _ _⟩

/-- the edges of the 5x5 in a turn of the outer layer -/
example (c : Cube5) (i : Fin 12) : ((moved c (⟨0, ⟨Face.R, .single⟩⟩ : WideAxisMove 1)).edges i).cell 5 =
    wideTurn 5 0 ⟨Face.R, .single⟩ ((c.edges i).cell 5) :=
  (C06_cube5_partial c ⟨0, ⟨Face.R, .single⟩⟩ (by unfold WideAxisMove.WF; decide)).2.1 i

/-- **C06** 7x7. Missing: center edges at depths 0 and 1, for which the claim is false (`C06_center_edges_wrong`): they always
move as if the depth was 2. -/
theorem C06_cube7_partial (c : Cube7) (m : WideAxisMove 2) (hm : m.WF) :
    (∀ i, ((moved c m).corners i).cell 7 = wideTurn 7 m.depth m.axisMove ((c.corners i).cell 7)) ∧
    (∀ i, ((moved c m).edges i).cell 7 = wideTurn 7 m.depth m.axisMove ((c.edges i).cell 7)) ∧
    (∀ i, ((moved c m).wings1 i).cell 7 1 = wideTurn 7 m.depth m.axisMove ((c.wings1 i).cell 7 1)) ∧
    (∀ i, ((moved c m).wings2 i).cell 7 2 = wideTurn 7 m.depth m.axisMove ((c.wings2 i).cell 7 2)) ∧
    (∀ i, ((moved c m).centerCorners1 i).cell 7 1 = wideTurn 7 m.depth m.axisMove ((c.centerCorners1 i).cell 7 1)) ∧
    (∀ i, ((moved c m).centerCorners2 i).cell 7 2 = wideTurn 7 m.depth m.axisMove ((c.centerCorners2 i).cell 7 2)) ∧
    (∀ i, ((moved c m).centerWings i).cell 7 1 2 = wideTurn 7 m.depth m.axisMove ((c.centerWings i).cell 7 1 2)) ∧
    (∀ i, ((moved c m).centerEdges1 i).cell 7 1 = wideTurn 7 2 m.axisMove ((c.centerEdges1 i).cell 7 1)) ∧
    (∀ i, ((moved c m).centerEdges2 i).cell 7 2 = wideTurn 7 2 m.axisMove ((c.centerEdges2 i).cell 7 2)) := by
  have hd : m.depth ≤ 2 := hm
  exact ⟨fun i => corner_wide 7 _ (by omega) _ _, fun i => edge_wide 7 _ (by omega) (by omega) _ _,
    fun i => wing_wide 7 1 _ (by omega) (by omega) _ _,
    fun i => wing_wide 7 2 _ (by omega) (by omega) _ _, fun i => centerCorner_wide 7 1 _ (by omega) (by omega) _ _,
    fun i => centerCorner_wide 7 2 _ (by omega) (by omega) _ _,
    fun i => centerWing_wide 7 1 2 _ (by omega) (by omega) (by omega) _ _,
    fun i => centerEdge_wide 7 1 _ (by omega) (by omega) _ _, fun i => centerEdge_wide 7 2 _ (by omega) (by omega) _ _⟩

/-- the wings nearest to the corners of the 7x7, three layers deep -/
example (c : Cube7) (i : Fin 24) : ((moved c (⟨2, ⟨Face.B, .inverse⟩⟩ : WideAxisMove 2)).wings1 i).cell 7 1 =
    wideTurn 7 2 ⟨Face.B, .inverse⟩ ((c.wings1 i).cell 7 1) :=
  (C06_cube7_partial c ⟨2, ⟨Face.B, .inverse⟩⟩ (by unfold WideAxisMove.WF; decide)).2.2.1 i

/-- **C06** is false for center edges: a move of depth 0 of the 5x5, and moves of depth 0 and 1 of the 7x7, carry center edges
that lie below the turned layers, on the solved cube already. -/
theorem C06_center_edges_wrong :
    (∃ i, ((moved (Cube.SOLVED : Cube5) (⟨0, ⟨Face.R, .single⟩⟩ : WideAxisMove 1)).cornerEdges i).cell 5 1 ≠
      wideTurn 5 0 ⟨Face.R, .single⟩ (((Cube.SOLVED : Cube5).cornerEdges i).cell 5 1)) ∧
    (∃ i, ((moved (Cube.SOLVED : Cube7) (⟨0, ⟨Face.R, .single⟩⟩ : WideAxisMove 2)).centerEdges1 i).cell 7 1 ≠
      wideTurn 7 0 ⟨Face.R, .single⟩ (((Cube.SOLVED : Cube7).centerEdges1 i).cell 7 1)) ∧
    (∃ i, ((moved (Cube.SOLVED : Cube7) (⟨1, ⟨Face.R, .single⟩⟩ : WideAxisMove 2)).centerEdges2 i).cell 7 2 ≠
      wideTurn 7 1 ⟨Face.R, .single⟩ (((Cube.SOLVED : Cube7).centerEdges2 i).cell 7 2)) := by decide +kernel

/-- a depth 1 move of the 6x6 moves a wing of `wings1` that a depth 0 move leaves, and both leave one of `wings2` -/
example : ∃ i j, ((Cube.SOLVED : Cube6).wings1 i).cell 6 1 = ⟨3, 5, 5⟩ ∧
    ((moved (Cube.SOLVED : Cube6) (⟨1, ⟨Face.R, .single⟩⟩ : WideAxisMove 2)).wings1 i).cell 6 1 = ⟨3, 5, -5⟩ ∧
    ((moved (Cube.SOLVED : Cube6) (⟨0, ⟨Face.R, .single⟩⟩ : WideAxisMove 2)).wings1 i).cell 6 1 = ⟨3, 5, 5⟩ ∧
    ((moved (Cube.SOLVED : Cube6) (⟨1, ⟨Face.R, .single⟩⟩ : WideAxisMove 2)).wings2 j).cell 6 2 = ⟨1, 5, 5⟩ := by
  decide +kernel

/-! ## C07 -/

/-- **C07** is false on all four cubes: on the solved cube a plain `R` (and `WideAxisMove<0>`) differs from the wide move of
depth 0. -/
theorem C07_plain_move_is_wide :
    moved (Cube.SOLVED : Cube4) (⟨Face.R, .single⟩ : AxisMove) ≠ moved (Cube.SOLVED : Cube4) (⟨0, ⟨Face.R, .single⟩⟩ : WideAxisMove 1) ∧
    moved (Cube.SOLVED : Cube5) (⟨Face.R, .single⟩ : AxisMove) ≠ moved (Cube.SOLVED : Cube5) (⟨0, ⟨Face.R, .single⟩⟩ : WideAxisMove 1) ∧
    moved (Cube.SOLVED : Cube6) (⟨Face.R, .single⟩ : AxisMove) ≠ moved (Cube.SOLVED : Cube6) (⟨0, ⟨Face.R, .single⟩⟩ : WideAxisMove 2) ∧
    moved (Cube.SOLVED : Cube7) (⟨Face.R, .single⟩ : AxisMove) ≠ moved (Cube.SOLVED : Cube7) (⟨0, ⟨Face.R, .single⟩⟩ : WideAxisMove 2) ∧
    moved (Cube.SOLVED : Cube4) (⟨0, ⟨Face.R, .single⟩⟩ : WideAxisMove 0) ≠ moved (Cube.SOLVED : Cube4) (⟨0, ⟨Face.R, .single⟩⟩ : WideAxisMove 1) := by
  decide +kernel

/-- **C07**, what holds: a plain move (and a `WideAxisMove<0>`) is the move of *maximum* depth, it never panics, and so agrees
with the move of depth 0 on corners and edges. Missing: wings and centers, for which the claim is false
(`C07_plain_move_is_wide`). -/
theorem C07_partial (m : AxisMove) (d : Nat) :
    (∀ c : Cube4, movedWidened? 1 c m = some (moved c m) ∧ moved c m = moved c (⟨1, m⟩ : WideAxisMove 1) ∧
      moved c (⟨d, m⟩ : WideAxisMove 0) = moved c m ∧
      (moved c m).corners = (moved c (⟨0, m⟩ : WideAxisMove 1)).corners) ∧
    (∀ c : Cube5, movedWidened? 1 c m = some (moved c m) ∧ moved c m = moved c (⟨1, m⟩ : WideAxisMove 1) ∧
      moved c (⟨d, m⟩ : WideAxisMove 0) = moved c m ∧
      (moved c m).corners = (moved c (⟨0, m⟩ : WideAxisMove 1)).corners ∧
      (moved c m).edges = (moved c (⟨0, m⟩ : WideAxisMove 1)).edges) ∧
    (∀ c : Cube6, movedWidened? 2 c m = some (moved c m) ∧ moved c m = moved c (⟨2, m⟩ : WideAxisMove 2) ∧
      moved c (⟨d, m⟩ : WideAxisMove 0) = moved c m ∧
      (moved c m).corners = (moved c (⟨0, m⟩ : WideAxisMove 2)).corners) ∧
    (∀ c : Cube7, movedWidened? 2 c m = some (moved c m) ∧ moved c m = moved c (⟨2, m⟩ : WideAxisMove 2) ∧
      moved c (⟨d, m⟩ : WideAxisMove 0) = moved c m ∧
      (moved c m).corners = (moved c (⟨0, m⟩ : WideAxisMove 2)).corners ∧
      (moved c m).edges = (moved c (⟨0, m⟩ : WideAxisMove 2)).edges) := by
  rcases m with ⟨f, x⟩
  exact ⟨fun c => ⟨rfl, rfl, rfl, rfl⟩, fun c => ⟨rfl, rfl, rfl, rfl, rfl⟩, fun c => ⟨rfl, rfl, rfl, rfl⟩,
    fun c => ⟨rfl, rfl, rfl, rfl, rfl⟩⟩

/-- `R` on any 7x7 turns three layers -/
example (c : Cube7) : moved c (⟨Face.R, .single⟩ : AxisMove) = moved c (⟨2, ⟨Face.R, .single⟩⟩ : WideAxisMove 2) :=
  ((C07_partial ⟨Face.R, .single⟩ 0).2.2.2 c).2.1

/-! ## C19 -/

theorem pieceSet_isSolved_iff {P : Type} {n : Nat} [PieceSetDescriptor P n] (s : PieceSet P n) :
    s.isSolved = true ↔ ∀ i, Piece.isSolved (s i) (PieceSetDescriptor.REFERENCE_POSITIONS (P := P) i) = true := by
  unfold PieceSet.isSolved
  rw [PieceSet.iterWithPos_eq]
  simp [List.all_eq_true, List.mem_ofFn]

theorem corner_solved (c : Corner) (i : Fin 8) :
    Piece.isSolved c (Corner.REFERENCE_POSITIONS i) = true ↔ c = PieceSet.SOLVED Corner i := by
  revert c i; decide +kernel

theorem edge_solved (c : Edge) (i : Fin 12) :
    Piece.isSolved c (Edge.REFERENCE_POSITIONS i) = true ↔ c = PieceSet.SOLVED Edge i := by
  revert c i; decide +kernel

theorem corners_solved (s : PieceSet Corner 8) : s.isSolved = true ↔ s = PieceSet.SOLVED Corner := by
  rw [pieceSet_isSolved_iff, funext_iff]
  exact forall_congr' fun i => corner_solved _ _

theorem edges_solved (s : PieceSet Edge 12) : s.isSolved = true ↔ s = PieceSet.SOLVED Edge := by
  rw [pieceSet_isSolved_iff, funext_iff]
  exact forall_congr' fun i => edge_solved _ _

theorem wings_solved (s : PieceSet Wing 24) : s.isSolved = true ↔ s = PieceSet.SOLVED Wing := by
  rw [pieceSet_isSolved_iff, funext_iff]
  exact forall_congr' fun i => beq_iff_eq

theorem centerEdges_solved (s : PieceSet CenterEdge 24) :
    s.isSolved = true ↔ ∀ i, (s i).mainFace = (PieceSet.SOLVED CenterEdge i).mainFace := by
  rw [pieceSet_isSolved_iff]
  exact forall_congr' fun i => beq_iff_eq

theorem centerWings_solved (s : PieceSet CenterWing 48) :
    s.isSolved = true ↔ ∀ i, (s i).mainFace = (PieceSet.SOLVED CenterWing i).mainFace := by
  rw [pieceSet_isSolved_iff]
  exact forall_congr' fun i => beq_iff_eq

/-- center corners are only compared up to the axis of their face -/
theorem centerCorners_solved (s : PieceSet CenterCorner 24) :
    s.isSolved = true ↔ ∀ i, (s i).mainFace.direction = (PieceSet.SOLVED CenterCorner i).mainFace.direction := by
  rw [pieceSet_isSolved_iff]
  refine forall_congr' fun i => ?_
  show CenterCorner.isSolved _ _ = true ↔ _
  unfold CenterCorner.isSolved
  exact beq_iff_eq

/-- the sequence that cycles three center corners of the 4x4, one of them from `F` to `U` -/
def mixCenters4 : List (WideAxisMove 1) :=
  [⟨1, ⟨Face.R, .single⟩⟩, ⟨0, ⟨Face.R, .inverse⟩⟩, ⟨1, ⟨Face.U, .double⟩⟩, ⟨0, ⟨Face.U, .double⟩⟩,
   ⟨0, ⟨Face.R, .single⟩⟩, ⟨1, ⟨Face.R, .inverse⟩⟩, ⟨0, ⟨Face.U, .single⟩⟩,
   ⟨1, ⟨Face.R, .single⟩⟩, ⟨0, ⟨Face.R, .inverse⟩⟩, ⟨0, ⟨Face.U, .double⟩⟩, ⟨1, ⟨Face.U, .double⟩⟩,
   ⟨0, ⟨Face.R, .single⟩⟩, ⟨1, ⟨Face.R, .inverse⟩⟩, ⟨0, ⟨Face.U, .inverse⟩⟩]

/-- the same for the innermost center corners of the 6x6 and the 7x7 -/
def mixCenters6 : List (WideAxisMove 2) :=
  [⟨2, ⟨Face.R, .single⟩⟩, ⟨1, ⟨Face.R, .inverse⟩⟩, ⟨2, ⟨Face.U, .double⟩⟩, ⟨1, ⟨Face.U, .double⟩⟩,
   ⟨1, ⟨Face.R, .single⟩⟩, ⟨2, ⟨Face.R, .inverse⟩⟩, ⟨0, ⟨Face.U, .single⟩⟩,
   ⟨2, ⟨Face.R, .single⟩⟩, ⟨1, ⟨Face.R, .inverse⟩⟩, ⟨1, ⟨Face.U, .double⟩⟩, ⟨2, ⟨Face.U, .double⟩⟩,
   ⟨1, ⟨Face.R, .single⟩⟩, ⟨2, ⟨Face.R, .inverse⟩⟩, ⟨0, ⟨Face.U, .inverse⟩⟩]

/-- one center 3-cycle of the 5x5 -/
def mixCenters5 : List (WideAxisMove 1) :=
  [⟨1, ⟨Face.R, .single⟩⟩, ⟨0, ⟨Face.R, .inverse⟩⟩, ⟨1, ⟨Face.U, .single⟩⟩, ⟨0, ⟨Face.U, .inverse⟩⟩,
   ⟨0, ⟨Face.R, .single⟩⟩, ⟨1, ⟨Face.R, .inverse⟩⟩, ⟨0, ⟨Face.F, .single⟩⟩,
   ⟨1, ⟨Face.R, .single⟩⟩, ⟨0, ⟨Face.R, .inverse⟩⟩, ⟨0, ⟨Face.U, .single⟩⟩, ⟨1, ⟨Face.U, .inverse⟩⟩,
   ⟨0, ⟨Face.R, .single⟩⟩, ⟨1, ⟨Face.R, .inverse⟩⟩, ⟨0, ⟨Face.F, .inverse⟩⟩]

/-- cycles three center corners of the same face of the 5x5 -/
def sameFace5 : List (WideAxisMove 1) := mixCenters5 ++ [⟨0, ⟨Face.F, .inverse⟩⟩] ++ mixCenters5 ++ [⟨0, ⟨Face.F, .single⟩⟩]

/-- **C19** is false for the 4x4, 6x6 and 7x7: cubes that can be reached by legal moves, have a center on a wrong face, and
count as solved. -/
theorem C19_accepts_unsolved :
    (Cube.isSolved (movedAlg (Cube.SOLVED : Cube4) mixCenters4) = true ∧
      ¬ (movedAlg (Cube.SOLVED : Cube4) mixCenters4).FacesUniform) ∧
    (Cube.isSolved (movedAlg (Cube.SOLVED : Cube6) mixCenters6) = true ∧
      ¬ (movedAlg (Cube.SOLVED : Cube6) mixCenters6).FacesUniform) ∧
    (Cube.isSolved (movedAlg (Cube.SOLVED : Cube7) mixCenters6) = true ∧
      ¬ (movedAlg (Cube.SOLVED : Cube7) mixCenters6).FacesUniform) := by
  refine ⟨⟨by decide +kernel, fun h => ?_⟩, ⟨by decide +kernel, fun h => ?_⟩, ⟨by decide +kernel, fun h => ?_⟩⟩
  · have := h.centers; revert this; decide +kernel
  · have := h.centerCorners2; revert this; decide +kernel
  · have := h.centerCorners2; revert this; decide +kernel

/-- **C19** is false for the 5x5 the other way round: a reachable cube all of whose faces show one colour does not count as
solved. -/
theorem C19_rejects_solved :
    (movedAlg (Cube.SOLVED : Cube5) sameFace5).FacesUniform ∧
    Cube.isSolved (movedAlg (Cube.SOLVED : Cube5) sameFace5) = false := by
  refine ⟨⟨?_, ?_, ?_, ?_⟩, ?_⟩ <;> decide +kernel

/-- **C19**, what holds. On the 4x4, 6x6, 7x7 a cube with uniform faces counts as solved, and a cube that counts as solved has
corners, edges, wings, center edges and center wings right, and center corners on the right face or on one that points in
the same direction of another axis. On the 5x5 a cube that counts as solved has uniform faces. Missing: the exact
equivalence, which is false (`C19_accepts_unsolved`, `C19_rejects_solved`). -/
theorem C19_partial :
    (∀ c : Cube4, (c.FacesUniform → Cube.isSolved c = true) ∧ (Cube.isSolved c = true ↔
      c.corners = PieceSet.SOLVED Corner ∧ c.wings = PieceSet.SOLVED Wing ∧
      ∀ i, (c.centers i).mainFace.direction = (PieceSet.SOLVED CenterCorner i).mainFace.direction)) ∧
    (∀ c : Cube5, (Cube.isSolved c = true → c.FacesUniform) ∧ (Cube.isSolved c = true ↔ c = Cube.SOLVED)) ∧
    (∀ c : Cube6, (c.FacesUniform → Cube.isSolved c = true) ∧ (Cube.isSolved c = true ↔
      c.corners = PieceSet.SOLVED Corner ∧ c.wings1 = PieceSet.SOLVED Wing ∧ c.wings2 = PieceSet.SOLVED Wing ∧
      (∀ i, (c.centerCorners1 i).mainFace.direction = (PieceSet.SOLVED CenterCorner i).mainFace.direction) ∧
      (∀ i, (c.centerCorners2 i).mainFace.direction = (PieceSet.SOLVED CenterCorner i).mainFace.direction) ∧
      ∀ i, (c.centerWings i).mainFace = (PieceSet.SOLVED CenterWing i).mainFace)) ∧
    (∀ c : Cube7, (c.FacesUniform → Cube.isSolved c = true) ∧ (Cube.isSolved c = true ↔
      c.corners = PieceSet.SOLVED Corner ∧ c.edges = PieceSet.SOLVED Edge ∧ c.wings1 = PieceSet.SOLVED Wing ∧
      c.wings2 = PieceSet.SOLVED Wing ∧
      (∀ i, (c.centerCorners1 i).mainFace.direction = (PieceSet.SOLVED CenterCorner i).mainFace.direction) ∧
      (∀ i, (c.centerCorners2 i).mainFace.direction = (PieceSet.SOLVED CenterCorner i).mainFace.direction) ∧
      (∀ i, (c.centerWings i).mainFace = (PieceSet.SOLVED CenterWing i).mainFace) ∧
      (∀ i, (c.centerEdges1 i).mainFace = (PieceSet.SOLVED CenterEdge i).mainFace) ∧
      ∀ i, (c.centerEdges2 i).mainFace = (PieceSet.SOLVED CenterEdge i).mainFace)) := by
  have e4 : ∀ c : Cube4, Cube.isSolved c = true ↔ _ := fun c => by
    simp only [Cube.isSolved, Bool.and_eq_true, corners_solved, wings_solved, centerCorners_solved, and_assoc]
    exact Iff.rfl
  have e6 : ∀ c : Cube6, Cube.isSolved c = true ↔ _ := fun c => by
    simp only [Cube.isSolved, Bool.and_eq_true, corners_solved, wings_solved, centerCorners_solved, centerWings_solved,
      and_assoc]
    exact Iff.rfl
  have e7 : ∀ c : Cube7, Cube.isSolved c = true ↔ _ := fun c => by
    simp only [Cube.isSolved, Bool.and_eq_true, corners_solved, edges_solved, wings_solved, centerCorners_solved,
      centerWings_solved, centerEdges_solved, and_assoc]
    exact Iff.rfl
  have e5 : ∀ c : Cube5, Cube.isSolved c = true ↔ c = Cube.SOLVED := fun c => decide_eq_true_iff
  refine ⟨fun c => ⟨fun h => (e4 c).2 ⟨h.corners, h.wings, fun i => by rw [h.centers]⟩, e4 c⟩,
    fun c => ⟨fun h => ?_, e5 c⟩,
    fun c => ⟨fun h => (e6 c).2 ⟨h.corners, h.wings1, h.wings2, fun i => by rw [h.centerCorners1],
      fun i => by rw [h.centerCorners2], h.centerWings⟩, e6 c⟩,
    fun c => ⟨fun h => (e7 c).2 ⟨h.corners, h.edges, h.wings1, h.wings2, fun i => by rw [h.centerCorners1],
      fun i => by rw [h.centerCorners2], h.centerWings, h.centerEdges1, h.centerEdges2⟩, e7 c⟩⟩
  rw [(e5 c).1 h]
  exact ⟨rfl, rfl, fun _ => rfl, fun _ => rfl⟩

/-- uniform faces: the solved cube, and another one -/
example : (Cube.SOLVED : Cube4).FacesUniform ∧ movedAlg (Cube.SOLVED : Cube5) sameFace5 ≠ Cube.SOLVED :=
  ⟨⟨rfl, rfl, fun _ => rfl⟩, by decide +kernel⟩

end Barbarosa
