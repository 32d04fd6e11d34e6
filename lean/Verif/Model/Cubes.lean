import Verif.Model.PieceSet

/-!
# The cubes 2x2x2 to 7x7x7

Transcription of `generic/mod.rs` (`Cube`), `cube_n/mod.rs` (`CubeN`) and `cube_n/cube{2..7}/mod.rs`.
-/

namespace Barbarosa

/-- `generic/mod.rs:40-65` (`trait Cube`) together with `cube_n/mod.rs:57-60` (`trait CubeN`) -/
class Cube (C : Type) where
  SOLVED : C
  isSolved : C → Bool
  N : Nat

/-! ## 2x2x2 -/

/-- `cube_n/cube2/mod.rs:13-16` -/
@[ext] structure Cube2 where
  corners : PieceSet Corner 8

/-- equality test derived by the Rust struct (`PartialEq`): field by field -/
instance : DecidableEq Cube2 := fun a b =>
  decidable_of_iff (a.corners = b.corners)
    Cube2.ext_iff.symm

/-- `cube_n/cube2/mod.rs:18-30`; `is_solved` is the default of `generic/mod.rs:59-64` -/
instance : Cube Cube2 where
  SOLVED := ⟨PieceSet.SOLVED Corner⟩
  isSolved c := decide (c = ⟨PieceSet.SOLVED Corner⟩)
  N := 2

/-- `cube_n/cube2/mod.rs:32-36` -/
instance : Movable Cube2 AxisMove := ⟨fun c m => ⟨c.corners.moved m⟩⟩

/-! ## 3x3x3 -/

/-- `cube_n/cube3/mod.rs:30-36` -/
@[ext] structure Cube3 where
  edges : PieceSet Edge 12
  corners : PieceSet Corner 8

/-- equality test derived by the Rust struct (`PartialEq`): field by field -/
instance : DecidableEq Cube3 := fun a b =>
  decidable_of_iff (a.edges = b.edges ∧ a.corners = b.corners)
    Cube3.ext_iff.symm

/-- `cube_n/cube3/mod.rs:38-43` -/
def Cube3.SOLVED : Cube3 := ⟨PieceSet.SOLVED Edge, PieceSet.SOLVED Corner⟩

/-- `cube_n/cube3/mod.rs:38-43`, `56-58`; `is_solved` is the default of `generic/mod.rs:59-64` -/
instance : Cube Cube3 where
  SOLVED := Cube3.SOLVED
  isSolved c := decide (c = Cube3.SOLVED)
  N := 3

/-- `cube_n/cube3/mod.rs:49-54` -/
instance : Movable Cube3 AxisMove := ⟨fun c m => ⟨c.edges.moved m, c.corners.moved m⟩⟩

/-- `cube_n/cube3/mod.rs:62-64` -/
def Cube3.successors (c : Cube3) : List (Cube3 × AxisMove) := AxisMove.all.map fun m => (moved c m, m)

/-! ## 4x4x4 -/

/-- `cube_n/cube4/mod.rs:16-20` -/
@[ext] structure Cube4 where
  corners : PieceSet Corner 8
  wings : PieceSet Wing 24
  centers : PieceSet CenterCorner 24

/-- equality test derived by the Rust struct (`PartialEq`): field by field -/
instance : DecidableEq Cube4 := fun a b =>
  decidable_of_iff (a.corners = b.corners ∧ a.wings = b.wings ∧ a.centers = b.centers)
    Cube4.ext_iff.symm

/-- `cube_n/cube4/mod.rs:22-35`, `49-51` -/
instance : Cube Cube4 where
  SOLVED := ⟨PieceSet.SOLVED Corner, PieceSet.SOLVED Wing, PieceSet.SOLVED CenterCorner⟩
  isSolved c := c.corners.isSolved && c.wings.isSolved && c.centers.isSolved
  N := 4

/-- `cube_n/cube4/mod.rs:41-47` -/
instance : Movable Cube4 (WideAxisMove 1) :=
  ⟨fun c m => ⟨c.corners.moved m.axisMove, DepthPieceSet.moved 1 0 c.wings m, DepthPieceSet.moved 1 0 c.centers m⟩⟩

/-! ## 5x5x5 -/

/-- `cube_n/cube5/mod.rs:18-24` -/
@[ext] structure Cube5 where
  corners : PieceSet Corner 8
  edges : PieceSet Edge 12
  cornerCenters : PieceSet CenterCorner 24
  cornerEdges : PieceSet CenterEdge 24

/-- equality test derived by the Rust struct (`PartialEq`): field by field -/
instance : DecidableEq Cube5 := fun a b =>
  decidable_of_iff (a.corners = b.corners ∧ a.edges = b.edges ∧ a.cornerCenters = b.cornerCenters ∧ a.cornerEdges = b.cornerEdges)
    Cube5.ext_iff.symm

/-- `cube_n/cube5/mod.rs:30-37` -/
def Cube5.SOLVED : Cube5 :=
  ⟨PieceSet.SOLVED Corner, PieceSet.SOLVED Edge, PieceSet.SOLVED CenterCorner, PieceSet.SOLVED CenterEdge⟩

/-- `cube_n/cube5/mod.rs:30-37`, `48-50`; `is_solved` is the default of `generic/mod.rs:59-64` -/
instance : Cube Cube5 where
  SOLVED := Cube5.SOLVED
  isSolved c := decide (c = Cube5.SOLVED)
  N := 5

/-- `cube_n/cube5/mod.rs:39-46` -/
instance : Movable Cube5 (WideAxisMove 1) :=
  ⟨fun c m => ⟨c.corners.moved m.axisMove, c.edges.moved m.axisMove,
    DepthPieceSet.moved 1 0 c.cornerCenters m, DepthPieceSet.moved 1 0 c.cornerEdges m⟩⟩

/-! ## 6x6x6 -/

/-- `cube_n/cube6/mod.rs:16-25` -/
@[ext] structure Cube6 where
  corners : PieceSet Corner 8
  wings1 : PieceSet Wing 24
  wings2 : PieceSet Wing 24
  centerCorners1 : PieceSet CenterCorner 24
  centerCorners2 : PieceSet CenterCorner 24
  centerWings : PieceSet CenterWing 48

/-- equality test derived by the Rust struct (`PartialEq`): field by field -/
instance : DecidableEq Cube6 := fun a b =>
  decidable_of_iff (a.corners = b.corners ∧ a.wings1 = b.wings1 ∧ a.wings2 = b.wings2 ∧ a.centerCorners1 = b.centerCorners1 ∧ a.centerCorners2 = b.centerCorners2 ∧ a.centerWings = b.centerWings)
    Cube6.ext_iff.symm

/-- `cube_n/cube6/mod.rs:27-50`, `67-69` -/
instance : Cube Cube6 where
  SOLVED := ⟨PieceSet.SOLVED Corner, PieceSet.SOLVED Wing, PieceSet.SOLVED Wing,
    PieceSet.SOLVED CenterCorner, PieceSet.SOLVED CenterCorner, PieceSet.SOLVED CenterWing⟩
  isSolved c := c.corners.isSolved && c.wings1.isSolved && c.wings2.isSolved &&
    c.centerCorners1.isSolved && c.centerCorners2.isSolved && c.centerWings.isSolved
  N := 6

/-- `cube_n/cube6/mod.rs:56-65` -/
instance : Movable Cube6 (WideAxisMove 2) :=
  ⟨fun c m => ⟨c.corners.moved m.axisMove,
    DepthPieceSet.moved 1 0 c.wings1 m, DepthPieceSet.moved 2 0 c.wings2 m,
    DepthPieceSet.moved 1 0 c.centerCorners1 m, DepthPieceSet.moved 2 0 c.centerCorners2 m,
    DepthPieceSet.moved 1 2 c.centerWings m⟩⟩

/-! ## 7x7x7 -/

/-- `cube_n/cube7/mod.rs:15-29` -/
@[ext] structure Cube7 where
  corners : PieceSet Corner 8
  edges : PieceSet Edge 12
  wings1 : PieceSet Wing 24
  wings2 : PieceSet Wing 24
  centerCorners1 : PieceSet CenterCorner 24
  centerCorners2 : PieceSet CenterCorner 24
  centerWings : PieceSet CenterWing 48
  centerEdges1 : PieceSet CenterEdge 24
  centerEdges2 : PieceSet CenterEdge 24

/-- equality test derived by the Rust struct (`PartialEq`): field by field -/
instance : DecidableEq Cube7 := fun a b =>
  decidable_of_iff (a.corners = b.corners ∧ a.edges = b.edges ∧ a.wings1 = b.wings1 ∧ a.wings2 = b.wings2 ∧ a.centerCorners1 = b.centerCorners1 ∧ a.centerCorners2 = b.centerCorners2 ∧ a.centerWings = b.centerWings ∧ a.centerEdges1 = b.centerEdges1 ∧ a.centerEdges2 = b.centerEdges2)
    Cube7.ext_iff.symm

/-- `cube_n/cube7/mod.rs:31-61`, `81-83` -/
instance : Cube Cube7 where
  SOLVED := ⟨PieceSet.SOLVED Corner, PieceSet.SOLVED Edge, PieceSet.SOLVED Wing, PieceSet.SOLVED Wing,
    PieceSet.SOLVED CenterCorner, PieceSet.SOLVED CenterCorner, PieceSet.SOLVED CenterWing,
    PieceSet.SOLVED CenterEdge, PieceSet.SOLVED CenterEdge⟩
  isSolved c := c.corners.isSolved && c.edges.isSolved && c.wings1.isSolved && c.wings2.isSolved &&
    c.centerCorners1.isSolved && c.centerCorners2.isSolved && c.centerWings.isSolved &&
    c.centerEdges1.isSolved && c.centerEdges2.isSolved
  N := 7

/-- `cube_n/cube7/mod.rs:67-79` -/
instance : Movable Cube7 (WideAxisMove 2) :=
  ⟨fun c m => ⟨c.corners.moved m.axisMove, c.edges.moved m.axisMove,
    DepthPieceSet.moved 1 0 c.wings1 m, DepthPieceSet.moved 2 0 c.wings2 m,
    DepthPieceSet.moved 1 0 c.centerCorners1 m, DepthPieceSet.moved 2 0 c.centerCorners2 m,
    DepthPieceSet.moved 1 2 c.centerWings m,
    DepthPieceSet.moved 1 0 c.centerEdges1 m, DepthPieceSet.moved 2 0 c.centerEdges2 m⟩⟩

/-! ## Other kinds of moves -/

/-- `cube_n/moves/wide.rs:135-141` (macro arm for width 0): a plain face move on a big cube is widened to the
*maximum* width `W` and applied. `none` is the `unwrap` panic. -/
def movedWidened? {C : Type} (W : Nat) [Movable C (WideAxisMove W)] (c : C) (m : AxisMove) : Option C :=
  (m.widen W W).map (moved c)

/-- Total version of `movedWidened?` (see `movedWidened?_eq`) -/
def movedWidened {C : Type} (W : Nat) [Movable C (WideAxisMove W)] (c : C) (m : AxisMove) : C :=
  match m.widen W W with
  | some w => moved c w
  | none => c

/-- `cube_n/cube4/mod.rs:53` -/
instance : Movable Cube4 AxisMove := ⟨movedWidened 1⟩
/-- `cube_n/cube5/mod.rs:52` -/
instance : Movable Cube5 AxisMove := ⟨movedWidened 1⟩
/-- `cube_n/cube6/mod.rs:71` -/
instance : Movable Cube6 AxisMove := ⟨movedWidened 2⟩
/-- `cube_n/cube7/mod.rs:85` -/
instance : Movable Cube7 AxisMove := ⟨movedWidened 2⟩

/-- `cube_n/moves/wide.rs:143-156` (macro arm for `0 < width < max`, `transmute` keeps the fields), `cube_n/cube6/mod.rs:71` -/
instance : Movable Cube6 (WideAxisMove 1) := ⟨fun c m => moved c (⟨m.depth, m.axisMove⟩ : WideAxisMove 2)⟩
/-- `cube_n/moves/wide.rs:143-156`, `cube_n/cube7/mod.rs:85` -/
instance : Movable Cube7 (WideAxisMove 1) := ⟨fun c m => moved c (⟨m.depth, m.axisMove⟩ : WideAxisMove 2)⟩

/-- `cube_n/moves/wide.rs:122-126` -/
instance {C : Type} [Cube C] [Movable C AxisMove] : Movable C (WideAxisMove 0) := ⟨fun c m => moved c m.axisMove⟩

/-- `cube_n/moves/quarter.rs:51-55` -/
instance {C : Type} [Cube C] [Movable C AxisMove] : Movable C QuarterAxisMove := ⟨fun c m => moved c m.toAxisMove⟩

end Barbarosa
