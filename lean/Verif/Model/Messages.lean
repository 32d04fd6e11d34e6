import Verif.Model.Debug
import Verif.Model.Cubes
import Verif.Model.NonRedundant

/-!
# Debug texts of cubes, and the messages of two errors

`#[derive(Debug)]` writes `Name { field: value, .. }`, an array is written `[value, ..]`. Only the plain form `{:?}`.
How `nalgebra` prints a vector is the parameter `vector` (`vector2` for two coordinates).
-/

namespace Barbarosa

/-- `Debug` of a Rust array, used by `generic/piece/set.rs:39-42` -/
def arrayDebug {T : Type} (f : T → List Char) (l : List T) : List Char :=
  "[".toList ++ List.intercalate ", ".toList (l.map f) ++ "]".toList

/-- `#[derive(Debug)]` of a struct with the given fields, e.g. `cube_n/cube3/mod.rs:29-36` -/
def structDebug (name : List Char) (fields : List (List Char × List Char)) : List Char :=
  name ++ " { ".toList ++ List.intercalate ", ".toList (fields.map fun x => x.1 ++ ": ".toList ++ x.2) ++ " }".toList

/-- `#[derive(Debug)]` of `PieceSet`, `generic/piece/set.rs:39-42`; `piece` is the text of a piece -/
def PieceSet.debug {P : Type} {n : Nat} (piece : P → List Char) (s : PieceSet P n) : List Char :=
  structDebug "PieceSet".toList [("pieces".toList, arrayDebug piece s.toList)]

/-- `#[derive(Debug)]` of `DepthPieceSet`, `cube_n/moves/wide.rs:200-209` -/
def DepthPieceSet.debug {P : Type} {n : Nat} (piece : P → List Char) (s : PieceSet P n) : List Char :=
  structDebug "DepthPieceSet".toList [("set".toList, s.debug piece)]

/-- `#[derive(Debug)]` of `Cube2`, `cube_n/cube2/mod.rs:12-16` -/
def Cube2.debug (c : Cube2) : List Char :=
  structDebug "Cube2".toList [("corners".toList, c.corners.debug Corner.debug)]

/-- `#[derive(Debug)]` of `Cube3`, `cube_n/cube3/mod.rs:29-36` -/
def Cube3.debug (c : Cube3) : List Char :=
  structDebug "Cube3".toList
    [("edges".toList, c.edges.debug Edge.debug), ("corners".toList, c.corners.debug Corner.debug)]

/-- `#[derive(Debug)]` of `Cube4`, `cube_n/cube4/mod.rs:15-20` -/
def Cube4.debug (vector : Vec3 → List Char) (c : Cube4) : List Char :=
  structDebug "Cube4".toList
    [("corners".toList, c.corners.debug Corner.debug),
     ("wings".toList, DepthPieceSet.debug Wing.debug c.wings),
     ("centers".toList, DepthPieceSet.debug (CenterCorner.debug vector) c.centers)]

/-- `#[derive(Debug)]` of `Cube5`, `cube_n/cube5/mod.rs:18-24` -/
def Cube5.debug (vector : Vec3 → List Char) (c : Cube5) : List Char :=
  structDebug "Cube5".toList
    [("corners".toList, c.corners.debug Corner.debug),
     ("edges".toList, c.edges.debug Edge.debug),
     ("corner_centers".toList, DepthPieceSet.debug (CenterCorner.debug vector) c.cornerCenters),
     ("corner_edges".toList, DepthPieceSet.debug CenterEdge.debug c.cornerEdges)]

/-- `#[derive(Debug)]` of `Cube6`, `cube_n/cube6/mod.rs:15-25` -/
def Cube6.debug (vector : Vec3 → List Char) (c : Cube6) : List Char :=
  structDebug "Cube6".toList
    [("corners".toList, c.corners.debug Corner.debug),
     ("wings_1".toList, DepthPieceSet.debug Wing.debug c.wings1),
     ("wings_2".toList, DepthPieceSet.debug Wing.debug c.wings2),
     ("center_corners_1".toList, DepthPieceSet.debug (CenterCorner.debug vector) c.centerCorners1),
     ("center_corners_2".toList, DepthPieceSet.debug (CenterCorner.debug vector) c.centerCorners2),
     ("center_wings".toList, DepthPieceSet.debug CenterWing.debug c.centerWings)]

/-- `#[derive(Debug)]` of `Cube7`, `cube_n/cube7/mod.rs:15-29` -/
def Cube7.debug (vector : Vec3 → List Char) (c : Cube7) : List Char :=
  structDebug "Cube7".toList
    [("corners".toList, c.corners.debug Corner.debug),
     ("edges".toList, c.edges.debug Edge.debug),
     ("wings_1".toList, DepthPieceSet.debug Wing.debug c.wings1),
     ("wings_2".toList, DepthPieceSet.debug Wing.debug c.wings2),
     ("center_corners_1".toList, DepthPieceSet.debug (CenterCorner.debug vector) c.centerCorners1),
     ("center_corners_2".toList, DepthPieceSet.debug (CenterCorner.debug vector) c.centerCorners2),
     ("center_wings".toList, DepthPieceSet.debug CenterWing.debug c.centerWings),
     ("center_edges_1".toList, DepthPieceSet.debug CenterEdge.debug c.centerEdges1),
     ("center_edges_2".toList, DepthPieceSet.debug CenterEdge.debug c.centerEdges2)]

/-- `generic/alg.rs:117-121`, the text of `NotConnected`; `state` is the debug text of a state -/
def notConnectedMessage {T : Type} (state : T → List Char) (e : T × T) : List Char :=
  "There is no move connecting ".toList ++ state e.1 ++ " and ".toList ++ state e.2

/-- `generic/piece/set.rs:168-175`, the text of a `ValidationError`; `position` and `piece` are the debug texts -/
def ValidationError.message {P : Type} [Piece P] (position : Piece.Position P → List Char) (piece : P → List Char) :
    ValidationError P → List Char
  | .duplicatePosition p => "Duplicate position (".toList ++ position p ++ ")".toList
  | .duplicatePiece p => "Duplicate piece (".toList ++ piece p ++ ")".toList

/-- `Debug` of the tuple `(Axis, Vec2)`, the position of an edge (`cube_n/pieces/edge.rs:51`) -/
def Edge.positionDebug (vector2 : Vec2 → List Char) (p : Axis × Vec2) : List Char :=
  "(".toList ++ p.1.debug ++ ", ".toList ++ vector2 p.2 ++ ")".toList

end Barbarosa
