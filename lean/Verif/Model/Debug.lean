import Verif.Model.Parser
import Verif.Model.Visualization

/-!
# Debug texts of pieces, and accessors that nothing else needs

Only the plain form `{:?}` (not the indented form `{:#?}`). `#[derive(Debug)]` writes the name of a variant, or
`Name { field: value, .. }`.
-/

namespace Barbarosa

/-- `cube_n/pieces/wing.rs:83-85` -/
def Wing.slicePosition (w : Wing) : Vec2 := w.correspondingEdge.slicePosition

/-- `cube_n/pieces/wing.rs:135-140` (private) -/
def Wing.newWithOrientation (normalAxis : Axis) (slicePosition : Vec2) (oriented : Bool) : Wing :=
  ⟨⟨normalAxis, slicePosition, oriented⟩⟩

/-- `cube_n/pieces/center/wing.rs:93-103` -/
def CenterWing.newWithOrientation (mainFace : Face) (handedness sideDirection : Direction) (pseudoOriented : Bool) :
    CenterWing :=
  ⟨⟨mainFace, handedness, sideDirection⟩, pseudoOriented⟩

/-- `cube_n/pieces/edge.rs:154-156` -/
def Edge.orientedAt (normalAxis : Axis) (slicePosition : Vec2) : Edge := ⟨normalAxis, slicePosition, true⟩

/-- `cube_n/pieces/edge.rs:172-175` -/
def Edge.flipped (e : Edge) : Edge := { e with oriented := !e.oriented }

/-- `generic/utils.rs:28-36` (not used in the crate), for any type of coordinates -/
def sliceCoords {T : Type} (v : T × T × T) (normal : Axis) : T × T :=
  match normal with
  | .X => (v.2.1, v.2.2)
  | .Y => (v.1, v.2.2)
  | .Z => (v.1, v.2.1)

/-- `#[derive(Debug)]` of `Direction`, `cube_n/space/direction.rs:5` -/
def Direction.debug : Direction → List Char
  | .pos => ['P', 'o', 's', 'i', 't', 'i', 'v', 'e']
  | .neg => ['N', 'e', 'g', 'a', 't', 'i', 'v', 'e']

/-- `#[derive(Debug)]` of `Axis`, `cube_n/space/axis.rs:21` -/
def Axis.debug : Axis → List Char
  | .X => ['X']
  | .Y => ['Y']
  | .Z => ['Z']

/-- `Debug` of `bool` in Rust -/
def boolDebug : Bool → List Char
  | true => "true".toList
  | false => "false".toList

/-- `cube_n/space/face.rs:26-31` -/
def Face.debug (f : Face) : List Char := "Face { ".toList ++ f.display ++ " }".toList

/-- `cube_n/visualization/mod.rs:69-82` -/
def Color.debug (c : Color) : List Char :=
  "Color { ".toList ++
    (match c.face.axis, c.face.direction with
      | .X, .pos => "red".toList
      | .X, .neg => "orange".toList
      | .Y, .pos => "white".toList
      | .Y, .neg => "yellow".toList
      | .Z, .pos => "green".toList
      | .Z, .neg => "blue".toList) ++ " }".toList

/-- `cube_n/pieces/corner.rs:160-170` (the text ends in a parenthesis instead of a brace) -/
def Corner.debug (c : Corner) : List Char :=
  "Corner { faces: ".toList ++ (c.faces.flatMap Face.display) ++ ", orientation_axis: ".toList ++
    c.orientationAxis.debug ++ ")".toList

/-- `cube_n/pieces/edge.rs:246-253` -/
def Edge.debug (e : Edge) : List Char :=
  "Edge { faces: ".toList ++ e.faces.1.display ++ e.faces.2.display ++ ", oriented: ".toList ++ boolDebug e.oriented ++
    " }".toList

/-- `cube_n/pieces/wing.rs:176-186` -/
def Wing.debug (w : Wing) : List Char :=
  "Wing { faces: ".toList ++ w.correspondingEdge.faces.1.display ++ w.correspondingEdge.faces.2.display ++
    ", normal_direction: ".toList ++ w.normalDirection.debug ++ " }".toList

/-- `#[derive(Debug)]` of `CenterEdge`, `cube_n/pieces/center/edge.rs:21` -/
def CenterEdge.debug (c : CenterEdge) : List Char :=
  "CenterEdge { main_face: ".toList ++ c.mainFace.debug ++ ", handedness: ".toList ++ c.handedness.debug ++
    ", side_direction: ".toList ++ c.sideDirection.debug ++ " }".toList

/-- `#[derive(Debug)]` of `CenterCorner`, `cube_n/pieces/center/corner.rs:19-23`; how `nalgebra` prints a vector is the parameter -/
def CenterCorner.debug (vector : Vec3 → List Char) (c : CenterCorner) : List Char :=
  "CenterCorner { position: ".toList ++ vector c.position ++ ", axis: ".toList ++ c.axis.debug ++ " }".toList

/-- `cube_n/pieces/center/wing.rs:133-142` (`debug_struct`) -/
def CenterWing.debug (c : CenterWing) : List Char :=
  "CenterWing { main_face: ".toList ++ c.mainFace.debug ++ ", side_face: ".toList ++ c.sideFace.debug ++
    ", normal_direction: ".toList ++ c.normalDirection.debug ++ ", hypo_orient: ".toList ++ boolDebug c.pseudoOriented ++
    " }".toList

end Barbarosa
