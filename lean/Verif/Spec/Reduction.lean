import Verif.Spec.BigCubes

/-!
# The reduction method

A big cube is solved like a 3x3 once its centers are on their faces and the wings of each edge have been brought together, using turns of
the outermost layer only.
-/

namespace Barbarosa

/-- The alg with all its turns taken as turns of the outermost `d + 1` layers -/
def atDepth (N d : Nat) (alg : List AxisMove) : List (WideAxisMove N) := alg.map fun m => ⟨d, m⟩

/-- The two wings that belong to an edge of the 3x3 go where this edge goes: they lie between the same two faces. One of the two homes
between two given faces corresponds to the oriented edge there, the other one to the flipped edge; the wings keep this difference. -/
def FollowEdges (wings : PieceSet Wing 24) (edges : PieceSet Edge 12) : Prop :=
  ∀ i j, (PieceSet.SOLVED Wing i).correspondingEdge.position = (PieceSet.SOLVED Edge j).position →
    (wings i).correspondingEdge.position = (edges j).position ∧
    ((wings i).correspondingEdge.oriented = (edges j).oriented ↔ (PieceSet.SOLVED Wing i).correspondingEdge.oriented = true)

/-- The 4x4 looks like the 3x3: the corners are the same, the paired wings are like the edges, the centers are on their faces. -/
structure Cube4.LooksLike (c : Cube4) (c3 : Cube3) : Prop where
  corners : c.corners = c3.corners
  wings : FollowEdges c.wings c3.edges
  centers : ∀ i, (c.centers i).mainFace = (PieceSet.SOLVED CenterCorner i).mainFace

/-- the same for the 6x6 -/
structure Cube6.LooksLike (c : Cube6) (c3 : Cube3) : Prop where
  corners : c.corners = c3.corners
  wings1 : FollowEdges c.wings1 c3.edges
  wings2 : FollowEdges c.wings2 c3.edges
  centerCorners1 : ∀ i, (c.centerCorners1 i).mainFace = (PieceSet.SOLVED CenterCorner i).mainFace
  centerCorners2 : ∀ i, (c.centerCorners2 i).mainFace = (PieceSet.SOLVED CenterCorner i).mainFace
  centerWings : ∀ i, (c.centerWings i).mainFace = (PieceSet.SOLVED CenterWing i).mainFace

/-- the same for the 5x5, without center edges -/
structure Cube5.LooksLikeButCenterEdges (c : Cube5) (c3 : Cube3) : Prop where
  corners : c.corners = c3.corners
  edges : c.edges = c3.edges
  cornerCenters : ∀ i, (c.cornerCenters i).mainFace = (PieceSet.SOLVED CenterCorner i).mainFace

/-- the same for the 7x7, without center edges -/
structure Cube7.LooksLikeButCenterEdges (c : Cube7) (c3 : Cube3) : Prop where
  corners : c.corners = c3.corners
  edges : c.edges = c3.edges
  wings1 : FollowEdges c.wings1 c3.edges
  wings2 : FollowEdges c.wings2 c3.edges
  centerCorners1 : ∀ i, (c.centerCorners1 i).mainFace = (PieceSet.SOLVED CenterCorner i).mainFace
  centerCorners2 : ∀ i, (c.centerCorners2 i).mainFace = (PieceSet.SOLVED CenterCorner i).mainFace
  centerWings : ∀ i, (c.centerWings i).mainFace = (PieceSet.SOLVED CenterWing i).mainFace

/-- The corners, as a 2x2 -/
def Cube4.core (c : Cube4) : Cube2 := ⟨c.corners⟩
/-- The corners, as a 2x2 -/
def Cube6.core (c : Cube6) : Cube2 := ⟨c.corners⟩
/-- The corners and edges, as a 3x3 -/
def Cube5.core (c : Cube5) : Cube3 := ⟨c.edges, c.corners⟩
/-- The corners and (middle) edges, as a 3x3 -/
def Cube7.core (c : Cube7) : Cube3 := ⟨c.edges, c.corners⟩

end Barbarosa
