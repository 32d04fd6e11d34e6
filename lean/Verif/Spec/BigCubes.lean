import Verif.Spec.Geometry
import Verif.Model.Cubes

/-!
# Where the cubies of a big cube are

The cubies of an `N×N×N` cube have centres with coordinates `-(N-1), -(N-3), …, N-1`. The place of a piece is read off
with the public accessors (`faces`, `normal_direction`, `main_face`, `side_face`, `position`, `axis`); `k` is the number of
layers between the piece and the nearest face in its "normal" direction, `t` the same in the tangential direction.
-/

namespace Barbarosa

namespace Z3

def add (p q : Z3) : Z3 := ⟨p.x + q.x, p.y + q.y, p.z + q.z⟩
def smul (a : Int) (p : Z3) : Z3 := ⟨a * p.x, a * p.y, a * p.z⟩

end Z3

/-- A corner: outermost in all three directions. -/
def Corner.cell (N : Nat) (c : Corner) : Z3 := c.position.point.smul (N - 1)

/-- An edge: outermost on its two faces, in the middle between them (odd `N`). -/
def Edge.cell (N : Nat) (e : Edge) : Z3 := (e.faces.1.normal.add e.faces.2.normal).smul (N - 1)

/-- A wing: outermost on its two faces, `k` layers from the face its normal direction points to. -/
def Wing.cell (N k : Nat) (w : Wing) : Z3 :=
  ((w.faces.1.normal.add w.faces.2.normal).smul (N - 1)).add
    ((Face.normal ⟨w.normalAxis, w.normalDirection⟩).smul (N - 1 - 2 * k))

/-- The face a center corner is on -/
def CenterCorner.mainFace (c : CenterCorner) : Face := ⟨c.axis, c.position.at c.axis⟩

/-- A center corner: outermost in the direction of its axis, `k` layers from the faces in the two others. -/
def CenterCorner.cell (N k : Nat) (c : CenterCorner) : Z3 :=
  (c.mainFace.normal.smul (2 * k)).add (c.position.point.smul (N - 1 - 2 * k))

/-- A center edge: outermost on its main face, `k` layers from its side face, in the middle in the third direction. -/
def CenterEdge.cell (N k : Nat) (c : CenterEdge) : Z3 :=
  (c.mainFace.normal.smul (N - 1)).add (c.sideFace.normal.smul (N - 1 - 2 * k))

/-- A center wing: outermost on its main face, `k` layers from its side face, `t` layers from the face its normal direction
points to. -/
def CenterWing.cell (N k t : Nat) (c : CenterWing) : Z3 :=
  ((c.mainFace.normal.smul (N - 1)).add (c.sideFace.normal.smul (N - 1 - 2 * k))).add
    ((Face.normal ⟨c.normalAxis, c.normalDirection⟩).smul (N - 1 - 2 * t))

/-- the cubie lies in the outermost `d + 1` layers of the face -/
def InLayers (N d : Nat) (f : Face) (p : Z3) : Prop := (N : Int) - 1 - 2 * d ≤ p.dot f.normal

instance (N d : Nat) (f : Face) (p : Z3) : Decidable (InLayers N d f p) := by unfold InLayers; infer_instance

/-- Where the cubie at `p` should be after turning the outermost `d + 1` layers. -/
def wideTurn (N d : Nat) (m : AxisMove) (p : Z3) : Z3 := if InLayers N d m.face p then turnOf m p else p

/-! ## Uniform faces -/

/-- Every corner and wing is home (and oriented), every center is on the face it belongs to. -/
structure Cube4.FacesUniform (c : Cube4) : Prop where
  corners : c.corners = PieceSet.SOLVED Corner
  wings : c.wings = PieceSet.SOLVED Wing
  centers : ∀ i, (c.centers i).mainFace = (PieceSet.SOLVED CenterCorner i).mainFace

/-- the same for the 5x5 (which has no wings in this crate) -/
structure Cube5.FacesUniform (c : Cube5) : Prop where
  corners : c.corners = PieceSet.SOLVED Corner
  edges : c.edges = PieceSet.SOLVED Edge
  cornerCenters : ∀ i, (c.cornerCenters i).mainFace = (PieceSet.SOLVED CenterCorner i).mainFace
  cornerEdges : ∀ i, (c.cornerEdges i).mainFace = (PieceSet.SOLVED CenterEdge i).mainFace

/-- the same for the 6x6 -/
structure Cube6.FacesUniform (c : Cube6) : Prop where
  corners : c.corners = PieceSet.SOLVED Corner
  wings1 : c.wings1 = PieceSet.SOLVED Wing
  wings2 : c.wings2 = PieceSet.SOLVED Wing
  centerCorners1 : ∀ i, (c.centerCorners1 i).mainFace = (PieceSet.SOLVED CenterCorner i).mainFace
  centerCorners2 : ∀ i, (c.centerCorners2 i).mainFace = (PieceSet.SOLVED CenterCorner i).mainFace
  centerWings : ∀ i, (c.centerWings i).mainFace = (PieceSet.SOLVED CenterWing i).mainFace

/-- the same for the 7x7 -/
structure Cube7.FacesUniform (c : Cube7) : Prop where
  corners : c.corners = PieceSet.SOLVED Corner
  edges : c.edges = PieceSet.SOLVED Edge
  wings1 : c.wings1 = PieceSet.SOLVED Wing
  wings2 : c.wings2 = PieceSet.SOLVED Wing
  centerCorners1 : ∀ i, (c.centerCorners1 i).mainFace = (PieceSet.SOLVED CenterCorner i).mainFace
  centerCorners2 : ∀ i, (c.centerCorners2 i).mainFace = (PieceSet.SOLVED CenterCorner i).mainFace
  centerWings : ∀ i, (c.centerWings i).mainFace = (PieceSet.SOLVED CenterWing i).mainFace
  centerEdges1 : ∀ i, (c.centerEdges1 i).mainFace = (PieceSet.SOLVED CenterEdge i).mainFace
  centerEdges2 : ∀ i, (c.centerEdges2 i).mainFace = (PieceSet.SOLVED CenterEdge i).mainFace

end Barbarosa
