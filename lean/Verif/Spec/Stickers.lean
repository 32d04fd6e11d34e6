import Verif.Spec.Geometry
import Verif.Model.Visualization

/-!
# Facelets

The 54 facelets of a 3x3 as points of `ℤ³` with an outward face, and what a turn of an outer layer does to them, in
terms of the coordinate formulas of `Spec/Geometry.lean`. Nothing here looks at pieces or orientations.
-/

namespace Barbarosa

/-- A facelet: the position of its cubelet (coordinates `-1`, `0`, `1`) and the face it looks to. -/
structure Facelet where
  point : Z3
  face : Face
  deriving DecidableEq, Repr

namespace Facelet

/-- the facelet is one of the 54 on the surface -/
def OnCube (s : Facelet) : Prop :=
  (-1 ≤ s.point.x ∧ s.point.x ≤ 1) ∧ (-1 ≤ s.point.y ∧ s.point.y ≤ 1) ∧ (-1 ≤ s.point.z ∧ s.point.z ≤ 1) ∧
    s.point.dot s.face.normal = 1

instance (s : Facelet) : Decidable s.OnCube := by unfold OnCube; infer_instance

/-- the centre of a face -/
def IsCentre (s : Facelet) : Prop := s.point = s.face.normal

instance (s : Facelet) : Decidable s.IsCentre := by unfold IsCentre; infer_instance

/-- The cubelet of the facelet lies in the outer layer that a move turns. -/
def InLayer (m : AxisMove) (s : Facelet) : Prop := s.point.dot m.face.normal = 1

instance (m : AxisMove) (s : Facelet) : Decidable (s.InLayer m) := by unfold InLayer; infer_instance

/-- Turning the outer layer carries facelet `s` to facelet `s'`: inside the layer, position and outward normal are
rotated in space; outside nothing happens. -/
def Carries (m : AxisMove) (s s' : Facelet) : Prop :=
  if s.InLayer m then s'.point = turnOf m s.point ∧ s'.face.normal = turnOf m s.face.normal else s' = s

instance (m : AxisMove) (s s' : Facelet) : Decidable (Carries m s s') := by unfold Carries; infer_instance

/-- all 54 facelets -/
def all : List Facelet :=
  ([-1, 0, 1].flatMap fun x => [-1, 0, 1].flatMap fun y => [-1, 0, 1].flatMap fun z =>
    [Face.R, .U, .F, .L, .D, .B].map fun f => ⟨⟨x, y, z⟩, f⟩).filter fun s => decide s.OnCube

end Facelet

/-- the colour that a picture shows at a facelet, read with the public functions `Index<&Face>` and `Square::at` -/
def Unfolded.shows {N : Nat} (u : Unfolded N) (s : Facelet) : Option Color :=
  (u.square s.face).at? (s.point.x, s.point.y, s.point.z) s.face

/-- the colour that the drawing of a 3x3 shows at a facelet; `none` if drawing panics or the facelet is off the picture -/
def Cube3.shows (c : Cube3) (s : Facelet) : Option Color := (Unfolded.ofCube3? c).bind fun u => u.shows s

/-- the stickers of one piece: where they are and their colours -/
def pieceStickers {P : Type} [Piece P] [Colored P] [Coordinates P] (x : Piece.Position P × P) : List (Facelet × Color) :=
  (Colored.colors x.2 x.1).map fun fc =>
    let p := Coordinates.coordinatesPos (P := P) (Piece.position x.2)
    (⟨⟨p.1, p.2.1, p.2.2⟩, fc.1⟩, fc.2)

/-- every sticker that drawing the cube writes, in order -/
def Cube3.stickers (c : Cube3) : List (Facelet × Color) :=
  c.corners.iterWithPos.flatMap pieceStickers ++ c.edges.iterWithPos.flatMap pieceStickers

end Barbarosa
