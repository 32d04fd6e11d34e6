import Verif.Spec.Geometry
import Verif.Model.Heuristics

/-!
# What a cross is, and counting turns
-/

namespace Barbarosa

/-- the cubelet at an edge position lies in the outer layer of the face (in coordinates) -/
def Edge.Touches (p : Edge.Pos) (f : Face) : Prop :=
  let v := Coordinates.coordinatesPos (P := Edge) p
  (⟨v.1, v.2.1, v.2.2⟩ : Z3).dot f.normal = 1

instance (p : Edge.Pos) (f : Face) : Decidable (Edge.Touches p f) := by unfold Edge.Touches; infer_instance

/-- The cross of a face is solved: each edge whose home touches the face is the edge that the solved cube has there. -/
def Cube3.CrossSolved (c : Cube3) (f : Face) : Prop :=
  ∀ i : Fin 12, Edge.Touches (Edge.REFERENCE_POSITIONS i) f → c.edges i = PieceSet.SOLVED Edge i

instance (c : Cube3) (f : Face) : Decidable (c.CrossSolved f) := by unfold Cube3.CrossSolved; infer_instance

/-- the number of moves of an alg, half turns counted one and a half times -/
def weightedLength : List AxisMove → ℚ
  | [] => 0
  | m :: l => (match m.amount with | .double => 3 / 2 | _ => 1) + weightedLength l

end Barbarosa
