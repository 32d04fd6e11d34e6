import Verif.Model.Cubes

/-!
# Specification of C115: flipping every edge
-/

namespace Barbarosa

/-- the center edge beside the same edge, on the other face -/
def CenterEdge.across (x : CenterEdge) : CenterEdge := (CenterEdge.tryFromFaces x.sideFace x.mainFace).getD x

/-- every edge flipped where it is, nothing else changed -/
def Cube3.allFlipped (c : Cube3) : Cube3 := { c with edges := fun i => (c.edges i).flip }

/-- every edge flipped where it is, with the two center edges beside it -/
def Cube5.allFlipped (c : Cube5) : Cube5 :=
  { c with edges := fun i => (c.edges i).flip, cornerEdges := fun i => (c.cornerEdges i).across }

/-- every edge flipped where it is, with the four center edges beside it -/
def Cube7.allFlipped (c : Cube7) : Cube7 :=
  { c with edges := fun i => (c.edges i).flip, centerEdges1 := fun i => (c.centerEdges1 i).across,
           centerEdges2 := fun i => (c.centerEdges2 i).across }

end Barbarosa
