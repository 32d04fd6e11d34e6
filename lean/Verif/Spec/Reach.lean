import Verif.Spec.Invariants
import Verif.Spec.BigCubes
import Verif.Spec.Reduction

/-!
# Which states of the big cubes can be reached

The laws that are stated for the 3x3 and the 2x2 in `Spec/Invariants.lean`, for the cubes with four to seven layers.
-/

namespace Barbarosa

open Equiv

/-- The center wings come in two mirror images: for half of them the main face, the side face and the face the normal direction
points to form a right-handed system. No rotation takes one kind to the other one. -/
def CenterWing.rightHanded (c : CenterWing) : Bool :=
  let p := c.mainFace.normal
  let q := c.sideFace.normal
  let r := Face.normal ⟨c.normalAxis, c.normalDirection⟩
  p.x * (q.y * r.z - q.z * r.y) + p.y * (q.z * r.x - q.x * r.z) + p.z * (q.x * r.y - q.y * r.x) == 1

/-- `ρ` tells where the center wings of one kind are. -/
def CenterWingsArranged (s : PieceSet CenterWing 48) (b : Bool)
    (ρ : Perm { i : Fin 48 // (CenterWing.SOLVED i).rightHanded = b }) : Prop :=
  ∀ i, s i.1 = CenterWing.SOLVED (ρ i).1

/-! ## 4x4 -/

/-- The 4x4 can be brought to this state by turns of one or two layers. -/
def Cube4.Reachable (c : Cube4) : Prop :=
  ∃ alg : List (WideAxisMove 1), (∀ m ∈ alg, m.WF) ∧ movedAlg (Cube.SOLVED : Cube4) alg = c

/-- The laws of the 4x4: the wings are anywhere; the corners obey the law of the 2x2; centers and corners are permuted with the
same parity. -/
structure Cube4.Lawful (c : Cube4) : Prop where
  twists : 3 ∣ ∑ i, (c.corners i).orientationIndex
  wings : ∃ ω, c.wings.Arranged ω
  parity : ∃ τ σ, c.corners.Arranged τ ∧ c.centers.Arranged σ ∧ Perm.sign σ = Perm.sign τ

/-! ## 6x6 -/

/-- The 6x6 can be brought to this state by turns of one, two or three layers. -/
def Cube6.Reachable (c : Cube6) : Prop :=
  ∃ alg : List (WideAxisMove 2), (∀ m ∈ alg, m.WF) ∧ movedAlg (Cube.SOLVED : Cube6) alg = c

/-- The law of the centers and wings of the 6x6 and of the 7x7; `τ` is the permutation of the corners. -/
def CentersLawful (τ : Perm (Fin 8)) (wings1 wings2 : PieceSet Wing 24) (centerCorners1 centerCorners2 : PieceSet CenterCorner 24)
    (centerWings : PieceSet CenterWing 48) : Prop :=
  ∃ ω₁ ω₂ σ₁ σ₂ ρ l, wings1.Arranged ω₁ ∧ wings2.Arranged ω₂ ∧ centerCorners1.Arranged σ₁ ∧ centerCorners2.Arranged σ₂ ∧
    CenterWingsArranged centerWings true ρ ∧ CenterWingsArranged centerWings false l ∧
    Perm.sign σ₁ = Perm.sign τ ∧ Perm.sign σ₂ = Perm.sign τ ∧
    Perm.sign ρ = Perm.sign τ * Perm.sign ω₁ * Perm.sign ω₂ ∧ Perm.sign l = Perm.sign τ * Perm.sign ω₁ * Perm.sign ω₂

/-- The laws of the 6x6. -/
structure Cube6.Lawful (c : Cube6) : Prop where
  twists : 3 ∣ ∑ i, (c.corners i).orientationIndex
  parity : ∃ τ, c.corners.Arranged τ ∧
    CentersLawful τ c.wings1 c.wings2 c.centerCorners1 c.centerCorners2 c.centerWings

/-! ## 5x5 and 7x7 -/

/-- The 5x5 can be brought to this state by turns of one or two layers. -/
def Cube5.Reachable (c : Cube5) : Prop :=
  ∃ alg : List (WideAxisMove 1), (∀ m ∈ alg, m.WF) ∧ movedAlg (Cube.SOLVED : Cube5) alg = c

/-- The 7x7 can be brought to this state by turns of one, two or three layers. -/
def Cube7.Reachable (c : Cube7) : Prop :=
  ∃ alg : List (WideAxisMove 2), (∀ m ∈ alg, m.WF) ∧ movedAlg (Cube.SOLVED : Cube7) alg = c

/-- The two faces of an edge: first the one that shows the sticker which decides about the orientation. -/
def Edge.markedFaces (e : Edge) : Face × Face :=
  if (e.oriented ^^ (e.normalAxis == .Z)) then e.faces else e.faces.swap

/-- The center edge next to a sticker of an edge stays next to this sticker. -/
def CenterEdgesFollow (centerEdges : PieceSet CenterEdge 24) (edges : PieceSet Edge 12) : Prop :=
  ∀ i j, (((CenterEdge.SOLVED i).mainFace, (CenterEdge.SOLVED i).sideFace) = (PieceSet.SOLVED Edge j).markedFaces →
      ((centerEdges i).mainFace, (centerEdges i).sideFace) = (edges j).markedFaces) ∧
    (((CenterEdge.SOLVED i).mainFace, (CenterEdge.SOLVED i).sideFace) = (PieceSet.SOLVED Edge j).markedFaces.swap →
      ((centerEdges i).mainFace, (centerEdges i).sideFace) = (edges j).markedFaces.swap)

/-- The laws of the pieces of a 5x5 that this crate has, without the center edges -/
structure Cube5.LawfulButCenterEdges (c : Cube5) : Prop where
  core : (⟨c.edges, c.corners⟩ : Cube3).Lawful
  parity : ∃ τ σ, c.corners.Arranged τ ∧ c.cornerCenters.Arranged σ ∧ Perm.sign σ = Perm.sign τ

/-- The laws of the pieces of a 7x7, without the center edges -/
structure Cube7.LawfulButCenterEdges (c : Cube7) : Prop where
  core : (⟨c.edges, c.corners⟩ : Cube3).Lawful
  parity : ∃ τ, c.corners.Arranged τ ∧
    CentersLawful τ c.wings1 c.wings2 c.centerCorners1 c.centerCorners2 c.centerWings

end Barbarosa
