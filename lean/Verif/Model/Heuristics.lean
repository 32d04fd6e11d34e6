import Verif.Model.Search
import Verif.Model.Visualization
import Mathlib.Data.Rat.Defs
import Mathlib.Algebra.Order.Ring.Unbundled.Rat

/-!
# Heuristics and the cross

Transcription of `cube_n/cube3/heuristics/{mod,manhattan}.rs` and `cube_n/cube3/cfop/cross.rs`.

Simplification. The `f32` results are exact: all of them are multiples of 1/16 below 100, and so are all the intermediate
sums; they are modelled by rational numbers. Coordinates are `-1.0`, `0.0`, `1.0`, modelled by `Int`.
-/

namespace Barbarosa

/-- `cube_n/cube3/heuristics/mod.rs:12-14` -/
def zeroHeuristic {C : Type} (_ : C) : ℚ := 0

/-- `cube_n/cube3/heuristics/manhattan.rs:21-23` -/
def vecManhattan (a b : Int × Int × Int) : Int :=
  |a.1 - b.1| + |a.2.1 - b.2.1| + |a.2.2 - b.2.2|

/-- `cube_n/cube3/heuristics/manhattan.rs:26-28`; `coordinates()` is `coordinates_pos(position())`
(`generic/piece/traits.rs:6-14`) -/
def pieceManhattan {P : Type} [Piece P] [Coordinates P] (orig : Piece.Position P) (p : P) : Int :=
  vecManhattan (Coordinates.coordinatesPos (P := P) (Piece.position p)) (Coordinates.coordinatesPos (P := P) orig)

/-- `cube_n/cube3/heuristics/manhattan.rs:30-36` -/
def pieceSetManhattan {P : Type} {n : Nat} [PieceSetDescriptor P n] [Coordinates P] (s : PieceSet P n) : Int :=
  (s.iterWithPos.map fun x => pieceManhattan x.1 x.2).sum

/-- `cube_n/cube3/heuristics/manhattan.rs:39-44` -/
def manhattan (c : Cube3) : ℚ :=
  ((pieceSetManhattan c.edges + pieceSetManhattan c.corners : Int) : ℚ) / (8 * 2)

/-- `cube_n/cube3/heuristics/manhattan.rs:47-55` -/
def manhattanFiltered {P : Type} {n : Nat} [PieceSetDescriptor P n] [Coordinates P] (s : PieceSet P n)
    (filter : Piece.Position P → P → Bool) : Int :=
  ((s.iterWithPos.filter fun x => filter x.1 x.2).map fun x =>
    vecManhattan (Coordinates.coordinatesPos (P := P) (Piece.position x.2)) (Coordinates.coordinatesPos (P := P) x.1)).sum

/-! ## The cross -/

/-- `cube_n/cube3/cfop/cross.rs:21-23` -/
def isCrossEdge (orig : Edge.Pos) (bottom : Face) : Bool :=
  decide (Edge.directionOnAxis orig bottom.axis = some bottom.direction)

/-- `cube_n/cube3/cfop/cross.rs:26-35` -/
def countCrossPieces (c : Cube3) (bottom : Face) : Nat :=
  (c.edges.iterWithPos.filter fun x =>
    decide (Piece.position x.2 = x.1) && isCrossEdge x.1 bottom && x.2.oriented).length

/-- `cube_n/cube3/cfop/cross.rs:38-51`; `none` is a failing `debug_assert_eq!` -/
def getCrossPieces? (bottom : Face) : Option (List Edge.Pos) :=
  let n1 := bottom.axis.next
  let n2 := n1.next
  if n1.next.next = bottom.axis ∧ n2.next = bottom.axis then
    some [(n1, ⟨.pos, bottom.direction⟩), (n1, ⟨.neg, bottom.direction⟩),
          (n2, ⟨bottom.direction, .pos⟩), (n2, ⟨bottom.direction, .neg⟩)]
  else none

/-- the numbers both cross heuristics look at: `cube_n/cube3/cfop/cross.rs:87-90` and `99-102` -/
def crossEdgeMoves (c : Cube3) (bottom : Face) : List Nat :=
  (c.edges.iterWithPos.filter fun x => isCrossEdge x.1 bottom).map fun x => Edge.minMovesToSolve x.1 x.2

/-- `cube_n/cube3/cfop/cross.rs:86-93` -/
def goodCrossHeuristic (c : Cube3) (bottom : Face) : ℚ := ((crossEdgeMoves c bottom).sum : ℚ) / 2

/-- `cube_n/cube3/cfop/cross.rs:98-105`; `none` is the panic of `expect` -/
def worseCrossHeuristic? (c : Cube3) (bottom : Face) : Option ℚ :=
  (crossEdgeMoves c bottom).max?.map fun n => (n : ℚ)

/-- Total version of `worseCrossHeuristic?` (see `worseCrossHeuristic?_eq`) -/
def worseCrossHeuristic (c : Cube3) (bottom : Face) : ℚ :=
  match worseCrossHeuristic? c bottom with
  | some q => q
  | none => 0

/-- `cube_n/cube3/cfop/cross.rs:73-81` -/
def solveCrossDirectly? {K : Type} (ops : CostOps K) (fuel : Nat) (c : Cube3) (bottom : Face) (h : Cube3 → K) :
    Option (Option (List AxisMove × Cube3)) :=
  search? ops h Cube3.successors 200 fuel c fun c => countCrossPieces c bottom == 4

/-- `cube_n/cube3/cfop/cross.rs:58-62`, with exact arithmetic -/
def solveCrossFast? (fuel : Nat) (c : Cube3) (bottom : Face) : Option (Option (List AxisMove × Cube3)) :=
  solveCrossDirectly? ⟨0, 1, (· + ·), fun a b => decide (a < b)⟩ fuel c bottom fun c => goodCrossHeuristic c bottom

/-- `cube_n/cube3/cfop/cross.rs:67-71`, with exact arithmetic -/
def solveCross? (fuel : Nat) (c : Cube3) (bottom : Face) : Option (Option (List AxisMove × Cube3)) :=
  solveCrossDirectly? ⟨0, 1, (· + ·), fun a b => decide (a < b)⟩ fuel c bottom fun c => worseCrossHeuristic c bottom

end Barbarosa
