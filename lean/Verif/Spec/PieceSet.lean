import Verif.Model.Cubes

/-!
# Operations on piece sets, as a user (or the random generator) can issue them
-/

namespace Barbarosa

/-- Everything the crate does to a set of corners: turns, shuffling, swapping two homes, twisting a corner
(`Corner::twist`) and overwriting the orientation axis (`cube_n/cube3/mod.rs:80-82`). -/
inductive CornerOp
  | move (m : AxisMove)
  | shuffle (σ : Equiv.Perm (Fin 8))
  | swap (a b : Vec3)
  | twist (i : Fin 8)
  | orient (i : Fin 8) (axis : Axis)

/-- effect of an operation; `none` is a panic -/
def CornerOp.run (s : PieceSet Corner 8) : CornerOp → Option (PieceSet Corner 8)
  | .move m => some (s.moved m)
  | .shuffle σ => some (s.shuffle σ)
  | .swap a b => s.swap? a b
  | .twist i => some (Function.update s i (s i).twist)
  | .orient i axis => some (Function.update s i { s i with orientationAxis := axis })

/-- The same for edges (`Edge::flip`, and the draw of `oriented`). -/
inductive EdgeOp
  | move (m : AxisMove)
  | shuffle (σ : Equiv.Perm (Fin 12))
  | swap (a b : Edge.Pos)
  | flip (i : Fin 12)
  | orient (i : Fin 12) (oriented : Bool)

/-- effect of an operation; `none` is a panic -/
def EdgeOp.run (s : PieceSet Edge 12) : EdgeOp → Option (PieceSet Edge 12)
  | .move m => some (s.moved m)
  | .shuffle σ => some (s.shuffle σ)
  | .swap a b => s.swap? a b
  | .flip i => some (Function.update s i (s i).flip)
  | .orient i o => some (Function.update s i { s i with oriented := o })

/-- Sets of wings and centres: wide turns at any depths, shuffling and swapping. -/
inductive DepthOp (P : Type) (n : Nat) [PieceSetDescriptor P n]
  | move (nd td M : Nat) (m : WideAxisMove M)
  | shuffle (σ : Equiv.Perm (Fin n))
  | swap (a b : Piece.Position P)

/-- effect of an operation; `none` is a panic -/
def DepthOp.run {P : Type} {n : Nat} [PieceSetDescriptor P n] [DepthPiece P] [Rotatable P] (s : PieceSet P n) :
    DepthOp P n → Option (PieceSet P n)
  | .move nd td _ m => some (DepthPieceSet.moved nd td s m)
  | .shuffle σ => some (s.shuffle σ)
  | .swap a b => s.swap? a b

end Barbarosa
