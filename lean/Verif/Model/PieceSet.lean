import Verif.Model.Pieces
import Mathlib.Data.Fintype.Pi
import Mathlib.Logic.Equiv.Basic

/-!
# Piece sets

Transcription of `generic/piece/set.rs` and of `DepthPieceSet` in `cube_n/moves/wide.rs`.
-/

namespace Barbarosa

/-- `generic/piece/set.rs:40-42`: a `PieceSet<P, N>` is its array of pieces. `DepthPieceSet`
(`cube_n/moves/wide.rs:201-209`) only adds type-level depths, so it is the same array here and the depths
are arguments of `DepthPieceSet.moved`. -/
abbrev PieceSet (P : Type) (n : Nat) := Fin n → P

/-- `generic/piece/set.rs:168-175` -/
inductive ValidationError (P : Type) [Piece P]
  | duplicatePosition (p : Piece.Position P)
  | duplicatePiece (p : P)

/-- `generic/piece/set.rs:154-166`: the `for` loop, `visited` is the accumulator (`push` appends) -/
def findDuplicatesGo {T : Type} [DecidableEq T] : List T → List T → Option T
  | _, [] => none
  | visited, x :: xs => if visited.contains x then some x else findDuplicatesGo (visited ++ [x]) xs

/-- `generic/piece/set.rs:154-166` -/
def findDuplicates {T : Type} [DecidableEq T] (l : List T) : Option T := findDuplicatesGo [] l

namespace PieceSet

variable {P : Type} {n : Nat}

/-- `generic/piece/set.rs:88-90` (`iter`) -/
def toList (s : PieceSet P n) : List P := List.ofFn s

/-- `generic/piece/set.rs:63-73` -/
def validate [DecidableEq P] [PieceSetDescriptor P n] (s : PieceSet P n) : Option (ValidationError P) :=
  match findDuplicates (s.toList.map Piece.position) with
  | some dup => some (.duplicatePosition dup)
  | none =>
    match findDuplicates s.toList with
    | some dup => some (.duplicatePiece dup)
    | none => none

/-- `generic/piece/set.rs:53-60` -/
def new [DecidableEq P] [PieceSetDescriptor P n] (pieces : Fin n → P) : Except (ValidationError P) (PieceSet P n) :=
  match validate (n := n) pieces with
  | some err => .error err
  | none => .ok pieces

/-- `generic/piece/set.rs:46` -/
def SOLVED (P : Type) {n : Nat} [PieceSetDescriptor P n] : PieceSet P n := PieceSetDescriptor.SOLVED

/-- `generic/piece/set.rs:81-95` (`zip_positions`, `iter_with_pos`) -/
def iterWithPos [PieceSetDescriptor P n] (s : PieceSet P n) : List (Piece.Position P × P) :=
  (List.ofFn (PieceSetDescriptor.REFERENCE_POSITIONS (P := P))).zip s.toList

/-- `generic/piece/set.rs:104-107` -/
def isSolved [PieceSetDescriptor P n] (s : PieceSet P n) : Bool :=
  s.iterWithPos.all fun x => Piece.isSolved x.2 x.1

/-- `generic/piece/set.rs:110-115`; `none` is the `expect` panic -/
def pieceOriginallyAt? [PieceSetDescriptor P n] (s : PieceSet P n) (target : Piece.Position P) : Option P :=
  (s.iterWithPos.find? fun x => decide (x.1 = target)).map (·.2)

/-- `generic/piece/set.rs:118-123`; `none` is the `expect` panic -/
def originalPositionOfPieceAt? [PieceSetDescriptor P n] (s : PieceSet P n) (target : Piece.Position P) :
    Option (Piece.Position P) :=
  (s.iterWithPos.find? fun x => decide (Piece.position x.2 = target)).map (·.1)

/-- `generic/piece/set.rs:126-128` -/
def atIndex (s : PieceSet P n) (i : Nat) : Option P := if h : i < n then some (s ⟨i, h⟩) else none

/-- `generic/piece/set.rs:131-133`: the outcome of `rand`'s shuffle is an arbitrary permutation of the array -/
def shuffle (s : PieceSet P n) (σ : Equiv.Perm (Fin n)) : PieceSet P n := s ∘ σ

/-- `REFERENCE_POSITIONS.iter().position(|pos| pos == a)`, `generic/piece/set.rs:139-142` -/
def refIndex? (P : Type) {n : Nat} [PieceSetDescriptor P n] (a : Piece.Position P) : Option (Fin n) :=
  (List.finRange n).find? fun i => decide (PieceSetDescriptor.REFERENCE_POSITIONS (P := P) i = a)

/-- The parallel assignment of `generic/piece/set.rs:149-150` -/
def swapAt (s : PieceSet P n) (i j : Fin n) : PieceSet P n :=
  Function.update (Function.update s i (s j)) j (s i)

/-- `generic/piece/set.rs:138-151`; `none` is the `expect` panic -/
def swap? [PieceSetDescriptor P n] (s : PieceSet P n) (a b : Piece.Position P) : Option (PieceSet P n) :=
  match refIndex? P (n := n) a, refIndex? P (n := n) b with
  | some i, some j => some (swapAt s i j)
  | _, _ => none

/-- `generic/piece/set.rs:177-187` -/
def moved {M : Type} [Movable P M] (s : PieceSet P n) (m : M) : PieceSet P n :=
  fun i => Movable.moved (s i) m

end PieceSet

/-- `cube_n/moves/wide.rs:220-234`: one piece of the set under a wide move (the `filter` and `for_each`) -/
def DepthPiece.moved {P : Type} [DepthPiece P] [Rotatable P] {M : Nat} (nd td : Nat) (p : P)
    (m : WideAxisMove M) : P :=
  if DepthPiece.isInWideMove p nd td m then Rotatable.rotated p (AxisRotation.ofMove m.axisMove) else p

/-- `cube_n/moves/wide.rs:220-234` -/
def DepthPieceSet.moved {P : Type} [DepthPiece P] [Rotatable P] {n M : Nat} (nd td : Nat) (s : PieceSet P n)
    (m : WideAxisMove M) : PieceSet P n :=
  fun i => DepthPiece.moved nd td (s i) m

end Barbarosa
