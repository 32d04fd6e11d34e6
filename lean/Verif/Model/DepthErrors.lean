import Verif.Model.Parser

/-!
# Wide moves that are refused, with the error

The functions of `cube_n/moves/wide.rs` that can fail, once more, with what the error contains (`Model/Moves.lean` only says that there is one).
-/

namespace Barbarosa

/-- `cube_n/moves/wide.rs:98-104` (`ExcededDepth(given, max)`, the only variant) -/
structure WideMoveCreationError where
  given : Nat
  max : Nat
  deriving DecidableEq, Repr

/-- `cube_n/moves/wide.rs:102` (`Display`, from `thiserror`) -/
def WideMoveCreationError.message (e : WideMoveCreationError) : List Char := excededDepthMessage e.given e.max

namespace WideAxisMove

variable {N : Nat}

/-- `cube_n/moves/wide.rs:46-55` -/
def newE (N : Nat) (face : Face) (amount : Amount) (depth : Nat) : Except WideMoveCreationError (WideAxisMove N) :=
  if depth > N then .error ⟨depth, N⟩ else .ok ⟨depth, ⟨face, amount⟩⟩

/-- `cube_n/moves/wide.rs:75-83`: what is returned, and the move afterwards -/
def setDepthE (m : WideAxisMove N) (newDepth : Nat) : Except WideMoveCreationError Unit × WideAxisMove N :=
  if newDepth > N then (.error ⟨newDepth, N⟩, m) else (.ok (), { m with depth := newDepth })

/-- `cube_n/moves/wide.rs:86-95` -/
def setMaxDepthE (m : WideAxisMove N) (M : Nat) : Except WideMoveCreationError (WideAxisMove M) :=
  if m.depth > M then .error ⟨m.depth, M⟩ else .ok ⟨m.depth, m.axisMove⟩

end WideAxisMove

/-- `cube_n/moves/mod.rs:85-87` -/
def AxisMove.widenE (m : AxisMove) (N depth : Nat) : Except WideMoveCreationError (WideAxisMove N) :=
  WideAxisMove.newE N m.face m.amount depth

/-- `cube_n/moves/wide.rs:170-183` (`collect` into a `Result` stops at the first error) -/
def algWidenE (N depth : Nat) : List AxisMove → Except WideMoveCreationError (List (WideAxisMove N))
  | [] => .ok []
  | m :: alg =>
    match m.widenE N depth with
    | .error e => .error e
    | .ok w =>
      match algWidenE N depth alg with
      | .error e => .error e
      | .ok ws => .ok (w :: ws)

end Barbarosa
