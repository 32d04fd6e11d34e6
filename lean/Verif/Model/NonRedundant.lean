import Verif.Model.Cubes
import Mathlib.Data.Fintype.Sum

/-!
# Non redundant moves, normalisation, random algs, named algs

Transcription of `cube_n/moves/non_redundant.rs`, `cube_n/moves/perms.rs` and of `connect`, `try_from_states`,
`random_unnormalized` in `generic/moves.rs` and `generic/alg.rs`.
-/

namespace Barbarosa

/-- `cube_n/moves/non_redundant.rs:34-48` -/
inductive NonRedundantAxisMove
  | single (m : AxisMove)
  | double (axis : Axis) (amountPositive amountNegative : Amount)
  deriving DecidableEq, Repr

/-- Enumeration of the type (not in the Rust code). -/
instance : Fintype NonRedundantAxisMove :=
  Fintype.ofEquiv (AxisMove ⊕ (Axis × Amount × Amount))
    ⟨fun | .inl m => .single m | .inr (a, p, n) => .double a p n,
     fun | .single m => .inl m | .double a p n => .inr (a, p, n),
     fun x => by rcases x with m | ⟨a, p, n⟩ <;> rfl, fun x => by cases x <;> rfl⟩

namespace NonRedundantAxisMove

/-- `cube_n/moves/non_redundant.rs:64-69` -/
def axis : NonRedundantAxisMove → Axis
  | .single m => m.face.axis
  | .double a _ _ => a

/-- `cube_n/moves/non_redundant.rs:72-87` -/
def moves : NonRedundantAxisMove → List AxisMove
  | .single m => [m]
  | .double a p n => [⟨⟨a, .pos⟩, p⟩, ⟨⟨a, .neg⟩, n⟩]

/-- `amounts_with_none` of `cube_n/moves/non_redundant.rs:91` -/
def amountsWithNone : List (Option Amount) := none :: Amount.all.map some

/-- `cube_n/moves/non_redundant.rs:90-103` -/
def ofAxis (a : Axis) : List NonRedundantAxisMove :=
  amountsWithNone.flatMap fun p => amountsWithNone.filterMap fun n =>
    match p, n with
    | none, none => none
    | some p, none => some (.single ⟨⟨a, .pos⟩, p⟩)
    | none, some n => some (.single ⟨⟨a, .neg⟩, n⟩)
    | some p, some n => some (.double a p n)

/-- `cube_n/moves/non_redundant.rs:118-120` -/
def givenLastAxis (a : Axis) : List NonRedundantAxisMove :=
  [a.basis.1, a.basis.2].flatMap ofAxis

/-- `cube_n/moves/non_redundant.rs:123-125` -/
def all : List NonRedundantAxisMove := Axis.all.flatMap ofAxis

/-- `cube_n/moves/non_redundant.rs:347-362` -/
instance : Move NonRedundantAxisMove :=
  ⟨fun
    | .single m => .single (Move.inverse m)
    | .double a p n => .double a (p.mul .neg) (n.mul .neg)⟩

end NonRedundantAxisMove

/-- `cube_n/moves/non_redundant.rs:364-370` -/
instance {C : Type} [Cube C] [Movable C AxisMove] : Movable C NonRedundantAxisMove :=
  ⟨fun c m => m.moves.foldl moved c⟩

/-- `cube_n/moves/non_redundant.rs:241-253` -/
inductive AbsorveResult | absorved | added | notAdded | collapsed
  deriving DecidableEq, Repr

/-- `cube_n/moves/non_redundant.rs:172-237`: the new value of the `&mut` argument and the answer -/
def absorve (nr : Option NonRedundantAxisMove) (other : AxisMove) :
    Option NonRedundantAxisMove × AbsorveResult :=
  match nr with
  | none => (some (.single other), .absorved)
  | some (.single m) =>
    if m.face.axis = other.face.axis then
      match m.face.direction, other.face.direction with
      | .pos, .pos | .neg, .neg =>
        match m.amount.add other.amount with
        | some a => (some (.single ⟨m.face, a⟩), .absorved)
        | none => (none, .collapsed)
      | .pos, .neg => (some (.double m.face.axis m.amount other.amount), .added)
      | .neg, .pos => (some (.double m.face.axis other.amount m.amount), .added)
    else (some (.single m), .notAdded)
  | some (.double axis p n) =>
    if axis = other.face.axis then
      match other.face.direction with
      | .pos =>
        match p.add other.amount with
        | some a => (some (.double axis a n), .absorved)
        | none => (some (.single ⟨⟨axis, other.face.direction.flip⟩, n⟩), .collapsed)
      | .neg =>
        match n.add other.amount with
        | some a => (some (.double axis p a), .absorved)
        | none => (some (.single ⟨⟨axis, other.face.direction.flip⟩, p⟩), .collapsed)
    else (some (.double axis p n), .notAdded)

/-! ## Normalisation -/

/-- State of the `while` loop of `cube_n/moves/non_redundant.rs:303-344`. `rest` is `self.moves` and `out` is
`moves`; both are used as stacks (`pop`/`push` at the end of the `Vec`), so they are stored with the *last* element
first. -/
structure NormState where
  rest : List AxisMove
  held : Option NonRedundantAxisMove
  out : List AxisMove
  deriving DecidableEq, Repr

/-- The closure `offload`, `cube_n/moves/non_redundant.rs:309-315` (pushes in order, so the last one ends on top) -/
def offload (held : Option NonRedundantAxisMove) (out : List AxisMove) : List AxisMove :=
  match held with
  | some nr => nr.moves.foldl (fun o m => m :: o) out
  | none => out

/-- One iteration of the loop, `cube_n/moves/non_redundant.rs:317-335`; `none` when `pop` returns `None` -/
def normStep (s : NormState) : Option NormState :=
  match s.rest with
  | [] => none
  | m :: rest =>
    match absorve s.held m with
    | (held, .notAdded) =>
      some ⟨rest, (absorve none m).1, offload held s.out⟩
    | (held, .collapsed) =>
      match offload held s.out with
      | m' :: out => some ⟨m' :: rest, none, out⟩
      | [] => some ⟨rest, none, []⟩
    | (held, _) => some ⟨rest, held, s.out⟩

/-- The `while` loop with a bound on the number of iterations; `none` means the bound was too small.
`normLoop_terminates` shows that a bound of `3 * length` is always enough. -/
def normLoop : Nat → NormState → Option NormState
  | 0, s => match normStep s with
    | none => some s
    | some _ => none
  | k + 1, s => match normStep s with
    | none => some s
    | some s' => normLoop k s'

/-- `cube_n/moves/non_redundant.rs:303-344`; `none` would mean that the loop is still running after `fuel` iterations.
The final `moves.reverse()` turns the last-first stack into the order of the list `out`. -/
def normalized? (fuel : Nat) (alg : List AxisMove) : Option (List AxisMove) :=
  (normLoop fuel ⟨alg.reverse, none, []⟩).map fun s => offload s.held s.out

/-- `normalized?` with enough fuel (`normalized?_eq`) -/
def normalized (alg : List AxisMove) : List AxisMove :=
  match normalized? (3 * alg.length) alg with
  | some r => r
  | none => alg

/-! ## Random algs -/

/-- The `for` loop of `cube_n/moves/non_redundant.rs:271-277` -/
def pushUpTo (length : Nat) (moves : List AxisMove) : List AxisMove → List AxisMove
  | [] => moves
  | m :: ms =>
    let moves := moves ++ [m]
    if moves.length = length then moves else pushUpTo length moves ms

/-- The candidates of `choose` in `cube_n/moves/non_redundant.rs:261-269` -/
def randomCandidates (moves : List AxisMove) : List NonRedundantAxisMove :=
  match moves.getLast? with
  | some m => NonRedundantAxisMove.givenLastAxis m.face.axis
  | none => NonRedundantAxisMove.all

/-- One iteration of the `while` loop of `cube_n/moves/non_redundant.rs:260-278`, for the chosen element.
The relation is nondeterministic in the RNG: any candidate may be chosen. -/
inductive RandomStep (length : Nat) : List AxisMove → List AxisMove → Prop
  | step {moves : List AxisMove} {chosen : NonRedundantAxisMove}
      (cond : moves.length < length) (mem : chosen ∈ randomCandidates moves) :
      RandomStep length moves (pushUpTo length moves chosen.moves)

/-- `cube_n/moves/non_redundant.rs:257-281`: `RandomAlg length alg` iff some RNG outcome makes
`random_with_rng(length)` return `alg`. -/
inductive RandomRun (length : Nat) : List AxisMove → Prop
  | start : RandomRun length []
  | step {a b : List AxisMove} (h : RandomRun length a) (s : RandomStep length a b) : RandomRun length b

/-- see `RandomRun`: the loop stops when the length is no longer smaller than the requested one -/
def RandomAlg (length : Nat) (alg : List AxisMove) : Prop := RandomRun length alg ∧ ¬ alg.length < length

/-- `generic/alg.rs:75-77`: `draw i` is the value of the `i`-th `rng.gen()` -/
def randomUnnormalized {M : Type} (length : Nat) (draw : Nat → M) : List M := (List.range length).map draw

/-! ## Named algs (`cube_n/moves/perms.rs`), as parsed from their strings (the parser is modelled in `Model/Parser.lean`
and `Props/Parser.lean` shows that parsing gives these lists) -/

namespace Perms
/-- shorthand for writing down moves -/
def mv (f : Face) (a : Amount) : AxisMove := ⟨f, a⟩
open Amount Face

/-- `cube_n/moves/perms.rs:10` -/
def SEXY_MOVE : List AxisMove := [mv R single, mv U single, mv R inverse, mv U inverse]

/-- `cube_n/moves/perms.rs:17-18`: `R U R' U' R' F R2 U' R' U' R U R' F'` -/
def T : List AxisMove :=
  [mv R single, mv Face.U single, mv R inverse, mv Face.U inverse, mv R inverse, mv F single, mv R double,
   mv Face.U inverse, mv R inverse, mv Face.U inverse, mv R single, mv Face.U single, mv R inverse, mv F inverse]

/-- `cube_n/moves/perms.rs:21-22`: `R2 U' R' U' R U R U R U' R` -/
def U : List AxisMove :=
  [mv R double, mv Face.U inverse, mv R inverse, mv Face.U inverse, mv R single, mv Face.U single, mv R single,
   mv Face.U single, mv R single, mv Face.U inverse, mv R single]

/-- `cube_n/moves/perms.rs:25-26`: `R U R' F' R U R' U' R' F R2 U' R' U'` -/
def J : List AxisMove :=
  [mv R single, mv Face.U single, mv R inverse, mv F inverse, mv R single, mv Face.U single, mv R inverse,
   mv Face.U inverse, mv R inverse, mv F single, mv R double, mv Face.U inverse, mv R inverse, mv Face.U inverse]

end Perms

/-! ## Recovering moves from states -/

/-- `strum::IntoEnumIterator` for moves, used by `connect` -/
class MoveIter (M : Type) where
  iter : List M

/-- `cube_n/moves/mod.rs:96-102` -/
instance : MoveIter AxisMove := ⟨AxisMove.all⟩

/-- `generic/moves.rs:68-72` -/
def connect (M : Type) {T : Type} [MoveIter M] [Movable T M] [DecidableEq T] (a b : T) : Option M :=
  (MoveIter.iter (M := M)).find? fun m => decide (moved a m = b)

/-- `states.windows(2)` -/
def windows2 {T : Type} : List T → List (T × T)
  | a :: b :: l => (a, b) :: windows2 (b :: l)
  | _ => []

/-- `generic/alg.rs:86-104`: `collect` into a `Result` stops at the first error. The error is `NotConnected` with the two
states (`generic/alg.rs:117-121`). -/
def tryFromStates (M : Type) {T : Type} [MoveIter M] [Movable T M] [DecidableEq T] (states : List T) :
    Except (T × T) (List M) :=
  (windows2 states).mapM fun w => match connect M w.1 w.2 with
    | some m => .ok m
    | none => .error w

end Barbarosa
