import Verif.Model.NonRedundant
import Mathlib.Data.Rat.Defs

/-!
# Probabilities of random algs
-/

namespace Barbarosa

/-- `cube_n/moves/non_redundant.rs:256-281` for a generator that is truly random: the probability that the `while` loop, with
`moves` already pushed, returns `result`. `choose` (of the `rand` crate) takes each element of the iterator with the same
probability. Every iteration pushes at least one move, so `fuel = length` iterations are enough; a loop that is still running
when the fuel is used up counts as returning nothing. -/
def randomProb (length : Nat) (result : List AxisMove) : (fuel : Nat) → (moves : List AxisMove) → ℚ
  | 0, moves => if moves.length < length then 0 else if moves = result then 1 else 0
  | fuel + 1, moves =>
    if moves.length < length then
      ((randomCandidates moves).map fun chosen => randomProb length result fuel (pushUpTo length moves chosen.moves)).sum /
        (randomCandidates moves).length
    else if moves = result then 1 else 0

/-- the probability that `random_with_rng(length)` returns `alg` -/
def randomAlgProb (length : Nat) (alg : List AxisMove) : ℚ := randomProb length alg length []

end Barbarosa
