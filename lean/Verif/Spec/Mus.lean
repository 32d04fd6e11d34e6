import Verif.Model.Moves

/-!
# Distances
-/

namespace Barbarosa

/-- `d` is the least number of face turns that lead from `a` to `b`. -/
def MinTurns {T : Type} [Movable T AxisMove] (a b : T) (d : Nat) : Prop :=
  (∃ alg : List AxisMove, alg.length = d ∧ movedAlg a alg = b) ∧
    ∀ alg : List AxisMove, movedAlg a alg = b → d ≤ alg.length

end Barbarosa
