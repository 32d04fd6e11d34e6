import Verif.Model.Random
import Mathlib.GroupTheory.Perm.Sign
import Mathlib.Algebra.BigOperators.Fin

/-!
# Solvability, independently of how the code decides it
-/

namespace Barbarosa

/-- The 3x3 can be obtained from the solved one by face turns. -/
def Cube3.Reachable (c : Cube3) : Prop := ∃ alg : List AxisMove, movedAlg Cube3.SOLVED alg = c

/-- The 3x3 can be brought to the solved state by face turns. -/
def Cube3.Solvable (c : Cube3) : Prop := ∃ alg : List AxisMove, movedAlg c alg = Cube3.SOLVED

/-- the same for the 2x2 -/
def Cube2.Reachable (c : Cube2) : Prop := ∃ alg : List AxisMove, movedAlg (Cube.SOLVED : Cube2) alg = c
/-- the same for the 2x2 -/
def Cube2.Solvable (c : Cube2) : Prop := ∃ alg : List AxisMove, movedAlg c alg = Cube.SOLVED

/-- `σ` tells where the pieces are: the piece whose home is `i` is at the home of `σ i`. -/
def PieceSet.Arranged {P : Type} {n : Nat} [PieceSetDescriptor P n] (s : PieceSet P n) (σ : Equiv.Perm (Fin n)) : Prop :=
  ∀ i, Piece.position (s i) = PieceSetDescriptor.REFERENCE_POSITIONS (P := P) (σ i)

/-- The three invariants of the module documentation of `cube_n/invariants.rs` together with validity: edges and corners
are permuted with the same parity, the number of oriented edges is even, the orientation indices of the corners add up
to a multiple of three. -/
structure Cube3.Lawful (c : Cube3) : Prop where
  parity : ∃ σ τ, c.edges.Arranged σ ∧ c.corners.Arranged τ ∧ Equiv.Perm.sign σ = Equiv.Perm.sign τ
  flips : Even (Finset.univ.filter fun i => (c.edges i).oriented = true).card
  twists : 3 ∣ ∑ i, (c.corners i).orientationIndex

/-- The invariants of the 2x2: valid, and the corner twists add up to a multiple of three. -/
structure Cube2.Lawful (c : Cube2) : Prop where
  arranged : ∃ τ, c.corners.Arranged τ
  twists : 3 ∣ ∑ i, (c.corners i).orientationIndex

end Barbarosa
