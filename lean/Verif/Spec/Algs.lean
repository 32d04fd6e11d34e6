import Verif.Model.Moves
import Mathlib.Data.List.Chain

/-!
# What "no redundancy" means for an alg
-/

namespace Barbarosa

/-- Two moves of the same face always have a move of another axis somewhere between them: otherwise they could be
brought together (moves of one axis commute) and merged. -/
def Reduced (l : List AxisMove) : Prop :=
  ∀ (i j : Nat) (hij : i < j) (hj : j < l.length), (l[i]'(hij.trans hj)).face = (l[j]).face →
    ∃ (k : Nat) (hk : k < l.length), i < k ∧ k < j ∧ (l[k]).face.axis ≠ (l[j]).face.axis

/-- Neighbouring moves of the same axis come in a fixed order of directions: first `d`, then the other one. -/
def Ordered (d : Direction) (l : List AxisMove) : Prop :=
  l.IsChain fun a b => a.face.axis = b.face.axis → a.face.direction = d ∧ b.face.direction = d.flip

/-- the alg does not use two opposite faces -/
def OneFacePerAxis (l : List AxisMove) : Prop :=
  ∀ a ∈ l, ∀ b ∈ l, a.face.axis = b.face.axis → a.face = b.face

end Barbarosa
