import Verif.Spec.Rewriting
import Verif.Model.Cubes

/-!
# The shortest coincidence that is not obvious
-/

namespace Barbarosa

/-- the half turns of both faces of an axis -/
def halfPair (a : Axis) : List AxisMove := [⟨⟨a, .pos⟩, .double⟩, ⟨⟨a, .neg⟩, .double⟩]

/-- One step is obvious, or it exchanges the half turns of both faces of one axis with those of another axis. -/
inductive SimplifiesPairs : List AxisMove → List AxisMove → Prop
  | obvious {a b : List AxisMove} (h : Simplifies a b) : SimplifiesPairs a b
  | pairs (u v : List AxisMove) (x y : Axis) : SimplifiesPairs (u ++ halfPair x ++ halfPair y ++ v) (u ++ halfPair y ++ halfPair x ++ v)

/-- Two algs are the same up to obvious steps and exchanges of such pairs. -/
def SameUpToPairs (a b : List AxisMove) : Prop := Relation.EqvGen SimplifiesPairs a b

/-- the states at most `n` moves from solved -/
def StatesWithin (n : Nat) : Set Cube3 := {c | ∃ w : List AxisMove, w.length ≤ n ∧ c = movedAlg Cube3.SOLVED w}

end Barbarosa
