import Verif.Spec.Systems
import Verif.Spec.Algs
import Mathlib.Logic.Relation

/-!
# Which algs are obviously the same
-/

namespace Barbarosa

/-- One step of the obvious simplifications: neighbouring moves of the same axis are exchanged; two neighbouring moves of the same face
become one; two neighbouring moves of the same face that undo each other are left out. -/
inductive Simplifies : List AxisMove → List AxisMove → Prop
  | exchange (u v : List AxisMove) (m m' : AxisMove) (h : m.face.axis = m'.face.axis) :
      Simplifies (u ++ [m, m'] ++ v) (u ++ [m', m] ++ v)
  | merge (u v : List AxisMove) (f : Face) (x y z : Amount) (h : (quarterTurns x + quarterTurns y) % 4 = quarterTurns z) :
      Simplifies (u ++ [⟨f, x⟩, ⟨f, y⟩] ++ v) (u ++ [⟨f, z⟩] ++ v)
  | cancel (u v : List AxisMove) (f : Face) (x y : Amount) (h : (quarterTurns x + quarterTurns y) % 4 = 0) :
      Simplifies (u ++ [⟨f, x⟩, ⟨f, y⟩] ++ v) (u ++ v)

/-- Two algs are obviously the same if such steps, forwards and backwards, lead from one to the other. -/
def SameObviously (a b : List AxisMove) : Prop := Relation.EqvGen Simplifies a b

end Barbarosa
