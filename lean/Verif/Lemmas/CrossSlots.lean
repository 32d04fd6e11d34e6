import Verif.Model.Heuristics

/-!
# The cross as a set of slots
-/

namespace Barbarosa

/-- the slots of the cross -/
def crossSlots (f : Face) : List (Fin 12) := (List.finRange 12).filter fun i => isCrossEdge (Edge.REFERENCE_POSITIONS i) f

theorem crossSlots_length : ∀ f, (crossSlots f).length = 4 := by decide +kernel

end Barbarosa
