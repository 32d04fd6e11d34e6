import Verif.Model.Cubes
import Verif.Spec.Mus

/-!
# Cubes that the numbering cannot tell apart
-/

namespace Barbarosa

/-- All edges and the corners 0 to 6 are the same; corner 7 is in the same place but may be twisted differently. -/
structure Cube3.SameButLastTwist (c d : Cube3) : Prop where
  edges : c.edges = d.edges
  corners : ∀ i : Fin 8, i ≠ 7 → c.corners i = d.corners i
  last : (c.corners 7).position = (d.corners 7).position

end Barbarosa
