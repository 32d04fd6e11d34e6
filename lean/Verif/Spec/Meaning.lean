import Verif.Spec.BigCubes

/-!
# What orientation means

Words for the documentation of `Edge::oriented`, `Corner::orientation_axis`, `Corner::orientation_index` and
`Corner::twist`, without the functions of the model.
-/

namespace Barbarosa

/-- `w` is `v` after a third of a full turn about the diagonal `d` (a vector with coordinates `±1`), counter-clockwise for
somebody who looks at the origin from the end of `d`. This is the rotation formula with cosine `-1/2` and sine `√3/2`,
multiplied by 2. -/
def ThirdTurn (d v w : Z3) : Prop := w.smul 2 = (v.neg.add (d.cross v)).add (d.smul (d.dot v))

/-- `f` is the face of an edge between `f` and `g` that the documentation calls the face of the orientation sticker: the one
of U and D if there is one, otherwise the one of F and B. -/
def IsOrientationFace (f g : Face) : Prop := f.axis = .Y ∨ f.axis = .Z ∧ g.axis = .X

/-- a turn of F or B by a quarter -/
def FlipsEdges (m : AxisMove) : Prop := (m.face = Face.F ∨ m.face = Face.B) ∧ m.amount ≠ .double

instance : DecidablePred FlipsEdges := fun _ => inferInstanceAs (Decidable (_ ∧ _))

end Barbarosa
