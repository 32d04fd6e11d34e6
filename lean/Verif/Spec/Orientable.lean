import Verif.Spec.Stickers
import Verif.Spec.BigCubes
import Verif.Model.Orientable

/-!
# Cubes held in some way

What "held in an orientation" means in space, and what the moves of a cube in the hand should look like to the person who
holds it. The orientation is only read with its two public accessors `r_face` and `u_face`.
-/

namespace Barbarosa

/-- Where an orientation puts the points of the cube: the point that is `x` to the right, `y` up and `z` to the front of an
unrotated cube. Right goes to `r_face`, up to `u_face`, front to where a rotation must then put it. -/
def Orientation.place (o : Orientation) (p : Z3) : Z3 :=
  ((o.rFace.normal.smul p.x).add (o.uFace.normal.smul p.y)).add ((o.rFace.normal.cross o.uFace.normal).smul p.z)

/-- several rotations of space, one after the other -/
def Z3.rotAll (rs : List AxisRotation) (p : Z3) : Z3 := rs.foldl (fun p r => Z3.rot r p) p

namespace Facelet

/-- The facelet `t` of the cube is seen at the place `s` when the cube is held in orientation `o`. -/
def SeenAt (o : Orientation) (t s : Facelet) : Prop := s.point = o.place t.point ∧ s.face.normal = o.place t.face.normal

instance (o : Orientation) (t s : Facelet) : Decidable (SeenAt o t s) := by unfold SeenAt; infer_instance

/-- A rotation of the whole cube carries the place `s` to the place `s'`. -/
def CarriesRotation (r : AxisRotation) (s s' : Facelet) : Prop :=
  s'.point = Z3.rot r s.point ∧ s'.face.normal = Z3.rot r s.face.normal

instance (r : AxisRotation) (s s' : Facelet) : Decidable (CarriesRotation r s s') := by unfold CarriesRotation; infer_instance

/-- A slice move carries the place `s` to the place `s'`: the middle layer of the axis is rotated, the rest stays. -/
def CarriesSlice (r : AxisRotation) (s s' : Facelet) : Prop :=
  if s.point.coord r.axis = 0 then CarriesRotation r s s' else s' = s

instance (r : AxisRotation) (s s' : Facelet) : Decidable (CarriesSlice r s s') := by unfold CarriesSlice; infer_instance

end Facelet

/-- The person holding the cube sees colour `col` at place `s`. -/
def Orientable.Sees (c : Orientable Cube3) (s : Facelet) (col : Color) : Prop :=
  ∃ t : Facelet, t.OnCube ∧ Facelet.SeenAt c.orientation t s ∧ c.baseCube.shows t = some col

/-- A cube type with everything needed to hold it in an orientation -/
structure HeldSys where
  C : Type
  [cube : Cube C]
  [axis : Movable C AxisMove]
  [wide : Movable C (WideAxisMove (maxDepth C))]

attribute [instance] HeldSys.cube HeldSys.axis HeldSys.wide

/-- `cube_n/moves/extended.rs:112`: the cubes that can be held in an orientation -/
def heldSystems : List HeldSys := [⟨Cube2⟩, ⟨Cube3⟩, ⟨Cube4⟩, ⟨Cube5⟩, ⟨Cube6⟩, ⟨Cube7⟩]

end Barbarosa
