import Verif.Model.Space

/-!
# Axes and faces as vectors of 8-bit integers

The conversions by `From`, which are written differently from `Face::coords` (`Model/Space.lean`).
-/

namespace Barbarosa

/-- `nalgebra::Vector3<i8>`: three 8-bit integers -/
structure VecI8 where
  x : Int8
  y : Int8
  z : Int8
  deriving DecidableEq

/-- `cube_n/space/axis.rs:45-53` (`From<&Axis> for Vector3<i8>`) -/
def Axis.vector : Axis → VecI8
  | .X => ⟨1, 0, 0⟩
  | .Y => ⟨0, 1, 0⟩
  | .Z => ⟨0, 0, 1⟩

/-- `cube_n/space/direction.rs:12-19` (`From<&Direction> for i8`) -/
def Direction.byte : Direction → Int8
  | .pos => 1
  | .neg => -1

/-- a checked product: `None` is the panic of a debug build when the product does not fit (`Mul` of `i8`, as used by
`cube_n/space/face.rs:22`) -/
def mulI8? (a b : Int8) : Option Int8 := if (a * b).toInt = a.toInt * b.toInt then some (a * b) else none

/-- `cube_n/space/face.rs:20-24` (`From<&Face> for Vector3<i8>`): the vector of the axis times the direction, component by component -/
def Face.vector? (f : Face) : Option VecI8 := do
  let v := f.axis.vector
  let d := f.direction.byte
  return ⟨← mulI8? v.x d, ← mulI8? v.y d, ← mulI8? v.z d⟩

/-- `cube_n/space/axis.rs:31-43` (`Index<Axis>` and `IndexMut<Axis>` for vectors): the component along an axis -/
def VecI8.at (v : VecI8) : Axis → Int8
  | .X => v.x
  | .Y => v.y
  | .Z => v.z

end Barbarosa
