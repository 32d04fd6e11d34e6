import Verif.Spec.Systems

/-!
# Integer geometry

An independent description of space: points of `ℤ³` and the three clockwise quarter turns written as coordinate
formulas. `X` points right, `Y` up, `Z` towards the viewer. A quarter turn about an axis is clockwise for somebody who
looks at the origin from the positive end of the axis. Nothing here uses the functions of the model; only the *names*
of axes, faces and amounts are shared.
-/

namespace Barbarosa

/-- A point of `ℤ³` -/
@[ext] structure Z3 where
  x : Int
  y : Int
  z : Int
  deriving DecidableEq, Repr

namespace Z3

/-- scalar product -/
def dot (p q : Z3) : Int := p.x * q.x + p.y * q.y + p.z * q.z

/-- vector product (right handed) -/
def cross (p q : Z3) : Z3 := ⟨p.y * q.z - p.z * q.y, p.z * q.x - p.x * q.z, p.x * q.y - p.y * q.x⟩

/-- the coordinate along an axis -/
def coord (p : Z3) : Axis → Int
  | .X => p.x
  | .Y => p.y
  | .Z => p.z

/-- unit vector of an axis -/
def unit : Axis → Z3
  | .X => ⟨1, 0, 0⟩
  | .Y => ⟨0, 1, 0⟩
  | .Z => ⟨0, 0, 1⟩

/-- opposite point -/
def neg (p : Z3) : Z3 := ⟨-p.x, -p.y, -p.z⟩

/-- clockwise quarter turn about an axis -/
def quarter : Axis → Z3 → Z3
  | .X, p => ⟨p.x, p.z, -p.y⟩
  | .Y, p => ⟨-p.z, p.y, p.x⟩
  | .Z, p => ⟨p.y, -p.x, p.z⟩

/-- rotation about an axis by an amount -/
def rot (r : AxisRotation) (p : Z3) : Z3 := (quarter r.axis)^[quarterTurns r.amount] p

end Z3

/-- the outward unit normal of a face -/
def Face.normal (f : Face) : Z3 :=
  match f.direction with
  | .pos => Z3.unit f.axis
  | .neg => (Z3.unit f.axis).neg

/-- `±1` as an integer -/
def Direction.sign : Direction → Int
  | .pos => 1
  | .neg => -1

/-- a vector of directions as a point with coordinates `±1` -/
def Vec3.point (v : Vec3) : Z3 := ⟨v.x.sign, v.y.sign, v.z.sign⟩

/-- the geometric rotation of a face turn: clockwise for somebody looking at the face from outside -/
def turnOf (m : AxisMove) (p : Z3) : Z3 :=
  match m.face.direction with
  | .pos => (Z3.quarter m.face.axis)^[quarterTurns m.amount] p
  | .neg => (Z3.quarter m.face.axis)^[4 - quarterTurns m.amount] p

end Barbarosa
