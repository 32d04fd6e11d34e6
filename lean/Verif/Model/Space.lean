import Mathlib.Data.Fintype.Prod
import Mathlib.Data.Fintype.EquivFin

/-!
# Space: axes, directions, faces

Transcription of `cube_n/space/{axis,direction,face}.rs` and of the vector aliases of `cube_n/mod.rs`.
-/

namespace Barbarosa

/-- `cube_n/space/axis.rs:22-29` -/
inductive Axis | X | Y | Z
  deriving DecidableEq, Repr

/-- Enumeration of the type (not in the Rust code; used to evaluate statements about all values). -/
instance : Fintype Axis := ⟨({Axis.X, Axis.Y, Axis.Z} : Finset Axis), fun a => by cases a <;> decide⟩

/-- `cube_n/space/direction.rs:7-10` -/
inductive Direction | pos | neg
  deriving DecidableEq, Repr

/-- Enumeration of the type (not in the Rust code). -/
instance : Fintype Direction := ⟨({Direction.pos, Direction.neg} : Finset Direction), fun a => by cases a <;> decide⟩

/-- `cube_n/space/direction.rs:28-37` (`Neg`) -/
def Direction.flip : Direction → Direction
  | .pos => .neg
  | .neg => .pos

/-- `cube_n/space/direction.rs:12-26` (`i8::from`, `scalar`) -/
def Direction.scalar : Direction → Int
  | .pos => 1
  | .neg => -1

/-- `cube_n/mod.rs:51` `type Vec2 = Vector2<Direction>` -/
structure Vec2 where
  x : Direction
  y : Direction
  deriving DecidableEq, Repr

/-- Enumeration of the type (not in the Rust code). -/
instance : Fintype Vec2 :=
  Fintype.ofEquiv (Direction × Direction) ⟨fun p => ⟨p.1, p.2⟩, fun v => (v.x, v.y), fun _ => rfl, fun _ => rfl⟩

/-- `cube_n/mod.rs:52` `type Vec3 = Vector3<Direction>` -/
structure Vec3 where
  x : Direction
  y : Direction
  z : Direction
  deriving DecidableEq, Repr

/-- Enumeration of the type (not in the Rust code). -/
instance : Fintype Vec3 :=
  Fintype.ofEquiv (Direction × Direction × Direction)
    ⟨fun p => ⟨p.1, p.2.1, p.2.2⟩, fun v => (v.x, v.y, v.z), fun _ => rfl, fun _ => rfl⟩

/-- `cube_n/space/axis.rs:31-37` (`Index<Axis> for Vector3`) -/
def Vec3.at (v : Vec3) : Axis → Direction
  | .X => v.x
  | .Y => v.y
  | .Z => v.z

/-- `cube_n/space/axis.rs:39-43` (`IndexMut<Axis> for Vector3`), as a functional update -/
def Vec3.set (v : Vec3) (a : Axis) (d : Direction) : Vec3 :=
  match a with
  | .X => { v with x := d }
  | .Y => { v with y := d }
  | .Z => { v with z := d }

namespace Axis

/-- The discriminant `axis as i32` of `cube_n/space/axis.rs:22-29` -/
def toNat : Axis → Nat
  | .X => 0
  | .Y => 1
  | .Z => 2

/-- `Axis::iter()` (`strum::EnumIter`, declaration order), `cube_n/space/axis.rs:21` -/
def all : List Axis := [.X, .Y, .Z]

/-- `cube_n/space/axis.rs:57-63` -/
def basis : Axis → Axis × Axis
  | .X => (.Y, .Z)
  | .Y => (.Z, .X)
  | .Z => (.X, .Y)

/-- `cube_n/space/axis.rs:67-79`, at `T = Direction` -/
def mapOnSlice (a : Axis) (v : Vec3) (f : Vec2 → Vec2) : Vec3 :=
  let b := a.basis
  let r := f ⟨v.at b.1, v.at b.2⟩
  (v.set b.1 r.x).set b.2 r.y

/-- `cube_n/space/axis.rs:85-87`: `(other - self).rem_euclid(3)` -/
def offset (a other : Axis) : Int :=
  ((other.toNat : Int) - (a.toNat : Int)) % 3

/-- `cube_n/space/axis.rs:90-96` -/
def next : Axis → Axis
  | .X => .Y
  | .Y => .Z
  | .Z => .X

/-- `cube_n/space/axis.rs:99-105` -/
def prev : Axis → Axis
  | .X => .Z
  | .Y => .X
  | .Z => .Y

/-- `cube_n/space/axis.rs:108-113` -/
def nextWithHandedness (a : Axis) : Direction → Axis
  | .pos => a.next
  | .neg => a.prev

/-- `cube_n/space/axis.rs:117-124`; `none` is `Err(ParallelAxesError::SameAxis)`.
The `unreachable!()` arm is merged into `none`; `offset_range` in `Lemmas/Pieces.lean` shows it is dead. -/
def getHandedness (a other : Axis) : Option Direction :=
  if a.offset other = 0 then none
  else if a.offset other = 1 then some .pos
  else if a.offset other = 2 then some .neg
  else none

/-- `cube_n/space/axis.rs:127-136` -/
def other : Axis → Axis → Option Axis
  | .X, .X | .Y, .Y | .Z, .Z => none
  | .X, .Y | .Y, .X => some .Z
  | .X, .Z | .Z, .X => some .Y
  | .Y, .Z | .Z, .Y => some .X

end Axis

/-- `Direction::iter()` (declaration order), `cube_n/space/direction.rs:5` -/
def Direction.all : List Direction := [.pos, .neg]

/-- `cube_n/space/face.rs:13-18` -/
structure Face where
  axis : Axis
  direction : Direction
  deriving DecidableEq, Repr

/-- Enumeration of the type (not in the Rust code). -/
instance : Fintype Face :=
  Fintype.ofEquiv (Axis × Direction) ⟨fun p => ⟨p.1, p.2⟩, fun f => (f.axis, f.direction), fun _ => rfl, fun _ => rfl⟩

namespace Face

/-- `cube_n/space/face.rs:71` -/
def R : Face := ⟨.X, .pos⟩
/-- `cube_n/space/face.rs:73` -/
def L : Face := ⟨.X, .neg⟩
/-- `cube_n/space/face.rs:75` -/
def U : Face := ⟨.Y, .pos⟩
/-- `cube_n/space/face.rs:77` -/
def D : Face := ⟨.Y, .neg⟩
/-- `cube_n/space/face.rs:79` -/
def F : Face := ⟨.Z, .pos⟩
/-- `cube_n/space/face.rs:81` -/
def B : Face := ⟨.Z, .neg⟩

/-- `cube_n/space/face.rs:86-96` -/
def all : List Face := [R, U, F, L, D, B]

/-- `cube_n/space/face.rs:99-104` -/
def opposite (f : Face) : Face := ⟨f.axis, f.direction.flip⟩

/-- `cube_n/space/face.rs:107-133`. The Rust code matches on the named constants;
here the constants are spelled out. -/
def nextAround : Face → Axis → Face
  | ⟨.Z, .pos⟩, .X => U
  | ⟨.Y, .neg⟩, .X => F
  | ⟨.Z, .neg⟩, .X => D
  | ⟨.Y, .pos⟩, .X => B
  | ⟨.X, .pos⟩, .Y => F
  | ⟨.Z, .pos⟩, .Y => L
  | ⟨.X, .neg⟩, .Y => B
  | ⟨.Z, .neg⟩, .Y => R
  | ⟨.X, .pos⟩, .Z => D
  | ⟨.Y, .neg⟩, .Z => L
  | ⟨.X, .neg⟩, .Z => U
  | ⟨.Y, .pos⟩, .Z => R
  | f, _ => f

/-- `cube_n/space/face.rs:136-162` -/
def prevAround : Face → Axis → Face
  | ⟨.Z, .pos⟩, .X => D
  | ⟨.Y, .neg⟩, .X => B
  | ⟨.Z, .neg⟩, .X => U
  | ⟨.Y, .pos⟩, .X => F
  | ⟨.X, .pos⟩, .Y => B
  | ⟨.Z, .neg⟩, .Y => L
  | ⟨.X, .neg⟩, .Y => F
  | ⟨.Z, .pos⟩, .Y => R
  | ⟨.X, .pos⟩, .Z => U
  | ⟨.Y, .pos⟩, .Z => L
  | ⟨.X, .neg⟩, .Z => D
  | ⟨.Y, .neg⟩, .Z => R
  | f, _ => f

/-- `cube_n/space/face.rs:165-167` -/
def containsVector (f : Face) (v : Vec3) : Bool := v.at f.axis == f.direction

/-- `cube_n/space/face.rs:185-194` -/
def cross (a b : Face) : Option Face :=
  match Axis.other a.axis b.axis with
  | none => none
  | some axis =>
    some ⟨axis, if a.nextAround axis = b then .neg else .pos⟩

/-- `cube_n/space/face.rs:197-203` (and `From<&Face> for Vector3<i8>`, 20-24): integer coordinates -/
def coords (f : Face) : Int × Int × Int :=
  match f.axis with
  | .X => (f.direction.scalar, 0, 0)
  | .Y => (0, f.direction.scalar, 0)
  | .Z => (0, 0, f.direction.scalar)

/-- `cube_n/space/face.rs:206-215` -/
def index : Face → Nat
  | ⟨.X, .pos⟩ => 0
  | ⟨.Y, .pos⟩ => 1
  | ⟨.Z, .pos⟩ => 2
  | ⟨.X, .neg⟩ => 3
  | ⟨.Y, .neg⟩ => 4
  | ⟨.Z, .neg⟩ => 5

end Face

end Barbarosa
