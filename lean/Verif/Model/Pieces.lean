import Verif.Model.Moves

/-!
# Pieces

Transcription of `cube_n/pieces/{corner,edge,wing}.rs` and `cube_n/pieces/center/{corner,edge,wing}.rs`,
plus the traits of `generic/piece/mod.rs` and `generic/piece/set.rs`.
-/

namespace Barbarosa

/-- `generic/piece/mod.rs:17-32` (`trait Piece`) -/
class Piece (P : Type) where
  Position : Type
  posDecEq : DecidableEq Position
  position : P → Position
  isSolved : P → Position → Bool

instance {P : Type} [Piece P] : DecidableEq (Piece.Position P) := Piece.posDecEq

/-- `generic/piece/set.rs:20-30` (`trait PieceSetDescriptor<SET_SIZE>`); an array `[T; n]` is `Fin n → T` -/
class PieceSetDescriptor (P : Type) (n : outParam Nat) extends Piece P where
  SOLVED : Fin n → P
  REFERENCE_POSITIONS : Fin n → Position

/-- `cube_n/moves/wide.rs:186-194` (`trait DepthPiece`) -/
class DepthPiece (P : Type) where
  isInWideMove : {N : Nat} → P → (normalDepth tangentDepth : Nat) → WideAxisMove N → Bool

/-! ## Corners -/

/-- `cube_n/pieces/corner.rs:22-29` -/
structure Corner where
  position : Vec3
  orientationAxis : Axis
  deriving DecidableEq, Repr

/-- Enumeration of the type (not in the Rust code). -/
instance : Fintype Corner :=
  Fintype.ofEquiv (Vec3 × Axis)
    ⟨fun p => ⟨p.1, p.2⟩, fun c => (c.position, c.orientationAxis), fun _ => rfl, fun _ => rfl⟩

namespace Corner

/-- `cube_n/pieces/corner.rs:90` -/
def ORIENTED_AXIS : Axis := .Y

/-- `cube_n/pieces/corner.rs:155-157` -/
def isOriented (c : Corner) : Bool := c.orientationAxis == ORIENTED_AXIS

/-- `cube_n/pieces/corner.rs:93-98` -/
def oriented (p : Vec3) : Corner := ⟨p, ORIENTED_AXIS⟩

/-- `cube_n/pieces/corner.rs:44-51`: `cartesian_array_map!` over `[Positive, Negative]` three times, first factor fastest
(the order is the one that the test `cube_n/cube6/test.rs:60-71` observes) -/
def REFERENCE_LIST : List Vec3 :=
  [⟨.pos, .pos, .pos⟩, ⟨.neg, .pos, .pos⟩, ⟨.pos, .neg, .pos⟩, ⟨.neg, .neg, .pos⟩,
    ⟨.pos, .pos, .neg⟩, ⟨.neg, .pos, .neg⟩, ⟨.pos, .neg, .neg⟩, ⟨.neg, .neg, .neg⟩]

/-- `REFERENCE_LIST` as an array -/
def REFERENCE_POSITIONS (i : Fin 8) : Vec3 := REFERENCE_LIST[i.val]'(by simp [REFERENCE_LIST])

/-- `cube_n/pieces/corner.rs:31-41` (`Piece`), `43-54` (`PieceSetDescriptor<8>`) -/
instance : PieceSetDescriptor Corner 8 where
  Position := Vec3
  posDecEq := inferInstance
  position c := c.position
  isSolved c orig := c.position == orig && c.isOriented
  SOLVED i := oriented (REFERENCE_POSITIONS i)
  REFERENCE_POSITIONS := REFERENCE_POSITIONS

/-- `cube_n/pieces/corner.rs:56-61` -/
def rotated (c : Corner) (r : AxisRotation) : Corner :=
  ⟨c.position.rotated r, c.orientationAxis.rotated r⟩

instance : Rotatable Corner := ⟨rotated⟩

/-- `cube_n/pieces/corner.rs:63-70` -/
def moved (c : Corner) (m : AxisMove) : Corner :=
  if m.face.containsVector c.position then c.rotated (AxisRotation.ofMove m) else c

instance : Movable Corner AxisMove := ⟨moved⟩

/-- `cube_n/pieces/corner.rs:101-107` -/
def faces (c : Corner) : List Face :=
  [⟨.X, c.position.x⟩, ⟨.Y, c.position.y⟩, ⟨.Z, c.position.z⟩]

/-- `cube_n/pieces/corner.rs:109-116` -/
def isEvenPositionParity (p : Vec3) : Bool :=
  ([p.x, p.y, p.z].filter (· == .neg)).length % 2 == 0

/-- `cube_n/pieces/corner.rs:121-130`; `rem_euclid(3)` on `i32` is `Int` emod, the cast to `usize` is `toNat`
(the value is in `0..3`) -/
def orientationIndex (c : Corner) : Nat :=
  if isEvenPositionParity c.position then
    (((c.orientationAxis.toNat : Int) - 1) % 3).toNat
  else
    ((1 - (c.orientationAxis.toNat : Int)) % 3).toNat

/-- `cube_n/pieces/corner.rs:134-140` -/
def nextAxis (p : Vec3) (a : Axis) : Axis :=
  if isEvenPositionParity p then a.next else a.prev

/-- `cube_n/pieces/corner.rs:143-149` -/
def twist (c : Corner) : Corner :=
  { c with orientationAxis :=
      if isEvenPositionParity c.position then c.orientationAxis.next else c.orientationAxis.prev }

/-- `cube_n/pieces/corner.rs:74-78` (`Coordinates`); the `f32` components are ±1, modelled as `Int` -/
def coordinatesPos (p : Vec3) : Int × Int × Int := (p.x.scalar, p.y.scalar, p.z.scalar)

end Corner

/-! ## Edges -/

/-- `cube_n/pieces/edge.rs:23-48` -/
structure Edge where
  normalAxis : Axis
  slicePosition : Vec2
  oriented : Bool
  deriving DecidableEq, Repr

/-- Enumeration of the type (not in the Rust code). -/
instance : Fintype Edge :=
  Fintype.ofEquiv (Axis × Vec2 × Bool)
    ⟨fun p => ⟨p.1, p.2.1, p.2.2⟩, fun c => (c.normalAxis, c.slicePosition, c.oriented),
      fun _ => rfl, fun _ => rfl⟩

namespace Edge

/-- `cube_n/pieces/edge.rs:51` `type Position = (Axis, Vec2)` -/
abbrev Pos := Axis × Vec2

/-- `cube_n/pieces/edge.rs:53-55` -/
def position (e : Edge) : Pos := (e.normalAxis, e.slicePosition)

/-- `cube_n/pieces/edge.rs:64-82` -/
def REFERENCE_LIST : List Pos :=
  [(.X, ⟨.pos, .pos⟩),
    (.X, ⟨.pos, .neg⟩),
    (.Y, ⟨.pos, .pos⟩),
    (.Y, ⟨.pos, .neg⟩),
    (.Z, ⟨.pos, .pos⟩),
    (.Z, ⟨.neg, .pos⟩),
    (.X, ⟨.neg, .neg⟩),
    (.X, ⟨.neg, .pos⟩),
    (.Y, ⟨.neg, .pos⟩),
    (.Y, ⟨.neg, .neg⟩),
    (.Z, ⟨.pos, .neg⟩),
    (.Z, ⟨.neg, .neg⟩)]

/-- `REFERENCE_LIST` as an array -/
def REFERENCE_POSITIONS (i : Fin 12) : Pos := REFERENCE_LIST[i.val]'(by simp [REFERENCE_LIST])

/-- `cube_n/pieces/edge.rs:50-60` (`Piece`), `62-99` (`PieceSetDescriptor<12>`; `from_tuple` is `93-95`) -/
instance : PieceSetDescriptor Edge 12 where
  Position := Pos
  posDecEq := inferInstance
  position := position
  isSolved e orig := e.position == orig && e.oriented
  SOLVED i := ⟨(REFERENCE_POSITIONS i).1, (REFERENCE_POSITIONS i).2, true⟩
  REFERENCE_POSITIONS := REFERENCE_POSITIONS

/-- `cube_n/pieces/edge.rs:159-167` -/
def faces (e : Edge) : Face × Face :=
  let x := e.normalAxis.next
  let y := x.next
  (⟨x, e.slicePosition.x⟩, ⟨y, e.slicePosition.y⟩)

/-- `cube_n/pieces/edge.rs:187-203`. The result is `Err(SameAxis)` (`error`), or a panic of the
`unreachable!()` arm (`none`), or a position. -/
def positionFromFaces? (a b : Face) : Option (Except Axis Pos) :=
  match Axis.other a.axis b.axis with
  | none => some (.error a.axis)
  | some normalAxis =>
    let x := normalAxis.next
    let y := x.next
    if x = a.axis ∧ y = b.axis then some (.ok (normalAxis, ⟨a.direction, b.direction⟩))
    else if x = b.axis ∧ y = a.axis then some (.ok (normalAxis, ⟨b.direction, a.direction⟩))
    else none

/-- Total version of `positionFromFaces?`; `none` is `Err(SameAxis)`.
`Edge.positionFromFaces?_eq` shows that nothing is lost. -/
def positionFromFaces (a b : Face) : Option Pos :=
  match positionFromFaces? a b with
  | some (.ok p) => some p
  | _ => none

/-- `cube_n/pieces/edge.rs:101-122`; `none` is a panic (the `unreachable!()` arms) -/
def rotate? (e : Edge) (r : AxisRotation) : Option Edge :=
  let o := e.oriented ^^ r.flipsEdgeOrientation e.normalAxis
  if r.axis = e.normalAxis then
    some ⟨e.normalAxis, rotateVec2 r.amount e.slicePosition, o⟩
  else
    match positionFromFaces? (e.faces.1.rotated r) (e.faces.2.rotated r) with
    | some (.ok (n, s)) => some ⟨n, s, o⟩
    | _ => none

/-- Total version of `rotate?`; `Edge.rotate?_eq` (`Lemmas/Pieces.lean`) shows that `rotate?` never panics, so
the default is never used. -/
def rotated (e : Edge) (r : AxisRotation) : Edge :=
  match e.rotate? r with
  | some e' => e'
  | none => e

instance : Rotatable Edge := ⟨rotated⟩

/-- `cube_n/pieces/edge.rs:180-182` -/
def flip (e : Edge) : Edge := { e with oriented := !e.oriented }

/-- `cube_n/pieces/edge.rs:206-212` -/
def orientationFace (p : Pos) : Face :=
  match p.1 with
  | .X => ⟨.Y, p.2.x⟩
  | .Y => ⟨.Z, p.2.x⟩
  | .Z => ⟨.Y, p.2.y⟩

/-- `cube_n/pieces/edge.rs:215-221` -/
def nonOrientationFace (p : Pos) : Face :=
  match p.1 with
  | .X => ⟨.Z, p.2.y⟩
  | .Y => ⟨.X, p.2.y⟩
  | .Z => ⟨.X, p.2.x⟩

/-- `cube_n/pieces/edge.rs:226-243`; outer `none` is the `unreachable!()` panic -/
def directionOnAxis? (p : Pos) (axis : Axis) : Option (Option Direction) :=
  if axis = p.1 then some none
  else if axis = p.1.basis.1 then some (some p.2.x)
  else if axis = p.1.basis.2 then some (some p.2.y)
  else none

/-- Total version of `directionOnAxis?` (see `Edge.directionOnAxis?_eq`) -/
def directionOnAxis (p : Pos) (axis : Axis) : Option Direction :=
  match directionOnAxis? p axis with
  | some d => d
  | none => none

/-- `cube_n/pieces/edge.rs:255-267` (`TryFrom<[Face; 2]>`), `none` is `Err` -/
def ofFaces (a b : Face) : Option Edge :=
  (positionFromFaces a b).map fun p => ⟨p.1, p.2, true⟩

/-- `cube_n/pieces/edge.rs:135-141` (`Coordinates`): zero on the normal axis -/
def coordinatesPos (p : Pos) : Int × Int × Int :=
  match p.1 with
  | .X => (0, p.2.x.scalar, p.2.y.scalar)
  | .Y => (p.2.y.scalar, 0, p.2.x.scalar)
  | .Z => (p.2.x.scalar, p.2.y.scalar, 0)

/-- `cube_n/pieces/edge.rs:284-313`. The Rust `match` is exhaustive over the listed patterns. -/
def minMovesToSolve (orig : Pos) (e : Edge) : Nat :=
  if Piece.isSolved e orig then 0
  else
    let sharedAxis := Axis.all.find? fun axis =>
      (directionOnAxis e.position axis).isSome &&
        directionOnAxis e.position axis == directionOnAxis orig axis
    match e.oriented, decide (orig.1 = e.normalAxis), sharedAxis with
    | true, true, some _ => 1
    | true, false, some .X => 1
    | true, false, some .Y => 1
    | false, false, some .Z => 1
    | true, _, none => 2
    | true, false, some .Z => 2
    | false, false, some .X => 2
    | false, false, some .Y => 2
    | false, false, none => 2
    | false, true, none => 3
    | false, true, some _ => 3

end Edge

/-- `cube_n/space/face.rs:170-179`; `none` is the `unreachable!()` arm -/
def Face.containsEdge? (f : Face) (e : Edge) : Option Bool :=
  if e.normalAxis.offset f.axis = 0 then some false
  else if e.normalAxis.offset f.axis = 1 then some (e.slicePosition.x == f.direction)
  else if e.normalAxis.offset f.axis = 2 then some (e.slicePosition.y == f.direction)
  else none

/-- Total version of `containsEdge?` (see `Face.containsEdge?_eq`) -/
def Face.containsEdge (f : Face) (e : Edge) : Bool :=
  match f.containsEdge? e with
  | some b => b
  | none => false

/-- `cube_n/pieces/edge.rs:124-131` -/
def Edge.moved (e : Edge) (m : AxisMove) : Edge :=
  if m.face.containsEdge e then e.rotated (AxisRotation.ofMove m) else e

instance : Movable Edge AxisMove := ⟨Edge.moved⟩

/-! ## Wings -/

/-- `cube_n/pieces/wing.rs:28-30` -/
structure Wing where
  correspondingEdge : Edge
  deriving DecidableEq, Repr

/-- Enumeration of the type (not in the Rust code). -/
instance : Fintype Wing :=
  Fintype.ofEquiv Edge ⟨fun p => ⟨p⟩, fun c => c.correspondingEdge, fun _ => rfl, fun _ => rfl⟩

/-- `cube_n/pieces/wing.rs:108-122` -/
def wingNormalDirection (normalAxis : Axis) (slicePosition : Vec2) (pseudoOriented : Bool) : Direction :=
  let isZAxis := normalAxis == .Z
  let isEvenPositionParity := slicePosition.x == slicePosition.y
  if isZAxis ^^ isEvenPositionParity ^^ pseudoOriented then .neg else .pos

namespace Wing

/-- `cube_n/pieces/wing.rs:45-65`: `cartesian_array_map!` over axis, direction, direction, `[true, false]`, first factor
fastest -/
def SOLVED_LIST : List Wing :=
  [true, false].flatMap fun o =>
    [Direction.pos, .neg].flatMap fun sp2 =>
      [Direction.pos, .neg].flatMap fun sp1 =>
        [Axis.X, .Y, .Z].map fun axis => ⟨⟨axis, ⟨sp1, sp2⟩, o⟩⟩

/-- `SOLVED_LIST` as an array -/
def SOLVED (i : Fin 24) : Wing := SOLVED_LIST[i.val]'(by simp [SOLVED_LIST])

/-- `cube_n/pieces/wing.rs:32-42` (`Piece`), `44-68` (`PieceSetDescriptor<24>`) -/
instance : PieceSetDescriptor Wing 24 where
  Position := Wing
  posDecEq := inferInstance
  position w := w
  isSolved w orig := w == orig
  SOLVED := SOLVED
  REFERENCE_POSITIONS := SOLVED

/-- `cube_n/pieces/wing.rs:70-74` (total: `Edge::rotate` never panics) -/
instance : Rotatable Wing := ⟨fun w r => ⟨w.correspondingEdge.rotated r⟩⟩

/-- `cube_n/pieces/wing.rs:78-80` -/
def normalAxis (w : Wing) : Axis := w.correspondingEdge.normalAxis

/-- `cube_n/pieces/wing.rs:88-94` -/
def normalDirection (w : Wing) : Direction :=
  wingNormalDirection w.normalAxis w.correspondingEdge.slicePosition w.correspondingEdge.oriented

/-- `cube_n/pieces/wing.rs:97-99` -/
def faces (w : Wing) : Face × Face := w.correspondingEdge.faces

/-- `cube_n/pieces/wing.rs:126-133` -/
def new (normalAxis : Axis) (slicePosition : Vec2) (normalDirection : Direction) : Wing :=
  ⟨⟨normalAxis, slicePosition, wingNormalDirection normalAxis slicePosition true == normalDirection⟩⟩

/-- `cube_n/pieces/wing.rs:142-148`; `none` is `Err` -/
def tryFromFaces (a b : Face) (normalDirection : Direction) : Option Wing :=
  (Edge.positionFromFaces a b).map fun p => new p.1 p.2 normalDirection

/-- `cube_n/pieces/wing.rs:151-174` -/
instance : DepthPiece Wing where
  isInWideMove w normalDepth _ m :=
    if m.axisMove.face.containsEdge w.correspondingEdge then true
    else if w.correspondingEdge.normalAxis = m.face.axis then
      if normalDepth ≤ m.depth ∧ m.face.direction = w.normalDirection then true else false
    else false

end Wing

/-! ## Center corners -/

/-- `cube_n/pieces/center/corner.rs:20-23` -/
structure CenterCorner where
  position : Vec3
  axis : Axis
  deriving DecidableEq, Repr

/-- Enumeration of the type (not in the Rust code). -/
instance : Fintype CenterCorner :=
  Fintype.ofEquiv (Vec3 × Axis)
    ⟨fun p => ⟨p.1, p.2⟩, fun c => (c.position, c.axis), fun _ => rfl, fun _ => rfl⟩

namespace CenterCorner

/-- `cube_n/pieces/center/corner.rs:38-57`, first factor fastest -/
def SOLVED_LIST : List CenterCorner :=
  [Axis.X, .Y, .Z].flatMap fun axis =>
    [Direction.pos, .neg].flatMap fun sp3 =>
      [Direction.pos, .neg].flatMap fun sp2 =>
        [Direction.pos, .neg].map fun sp1 => ⟨⟨sp1, sp2, sp3⟩, axis⟩

/-- `SOLVED_LIST` as an array -/
def SOLVED (i : Fin 24) : CenterCorner :=
  SOLVED_LIST[i.val]'(by simp [SOLVED_LIST])

/-- `cube_n/pieces/center/corner.rs:32-34` and `97-99` -/
def isSolved (c orig : CenterCorner) : Bool := c.position.at c.axis == orig.position.at orig.axis

/-- `cube_n/pieces/center/corner.rs:25-35` (`Piece`), `37-60` (`PieceSetDescriptor<24>`) -/
instance : PieceSetDescriptor CenterCorner 24 where
  Position := CenterCorner
  posDecEq := inferInstance
  position w := w
  isSolved := isSolved
  SOLVED := SOLVED
  REFERENCE_POSITIONS := SOLVED

/-- `cube_n/pieces/center/corner.rs:62-67` -/
instance : Rotatable CenterCorner := ⟨fun c r => ⟨c.position.rotated r, c.axis.rotated r⟩⟩

/-- `cube_n/pieces/center/corner.rs:69-89` -/
instance : DepthPiece CenterCorner where
  isInWideMove c normalDepth _ m :=
    if c.position.at m.face.axis = m.face.direction then
      if normalDepth ≤ m.depth then true
      else if c.axis = m.face.axis then true
      else false
    else false

end CenterCorner

/-! ## Center edges -/

/-- `cube_n/pieces/center/edge.rs:22-35` -/
structure CenterEdge where
  mainFace : Face
  handedness : Direction
  sideDirection : Direction
  deriving DecidableEq, Repr

/-- Enumeration of the type (not in the Rust code). -/
instance : Fintype CenterEdge :=
  Fintype.ofEquiv (Face × Direction × Direction)
    ⟨fun p => ⟨p.1, p.2.1, p.2.2⟩, fun c => (c.mainFace, c.handedness, c.sideDirection),
      fun _ => rfl, fun _ => rfl⟩

namespace CenterEdge

/-- `cube_n/pieces/center/edge.rs:50-60`, first factor fastest -/
def REFERENCE_LIST : List CenterEdge :=
  [Direction.pos, .neg].flatMap fun s =>
    [Direction.pos, .neg].flatMap fun h =>
      [Face.R, .U, .F, .L, .D, .B].map fun f => ⟨f, h, s⟩

/-- `REFERENCE_LIST` as an array -/
def SOLVED (i : Fin 24) : CenterEdge :=
  REFERENCE_LIST[i.val]'(by simp [REFERENCE_LIST])

/-- `cube_n/pieces/center/edge.rs:37-47` (`Piece`), `49-63` (`PieceSetDescriptor<24>`) -/
instance : PieceSetDescriptor CenterEdge 24 where
  Position := CenterEdge
  posDecEq := inferInstance
  position w := w
  isSolved c orig := c.mainFace == orig.mainFace
  SOLVED := SOLVED
  REFERENCE_POSITIONS := SOLVED

/-- `cube_n/pieces/center/edge.rs:104-110`; `none` is the failing `debug_assert_ne!` -/
def sideFace? (c : CenterEdge) : Option Face :=
  let sideAxis := c.mainFace.axis.nextWithHandedness c.handedness
  if sideAxis = c.mainFace.axis then none else some ⟨sideAxis, c.sideDirection⟩

/-- Total version of `sideFace?` (see `CenterEdge.sideFace?_eq`) -/
def sideFace (c : CenterEdge) : Face :=
  ⟨c.mainFace.axis.nextWithHandedness c.handedness, c.sideDirection⟩

/-- `cube_n/pieces/center/edge.rs:113-122`; `none` is the failing `assert_eq!` or `unwrap` -/
def normalAxis? (c : CenterEdge) : Option Axis :=
  let output := c.mainFace.axis.nextWithHandedness c.handedness.flip
  if Axis.other c.mainFace.axis c.sideFace.axis = some output then some output else none

/-- Total version of `normalAxis?` (see `CenterEdge.normalAxis?_eq`) -/
def normalAxis (c : CenterEdge) : Axis := c.mainFace.axis.nextWithHandedness c.handedness.flip

/-- `cube_n/pieces/center/edge.rs:65-80`; `none` is the `expect` panic -/
def rotate? (c : CenterEdge) (r : AxisRotation) : Option CenterEdge :=
  let sideFace := c.sideFace.rotated r
  let mainFace := c.mainFace.rotated r
  match mainFace.axis.getHandedness sideFace.axis with
  | none => none
  | some h => some ⟨mainFace, h, sideFace.direction⟩

/-- Total version of `rotate?` (see `CenterEdge.rotate?_eq`) -/
def rotated (c : CenterEdge) (r : AxisRotation) : CenterEdge :=
  match c.rotate? r with
  | some c' => c'
  | none => c

instance : Rotatable CenterEdge := ⟨rotated⟩

/-- `cube_n/pieces/center/edge.rs:93-101`; `none` is `Err` -/
def tryFromFaces (mainFace sideFace : Face) : Option CenterEdge :=
  (mainFace.axis.getHandedness sideFace.axis).map fun h => ⟨mainFace, h, sideFace.direction⟩

/-- `cube_n/pieces/center/edge.rs:125-142`. Note that line 136 compares with the type parameter `M`
(the *maximum* depth), not with `m.depth()`. -/
instance : DepthPiece CenterEdge where
  isInWideMove {M} c normalDepth _ m :=
    if m.face = c.mainFace then true
    else if m.face = c.sideFace ∧ normalDepth ≤ M then true
    else false

end CenterEdge

/-! ## Center wings -/

/-- `cube_n/pieces/center/wing.rs:26-29` -/
structure CenterWing where
  correspondingCenterEdge : CenterEdge
  pseudoOriented : Bool
  deriving DecidableEq, Repr

/-- Enumeration of the type (not in the Rust code). -/
instance : Fintype CenterWing :=
  Fintype.ofEquiv (CenterEdge × Bool)
    ⟨fun p => ⟨p.1, p.2⟩, fun c => (c.correspondingCenterEdge, c.pseudoOriented), fun _ => rfl, fun _ => rfl⟩

namespace CenterWing

/-- `cube_n/pieces/center/wing.rs:44-55`, first factor fastest -/
def REFERENCE_LIST : List CenterWing :=
  [true, false].flatMap fun o =>
    [Direction.pos, .neg].flatMap fun s =>
      [Direction.pos, .neg].flatMap fun h =>
        [Face.R, .U, .F, .L, .D, .B].map fun f => ⟨⟨f, h, s⟩, o⟩

/-- `REFERENCE_LIST` as an array -/
def SOLVED (i : Fin 48) : CenterWing :=
  REFERENCE_LIST[i.val]'(by simp [REFERENCE_LIST])

/-- `cube_n/pieces/center/wing.rs:106-108` -/
def mainFace (c : CenterWing) : Face := c.correspondingCenterEdge.mainFace

/-- `cube_n/pieces/center/wing.rs:31-41` (`Piece`), `43-58` (`PieceSetDescriptor<48>`) -/
instance : PieceSetDescriptor CenterWing 48 where
  Position := CenterWing
  posDecEq := inferInstance
  position w := w
  isSolved c orig := c.mainFace == orig.mainFace
  SOLVED := SOLVED
  REFERENCE_POSITIONS := SOLVED

/-- `cube_n/pieces/center/wing.rs:111-113` -/
def sideFace (c : CenterWing) : Face := c.correspondingCenterEdge.sideFace

/-- `cube_n/pieces/center/wing.rs:116-118` -/
def normalAxis (c : CenterWing) : Axis := c.correspondingCenterEdge.normalAxis

/-- `cube_n/pieces/center/wing.rs:121-130` -/
def normalDirection (c : CenterWing) : Direction :=
  wingNormalDirection c.normalAxis
    ⟨c.correspondingCenterEdge.mainFace.direction, c.correspondingCenterEdge.sideDirection⟩ c.pseudoOriented

/-- `cube_n/pieces/center/wing.rs:70-90` -/
def new (mainFace : Face) (handedness sideDirection normalDirection : Direction) : CenterWing :=
  let ce : CenterEdge := ⟨mainFace, handedness, sideDirection⟩
  ⟨ce, wingNormalDirection ce.normalAxis ⟨ce.mainFace.direction, ce.sideDirection⟩ true == normalDirection⟩

/-- `cube_n/pieces/center/wing.rs:60-66`. The center edge is rotated *first*, so `normal_axis()` on line 64 is
the one after the rotation. -/
def rotated (c : CenterWing) (r : AxisRotation) : CenterWing :=
  let ce := c.correspondingCenterEdge.rotated r
  ⟨ce, c.pseudoOriented ^^ r.flipsEdgeOrientation ce.normalAxis⟩

instance : Rotatable CenterWing := ⟨rotated⟩

/-- `cube_n/pieces/center/wing.rs:144-174`; `none` is the failing `debug_assert_eq!` on line 170 -/
def isInWideMove? {M : Nat} (c : CenterWing) (normalDepth tangentDepth : Nat) (m : WideAxisMove M) : Option Bool :=
  if c.mainFace = m.face then some true
  else if c.sideFace = m.face then some (decide (normalDepth ≤ m.depth))
  else if c.mainFace.axis = m.face.axis ∨ c.sideFace.axis = m.face.axis then some false
  else if c.normalAxis ≠ m.face.axis then none
  else some (decide (c.normalDirection = m.face.direction ∧ tangentDepth ≤ m.depth))

/-- Total version of `isInWideMove?` (see `CenterWing.isInWideMove?_eq`) -/
instance : DepthPiece CenterWing where
  isInWideMove c normalDepth tangentDepth m :=
    if c.mainFace = m.face then true
    else if c.sideFace = m.face then decide (normalDepth ≤ m.depth)
    else if c.mainFace.axis = m.face.axis ∨ c.sideFace.axis = m.face.axis then false
    else decide (c.normalDirection = m.face.direction ∧ tangentDepth ≤ m.depth)

end CenterWing

end Barbarosa
