import Verif.Model.Parser
import Verif.Model.Cubes

/-!
# Orientations, orientable cubes and extended moves

Transcription of `cube_n/orientable/{mod,orientation}.rs` and `cube_n/moves/extended.rs`. Panics are `none`.
-/

namespace Barbarosa

/-- `cube_n/orientable/orientation.rs:17-22` -/
@[ext] structure Orientation where
  rFace : Face
  handedness : Direction
  sideDirection : Direction
  deriving DecidableEq, Repr

/-- Enumeration of the type (not in the Rust code). -/
instance : Fintype Orientation :=
  Fintype.ofEquiv (Face × Direction × Direction)
    ⟨fun p => ⟨p.1, p.2.1, p.2.2⟩, fun o => (o.rFace, o.handedness, o.sideDirection), fun _ => rfl, fun _ => rfl⟩

/-- `cube_n/orientable/orientation.rs:24-39` -/
def connectingRotation (start target : Face) : Option AxisRotation :=
  match start.cross target with
  | some crossResult => some ⟨crossResult.axis, Amount.ofDirection crossResult.direction.flip⟩
  | none =>
    if start.direction = target.direction then none
    else some ⟨start.axis.next, .double⟩

/-- `cube_n/orientable/orientation.rs:42-57`; the outer `none` is a failing `debug_assert_ne!` -/
def connectingRotationWithFace? (start target face : Face) : Option (Option AxisRotation) :=
  if start.axis = face.axis then none
  else if target.axis = face.axis then none
  else if start = target then some none
  else
    let amount := match start.axis.getHandedness target.axis with
      | some .pos => Amount.single
      | some .neg => Amount.inverse
      | none => Amount.double
    some (some ⟨face.axis, amount⟩)

namespace Orientation

/-- `cube_n/orientable/orientation.rs:66-69` -/
def uFace (o : Orientation) : Face := ⟨o.rFace.axis.nextWithHandedness o.handedness, o.sideDirection⟩

/-- `cube_n/orientable/orientation.rs:72-94`; `none` is a panic -/
def rotations? (o : Orientation) : Option (List AxisRotation) :=
  let rRot := connectingRotation Face.R o.rFace
  let newU := match rRot with
    | some rot => Face.U.rotated rot
    | none => Face.U
  let rFace := match rRot with
    | some rot => some (Face.R.rotated rot)
    | none => none
  let uRot? := match rFace with
    | some rFace => connectingRotationWithFace? newU o.uFace rFace
    | none => some (connectingRotation newU o.uFace)
  match uRot? with
  | none => none
  | some uRot =>
    match rRot, uRot with
    | none, none => some []
    | some rot, none => some [rot]
    | none, some rot => some [rot]
    | some rRot, some uRot => some [rRot, uRot]

/-- `cube_n/orientable/orientation.rs:96-102`, `137-141` -/
def default : Orientation := ⟨Face.R, .pos, .pos⟩

/-- `cube_n/orientable/orientation.rs:105-120`; `none` is `Err(ParallelAxesError)` -/
def tryFrom (rFace uFace : Face) : Option Orientation :=
  match rFace.axis.getHandedness uFace.axis with
  | some handedness => some ⟨rFace, handedness, uFace.direction⟩
  | none => none

/-- `cube_n/orientable/orientation.rs:122-135`; `none` is the panic of `expect` -/
def rotate? (o : Orientation) (r : AxisRotation) : Option Orientation :=
  let uFace := o.uFace.rotated r
  let rFace := o.rFace.rotated r
  match rFace.axis.getHandedness uFace.axis with
  | some handedness => some ⟨rFace, handedness, uFace.direction⟩
  | none => none

end Orientation

/-- `cube_n/orientable/mod.rs:15-25` -/
@[ext] structure Orientable (C : Type) where
  baseCube : C
  orientation : Orientation
  deriving DecidableEq

/-- `cube_n/orientable/mod.rs:32-37`, `40-51`, `82-89` -/
def Orientable.new {C : Type} (c : C) : Orientable C := ⟨c, Orientation.default⟩

/-- `cube_n/orientable/mod.rs:68-73` -/
def Orientable.SOLVED (C : Type) [Cube C] : Orientable C := Orientable.new (Cube.SOLVED (C := C))

/-- `is_solved` of an orientable cube: the default of `generic/mod.rs:59-64`, since `cube_n/orientable/mod.rs:68-73` does not
override it -/
def Orientable.isSolved {C : Type} [Cube C] [DecidableEq C] (c : Orientable C) : Bool := decide (c = Orientable.SOLVED C)

/-- `cube_n/orientable/mod.rs:57-65` for `AxisMove`, the only kind of move that is both `Move` and `Rotatable` -/
def Orientable.moved? {C : Type} [Movable C AxisMove] (c : Orientable C) (m : AxisMove) : Option (Orientable C) :=
  match c.orientation.rotations? with
  | none => none
  | some rotations => some { c with baseCube := moved c.baseCube (rotations.foldl AxisMove.rotated m) }

/-- `cube_n/moves/extended.rs:40-52` -/
def ExtendedAxisMove.inverse : ExtendedAxisMove → ExtendedAxisMove
  | .regular m => .regular (Move.inverse m)
  | .rotation r => .rotation r.inverse
  | .wide m => .wide (Move.inverse m)
  | .slice rot isWide => .slice rot.inverse isWide

instance : Move ExtendedAxisMove := ⟨ExtendedAxisMove.inverse⟩

/-- `cube_n/moves/extended.rs:54-58`; `none` is the panic of `unwrap` -/
def oppositeWide? {N : Nat} (m : WideAxisMove N) (depth : Nat) : Option (WideAxisMove N) :=
  AxisMove.widen ⟨m.face.opposite, m.amount⟩ N depth

/-- The maximum depth `N / 2 - 1` used in `cube_n/moves/extended.rs:88,96,99` -/
abbrev maxDepth (C : Type) [Cube C] : Nat := Cube.N C / 2 - 1

/-- One pass of the loop at `cube_n/moves/extended.rs:93-102` -/
def sliceTurn? {C : Type} [Cube C] [Movable C (WideAxisMove (maxDepth C))] (rot : AxisRotation) (isWide : Bool) (c : C)
    (dir : Direction) : Option C :=
  let depth := match isWide with
    | false => 0
    | true => Cube.N C / 2 - 1
  match WideAxisMove.new (maxDepth C) ⟨rot.axis, dir⟩ (rot.amount.mul .neg) depth with
  | some m => some (moved c m)
  | none => none

/-- `cube_n/moves/extended.rs:70-107`; `none` is a panic (`unwrap`, `expect`) -/
def Orientable.apply? {C : Type} [Cube C] [Movable C AxisMove] [Movable C (WideAxisMove (maxDepth C))] (c : Orientable C) :
    ExtendedAxisMove → Option (Orientable C)
  | .regular m => c.moved? m
  | .rotation rot => do
    let o ← c.orientation.rotate? rot
    return { c with orientation := o }
  | .wide m =>
    if Cube.N C < m.depth then do
      let o ← c.orientation.rotate? (AxisRotation.ofMove m.axisMove)
      return { c with orientation := o }
    else do
      let depthOpposite := Cube.N C - m.depth
      let (o, m) ← (if m.depth < depthOpposite then some (c.orientation, m)
        else do
          let o ← c.orientation.rotate? (AxisRotation.ofMove m.axisMove)
          let m ← oppositeWide? m depthOpposite
          return (o, m) : Option (Orientation × WideAxisMove U32_MAX))
      let m ← m.setMaxDepth (maxDepth C)
      return ⟨moved c.baseCube m, o⟩
  | .slice rot isWide => do
    let base ← [Direction.pos, Direction.neg].foldlM (sliceTurn? rot isWide) c.baseCube
    let o ← c.orientation.rotate? rot
    return ⟨base, o⟩

/-- `generic/alg.rs:146-158` for orientable cubes: apply every move in order; `none` is a panic on the way -/
def Orientable.applyAlg? {C : Type} [Cube C] [Movable C AxisMove] [Movable C (WideAxisMove (maxDepth C))] (c : Orientable C)
    (alg : List ExtendedAxisMove) : Option (Orientable C) :=
  alg.foldlM Orientable.apply? c

/-- `cube_n/moves/extended.rs:112` (`N / 2 - 1 = 0`, so `cube_n/moves/wide.rs:122-126` is used) -/
instance : Movable Cube2 (WideAxisMove (maxDepth Cube2)) := inferInstanceAs (Movable Cube2 (WideAxisMove 0))
/-- `cube_n/moves/extended.rs:112` (`N / 2 - 1 = 0`, so `cube_n/moves/wide.rs:122-126` is used) -/
instance : Movable Cube3 (WideAxisMove (maxDepth Cube3)) := inferInstanceAs (Movable Cube3 (WideAxisMove 0))
/-- `cube_n/moves/extended.rs:112` -/
instance : Movable Cube4 (WideAxisMove (maxDepth Cube4)) := inferInstanceAs (Movable Cube4 (WideAxisMove 1))
/-- `cube_n/moves/extended.rs:112` -/
instance : Movable Cube5 (WideAxisMove (maxDepth Cube5)) := inferInstanceAs (Movable Cube5 (WideAxisMove 1))
/-- `cube_n/moves/extended.rs:112` -/
instance : Movable Cube6 (WideAxisMove (maxDepth Cube6)) := inferInstanceAs (Movable Cube6 (WideAxisMove 2))
/-- `cube_n/moves/extended.rs:112` -/
instance : Movable Cube7 (WideAxisMove (maxDepth Cube7)) := inferInstanceAs (Movable Cube7 (WideAxisMove 2))

/-- `cube_n/moves/extended.rs:120-127`: the depth always fits, since every depth is a `u32` -/
def ExtendedAxisMove.ofWide? {N : Nat} (m : WideAxisMove N) : Option ExtendedAxisMove :=
  (m.setMaxDepth U32_MAX).map .wide

/-- `cube_n/moves/extended.rs:114-118` -/
def ExtendedAxisMove.ofAxisMove (m : AxisMove) : ExtendedAxisMove := .regular m
/-- `cube_n/moves/extended.rs:129-133` -/
def ExtendedAxisMove.ofRotation (r : AxisRotation) : ExtendedAxisMove := .rotation r
/-- `cube_n/moves/extended.rs:135-139` -/
def ExtendedAxisMove.ofSlice (s : AxisRotation × Bool) : ExtendedAxisMove := .slice s.1 s.2

end Barbarosa
