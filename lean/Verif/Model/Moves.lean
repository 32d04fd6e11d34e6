import Verif.Model.Space

/-!
# Moves and rotations

Transcription of `generic/moves.rs`, `generic/alg.rs` (application and reversal) and of
`cube_n/moves/{amount,mod,rotation,quarter,wide}.rs`.
-/

namespace Barbarosa

/-- `generic/moves.rs:6-9` (`trait Move`) -/
class Move (M : Type) where
  inverse : M → M

/-- `generic/moves.rs:24-33` (`trait Movable<M>`): `moved` takes and returns ownership; the in-place
`apply` is the same function. -/
class Movable (C : Type) (M : Type) where
  moved : C → M → C

export Movable (moved)

/-- `generic/alg.rs:146-158`: `Movable<[M]>` and `Movable<Alg<M>>`: apply every move in order.
An `Alg` (`generic/alg.rs:24-26`) is its list of moves. -/
def movedAlg {C M : Type} [Movable C M] (c : C) (alg : List M) : C :=
  alg.foldl moved c

/-- `generic/alg.rs:40-42` -/
def reversed {M : Type} [Move M] (alg : List M) : List M :=
  alg.reverse.map Move.inverse

/-! ## Amounts -/

/-- `cube_n/moves/amount.rs:9-13` -/
inductive Amount | single | double | inverse
  deriving DecidableEq, Repr

/-- Enumeration of the type (not in the Rust code). -/
instance : Fintype Amount :=
  ⟨({Amount.single, Amount.double, Amount.inverse} : Finset Amount), fun a => by cases a <;> decide⟩

namespace Amount

/-- discriminant, `cube_n/moves/amount.rs:9-13` -/
def toNat : Amount → Nat
  | .single => 1
  | .double => 2
  | .inverse => 3

/-- `Amount::iter()`, declaration order, `cube_n/moves/amount.rs:7` -/
def all : List Amount := [.single, .double, .inverse]

/-- `cube_n/moves/amount.rs:25-39` (`Mul<Direction>`) -/
def mul : Amount → Direction → Amount
  | .single, .pos => .single
  | .inverse, .neg => .single
  | .double, _ => .double
  | .inverse, .pos => .inverse
  | .single, .neg => .inverse

/-- `cube_n/moves/amount.rs:41-53` (`Add`). The `unreachable!()` arm of the Rust `match` is the last one here;
the remainder modulo 4 is below 4, so the arm is dead (`Amount.add_arm_dead` in `Lemmas/Moves.lean`). -/
def add (a b : Amount) : Option Amount :=
  match (a.toNat + b.toNat) % 4 with
  | 0 => none
  | 1 => some .single
  | 2 => some .double
  | 3 => some .inverse
  | _ => none

/-- `cube_n/moves/amount.rs:55-62` -/
def ofDirection : Direction → Amount
  | .pos => .single
  | .neg => .inverse

end Amount

/-! ## Face moves -/

/-- `cube_n/moves/mod.rs:39-44` -/
structure AxisMove where
  face : Face
  amount : Amount
  deriving DecidableEq, Repr

/-- Enumeration of the type (not in the Rust code). -/
instance : Fintype AxisMove :=
  Fintype.ofEquiv (Face × Amount)
    ⟨fun p => ⟨p.1, p.2⟩, fun m => (m.face, m.amount), fun _ => rfl, fun _ => rfl⟩

/-- `cube_n/moves/mod.rs:53-60` -/
def AxisMove.inverse (m : AxisMove) : AxisMove := ⟨m.face, m.amount.mul .neg⟩

instance : Move AxisMove := ⟨AxisMove.inverse⟩

/-- `cube_n/moves/mod.rs:66-82`: `iproduct!(Axis::iter(), Direction::iter(), Amount::iter())`, last factor fastest -/
def AxisMove.all : List AxisMove :=
  Axis.all.flatMap fun axis =>
    Direction.all.flatMap fun direction =>
      Amount.all.map fun amount => ⟨⟨axis, direction⟩, amount⟩

/-- `cube_n/moves/mod.rs:66-82` at the level of memory: the array of `MaybeUninit` starts uninitialised (`none`), the loop
writes slot `i` (out-of-range indices would panic, `none` of the outer `Option`), and the final `transmute` reads every
slot. -/
def AxisMove.allSlots? : Option (List (Option AxisMove)) :=
  (AxisMove.all.zipIdx).foldlM (fun slots im => if im.2 < slots.length then some (slots.set im.2 (some im.1)) else none)
    (List.replicate (3 * 2 * 3) none)

/-! ## Rotations -/

/-- `cube_n/moves/rotation.rs:20-25` -/
structure AxisRotation where
  axis : Axis
  amount : Amount
  deriving DecidableEq, Repr

/-- Enumeration of the type (not in the Rust code). -/
instance : Fintype AxisRotation :=
  Fintype.ofEquiv (Axis × Amount)
    ⟨fun p => ⟨p.1, p.2⟩, fun m => (m.axis, m.amount), fun _ => rfl, fun _ => rfl⟩

/-- `cube_n/moves/rotation.rs:36-38` -/
def AxisRotation.flipsEdgeOrientation (r : AxisRotation) (normalAxis : Axis) : Bool :=
  r.amount != .double && (r.axis == .Z || r.axis == normalAxis)

/-- `cube_n/moves/rotation.rs:41-46` -/
def AxisRotation.inverse (r : AxisRotation) : AxisRotation := ⟨r.axis, r.amount.mul .neg⟩

/-- `cube_n/moves/rotation.rs:95-102` (`From<&AxisMove>`) -/
def AxisRotation.ofMove (m : AxisMove) : AxisRotation := ⟨m.face.axis, m.amount.mul m.face.direction⟩

/-- `cube_n/moves/rotation.rs:50-61` (`trait Rotatable`) -/
class Rotatable (T : Type) where
  rotated : T → AxisRotation → T

export Rotatable (rotated)

/-- `cube_n/moves/rotation.rs:63-75` -/
def Face.rotated (f : Face) (r : AxisRotation) : Face :=
  if f.axis = r.axis then f
  else match r.amount with
    | .double => f.opposite
    | .single => f.nextAround r.axis
    | .inverse => f.prevAround r.axis

instance : Rotatable Face := ⟨Face.rotated⟩

/-- `cube_n/moves/rotation.rs:105-111` -/
def rotateVec2 (a : Amount) (v : Vec2) : Vec2 :=
  match a with
  | .single => ⟨v.y, v.x.flip⟩
  | .double => ⟨v.x.flip, v.y.flip⟩
  | .inverse => ⟨v.y.flip, v.x⟩

/-- `cube_n/moves/rotation.rs:77-83` -/
def Vec3.rotated (v : Vec3) (r : AxisRotation) : Vec3 :=
  r.axis.mapOnSlice v (rotateVec2 r.amount)

instance : Rotatable Vec3 := ⟨Vec3.rotated⟩

/-- `cube_n/moves/rotation.rs:85-93` -/
def Axis.rotated (a : Axis) (r : AxisRotation) : Axis :=
  if r.amount ≠ .double then
    match Axis.other a r.axis with
    | some o => o
    | none => a
  else a

instance : Rotatable Axis := ⟨Axis.rotated⟩

/-- `cube_n/moves/rotation.rs:113-117` -/
def AxisMove.rotated (m : AxisMove) (r : AxisRotation) : AxisMove := ⟨m.face.rotated r, m.amount⟩

instance : Rotatable AxisMove := ⟨AxisMove.rotated⟩

/-- `cube_n/moves/rotation.rs:119-125` -/
def algRotated (alg : List AxisMove) (r : AxisRotation) : List AxisMove := alg.map (·.rotated r)

instance : Rotatable (List AxisMove) := ⟨algRotated⟩

/-! ## Quarter turns -/

/-- `cube_n/moves/quarter.rs:15-21` -/
structure QuarterAxisMove where
  face : Face
  direction : Direction
  deriving DecidableEq, Repr

/-- Enumeration of the type (not in the Rust code). -/
instance : Fintype QuarterAxisMove :=
  Fintype.ofEquiv (Face × Direction)
    ⟨fun p => ⟨p.1, p.2⟩, fun m => (m.face, m.direction), fun _ => rfl, fun _ => rfl⟩

/-- `cube_n/moves/quarter.rs:23-30` -/
instance : Move QuarterAxisMove := ⟨fun m => ⟨m.face, m.direction.flip⟩⟩

/-- `cube_n/moves/quarter.rs:39-49` (`From<&QuarterAxisMove> for AxisMove`) -/
def QuarterAxisMove.toAxisMove (m : QuarterAxisMove) : AxisMove :=
  ⟨m.face, match m.direction with
    | .pos => .single
    | .neg => .inverse⟩

/-- `cube_n/moves/quarter.rs:57-78` (`From<Alg<AxisMove>> for Alg<QuarterAxisMove>`), the `for` loop with pushes -/
def algToQuarter (alg : List AxisMove) : List QuarterAxisMove :=
  alg.foldl (fun out m =>
    match m.amount with
    | .single => out ++ [⟨m.face, .pos⟩]
    | .inverse => out ++ [⟨m.face, .neg⟩]
    | .double => (out ++ [⟨m.face, .pos⟩]) ++ [⟨m.face, .pos⟩]) []

/-! ## Wide moves -/

/-- `cube_n/moves/wide.rs:26-32`. The const generic `N` is a parameter; the invariant `depth ≤ N`
is not part of the Rust type and is therefore a separate predicate `WideAxisMove.WF`.
`u32` is modelled by `Nat`. -/
structure WideAxisMove (N : Nat) where
  depth : Nat
  axisMove : AxisMove
  deriving DecidableEq, Repr

namespace WideAxisMove

variable {N : Nat}

/-- The documented invariant, `cube_n/moves/wide.rs:27` -/
def WF (m : WideAxisMove N) : Prop := m.depth ≤ N

instance (m : WideAxisMove N) : Decidable m.WF := inferInstanceAs (Decidable (_ ≤ _))

/-- `cube_n/moves/wide.rs:34-40` -/
instance : Move (WideAxisMove N) := ⟨fun m => { m with axisMove := Move.inverse m.axisMove }⟩

/-- `cube_n/moves/wide.rs:46-55`; `none` is `Err(ExcededDepth)` -/
def new (N : Nat) (face : Face) (amount : Amount) (depth : Nat) : Option (WideAxisMove N) :=
  if depth > N then none else some ⟨depth, ⟨face, amount⟩⟩

/-- `cube_n/moves/wide.rs:58-60` -/
def face (m : WideAxisMove N) : Face := m.axisMove.face

/-- `cube_n/moves/wide.rs:63-65` -/
def amount (m : WideAxisMove N) : Amount := m.axisMove.amount

/-- `cube_n/moves/wide.rs:75-83`; on `Err` the move is left as it was -/
def setDepth (m : WideAxisMove N) (d : Nat) : Except Unit Unit × WideAxisMove N :=
  if d > N then (.error (), m) else (.ok (), { m with depth := d })

/-- `cube_n/moves/wide.rs:86-95` (the `transmute` is the identity on the fields) -/
def setMaxDepth (m : WideAxisMove N) (M : Nat) : Option (WideAxisMove M) :=
  if m.depth > M then none else some ⟨m.depth, m.axisMove⟩

/-- `cube_n/moves/wide.rs:161-168`: the random face, amount and depth are parameters; `gen_range(0..=N)`
yields some `depth ≤ N`, and `none` is the `unwrap` panic -/
def sample? (N : Nat) (face : Face) (amount : Amount) (depth : Nat) : Option (WideAxisMove N) :=
  new N face amount depth

end WideAxisMove

/-- `cube_n/moves/mod.rs:85-87` -/
def AxisMove.widen (m : AxisMove) (N depth : Nat) : Option (WideAxisMove N) :=
  WideAxisMove.new N m.face m.amount depth

/-- `cube_n/moves/wide.rs:170-183` -/
def algWiden (alg : List AxisMove) (N depth : Nat) : Option (List (WideAxisMove N)) :=
  alg.mapM fun m => m.widen N depth

end Barbarosa
