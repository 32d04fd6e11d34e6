import Verif.Model.Cubes

/-!
# What is fed to a hasher

`#[derive(Hash)]` feeds the fields one after the other, for an enum its discriminant as `isize`. An array feeds its length and then
its elements (Rust's `[T; N]`), a `bool` one byte. How `nalgebra` feeds a vector is the parameter `vector` (`vector2` for two
coordinates). `Cube5`, `Cube6` and `Cube7` derive no `Hash` (`cube_n/cube5/mod.rs:18`, `cube_n/cube6/mod.rs:15`,
`cube_n/cube7/mod.rs:15`), so there is nothing to model for them; they cannot be searched either (`generic/search/ida.rs:26`).
-/

namespace Barbarosa

/-- one call of a method of `std::hash::Hasher`: `write_isize`, `write_usize` or `write_u8`; used by every `#[derive(Hash)]`, e.g.
`cube_n/space/axis.rs:21` -/
inductive Word
  | isize (n : Int)
  | usize (n : Nat)
  | u8 (n : Nat)
  deriving DecidableEq, Repr

/-- `#[derive(Hash)]` of `Axis`, `cube_n/space/axis.rs:21-29` -/
def Axis.words : Axis → List Word
  | .X => [.isize 0]
  | .Y => [.isize 1]
  | .Z => [.isize 2]

/-- `#[derive(Hash)]` of `Direction`, `cube_n/space/direction.rs:5-10` -/
def Direction.words : Direction → List Word
  | .pos => [.isize 1]
  | .neg => [.isize (-1)]

/-- `#[derive(Hash)]` of `Face`, `cube_n/space/face.rs:12-18` -/
def Face.words (f : Face) : List Word := f.axis.words ++ f.direction.words

/-- `Hash` of `bool` in Rust, used by `cube_n/pieces/edge.rs:22` and `cube_n/pieces/center/wing.rs:25` -/
def boolWords (b : Bool) : List Word := [.u8 b.toNat]

/-- `#[derive(Hash)]` of `Corner`, `cube_n/pieces/corner.rs:21-29` -/
def Corner.words (vector : Vec3 → List Word) (c : Corner) : List Word := vector c.position ++ c.orientationAxis.words

/-- `#[derive(Hash)]` of `Edge`, `cube_n/pieces/edge.rs:22-48` -/
def Edge.words (vector2 : Vec2 → List Word) (e : Edge) : List Word :=
  e.normalAxis.words ++ (vector2 e.slicePosition ++ boolWords e.oriented)

/-- `#[derive(Hash)]` of `Wing`, `cube_n/pieces/wing.rs:27-30` -/
def Wing.words (vector2 : Vec2 → List Word) (w : Wing) : List Word := w.correspondingEdge.words vector2

/-- `#[derive(Hash)]` of `CenterCorner`, `cube_n/pieces/center/corner.rs:19-23` -/
def CenterCorner.words (vector : Vec3 → List Word) (c : CenterCorner) : List Word := vector c.position ++ c.axis.words

/-- `#[derive(Hash)]` of `CenterEdge`, `cube_n/pieces/center/edge.rs:21-35` -/
def CenterEdge.words (c : CenterEdge) : List Word := c.mainFace.words ++ (c.handedness.words ++ c.sideDirection.words)

/-- `#[derive(Hash)]` of `CenterWing`, `cube_n/pieces/center/wing.rs:25-29` -/
def CenterWing.words (c : CenterWing) : List Word := c.correspondingCenterEdge.words ++ boolWords c.pseudoOriented

/-- `#[derive(Hash)]` of `PieceSet`, `generic/piece/set.rs:39-42`, an array; also of `DepthPieceSet`, `cube_n/moves/wide.rs:200-209`, which
has a `PieceSet` as its only field -/
def PieceSet.words {P : Type} {n : Nat} (piece : P → List Word) (s : PieceSet P n) : List Word :=
  .usize n :: (PieceSet.toList s).flatMap piece

/-- `#[derive(Hash)]` of `Cube2`, `cube_n/cube2/mod.rs:12-16` -/
def Cube2.words (vector : Vec3 → List Word) (c : Cube2) : List Word := c.corners.words (Corner.words vector)

/-- `#[derive(Hash)]` of `Cube3`, `cube_n/cube3/mod.rs:29-36` -/
def Cube3.words (vector2 : Vec2 → List Word) (vector : Vec3 → List Word) (c : Cube3) : List Word :=
  c.edges.words (Edge.words vector2) ++ c.corners.words (Corner.words vector)

/-- `#[derive(Hash)]` of `Cube4`, `cube_n/cube4/mod.rs:15-20` -/
def Cube4.words (vector2 : Vec2 → List Word) (vector : Vec3 → List Word) (c : Cube4) : List Word :=
  c.corners.words (Corner.words vector) ++ (c.wings.words (Wing.words vector2) ++ c.centers.words (CenterCorner.words vector))

/-- A hasher of type `σ` that starts as `new`, takes words with `write` and returns a number at the end: `std::hash::Hasher`
(not in /repo). The hash of a value is what the hasher returns after the words of the value; needed wherever a cube is a key, e.g. the
bound in `generic/search/ida.rs:26`. -/
structure Hasher (σ : Type) where
  new : σ
  write : σ → Word → σ
  finish : σ → Nat

/-- the hash of a value with the given words (`BuildHasher::hash_one` of Rust, not in /repo) -/
def Hasher.hash {σ : Type} (h : Hasher σ) (words : List Word) : Nat := h.finish (words.foldl h.write h.new)

/-- A table of values as in `std::collections::HashSet` (not in /repo; `cube_n/cube3/test.rs:19-33` uses one): for each number of a
bucket the values in it. -/
abbrev Buckets (T : Type) := Nat → List T

/-- `HashSet::contains`: looks only in the bucket of the hash, among `count` buckets, and compares with `==` -/
def Buckets.contains {T σ : Type} [DecidableEq T] (h : Hasher σ) (count : Nat) (words : T → List Word) (t : Buckets T) (x : T) : Bool :=
  decide (x ∈ t (h.hash (words x) % count))

/-- `HashSet::insert`: nothing if an equal value is found in its bucket, otherwise the value is put there -/
def Buckets.insert {T σ : Type} [DecidableEq T] (h : Hasher σ) (count : Nat) (words : T → List Word) (t : Buckets T) (x : T) : Buckets T :=
  if t.contains h count words x then t
  else fun k => if k = h.hash (words x) % count then x :: t k else t k

end Barbarosa
