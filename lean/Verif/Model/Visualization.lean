import Verif.Model.Cubes

/-!
# Drawing

Transcription of `cube_n/visualization/mod.rs` and `cube_n/visualization/unfolded/mod.rs`.

Simplifications. The `f32` coordinates that occur are the numbers `-1`, `0`, `1`; they are modelled as `Int`. The
terminal escape codes that `crossterm` prints are modelled as abstract tokens (`Tok`).
-/

namespace Barbarosa

/-- `cube_n/visualization/mod.rs:18-28` -/
structure Color where
  face : Face
  deriving DecidableEq, Repr

/-- `cube_n/visualization/mod.rs:63-67` (`trait Colored`) -/
class Colored (P : Type) [Piece P] where
  colors : P → Piece.Position P → List (Face × Color)

/-- `generic/piece/traits.rs:6-14` (`trait Coordinates`); `coordinates` is `coordinates_pos` of the position -/
class Coordinates (P : Type) [Piece P] where
  coordinatesPos : Piece.Position P → Int × Int × Int

/-- `cube_n/visualization/mod.rs:84-105`: the loop body, run `n` times from the given axes -/
def Corner.colorsLoop (pos orig : Vec3) : Nat → Axis → Axis → List (Face × Color)
  | 0, _, _ => []
  | n + 1, cur, org =>
    (⟨cur, pos.at cur⟩, ⟨⟨org, orig.at org⟩⟩) ::
      Corner.colorsLoop pos orig n (Corner.nextAxis pos cur) (Corner.nextAxis orig org)

/-- `cube_n/visualization/mod.rs:84-105` -/
def Corner.colors (c : Corner) (orig : Vec3) : List (Face × Color) :=
  Corner.colorsLoop c.position orig 3 c.orientationAxis Corner.ORIENTED_AXIS

/-- `cube_n/visualization/mod.rs:107-126` -/
def Edge.colors (e : Edge) (orig : Edge.Pos) : List (Face × Color) :=
  let f1 := Edge.orientationFace e.position
  let f2 := Edge.nonOrientationFace e.position
  let cur := if !e.oriented then (f2, f1) else (f1, f2)
  [(cur.1, ⟨Edge.orientationFace orig⟩), (cur.2, ⟨Edge.nonOrientationFace orig⟩)]

/-- `cube_n/visualization/mod.rs:84` -/
instance : Colored Corner := ⟨Corner.colors⟩
/-- `cube_n/visualization/mod.rs:107` -/
instance : Colored Edge := ⟨Edge.colors⟩
/-- `cube_n/pieces/corner.rs:74-78` -/
instance : Coordinates Corner := ⟨Corner.coordinatesPos⟩
/-- `cube_n/pieces/edge.rs:135-141` -/
instance : Coordinates Edge := ⟨Edge.coordinatesPos⟩

/-- `cube_n/visualization/unfolded/mod.rs:29-33`: rows, then columns -/
abbrev Square (N : Nat) := Fin N → Fin N → Color

namespace Square

/-- `cube_n/visualization/unfolded/mod.rs:36-41` -/
def new (N : Nat) (c : Color) : Square N := fun _ _ => c

/-- `cube_n/visualization/unfolded/mod.rs:43-53`: the faces towards which rows and columns grow -/
def basisFaces : Face → Face × Face
  | ⟨.Y, .pos⟩ => (.F, .R)
  | ⟨.Z, .pos⟩ => (.D, .R)
  | ⟨.Y, .neg⟩ => (.B, .R)
  | ⟨.Z, .neg⟩ => (.U, .R)
  | ⟨.X, .neg⟩ => (.D, .F)
  | ⟨.X, .pos⟩ => (.D, .B)

/-- `cube_n/visualization/unfolded/mod.rs:55-60`: the vector of a face -/
def basisVector (f : Face) : Int × Int × Int :=
  match f.axis with
  | .X => (f.direction.scalar, 0, 0)
  | .Y => (0, f.direction.scalar, 0)
  | .Z => (0, 0, f.direction.scalar)

/-- `Vector3::dot` (`nalgebra`), used in `cube_n/visualization/unfolded/mod.rs:66-67` -/
def dot (p q : Int × Int × Int) : Int := p.1 * q.1 + p.2.1 * q.2.1 + p.2.2 * q.2.2

/-- `cube_n/visualization/unfolded/mod.rs:96-106`, for an integer coordinate `x`. The number before rounding is
`(x + 1) * N / 3`; it is a third of an integer, so it is never half way between two integers and rounding is
`⌊t + 1/2⌋`, here with numerator and denominator multiplied by 6. -/
def transformCoord (N : Nat) (x : Int) : Option (Fin N) :=
  let k := (x + 1) * (N : Int)
  let r := (2 * k + 3) / 6
  if r < 0 then none
  else if h : r.toNat < N then some ⟨r.toNat, h⟩
  else none

/-- `cube_n/visualization/unfolded/mod.rs:63-73` -/
def indices (N : Nat) (point : Int × Int × Int) (f : Face) : Option (Fin N × Fin N) :=
  let b := basisFaces f
  match transformCoord N (dot point (basisVector b.1)) with
  | none => none
  | some x =>
    match transformCoord N (dot point (basisVector b.2)) with
    | none => none
    | some y => some (x, y)

/-- `cube_n/visualization/unfolded/mod.rs:81-85` -/
def at? {N : Nat} (s : Square N) (point : Int × Int × Int) (f : Face) : Option Color :=
  (indices N point f).map fun ij => s ij.1 ij.2

end Square

/-- `cube_n/visualization/unfolded/mod.rs:146-148`: the array of six squares; indexing with a face
(`246-258`) goes through `Face::index`, modelled by keying the squares with the number `Face.index` -/
abbrev Unfolded (N : Nat) := Fin 6 → Square N

theorem Face.index_lt (f : Face) : f.index < 6 := by rcases f with ⟨_ | _ | _, _ | _⟩ <;> decide

namespace Unfolded

/-- `cube_n/visualization/unfolded/mod.rs:246-258` (`Index<&Face>`) -/
def square {N : Nat} (u : Unfolded N) (f : Face) : Square N := u ⟨f.index, f.index_lt⟩

/-- The colours in `cube_n/visualization/unfolded/mod.rs:153-160`; the constants are
`cube_n/visualization/mod.rs:30-41` -/
def DEFAULT_LIST : List Color := [⟨.R⟩, ⟨.U⟩, ⟨.F⟩, ⟨.L⟩, ⟨.D⟩, ⟨.B⟩]

/-- `cube_n/visualization/unfolded/mod.rs:150-164` -/
def default (N : Nat) : Unfolded N := fun i => Square.new N (DEFAULT_LIST[i.val]'(by simp [DEFAULT_LIST]))

/-- the assignment `*self.at_mut(point, face).unwrap() = color`,
`cube_n/visualization/unfolded/mod.rs:90-94`, `175-177`, `190`; `none` is the panic of `unwrap` -/
def setAt? {N : Nat} (u : Unfolded N) (point : Int × Int × Int) (f : Face) (col : Color) : Option (Unfolded N) :=
  match Square.indices N point f with
  | none => none
  | some ij => some fun k i j => if k = ⟨f.index, f.index_lt⟩ ∧ i = ij.1 ∧ j = ij.2 then col else u k i j

/-- the body of the outer loop in `cube_n/visualization/unfolded/mod.rs:188-192` -/
def drawPiece? {N : Nat} {P : Type} [Piece P] [Colored P] [Coordinates P] (u : Unfolded N)
    (x : Piece.Position P × P) : Option (Unfolded N) :=
  (Colored.colors x.2 x.1).foldlM (fun u fc => u.setAt? (Coordinates.coordinatesPos (P := P) (Piece.position x.2)) fc.1 fc.2) u

/-- `cube_n/visualization/unfolded/mod.rs:184-193` -/
def populateWith? {N M : Nat} {P : Type} [PieceSetDescriptor P M] [Colored P] [Coordinates P] (u : Unfolded N)
    (s : PieceSet P M) : Option (Unfolded N) :=
  s.iterWithPos.foldlM drawPiece? u

/-- `cube_n/visualization/unfolded/mod.rs:260-269` (`From<Cube3>`); `none` is a panic -/
def ofCube3? (c : Cube3) : Option (Unfolded 3) :=
  match (default 3).populateWith? c.corners with
  | none => none
  | some u => u.populateWith? c.edges

end Unfolded

/-! ## Printing -/

/-- What `Display` sends to the terminal: a coloured cell (`cube_n/visualization/mod.rs:44-59`, two blanks on a
background), two uncoloured blanks, or a line feed -/
inductive Tok
  | cell (c : Color)
  | gap
  | newline
  deriving DecidableEq, Repr

namespace Square

/-- the inner loop over a row -/
def rowToks {N : Nat} (s : Square N) (i : Fin N) : List Tok := (List.finRange N).map fun j => .cell (s i j)

/-- `cube_n/visualization/unfolded/mod.rs:109-128` -/
def write {N : Nat} (s : Square N) (padding : Nat) : List Tok :=
  (List.finRange N).flatMap fun i => List.replicate padding .gap ++ s.rowToks i ++ [.newline]

end Square

namespace Unfolded

/-- `cube_n/visualization/unfolded/mod.rs:196-243` -/
def write {N : Nat} (u : Unfolded N) : List Tok :=
  (u.square .U).write (N + 1) ++ [.newline] ++
  ((List.finRange N).flatMap fun i =>
    (u.square .L).rowToks i ++ [.gap] ++ (u.square .F).rowToks i ++ [.gap] ++ (u.square .R).rowToks i ++ [.newline]) ++
  [.newline] ++ (u.square .D).write (N + 1) ++ [.newline] ++ (u.square .B).write (N + 1) ++ [.newline]

end Unfolded

/-- `cube_n/visualization/mod.rs:160-165` (`Display for Cube3`), `unfolded/mod.rs:271-275` -/
def Cube3.display? (c : Cube3) : Option (List Tok) := (Unfolded.ofCube3? c).map Unfolded.write

/-- `cube_n/visualization/mod.rs:145-158` (`Default for Colorscheme`): components in thousandths, in the order
R, U, F, L, D, B -/
def DEFAULT_SCHEME : List (Nat × Nat × Nat) :=
  [(529, 207, 207), (1000, 1000, 1000), (207, 588, 227), (768, 443, 94), (858, 686, 254), (207, 243, 439)]

/-- `cube_n/visualization/mod.rs:139-142` (`Colorscheme::get`) with `49-54`: the `u8` components that are printed.
`(x * 255.0) as u8` truncates; none of the products is close enough to an integer for `f32` rounding to matter
(apart from the exact 0 and 255). -/
def Color.rgb (c : Color) : Nat × Nat × Nat :=
  let t := DEFAULT_SCHEME[c.face.index]'(by have := c.face.index_lt; simpa [DEFAULT_SCHEME] using this)
  (t.1 * 255 / 1000, t.2.1 * 255 / 1000, t.2.2 * 255 / 1000)

end Barbarosa
