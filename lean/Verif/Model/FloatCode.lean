import Verif.Model.Float
import Verif.Model.Heuristics
import Verif.Model.AnySize
import Verif.Model.Progress

/-!
# The functions of the crate that compute with floats, with the arithmetic of the machine

`Model/Heuristics.lean`, `Model/Mus.lean`, `Model/Visualization.lean`, `Model/AnySize.lean` and `Model/Progress.lean` contain the same functions with exact
arithmetic. `Props/Float.lean`, `Props/FloatPicture.lean` and `Props/FloatStats.lean` compare the two.
-/

namespace Barbarosa

/-- a `Vector3<f32>`, `generic/piece/traits.rs:6-14` -/
structure Vec32 where
  x : F32
  y : F32
  z : F32
  deriving DecidableEq

/-- `scalar() as f32` of each component, `cube_n/pieces/corner.rs:76`, `cube_n/pieces/edge.rs:138`,
`cube_n/visualization/unfolded/mod.rs:57`; the components left at `Vector3::zeros()` are `0.0` -/
def Vec32.ofInts (p : Int × Int × Int) : Vec32 :=
  ⟨Fl.ofInt binary32 p.1, Fl.ofInt binary32 p.2.1, Fl.ofInt binary32 p.2.2⟩

/-! ## Heuristics -/

/-- `cube_n/cube3/heuristics/mod.rs:12-14` -/
def zero32 {C : Type} (_ : C) : F32 := Fl.lit binary32 0

/-- `cube_n/cube3/heuristics/manhattan.rs:21-23` -/
def vecManhattan32 (zs : Bool) (a b : Vec32) : F32 :=
  Fl.sum zs [(a.x.sub b.x).abs, (a.y.sub b.y).abs, (a.z.sub b.z).abs]

/-- `cube_n/cube3/heuristics/manhattan.rs:26-28` -/
def pieceManhattan32 (zs : Bool) {P : Type} [Piece P] [Coordinates P] (orig : Piece.Position P) (p : P) : F32 :=
  vecManhattan32 zs (.ofInts (Coordinates.coordinatesPos (P := P) (Piece.position p)))
    (.ofInts (Coordinates.coordinatesPos (P := P) orig))

/-- `cube_n/cube3/heuristics/manhattan.rs:30-36` -/
def pieceSetManhattan32 (zs : Bool) {P : Type} {n : Nat} [PieceSetDescriptor P n] [Coordinates P] (s : PieceSet P n) : F32 :=
  Fl.sum zs (s.iterWithPos.map fun x => pieceManhattan32 zs x.1 x.2)

/-- `cube_n/cube3/heuristics/manhattan.rs:39-44` -/
def manhattan32 (zs : Bool) (c : Cube3) : F32 :=
  ((pieceSetManhattan32 zs c.edges).add (pieceSetManhattan32 zs c.corners)).div ((Fl.lit binary32 8).mul (Fl.lit binary32 2))

/-- `cube_n/cube3/heuristics/manhattan.rs:47-55` -/
def manhattanFiltered32 (zs : Bool) {P : Type} {n : Nat} [PieceSetDescriptor P n] [Coordinates P] (s : PieceSet P n)
    (filter : Piece.Position P → P → Bool) : F32 :=
  Fl.sum zs ((s.iterWithPos.filter fun x => filter x.1 x.2).map fun x => pieceManhattan32 zs x.1 x.2)

/-- `cube_n/cube3/cfop/cross.rs:86-93`; the sum is one of `i32` -/
def goodCross32 (c : Cube3) (bottom : Face) : F32 :=
  (Fl.ofInt binary32 (((crossEdgeMoves c bottom).sum : Nat) : ℤ)).div (Fl.lit binary32 2)

/-- `cube_n/cube3/cfop/cross.rs:98-105`; `none` is the panic of `expect` -/
def worseCross32? (c : Cube3) (bottom : Face) : Option F32 :=
  (crossEdgeMoves c bottom).max?.map fun n : Nat => Fl.ofInt binary32 (n : ℤ)

/-- `cube_n/cube3/heuristics/mus.rs:16-18`; the number from the cache is a `u8` -/
def mus32? (cache : Cache) (c : Cube3) : Option F32 := (cache.get? c).map fun n : Nat => Fl.ofInt binary32 (n : ℤ)

/-- `cube_n/cube3/heuristics/mus.rs:4-10` -/
def musWithFallback32? (lock : Option Cache) (fallback : Cube3 → Option F32) (c : Cube3) : Option F32 :=
  match lock with
  | some cache => (cache.get? c).map fun n : Nat => Fl.ofInt binary32 (n : ℤ)
  | none => fallback c

/-! ## Pictures -/

namespace Square

/-- `usize` on a 64 bit machine: `as usize` in `cube_n/visualization/unfolded/mod.rs:101,105` -/
def asUsize (x : F32) : Nat := (x.toInt 0 (2 ^ 64 - 1)).toNat

/-- `cube_n/visualization/unfolded/mod.rs:96-106` -/
def transformCoord32 (N : Nat) (x : F32) : Option (Fin N) :=
  let x := x.add (Fl.lit binary32 1)
  let x := (x.mul (Fl.ofInt binary32 N)).div (Fl.lit binary32 3)
  let x := x.roundAway
  if x.lt (Fl.lit binary32 0) then none
  else if h : asUsize x < N then some ⟨asUsize x, h⟩
  else none

/-- `Vector3::dot` of `nalgebra` (three products, added from the left), used in
`cube_n/visualization/unfolded/mod.rs:66-67` -/
def dot32 (p q : Vec32) : F32 := ((p.x.mul q.x).add (p.y.mul q.y)).add (p.z.mul q.z)

/-- `cube_n/visualization/unfolded/mod.rs:63-73` -/
def indices32 (N : Nat) (point : Vec32) (f : Face) : Option (Fin N × Fin N) :=
  let b := basisFaces f
  match transformCoord32 N (dot32 point (.ofInts (basisVector b.1))) with
  | none => none
  | some x =>
    match transformCoord32 N (dot32 point (.ofInts (basisVector b.2))) with
    | none => none
    | some y => some (x, y)

/-- `cube_n/visualization/unfolded/mod.rs:81-85` -/
def at32? {N : Nat} (s : Square N) (point : Vec32) (f : Face) : Option Color :=
  (indices32 N point f).map fun ij => s ij.1 ij.2

end Square

namespace Unfolded

/-- `cube_n/visualization/unfolded/mod.rs:90-94`, `175-177`, `190`; `none` is the panic of `unwrap` -/
def setAt32? {N : Nat} (u : Unfolded N) (point : Vec32) (f : Face) (col : Color) : Option (Unfolded N) :=
  match Square.indices32 N point f with
  | none => none
  | some ij => some fun k i j => if k = ⟨f.index, f.index_lt⟩ ∧ i = ij.1 ∧ j = ij.2 then col else u k i j

/-- the body of the outer loop in `cube_n/visualization/unfolded/mod.rs:188-192` -/
def drawPiece32? {N : Nat} {P : Type} [Piece P] [Colored P] [Coordinates P] (u : Unfolded N)
    (x : Piece.Position P × P) : Option (Unfolded N) :=
  (Colored.colors x.2 x.1).foldlM
    (fun u fc => u.setAt32? (.ofInts (Coordinates.coordinatesPos (P := P) (Piece.position x.2))) fc.1 fc.2) u

/-- `cube_n/visualization/unfolded/mod.rs:184-193` -/
def populateWith32? {N M : Nat} {P : Type} [PieceSetDescriptor P M] [Colored P] [Coordinates P] (u : Unfolded N)
    (s : PieceSet P M) : Option (Unfolded N) :=
  s.iterWithPos.foldlM drawPiece32? u

/-- `cube_n/visualization/unfolded/mod.rs:260-269` for `N = 3`; the other sizes as in `Unfolded.drawn?` -/
def drawn32? (N : Nat) (c : Cube3) : Option (Unfolded N) :=
  match (default N).populateWith32? c.corners with
  | none => none
  | some u => u.populateWith32? c.edges

end Unfolded

/-- `cube_n/visualization/mod.rs:49-54` with the scheme of `145-158`: `(x * 255.0) as u8` of the three components -/
def Color.rgb32 (c : Color) : ℤ × ℤ × ℤ :=
  let t := DEFAULT_SCHEME[c.face.index]'(by have := c.face.index_lt; simpa [DEFAULT_SCHEME] using this)
  let byte := fun n : Nat => ((Fl.lit binary32 (n / 1000)).mul (Fl.lit binary32 255)).toInt 0 255
  (byte t.1, byte t.2.1, byte t.2.2)

/-! ## Progress statistics, in `f64` -/

/-- `cube_n/cube3/mus/cache/generation.rs:103-105` -/
def percentCached64 (cache : List Nat) (amount : Nat) : F64 :=
  (Fl.ofInt binary64 (amount : ℤ)).div (Fl.ofInt binary64 (cache.length : ℤ))

/-- `cube_n/cube3/mus/cache/generation.rs:107-113` -/
structure Stats64 where
  amountCached : Nat
  percentCached : F64
  timeElapsedMs : Int
  statesPerSecond : F64
  etaSeconds : Int

/-- `cube_n/cube3/mus/cache/generation.rs:116-135`; `none` is a panic of `Duration::seconds` -/
def Stats64.new? (cache : List Nat) (ms : Int) : Option Stats64 :=
  let amount := Barbarosa.amountCached cache
  let percent := percentCached64 cache amount
  let statesPerSecond := ((Fl.ofInt binary64 (amount : ℤ)).div (Fl.ofInt binary64 ms)).mul (Fl.lit binary64 1000)
  let statesLeft := cache.length - amount
  let timeRemaining := (Fl.ofInt binary64 (statesLeft : ℤ)).div statesPerSecond
  (durationSeconds? (timeRemaining.toInt (-2 ^ 63) (2 ^ 63 - 1))).map fun eta => ⟨amount, percent, ms, statesPerSecond, eta⟩

end Barbarosa
