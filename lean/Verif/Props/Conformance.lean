import Verif.Model.Parser
import Verif.Model.Mus
import Verif.Model.NonRedundant
import Verif.Model.Orientable
import Verif.Model.AnySize

/-!
# The repository's own tests, run on the model

Every unit test and documentation test of the crate whose inputs are fixed, transcribed to the model. These are *not* proofs
of properties: they check the model itself. The authors of the crate assert these facts about their code, so a model that
contradicts one of them would be a wrong model. Nothing else depends on this module. Paths are relative to
`barbarosa/src/cube_n` (`mus` and `cfop` are in `cube3`), except `generic/...`.

Tests with random inputs are instances of theorems instead and are not repeated here:
`cube3/test.rs:54-57` of C13, `cube4/test.rs:125-136` and `moves/test.rs:166-176` of C02, `moves/test.rs:178-190` of C40,
`pieces/test.rs:12-37` of C30, `mus/deindex/test.rs:58-71` of C22, `mus/cache/test.rs:11-23` of C25, `cfop/test.rs:14-34` of
C91, `generic/search/test.rs:25-50` of C29.
-/

namespace Barbarosa.Conformance

open Barbarosa Amount

/-- The Unicode class of numbers restricted to ASCII, enough for the texts of the tests -/
def num (c : Char) : Bool := '0' ≤ c && c ≤ '9'

/-- `T::parse(s).unwrap()`, used throughout the tests; `none` if it fails -/
def read (T : Type) [Parsable T] (s : String) : Option T :=
  match parse num s.toList with
  | .ok a => some a
  | _ => none

/-- `T::parse(s).is_err()`, used throughout the tests -/
def isErr (T : Type) [Parsable T] (s : String) : Bool :=
  match (parse num s.toList : Outcome T) with
  | .err _ => true
  | _ => false

/-- Apply something `n` times, the `for _ in 0..n` loops of the tests -/
def times {C M : Type} [Movable C M] (n : Nat) (alg : List M) (c : C) : C := (fun c => movedAlg c alg)^[n] c

/-- `alg.widen::<N>(depth).unwrap()` of the tests (cut off where it fails; the examples below see to it that it does not) -/
def wide (N depth : Nat) (alg : List AxisMove) : List (WideAxisMove N) := alg.filterMap fun m => m.widen N depth

example : ∀ N ∈ [1, 2], ∀ d ≤ N, ∀ alg ∈ [Perms.SEXY_MOVE, Perms.T, Perms.J, Perms.U],
    algWiden alg N d = some (wide N d alg) := by decide +kernel

/-! ## `cube2/test.rs` -/

/-- `cube2/test.rs:10-14`, `16-21`, `23-32` -/
example : Cube.isSolved (times 1 Perms.U (Cube.SOLVED : Cube2)) = true ∧
    Cube.isSolved (times 2 Perms.T (Cube.SOLVED : Cube2)) = true ∧
    Cube.isSolved (times 6 Perms.SEXY_MOVE (Cube.SOLVED : Cube2)) = true := by decide +kernel

/-! ## `cube3/test.rs` -/

/-- The coordinates of all pieces of the solved cube, `cube3/test.rs:18-32` -/
def coordinatesOfAll : List (Int × Int × Int) :=
  Cube3.SOLVED.edges.toList.map (fun p => Edge.coordinatesPos p.position) ++
    Cube3.SOLVED.corners.toList.map fun p => Corner.coordinatesPos p.position

/-- `cube3/test.rs:15-52` -/
example : coordinatesOfAll.dedup.length = 20 ∧
    ∀ x ∈ ([-1, 0, 1] : List Int), ∀ y ∈ ([-1, 0, 1] : List Int), ∀ z ∈ ([-1, 0, 1] : List Int),
      ([x, y, z].filter (· == 0)).length < 2 → (x, y, z) ∈ coordinatesOfAll := by decide +kernel

/-- `cube3/test.rs:59-79` -/
example : ∃ i, Cube3.SOLVED.edges i = ⟨.Y, ⟨.pos, .pos⟩, true⟩ ∧
    ((moved Cube3.SOLVED (⟨Face.F, single⟩ : AxisMove)).edges i).position = (.X, ⟨.neg, .pos⟩) := by decide +kernel

/-! ## `cube4/test.rs` -/

/-- `cube4/test.rs:23-36` (`expect_wing`) -/
def expectWing (c : Cube4) (target expected : Face × Face × Direction) : Bool :=
  match Wing.tryFromFaces target.1 target.2.1 target.2.2, Wing.tryFromFaces expected.1 expected.2.1 expected.2.2 with
  | some t, some e => c.wings.originalPositionOfPieceAt? t == some e
  | _, _ => false

open Face in
/-- `cube4/test.rs:38-41`, `43-50`, `52-61` -/
example : Cube.isSolved (Cube.SOLVED : Cube4) = true ∧
    Cube.isSolved (moved (Cube.SOLVED : Cube4) (⟨1, ⟨R, single⟩⟩ : WideAxisMove 1)) = false ∧
    Cube.isSolved (times 6 Perms.SEXY_MOVE (Cube.SOLVED : Cube4)) = true := by decide +kernel

open Face in
/-- `cube4/test.rs:63-73`, `75-89`, `91-101` -/
example : (∀ f ∈ [U, F, R], Cube.isSolved (times 4 [(⟨1, ⟨f, single⟩⟩ : WideAxisMove 1)] (Cube.SOLVED : Cube4)) = true) ∧
    expectWing (moved (Cube.SOLVED : Cube4) (⟨1, ⟨F, single⟩⟩ : WideAxisMove 1)) (R, F, .pos) (U, F, .neg) = true := by
  decide +kernel

/-- `cube4/test.rs:103-122` -/
example : ∀ m ∈ AxisMove.all, ∃ w, m.widen 1 1 = some w ∧
    Cube.isSolved (times 4 [w] (Cube.SOLVED : Cube4)) = true ∧
    Cube.isSolved (times 4 [m] (times 4 [w] (Cube.SOLVED : Cube4))) = true := by
  intro m hm
  refine ⟨⟨1, m⟩, rfl, ?_⟩
  revert m hm
  decide +kernel

/-- `cube4/test.rs:138-163` -/
example : times 6 (wide 1 1 Perms.SEXY_MOVE) (Cube.SOLVED : Cube4) = Cube.SOLVED ∧
    Cube.isSolved (times 6 (wide 1 1 Perms.SEXY_MOVE) (Cube.SOLVED : Cube4)) = true := by decide +kernel

open Face in
/-- `cube4/test.rs:165-192` -/
example : expectWing (movedAlg (Cube.SOLVED : Cube4) ((wide 1 1 Perms.T).take 13)) (R, F, .neg) (R, U, .neg) = true ∧
    expectWing (movedAlg (Cube.SOLVED : Cube4) ((wide 1 1 Perms.T).take 14)) (U, F, .pos) (R, U, .neg) = true ∧
    (times 2 (wide 1 1 Perms.T) (Cube.SOLVED : Cube4)).wings = PieceSet.SOLVED Wing ∧
    Cube.isSolved (times 2 (wide 1 1 Perms.T) (Cube.SOLVED : Cube4)) = true := by decide +kernel

/-- `cube4/test.rs:194-222` -/
example : times 2 (wide 1 1 Perms.J) (Cube.SOLVED : Cube4) = Cube.SOLVED ∧
    Cube.isSolved (times 2 (wide 1 1 Perms.J) (Cube.SOLVED : Cube4)) = true := by decide +kernel

/-- `cube4/test.rs:224-239`, `241-250` -/
example : Cube.isSolved (times 5 (wide 1 1 Perms.U) (Cube.SOLVED : Cube4)) = true ∧
    Cube.isSolved (times 2 Perms.T (Cube.SOLVED : Cube4)) = true := by decide +kernel

/-- `cube4/test.rs:252-261` and `cube7/test.rs:43-54`: the moves exist and are accepted; that applying them does not panic
is built into `moved` (the functions that can panic are the ones with a question mark) -/
example : (WideAxisMove.new 0 Face.R single 0).isSome ∧ (WideAxisMove.new 1 Face.R single 0).isSome ∧
    (WideAxisMove.new 2 Face.R single 0).isSome ∧
    (movedWidened? 1 (Cube.SOLVED : Cube4) ⟨Face.R, single⟩).isSome ∧
    (movedWidened? 2 (Cube.SOLVED : Cube7) ⟨Face.R, single⟩).isSome := by decide +kernel

/-! ## `cube5/test.rs` -/

/-- `cube5/test.rs:10-23` -/
example : Cube.isSolved (times 1 (wide 1 1 Perms.T) (Cube.SOLVED : Cube5)) = false ∧
    Cube.isSolved (times 2 (wide 1 1 Perms.T) (Cube.SOLVED : Cube5)) = true := by decide +kernel

/-- `cube5/test.rs:25-46`: only the turns of R are wide -/
def halfWideT : List (WideAxisMove 1) :=
  Perms.T.filterMap fun m => m.widen 1 (if m.face = Face.R then 1 else 0)

example : halfWideT.length = Perms.T.length ∧
    Cube.isSolved (times 1 halfWideT (Cube.SOLVED : Cube5)) = false ∧
    Cube.isSolved (times 2 halfWideT (Cube.SOLVED : Cube5)) = true := by decide +kernel

/-! ## `cube6/test.rs` -/

/-- `cube6/test.rs:16-26` -/
example : Cube.isSolved (times 6 (wide 2 0 Perms.SEXY_MOVE) (Cube.SOLVED : Cube6)) = true := by decide +kernel

/-- `cube6/test.rs:28-42`: one cube is used for all depths -/
example : ∀ x ∈ [(0, (Cube.SOLVED : Cube6)), (1, times 2 (wide 2 0 Perms.T) Cube.SOLVED),
      (2, times 2 (wide 2 1 Perms.T) (times 2 (wide 2 0 Perms.T) Cube.SOLVED))],
    Cube.isSolved (times 1 (wide 2 x.1 Perms.T) x.2) = false ∧
    Cube.isSolved (times 2 (wide 2 x.1 Perms.T) x.2) = true := by decide +kernel

/-- `cube6/test.rs:44-58` -/
example : ∀ m ∈ AxisMove.all, ∀ d ≤ 2, m.widen 2 d = some ⟨d, m⟩ ∧
    Cube.isSolved (times 4 [(⟨d, m⟩ : WideAxisMove 2)] (Cube.SOLVED : Cube6)) = true := by decide +kernel

/-- `cube6/test.rs:60-71` -/
example : (CenterWing.SOLVED 0).normalAxis = .Z ∧ (CenterWing.SOLVED 0).normalDirection = .neg ∧
    (CenterWing.SOLVED 1).normalAxis = .X ∧ (CenterWing.SOLVED 1).normalDirection = .pos := by decide +kernel

/-! ## `cube7/test.rs` -/

/-- `cube7/test.rs:17-27` -/
example : Cube.isSolved (times 6 (wide 2 0 Perms.SEXY_MOVE) (Cube.SOLVED : Cube7)) = true := by decide +kernel

/-- `cube7/test.rs:29-41` -/
example : ∀ x ∈ [(0, (Cube.SOLVED : Cube7)), (1, times 2 (wide 2 0 Perms.T) Cube.SOLVED),
      (2, times 2 (wide 2 1 Perms.T) (times 2 (wide 2 0 Perms.T) Cube.SOLVED))],
    Cube.isSolved (times 1 (wide 2 x.1 Perms.T) x.2) = false ∧
    Cube.isSolved (times 2 (wide 2 x.1 Perms.T) x.2) = true := by decide +kernel

/-! ## `moves/test.rs` -/

/-- `moves/test.rs:36-60` -/
example : (∀ x ∈ [(single, Face.B), (double, Face.D), (inverse, Face.F)], Face.U.rotated ⟨.X, x.1⟩ = x.2) ∧
    (∀ x ∈ [(single, Face.F), (double, Face.U), (inverse, Face.B)], Face.D.rotated ⟨.X, x.1⟩ = x.2) := by decide +kernel

open Face in
/-- `moves/test.rs:62-101` -/
example :
    (∀ x ∈ [(single, (Edge.ofFaces D F).map Edge.flip), (inverse, (Edge.ofFaces U F).map Edge.flip), (double, Edge.ofFaces L F)],
      (Edge.ofFaces R F).bind (·.rotate? ⟨.Z, x.1⟩) = x.2 ∧ x.2.isSome) ∧
    (∀ x ∈ [(single, Edge.ofFaces U R), (inverse, Edge.ofFaces U L), (double, Edge.ofFaces U F)],
      (Edge.ofFaces U B).bind (·.rotate? ⟨.Y, x.1⟩) = x.2 ∧ x.2.isSome) := by decide +kernel

open Face in
/-- `moves/test.rs:103-117` -/
example : read AxisMove "R2" = some ⟨R, double⟩ ∧ read AxisMove "L'" = some ⟨L, inverse⟩ ∧
    read AxisMove "D" = some ⟨D, single⟩ := by decide +kernel

/-- `moves/test.rs:119-135` -/
example : (∀ s ∈ ["P", "µ", "R2'"], isErr AxisMove s = true) ∧
    (∀ s ∈ ["R2 P", "R2 µ", "R2 R2'"], isErr (List AxisMove) s = true) := by decide +kernel

/-- `moves/test.rs:137-142` -/
example : (WideAxisMove.new 3 Face.R double 2).bind (·.display?) = some "3Rw2".toList := by decide +kernel

/-- `moves/test.rs:144-153`, `155-164` -/
example : times 6 Perms.SEXY_MOVE Cube3.SOLVED = Cube3.SOLVED ∧
    Cube.isSolved (times 2 Perms.T Cube3.SOLVED) = true := by decide +kernel

/-- the texts of `moves/test.rs:196-199` and `212-215` -/
def textsOfX : List (List Char) :=
  ["R", "R'", "R2", "L", "L'", "L2", "R L", "R L'", "R L2", "R' L", "R' L'", "R' L2", "R2 L", "R2 L'", "R2 L2"].map
    String.toList

/-- `moves/test.rs:192-206`, `208-222`, and the documentation test `moves/non_redundant.rs:109-117` -/
example : (NonRedundantAxisMove.ofAxis .X).length = 15 ∧ (∀ m ∈ NonRedundantAxisMove.ofAxis .X, m.display ∈ textsOfX) ∧
    (NonRedundantAxisMove.givenLastAxis .X).length = 30 ∧
    (∀ m ∈ NonRedundantAxisMove.givenLastAxis .X, m.display ∉ textsOfX) := by decide +kernel

/-- the documentation test `generic/moves.rs:57-66` -/
example : ∃ m, read AxisMove "B'" = some m ∧ connect AxisMove Cube3.SOLVED (moved Cube3.SOLVED m) = some m :=
  ⟨⟨Face.B, inverse⟩, by decide +kernel⟩

/-- `absorve(&mut non_redundant, &parse(s))` of `moves/non_redundant.rs:138-171`: what becomes of the held move -/
def absorbText (held : Option NonRedundantAxisMove) (s : String) : Option (Option NonRedundantAxisMove) :=
  (read AxisMove s).map fun m => (absorve held m).1

/-- the documentation test `moves/non_redundant.rs:138-171` -/
example : ∃ a b c d e f : Option NonRedundantAxisMove,
    absorbText none "R2" = some a ∧ a.map (·.display) = some "R2".toList ∧
    absorbText a "R" = some b ∧ b.map (·.display) = some "R'".toList ∧
    absorbText b "L" = some c ∧ c.map (·.display) = some "R' L".toList ∧
    absorbText c "R'" = some d ∧ d.map (·.display) = some "R2 L".toList ∧
    (read AxisMove "F").map (fun m => (absorve d m).2) = some .notAdded ∧
    absorbText d "L'" = some e ∧ absorbText e "R2" = some f ∧ f = none ∧
    (read AxisMove "F").map (fun m => (absorve f m).2) ≠ some .notAdded :=
  ⟨some (.single ⟨Face.R, double⟩), some (.single ⟨Face.R, inverse⟩), some (.double .X inverse single),
    some (.double .X double single), some (.single ⟨Face.R, double⟩), none, by decide +kernel⟩

/-- the documentation test `moves/non_redundant.rs:292-302` -/
example : (read (List AxisMove) "L' F R' L2 R L2 F' L B F B D").map (fun alg => algDisplay AxisMove.display (normalized alg)) =
    some "B2 F D".toList := by decide +kernel

/-! ## `orientable/test.rs` and `orientable/orientation.rs` -/

open Face in
/-- `orientable/test.rs:15-21`, `23-36` -/
example : Orientation.default.rFace = R ∧ Orientation.default.uFace = U ∧
    (Orientation.default.rotate? ⟨.X, double⟩).map (fun o => (o.rFace, o.uFace)) = some (R, D) ∧
    ((Orientation.default.rotate? ⟨.X, double⟩).bind (·.rotate? ⟨.Y, inverse⟩)).map (fun o => (o.rFace, o.uFace)) =
      some (B, D) := by decide +kernel

/-- apply an alg to an orientable cube, `orientable/mod.rs:57-65` with `generic/alg.rs:146-158` -/
def orientedAlg? (c : Orientable Cube3) (alg : List AxisMove) : Option (Orientable Cube3) := alg.foldlM (·.moved? ·) c

/-- `orientable/test.rs:38-50` -/
example : ((Orientation.default.rotate? ⟨.X, double⟩).bind fun o =>
      orientedAlg? ⟨Cube3.SOLVED, o⟩ [⟨Face.U, single⟩]).map (·.baseCube) =
    some (moved Cube3.SOLVED (⟨Face.D, single⟩ : AxisMove)) := by decide +kernel

/-- `orientable/test.rs:52-66` -/
example : (((Orientation.default.rotate? ⟨.X, double⟩).bind (·.rotate? ⟨.Y, inverse⟩)).bind fun o =>
      orientedAlg? ⟨Cube3.SOLVED, o⟩ Perms.SEXY_MOVE).map (·.baseCube) =
    (read (List AxisMove) "B D B' D'").map (movedAlg Cube3.SOLVED) := by decide +kernel

/-- `orientable/orientation.rs:143-156` -/
example : ∀ a ∈ Face.all, ∀ b ∈ Face.all,
    if a = b then connectingRotation a b = none else (connectingRotation a b).map a.rotated = some b := by decide +kernel

/-! ## `parser/test.rs` -/

/-- `parser/test.rs:12-22` -/
example : read Amount "" = some single ∧ read Amount "2" = some double ∧ read Amount "'" = some inverse ∧
    ∀ s ∈ ["3", " ", "2 ", " 2"], isErr Amount s = true := by decide +kernel

open Face in
/-- `parser/test.rs:24-38` -/
example : (∀ x ∈ [("U", U), ("D", D), ("L", L), ("R", R), ("F", F), ("B", B)], read Face x.1 = some x.2) ∧
    ∀ s ∈ ["A", "u", " ", "U caca", " U"], isErr Face s = true := by decide +kernel

open Face in
/-- `parser/test.rs:40-53` -/
example : (∀ x ∈ [("R", R, single), ("R2", R, double), ("R'", R, inverse), ("B'", B, inverse)],
      read AxisMove x.1 = some ⟨x.2.1, x.2.2⟩) ∧
    ∀ s ∈ ["R3", "R2'"], isErr AxisMove s = true := by decide +kernel

open Face in
/-- `parser/test.rs:55-77` -/
example : (∀ x ∈ [("R", single, 0), ("Rw", single, 1), ("Rw2", double, 1), ("Rw'", inverse, 1), ("r'", inverse, 1),
        ("2r'", inverse, 2), ("2Rw'", inverse, 2)],
      read (WideAxisMove 2) x.1 = WideAxisMove.new 2 R x.2.1 x.2.2 ∧ (read (WideAxisMove 2) x.1).isSome) ∧
    ∀ s ∈ ["Rw3", "rw", "3Rw"], isErr (WideAxisMove 2) s = true := by decide +kernel

/-- `parse_slice_move` on a text, `parser/test.rs:82-92` -/
def readSlice (s : String) : Option (AxisRotation × Bool) :=
  match parseWith num .sliceMove parseSliceMove s.toList with
  | .ok a => some a
  | _ => none

/-- `parser/test.rs:79-117` -/
example : (∀ s ∈ ["R", "R2"], read ExtendedAxisMove s = (read AxisMove s).map .ofAxisMove ∧ (read AxisMove s).isSome) ∧
    (read ExtendedAxisMove "Rw" = (read (WideAxisMove 2) "Rw").bind ExtendedAxisMove.ofWide? ∧ (read ExtendedAxisMove "Rw").isSome) ∧
    (∀ s ∈ ["x", "x2", "z'", "y"],
      read ExtendedAxisMove s = (read AxisRotation s).map .ofRotation ∧ (read AxisRotation s).isSome) ∧
    (∀ s ∈ ["E", "E2", "e'", "S", "M'"],
      read ExtendedAxisMove s = (readSlice s).map .ofSlice ∧ (readSlice s).isSome) := by decide +kernel

/-! ## `space/test.rs` -/

open Face in
/-- `space/test.rs:5-11`, `13-18` -/
example : F.nextAround .X = U ∧ U.nextAround .X = B ∧ B.nextAround .X = D ∧ D.nextAround .X = F ∧
    R.cross U = some F ∧ U.cross R = some B ∧ F.cross U = some L := by decide +kernel

/-! ## `pieces/wing/test.rs` -/

/-- `pieces/wing/test.rs:16-26` -/
def wingAt (a b : Face) (oriented : Bool) : Option Wing :=
  (Edge.positionFromFaces a b).map fun p => ⟨⟨p.1, p.2, oriented⟩⟩

/-- what the tests look at: normal axis, normal direction, slice position -/
def wingFacts (w : Option Wing) : Option (Axis × Direction × Vec2) :=
  w.map fun w => (w.normalAxis, w.normalDirection, w.correspondingEdge.slicePosition)

/-- the wing after `n` quarter turns about the axis -/
def turned (a : Axis) (n : Nat) (w : Option Wing) : Option Wing := w.map fun w => (fun w => rotated w ⟨a, single⟩)^[n] w

open Face in
/-- `pieces/wing/test.rs:28-37` -/
example : (wingAt U R true).map (·.normalDirection) = some .neg ∧ (wingAt F R true).map (·.normalDirection) = some .pos ∧
    (wingAt F U true).map (·.normalDirection) = some .pos := by decide +kernel

open Face in
/-- `pieces/wing/test.rs:39-70` -/
example : wingFacts (Wing.tryFromFaces R F .pos) = some (.Y, .pos, ⟨.pos, .pos⟩) ∧
    wingFacts (turned .Y 1 (Wing.tryFromFaces R U .pos)) = some (.X, .neg, ⟨.pos, .pos⟩) ∧
    wingFacts (turned .Y 1 (Wing.tryFromFaces R F .pos)) = some (.Y, .pos, ⟨.pos, .neg⟩) ∧
    wingFacts (turned .Y 2 (Wing.tryFromFaces R U .pos)) = some (.Z, .neg, ⟨.neg, .pos⟩) ∧
    wingFacts (turned .Y 3 (Wing.tryFromFaces R U .pos)) = some (.X, .pos, ⟨.pos, .neg⟩) := by decide +kernel

open Face in
/-- `pieces/wing/test.rs:72-102` -/
example : (wingFacts (wingAt U F true)).map (·.2.2) = some ⟨.pos, .pos⟩ ∧
    (wingFacts (turned .X 1 (wingAt U R true))).map (fun x => (x.1, x.2.1)) = some (.Y, .neg) ∧
    (wingFacts (turned .X 1 (wingAt U F true))).map (·.2.2) = some ⟨.pos, .neg⟩ ∧
    (wingFacts (turned .X 2 (wingAt U R true))).map (fun x => (x.1, x.2.1)) = some (.Z, .pos) ∧
    (wingFacts (turned .X 2 (wingAt U F true))).map (·.2.2) = some ⟨.neg, .neg⟩ ∧
    (wingFacts (turned .X 3 (wingAt U R true))).map (fun x => (x.1, x.2.1)) = some (.Y, .pos) ∧
    (wingFacts (turned .X 3 (wingAt U F true))).map (·.2.2) = some ⟨.neg, .pos⟩ := by decide +kernel

open Face in
/-- `pieces/wing/test.rs:104-131` -/
example : (wingFacts (Wing.tryFromFaces U R .pos)).map (·.2.2) = some ⟨.pos, .pos⟩ ∧
    wingFacts (turned .Z 1 (Wing.tryFromFaces U R .pos)) = some (.Z, .pos, ⟨.pos, .neg⟩) ∧
    wingFacts (turned .Z 2 (Wing.tryFromFaces U R .pos)) = some (.Z, .pos, ⟨.neg, .neg⟩) ∧
    wingFacts (turned .Z 3 (Wing.tryFromFaces U R .pos)) = some (.Z, .pos, ⟨.neg, .pos⟩) ∧
    turned .Z 4 (Wing.tryFromFaces U R .pos) = wingAt U R false ∧ (wingAt U R false).isSome := by decide +kernel

/-! ## `visualization/test.rs` and `visualization/unfolded/test.rs` -/

/-- `visualization/test.rs:11-25`: drawing does not panic -/
example : (Cube3.display? Cube3.SOLVED).isSome ∧ (Cube3.display? (moved Cube3.SOLVED (⟨Face.F, single⟩ : AxisMove))).isSome := by
  decide +kernel

/-- a red square with some squares painted; `Color::RED` and the others are the colours of the faces -/
def painted (N : Nat) (l : List (Nat × Face)) : Square N := fun i j =>
  match l.find? fun x => x.1 == i.val && x.1 == j.val with
  | some x => ⟨x.2⟩
  | none => ⟨Face.R⟩

open Face in
/-- `visualization/unfolded/test.rs:7-21` -/
example : (painted 3 [(0, L)]).atQ? (-1, -1, -1) U = some ⟨L⟩ ∧ (painted 3 [(0, L)]).atQ? (-3 / 2, -1, -1) U = none ∧
    ((painted 3 [(0, L)]).atQ? (-3 / 2 + 1 / 10000, -1, -1) U).isSome := by decide +kernel

open Face in
/-- `visualization/unfolded/test.rs:23-56` -/
example : ∃ s, s = painted 4 [(0, L), (2, B), (3, F)] ∧ s.atQ? (-1, -1, -1) U = some ⟨L⟩ ∧
    s.atQ? (33 / 100, 1, 33 / 100) U = some ⟨B⟩ ∧ s.atQ? (1 / 2, 1, 1 / 2) U = some ⟨B⟩ ∧ s.atQ? (1, 1, 1) U = some ⟨F⟩ ∧
    s.atQ? (-1375 / 1000, -1, -1) U = none ∧ (s.atQ? (-1374 / 1000, -1, -1) U).isSome := ⟨_, rfl, by decide +kernel⟩

/-! ## `mus/index/test.rs` and `mus/deindex/test.rs` -/

/-- `mus/index/test.rs:29-47` -/
example : dispositionMultipliers? 8 8 = some ((List.range 8).reverse.map mus.factorial) ∧
    dispositionMultipliers? 6 12 = some (([6, 7, 8, 9, 10, 11].reverse).map fun i => mus.factorial i / mus.factorial 6) := by
  decide +kernel

/-- `mus/index/test.rs:49-66`, `68-76` -/
example : ([[0, 1, 2, 3, 4, 5], [0, 1, 2, 3, 5, 4], [0, 1, 2, 4, 3, 5], [0, 1, 2, 4, 5, 3], [0, 1, 2, 5, 3, 4],
      [0, 1, 2, 5, 4, 3]].map (positionDispositionIndex? 6)) = (List.range 6).map some ∧
    positionDispositionIndex? 6 [5, 4, 3, 2, 1, 0] = some (mus.factorial 6 - 1) := by decide +kernel

/-- `mus/index/test.rs:78-95` -/
example : ([[0, 0, 0, 0, 0, 0, 0], [0, 0, 0, 0, 0, 0, 1], [0, 0, 0, 0, 0, 0, 2], [0, 0, 0, 0, 0, 1, 0], [0, 0, 0, 0, 0, 1, 1],
      [0, 0, 0, 0, 0, 1, 2], [0, 0, 0, 0, 0, 2, 0], [0, 0, 0, 0, 0, 2, 1], [0, 0, 0, 0, 0, 2, 2]].map
      (orientationPermutationIndex? 3)) = (List.range 9).map some := by decide +kernel

/-- `Indexable::index` of one piece, `mus/index/mod.rs:57-65` with `mus/index/implementations.rs:14-52` -/
def pieceIndex? {P : Type} {n : Nat} [PieceSetDescriptor P n] (o : Nat) (orientation : P → Nat) (p : P) : Option Nat :=
  combineIndex? o ((PieceSet.refIndex? P (n := n) (Piece.position p)).map (·.val)) (some (orientation p))

/-- `mus/index/test.rs:97-105`, `107-114` -/
example : pieceIndex? 3 Corner.orientationIndex (Cube3.SOLVED.corners 0) = some 0 ∧
    pieceIndex? 3 Corner.orientationIndex (Cube3.SOLVED.corners 7).twist.twist = some (8 * 3 - 1) ∧
    pieceIndex? 2 Edge.orientationIndex (Cube3.SOLVED.edges 0) = some 0 ∧
    pieceIndex? 2 Edge.orientationIndex (Cube3.SOLVED.edges 11).flip = some (12 * 2 - 1) := by decide +kernel

/-- `mus/index/test.rs:116-122` -/
example : adjustSecondEdges (secondEdges Cube3.SOLVED) = firstEdges Cube3.SOLVED := by decide +kernel

/-- `mus/index/test.rs:124-140` -/
example : Deindexable.index? (T := CornersMUS) Cube3.SOLVED.corners = some 0 ∧
    Deindexable.index? (T := CornersMUS) (fun i => (Cube3.SOLVED.corners (Fin.rev i)).twist.twist) =
      some (Deindexable.TOTAL_SET_SIZE CornersMUS - 1) := by decide +kernel

/-- the last edges of `mus/index/test.rs:145-151` -/
def lastEdges : HalfEdgesMUS := fun i => (secondEdges Cube3.SOLVED (Fin.rev i)).flip

/-- `mus/index/test.rs:142-164` -/
example : Deindexable.index? (firstEdges Cube3.SOLVED) = some 0 ∧
    HalfEdgesMUS.positionIndex? lastEdges = some (Deindexable.POSITION_SET_SIZE HalfEdgesMUS - 1) ∧
    HalfEdgesMUS.orientationIndex? lastEdges = some (Deindexable.ORIENTATION_SET_SIZE HalfEdgesMUS - 1) ∧
    Deindexable.index? lastEdges = some (Deindexable.TOTAL_SET_SIZE HalfEdgesMUS - 1) := by decide +kernel

/-- `mus/deindex/test.rs:13-20`, `22-29` -/
example : (orientationPermutationIndex? 3 [2, 2, 0, 2, 2, 2]).map (deindexOrientations 3 6) = some [2, 2, 0, 2, 2, 2] ∧
    (positionDispositionIndex? 12 [4, 3, 5, 11, 10, 9]).bind (deindexPositions? 6 12) = some [4, 3, 5, 11, 10, 9] := by
  decide +kernel

/-- `mus/deindex/test.rs:31-38`, `40-47`, `49-56` -/
example : ∀ c ∈ [Cube3.SOLVED, moved Cube3.SOLVED (⟨Face.R, single⟩ : AxisMove), moved Cube3.SOLVED (⟨Face.U, single⟩ : AxisMove)],
    c.indices?.bind Cube3.fromIndices? = some c := by decide +kernel

end Barbarosa.Conformance
