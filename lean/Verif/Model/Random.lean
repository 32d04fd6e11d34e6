import Verif.Model.Cubes

/-!
# Random cubes

Transcription of `cube_n/invariants.rs` and of the two implementations of `Distribution` (`cube_n/cube3/mod.rs:67-90`,
`cube_n/cube2/mod.rs:38-48`). The random generator is a parameter: the outcome of a shuffle is an arbitrary permutation,
the outcome of a draw an arbitrary value.
-/

namespace Barbarosa

/-- `cube_n/cube3/mus/index/implementations.rs:14-20` and `33-39` (`position_index` of a corner and of an edge; the two are
the same expression); `none` is the panic of `expect` -/
def positionIndex? {P : Type} {n : Nat} [PieceSetDescriptor P n] (p : P) : Option (Fin n) :=
  PieceSet.refIndex? P (n := n) (Piece.position p)

/-- `cube_n/invariants.rs:54-74`, the `loop`. `visited` is the array of flags. `none` is a panic of `position_index` or too
little fuel (`swapCycles?_eq` in `Lemmas/Invariants.lean` shows that neither happens with the fuel given below). -/
def swapCyclesLoop {P : Type} {n : Nat} [PieceSetDescriptor P n] (values : PieceSet P n) :
    Nat → (visited : Fin n → Bool) → (current : Fin n) → (cycles : Int) → Option Int
  | 0, _, _, _ => none
  | fuel + 1, visited, current, cycles =>
    if visited current then
      match (List.finRange n).find? fun i => !visited i with
      | none => some cycles
      | some firstUnvisited =>
        match positionIndex? (values firstUnvisited) with
        | none => none
        | some next => swapCyclesLoop values fuel (Function.update visited firstUnvisited true) next (cycles + 1)
    else
      match positionIndex? (values current) with
      | none => none
      | some next => swapCyclesLoop values fuel (Function.update visited current true) next cycles

/-- `cube_n/invariants.rs:54-74` -/
def swapCycles? {P : Type} {n : Nat} [PieceSetDescriptor P (n + 1)] (values : PieceSet P (n + 1)) : Option Int :=
  swapCyclesLoop values (n + 2) (fun _ => false) 0 0

/-- `cube_n/invariants.rs:43-51`; `none` is a panic. `%` on `i32` truncates, but the result is only compared with 0. -/
def fixSwapParity? (c : Cube3) : Option Cube3 :=
  match swapCycles? c.edges, swapCycles? c.corners with
  | some e, some k =>
    if decide (e.tmod 2 = 0) != decide (k.tmod 2 = 0) then
      match c.edges.swap? (Edge.REFERENCE_POSITIONS 0) (Edge.REFERENCE_POSITIONS 1) with
      | some edges => some { c with edges := edges }
      | none => none
    else some c
  | _, _ => none

/-- `cube_n/invariants.rs:79-88` -/
def fixEdgeFlipParity (edges : PieceSet Edge 12) : PieceSet Edge 12 :=
  if (edges.toList.filter fun e => e.oriented).length % 2 = 1 then Function.update edges 11 (edges 11).flip else edges

/-- the sum in `cube_n/invariants.rs:94-97` -/
def orientationSum (corners : PieceSet Corner 8) : Int := (corners.toList.map fun c => (c.orientationIndex : Int)).sum

/-- `cube_n/invariants.rs:99-107` -/
def fixCornerMultiplicity (corners : PieceSet Corner 8) : PieceSet Corner 8 :=
  (fun s : PieceSet Corner 8 => Function.update s 7 (s 7).twist)^[((-orientationSum corners) % 3).toNat] corners

/-- `cube_n/invariants.rs:93-118`, with the `debug_assert!`: `none` is its panic -/
def fixCornerMultiplicity? (corners : PieceSet Corner 8) : Option (PieceSet Corner 8) :=
  let s := fixCornerMultiplicity corners
  if (orientationSum s).tmod 3 = 0 then some s else none

/-- Everything the random generator decides while a 3x3 is sampled (`cube_n/cube3/mod.rs:72-81`) -/
structure Draw3 where
  edgeShuffle : Equiv.Perm (Fin 12)
  cornerShuffle : Equiv.Perm (Fin 8)
  oriented : Fin 12 → Bool
  orientationAxis : Fin 8 → Axis

/-- `cube_n/cube3/mod.rs:69-81`: the cube before the three fix-up steps -/
def Draw3.raw (d : Draw3) : Cube3 :=
  let edges := Cube3.SOLVED.edges.shuffle d.edgeShuffle
  let corners := Cube3.SOLVED.corners.shuffle d.cornerShuffle
  ⟨fun i => { edges i with oriented := d.oriented i }, fun i => { corners i with orientationAxis := d.orientationAxis i }⟩

/-- `cube_n/cube3/mod.rs:83-86`: the three fix-up steps (the second and the third touch different fields); `none` is a
panic -/
def fixInvariants? (c : Cube3) : Option Cube3 :=
  match fixSwapParity? c with
  | none => none
  | some c =>
    match fixCornerMultiplicity? c.corners with
    | none => none
    | some corners => some ⟨fixEdgeFlipParity c.edges, corners⟩

/-- `cube_n/cube3/mod.rs:67-90`; `none` is a panic -/
def sampleCube3? (d : Draw3) : Option Cube3 := fixInvariants? d.raw

/-- `cube_n/cube2/mod.rs:38-48`; `none` is a panic -/
def sampleCube2? (σ : Equiv.Perm (Fin 8)) : Option Cube2 :=
  match fixCornerMultiplicity? ((PieceSet.SOLVED Corner).shuffle σ) with
  | none => none
  | some corners => some ⟨corners⟩

end Barbarosa
