import Verif.Model.Random
import Mathlib.Data.Rat.Defs

/-!
# Numbering of corner and half edge arrangements, and the distance tables

Transcription of `cube_n/cube3/mus/index`, `cube_n/cube3/mus/deindex` and of the parts of `cube_n/cube3/mus/cache` that build
and read the tables. `usize` is 64 bits wide; every multiplication and addition that could exceed it goes through `usize?`, so
`none` stands for an overflow as well as for a panic, an index out of bounds or a failed `expect`.
-/

namespace Barbarosa

/-- A computed value that has to fit into `usize` (overflow check of the language) -/
def usize? (n : Nat) : Option Nat := if n < 2 ^ 64 then some n else none

/-- `cube_n/cube3/mus/index/mod.rs:18-24` -/
def mus.factorial : Nat → Nat
  | 0 => 1
  | 1 => 1
  | n + 2 => if n + 2 ≤ 20 then mus.factorial (n + 1) * (n + 2) else 0

/-! ## index/mod.rs -/

/-- `cube_n/cube3/mus/index/mod.rs:79-83`: the array is filled from its end, so the values already written are the tail -/
def multipliersLoop : (remaining iterationIndex multiplier : Nat) → (written : List Nat) → Option (List Nat)
  | 0, _, _, written => some written
  | k + 1, iterationIndex, multiplier, written =>
    match usize? (multiplier * (iterationIndex + 1)) with
    | none => none
    | some next => multipliersLoop k (iterationIndex + 1) next (multiplier :: written)

/-- `cube_n/cube3/mus/index/mod.rs:70-86`, `S` is `T_POSITION_SET_SIZE`; the subtraction in line 76 panics when `N > S` -/
def dispositionMultipliers? (N S : Nat) : Option (List Nat) :=
  if N ≤ S then multipliersLoop N (S - N) 1 [] else none

/-- `cube_n/cube3/mus/index/mod.rs:95-100`; the elements are given by their `position_index`. `none`: `used[..]` out of bounds
or the subtraction underflows -/
def choicesLoop : (used : List Bool) → (input : List Nat) → Option (List Nat)
  | _, [] => some []
  | used, x :: xs =>
    let usedPreviously := ((used.take x).filter id).length
    if x < used.length ∧ usedPreviously ≤ x then
      match choicesLoop (used.set x true) xs with
      | none => none
      | some rest => some ((x - usedPreviously) :: rest)
    else none

/-- `cube_n/cube3/mus/index/mod.rs:89-103` -/
def dispositionChoices? (S : Nat) (input : List Nat) : Option (List Nat) := choicesLoop (List.replicate S false) input

/-- `cube_n/cube3/mus/index/mod.rs:121-126` -/
def sumLoop : (output : Nat) → List (Nat × Nat) → Option Nat
  | output, [] => some output
  | output, (choice, multiplier) :: rest =>
    match usize? (choice * multiplier) with
    | none => none
    | some product =>
      match usize? (output + product) with
      | none => none
      | some next => sumLoop next rest

/-- `cube_n/cube3/mus/index/mod.rs:110-127` -/
def positionDispositionIndex? (S : Nat) (input : List Nat) : Option Nat :=
  match dispositionMultipliers? input.length S with
  | none => none
  | some multipliers =>
    match dispositionChoices? S input with
    | none => none
    | some choices => sumLoop 0 (choices.zip multipliers)

/-- `cube_n/cube3/mus/index/mod.rs:139-143`, over the reversed input -/
def orientationLoop (base : Nat) : (output multiplier : Nat) → List Nat → Option Nat
  | output, _, [] => some output
  | output, multiplier, x :: xs =>
    match usize? (x * multiplier) with
    | none => none
    | some product =>
      match usize? (output + product), usize? (multiplier * base) with
      | some next, some nextMultiplier => orientationLoop base next nextMultiplier xs
      | _, _ => none

/-- `cube_n/cube3/mus/index/mod.rs:133-146`; the elements are given by their `orientation_index` -/
def orientationPermutationIndex? (base : Nat) (input : List Nat) : Option Nat := orientationLoop base 0 1 input.reverse

/-- `cube_n/cube3/mus/index/mod.rs:59-61` -/
def combineIndex? (orientationSetSize : Nat) (position orientation : Option Nat) : Option Nat :=
  match position, orientation with
  | some p, some o =>
    match usize? (p * orientationSetSize) with
    | none => none
    | some product => usize? (product + o)
  | _, _ => none

/-! ## deindex/mod.rs -/

/-- `cube_n/cube3/mus/deindex/mod.rs:38-41`: filled from the end -/
def deindexOrientationsLoop (base : Nat) : (remaining index : Nat) → (written : List Nat) → List Nat
  | 0, _, written => written
  | k + 1, index, written => deindexOrientationsLoop base k (index / base) (index % base :: written)

/-- `cube_n/cube3/mus/deindex/mod.rs:34-44` -/
def deindexOrientations (base N index : Nat) : List Nat := deindexOrientationsLoop base N index []

/-- `cube_n/cube3/mus/deindex/mod.rs:54-57`; dividing by zero panics -/
def deindexChoicesLoop : (index : Nat) → (multipliers : List Nat) → Option (List Nat)
  | _, [] => some []
  | index, m :: ms =>
    if m = 0 then none
    else
      match deindexChoicesLoop (index % m) ms with
      | none => none
      | some rest => some (index / m :: rest)

/-- `cube_n/cube3/mus/deindex/mod.rs:47-60` -/
def deindexChoices? (N S index : Nat) : Option (List Nat) :=
  match dispositionMultipliers? N S with
  | none => none
  | some multipliers => deindexChoicesLoop index multipliers

/-- `cube_n/cube3/mus/deindex/mod.rs:69-75`: `enumerate`, `filter` the unused, `nth`; `none` is the panic of `unwrap` -/
def nthUnused? (used : List Bool) (choice : Nat) : Option Nat :=
  ((used.zipIdx.filter fun p => !p.1)[choice]?).map (·.2)

/-- `cube_n/cube3/mus/deindex/mod.rs:68-78` -/
def permutationsLoop : (used : List Bool) → (choices : List Nat) → Option (List Nat)
  | _, [] => some []
  | used, c :: cs =>
    match nthUnused? used c with
    | none => none
    | some x =>
      match permutationsLoop (used.set x true) cs with
      | none => none
      | some rest => some (x :: rest)

/-- `cube_n/cube3/mus/deindex/mod.rs:62-81` -/
def choicesToPermutations? (S : Nat) (choices : List Nat) : Option (List Nat) :=
  permutationsLoop (List.replicate S false) choices

/-- `cube_n/cube3/mus/deindex/mod.rs:83-88` -/
def deindexPositions? (N S index : Nat) : Option (List Nat) :=
  match deindexChoices? N S index with
  | none => none
  | some choices => choicesToPermutations? S choices

/-! ## Corners and half edges -/

/-- `for (x, y) in xs.iter_mut().zip(ys)`: the elements of `xs` beyond the end of `ys` stay as they are -/
def zipApply {α β : Type} (f : α → β → α) : List α → List β → List α
  | [], _ => []
  | a :: as, [] => a :: as
  | a :: as, b :: bs => f a b :: zipApply f as bs

/-- A list of statically known length as an array -/
def arrayOf? {α : Type} (n : Nat) (l : List α) : Option (Fin n → α) :=
  if h : l.length = n then some fun i => l[i.val]'(by rw [h]; exact i.isLt) else none

/-- `cube_n/cube3/mus/mod.rs:32` -/
abbrev CornersMUS := Fin 8 → Corner

/-- `cube_n/cube3/mus/mod.rs:33` -/
abbrev HalfEdgesMUS := Fin 6 → Edge

/-- `generic/moves.rs:35-45` (`impl_movable_array`): every piece of the array is moved -/
instance : Movable CornersMUS AxisMove := ⟨fun s m i => moved (s i) m⟩

/-- `generic/moves.rs:35-45` -/
instance : Movable HalfEdgesMUS AxisMove := ⟨fun s m i => moved (s i) m⟩

/-- `cube_n/cube3/mus/index/implementations.rs:44-53` -/
def Edge.orientationIndex (e : Edge) : Nat :=
  match e.oriented with
  | true => 0
  | false => 1

/-- The `position_index` of every piece of an array (`cube_n/cube3/mus/index/mod.rs:96`) -/
def positionIndices? {P : Type} {n k : Nat} [PieceSetDescriptor P n] (pieces : Fin k → P) : Option (List Nat) :=
  (List.ofFn pieces).mapM fun p => (positionIndex? (n := n) p).map (·.val)

/-- `cube_n/cube3/mus/index/implementations.rs:71-87`: the numbers of the two aspects -/
def CornersMUS.positionIndex? (s : CornersMUS) : Option Nat :=
  match positionIndices? s with
  | none => none
  | some l => positionDispositionIndex? 8 l

/-- `cube_n/cube3/mus/index/implementations.rs:79-84`: only the first seven corners count -/
def CornersMUS.orientationIndex? (s : CornersMUS) : Option Nat :=
  orientationPermutationIndex? 3 (((List.ofFn s).take 7).map Corner.orientationIndex)

/-- `cube_n/cube3/mus/index/implementations.rs:55-58` -/
def HalfEdgesMUS.positionIndex? (s : HalfEdgesMUS) : Option Nat :=
  match positionIndices? s with
  | none => none
  | some l => positionDispositionIndex? 12 l

/-- `cube_n/cube3/mus/index/implementations.rs:63-66` -/
def HalfEdgesMUS.orientationIndex? (s : HalfEdgesMUS) : Option Nat :=
  orientationPermutationIndex? 2 ((List.ofFn s).map Edge.orientationIndex)

/-- `cube_n/cube3/mus/deindex/implementations.rs:13-36` -/
def CornersMUS.fromIndex? (index : Nat) : Option CornersMUS :=
  match deindexPositions? 8 8 (index / 3 ^ 7) with
  | none => none
  | some positions =>
    match positions.mapM fun i => Cube3.SOLVED.corners.atIndex i with
    | none => none
    | some corners =>
      match arrayOf? 8 (zipApply (fun c o => Corner.twist^[o] c) corners (deindexOrientations 3 7 (index % 3 ^ 7))) with
      | none => none
      | some corners =>
        match PieceSet.new corners with
        | .error _ => none
        | .ok set => fixCornerMultiplicity? set

/-- `cube_n/cube3/mus/deindex/implementations.rs:40-56` -/
def HalfEdgesMUS.fromIndex? (index : Nat) : Option HalfEdgesMUS :=
  match deindexPositions? 6 12 (index / 2 ^ 6) with
  | none => none
  | some positions =>
    match positions.mapM fun i => Cube3.SOLVED.edges.atIndex i with
    | none => none
    | some edges =>
      arrayOf? 6 (zipApply (fun e o => if o ≠ 0 then e.flip else e) edges (deindexOrientations 2 6 (index % 2 ^ 6)))

/-- `cube_n/cube3/mus/index/mod.rs:57-65` and `cube_n/cube3/mus/deindex/mod.rs:28-31` (`Indexable`, `Deindexable`) -/
class Deindexable (T : Type) where
  POSITION_SET_SIZE : Nat
  ORIENTATION_SET_SIZE : Nat
  index? : T → Option Nat
  fromIndex? : Nat → Option T

/-- `cube_n/cube3/mus/index/mod.rs:64` -/
def Deindexable.TOTAL_SET_SIZE (T : Type) [Deindexable T] : Nat := POSITION_SET_SIZE T * ORIENTATION_SET_SIZE T

/-- `cube_n/cube3/mus/index/implementations.rs:71-87`, `cube_n/cube3/mus/deindex/implementations.rs:12-37` -/
instance : Deindexable CornersMUS where
  POSITION_SET_SIZE := mus.factorial 8
  ORIENTATION_SET_SIZE := 3 ^ 7
  index? s := combineIndex? (3 ^ 7) (CornersMUS.positionIndex? s) (CornersMUS.orientationIndex? s)
  fromIndex? := CornersMUS.fromIndex?

/-- `cube_n/cube3/mus/index/implementations.rs:55-69`, `cube_n/cube3/mus/deindex/implementations.rs:39-57` -/
instance : Deindexable HalfEdgesMUS where
  POSITION_SET_SIZE := mus.factorial 12 / mus.factorial (12 - 6)
  ORIENTATION_SET_SIZE := 2 ^ 6
  index? s := combineIndex? (2 ^ 6) (HalfEdgesMUS.positionIndex? s) (HalfEdgesMUS.orientationIndex? s)
  fromIndex? := HalfEdgesMUS.fromIndex?

/-! ## Whole cubes -/

/-- `cube_n/cube3/mus/index/mod.rs:176-179` -/
structure CubeIndices where
  corners : Nat
  edges0 : Nat
  edges1 : Nat
  deriving DecidableEq

/-- `cube_n/cube3/mus/index/mod.rs:149-153`: edges 0 to 5 -/
def firstEdges (c : Cube3) : HalfEdgesMUS := fun i => c.edges ⟨i.val, by omega⟩

/-- `cube_n/cube3/mus/index/mod.rs:154-156`: edges 6 to 11 -/
def secondEdges (c : Cube3) : HalfEdgesMUS := fun i => c.edges ⟨i.val + 6, by omega⟩

/-- `cube_n/cube3/mus/index/mod.rs:192-200` and `cube_n/cube3/mus/deindex/mod.rs:113-117` -/
def adjustSecondEdges (s : HalfEdgesMUS) : HalfEdgesMUS := fun i => rotated (s i) ⟨.X, .double⟩

/-- `cube_n/cube3/mus/index/mod.rs:163-171` -/
def Cube3.indices? (c : Cube3) : Option CubeIndices :=
  match Deindexable.index? (T := CornersMUS) c.corners, Deindexable.index? (firstEdges c),
      Deindexable.index? (adjustSecondEdges (secondEdges c)) with
  | some k, some e0, some e1 => some ⟨k, e0, e1⟩
  | _, _, _ => none

/-- `cube_n/cube3/mus/deindex/mod.rs:98-101`: `concat` -/
def concatEdges (a b : HalfEdgesMUS) : PieceSet Edge 12 :=
  fun i => if h : i.val < 6 then a ⟨i.val, h⟩ else b ⟨i.val - 6, by omega⟩

/-- `cube_n/cube3/mus/deindex/mod.rs:92-107` -/
def Cube3.fromIndices? (indices : CubeIndices) : Option Cube3 :=
  match Deindexable.fromIndex? (T := CornersMUS) indices.corners, Deindexable.fromIndex? (T := HalfEdgesMUS) indices.edges0,
      Deindexable.fromIndex? (T := HalfEdgesMUS) indices.edges1 with
  | some corners, some e0, some e1 =>
    match PieceSet.new corners, PieceSet.new (concatEdges e0 (adjustSecondEdges e1)) with
    | .ok corners, .ok edges => some ⟨edges, corners⟩
    | _, _ => none
  | _, _, _ => none

/-! ## cache/generation.rs -/

/-- `cube_n/cube3/mus/cache/generation.rs:86-97`: the value 255 stands for "not set" -/
def entryGet (entry : Nat) : Option Nat := if entry = 255 then none else some entry

/-- `cube_n/cube3/mus/cache/generation.rs:34-41`: the loop over the moves. `none` is an index out of bounds -/
def successorsLoop {T : Type} [Deindexable T] [Movable T AxisMove] (state : T) (depth : Nat) :
    List AxisMove → (cache : List Nat) → Option (List Nat)
  | [], cache => some cache
  | m :: ms, cache =>
    match Deindexable.index? (moved state m) with
    | none => none
    | some j =>
      match cache[j]? with
      | none => none
      | some entry =>
        successorsLoop state depth ms (if (entryGet entry).isNone then cache.set j depth else cache)

/-- `cube_n/cube3/mus/cache/generation.rs:26-42`: the loop over `index`, `remaining` indices before the end -/
def neighboursLoop (T : Type) [Deindexable T] [Movable T AxisMove] (depth : Nat) :
    (remaining index : Nat) → (cache : List Nat) → Option (List Nat)
  | 0, _, cache => some cache
  | k + 1, index, cache =>
    match cache[index]? with
    | none => none
    | some entry =>
      if entryGet entry = some (depth - 1) then
        match Deindexable.fromIndex? (T := T) index with
        | none => none
        | some state =>
          match successorsLoop state depth AxisMove.all cache with
          | none => none
          | some cache => neighboursLoop T depth k (index + 1) cache
      else neighboursLoop T depth k (index + 1) cache

/-- `cube_n/cube3/mus/cache/generation.rs:19-43` -/
def cacheNeighboursAtDepth? (T : Type) [Deindexable T] [Movable T AxisMove] (cache : List Nat) (depth : Nat) :
    Option (List Nat) :=
  neighboursLoop T depth (Deindexable.TOTAL_SET_SIZE T) 0 cache

/-- `cube_n/cube3/mus/cache/generation.rs:99-101` -/
def amountCached (cache : List Nat) : Nat := (cache.filter fun entry => (entryGet entry).isSome).length

/-- `cube_n/cube3/mus/cache/generation.rs:59-70`. `move_depth` is a `u8`: asking the range for 255 overflows, so the loop can be
entered for the depths 1 to 254 only, `left` is how many of them are left; `none` is the overflow -/
def buildLoop (T : Type) [Deindexable T] [Movable T AxisMove] : (left depth : Nat) → (cache : List Nat) → Option (List Nat)
  | 0, _, _ => none
  | left + 1, depth, cache =>
    if amountCached cache = Deindexable.TOTAL_SET_SIZE T then some cache
    else
      match cacheNeighboursAtDepth? T cache depth with
      | none => none
      | some cache => buildLoop T left (depth + 1) cache

/-- `cube_n/cube3/mus/cache/generation.rs:46-74` (the table that is then written to disk and returned) -/
def buildTable? (T : Type) [Deindexable T] [Movable T AxisMove] : Option (List Nat) :=
  if 0 < Deindexable.TOTAL_SET_SIZE T then
    buildLoop T 254 1 ((List.replicate (Deindexable.TOTAL_SET_SIZE T) 255).set 0 0)
  else none

/-! ## cache/mod.rs -/

/-- `cube_n/cube3/mus/cache/mod.rs:15-18` -/
structure Cache where
  edges : List Nat
  corners : List Nat

/-- `cube_n/cube3/mus/cache/mod.rs:37-49`; `get_unchecked` out of bounds is undefined behaviour, here `none` -/
def Cache.get? (cache : Cache) (c : Cube3) : Option Nat :=
  match c.indices? with
  | none => none
  | some i =>
    match cache.corners[i.corners]?, cache.edges[i.edges0]?, cache.edges[i.edges1]? with
    | some k, some e0, some e1 => some (max k (max e0 e1))
    | _, _, _ => none

/-- `cube_n/cube3/heuristics/mus.rs:16-18` and `cube_n/cube3/mus/cache/mod.rs:24-26`, with the cache that `get_or_init` yields;
a `u8` is exact as `f32` -/
def mus? (cache : Cache) (c : Cube3) : Option ℚ := (cache.get? c).map fun n => (n : ℚ)

/-- `cube_n/cube3/heuristics/mus.rs:4-10` and `cube_n/cube3/mus/cache/mod.rs:30-32`; `lock` is the content of `CACHE_LOCK` -/
def musWithFallback? (lock : Option Cache) (fallback : Cube3 → Option ℚ) (c : Cube3) : Option ℚ :=
  match lock with
  | some cache => (cache.get? c).map fun n => (n : ℚ)
  | none => fallback c

end Barbarosa
