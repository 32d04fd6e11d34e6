import Verif.Model.NonRedundant

/-!
# Printing and parsing

Transcription of the `Display` implementations, of `generic/parse.rs`, `generic/alg.rs` (parse), `cube_n/parser/mod.rs` and of
the grammar `grammar/cube_n.pest`. Strings are lists of characters. Results are values of `Outcome`: a panic is a value of
its own. An error carries what its variant carries, except that what pest says about a text that is not in the grammar is left out.
-/

namespace Barbarosa

/-! ## Display -/

/-- `cube_n/space/face.rs:33-44` -/
def Face.display (f : Face) : List Char :=
  if f = Face.R then ['R']
  else if f = Face.L then ['L']
  else if f = Face.U then ['U']
  else if f = Face.D then ['D']
  else if f = Face.F then ['F']
  else ['B']

/-- `cube_n/moves/amount.rs:15-23` -/
def Amount.display : Amount → List Char
  | .single => []
  | .double => ['2']
  | .inverse => ['\'']

/-- `cube_n/moves/mod.rs:90-94` -/
def AxisMove.display (m : AxisMove) : List Char := m.face.display ++ m.amount.display

/-- Largest `u32`, used as the maximum depth in `cube_n/moves/extended.rs:33` -/
def U32_MAX : Nat := 2 ^ 32 - 1

/-- `cube_n/moves/wide.rs:106-120`; `none` is the overflow of `i + 1` (a panic when overflow checks are on) -/
def WideAxisMove.display? {N : Nat} (m : WideAxisMove N) : Option (List Char) :=
  match m.depth with
  | 0 => some m.axisMove.display
  | 1 => some (m.axisMove.face.display ++ ['w'] ++ m.axisMove.amount.display)
  | i =>
    if i + 1 ≤ U32_MAX then
      some (Nat.toDigits 10 (i + 1) ++ m.axisMove.face.display ++ ['w'] ++ m.axisMove.amount.display)
    else none

/-- `Itertools::join`, used in `generic/alg.rs:141` and `cube_n/moves/non_redundant.rs:400`: the texts with `sep` in between -/
def joinWith (sep : List Char) : List (List Char) → List Char
  | [] => []
  | [w] => w
  | w :: ws => w ++ sep ++ joinWith sep ws

/-- `generic/alg.rs:136-143`, for any kind of move with the given `Display` -/
def algDisplay {M : Type} (display : M → List Char) (alg : List M) : List Char := joinWith [' '] (alg.map display)

/-- `cube_n/moves/non_redundant.rs:398-402` -/
def NonRedundantAxisMove.display (m : NonRedundantAxisMove) : List Char :=
  joinWith [' '] (m.moves.map AxisMove.display)

/-! ## Results -/

/-- `core::num::IntErrorKind`, inside the `ParseIntError` of `generic/parse.rs:90-91`: what can happen to a `u32` -/
inductive IntErrorKind | empty | invalidDigit | posOverflow
  deriving DecidableEq, Repr

/-- `generic/parse.rs:78-98`. The contents of `Pest` are left out; the only error put into `Uknown` is
`WideMoveCreationError::ExcededDepth` (`cube_n/moves/wide.rs:98-104`), with the given depth and the maximum. -/
inductive ParseError
  | pest
  | unreachable (found : List Char)
  | numParse (kind : IntErrorKind)
  | unexpectedEndOfTokens
  | uknown (given max : Nat)
  deriving DecidableEq, Repr

/-- `Display` of `core::num::ParseIntError`, used in `generic/parse.rs:90` -/
def IntErrorKind.message : IntErrorKind → List Char
  | .empty => "cannot parse integer from empty string".toList
  | .invalidDigit => "invalid digit found in string".toList
  | .posOverflow => "number too large to fit in target type".toList

/-- `cube_n/moves/wide.rs:102`, the text of `ExcededDepth` -/
def excededDepthMessage (given max : Nat) : List Char :=
  "Exceded maximum depth (given: ".toList ++ Nat.toDigits 10 given ++ ", max: ".toList ++ Nat.toDigits 10 max ++ [')']

/-- `generic/parse.rs:84-97`, the text of the error; `pestText` is what pest says -/
def ParseError.message (pestText : List Char) : ParseError → List Char
  | .pest => pestText
  | .unreachable found => "Found unexpected string: ".toList ++ found
  | .numParse kind => "Error while parsing number: ".toList ++ kind.message
  | .unexpectedEndOfTokens => "Unexpected end of tokens".toList
  | .uknown given max => "Statically uknown error: ".toList ++ excededDepthMessage given max

/-- What a call can end with: `Ok`, `Err` (`generic/parse.rs:101`) or a panic -/
inductive Outcome (α : Type) | ok (a : α) | err (e : ParseError) | panic
  deriving DecidableEq, Repr

/-- `?` and `Ok`, as used throughout `cube_n/parser/mod.rs:41-211` -/
instance : Monad Outcome where
  pure := .ok
  bind x f := match x with
    | .ok a => f a
    | .err e => .err e
    | .panic => .panic

/-! ## The grammar -/

/-- The rules of `grammar/cube_n.pest:1-19` (comments and white space are never used: every sequence is inside a
compound-atomic rule) -/
inductive Rule
  | face | faceSmall | amount | axisMove | wideFace | depth | wideMove | axis | rotation | slice | sliceSmall | sliceMove
  | extendedMove
  deriving DecidableEq, Repr

/-- The constructs of pest used by `grammar/cube_n.pest:1-19`: literals, the built-in `NUMBER`, `~`, `|`, `?` and
named rules -/
inductive Peg
  | str (s : List Char)
  | number
  | seq (a b : Peg)
  | choice (a b : Peg)
  | opt (a : Peg)
  | rule (r : Rule) (a : Peg)

/-- `pest::iterators::Pair`, used in `cube_n/parser/mod.rs:30`: the rule, the matched text and the pairs inside -/
inductive Pair
  | mk (rule : Rule) (text : List Char) (inner : List Pair)

/-- `Pair::as_rule`, used in `cube_n/parser/mod.rs:113` -/
def Pair.rule : Pair → Rule | .mk r _ _ => r
/-- `Pair::as_str`, used in `cube_n/parser/mod.rs:41` -/
def Pair.text : Pair → List Char | .mk _ t _ => t
/-- `Pair::into_inner`, used in `cube_n/parser/mod.rs:69` -/
def Pair.inner : Pair → List Pair | .mk _ _ i => i

/-- Result of a match: the pairs made, the text matched and the text that is left -/
structure Matched where
  pairs : List Pair
  text : List Char
  rest : List Char

/-- The literal is at the start of the text (`pest`, `match_string`; used for every literal of `grammar/cube_n.pest:1-19`) -/
def matchStr : List Char → List Char → Option Matched
  | [], input => some ⟨[], [], input⟩
  | _ :: _, [] => none
  | a :: s, c :: input =>
    if a = c then
      match matchStr s input with
      | some m => some ⟨m.pairs, c :: m.text, m.rest⟩
      | none => none
    else none

/-- Semantics of parsing expressions: ordered choice, no backtracking into a choice that matched (`pest`; used for
`grammar/cube_n.pest:1-19`). Which characters are in Unicode's `NUMBER` is the parameter `num`. -/
def Peg.run (num : Char → Bool) : Peg → List Char → Option Matched
  | .str s, input => matchStr s input
  | .number, input =>
    match input with
    | [] => none
    | c :: rest => if num c then some ⟨[], [c], rest⟩ else none
  | .seq a b, input =>
    match a.run num input with
    | none => none
    | some m =>
      match b.run num m.rest with
      | none => none
      | some n => some ⟨m.pairs ++ n.pairs, m.text ++ n.text, n.rest⟩
  | .choice a b, input =>
    match a.run num input with
    | some m => some m
    | none => b.run num input
  | .opt a, input =>
    match a.run num input with
    | some m => some m
    | none => some ⟨[], [], input⟩
  | .rule r a, input =>
    match a.run num input with
    | some m => some ⟨[.mk r m.text m.pairs], m.text, m.rest⟩
    | none => none

/-- Choice of one-letter literals, `grammar/cube_n.pest:1-2, 11, 14-15` -/
def letters : Char → List Char → Peg
  | c, [] => .str [c]
  | c, d :: ds => .choice (.str [c]) (letters d ds)

namespace Grammar

/-- `grammar/cube_n.pest:1` -/
def face : Peg := .rule .face (letters 'R' ['U', 'F', 'L', 'D', 'B'])
/-- `grammar/cube_n.pest:2` -/
def faceSmall : Peg := .rule .faceSmall (letters 'r' ['u', 'f', 'l', 'd', 'b'])
/-- `grammar/cube_n.pest:4` -/
def amount : Peg := .rule .amount (.choice (.str ['2']) (.choice (.str ['\'']) (.str [])))
/-- `grammar/cube_n.pest:5` -/
def axisMove : Peg := .rule .axisMove (.seq face amount)
/-- `grammar/cube_n.pest:7` -/
def wideFace : Peg := .rule .wideFace (.choice (.seq face (.str ['w'])) faceSmall)
/-- `grammar/cube_n.pest:8` -/
def depth : Peg := .rule .depth (.opt .number)
/-- `grammar/cube_n.pest:9` -/
def wideMove : Peg := .rule .wideMove (.seq (.choice (.seq depth wideFace) face) amount)
/-- `grammar/cube_n.pest:11` -/
def axis : Peg := .rule .axis (letters 'x' ['y', 'z'])
/-- `grammar/cube_n.pest:12` -/
def rotation : Peg := .rule .rotation (.seq axis amount)
/-- `grammar/cube_n.pest:14` -/
def slice : Peg := .rule .slice (letters 'M' ['E', 'S'])
/-- `grammar/cube_n.pest:15` -/
def sliceSmall : Peg := .rule .sliceSmall (letters 'm' ['e', 's'])
/-- `grammar/cube_n.pest:17` -/
def sliceMove : Peg := .rule .sliceMove (.seq (.choice slice sliceSmall) amount)
/-- `grammar/cube_n.pest:19` -/
def extendedMove : Peg :=
  .rule .extendedMove (.choice wideMove (.choice axisMove (.choice rotation sliceMove)))

/-- The expression of each rule, `grammar/cube_n.pest:1-19` -/
def ofRule : Rule → Peg
  | .face => face
  | .faceSmall => faceSmall
  | .amount => amount
  | .axisMove => axisMove
  | .wideFace => wideFace
  | .depth => depth
  | .wideMove => wideMove
  | .axis => axis
  | .rotation => rotation
  | .slice => slice
  | .sliceSmall => sliceSmall
  | .sliceMove => sliceMove
  | .extendedMove => extendedMove

end Grammar

/-! ## From pairs to values -/

/-- `generic/parse.rs:52-75` (`Parsable::parse` for a type with the given rule and `from_pest`). No pair at all is the panic of
`unwrap`, a second pair the panic of `debug_assert!`. Comparing the length of the matched text with that of the input is
the comparison of byte offsets, since the matched text is a prefix. -/
def parseWith (num : Char → Bool) {T : Type} (rule : Rule) (fromPest : Pair → Outcome T) (s : List Char) : Outcome T :=
  match (Grammar.ofRule rule).run num s with
  | none => .err .pest
  | some m =>
    match m.pairs with
    | [] => .panic
    | pair :: pairs =>
      if pair.text.length ≠ s.length then .err .pest
      else if pairs ≠ [] then .panic
      else fromPest pair

/-- `generic/parse.rs:118-125` (`into_err`) on the next element of an iterator: the element and what is left -/
def nextPair : List Pair → Outcome (Pair × List Pair)
  | [] => .err .unexpectedEndOfTokens
  | p :: ps => .ok (p, ps)

/-- `cube_n/parser/mod.rs:37-47` -/
def Amount.fromPest (pair : Pair) : Outcome Amount :=
  if pair.text = [] then .ok .single
  else if pair.text = ['2'] then .ok .double
  else if pair.text = ['\''] then .ok .inverse
  else .err (.unreachable pair.text)

/-- `cube_n/parser/mod.rs:49-62` -/
def Face.fromPest (pair : Pair) : Outcome Face :=
  if pair.text = ['U'] then .ok Face.U
  else if pair.text = ['D'] then .ok Face.D
  else if pair.text = ['L'] then .ok Face.L
  else if pair.text = ['R'] then .ok Face.R
  else if pair.text = ['F'] then .ok Face.F
  else if pair.text = ['B'] then .ok Face.B
  else .err (.unreachable pair.text)

/-- `cube_n/parser/mod.rs:64-75` -/
def AxisMove.fromPest (pair : Pair) : Outcome AxisMove := do
  let (first, rest) ← nextPair pair.inner
  let face ← Face.fromPest first
  let (second, _) ← nextPair rest
  let amount ← Amount.fromPest second
  return ⟨face, amount⟩

/-- `core::num`, `u32::from_str`, used in `cube_n/parser/mod.rs:82`: an optional `+`, then at least one ASCII digit, below 2^32.
For each digit the product with ten is formed first, then the digit is looked at, then the overflow. -/
def parseU32 (s : List Char) : Except IntErrorKind Nat :=
  if s = [] then .error .empty
  else if s = ['+'] then .error .invalidDigit
  else
    let digits := match s with
      | '+' :: t => t
      | t => t
    digits.foldlM (fun n c =>
      if '0' ≤ c ∧ c ≤ '9' then
        let n' := n * 10 + (c.toNat - '0'.toNat)
        if n' ≤ U32_MAX then .ok n' else .error .posOverflow
      else .error .invalidDigit) 0

/-- `cube_n/parser/mod.rs:77-84` -/
def depthFromPest (pair : Pair) : Outcome Nat :=
  if pair.text = [] then .ok 0
  else match parseU32 pair.text with
    | .ok n => .ok n
    | .error e => .err (.numParse e)

/-- `char::to_ascii_uppercase`, used in `cube_n/parser/mod.rs:87` -/
def asciiUpper (c : Char) : Char := if 'a' ≤ c ∧ c ≤ 'z' then Char.ofNat (c.toNat - 32) else c

/-- `cube_n/parser/mod.rs:86-88` -/
def parseFaceSmall (num : Char → Bool) (pair : Pair) : Outcome Face :=
  parseWith num .face Face.fromPest (pair.text.map asciiUpper)

/-- `cube_n/parser/mod.rs:90-98` -/
def parseFaceWide (num : Char → Bool) (pair : Pair) : Outcome Face := do
  let (first, rest) ← nextPair pair.inner
  match rest with
  | _ :: _ => Face.fromPest first
  | [] => parseFaceSmall num first

/-- `cube_n/parser/mod.rs:108-131` -/
def WideAxisMove.fromPest (num : Char → Bool) (N : Nat) (pair : Pair) : Outcome (WideAxisMove N) := do
  let (first, rest) ← nextPair pair.inner
  let (face, depth, rest) ← (match first.rule with
    | .face => do
      let face ← Face.fromPest first
      return (face, 0, rest)
    | .depth => do
      let (second, rest) ← nextPair rest
      let face ← parseFaceWide num second
      let depth ← depthFromPest first
      return (face, max depth 1, rest)
    | _ => .err (.unreachable first.text) : Outcome (Face × Nat × List Pair))
  if depth > N then .err (.uknown depth N)
  else
    let (third, _) ← nextPair rest
    let amount ← Amount.fromPest third
    match WideAxisMove.new N face amount depth with
    | some m => .ok m
    | none => .err (.uknown depth N)

/-- `cube_n/parser/mod.rs:134-144` -/
def Axis.fromPest (pair : Pair) : Outcome Axis :=
  if pair.text = ['x'] then .ok .X
  else if pair.text = ['y'] then .ok .Y
  else if pair.text = ['z'] then .ok .Z
  else .err (.unreachable pair.text)

/-- `cube_n/parser/mod.rs:146-157` -/
def AxisRotation.fromPest (pair : Pair) : Outcome AxisRotation := do
  let (first, rest) ← nextPair pair.inner
  let axis ← Axis.fromPest first
  let (second, _) ← nextPair rest
  let amount ← Amount.fromPest second
  return ⟨axis, amount⟩

/-- `cube_n/parser/mod.rs:159-169` -/
def parseSlice (pair : Pair) : Outcome (Axis × Bool) :=
  if pair.text = ['M'] then .ok (.X, false)
  else if pair.text = ['m'] then .ok (.X, true)
  else if pair.text = ['E'] then .ok (.Y, false)
  else if pair.text = ['e'] then .ok (.Y, true)
  else if pair.text = ['S'] then .ok (.Z, false)
  else if pair.text = ['s'] then .ok (.Z, true)
  else .err (.unreachable pair.text)

/-- `cube_n/parser/mod.rs:171-183` -/
def parseSliceMove (pair : Pair) : Outcome (AxisRotation × Bool) := do
  let (first, rest) ← nextPair pair.inner
  let (axis, wide) ← parseSlice first
  let (second, _) ← nextPair rest
  let amount ← Amount.fromPest second
  let amount := if axis ≠ .Z then amount.mul .neg else amount
  return (⟨axis, amount⟩, wide)

/-- `cube_n/moves/extended.rs:22-38` -/
inductive ExtendedAxisMove
  | regular (m : AxisMove)
  | rotation (r : AxisRotation)
  | wide (m : WideAxisMove U32_MAX)
  | slice (rot : AxisRotation) (isWide : Bool)
  deriving DecidableEq, Repr

/-- `cube_n/parser/mod.rs:185-211` -/
def ExtendedAxisMove.fromPest (num : Char → Bool) (pair : Pair) : Outcome ExtendedAxisMove := do
  let (pair, _) ← nextPair pair.inner
  match pair.rule with
  | .axisMove => do
    let m ← AxisMove.fromPest pair
    return .regular m
  | .wideMove => do
    let m ← WideAxisMove.fromPest num U32_MAX pair
    match m.depth with
    | 0 => return .regular m.axisMove
    | _ => return .wide m
  | .rotation => do
    let r ← AxisRotation.fromPest pair
    return .rotation r
  | .sliceMove => do
    let (rot, isWide) ← parseSliceMove pair
    return .slice rot isWide
  | _ => .err (.unreachable pair.text)

/-! ## `parse` for each type -/

/-- `generic/parse.rs:22-28` (`trait Parsable`) -/
class Parsable (T : Type) where
  parse : (Char → Bool) → List Char → Outcome T

export Parsable (parse)

/-- `cube_n/parser/mod.rs:37-47` with `generic/parse.rs:52-75` -/
instance : Parsable Amount := ⟨fun num => parseWith num .amount Amount.fromPest⟩
/-- `cube_n/parser/mod.rs:49-62` with `generic/parse.rs:52-75` -/
instance : Parsable Face := ⟨fun num => parseWith num .face Face.fromPest⟩
/-- `cube_n/parser/mod.rs:64-75` with `generic/parse.rs:52-75` -/
instance : Parsable AxisMove := ⟨fun num => parseWith num .axisMove AxisMove.fromPest⟩
/-- `cube_n/parser/mod.rs:77-84` with `generic/parse.rs:52-75`; a `u32` is a natural number here -/
instance : Parsable Nat := ⟨fun num => parseWith num .depth depthFromPest⟩
/-- `cube_n/parser/mod.rs:100-132` with `generic/parse.rs:52-75` -/
instance {N : Nat} : Parsable (WideAxisMove N) := ⟨fun num => parseWith num .wideMove (WideAxisMove.fromPest num N)⟩
/-- `cube_n/parser/mod.rs:134-144` with `generic/parse.rs:52-75` -/
instance : Parsable Axis := ⟨fun num => parseWith num .axis Axis.fromPest⟩
/-- `cube_n/parser/mod.rs:146-157` with `generic/parse.rs:52-75` -/
instance : Parsable AxisRotation := ⟨fun num => parseWith num .rotation AxisRotation.fromPest⟩
/-- `cube_n/parser/mod.rs:185-211` with `generic/parse.rs:52-75` -/
instance : Parsable ExtendedAxisMove := ⟨fun num => parseWith num .extendedMove (ExtendedAxisMove.fromPest num)⟩

/-- `char::is_whitespace` (Unicode `White_Space`), used by `split_whitespace` in `generic/alg.rs:53` -/
def isWhitespace (c : Char) : Bool :=
  let n := c.toNat
  (9 ≤ n && n ≤ 13) || n == 0x20 || n == 0x85 || n == 0xA0 || n == 0x1680 || (0x2000 ≤ n && n ≤ 0x200A) ||
    n == 0x2028 || n == 0x2029 || n == 0x202F || n == 0x205F || n == 0x3000

/-- `str::split` at characters satisfying `p`, used by `split_whitespace` in `generic/alg.rs:53` -/
def splitAtP (p : Char → Bool) : List Char → List (List Char)
  | [] => [[]]
  | c :: s =>
    if p c then [] :: splitAtP p s
    else match splitAtP p s with
      | [] => [[c]]
      | w :: ws => (c :: w) :: ws

/-- `str::split_whitespace`, used in `generic/alg.rs:53`: the pieces that are not empty -/
def splitWhitespace (s : List Char) : List (List Char) := (splitAtP isWhitespace s).filter (· ≠ [])

/-- `collect::<Result<Vec<_>, _>>` as used in `generic/alg.rs:52-53`: stops at the first failure -/
def collectOutcomes {T : Type} (f : List Char → Outcome T) : List (List Char) → Outcome (List T)
  | [] => .ok []
  | w :: ws => do
    let m ← f w
    let ms ← collectOutcomes f ws
    return m :: ms

/-- `generic/alg.rs:45-57`, and `TryFrom<&str>` at `generic/alg.rs:124-133` -/
instance {M : Type} [Parsable M] : Parsable (List M) :=
  ⟨fun num s => collectOutcomes (parse num) (splitWhitespace s)⟩

end Barbarosa
