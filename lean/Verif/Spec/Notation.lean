import Verif.Model.Parser

/-!
# Specification of the notation

Which texts denote which moves, written down without reference to the parser or to `Display`.
-/

namespace Barbarosa

/-- The letters of the faces. -/
def faceLetters : List (Char × Face) :=
  [('R', ⟨.X, .pos⟩), ('L', ⟨.X, .neg⟩), ('U', ⟨.Y, .pos⟩), ('D', ⟨.Y, .neg⟩), ('F', ⟨.Z, .pos⟩), ('B', ⟨.Z, .neg⟩)]

/-- The small letters that stand for wide turns. -/
def smallLetters : List (Char × Face) :=
  [('r', ⟨.X, .pos⟩), ('l', ⟨.X, .neg⟩), ('u', ⟨.Y, .pos⟩), ('d', ⟨.Y, .neg⟩), ('f', ⟨.Z, .pos⟩), ('b', ⟨.Z, .neg⟩)]

/-- The marks of the amounts. -/
def amountMarks : List (List Char × Amount) := [([], .single), (['2'], .double), (['\''], .inverse)]

/-- `s` is the spelling of a face turn. -/
def Spells (s : List Char) (m : AxisMove) : Prop :=
  ∃ c a, (c, m.face) ∈ faceLetters ∧ (a, m.amount) ∈ amountMarks ∧ s = c :: a

/-- The number a decimal digit stands for. -/
def digitValues : List (Char × Nat) :=
  [('0', 0), ('1', 1), ('2', 2), ('3', 3), ('4', 4), ('5', 5), ('6', 6), ('7', 7), ('8', 8), ('9', 9)]

/-- `s` is a spelling of the wide turn of depth `d` (number of extra layers): a plain face turn for depth 0; otherwise an optional
digit, then a capital letter with `w` or a small letter, then the amount. Without a digit, and with `0`, the depth is 1. -/
def SpellsWide (s : List Char) (d : Nat) (m : AxisMove) : Prop :=
  (d = 0 ∧ Spells s m) ∨
  ∃ pre body a,
    ((pre = [] ∧ d = 1) ∨ (∃ c k, (c, k) ∈ digitValues ∧ pre = [c] ∧ d = max k 1)) ∧
    ((∃ c, (c, m.face) ∈ faceLetters ∧ body = [c, 'w']) ∨ (∃ c, (c, m.face) ∈ smallLetters ∧ body = [c])) ∧
    (a, m.amount) ∈ amountMarks ∧ s = pre ++ body ++ a

/-- `s` would be the spelling of a wide turn if the number in front of it were a decimal digit: a character of the class of numbers
`num` that is none of `0`–`9` (such as `½` or `٣`), then the letters of a wide turn, then the amount. -/
def ForeignNumber (num : Char → Bool) (s : List Char) : Prop :=
  ∃ c body a f x, num c = true ∧ (∀ k, (c, k) ∉ digitValues) ∧
    ((∃ l, (l, f) ∈ faceLetters ∧ body = [l, 'w']) ∨ (∃ l, (l, f) ∈ smallLetters ∧ body = [l])) ∧
    (a, x) ∈ amountMarks ∧ s = c :: (body ++ a)

/-- The letters of the axes. -/
def axisLetters : List (Char × Axis) := [('x', .X), ('y', .Y), ('z', .Z)]

/-- `s` is the spelling of a rotation of the whole cube. -/
def SpellsRotation (s : List Char) (r : AxisRotation) : Prop :=
  ∃ c a, (c, r.axis) ∈ axisLetters ∧ (a, r.amount) ∈ amountMarks ∧ s = c :: a

/-- The slice letters: the axis they turn around, whether the slice is wide, and the amount that a single turn stands for:
`M` follows L and `E` follows D, so they turn against their axis; `S` follows F. -/
def sliceLetters : List (Char × Axis × Bool × Direction) :=
  [('M', .X, false, .neg), ('m', .X, true, .neg), ('E', .Y, false, .neg), ('e', .Y, true, .neg),
    ('S', .Z, false, .pos), ('s', .Z, true, .pos)]

/-- The same amount the other way round. -/
def against : Direction → Amount → Amount
  | .pos, a => a
  | .neg, .single => .inverse
  | .neg, .double => .double
  | .neg, .inverse => .single

/-- `s` is the spelling of a slice turn by `rot`. -/
def SpellsSlice (s : List Char) (rot : AxisRotation) (isWide : Bool) : Prop :=
  ∃ c dir x a, (c, rot.axis, isWide, dir) ∈ sliceLetters ∧ rot.amount = against dir x ∧ (a, x) ∈ amountMarks ∧ s = c :: a

/-- `s` is a spelling of the extended move. -/
def SpellsExtended (s : List Char) : ExtendedAxisMove → Prop
  | .regular m => Spells s m
  | .rotation r => SpellsRotation s r
  | .wide w => 1 ≤ w.depth ∧ SpellsWide s w.depth w.axisMove
  | .slice rot isWide => SpellsSlice s rot isWide

/-- The code points with the Unicode property `White_Space`. -/
def whitePoints : List Nat :=
  [0x9, 0xA, 0xB, 0xC, 0xD, 0x20, 0x85, 0xA0, 0x1680, 0x2000, 0x2001, 0x2002, 0x2003, 0x2004, 0x2005, 0x2006, 0x2007, 0x2008,
    0x2009, 0x200A, 0x2028, 0x2029, 0x202F, 0x205F, 0x3000]

/-- White space. -/
def White (c : Char) : Prop := c.toNat ∈ whitePoints

/-- The text consists of the given words in order, with white space between them and possibly around them. -/
inductive Layout : List (List Char) → List Char → Prop
  | blank {t} : (∀ c ∈ t, White c) → Layout [] t
  | word {lead w rest ws} : (∀ c ∈ lead, White c) → w ≠ [] → (∀ c ∈ w, ¬ White c) →
      (rest = [] ∨ ∃ c r, rest = c :: r ∧ White c) → Layout ws rest → Layout (w :: ws) (lead ++ w ++ rest)

/-- What is used of Unicode's `NUMBER`: it has the decimal digits in it and none of the letters `A`–`Z`, `a`–`z`. -/
structure NumberClass (num : Char → Bool) : Prop where
  digit : ∀ c, '0' ≤ c → c ≤ '9' → num c = true
  upper : ∀ c, 'A' ≤ c → c ≤ 'Z' → num c = false
  lower : ∀ c, 'a' ≤ c → c ≤ 'z' → num c = false

end Barbarosa
