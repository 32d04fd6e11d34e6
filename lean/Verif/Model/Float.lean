import Verif.Model.Search
import Mathlib.Data.Int.Log
import Mathlib.Data.Rat.Floor

/-!
# Floating point numbers

The code computes costs, heuristics and coordinates with `f32` and statistics with `f64`. These are the formats `binary32` and
`binary64` of IEEE 754; Rust guarantees that the basic operations give the correctly rounded result (to nearest, ties to
even). The definitions below are that standard, not code of the crate; each one cites where the crate uses it.

A number is stored as its sign and its magnitude, so that `-0.0` and `0.0` are different. Simplifications: there is only one NaN (nothing in
the crate looks at the bits of a NaN), and exception flags are left out.
-/

namespace Barbarosa

/-- A binary format: number of significant bits, and the exponents of the smallest and of the largest normal numbers -/
structure FloatFormat where
  prec : Nat
  emin : Int
  emax : Int

/-- `f32`, used in `generic/search/ida.rs:14-109`, `cube_n/cube3/heuristics/manhattan.rs:21-55`,
`cube_n/visualization/unfolded/mod.rs:43-106` -/
def binary32 : FloatFormat := ⟨24, -126, 127⟩

/-- `f64`, used in `cube_n/cube3/mus/cache/generation.rs:103-127` -/
def binary64 : FloatFormat := ⟨53, -1022, 1023⟩

/-- a floating point value; used in `generic/search/ida.rs:46-48` and everywhere else `f32` or `f64` occurs -/
inductive Fl (fmt : FloatFormat)
  | nan
  | inf (neg : Bool)
  | fin (neg : Bool) (mag : ℚ)
  deriving DecidableEq

/-- `f32`, e.g. `generic/search/ida.rs:14` -/
abbrev F32 := Fl binary32
/-- `f64`, e.g. `cube_n/cube3/mus/cache/generation.rs:109` -/
abbrev F64 := Fl binary64

/-- the nearest integer, of two equally near ones the even one; part of every operation,
e.g. `generic/search/ida.rs:53` -/
def roundEven (t : ℚ) : ℤ :=
  if t - ⌊t⌋ < 1 / 2 then ⌊t⌋
  else if 1 / 2 < t - ⌊t⌋ then ⌊t⌋ + 1
  else if ⌊t⌋ % 2 = 0 then ⌊t⌋ else ⌊t⌋ + 1

namespace Fl

variable {fmt : FloatFormat}

/-- the distance between the floating point numbers around `x`; part of every operation, e.g. `generic/search/ida.rs:53` -/
def quantum (fmt : FloatFormat) (x : ℚ) : ℚ := 2 ^ (max (Int.log 2 x) fmt.emin - (fmt.prec - 1))

/-- rounding of a non-negative number, without regard to overflow; part of every operation, e.g. `generic/search/ida.rs:53` -/
def roundMag (fmt : FloatFormat) (x : ℚ) : ℚ := roundEven (x / quantum fmt x) * quantum fmt x

/-- the floating point number for the exact result `q`; `zs` is the sign if `q` is zero. Part of every operation, e.g.
`generic/search/ida.rs:53` -/
def round (fmt : FloatFormat) (zs : Bool) (q : ℚ) : Fl fmt :=
  let neg := if q = 0 then zs else decide (q < 0)
  let r := roundMag fmt |q|
  if r < 2 ^ (fmt.emax + 1) then .fin neg r else .inf neg

/-- a literal, e.g. `1.0` in `generic/search/ida.rs:74,102` -/
def lit (fmt : FloatFormat) (q : ℚ) : Fl fmt := round fmt false q

/-- `as f32`, `as f64` from an integer, e.g. `cube_n/cube3/heuristics/mus.rs:7,17`, `cube_n/cube3/cfop/cross.rs:91,104` -/
def ofInt (fmt : FloatFormat) (z : ℤ) : Fl fmt := round fmt false z

/-- the number a value stands for (0 if it is no number) -/
def val : Fl fmt → ℚ
  | .fin neg m => if neg then -m else m
  | _ => 0

/-- neither infinite nor NaN -/
def isFinite : Fl fmt → Bool
  | .fin _ _ => true
  | _ => false

/-- unary minus, part of the subtraction in `cube_n/cube3/heuristics/manhattan.rs:22` -/
def neg : Fl fmt → Fl fmt
  | .nan => .nan
  | .inf s => .inf !s
  | .fin s m => .fin (!s) m

/-- `abs` in `cube_n/cube3/heuristics/manhattan.rs:22` -/
def abs : Fl fmt → Fl fmt
  | .nan => .nan
  | .inf _ => .inf false
  | .fin _ m => .fin false m

/-- `+`, e.g. `generic/search/ida.rs:53,74,102`; an exact zero is `-0.0` only as sum of two `-0.0` -/
def add : Fl fmt → Fl fmt → Fl fmt
  | .nan, _ => .nan
  | _, .nan => .nan
  | .inf s, .inf t => if s = t then .inf s else .nan
  | .inf s, .fin _ _ => .inf s
  | .fin _ _, .inf t => .inf t
  | .fin s a, .fin t b => round fmt (s && t) (val (.fin s a : Fl fmt) + val (.fin t b : Fl fmt))

/-- `-` in `cube_n/cube3/heuristics/manhattan.rs:22` -/
def sub (a b : Fl fmt) : Fl fmt := a.add b.neg

/-- `*`, e.g. `cube_n/visualization/unfolded/mod.rs:98` -/
def mul : Fl fmt → Fl fmt → Fl fmt
  | .nan, _ => .nan
  | _, .nan => .nan
  | .inf s, .inf t => .inf (s != t)
  | .inf s, .fin t b => if b = 0 then .nan else .inf (s != t)
  | .fin s a, .inf t => if a = 0 then .nan else .inf (s != t)
  | .fin s a, .fin t b => round fmt (s != t) (val (.fin s a : Fl fmt) * val (.fin t b : Fl fmt))

/-- `/`, e.g. `cube_n/cube3/heuristics/manhattan.rs:43` -/
def div : Fl fmt → Fl fmt → Fl fmt
  | .nan, _ => .nan
  | _, .nan => .nan
  | .inf _, .inf _ => .nan
  | .inf s, .fin t _ => .inf (s != t)
  | .fin s _, .inf t => .fin (s != t) 0
  | .fin s a, .fin t b =>
    if b = 0 then (if a = 0 then .nan else .inf (s != t))
    else round fmt (s != t) (val (.fin s a : Fl fmt) / val (.fin t b : Fl fmt))

/-- `<` (and `>` with the arguments exchanged), e.g. `generic/search/ida.rs:55-56`; false if one of them is NaN -/
def lt : Fl fmt → Fl fmt → Bool
  | .nan, _ => false
  | _, .nan => false
  | .inf s, .inf t => s && !t
  | .inf s, .fin _ _ => s
  | .fin _ _, .inf t => !t
  | .fin s a, .fin t b => decide (val (.fin s a : Fl fmt) < val (.fin t b : Fl fmt))

/-- `round` in `cube_n/visualization/unfolded/mod.rs:99`: to the nearest integer, halves away from zero -/
def roundAway : Fl fmt → Fl fmt
  | .fin s m => .fin s ⌊m + 1 / 2⌋
  | x => x

/-- `as` to an integer type with the given range, e.g. `as usize` in `cube_n/visualization/unfolded/mod.rs:101,105`, `as u8` in
`cube_n/visualization/mod.rs:51-53`, `as i64` in `cube_n/cube3/mus/cache/generation.rs:126`: cut off the fraction, saturate,
NaN becomes 0 -/
def toInt (lo hi : ℤ) : Fl fmt → ℤ
  | .nan => 0
  | .inf true => lo
  | .inf false => hi
  | .fin s m => max lo (min hi (if s then -⌊m⌋ else ⌊m⌋))

/-- `Iterator::sum` for floats (`cube_n/cube3/heuristics/manhattan.rs:22,35,54`): start with a zero and add from the left. Which zero it is
depends on the version of the standard library. -/
def sum (zs : Bool) (l : List (Fl fmt)) : Fl fmt := l.foldl add (.fin zs 0)

end Fl

/-- the `f32` arithmetic of `generic/search/ida.rs` -/
def f32Ops : CostOps F32 := ⟨Fl.lit binary32 0, Fl.lit binary32 1, Fl.add, Fl.lt⟩

end Barbarosa
