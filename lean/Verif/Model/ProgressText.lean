import Verif.Model.Disk
import Verif.Model.FloatCode

/-!
# The texts printed while a table is built

Transcription of `Display for Stats` and of the messages of `cube_n/cube3/mus/cache/generation.rs`. How numbers are formatted is the contract
of `std::fmt`. The times come from outside: `clock d` are the milliseconds that have passed since the start when the message for depth `d` is
made.
-/

namespace Barbarosa

/-- `{: >8}` (`cube_n/cube3/mus/cache/generation.rs:141`): blanks on the left up to eight characters -/
def padLeft (width : Nat) (text : List Char) : List Char := List.replicate (width - text.length) ' ' ++ text

/-- `{}` of an `i64` (`cube_n/cube3/mus/cache/generation.rs:142`); precisions like the `.2` of `eta` have no effect on integers -/
def intText (z : Int) : List Char := (if z < 0 then ['-'] else []) ++ Nat.toDigits 10 z.natAbs

/-- a number of hundredths with a decimal point; part of `{:.2}` (`cube_n/cube3/mus/cache/generation.rs:141-142`) -/
def hundredths (n : Nat) : List Char :=
  Nat.toDigits 10 (n / 100) ++ ['.', Nat.digitChar (n / 10 % 10), Nat.digitChar (n % 10)]

/-- `{:.2}` of an `f64` (`cube_n/cube3/mus/cache/generation.rs:141-142`): the exact value rounded to hundredths -/
def fixed2 : F64 → List Char
  | .nan => "NaN".toList
  | .inf s => (if s then ['-'] else []) ++ "inf".toList
  | .fin s m => (if s then ['-'] else []) ++ hundredths (roundEven (m * 100)).toNat

/-- `cube_n/cube3/mus/cache/generation.rs:137-151`. `num_seconds` and `num_minutes` of `chrono` cut off the rest. -/
def Stats64.display (s : Stats64) : List Char :=
  padLeft 8 (Nat.toDigits 10 s.amountCached) ++ " states cached (".toList ++
    fixed2 (s.percentCached.mul (Fl.lit binary64 100)) ++ "%) in ".toList ++
    intText (s.timeElapsedMs.tdiv 1000) ++ "s at ".toList ++ fixed2 s.statesPerSecond ++ " states/s (ETA: ".toList ++
    intText (s.etaSeconds.tdiv 60) ++ "m)".toList

/-- `cube_n/cube3/mus/cache/disk_storage.rs:46-52` -/
def FileName.text : FileName → List Char
  | .corners => "mus-cache/corners.barbarosa".toList
  | .edges => "mus-cache/edges.barbarosa".toList

/-- `cube_n/cube3/mus/cache/generation.rs:63,67`: the message of one round -/
def roundMessage (total depth : Nat) (s : Stats64) : List Char :=
  if s.amountCached = total then "Finished caching! ".toList ++ s.display
  else "Caching at depth ".toList ++ Nat.toDigits 10 depth ++ "; ".toList ++ s.display

/-- The loop of `cube_n/cube3/mus/cache/generation.rs:59-70` with the texts of its messages; `none` is a panic -/
def buildLoopText (T : Type) [Deindexable T] [Movable T AxisMove] (clock : Nat → Int) :
    (left depth : Nat) → (cache : List Nat) → Option (List (List Char) × List Nat)
  | 0, _, _ => none
  | left + 1, depth, cache =>
    match Stats64.new? cache (clock depth) with
    | none => none
    | some stats =>
      let message := roundMessage (Deindexable.TOTAL_SET_SIZE T) depth stats
      if stats.amountCached = Deindexable.TOTAL_SET_SIZE T then some ([message], cache)
      else
        match cacheNeighboursAtDepth? T cache depth with
        | none => none
        | some cache => (buildLoopText T clock left (depth + 1) cache).map fun r => (message :: r.1, r.2)

/-- `cube_n/cube3/mus/cache/generation.rs:46-80` with `write_partial` (`cube_n/cube3/mus/cache/disk_storage.rs:67-87`): the messages and the table;
`saved` tells whether the table can be written to the disk (otherwise an error is returned before the last two messages) -/
def buildMessages? (T : Type) [DiskCacheable T] [Movable T AxisMove] (clock : Nat → Int) (saved : Bool) :
    Option (List (List Char) × List Nat) :=
  if 0 < Deindexable.TOTAL_SET_SIZE T then
    (buildLoopText T clock 254 1 ((List.replicate (Deindexable.TOTAL_SET_SIZE T) 255).set 0 0)).map fun r =>
      (["Building partial cache for ".toList ++ (DiskCacheable.PATH T).text ++ ".".toList] ++ r.1 ++
        ["Caching done! Attempting to save to disk.".toList, "Writing cache to disk".toList] ++
        (if saved then ["Cache has been written".toList, "Cache saved to disk.".toList] else []), r.2)
  else none

/-- `cube_n/cube3/mus/cache/disk_storage.rs:89-100`: what is printed, one line per message and only in debug builds; the times of day come
from outside -/
def printedLines (debug : Bool) (file : FileName) (stamps : List (List Char)) (messages : List (List Char)) : List (List Char) :=
  if debug then List.zipWith (fun stamp msg => stamp ++ ": ".toList ++ msg ++ " (".toList ++ file.text ++ ")".toList) stamps messages
  else []

end Barbarosa
