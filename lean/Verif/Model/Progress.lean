import Verif.Model.Mus
import Mathlib.Data.Rat.Floor

/-!
# Progress messages while a table is built

Transcription of the messages of `cube_n/cube3/mus/cache/generation.rs:56-70` and of `Stats`.
-/

namespace Barbarosa

/-- The loop of `cube_n/cube3/mus/cache/generation.rs:59-70` together with what it prints: one pair (`move_depth`, amount of cached
states) per round, `amount` from `Stats::new`; the last round prints its amount with "Finished caching!". -/
def buildLoopLog (T : Type) [Deindexable T] [Movable T AxisMove] :
    (left depth : Nat) → (cache : List Nat) → Option (List (Nat × Nat) × List Nat)
  | 0, _, _ => none
  | left + 1, depth, cache =>
    let amount := amountCached cache
    if amount = Deindexable.TOTAL_SET_SIZE T then some ([(depth, amount)], cache)
    else
      match cacheNeighboursAtDepth? T cache depth with
      | none => none
      | some cache => (buildLoopLog T left (depth + 1) cache).map fun r => ((depth, amount) :: r.1, r.2)

/-- `cube_n/cube3/mus/cache/generation.rs:46-74` with its messages -/
def buildTableLog? (T : Type) [Deindexable T] [Movable T AxisMove] : Option (List (Nat × Nat) × List Nat) :=
  if 0 < Deindexable.TOTAL_SET_SIZE T then
    buildLoopLog T 254 1 ((List.replicate (Deindexable.TOTAL_SET_SIZE T) 255).set 0 0)
  else none

/-- `cube_n/cube3/mus/cache/generation.rs:103-105`, exact instead of `f64` -/
def percentCached (cache : List Nat) (amount : Nat) : ℚ := amount / cache.length

/-- `cube_n/cube3/mus/cache/generation.rs:107-113`. `statesPerSecond` is `none` if it is infinite or not a number. -/
structure Stats where
  amountCached : Nat
  percentCached : ℚ
  timeElapsedMs : Int
  statesPerSecond : Option ℚ
  etaSeconds : Int

/-- `as i64` from a float (Rust reference): cut off the fraction, saturate -/
def asI64 (x : ℚ) : Int := max (-2 ^ 63) (min (2 ^ 63 - 1) (if 0 ≤ x then ⌊x⌋ else ⌈x⌉))

/-- `chrono::Duration::seconds`: panics if the number of milliseconds does not fit in an `i64` -/
def durationSeconds? (s : Int) : Option Int := if (2 ^ 63 - 1) / 1000 < s ∨ s < -((2 ^ 63 - 1) / 1000) then none else some s

/-- `cube_n/cube3/mus/cache/generation.rs:116-135`. `ms` are the milliseconds since the start (negative if the clock was set
back). Exact rationals stand for `f64`; `x / 0` is infinite for `x > 0` and not a number for `x = 0`, `x / ∞ = 0`, and
`as i64` makes 0 of "not a number" and the largest number of `∞`. `none` is a panic. -/
def Stats.new? (cache : List Nat) (ms : Int) : Option Stats :=
  let amount := Barbarosa.amountCached cache
  let statesLeft := cache.length - amount
  let statesPerSecond : Option ℚ := if ms = 0 then none else some (amount / ms * 1000)
  let timeRemaining : Int := match statesPerSecond with
    | none => 0
    | some v => if v = 0 then (if statesLeft = 0 then 0 else 2 ^ 63 - 1) else asI64 (statesLeft / v)
  (durationSeconds? timeRemaining).map fun eta =>
    ⟨amount, Barbarosa.percentCached cache amount, ms, statesPerSecond, eta⟩

end Barbarosa
