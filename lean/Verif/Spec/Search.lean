import Verif.Model.Search
import Mathlib.Data.Rat.Defs
import Mathlib.Algebra.Order.Ring.Unbundled.Rat

/-!
# What a search should do
-/

namespace Barbarosa

section
variable {C M : Type}

/-- `steps` is a walk from `c` along listed successors; each step carries the state it leads to -/
def IsWalk (succ : C → List (C × M)) : C → List (C × M) → Prop
  | _, [] => True
  | c, s :: l => s ∈ succ c ∧ IsWalk succ s.1 l

/-- the state a walk from `c` ends in -/
def walkEnd : C → List (C × M) → C
  | c, [] => c
  | _, s :: l => walkEnd s.1 l

/-- A successor function that lists only true successors -/
def TrueSuccessors [Movable C M] (succ : C → List (C × M)) : Prop := ∀ c, ∀ s ∈ succ c, moved c s.2 = s.1

/-- `h` never exceeds the number of steps of any walk to a target -/
def Admissible (succ : C → List (C × M)) (isTarget : C → Bool) (h : C → ℚ) : Prop :=
  ∀ c steps, IsWalk succ c steps → isTarget (walkEnd c steps) = true → h c ≤ steps.length

end

/-- exact arithmetic for the search -/
def exactOps : CostOps ℚ := ⟨0, 1, (· + ·), fun a b => decide (a < b)⟩

/-- What is needed of floats: there is a set of well behaved values (`ok`, e.g. the finite ones) with a rational value, on which
comparison is exact, and addition is exact as long as the operands are non-negative multiples of `1/q` and the sum is at
most `R`. IEEE 754 single precision has this for `q = 16` and `R = 2^20` (any multiple of 1/16 up to `2^20` fits in the 24 bit
significand, and a representable sum is never rounded). -/
structure FloatLike {K : Type} (ops : CostOps K) (q : Nat) (R : ℚ) where
  val : K → ℚ
  ok : K → Prop
  zero_ok : ok ops.zero
  zero_val : val ops.zero = 0
  one_ok : ok ops.one
  one_val : val ops.one = 1
  add_ok : ∀ a b, ok a → ok b → 0 ≤ val a → 0 ≤ val b → (∃ z : ℤ, (q : ℚ) * val a = z) → (∃ z : ℤ, (q : ℚ) * val b = z) →
    val a + val b ≤ R → ok (ops.add a b) ∧ val (ops.add a b) = val a + val b
  lt_val : ∀ a b, ok a → ok b → ops.lt a b = decide (val a < val b)

/-- `f` eventually (for all large enough fuel) gives `r`: the recursion comes to an end with result `r` -/
def Returns {R : Type} (f : Nat → Option R) (r : R) : Prop := ∃ F, ∀ fuel, F ≤ fuel → f fuel = some r

end Barbarosa
