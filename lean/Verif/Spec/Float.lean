import Verif.Model.Float

/-!
# What rounding to nearest means
-/

namespace Barbarosa

/-- the numbers that have a place in the format: an integer with at most `prec` bits, scaled by a power of two -/
def Representable (fmt : FloatFormat) (q : ℚ) : Prop :=
  ∃ z k : ℤ, q = z * 2 ^ k ∧ |z| < 2 ^ fmt.prec ∧ fmt.emin - (fmt.prec - 1) ≤ k ∧ k ≤ fmt.emax - (fmt.prec - 1)

/-- `x` is the number `q` (and one of the two zeros if `q` is zero) -/
def Fl.Is {fmt : FloatFormat} (x : Fl fmt) (q : ℚ) : Prop := ∃ neg, x = .fin neg |q| ∧ (q ≠ 0 → neg = decide (q < 0))

end Barbarosa
