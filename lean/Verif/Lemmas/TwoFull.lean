import Verif.Lemmas.TwoWords

/-!
# Every arrangement of the 2x2 is within reach

Six more turns after the sequences of five turns, five more turns after the sequences of six turns: the kernel computes the
whole set and finds nothing missing.
-/

namespace Barbarosa.Two

theorem all_reached : full (steps 5 (union (step ends5) ends6)) 0 = true := by decide +kernel

end Barbarosa.Two
