import Verif.Lemmas.TwoWords

/-!
# An arrangement of the 2x2 that is far away

The kernel computes what can be reached by ten turns, as far as it matters for one arrangement, and does not find it there.
-/

namespace Barbarosa.Two

/-- R U R U R F2 R F' R F2 U2 -/
def farWord : List Letter :=
  [(.X, .single), (.Y, .single), (.X, .single), (.Y, .single), (.X, .single), (.Z, .double), (.X, .single), (.Z, .inverse),
    (.X, .single), (.Z, .double), (.Y, .double)]

theorem far_missing : (steps 10 (only home)).mem ((run farWord).map Prod.fst) (code3 ((run farWord).map Prod.snd)) = false := by
  decide +kernel

end Barbarosa.Two
