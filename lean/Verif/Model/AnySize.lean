import Verif.Model.Visualization
import Mathlib.Data.Rat.Floor

/-!
# Pictures of any size, points that are not integers

`Square::at` and `Square::at_mut` (`cube_n/visualization/unfolded/mod.rs`) for a point with rational coordinates. Every
finite `f32` is a rational number.

Simplification. The sums, products and quotients of `f32` are modelled as exact; how much of an error the answer
tolerates for integer coordinates is theorem `C83_rounding_errors`. Infinite and NaN coordinates are not modelled.
-/

namespace Barbarosa

namespace Square

/-- `f32::round`, used in `cube_n/visualization/unfolded/mod.rs:99`: to the nearest integer, halves away from zero -/
def roundAway (t : ℚ) : ℤ := if 0 ≤ t then ⌊t + 1 / 2⌋ else ⌈t - 1 / 2⌉

/-- `cube_n/visualization/unfolded/mod.rs:99-105`: what is done with the scaled coordinate `t`. The rounded number is
negative exactly if it is less than `-0.0`, so `x < 0.0` is `< 0`. -/
def cellOf? (N : Nat) (t : ℚ) : Option (Fin N) :=
  let r := roundAway t
  if r < 0 then none
  else if h : r.toNat < N then some ⟨r.toNat, h⟩
  else none

/-- `cube_n/visualization/unfolded/mod.rs:96-106` -/
def transformCoordQ (N : Nat) (x : ℚ) : Option (Fin N) := cellOf? N ((x + 1) * N / 3)

/-- `Vector3::dot`, used in `cube_n/visualization/unfolded/mod.rs:66-67`, with one of the vectors of `basis` (`55-60`) -/
def dotQ (p : ℚ × ℚ × ℚ) (q : Int × Int × Int) : ℚ := p.1 * q.1 + p.2.1 * q.2.1 + p.2.2 * q.2.2

/-- `cube_n/visualization/unfolded/mod.rs:63-73` -/
def indicesQ (N : Nat) (point : ℚ × ℚ × ℚ) (f : Face) : Option (Fin N × Fin N) :=
  let b := basisFaces f
  match transformCoordQ N (dotQ point (basisVector b.1)) with
  | none => none
  | some x =>
    match transformCoordQ N (dotQ point (basisVector b.2)) with
    | none => none
    | some y => some (x, y)

/-- `cube_n/visualization/unfolded/mod.rs:81-85` -/
def atQ? {N : Nat} (s : Square N) (point : ℚ × ℚ × ℚ) (f : Face) : Option Color :=
  (indicesQ N point f).map fun ij => s ij.1 ij.2

end Square

/-- `cube_n/visualization/unfolded/mod.rs:184-193` for corners and then edges, on a fresh picture of any size. The crate
itself does this for `N = 3` (`260-269`); `populate_with` and `default` are public for every `N`. -/
def Unfolded.drawn? (N : Nat) (c : Cube3) : Option (Unfolded N) :=
  match (Unfolded.default N).populateWith? c.corners with
  | none => none
  | some u => u.populateWith? c.edges

end Barbarosa
