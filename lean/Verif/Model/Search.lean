import Verif.Model.Cubes

/-!
# Searching

Transcription of `generic/search/ida.rs`, `generic/search/mod.rs`, `cube_n/search.rs`.
-/

namespace Barbarosa

/-- What the search does with `f32` values: addition, the literals `0.0` and `1.0`, and `<`. Kept abstract, so that results
which do not depend on arithmetic hold for real floats (with rounding, infinities and NaN) as well. -/
structure CostOps (K : Type) where
  zero : K
  one : K
  add : K → K → K
  lt : K → K → Bool

section
variable {C M K : Type} [DecidableEq C] (ops : CostOps K)

/-- The `for` loop of `generic/search/ida.rs:67-85`. `rec` is the recursive call (with the fixed arguments filled in), applied to
the pushed path and to `min_exceeded`. The path is a stack with the *last* element first. -/
def searchFor (rec : List C → K → Option (Option (List M) × List C × K)) :
    List (C × M) → List C → K → Option (Option (List M) × List C × K)
  | [], path, me => some (none, path, me)
  | (s, m) :: rest, path, me =>
    if s ∈ path then searchFor rec rest path me
    else match rec (s :: path) me with
      | none => none
      | some (some sol, path', me') => some (some (sol ++ [m]), path', me')
      | some (none, path', me') => searchFor rec rest path'.tail me'

/-- `generic/search/ida.rs:42-86`. Returns the answer and the final values of the two `&mut` arguments `path`
and `min_exceeded`. `none` means panic (empty path) or that the recursion is deeper than `fuel`. -/
def searchImpl (h : C → K) (succ : C → List (C × M)) (isTarget : C → Bool) (bound : K) :
    Nat → K → List C → K → Option (Option (List M) × List C × K)
  | 0, _, _, _ => none
  | _ + 1, _, [], _ => none
  | fuel + 1, cost, cube :: p, me =>
    let newCost := ops.add cost (h cube)
    if ops.lt bound newCost then
      some (none, cube :: p, if ops.lt newCost me then newCost else me)
    else if isTarget cube then some (some [], cube :: p, me)
    else searchFor (searchImpl h succ isTarget bound fuel (ops.add cost ops.one)) (succ cube) (cube :: p) me

/-- The `for` loop of `generic/search/ida.rs:101-116` with the number of iterations left -/
def searchLoop (h : C → K) (succ : C → List (C × M)) (isTarget : C → Bool) (fuel : Nat) (cube : C) :
    Nat → K → Option (Option (List M × C))
  | 0, _ => some none
  | k + 1, bound =>
    match searchImpl ops h succ isTarget bound fuel ops.zero [cube] (ops.add bound ops.one) with
    | none => none
    | some (some sol, path, _) => some (path.head?.map fun last => (sol.reverse, last))
    | some (none, _, me) => searchLoop h succ isTarget fuel cube k me

/-- `generic/search/ida.rs:98-119`; `max_depth` is an `i32`, and `0..=max_depth` is empty if it is negative -/
def search? (h : C → K) (succ : C → List (C × M)) (maxDepth : Int) (fuel : Nat) (cube : C)
    (isTarget : C → Bool) : Option (Option (List M × C)) :=
  searchLoop ops h succ isTarget fuel cube (maxDepth + 1).toNat (h cube)

/-- `generic/search/mod.rs:25-33`; a failing `debug_assert!` counts as a panic -/
def solve? (h : C → K) (succ : C → List (C × M)) (maxDepth : Int) (fuel : Nat) (isSolved : C → Bool)
    (cube : C) : Option (Option (List M)) :=
  match search? ops h succ maxDepth fuel cube isSolved with
  | none => none
  | some none => some none
  | some (some (solution, solved)) => if isSolved solved then some (some solution) else none

end

/-- `cube_n/search.rs:15-19` -/
def Cube3.solveWithHeuristic? {K : Type} (ops : CostOps K) (h : Cube3 → K) (fuel : Nat) (c : Cube3) :
    Option (Option (List AxisMove)) :=
  solve? ops h Cube3.successors 200 fuel Cube.isSolved c

end Barbarosa
