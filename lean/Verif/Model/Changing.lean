import Verif.Model.Mus
import Verif.Model.Search

/-!
# Searching with a heuristic whose answers change

`generic/search/ida.rs` takes the heuristic as `Fn(&C) -> f32` (lines 14, 28, 94). Nothing requires such a function to give the same answer
twice: `mus_with_fallback` (`cube_n/cube3/heuristics/mus.rs:4-10`) changes its answers when another thread initialises the cache in
the meantime. Here the heuristic is given by its answers: `h n c` is the answer if the `n`-th call is made on `c`, or `none` if that
call panics. The functions have the number of calls so far as an additional argument and result.
-/

namespace Barbarosa

section
variable {C M K : Type} [DecidableEq C] (ops : CostOps K)

/-- The `for` loop of `generic/search/ida.rs:67-85`, see `searchFor` -/
def searchForV (rec : List C → K → Nat → Option ((Option (List M) × List C × K) × Nat)) :
    List (C × M) → List C → K → Nat → Option ((Option (List M) × List C × K) × Nat)
  | [], path, me, n => some ((none, path, me), n)
  | (s, m) :: rest, path, me, n =>
    if s ∈ path then searchForV rec rest path me n
    else match rec (s :: path) me n with
      | none => none
      | some ((some sol, path', me'), n') => some ((some (sol ++ [m]), path', me'), n')
      | some ((none, path', me'), n') => searchForV rec rest path'.tail me' n'

/-- `generic/search/ida.rs:42-86`; the call of the heuristic is in line 53 -/
def searchImplV (h : Nat → C → Option K) (succ : C → List (C × M)) (isTarget : C → Bool) (bound : K) :
    Nat → K → List C → K → Nat → Option ((Option (List M) × List C × K) × Nat)
  | 0, _, _, _, _ => none
  | _ + 1, _, [], _, _ => none
  | fuel + 1, cost, cube :: p, me, n =>
    match h n cube with
    | none => none
    | some estimate =>
      let newCost := ops.add cost estimate
      if ops.lt bound newCost then
        some ((none, cube :: p, if ops.lt newCost me then newCost else me), n + 1)
      else if isTarget cube then some ((some [], cube :: p, me), n + 1)
      else searchForV (searchImplV h succ isTarget bound fuel (ops.add cost ops.one)) (succ cube) (cube :: p) me (n + 1)

/-- The `for` loop of `generic/search/ida.rs:101-116` -/
def searchLoopV (h : Nat → C → Option K) (succ : C → List (C × M)) (isTarget : C → Bool) (fuel : Nat) (cube : C) :
    Nat → K → Nat → Option (Option (List M × C))
  | 0, _, _ => some none
  | k + 1, bound, n =>
    match searchImplV ops h succ isTarget bound fuel ops.zero [cube] (ops.add bound ops.one) n with
    | none => none
    | some ((some sol, path, _), _) => some (path.head?.map fun last => (sol.reverse, last))
    | some ((none, _, me), n') => searchLoopV h succ isTarget fuel cube k me n'

/-- `generic/search/ida.rs:98-119`; the first call of the heuristic is in line 99 -/
def searchV? (h : Nat → C → Option K) (succ : C → List (C × M)) (maxDepth : Int) (fuel : Nat) (cube : C)
    (isTarget : C → Bool) : Option (Option (List M × C)) :=
  match h 0 cube with
  | none => none
  | some estimate => searchLoopV ops h succ isTarget fuel cube (maxDepth + 1).toNat estimate 1

/-- `generic/search/mod.rs:25-33` -/
def solveV? (h : Nat → C → Option K) (succ : C → List (C × M)) (maxDepth : Int) (fuel : Nat) (isSolved : C → Bool)
    (cube : C) : Option (Option (List M)) :=
  match searchV? ops h succ maxDepth fuel cube isSolved with
  | none => none
  | some none => some none
  | some (some (solution, solved)) => if isSolved solved then some (some solution) else none

end

/-- `cube_n/search.rs:15-19` -/
def Cube3.solveWithHeuristicV? {K : Type} (ops : CostOps K) (h : Nat → Cube3 → Option K) (fuel : Nat) (c : Cube3) :
    Option (Option (List AxisMove)) :=
  solveV? ops h Cube3.successors 200 fuel Cube.isSolved c

/-- `cube_n/cube3/heuristics/mus.rs:4-10` during a search: `lock n` is the content of `CACHE_LOCK` when the `n`-th call is made -/
def musWithFallbackAt? (lock : Nat → Option Cache) (fallback : Cube3 → Option ℚ) (n : Nat) (c : Cube3) : Option ℚ :=
  musWithFallback? (lock n) fallback c

end Barbarosa
