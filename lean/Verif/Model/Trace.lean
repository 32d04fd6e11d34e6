import Verif.Model.Search

/-!
# Searching, with a record of the states on which the heuristic is called

`generic/search/ida.rs` once more, with an additional result: the states passed to the heuristic, in the order of the calls.
Below, the functions for heuristics that may panic. `Props/Trace.lean` shows that forgetting the record gives the functions of `Model/Search.lean`.
-/

namespace Barbarosa

section
variable {C M K : Type} [DecidableEq C] (ops : CostOps K)

/-- The `for` loop of `generic/search/ida.rs:67-85`, see `searchFor` -/
def searchForT (rec : List C → K → Option ((Option (List M) × List C × K) × List C)) :
    List (C × M) → List C → K → Option ((Option (List M) × List C × K) × List C)
  | [], path, me => some ((none, path, me), [])
  | (s, m) :: rest, path, me =>
    if s ∈ path then searchForT rec rest path me
    else match rec (s :: path) me with
      | none => none
      | some ((some sol, path', me'), t) => some ((some (sol ++ [m]), path', me'), t)
      | some ((none, path', me'), t) => (searchForT rec rest path'.tail me').map fun r => (r.1, t ++ r.2)

/-- `generic/search/ida.rs:42-86`; the call of the heuristic is in line 53 -/
def searchImplT (h : C → K) (succ : C → List (C × M)) (isTarget : C → Bool) (bound : K) :
    Nat → K → List C → K → Option ((Option (List M) × List C × K) × List C)
  | 0, _, _, _ => none
  | _ + 1, _, [], _ => none
  | fuel + 1, cost, cube :: p, me =>
    let newCost := ops.add cost (h cube)
    if ops.lt bound newCost then
      some ((none, cube :: p, if ops.lt newCost me then newCost else me), [cube])
    else if isTarget cube then some ((some [], cube :: p, me), [cube])
    else (searchForT (searchImplT h succ isTarget bound fuel (ops.add cost ops.one)) (succ cube) (cube :: p) me).map
      fun r => (r.1, cube :: r.2)

/-- The `for` loop of `generic/search/ida.rs:101-116` -/
def searchLoopT (h : C → K) (succ : C → List (C × M)) (isTarget : C → Bool) (fuel : Nat) (cube : C) :
    Nat → K → Option (Option (List M × C) × List C)
  | 0, _ => some (none, [])
  | k + 1, bound =>
    match searchImplT ops h succ isTarget bound fuel ops.zero [cube] (ops.add bound ops.one) with
    | none => none
    | some ((some sol, path, _), t) => some (path.head?.map (fun last => (sol.reverse, last)), t)
    | some ((none, _, me), t) => (searchLoopT h succ isTarget fuel cube k me).map fun r => (r.1, t ++ r.2)

/-- `generic/search/ida.rs:98-119`; the first call of the heuristic is in line 99 -/
def searchT? (h : C → K) (succ : C → List (C × M)) (maxDepth : Int) (fuel : Nat) (cube : C)
    (isTarget : C → Bool) : Option (Option (List M × C) × List C) :=
  (searchLoopT ops h succ isTarget fuel cube (maxDepth + 1).toNat (h cube)).map fun r => (r.1, cube :: r.2)

/-! ## Heuristics that may panic

The same functions for a heuristic that may panic (`none`), as those that look up tables do. `none` stands for a panic or for a
recursion deeper than `fuel`. -/

/-- `generic/search/ida.rs:42-86` -/
def searchImplP (h : C → Option K) (succ : C → List (C × M)) (isTarget : C → Bool) (bound : K) :
    Nat → K → List C → K → Option (Option (List M) × List C × K)
  | 0, _, _, _ => none
  | _ + 1, _, [], _ => none
  | fuel + 1, cost, cube :: p, me =>
    match h cube with
    | none => none
    | some estimate =>
      let newCost := ops.add cost estimate
      if ops.lt bound newCost then
        some (none, cube :: p, if ops.lt newCost me then newCost else me)
      else if isTarget cube then some (some [], cube :: p, me)
      else searchFor (searchImplP h succ isTarget bound fuel (ops.add cost ops.one)) (succ cube) (cube :: p) me

/-- The `for` loop of `generic/search/ida.rs:101-116` -/
def searchLoopP (h : C → Option K) (succ : C → List (C × M)) (isTarget : C → Bool) (fuel : Nat) (cube : C) :
    Nat → K → Option (Option (List M × C))
  | 0, _ => some none
  | k + 1, bound =>
    match searchImplP ops h succ isTarget bound fuel ops.zero [cube] (ops.add bound ops.one) with
    | none => none
    | some (some sol, path, _) => some (path.head?.map fun last => (sol.reverse, last))
    | some (none, _, me) => searchLoopP h succ isTarget fuel cube k me

/-- `generic/search/ida.rs:98-119` -/
def searchP? (h : C → Option K) (succ : C → List (C × M)) (maxDepth : Int) (fuel : Nat) (cube : C)
    (isTarget : C → Bool) : Option (Option (List M × C)) :=
  match h cube with
  | none => none
  | some estimate => searchLoopP ops h succ isTarget fuel cube (maxDepth + 1).toNat estimate

/-- `generic/search/mod.rs:25-33` -/
def solveP? (h : C → Option K) (succ : C → List (C × M)) (maxDepth : Int) (fuel : Nat) (isSolved : C → Bool)
    (cube : C) : Option (Option (List M)) :=
  match searchP? ops h succ maxDepth fuel cube isSolved with
  | none => none
  | some none => some none
  | some (some (solution, solved)) => if isSolved solved then some (some solution) else none

end

/-- `cube_n/search.rs:15-19` -/
def Cube3.solveWithHeuristicP? {K : Type} (ops : CostOps K) (h : Cube3 → Option K) (fuel : Nat) (c : Cube3) :
    Option (Option (List AxisMove)) :=
  solveP? ops h Cube3.successors 200 fuel Cube.isSolved c

end Barbarosa
