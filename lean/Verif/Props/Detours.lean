import Verif.Props.Heuristics
import Verif.Props.Moves

/-!
# C73: solutions make no detours
-/

namespace Barbarosa

section
variable {C M K : Type} [DecidableEq C]

/-- the walk goes on only from states that are not targets, to states not seen before, and ends in a target -/
def FreshWalk (succ : C → List (C × M)) (isTarget : C → Bool) : List C → C → List (C × M) → Prop
  | _, c, [] => isTarget c = true
  | seen, c, s :: l => isTarget c = false ∧ s ∈ succ c ∧ s.1 ∉ c :: seen ∧ FreshWalk succ isTarget (c :: seen) s.1 l

theorem searchFor_fresh {succ : C → List (C × M)} {isTarget : C → Bool}
    {rec : List C → K → Option (Option (List M) × List C × K)} (cube : C) (p : List C) (hc : isTarget cube = false)
    (hn : ∀ s me path' me', rec (s :: cube :: p) me = some (none, path', me') → path' = s :: cube :: p)
    (hr : ∀ s me sol path' me', rec (s :: cube :: p) me = some (some sol, path', me') →
      ∃ steps, FreshWalk succ isTarget (cube :: p) s steps ∧ steps.map (·.2) = sol.reverse) :
    ∀ (l : List (C × M)), (∀ s ∈ l, s ∈ succ cube) → ∀ me sol path' me',
      searchFor rec l (cube :: p) me = some (some sol, path', me') →
      ∃ steps, FreshWalk succ isTarget p cube steps ∧ steps.map (·.2) = sol.reverse := by
  intro l
  induction l with
  | nil => intro _ me sol path' me' h; simp [searchFor] at h
  | cons s l ih =>
    obtain ⟨s, m⟩ := s
    intro hl me sol path' me' h
    have hl' : ∀ s ∈ l, s ∈ succ cube := fun x hx => hl x (List.mem_cons_of_mem _ hx)
    unfold searchFor at h
    by_cases hs : s ∈ cube :: p
    · rw [if_pos hs] at h
      exact ih hl' _ _ _ _ h
    · rw [if_neg hs] at h
      rcases hrec : rec (s :: cube :: p) me with _ | ⟨_ | sol', path1, me1⟩
      · rw [hrec] at h; cases h
      · rw [hrec] at h
        have := hn s me _ _ hrec
        subst this
        exact ih hl' _ _ _ _ h
      · rw [hrec] at h
        simp only [Option.some.injEq, Prod.mk.injEq] at h
        obtain ⟨rfl, rfl, rfl⟩ := h
        obtain ⟨steps, h1, h2⟩ := hr s me _ _ _ hrec
        exact ⟨(s, m) :: steps, ⟨hc, hl _ (by simp), hs, h1⟩, by simp [h2]⟩

theorem searchImpl_fresh (ops : CostOps K) (h : C → K) (succ : C → List (C × M)) (isTarget : C → Bool) (bound : K) :
    ∀ (fuel : Nat) (cost : K) (cube : C) (p : List C) (me : K) sol path' me',
      searchImpl ops h succ isTarget bound fuel cost (cube :: p) me = some (some sol, path', me') →
      ∃ steps, FreshWalk succ isTarget p cube steps ∧ steps.map (·.2) = sol.reverse := by
  intro fuel
  induction fuel with
  | zero => intro _ _ _ _ _ _ _ hs; cases hs
  | succ fuel ih =>
    intro cost cube p me sol path' me' hs
    unfold searchImpl at hs
    simp only at hs
    split at hs
    · simp at hs
    · split at hs
      · rename_i ht
        simp only [Option.some.injEq, Prod.mk.injEq] at hs
        obtain ⟨rfl, rfl, rfl⟩ := hs
        exact ⟨[], ht, rfl⟩
      · rename_i ht
        refine searchFor_fresh cube p (by simpa using ht) (fun s me path' me' hr => ?_)
          (fun s me sol path' me' hr => ih _ s (cube :: p) me sol path' me' hr) _ (fun s hs => hs) _ _ _ _ hs
        exact searchImpl_sound ops h succ isTarget bound _ _ _ _ _ none _ _ hr

theorem searchLoop_fresh (ops : CostOps K) (h : C → K) (succ : C → List (C × M)) (isTarget : C → Bool) (fuel : Nat) (cube : C) :
    ∀ (k : Nat) (bound : K) (alg : List M) (e : C),
      searchLoop ops h succ isTarget fuel cube k bound = some (some (alg, e)) →
      ∃ steps, FreshWalk succ isTarget [] cube steps ∧ steps.map (·.2) = alg := by
  intro k
  induction k with
  | zero => intro _ _ _ hs; cases hs
  | succ k ih =>
    intro bound alg e hs
    unfold searchLoop at hs
    rcases hi : searchImpl ops h succ isTarget bound fuel ops.zero [cube] (ops.add bound ops.one) with _ | ⟨_ | sol, path, me⟩
    · rw [hi] at hs; cases hs
    · rw [hi] at hs; exact ih _ _ _ hs
    · rw [hi] at hs
      obtain ⟨steps, h1, h2⟩ := searchImpl_fresh ops h succ isTarget bound _ _ _ _ _ _ _ _ hi
      rcases hp : path.head? with _ | last
      · simp [hp] at hs
      · simp only [hp, Option.map_some, Option.some.injEq, Prod.mk.injEq] at hs
        exact ⟨steps, h1, h2.trans hs.1⟩

omit [DecidableEq C] in
/-- the states after 1, 2, … moves of a fresh walk are new, and only the last one is a target -/
theorem FreshWalk.states [Movable C M] {succ : C → List (C × M)} (ht : TrueSuccessors succ) {isTarget : C → Bool} :
    ∀ {steps : List (C × M)} {seen : List C} {c : C}, FreshWalk succ isTarget seen c steps →
      (∀ i, 0 < i → i ≤ steps.length → movedAlg c ((steps.map (·.2)).take i) ∉ c :: seen) ∧
      (∀ i j, i < j → j ≤ steps.length →
        movedAlg c ((steps.map (·.2)).take i) ≠ movedAlg c ((steps.map (·.2)).take j)) ∧
      (∀ i, i < steps.length → isTarget (movedAlg c ((steps.map (·.2)).take i)) = false) := by
  intro steps
  induction steps with
  | nil =>
    intro seen c _
    refine ⟨fun i h1 h2 => ?_, fun i j h1 h2 => ?_, fun i h => ?_⟩ <;> simp at * <;> omega
  | cons s l ih =>
    intro seen c h
    obtain ⟨hc, hs, hn, hw⟩ := h
    have e : moved c s.2 = s.1 := ht c s hs
    obtain ⟨h1, h2, h3⟩ := ih hw
    have key : ∀ i, movedAlg c (((s :: l).map (·.2)).take (i + 1)) = movedAlg s.1 ((l.map (·.2)).take i) := by
      intro i
      simp [movedAlg, e]
    have zero : movedAlg c (((s :: l).map (·.2)).take 0) = c := rfl
    have new : ∀ i, i ≤ l.length → movedAlg s.1 ((l.map (·.2)).take i) ∉ c :: seen := by
      intro i hi
      rcases Nat.eq_zero_or_pos i with rfl | hp
      · exact hn
      · exact fun hm => h1 i hp hi (List.mem_cons_of_mem _ hm)
    refine ⟨fun i hp hi => ?_, fun i j hij hj => ?_, fun i hi => ?_⟩
    · obtain ⟨i, rfl⟩ := Nat.exists_eq_succ_of_ne_zero hp.ne'
      rw [Nat.succ_eq_add_one, key]
      exact new i (by simpa using hi)
    · obtain ⟨j, rfl⟩ := Nat.exists_eq_succ_of_ne_zero (Nat.ne_of_gt (Nat.zero_lt_of_lt hij))
      rw [Nat.succ_eq_add_one, key]
      rcases i with _ | i
      · rw [zero]
        intro heq
        exact new j (by simpa using hj) (heq ▸ List.mem_cons_self)
      · rw [key]
        exact h2 i j (by omega) (by simpa using hj)
    · rcases i with _ | i
      · exact hc
      · rw [key]
        exact h3 i (by simpa using hi)

/-- **C73** Whatever the heuristic (admissible or not, with any arithmetic), following the alg returned by `search` never
comes back to a state already visited, and meets a target only at the very end. -/
theorem C73_no_detour [Movable C M] (ops : CostOps K) (h : C → K) (succ : C → List (C × M)) (ht : TrueSuccessors succ)
    (maxDepth : Int) (fuel : Nat) (cube : C) (isTarget : C → Bool) (alg : List M) (e : C)
    (hs : search? ops h succ maxDepth fuel cube isTarget = some (some (alg, e))) :
    (∀ i j, i < j → j ≤ alg.length → movedAlg cube (alg.take i) ≠ movedAlg cube (alg.take j)) ∧
    (∀ i, i < alg.length → isTarget (movedAlg cube (alg.take i)) = false) := by
  obtain ⟨steps, h1, rfl⟩ := searchLoop_fresh ops h succ isTarget fuel cube _ _ _ _ hs
  obtain ⟨-, h2, h3⟩ := h1.states ht
  simpa using ⟨h2, h3⟩

/-- the hypotheses for the 3x3, with any heuristic -/
example (ops : CostOps Int) (h : Cube3 → Int) (alg : List AxisMove) (e : Cube3)
    (hs : search? ops h Cube3.successors 200 9 (moved Cube3.SOLVED (⟨Face.R, .single⟩ : AxisMove)) Cube.isSolved = some (some (alg, e))) :
    ∀ i, i < alg.length → Cube.isSolved (movedAlg (moved Cube3.SOLVED (⟨Face.R, .single⟩ : AxisMove)) (alg.take i)) = false :=
  (C73_no_detour ops h Cube3.successors cube3_successors_true 200 9 _ Cube.isSolved alg e hs).2

/-- **C73** Searching from a target can only return the empty alg. -/
theorem C73_target [Movable C M] (ops : CostOps K) (h : C → K) (succ : C → List (C × M)) (ht : TrueSuccessors succ)
    (maxDepth : Int) (fuel : Nat) (cube : C) (isTarget : C → Bool) (hc : isTarget cube = true) (alg : List M) (e : C)
    (hs : search? ops h succ maxDepth fuel cube isTarget = some (some (alg, e))) : alg = [] := by
  obtain ⟨-, h2⟩ := C73_no_detour ops h succ ht maxDepth fuel cube isTarget alg e hs
  rcases alg with _ | ⟨m, l⟩
  · rfl
  · have := h2 0 (by simp)
    rw [List.take_zero] at this
    exact absurd (hc.symm.trans this) (by simp)

/-- on a solved cube -/
example (ops : CostOps Int) (h : Cube3 → Int) (alg : List AxisMove) (e : Cube3)
    (hs : search? ops h Cube3.successors 200 9 Cube3.SOLVED Cube.isSolved = some (some (alg, e))) : alg = [] :=
  C73_target ops h Cube3.successors cube3_successors_true 200 9 _ Cube.isSolved (by decide +kernel) alg e hs

end

/-- **C73** On the 3x3, `solve_with_heuristic` gives the empty alg for the solved cube if it gives one, and the algs it returns
never contain a move directly followed by its inverse, nor any block of moves that as a whole does nothing. -/
theorem C73_cube3 {K : Type} (ops : CostOps K) (h : Cube3 → K) (fuel : Nat) (c : Cube3) (alg : List AxisMove)
    (hs : Cube3.solveWithHeuristic? ops h fuel c = some (some alg)) :
    (Cube.isSolved c = true → alg = []) ∧
    (∀ a b m, alg ≠ a ++ [m, Move.inverse m] ++ b) ∧
    (∀ a x b, alg = a ++ x ++ b → x ≠ [] → movedAlg (movedAlg c a) x ≠ movedAlg c a) := by
  unfold Cube3.solveWithHeuristic? solve? at hs
  rcases hr : search? ops h Cube3.successors 200 fuel c Cube.isSolved with _ | _ | ⟨alg', e⟩
  · simp [hr] at hs
  · simp [hr] at hs
  · have hd := C73_no_detour ops h Cube3.successors cube3_successors_true 200 fuel c _ alg' e hr
    have hz := fun hc => C73_target ops h Cube3.successors cube3_successors_true 200 fuel c _ hc alg' e hr
    have : alg' = alg := by
      rw [hr] at hs
      simp only at hs
      split at hs
      · simpa using hs
      · cases hs
    subst this
    have block : ∀ a x b, alg' = a ++ x ++ b → x ≠ [] → movedAlg (movedAlg c a) x ≠ movedAlg c a := by
      intro a x b e1 hx
      have := hd.1 a.length (a.length + x.length)
        (by have := List.length_pos_iff.2 hx; omega) (by simp [e1])
      intro heq
      apply this
      rw [e1, List.append_assoc, List.take_left' rfl, ← List.append_assoc, List.take_left' (by simp)]
      rw [← heq]
      simp [movedAlg]
    refine ⟨hz, fun a b m e1 => ?_, block⟩
    refine block a [m, Move.inverse m] b e1 (by simp) ?_
    exact (C01_move_then_inverse ⟨Cube3, AxisMove⟩ (by simp [moveSystems]) (movedAlg c a) m).1

/-- integers as costs -/
private def intOps : CostOps Int := ⟨0, 1, (· + ·), fun a b => decide (a < b)⟩

/-- an estimate that is too large for one cube -/
private def badEstimate (c : Cube3) : Int := if c = moved Cube3.SOLVED (⟨Face.R, .double⟩ : AxisMove) then 2 else 0

/-- A heuristic that is not admissible may give an alg that is not the shortest (here two turns of one face), but still one
without detours. -/
example : Cube3.solveWithHeuristic? intOps badEstimate 10 (moved Cube3.SOLVED (⟨Face.R, .double⟩ : AxisMove)) =
    some (some [⟨Face.R, .single⟩, ⟨Face.R, .single⟩]) := by decide +kernel

end Barbarosa
