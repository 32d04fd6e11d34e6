import Verif.Lemmas.SearchFloat
import Mathlib.Algebra.Order.Archimedean.Basic

/-!
# C26–C28: IDA*
-/

namespace Barbarosa

section
variable {C M K : Type} [DecidableEq C]

/-! ## C26 -/

/-- **C26** If `search` returns `(alg, end)` then `alg` takes the start to `end` and `end` is a target. This holds for every
puzzle, every depth limit, every target, every function listing true successors, and every heuristic, with *any*
arithmetic: nothing at all is assumed of `+` and `<`, so rounding, infinities and NaN are covered. -/
theorem C26_search_sound [Movable C M] (ops : CostOps K) (h : C → K) (succ : C → List (C × M)) (ht : TrueSuccessors succ)
    (maxDepth : Int) (fuel : Nat) (cube : C) (isTarget : C → Bool) (alg : List M) (e : C)
    (hs : search? ops h succ maxDepth fuel cube isTarget = some (some (alg, e))) :
    movedAlg cube alg = e ∧ isTarget e = true := by
  obtain ⟨steps, h1, rfl, rfl, h4⟩ := searchLoop_sound ops h succ isTarget fuel cube _ _ _ _ hs
  exact ⟨walk_moved ht h1, h4⟩

/-- one turn away from solved -/
example : search? exactOps (fun _ => 0) Cube3.successors 200 3 (moved Cube3.SOLVED (⟨Face.R, .single⟩ : AxisMove)) Cube.isSolved =
    some (some ([⟨Face.R, .inverse⟩], Cube3.SOLVED)) := by decide +kernel

/-- **C26** Also without a move type in the picture: the result is a walk along the listed successors. -/
theorem C26_search_walk (ops : CostOps K) (h : C → K) (succ : C → List (C × M))
    (maxDepth : Int) (fuel : Nat) (cube : C) (isTarget : C → Bool) (alg : List M) (e : C)
    (hs : search? ops h succ maxDepth fuel cube isTarget = some (some (alg, e))) :
    ∃ steps, IsWalk succ cube steps ∧ steps.map (·.2) = alg ∧ walkEnd cube steps = e ∧ isTarget e = true :=
  searchLoop_sound ops h succ isTarget fuel cube _ _ _ _ hs

/-- the steps +1, -1, +3 from 0 to 5 -/
example : ∃ steps, IsWalk (fun n : Int => [(n + 1, (1 : Int)), (n - 1, -1), (n + 3, 3)]) 0 steps ∧ steps.map (·.2) = [1, 1, 3] ∧
    walkEnd 0 steps = 5 := by
  obtain ⟨steps, h1, h2, h3, -⟩ := C26_search_walk exactOps (fun _ => 0) (fun n : Int => [(n + 1, (1 : Int)), (n - 1, -1), (n + 3, 3)]) 10 8 0
    (fun n => n == 5) [1, 1, 3] 5 (by decide +kernel)
  exact ⟨steps, h1, h2, h3⟩

/-- **C26** `solve` returns only algs that solve the cube, and its `debug_assert!` never fails. -/
theorem C26_solve_sound [Movable C M] (ops : CostOps K) (h : C → K) (succ : C → List (C × M)) (ht : TrueSuccessors succ)
    (maxDepth : Int) (fuel : Nat) (cube : C) (isSolved : C → Bool) :
    (∀ alg, solve? ops h succ maxDepth fuel isSolved cube = some (some alg) → isSolved (movedAlg cube alg) = true) ∧
    (solve? ops h succ maxDepth fuel isSolved cube = none ↔ search? ops h succ maxDepth fuel cube isSolved = none) := by
  unfold solve?
  rcases hs : search? ops h succ maxDepth fuel cube isSolved with _ | _ | ⟨alg, e⟩
  · simp
  · simp
  · obtain ⟨h1, h2⟩ := C26_search_sound ops h succ ht maxDepth fuel cube isSolved alg e hs
    refine ⟨fun alg' ha => ?_, by simp [h2]⟩
    simp only [h2, if_true, Option.some.injEq] at ha
    rw [← ha, h1, h2]

theorem cube3_successors_true : TrueSuccessors Cube3.successors := by
  intro c s hs
  simp only [Cube3.successors, List.mem_map] at hs
  obtain ⟨m, -, rfl⟩ := hs
  rfl

example (h : Cube3 → ℚ) (maxDepth : Int) (fuel : Nat) (alg : List AxisMove)
    (hs : solve? exactOps h Cube3.successors maxDepth fuel Cube.isSolved (movedAlg Cube3.SOLVED [(⟨Face.R, .single⟩ : AxisMove), ⟨Face.U, .inverse⟩]) = some (some alg)) :
    Cube.isSolved (movedAlg (movedAlg Cube3.SOLVED [(⟨Face.R, .single⟩ : AxisMove), ⟨Face.U, .inverse⟩]) alg) = true :=
  (C26_solve_sound exactOps h Cube3.successors cube3_successors_true maxDepth fuel _ Cube.isSolved).1 alg hs

/-! ## C27 -/

omit [DecidableEq C] in
/-- estimates along a shortest walk are at most its length -/
theorem admissible_estimates {succ : C → List (C × M)} {isTarget : C → Bool} {h : C → ℚ}
    (ha : Admissible succ isTarget h) {cube : C} {steps : List (C × M)} (hw : IsWalk succ cube steps)
    (ht : isTarget (walkEnd cube steps) = true) (pre suf : List (C × M)) (e : steps = pre ++ suf) :
    (pre.length : ℚ) + h (walkEnd cube pre) ≤ steps.length := by
  subst e
  obtain ⟨-, h2⟩ := isWalk_append.1 hw
  have := ha (walkEnd cube pre) suf h2 (by rw [← walkEnd_append]; exact ht)
  rw [List.length_append]
  push_cast
  linarith

/-- **C27** With a non-negative admissible heuristic the returned alg is a shortest one: no walk to a target has fewer
steps. -/
theorem C27_optimal (h : C → ℚ) (succ : C → List (C × M)) (isTarget : C → Bool) (hh : ∀ c, 0 ≤ h c)
    (ha : Admissible succ isTarget h) (maxDepth : Int) (fuel : Nat) (cube : C) (alg : List M) (e : C)
    (hs : search? exactOps h succ maxDepth fuel cube isTarget = some (some (alg, e))) :
    ∀ steps, IsWalk succ cube steps → isTarget (walkEnd cube steps) = true → alg.length ≤ steps.length := by
  intro steps hw ht
  obtain ⟨st, h1, h2, h3, h4, -⟩ := exists_simple_walk steps.length cube steps le_rfl hw
  have ht' : isTarget (walkEnd cube st) = true := by rw [h2]; exact ht
  have := searchLoop_optimal hh h1 ht' h4 (admissible_estimates ha h1 ht') _ _ (ha cube st h1 ht') hs
  have h5 : alg.length ≤ st.length := by exact_mod_cast this
  omega

/-- no walk with the steps +1, -1, +3 leads from 0 to 5 in fewer than three steps, since three are found -/
example (steps : List (Int × Int)) (hw : IsWalk (fun n : Int => [(n + 1, (1 : Int)), (n - 1, -1), (n + 3, 3)]) 0 steps)
    (he : walkEnd 0 steps = 5) : 3 ≤ steps.length :=
  C27_optimal (fun _ => 0) (fun n : Int => [(n + 1, (1 : Int)), (n - 1, -1), (n + 3, 3)]) (fun n => n == 5) (fun _ => le_rfl)
    (fun _ _ _ _ => by simp) 10 8 0 [1, 1, 3] 5 (by decide +kernel) steps hw (by simp [he])

/-- **C27** With any heuristic that is not negative (admissible or not) the returned alg is at most as long as the largest
estimate `steps so far + heuristic` met on any walk to a target that visits no state twice. -/
theorem C27_bounded (h : C → ℚ) (succ : C → List (C × M)) (isTarget : C → Bool) (hh : ∀ c, 0 ≤ h c)
    (maxDepth : Int) (fuel : Nat) (cube : C) (alg : List M) (e : C)
    (hs : search? exactOps h succ maxDepth fuel cube isTarget = some (some (alg, e)))
    (steps : List (C × M)) (hw : IsWalk succ cube steps) (ht : isTarget (walkEnd cube steps) = true)
    (hnd : (cube :: steps.map (·.1)).Nodup) (B : ℚ)
    (hB : ∀ pre suf, steps = pre ++ suf → pre.length + h (walkEnd cube pre) ≤ B) : (alg.length : ℚ) ≤ B :=
  searchLoop_optimal hh hw ht hnd hB _ _ (by simpa [walkEnd] using hB [] steps rfl) hs

/-- the hops below, with a heuristic that says 2 too much: at most five steps -/
example (maxDepth : Int) (fuel : Nat) (alg : List Int) (e : Int)
    (hs : search? exactOps (fun n => if n = 5 then 0 else 3) (fun n : Int => [(n + 1, 1), (n - 1, -1), (n + 3, 3)]) maxDepth fuel 0
      (fun n => n == 5) = some (some (alg, e))) : alg.length ≤ 5 := by
  have := C27_bounded (fun n : Int => if n = 5 then (0 : ℚ) else 3) (fun n : Int => [(n + 1, 1), (n - 1, -1), (n + 3, 3)])
    (fun n => n == 5) (fun c => by split <;> norm_num) maxDepth fuel 0 alg e hs [(1, 1), (2, 1), (5, 3)]
    (by simp [IsWalk]) (by decide) (by decide) 5 (by
      intro pre suf h
      rcases pre with _ | ⟨a, _ | ⟨b, _ | ⟨c, _ | ⟨d, l⟩⟩⟩⟩ <;> simp at h
      · simp [walkEnd]; norm_num
      · rw [← h.1]; norm_num [walkEnd]
      · rw [← h.2.1]; norm_num [walkEnd]
      · rw [← h.2.2.1]; norm_num [walkEnd])
  exact_mod_cast this

/-! ## C28 -/

theorem returns_of_isSome {R : Type} {f : Nat → Option R} (mono : ∀ n m r, n ≤ m → f n = some r → f m = some r) {n : Nat}
    (h : (f n).isSome) : ∃ r, Returns f r := by
  obtain ⟨r, hr⟩ := Option.isSome_iff_exists.1 h
  exact ⟨r, n, fun m hm => mono n m r hm hr⟩

theorem search?_mono (ops : CostOps K) (h : C → K) (succ : C → List (C × M)) (maxDepth : Int) (cube : C)
    (isTarget : C → Bool) (n m : Nat) (r) (hle : n ≤ m) (hs : search? ops h succ maxDepth n cube isTarget = some r) :
    search? ops h succ maxDepth m cube isTarget = some r :=
  searchLoop_mono ops h succ isTarget cube hle _ _ _ hs

/-- a result reached with some fuel is the result -/
theorem returns_of_eq (ops : CostOps K) (h : C → K) (succ : C → List (C × M)) (maxDepth : Int) (cube : C)
    (isTarget : C → Bool) {n : Nat} {r} (hs : search? ops h succ maxDepth n cube isTarget = some r) :
    Returns (fun fuel => search? ops h succ maxDepth fuel cube isTarget) r :=
  ⟨n, fun _ hm => search?_mono ops h succ maxDepth cube isTarget _ _ r hm hs⟩

/-- **C28** On a puzzle with finitely many states the search ends, whatever the heuristic and the arithmetic. -/
theorem C28_terminates_finite [Fintype C] (ops : CostOps K) (h : C → K) (succ : C → List (C × M)) (maxDepth : Int)
    (cube : C) (isTarget : C → Bool) :
    ∃ r, Returns (fun fuel => search? ops h succ maxDepth fuel cube isTarget) r :=
  returns_of_isSome (fun n m r => search?_mono ops h succ maxDepth cube isTarget n m r) (n := Fintype.card C + 1)
    (searchLoop_total ops (fun b me => searchImpl_total_finite ops h succ isTarget b _ _ _ _ _ (by simp) (by simp)) _ _)

/-- with any heuristic and any arithmetic on a coin -/
example (ops : CostOps Nat) (h : Bool → Nat) : ∃ r, Returns (fun fuel => search? ops h (fun b : Bool => [(!b, ())]) 9 fuel true (fun b => !b)) r :=
  C28_terminates_finite ops h _ 9 true _

/-- **C28** With a heuristic that is not negative the search ends on every puzzle; the recursion is never deeper than
the last bound plus 3. -/
theorem C28_terminates_nonneg (h : C → ℚ) (hh : ∀ c, 0 ≤ h c) (succ : C → List (C × M)) (maxDepth : Int)
    (cube : C) (isTarget : C → Bool) :
    ∃ r, Returns (fun fuel => search? exactOps h succ maxDepth fuel cube isTarget) r := by
  obtain ⟨n, hn⟩ := exists_nat_gt (h cube + ((maxDepth + 1).toNat : ℚ) + 1)
  refine returns_of_isSome (fun n m r => search?_mono exactOps h succ maxDepth cube isTarget n m r) (n := n + 1)
    (searchLoop_total_nonneg hh _ _ ?_ (by omega))
  push_cast
  linarith

/-- also where there is no solution and no end of states -/
example : ∃ r, Returns (fun fuel => search? exactOps (fun _ => 0) (fun n : Int => [(n + 2, 'u'), (n - 2, 'd')]) 10 fuel 0 (fun n => n == 5)) r :=
  C28_terminates_nonneg _ (fun _ => le_rfl) _ 10 0 _

/-- **C28** Completeness, general form. If some walk to a target (without repeated states) has all its estimates at
most `B`, all heuristic values are multiples of `1/q`, and `B ≤ h(start) + max_depth / q`, then the search cannot come back
empty-handed. -/
theorem C28_complete_general (h : C → ℚ) (succ : C → List (C × M)) (isTarget : C → Bool) (q : Nat) (hq : 0 < q)
    (hfr : ∀ c, ∃ z : ℤ, (q : ℚ) * h c = z) (maxDepth : Int) (fuel : Nat) (cube : C) (steps : List (C × M))
    (hw : IsWalk succ cube steps) (ht : isTarget (walkEnd cube steps) = true)
    (hnd : (cube :: steps.map (·.1)).Nodup) (B : ℚ)
    (hB : ∀ pre suf, steps = pre ++ suf → pre.length + h (walkEnd cube pre) ≤ B)
    (hlim : B ≤ h cube + maxDepth / q) :
    search? exactOps h succ maxDepth fuel cube isTarget ≠ some none := by
  have h0 : h cube ≤ B := by simpa [walkEnd] using hB [] steps rfl
  have hq' : (0 : ℚ) < q := by exact_mod_cast hq
  have hmd : (0 : ℚ) ≤ maxDepth := by
    by_contra hc
    push Not at hc
    have : (maxDepth : ℚ) / q < 0 := div_neg_of_neg_of_pos hc hq'
    linarith
  have hmd' : 0 ≤ maxDepth := by exact_mod_cast hmd
  refine searchLoop_found hq hfr hw ht hnd hB _ _ (hfr cube) h0 ?_
  have e : (((maxDepth + 1).toNat : ℕ) : ℚ) = maxDepth + 1 := by
    have : (((maxDepth + 1).toNat : ℕ) : ℤ) = maxDepth + 1 := Int.toNat_of_nonneg (by omega)
    exact_mod_cast congrArg (Int.cast (R := ℚ)) this
  rw [e, add_div]
  have : (0 : ℚ) < 1 / q := by positivity
  linarith

/-- with a heuristic in halves that overestimates, the walk 0, 1, 4 is still found within the limit -/
example (fuel : Nat) : search? exactOps (fun n : Int => if n = 4 then 0 else 5 / 2) (fun n : Int => [(n + 1, 1), (n + 3, 3)]) 4 fuel 0
    (fun n => n == 4) ≠ some none := by
  refine C28_complete_general _ (fun n : Int => [(n + 1, 1), (n + 3, 3)]) (fun n => n == 4) 2 (by decide) (fun c => ?_) 4 fuel 0 [(1, 1), (4, 3)]
    (by simp [IsWalk]) (by decide) (by decide) (7 / 2) (fun pre suf hp => ?_) (by norm_num)
  · by_cases hc : c = 4
    · exact ⟨0, by simp [hc]⟩
    · exact ⟨5, by simp only [hc, if_false]; norm_num⟩
  · match pre, hp with
    | [], _ => norm_num [walkEnd]
    | [_], hp => cases hp; norm_num [walkEnd]
    | [_, _], hp => cases hp; norm_num [walkEnd]

/-- **C28** With an admissible, non-negative, integer valued heuristic the search returns a result exactly if some solution has
at most `h(start) + max_depth` moves. -/
theorem C28_integer (h : C → ℚ) (succ : C → List (C × M)) (isTarget : C → Bool) (hh : ∀ c, 0 ≤ h c)
    (ha : Admissible succ isTarget h) (hz : ∀ c, ∃ z : ℤ, h c = z) (maxDepth : Int) (cube : C) :
    (∃ alg e, Returns (fun fuel => search? exactOps h succ maxDepth fuel cube isTarget) (some (alg, e))) ↔
      ∃ steps, IsWalk succ cube steps ∧ isTarget (walkEnd cube steps) = true ∧ (steps.length : ℚ) ≤ h cube + maxDepth := by
  constructor
  · rintro ⟨alg, e, F, hF⟩
    have hs := hF F le_rfl
    obtain ⟨steps, h1, h2, h3, h4⟩ := C26_search_walk exactOps h succ maxDepth F cube isTarget alg e hs
    refine ⟨steps, h1, by rw [h3]; exact h4, ?_⟩
    have hl := searchLoop_limit hh _ _ hs
    have hlen : steps.length = alg.length := by rw [← h2, List.length_map]
    rw [hlen]
    have hpos : 0 ≤ maxDepth := by
      by_contra hc
      have : (maxDepth + 1).toNat = 0 := by omega
      simp [search?, this, searchLoop] at hs
    have e : (((maxDepth + 1).toNat : ℕ) : ℚ) = maxDepth + 1 := by
      have : (((maxDepth + 1).toNat : ℕ) : ℤ) = maxDepth + 1 := Int.toNat_of_nonneg (by omega)
      exact_mod_cast congrArg (Int.cast (R := ℚ)) this
    rw [e] at hl
    linarith
  · rintro ⟨steps, hw, ht, hl⟩
    obtain ⟨st, h1, h2, h3, h4, -⟩ := exists_simple_walk steps.length cube steps le_rfl hw
    have ht' : isTarget (walkEnd cube st) = true := by rw [h2]; exact ht
    obtain ⟨r, hr⟩ := C28_terminates_nonneg h hh succ maxDepth cube isTarget
    rcases r with _ | ⟨alg, e⟩
    · obtain ⟨F, hF⟩ := hr
      refine absurd (hF F le_rfl) (C28_complete_general h succ isTarget 1 (by norm_num)
        (fun c => ?_) maxDepth F cube st h1 ht' h4 st.length (admissible_estimates ha h1 ht') ?_)
      · obtain ⟨z, hz⟩ := hz c
        exact ⟨z, by simpa using hz⟩
      · have : (st.length : ℚ) ≤ steps.length := by exact_mod_cast h3
        simp
        linarith
    · exact ⟨alg, e, hr⟩

/-- two steps are necessary and sufficient: with the limit 1 nothing is found, with the limit 2 something is -/
example : (∃ alg e, Returns (fun fuel => search? exactOps (fun _ => 0) (fun n : Int => [(n + 1, 1), (n + 3, 3)]) 2 fuel 0 (fun n => n == 4))
    (some (alg, e))) :=
  (C28_integer (fun _ => 0) (fun n : Int => [(n + 1, 1), (n + 3, 3)]) (fun n => n == 4) (fun _ => le_rfl) (fun _ _ _ _ => by simp)
    (fun _ => ⟨0, by simp⟩) 2 0).2 ⟨[(1, 1), (4, 3)], by simp [IsWalk], by decide, by norm_num⟩

/-- **C28** If there is no solution at all, or if `max_depth` is negative, the search returns `None`. -/
theorem C28_none (ops : CostOps K) (h : C → K) (succ : C → List (C × M)) (isTarget : C → Bool) (maxDepth : Int) (cube : C)
    (fuel : Nat) :
    ((∀ steps, IsWalk succ cube steps → isTarget (walkEnd cube steps) = false) →
      ∀ r, search? ops h succ maxDepth fuel cube isTarget = some r → r = none) ∧
    (maxDepth < 0 → search? ops h succ maxDepth fuel cube isTarget = some none) := by
  constructor
  · intro hno r hr
    rcases r with _ | ⟨alg, e⟩
    · rfl
    · obtain ⟨steps, h1, -, h3, h4⟩ := C26_search_walk ops h succ maxDepth fuel cube isTarget alg e hr
      have := hno steps h1
      rw [h3, h4] at this
      cases this
  · intro hm
    have : (maxDepth + 1).toNat = 0 := by omega
    simp [search?, this, searchLoop]

/-- even numbers only: five is never found -/
example (h : Int → ℚ) (maxDepth : Int) (fuel : Nat) (r) (hs : search? exactOps h (fun n : Int => [(n + 2, 'u'), (n - 2, 'd')]) maxDepth fuel 0
    (fun n => n == 5) = some r) : r = none := by
  refine (C28_none exactOps h (fun n : Int => [(n + 2, 'u'), (n - 2, 'd')]) (fun n => n == 5) maxDepth 0 fuel).1 ?_ r hs
  have : ∀ (steps : List (Int × Char)) (c : Int), c % 2 = 0 → IsWalk (fun n : Int => [(n + 2, 'u'), (n - 2, 'd')]) c steps →
      walkEnd c steps % 2 = 0 := by
    intro steps
    induction steps with
    | nil => intro c h _; exact h
    | cons s l ih =>
      intro c h hw
      obtain ⟨h1, h2⟩ := hw
      refine ih s.1 ?_ h2
      simp only [List.mem_cons, List.not_mem_nil, or_false] at h1
      rcases h1 with rfl | rfl <;> show (_ : Int) % 2 = 0 <;> simp only <;> omega
  intro steps hw
  have := this steps 0 rfl hw
  simp only [beq_eq_false_iff_ne]
  omega

/-- **C27, C28 with floats.** If the arithmetic is exact on multiples of `1/q` between 0 and `R`, all heuristic values are such
multiples, at most `H`, and `h(start) + max_depth + 1 + H ≤ R`, then the search gives *the same result* as with exact
arithmetic, so everything above holds for it. -/
theorem C28_floats {ops : CostOps K} {q : Nat} {R : ℚ} (fl : FloatLike ops q R) (h : C → K) (H : ℚ)
    (hok : ∀ c, fl.ok (h c)) (hfr : ∀ c, ∃ z : ℤ, (q : ℚ) * fl.val (h c) = z) (h0 : ∀ c, 0 ≤ fl.val (h c))
    (hH : ∀ c, fl.val (h c) ≤ H) (succ : C → List (C × M)) (isTarget : C → Bool) (maxDepth : Int) (cube : C)
    (hR : fl.val (h cube) + max 0 (maxDepth + 1) + H ≤ R) (fuel : Nat) :
    search? ops h succ maxDepth fuel cube isTarget =
      search? exactOps (fun c => fl.val (h c)) succ maxDepth fuel cube isTarget := by
  refine searchLoop_sim (H := H) (fun c => ⟨hok c, hfr c, h0 c⟩) hH _ _ ⟨hok cube, hfr cube, h0 cube⟩ ?_
  have e : (((maxDepth + 1).toNat : ℕ) : ℚ) = max 0 ((maxDepth : ℚ) + 1) := by
    have : (((maxDepth + 1).toNat : ℕ) : ℤ) = max 0 (maxDepth + 1) := by omega
    have := congrArg (Int.cast (R := ℚ)) this
    push_cast at this
    exact_mod_cast this
  rw [e]
  push_cast at hR
  exact hR

end

/-- A rounding arithmetic that satisfies `FloatLike`: sums that are not multiples of 1/16 below `2^20` are replaced by garbage -/
def sloppyOps : CostOps ℚ :=
  ⟨0, 1, fun a b => if (16 * (a + b)).den = 1 ∧ a + b ≤ 2 ^ 20 then a + b else -1, fun a b => decide (a < b)⟩

/-- the hypotheses of `C28_floats` can be met by an arithmetic that is not exact -/
def sloppyFloat : FloatLike sloppyOps 16 (2 ^ 20) where
  val := id
  ok := fun _ => True
  zero_ok := trivial
  zero_val := rfl
  one_ok := trivial
  one_val := rfl
  add_ok := by
    rintro a b - - - - ⟨x, hx⟩ ⟨y, hy⟩ hle
    refine ⟨trivial, ?_⟩
    have hx' : 16 * a = x := by simpa using hx
    have hy' : 16 * b = y := by simpa using hy
    have hle' : a + b ≤ 2 ^ 20 := hle
    have : (16 * (a + b)).den = 1 := by
      rw [mul_add, hx', hy', ← Int.cast_add]; exact Rat.den_intCast _
    show (if (16 * (a + b)).den = 1 ∧ a + b ≤ 2 ^ 20 then a + b else -1) = a + b
    rw [if_pos ⟨this, hle'⟩]
  lt_val := fun _ _ _ _ => rfl

/-- a small puzzle: the integers, with steps `+1`, `-1` and `+3`; getting from 0 to 5 takes three steps -/
example : search? (M := Int) exactOps (fun _ => 0) (fun n : Int => [(n + 1, 1), (n - 1, -1), (n + 3, 3)]) 10 8 0
    (fun n => n == 5) = some (some ([1, 1, 3], 5)) := by decide +kernel

/-- the same with the (admissible, not integer valued) heuristic `|5 - n| / 3` -/
example : search? (M := Int) exactOps (fun n => (((5 - n).natAbs : ℕ) : ℚ) / 3) (fun n : Int => [(n + 1, 1), (n - 1, -1), (n + 3, 3)]) 10 8 0
    (fun n => n == 5) = some (some ([1, 1, 3], 5)) := by decide +kernel

end Barbarosa
