import Verif.Model.Trace
import Verif.Props.FirstSolution
import Verif.Props.Effects

/-!
# C87: on which states the heuristic is called
-/

namespace Barbarosa

section
variable {C M K : Type}

/-- The walks that a round follows: no state twice, and it goes on from a state only if that is neither cut off nor a
target. `p` are the states before `cube`. -/
def Explored (ops : CostOps K) (h : C → K) (succ : C → List (C × M)) (isTarget : C → Bool) (bound : K) :
    K → C → List C → List Nat → Prop
  | _, _, _, [] => True
  | cost, cube, p, i :: is => ops.lt bound (ops.add cost (h cube)) = false ∧ isTarget cube = false ∧
    ∃ s, (succ cube)[i]? = some s ∧ s.1 ∉ cube :: p ∧
      Explored ops h succ isTarget bound (ops.add cost ops.one) s.1 (cube :: p) is

/-- the state to which the places lead -/
def stateAlong (succ : C → List (C × M)) (c : C) (is : List Nat) : Option C := (walkAlong succ c is).map (walkEnd c)

theorem stateAlong_cons {succ : C → List (C × M)} {c : C} {i : Nat} {s : C × M} (h : (succ c)[i]? = some s) (is : List Nat) :
    stateAlong succ c (i :: is) = stateAlong succ s.1 is := by
  unfold stateAlong
  simp only [walkAlong, h, Option.map_map]
  rfl

/-- strictly earlier in the dictionary -/
def Earlier (a b : List Nat) : Prop := NotAfter a b ∧ a ≠ b

theorem earlier_cons {i : Nat} {a b : List Nat} (h : Earlier a b) : Earlier (i :: a) (i :: b) :=
  ⟨Or.inr ⟨rfl, h.1⟩, fun e => h.2 (List.cons.inj e).2⟩

variable [DecidableEq C]

/-! ## Forgetting the record -/

theorem searchForT_erase {recT : List C → K → Option ((Option (List M) × List C × K) × List C)}
    {rec : List C → K → Option (Option (List M) × List C × K)} (hr : ∀ p me, (recT p me).map (·.1) = rec p me) :
    ∀ (l : List (C × M)) path me, (searchForT recT l path me).map (·.1) = searchFor rec l path me := by
  intro l
  induction l with
  | nil => intro path me; rfl
  | cons s l ih =>
    obtain ⟨s, m⟩ := s
    intro path me
    unfold searchForT searchFor
    split
    · exact ih path me
    · rw [← hr]
      rcases recT (s :: path) me with _ | ⟨⟨_ | sol, path', me'⟩, t⟩
      · rfl
      · simp only [Option.map_some, Option.map_map]
        rw [← ih]
        rfl
      · rfl

theorem searchImplT_erase (ops : CostOps K) (h : C → K) (succ : C → List (C × M)) (isTarget : C → Bool) (bound : K) :
    ∀ (fuel : Nat) (cost : K) (path : List C) (me : K),
      (searchImplT ops h succ isTarget bound fuel cost path me).map (·.1) =
        searchImpl ops h succ isTarget bound fuel cost path me := by
  intro fuel
  induction fuel with
  | zero => intro _ _ _; rfl
  | succ fuel ih =>
    intro cost path me
    cases path with
    | nil => rfl
    | cons cube p =>
      unfold searchImplT searchImpl
      simp only
      split
      · rfl
      · split
        · rfl
        · rw [Option.map_map, ← searchForT_erase (ih _)]
          rfl

theorem searchLoopT_erase (ops : CostOps K) (h : C → K) (succ : C → List (C × M)) (isTarget : C → Bool) (fuel : Nat) (cube : C) :
    ∀ (k : Nat) (bound : K), (searchLoopT ops h succ isTarget fuel cube k bound).map (·.1) =
      searchLoop ops h succ isTarget fuel cube k bound := by
  intro k
  induction k with
  | zero => intro _; rfl
  | succ k ih =>
    intro bound
    unfold searchLoopT searchLoop
    rw [← searchImplT_erase]
    rcases searchImplT ops h succ isTarget bound fuel ops.zero [cube] (ops.add bound ops.one) with _ | ⟨⟨_ | sol, path, me⟩, t⟩
    · rfl
    · simp only [Option.map_some, Option.map_map]
      rw [← ih]
      rfl
    · rfl

/-- **C87** The search with a record gives the answers of the search. -/
theorem C87_same_search (ops : CostOps K) (h : C → K) (succ : C → List (C × M)) (maxDepth : Int) (fuel : Nat) (cube : C)
    (isTarget : C → Bool) :
    (searchT? ops h succ maxDepth fuel cube isTarget).map (·.1) = search? ops h succ maxDepth fuel cube isTarget := by
  unfold searchT? search?
  rw [Option.map_map, ← searchLoopT_erase]
  rfl

example : (searchT? exactOps (fun _ => 0) diamond 5 9 0 (· = 3)).map (·.1) = some (some (['a', 'x'], 3)) :=
  (C87_same_search _ _ _ _ _ _ _).trans (by decide +kernel)

/-! ## What is recorded in one round -/

/-- what the record of one call is -/
def Recorded (ops : CostOps K) (h : C → K) (succ : C → List (C × M)) (isTarget : C → Bool) (bound cost : K) (cube : C)
    (p : List C) (ans : Option (List M)) (path' : List C) (t : List C) : Prop :=
  ∃ L : List (List Nat), t.map some = L.map (stateAlong succ cube) ∧ L.Pairwise Earlier ∧
    match ans with
    | none => path' = cube :: p ∧ ∀ is, is ∈ L ↔ Explored ops h succ isTarget bound cost cube p is
    | some sol => ∃ a steps, Qual ops h succ isTarget bound cost cube p a ∧ walkAlong succ cube a = some steps ∧
        steps.map (·.2) = sol.reverse ∧
        ∀ is, is ∈ L ↔ Explored ops h succ isTarget bound cost cube p is ∧ NotAfter is a

theorem searchForT_recorded {ops : CostOps K} {h : C → K} {succ : C → List (C × M)} {isTarget : C → Bool} {bound cost : K}
    {rec : List C → K → Option ((Option (List M) × List C × K) × List C)} (cube : C) (p : List C)
    (hr : ∀ s me ans path' me' t, rec (s :: cube :: p) me = some ((ans, path', me'), t) →
      Recorded ops h succ isTarget bound cost s (cube :: p) ans path' t) :
    ∀ (l : List (C × M)) (k : Nat), l = (succ cube).drop k → ∀ me ans path' me' t,
      searchForT rec l (cube :: p) me = some ((ans, path', me'), t) →
      ∃ L : List (List Nat), t.map some = L.map (stateAlong succ cube) ∧ L.Pairwise Earlier ∧ [] ∉ L ∧
        (∀ i is, i :: is ∈ L → k ≤ i) ∧
        match ans with
        | none => path' = cube :: p ∧ ∀ i is, i :: is ∈ L ↔ k ≤ i ∧ ∃ s, (succ cube)[i]? = some s ∧ s.1 ∉ cube :: p ∧
            Explored ops h succ isTarget bound cost s.1 (cube :: p) is
        | some sol => ∃ j js s steps, k ≤ j ∧ (succ cube)[j]? = some s ∧ s.1 ∉ cube :: p ∧
            Qual ops h succ isTarget bound cost s.1 (cube :: p) js ∧ walkAlong succ s.1 js = some steps ∧
            (s :: steps).map (·.2) = sol.reverse ∧
            ∀ i is, i :: is ∈ L ↔ (k ≤ i ∧ ∃ s, (succ cube)[i]? = some s ∧ s.1 ∉ cube :: p ∧
              Explored ops h succ isTarget bound cost s.1 (cube :: p) is) ∧ NotAfter (i :: is) (j :: js) := by
  intro l
  induction l with
  | nil =>
    intro k hk me ans path' me' t hs
    cases hs
    refine ⟨[], rfl, List.Pairwise.nil, by simp, by simp, rfl, fun i is => ?_⟩
    have := (List.drop_eq_nil_iff.1 hk.symm)
    constructor
    · intro hm; cases hm
    · rintro ⟨hi, s, hget, -⟩
      rw [List.getElem?_eq_none (by omega)] at hget
      cases hget
  | cons s l ih =>
    obtain ⟨s, m⟩ := s
    intro k hk me ans path' me' t hs
    have hget : (succ cube)[k]? = some (s, m) := by
      have : ((succ cube).drop k)[0]? = some (s, m) := by rw [← hk]; rfl
      simpa using this
    have hk' : l = (succ cube).drop (k + 1) := by
      rw [← List.drop_drop, ← hk]; rfl
    unfold searchForT at hs
    split at hs
    · -- the successor is on the path
      rename_i hm
      have skip : ∀ i is, (k ≤ i ∧ ∃ s, (succ cube)[i]? = some s ∧ s.1 ∉ cube :: p ∧
          Explored ops h succ isTarget bound cost s.1 (cube :: p) is) ↔
          (k + 1 ≤ i ∧ ∃ s, (succ cube)[i]? = some s ∧ s.1 ∉ cube :: p ∧
          Explored ops h succ isTarget bound cost s.1 (cube :: p) is) := by
        intro i is
        constructor
        · rintro ⟨hi, s', h1, h2, h3⟩
          refine ⟨?_, s', h1, h2, h3⟩
          rcases Nat.lt_or_ge k i with h | h
          · exact h
          · obtain rfl : i = k := by omega
            rw [hget] at h1; cases h1; exact absurd hm h2
        · rintro ⟨hi, h⟩; exact ⟨by omega, h⟩
      obtain ⟨L, h1, h2, h3, h4, h5⟩ := ih (k + 1) hk' me ans path' me' t hs
      refine ⟨L, h1, h2, h3, fun i is hi => by have := h4 i is hi; omega, ?_⟩
      cases ans with
      | none => exact ⟨h5.1, fun i is => by rw [h5.2, skip]⟩
      | some sol =>
        obtain ⟨j, js, s', steps, g1, g2, g3, g4, g5, g6, g7⟩ := h5
        exact ⟨j, js, s', steps, by omega, g2, g3, g4, g5, g6, fun i is => by rw [g7, skip]⟩
    · rename_i hm
      rcases hrec : rec (s :: cube :: p) me with _ | ⟨⟨_ | sol, path₁, me₁⟩, t₁⟩
      · rw [hrec] at hs; cases hs
      · -- nothing found below this successor
        rw [hrec] at hs
        obtain ⟨L₁, a1, a2, rfl, a3⟩ := hr s me none path₁ me₁ t₁ hrec
        obtain ⟨⟨⟨ans', path'', me''⟩, t₂⟩, hs2, he⟩ := Option.map_eq_some_iff.1 hs
        cases he
        obtain ⟨L₂, h1, h2, h3, h4, h5⟩ := ih (k + 1) hk' _ _ _ _ _ hs2
        have split : ∀ i is, i :: is ∈ L₁.map (k :: ·) ++ L₂ ↔ (i = k ∧ is ∈ L₁) ∨ i :: is ∈ L₂ := by
          intro i is
          simp only [List.mem_append, List.mem_map, List.cons.injEq]
          constructor
          · rintro (⟨x, hx, rfl, rfl⟩ | h)
            · exact Or.inl ⟨rfl, hx⟩
            · exact Or.inr h
          · rintro (⟨rfl, hx⟩ | h)
            · exact Or.inl ⟨is, hx, rfl, rfl⟩
            · exact Or.inr h
        have step : ∀ i is, (k ≤ i ∧ ∃ s, (succ cube)[i]? = some s ∧ s.1 ∉ cube :: p ∧
            Explored ops h succ isTarget bound cost s.1 (cube :: p) is) ↔
            (i = k ∧ is ∈ L₁) ∨ (k + 1 ≤ i ∧ ∃ s, (succ cube)[i]? = some s ∧ s.1 ∉ cube :: p ∧
            Explored ops h succ isTarget bound cost s.1 (cube :: p) is) := by
          intro i is
          constructor
          · rintro ⟨hi, s', g1, g2, g3⟩
            rcases Nat.lt_or_ge k i with h | h
            · exact Or.inr ⟨h, s', g1, g2, g3⟩
            · obtain rfl : i = k := by omega
              rw [hget] at g1; cases g1
              exact Or.inl ⟨rfl, (a3 is).2 g3⟩
          · rintro (⟨rfl, hx⟩ | ⟨hi, h⟩)
            · exact ⟨le_rfl, (s, m), hget, hm, (a3 is).1 hx⟩
            · exact ⟨by omega, h⟩
        refine ⟨L₁.map (k :: ·) ++ L₂, ?_, ?_, ?_, ?_, ?_⟩
        · rw [List.map_append, List.map_append, h1, a1, List.map_map]
          congr 1
          exact List.map_congr_left fun is _ => (stateAlong_cons hget is).symm
        · refine List.pairwise_append.2 ⟨List.pairwise_map.2 (a2.imp earlier_cons), h2, ?_⟩
          intro x hx y hy
          obtain ⟨x', -, rfl⟩ := List.mem_map.1 hx
          cases y with
          | nil => exact absurd hy h3
          | cons j y =>
            have := h4 j y hy
            exact ⟨Or.inl (by omega), fun e => by have := (List.cons.inj e).1; omega⟩
        · simp [h3]
        · intro i is hi
          rcases (split i is).1 hi with ⟨rfl, -⟩ | hi
          · exact le_rfl
          · have := h4 i is hi; omega
        · cases ans with
          | none => exact ⟨h5.1, fun i is => by rw [split, step, h5.2]⟩
          | some sol =>
            obtain ⟨j, js, s', steps, g1, g2, g3, g4, g5, g6, g7⟩ := h5
            refine ⟨j, js, s', steps, by omega, g2, g3, g4, g5, g6, fun i is => ?_⟩
            rw [split, step, g7]
            constructor
            · rintro (⟨rfl, hx⟩ | ⟨hx, hn⟩)
              · exact ⟨Or.inl ⟨rfl, hx⟩, Or.inl (by omega)⟩
              · exact ⟨Or.inr hx, hn⟩
            · rintro ⟨hx | hx, hn⟩
              · exact Or.inl hx
              · exact Or.inr ⟨hx, hn⟩
      · -- found
        rw [hrec] at hs
        cases hs
        obtain ⟨L₁, a1, a2, a, steps, b1, b2, b3, b4⟩ := hr s me (some sol) _ _ _ hrec
        refine ⟨L₁.map (k :: ·), ?_, List.pairwise_map.2 (a2.imp earlier_cons), by simp, ?_, k, a, (s, m), steps, le_rfl, hget,
          hm, b1, b2, by simp [b3], fun i is => ?_⟩
        · rw [a1, List.map_map]
          exact List.map_congr_left fun is _ => (stateAlong_cons hget is).symm
        · intro i is hi
          obtain ⟨x, -, hx⟩ := List.mem_map.1 hi
          have := (List.cons.inj hx).1
          omega
        · simp only [List.mem_map, List.cons.injEq]
          constructor
          · rintro ⟨x, hx, rfl, rfl⟩
            obtain ⟨c1, c2⟩ := (b4 x).1 hx
            exact ⟨⟨le_rfl, (s, m), hget, hm, c1⟩, Or.inr ⟨rfl, c2⟩⟩
          · rintro ⟨⟨hi, s', g1, g2, g3⟩, hn | ⟨rfl, hn⟩⟩
            · omega
            · rw [hget] at g1; cases g1
              exact ⟨is, (b4 is).2 ⟨g3, hn⟩, rfl, rfl⟩

theorem searchImplT_recorded (ops : CostOps K) (h : C → K) (succ : C → List (C × M)) (isTarget : C → Bool) (bound : K) :
    ∀ (fuel : Nat) (cost : K) (cube : C) (p : List C) (me : K) ans path' me' t,
      searchImplT ops h succ isTarget bound fuel cost (cube :: p) me = some ((ans, path', me'), t) →
      Recorded ops h succ isTarget bound cost cube p ans path' t := by
  intro fuel
  induction fuel with
  | zero => intro _ _ _ _ _ _ _ _ hs; cases hs
  | succ fuel ih =>
    intro cost cube p me ans path' me' t hs
    unfold searchImplT at hs
    simp only at hs
    split at hs
    · rename_i hc
      cases hs
      refine ⟨[[]], rfl, List.pairwise_singleton _ _, rfl, fun is => ?_⟩
      cases is with
      | nil => simp [Explored]
      | cons i is =>
        simp only [List.mem_singleton, reduceCtorEq, false_iff]
        intro hq
        rw [hq.1] at hc; cases hc
    · rename_i hc
      have hc : ops.lt bound (ops.add cost (h cube)) = false := by simpa using hc
      split at hs
      · rename_i ht
        cases hs
        refine ⟨[[]], rfl, List.pairwise_singleton _ _, [], [], ⟨hc, ht⟩, rfl, rfl, fun is => ?_⟩
        cases is with
        | nil => simp [Explored, NotAfter]
        | cons i is => simp [NotAfter]
      · rename_i ht
        have ht : isTarget cube = false := by simpa using ht
        obtain ⟨⟨⟨ans', path'', me''⟩, t'⟩, hs2, he⟩ := Option.map_eq_some_iff.1 hs
        cases he
        obtain ⟨L, h1, h2, h3, -, h5⟩ := searchForT_recorded (ops := ops) (h := h) (succ := succ) (isTarget := isTarget)
          (bound := bound) (cost := ops.add cost ops.one) cube p
          (fun s me ans path' me' t => ih _ s (cube :: p) me ans path' me' t) (succ cube) 0 rfl _ _ _ _ _ hs2
        refine ⟨[] :: L, by simp [h1, stateAlong, walkAlong, walkEnd], List.pairwise_cons.2 ⟨fun x hx => ⟨trivial, ?_⟩, h2⟩, ?_⟩
        · rintro rfl; exact h3 hx
        · have ex : ∀ i is, Explored ops h succ isTarget bound cost cube p (i :: is) ↔ 0 ≤ i ∧ ∃ s, (succ cube)[i]? = some s ∧
              s.1 ∉ cube :: p ∧ Explored ops h succ isTarget bound (ops.add cost ops.one) s.1 (cube :: p) is := fun i is => by
            simp [Explored, hc, ht]
          cases ans with
          | none =>
            refine ⟨h5.1, fun is => ?_⟩
            cases is with
            | nil => simp [Explored]
            | cons i is => rw [ex, ← h5.2]; simp
          | some sol =>
            obtain ⟨j, js, s', steps, g1, g2, g3, g4, g5, g6, g7⟩ := h5
            refine ⟨j :: js, s' :: steps, ⟨hc, ht, s', g2, g3, g4⟩, by simp only [walkAlong, g2, g5, Option.map_some], g6, ?_⟩
            intro is
            cases is with
            | nil => simp [Explored, NotAfter]
            | cons i is => rw [ex, ← g7]; simp

/-- **C87** A round that finds nothing calls the heuristic on exactly the states at the ends of the walks that have no state
twice and go on only from states within the bound that are no targets: once for each walk, in the order of a dictionary. -/
theorem C87_failing_round (ops : CostOps K) (h : C → K) (succ : C → List (C × M)) (isTarget : C → Bool) (bound me : K)
    (fuel : Nat) (cube : C) path' me' t
    (hs : searchImplT ops h succ isTarget bound fuel ops.zero [cube] me = some ((none, path', me'), t)) :
    ∃ L : List (List Nat), t.map some = L.map (stateAlong succ cube) ∧ L.Pairwise Earlier ∧
      ∀ is, is ∈ L ↔ Explored ops h succ isTarget bound ops.zero cube [] is := by
  obtain ⟨L, h1, h2, -, h3⟩ := searchImplT_recorded ops h succ isTarget bound fuel ops.zero cube [] me none path' me' t hs
  exact ⟨L, h1, h2, h3⟩

/-- the round with the bound 0 on the diamond: the start and both states next to it -/
example : searchImplT exactOps (fun _ => 0) diamond (· = 3) 0 9 0 [0] 1 = some ((none, [0], 1), [0, 1, 2]) := by decide +kernel

/-- **C87** A round that finds a solution calls it on those among them that do not come after the solution. -/
theorem C87_successful_round (ops : CostOps K) (h : C → K) (succ : C → List (C × M)) (isTarget : C → Bool) (bound me : K)
    (fuel : Nat) (cube : C) sol path' me' t
    (hs : searchImplT ops h succ isTarget bound fuel ops.zero [cube] me = some ((some sol, path', me'), t)) :
    ∃ (L : List (List Nat)) (a : List Nat) (steps : List (C × M)), t.map some = L.map (stateAlong succ cube) ∧
      L.Pairwise Earlier ∧ walkAlong succ cube a = some steps ∧ steps.map (·.2) = sol.reverse ∧
      isTarget (walkEnd cube steps) = true ∧ a ∈ L ∧
      ∀ is, is ∈ L ↔ Explored ops h succ isTarget bound ops.zero cube [] is ∧ NotAfter is a := by
  obtain ⟨L, h1, h2, a, steps, g1, g2, g3, g4⟩ :=
    searchImplT_recorded ops h succ isTarget bound fuel ops.zero cube [] me (some sol) path' me' t hs
  refine ⟨L, a, steps, h1, h2, g2, g3, qual_target g1 g2, (g4 a).2 ⟨?_, NotAfter.refl a⟩, g4⟩
  clear * - g1
  suffices ∀ (a : List Nat) (cost : K) (cube : C) (p : List C), Qual ops h succ isTarget bound cost cube p a →
      Explored ops h succ isTarget bound cost cube p a from this _ _ _ _ g1
  intro a
  induction a with
  | nil => intro _ _ _ _; trivial
  | cons i a ih =>
    rintro cost cube p ⟨q1, q2, s, q3, q4, q5⟩
    exact ⟨q1, q2, s, q3, q4, ih _ _ _ q5⟩

/-- the round with the bound 2: the second state next to the start is not looked at -/
example : searchImplT exactOps (fun _ => 0) diamond (· = 3) 2 9 0 [0] 3 = some ((some ['x', 'a'], [3, 1, 0], 3), [0, 1, 3]) := by decide +kernel

/-! ## Only reachable states -/

omit [DecidableEq C] in
theorem recorded_reachable {ops : CostOps K} {h : C → K} {succ : C → List (C × M)} {isTarget : C → Bool} {bound cost : K}
    {cube : C} {p : List C} {ans : Option (List M)} {path' t : List C}
    (hr : Recorded ops h succ isTarget bound cost cube p ans path' t) :
    ∀ x ∈ t, ∃ steps, IsWalk succ cube steps ∧ walkEnd cube steps = x := by
  intro x hx
  obtain ⟨L, h1, -⟩ := hr
  have : some x ∈ L.map (stateAlong succ cube) := by rw [← h1]; exact List.mem_map.2 ⟨x, hx, rfl⟩
  obtain ⟨is, -, he⟩ := List.mem_map.1 this
  obtain ⟨steps, g1, g2⟩ := Option.map_eq_some_iff.1 he
  exact ⟨steps, (walkAlong_isWalk g1).1, g2⟩

/-- **C87** The heuristic is called only on states that can be reached from the start; at least on the start. -/
theorem C87_only_reachable (ops : CostOps K) (h : C → K) (succ : C → List (C × M)) (maxDepth : Int) (fuel : Nat) (cube : C)
    (isTarget : C → Bool) (r : Option (List M × C)) (t : List C)
    (hs : searchT? ops h succ maxDepth fuel cube isTarget = some (r, t)) :
    cube ∈ t ∧ ∀ x ∈ t, ∃ steps, IsWalk succ cube steps ∧ walkEnd cube steps = x := by
  have key : ∀ (k : Nat) (b : K) r t, searchLoopT ops h succ isTarget fuel cube k b = some (r, t) →
      ∀ x ∈ t, ∃ steps, IsWalk succ cube steps ∧ walkEnd cube steps = x := by
    intro k
    induction k with
    | zero => intro b r t hs; cases hs; simp
    | succ k ih =>
      intro b r t hs
      unfold searchLoopT at hs
      rcases hi : searchImplT ops h succ isTarget b fuel ops.zero [cube] (ops.add b ops.one) with
        _ | ⟨⟨_ | sol, path, me⟩, t₁⟩
      · rw [hi] at hs; cases hs
      · rw [hi] at hs
        obtain ⟨⟨r', t₂⟩, h1, h2⟩ := Option.map_eq_some_iff.1 hs
        cases h2
        intro x hx
        rcases List.mem_append.1 hx with hx | hx
        · exact recorded_reachable (searchImplT_recorded ops h succ isTarget b _ _ _ _ _ _ _ _ _ hi) x hx
        · exact ih me _ _ h1 x hx
      · rw [hi] at hs
        cases hs
        exact recorded_reachable (searchImplT_recorded ops h succ isTarget b _ _ _ _ _ _ _ _ _ hi)
  obtain ⟨⟨r', t'⟩, h1, h2⟩ := Option.map_eq_some_iff.1 hs
  cases h2
  refine ⟨by simp, fun x hx => ?_⟩
  rcases List.mem_cons.1 hx with rfl | hx
  · exact ⟨[], trivial, rfl⟩
  · exact key _ _ _ _ h1 x hx

/-- on the diamond -/
example : ∀ x ∈ [0, 0, 1, 2, 0, 1, 3, 2, 3, 0, 1, 3], ∃ steps, IsWalk diamond 0 steps ∧ walkEnd 0 steps = x :=
  (C87_only_reachable exactOps (fun _ => 0) diamond 5 9 0 (· = 3) (some (['a', 'x'], 3)) _ (by decide +kernel)).2

/-! ## Heuristics that panic -/

/-- the answer, or a panic if the heuristic panics on a recorded state -/
def unlessPanic {R : Type} (hp : C → Option K) (r : Option (R × List C)) : Option R :=
  r.bind fun x => if ∀ c ∈ x.2, (hp c).isSome then some x.1 else none

theorem searchFor_panic {hp : C → Option K} {recT : List C → K → Option ((Option (List M) × List C × K) × List C)}
    {rec : List C → K → Option (Option (List M) × List C × K)} (hr : ∀ p me, rec p me = unlessPanic hp (recT p me)) :
    ∀ (l : List (C × M)) path me, searchFor rec l path me = unlessPanic hp (searchForT recT l path me) := by
  intro l
  induction l with
  | nil => intro path me; simp [searchFor, searchForT, unlessPanic]
  | cons s l ih =>
    obtain ⟨s, m⟩ := s
    intro path me
    unfold searchForT searchFor
    split
    · exact ih path me
    · rw [hr]
      rcases recT (s :: path) me with _ | ⟨⟨_ | sol, path', me'⟩, t⟩
      · rfl
      · by_cases ht : ∀ c ∈ t, (hp c).isSome
        · simp only [unlessPanic, Option.bind_some, if_pos ht, ih]
          rcases searchForT recT l path'.tail me' with _ | ⟨r, t₂⟩
          · rfl
          · simp only [Option.map_some, Option.bind_some, List.forall_mem_append]
            exact if_congr ⟨fun h => ⟨ht, h⟩, fun h => h.2⟩ rfl rfl
        · simp only [unlessPanic, Option.bind_some, if_neg ht]
          rcases searchForT recT l path'.tail me' with _ | ⟨r, t₂⟩
          · rfl
          · simp only [Option.map_some, Option.bind_some, List.forall_mem_append, ht, false_and, if_false]
      · by_cases ht : ∀ c ∈ t, (hp c).isSome
        · simp only [unlessPanic, Option.bind_some, if_pos ht]
        · simp only [unlessPanic, Option.bind_some, if_neg ht]

theorem searchImplP_eq (ops : CostOps K) (hp : C → Option K) (k₀ : K) (succ : C → List (C × M)) (isTarget : C → Bool) (bound : K) :
    ∀ (fuel : Nat) (cost : K) (path : List C) (me : K), searchImplP ops hp succ isTarget bound fuel cost path me =
      unlessPanic hp (searchImplT ops (fun c => (hp c).getD k₀) succ isTarget bound fuel cost path me) := by
  intro fuel
  induction fuel with
  | zero => intro _ _ _; rfl
  | succ fuel ih =>
    intro cost path me
    cases path with
    | nil => rfl
    | cons cube p =>
      unfold searchImplP searchImplT
      rcases e : hp cube with _ | x
      · simp only
        split
        · simp [unlessPanic, e]
        · split
          · simp [unlessPanic, e]
          · rcases searchForT _ (succ cube) (cube :: p) me with _ | ⟨r, t⟩
            · rfl
            · simp [unlessPanic, e]
      · simp only [Option.getD_some]
        split
        · simp [unlessPanic, e]
        · split
          · simp [unlessPanic, e]
          · rw [searchFor_panic (ih _)]
            rcases searchForT _ (succ cube) (cube :: p) me with _ | ⟨r, t⟩
            · rfl
            · simp only [unlessPanic, Option.map_some, Option.bind_some, List.forall_mem_cons, e, Option.isSome_some, true_and]

/-- **C87** A search panics exactly if the heuristic panics on one of the recorded states. (What the heuristic would have
answered there, `k₀`, does not matter for the rest of the record.) -/
theorem C87_panics (ops : CostOps K) (hp : C → Option K) (k₀ : K) (succ : C → List (C × M)) (maxDepth : Int) (fuel : Nat)
    (cube : C) (isTarget : C → Bool) (r : Option (List M × C)) (t : List C)
    (hs : searchT? ops (fun c => (hp c).getD k₀) succ maxDepth fuel cube isTarget = some (r, t)) :
    searchP? ops hp succ maxDepth fuel cube isTarget = if ∀ c ∈ t, (hp c).isSome then some r else none := by
  have key : ∀ (k : Nat) (b : K), searchLoopP ops hp succ isTarget fuel cube k b =
      unlessPanic hp (searchLoopT ops (fun c => (hp c).getD k₀) succ isTarget fuel cube k b) := by
    intro k
    induction k with
    | zero => intro b; simp [searchLoopP, searchLoopT, unlessPanic]
    | succ k ih =>
      intro b
      unfold searchLoopP searchLoopT
      rw [searchImplP_eq ops hp k₀]
      rcases searchImplT ops (fun c => (hp c).getD k₀) succ isTarget b fuel ops.zero [cube] (ops.add b ops.one) with
        _ | ⟨⟨_ | sol, path, me⟩, t⟩
      · rfl
      · by_cases ht : ∀ c ∈ t, (hp c).isSome
        · simp only [unlessPanic, Option.bind_some, if_pos ht, ih]
          rcases searchLoopT ops (fun c => (hp c).getD k₀) succ isTarget fuel cube k me with _ | ⟨r, t₂⟩
          · rfl
          · simp only [Option.map_some, Option.bind_some, List.forall_mem_append]
            exact if_congr ⟨fun h => ⟨ht, h⟩, fun h => h.2⟩ rfl rfl
        · simp only [unlessPanic, Option.bind_some, if_neg ht]
          rcases searchLoopT ops (fun c => (hp c).getD k₀) succ isTarget fuel cube k me with _ | ⟨r, t₂⟩
          · rfl
          · simp only [Option.map_some, Option.bind_some, List.forall_mem_append, ht, false_and, if_false]
      · by_cases ht : ∀ c ∈ t, (hp c).isSome
        · simp only [unlessPanic, Option.bind_some, if_pos ht]
        · simp only [unlessPanic, Option.bind_some, if_neg ht]
  obtain ⟨⟨r', t'⟩, h1, h2⟩ := Option.map_eq_some_iff.1 hs
  cases h2
  unfold searchP?
  rcases e : hp cube with _ | x
  · simp [e]
  · simp only
    have h1' : searchLoopT ops (fun c => (hp c).getD k₀) succ isTarget fuel cube (maxDepth + 1).toNat x = some (r', t') := by
      have : (hp cube).getD k₀ = x := by rw [e]; rfl
      rw [← this]; exact h1
    rw [key, h1']
    simp only [unlessPanic, Option.bind_some, List.forall_mem_cons, e, Option.isSome_some, true_and]

theorem searchFor_congr {rec rec' : List C → K → Option (Option (List M) × List C × K)} :
    ∀ (l : List (C × M)), (∀ s ∈ l, ∀ path me, rec (s.1 :: path) me = rec' (s.1 :: path) me) → ∀ path me,
      searchFor rec l path me = searchFor rec' l path me := by
  intro l
  induction l with
  | nil => intro _ _ _; rfl
  | cons s l ih =>
    obtain ⟨s, m⟩ := s
    intro hr path me
    have ih := ih fun s hs => hr s (List.mem_cons_of_mem _ hs)
    unfold searchFor
    rw [hr (s, m) (by simp)]
    simp only [ih]

theorem searchImplP_closed (ops : CostOps K) (hp : C → Option K) (h : C → K) (succ : C → List (C × M)) (isTarget : C → Bool)
    (S : C → Prop) (hS : ∀ c, S c → ∀ s ∈ succ c, S s.1) (hh : ∀ c, S c → hp c = some (h c)) (bound : K) :
    ∀ (fuel : Nat) (cost : K) (cube : C) (p : List C) (me : K), S cube →
      searchImplP ops hp succ isTarget bound fuel cost (cube :: p) me =
        searchImpl ops h succ isTarget bound fuel cost (cube :: p) me := by
  intro fuel
  induction fuel with
  | zero => intro _ _ _ _ _; rfl
  | succ fuel ih =>
    intro cost cube p me hc
    unfold searchImplP searchImpl
    rw [hh cube hc]
    simp only
    rw [searchFor_congr (succ cube) fun s hs path me => ih _ s.1 path me (hS cube hc s hs)]

/-- **C87** A heuristic that does not panic on the states that can be reached from the start does not panic during the search,
and what it does on other states has no influence on the answer. -/
theorem C87_no_panic (ops : CostOps K) (hp : C → Option K) (h : C → K) (succ : C → List (C × M)) (maxDepth : Int) (fuel : Nat)
    (cube : C) (isTarget : C → Bool)
    (hh : ∀ steps, IsWalk succ cube steps → hp (walkEnd cube steps) = some (h (walkEnd cube steps))) :
    searchP? ops hp succ maxDepth fuel cube isTarget = search? ops h succ maxDepth fuel cube isTarget := by
  have key : ∀ (k : Nat) (b : K), searchLoopP ops hp succ isTarget fuel cube k b =
      searchLoop ops h succ isTarget fuel cube k b := by
    intro k
    induction k with
    | zero => intro b; rfl
    | succ k ih =>
      intro b
      unfold searchLoopP searchLoop
      rw [searchImplP_closed ops hp h succ isTarget (fun c => ∃ steps, IsWalk succ cube steps ∧ walkEnd cube steps = c) ?_ ?_ b
        fuel ops.zero cube [] _ ⟨[], trivial, rfl⟩]
      · rcases searchImpl ops h succ isTarget b fuel ops.zero [cube] (ops.add b ops.one) with _ | ⟨_ | sol, path, me⟩
        · rfl
        · exact ih me
        · rfl
      · rintro c ⟨steps, h1, rfl⟩ s hs
        exact ⟨steps ++ [s], isWalk_append.2 ⟨h1, hs, trivial⟩, by rw [walkEnd_append]; rfl⟩
      · rintro c ⟨steps, h1, rfl⟩
        exact hh steps h1
  have h0 := hh [] trivial
  simp only [walkEnd] at h0
  unfold searchP? search?
  rw [h0]
  exact key _ _

/-- a heuristic that panics on a state that cannot be reached -/
example : searchP? exactOps (fun c : Fin 5 => if c = 4 then none else some 0)
    (fun c => if c.val < 3 then [(c + 1, 'n')] else []) 9 9 0 (· = 3) =
    search? exactOps (fun _ => 0) (fun c : Fin 5 => if c.val < 3 then [(c + 1, 'n')] else []) 9 9 0 (· = 3) := by
  refine C87_no_panic _ _ _ _ _ _ _ _ fun steps hw => ?_
  have : ∀ (steps : List (Fin 5 × Char)) (c : Fin 5), c ≠ 4 →
      IsWalk (fun c : Fin 5 => if c.val < 3 then [(c + 1, 'n')] else []) c steps → walkEnd c steps ≠ 4 := by
    intro steps
    induction steps with
    | nil => intro c h _; exact h
    | cons s l ih =>
      intro c h hw
      obtain ⟨h1, h2⟩ := hw
      refine ih s.1 ?_ h2
      have next : ∀ c : Fin 5, c.val < 3 → c + 1 ≠ 4 := by decide
      simp only at h1
      split at h1
      · rw [List.mem_singleton.1 h1]
        exact next c (by assumption)
      · simp at h1
  rw [if_neg (this steps 0 (by decide) hw)]

/-! ## How many calls -/

/-- at most this many calls below a state that is not the start, if `d` further steps are within the bound -/
def callsBelow (b : Nat) : Nat → Nat
  | 0 => 1
  | d + 1 => 1 + b * callsBelow b d

theorem callsBelow_eq (b d : Nat) : callsBelow b d = ∑ k ∈ Finset.range (d + 1), b ^ k := by
  induction d with
  | zero => simp [callsBelow]
  | succ d ih =>
    rw [callsBelow, ih, Finset.sum_range_succ' _ (d + 1), Finset.mul_sum, pow_zero, add_comm]
    congr 1
    exact Finset.sum_congr rfl fun k _ => by ring

theorem callsBelow_mono (b : Nat) {d d' : Nat} (h : d ≤ d') : callsBelow b d ≤ callsBelow b d' := by
  rw [callsBelow_eq, callsBelow_eq]
  exact Finset.sum_le_sum_of_subset (Finset.range_mono (by omega))

theorem searchForT_count {rec : List C → K → Option ((Option (List M) × List C × K) × List C)} {G : Nat} (cube : C) (p : List C)
    (hp : ∀ s me path' me' t, rec (s :: cube :: p) me = some ((none, path', me'), t) → path' = s :: cube :: p) :
    ∀ (l : List (C × M)), (∀ s ∈ l, s.1 ∉ cube :: p → ∀ me r t, rec (s.1 :: cube :: p) me = some (r, t) → t.length ≤ G) →
      ∀ me r t, searchForT rec l (cube :: p) me = some (r, t) → t.length ≤ (l.filter (·.1 ∉ cube :: p)).length * G := by
  intro l
  induction l with
  | nil => intro _ me r t hs; cases hs; simp
  | cons s l ih =>
    obtain ⟨s, m⟩ := s
    intro hr me r t hs
    have ih := ih fun s hs => hr s (List.mem_cons_of_mem _ hs)
    unfold searchForT at hs
    split at hs
    · rename_i hm
      rw [List.filter_cons_of_neg (by simp only [decide_eq_true_eq, not_not]; exact hm)]
      exact ih me r t hs
    · rename_i hm
      have hm' : (s, m).1 ∉ cube :: p := hm
      rw [List.filter_cons_of_pos (by simp only [decide_eq_true_eq]; exact hm'), List.length_cons, Nat.add_mul, Nat.one_mul]
      rcases hrec : rec (s :: cube :: p) me with _ | ⟨⟨_ | sol, path₁, me₁⟩, t₁⟩
      · rw [hrec] at hs; cases hs
      · rw [hrec] at hs
        have h1 := hr (s, m) (by simp) hm me _ _ hrec
        obtain rfl := hp s me _ _ _ hrec
        obtain ⟨⟨r', t₂⟩, hs2, he⟩ := Option.map_eq_some_iff.1 hs
        cases he
        have h2 := ih _ _ _ hs2
        simp only [List.length_append]
        omega
      · rw [hrec] at hs
        cases hs
        have h1 := hr (s, m) (by simp) hm me _ _ hrec
        exact h1.trans (Nat.le_add_left _ _)

theorem searchImplT_path (ops : CostOps K) (h : C → K) (succ : C → List (C × M)) (isTarget : C → Bool) (bound : K)
    (fuel : Nat) (cost : K) (cube : C) (p : List C) (me : K) path' me' t
    (hs : searchImplT ops h succ isTarget bound fuel cost (cube :: p) me = some ((none, path', me'), t)) : path' = cube :: p := by
  obtain ⟨L, -, -, h3, -⟩ := searchImplT_recorded ops h succ isTarget bound fuel cost cube p me none path' me' t hs
  exact h3

section
variable {h : C → ℚ} {succ : C → List (C × M)} {isTarget : C → Bool}

/-- below a state that was reached from `parent` -/
theorem searchImplT_count (hh : ∀ c, 0 ≤ h c) {b : Nat}
    (hb : ∀ c, ∀ s ∈ succ c, ((succ s.1).filter (·.1 ≠ c)).length ≤ b) (bound : ℚ) :
    ∀ (fuel d : Nat) (cost : ℚ) (cube parent : C) (p : List C) (me : ℚ) r t, (∃ m, (cube, m) ∈ succ parent) →
      bound < cost + d → searchImplT exactOps h succ isTarget bound fuel cost (cube :: parent :: p) me = some (r, t) →
      t.length ≤ callsBelow b d := by
  intro fuel
  induction fuel with
  | zero => intro _ _ _ _ _ _ _ _ _ _ hs; cases hs
  | succ fuel ih =>
    intro d cost cube parent p me r t hm hd hs
    have pos : 1 ≤ callsBelow b d := by cases d <;> simp [callsBelow]
    unfold searchImplT at hs
    simp only at hs
    split at hs
    · cases hs; exact pos
    · rename_i hc
      split at hs
      · cases hs; exact pos
      · cases d with
        | zero =>
          exfalso
          apply hc
          have := hh cube
          simp only [Nat.cast_zero, add_zero] at hd
          simp only [exactOps, decide_eq_true_eq]
          linarith
        | succ d =>
          obtain ⟨⟨r', t'⟩, hs2, he⟩ := Option.map_eq_some_iff.1 hs
          cases he
          have := searchForT_count (G := callsBelow b d) cube (parent :: p)
            (fun s me path' me' t => searchImplT_path exactOps h succ isTarget bound fuel _ s (cube :: parent :: p) me path' me' t)
            (succ cube) (fun s hs _ me r t => ih d (exactOps.add cost exactOps.one) s.1 cube (parent :: p) me r t ⟨s.2, hs⟩ (by
              push_cast at hd
              show bound < cost + 1 + d
              linarith)) me _ _ hs2
          have hlen : ((succ cube).filter (·.1 ∉ cube :: parent :: p)).length ≤ b := by
            obtain ⟨m, hm⟩ := hm
            refine le_trans ?_ (hb parent _ hm)
            refine (List.Sublist.length_le ?_)
            refine List.monotone_filter_right _ fun s hs => ?_
            simp only [List.mem_cons, not_or, decide_eq_true_eq] at hs ⊢
            exact hs.2.1
          simp only [List.length_cons, callsBelow]
          have := Nat.mul_le_mul_right (callsBelow b d) hlen
          omega

/-- at most this many calls in a round with bound `n` -/
def callsInRound (b₀ b n : Nat) : Nat := 1 + b₀ * ∑ k ∈ Finset.range (n + 1), b ^ k

/-- **C87** The number of calls in one round, whatever it answers: if every state has at most `b₀` successors, and at most
`b` that do not lead back to where one came from, a round with a bound below `n + 1` makes at most
`1 + b₀ * (1 + b + ... + b ^ n)` calls. -/
theorem C87_round_calls (hh : ∀ c, 0 ≤ h c) (b₀ b : Nat) (hb₀ : ∀ c, (succ c).length ≤ b₀)
    (hb : ∀ c, ∀ s ∈ succ c, ((succ s.1).filter (·.1 ≠ c)).length ≤ b) (bound me : ℚ) (n : Nat) (hn : bound < n + 1)
    (fuel : Nat) (cube : C) r t (hs : searchImplT exactOps h succ isTarget bound fuel 0 [cube] me = some (r, t)) :
    t.length ≤ callsInRound b₀ b n := by
  unfold callsInRound
  rw [← callsBelow_eq]
  cases fuel with
  | zero => cases hs
  | succ fuel =>
    unfold searchImplT at hs
    simp only at hs
    split at hs
    · cases hs; simp
    · split at hs
      · cases hs; simp
      · obtain ⟨⟨r', t'⟩, hs2, he⟩ := Option.map_eq_some_iff.1 hs
        cases he
        have := searchForT_count (G := callsBelow b n) cube []
          (fun s me path' me' t => searchImplT_path exactOps h succ isTarget bound fuel _ s [cube] me path' me' t)
          (succ cube) (fun s hs _ me r t => searchImplT_count hh hb bound fuel n _ s.1 cube [] me r t ⟨s.2, hs⟩ (by
            show bound < 0 + 1 + n
            linarith)) me _ _ hs2
        have hlen : ((succ cube).filter (·.1 ∉ [cube])).length ≤ b₀ := (List.length_filter_le _ _).trans (hb₀ cube)
        have := Nat.mul_le_mul_right (callsBelow b n) hlen
        simp only [List.length_cons]
        omega

/-- the round with the bound 2 on the diamond, where every state has at most two successors -/
example (r t) (hs : searchImplT exactOps (fun _ => 0) diamond (· = 3) 2 9 0 [0] 3 = some (r, t)) : t.length ≤ 1 + 2 * (1 + 2 + 4) :=
  C87_round_calls (fun _ => le_rfl) 2 2 (by decide +kernel) (by decide +kernel) 2 3 2 (by norm_num) 9 0 r t hs

/-- **C87** The number of calls in the whole search: with an admissible heuristic whose values are natural numbers, and a target
`n` steps away, at most `n + 1` rounds of at most this size (and one call to start with). -/
theorem C87_calls (hz : ∀ c, ∃ k : Nat, h c = k) (ha : Admissible succ isTarget h) (b₀ b : Nat)
    (hb₀ : ∀ c, (succ c).length ≤ b₀) (hb : ∀ c, ∀ s ∈ succ c, ((succ s.1).filter (·.1 ≠ c)).length ≤ b) (maxDepth : Int)
    (fuel : Nat) (cube : C) r t (hs : searchT? exactOps h succ maxDepth fuel cube isTarget = some (r, t))
    (steps : List (C × M)) (hw : IsWalk succ cube steps) (ht : isTarget (walkEnd cube steps) = true) :
    t.length ≤ 1 + (steps.length + 1) * callsInRound b₀ b steps.length := by
  have hh : ∀ c, 0 ≤ h c := fun c => by obtain ⟨k, hk⟩ := hz c; rw [hk]; positivity
  obtain ⟨st, w1, w2, w3, w4, -⟩ := exists_simple_walk steps.length cube steps le_rfl hw
  have ht' : isTarget (walkEnd cube st) = true := by rw [w2]; exact ht
  have hfr : ∀ c, Frac 1 (h c) := fun c => by obtain ⟨k, hk⟩ := hz c; exact ⟨k, by rw [hk]; simp⟩
  set n := steps.length with hn
  have key : ∀ (k : Nat) (x : Nat) r t, x ≤ n → (x : ℚ) ≤ st.length →
      searchLoopT exactOps h succ isTarget fuel cube k x = some (r, t) → t.length ≤ (n + 1 - x) * callsInRound b₀ b n := by
    intro k
    induction k with
    | zero => intro x r t _ _ hs; cases hs; simp
    | succ k ih =>
      intro x r t hx hx' hs
      unfold searchLoopT at hs
      have hxn : (x : ℚ) < n + 1 := by
        have : (x : ℚ) ≤ n := by exact_mod_cast hx
        linarith
      have e1 : (n + 1 - x) * callsInRound b₀ b n = (n - x) * callsInRound b₀ b n + callsInRound b₀ b n := by
        rw [show n + 1 - x = (n - x) + 1 by omega, Nat.add_mul, Nat.one_mul]
      rw [e1]
      rcases hi : searchImplT exactOps h succ isTarget x fuel exactOps.zero [cube] (exactOps.add x exactOps.one) with
        _ | ⟨⟨_ | sol, path, me⟩, t₁⟩
      · rw [hi] at hs; cases hs
      · rw [hi] at hs
        obtain ⟨⟨r', t₂⟩, hs2, he⟩ := Option.map_eq_some_iff.1 hs
        cases he
        have h1 := C87_round_calls hh b₀ b hb₀ hb x _ n hxn fuel cube _ _ hi
        have hi' : searchImpl exactOps h succ isTarget x fuel 0 [cube] ((x : ℚ) + 1) = some (none, path, me) := by
          have := searchImplT_erase exactOps h succ isTarget (x : ℚ) fuel exactOps.zero [cube] (exactOps.add x exactOps.one)
          rw [hi] at this
          exact this.symm
        obtain ⟨l1, l2, -⟩ := searchLoop_bound w1 ht' w4 (admissible_estimates ha w1 ht') hi'
        obtain ⟨z, hzz⟩ := searchImpl_frac hfr (x : ℚ) fuel 0 cube [] ((x : ℚ) + 1) path me (Frac.zero 1) hi'
          (Frac.add ⟨x, by simp⟩ (Frac.one 1))
        have hme : me = (z : ℚ) := by rw [← hzz]; simp
        have hzx : (x : ℤ) < z := by
          have : ((x : ℤ) : ℚ) < z := by rw [← hme]; exact_mod_cast l1
          exact_mod_cast this
        obtain ⟨y, rfl⟩ : ∃ y : Nat, z = y := ⟨z.toNat, by omega⟩
        have hy : me = (y : ℚ) := by rw [hme]; simp
        subst hy
        have hyn : y ≤ st.length := by exact_mod_cast l2
        have h2 := ih y _ _ (by omega) l2 hs2
        have h3 : (n + 1 - y) * callsInRound b₀ b n ≤ (n - x) * callsInRound b₀ b n := Nat.mul_le_mul_right _ (by omega)
        simp only [List.length_append]
        omega
      · rw [hi] at hs
        cases hs
        have h1 := C87_round_calls hh b₀ b hb₀ hb x _ n hxn fuel cube _ _ hi
        exact h1.trans (Nat.le_add_left _ _)
  obtain ⟨⟨r', t'⟩, h1, h2⟩ := Option.map_eq_some_iff.1 hs
  cases h2
  obtain ⟨x, hx⟩ := hz cube
  rw [hx] at h1
  have h0 := ha cube st w1 ht'
  rw [hx] at h0
  have h0' : x ≤ st.length := by exact_mod_cast h0
  have := key _ x _ _ (by omega) h0 h1
  simp only [List.length_cons]
  have h3 : (n + 1 - x) * callsInRound b₀ b n ≤ (n + 1) * callsInRound b₀ b n := Nat.mul_le_mul_right _ (by omega)
  omega

end

end

/-- the four states of `diamond`: the record of a search with the zero heuristic (rounds with bound 0, 1 and 2), and panics on
state 2 (never looked at) and on state 1 -/
example : searchT? exactOps (fun _ => 0) diamond 5 9 0 (· = 3) = some (some (['a', 'x'], 3), [0, 0, 1, 2, 0, 1, 3, 2, 3, 0, 1, 3]) ∧
    searchP? exactOps (fun c => if c = 1 then none else some 0) diamond 5 9 0 (· = 3) = none ∧
    searchP? exactOps (fun c => if c = 1 then some 7 else some 0) diamond 5 9 0 (· = 3) = some (some (['b', 'y'], 3)) := by
  decide +kernel

/-! ## The 3x3 -/

theorem cube3_branching (c : Cube3) : (Cube3.successors c).length ≤ 18 ∧
    ∀ s ∈ Cube3.successors c, ((Cube3.successors s.1).filter (·.1 ≠ c)).length ≤ 17 := by
  have hl : ∀ c : Cube3, (Cube3.successors c).length = 18 := fun c => by
    rw [Cube3.successors, List.length_map]; decide +kernel
  refine ⟨(hl c).le, fun s hs => ?_⟩
  obtain ⟨m, -, rfl⟩ := List.mem_map.1 hs
  have hback : (c, Move.inverse m) ∈ Cube3.successors (moved c m) :=
    List.mem_map.2 ⟨Move.inverse m, mem_allMoves _, by
      have := (cube3_undo [m] c).1
      exact Prod.ext this rfl⟩
  have : ((Cube3.successors (moved c m)).filter (·.1 ≠ c)).length < (Cube3.successors (moved c m)).length :=
    List.length_filter_lt_length_iff_exists.2 ⟨_, hback, by simp⟩
  rw [hl] at this
  show ((Cube3.successors (moved c m)).filter (·.1 ≠ c)).length ≤ 17
  omega

/-- **C87** Solving a 3x3 that needs at most `n` moves, with an admissible heuristic whose values are natural numbers: at most
`1 + (n + 1) * (1 + 18 * (1 + 17 + ... + 17 ^ n))` calls of the heuristic. -/
theorem C87_cube3_calls (h : Cube3 → ℚ) (hz : ∀ c, ∃ k : Nat, h c = k) (isTarget : Cube3 → Bool)
    (ha : ∀ c alg, isTarget (movedAlg c alg) = true → h c ≤ (alg : List AxisMove).length) (maxDepth : Int) (fuel : Nat)
    (c : Cube3) r t (hs : searchT? exactOps h Cube3.successors maxDepth fuel c isTarget = some (r, t)) (alg : List AxisMove)
    (ht : isTarget (movedAlg c alg) = true) :
    t.length ≤ 1 + (alg.length + 1) * (1 + 18 * ∑ k ∈ Finset.range (alg.length + 1), 17 ^ k) := by
  obtain ⟨steps, h1, h2, h3⟩ := cube3_walk_of_alg c alg
  have hl : steps.length = alg.length := by rw [← h2, List.length_map]
  rw [← hl]
  exact C87_calls hz ((cube3_admissible_iff isTarget h).2 ha) 18 17 (fun c => (cube3_branching c).1)
    (fun c => (cube3_branching c).2) maxDepth fuel c r t hs steps h1 (by rw [h3]; exact ht)

/-- two turns from the solved cube, without a heuristic: at most 16582 calls -/
example (fuel : Nat) (r t) (hs : searchT? exactOps zeroHeuristic Cube3.successors 200 fuel
    (movedAlg Cube3.SOLVED [(⟨Face.R, .single⟩ : AxisMove), ⟨Face.U, .single⟩]) Cube.isSolved = some (r, t)) : t.length ≤ 16582 :=
  C87_cube3_calls zeroHeuristic (fun _ => ⟨0, rfl⟩) Cube.isSolved (fun _ _ _ => by unfold zeroHeuristic; positivity) 200 fuel _ r t hs
    [⟨Face.U, .inverse⟩, ⟨Face.R, .inverse⟩] (by decide +kernel)

/-- **C87** The same state may be looked at more than once in a round: on the 3x3 with the zero heuristic every round of bound
1 or more that finds nothing calls the heuristic twice on one state (after `R L` and after `L R`). -/
theorem C87_repeats (isTarget : Cube3 → Bool) (c : Cube3) (hc : c.valid)
    (hno : ∀ alg : List AxisMove, alg.length ≤ 1 → isTarget (movedAlg c alg) = false)
    (bound me : ℚ) (hb : 1 ≤ bound) (fuel : Nat) path' me' t
    (hs : searchImplT exactOps zeroHeuristic Cube3.successors isTarget bound fuel 0 [c] me = some ((none, path', me'), t)) :
    ¬ t.Nodup := by
  obtain ⟨L, h1, h2, h3⟩ := C87_failing_round exactOps zeroHeuristic Cube3.successors isTarget bound me fuel c path' me' t hs
  have differ : ∀ a b : List AxisMove, movedAlg Cube3.SOLVED a ≠ movedAlg Cube3.SOLVED b → movedAlg c a ≠ movedAlg c b :=
    fun a b hne e => hne ((C84_one_state_shows_effect ⟨Cube3, AxisMove⟩ (by simp [cubeSystems]) c hc a b).1 e Cube3.SOLVED)
  have two : ∀ a b : AxisMove, movedAlg Cube3.SOLVED [a] ≠ movedAlg Cube3.SOLVED ([] : List AxisMove) →
      movedAlg Cube3.SOLVED [a, b] ≠ movedAlg Cube3.SOLVED [a] → movedAlg Cube3.SOLVED [a, b] ≠ movedAlg Cube3.SOLVED ([] : List AxisMove) →
      places [a, b] ∈ L ∧ stateAlong Cube3.successors c (places [a, b]) = some (moved (moved c a) b) := by
    intro a b n1 n2 n3
    have n1 : moved c a ≠ c := differ [a] [] n1
    have n2 : moved (moved c a) b ≠ moved c a := differ [a, b] [a] n2
    have n3 : moved (moved c a) b ≠ c := differ [a, b] [] n3
    constructor
    · rw [h3]
      have get : ∀ (x : Cube3) (m : AxisMove), (Cube3.successors x)[AxisMove.all.idxOf m]? = some (moved x m, m) := fun x m => by
        rw [Cube3.successors, List.getElem?_map, place_get]; rfl
      have hlt0 : exactOps.lt bound (exactOps.add exactOps.zero (zeroHeuristic c)) = false := by
        simp [exactOps, zeroHeuristic]; linarith
      have hlt1 : exactOps.lt bound (exactOps.add (exactOps.add exactOps.zero exactOps.one) (zeroHeuristic (moved c a))) = false := by
        simp [exactOps, zeroHeuristic]; linarith
      exact ⟨hlt0, hno [] (by simp), (moved c a, a), get c a, by simpa using n1, hlt1, hno [a] (by simp),
        (moved (moved c a) b, b), get _ b, by simp [n2, n3], trivial⟩
    · obtain ⟨st, g1, -, g3⟩ := cube3_walkAlong c [a, b]
      unfold stateAlong
      rw [g1, Option.map_some, g3]
      rfl
  obtain ⟨m1, e1⟩ := two ⟨Face.R, .single⟩ ⟨Face.L, .single⟩ (by decide +kernel) (by decide +kernel) (by decide +kernel)
  obtain ⟨m2, e2⟩ := two ⟨Face.L, .single⟩ ⟨Face.R, .single⟩ (by decide +kernel) (by decide +kernel) (by decide +kernel)
  rw [swap_moves ⟨Face.L, .single⟩ ⟨Face.R, .single⟩ rfl c, ← e1] at e2
  intro hnd
  have hnd' : (L.map (stateAlong Cube3.successors c)).Nodup := by
    rw [← h1]; exact hnd.map (fun _ _ h => Option.some.inj h)
  have := List.inj_on_of_nodup_map hnd' m2 m1 e2
  exact absurd this (by decide +kernel)

/-- **C87** With the tables of the MUS heuristic solving never panics on a valid cube, reachable or not (in the code: never reads
outside of a table); the answer is the one of `C29_mus`. -/
theorem C87_mus {edges corners : List Nat} (he : buildTable? HalfEdgesMUS = some edges)
    (hk : buildTable? CornersMUS = some corners) (c : Cube3) (hc : c.valid) :
    (∀ fuel, Cube3.solveWithHeuristicP? exactOps (mus? ⟨edges, corners⟩) fuel c =
      Cube3.solveWithHeuristic? exactOps (fun c => (mus? ⟨edges, corners⟩ c).getD 0) fuel c) ∧
    ∃ r, Returns (fun fuel => Cube3.solveWithHeuristicP? exactOps (mus? ⟨edges, corners⟩) fuel c) r ∧
      (r.isSome ↔ c.Reachable) := by
  have eq : ∀ fuel, Cube3.solveWithHeuristicP? exactOps (mus? ⟨edges, corners⟩) fuel c =
      Cube3.solveWithHeuristic? exactOps (fun c => (mus? ⟨edges, corners⟩ c).getD 0) fuel c := by
    intro fuel
    unfold Cube3.solveWithHeuristicP? Cube3.solveWithHeuristic? solveP? solve?
    have := C87_no_panic exactOps (mus? ⟨edges, corners⟩) (fun c => (mus? ⟨edges, corners⟩ c).getD 0) Cube3.successors 200 fuel
      c Cube.isSolved ?_
    · rw [this]
      rcases search? exactOps (fun c => (mus? ⟨edges, corners⟩ c).getD 0) Cube3.successors 200 fuel c Cube.isSolved with
        _ | _ | ⟨_, _⟩ <;> rfl
    intro steps hw
    rw [← cube3_alg_of_walk hw]
    have hv : (movedAlg c (steps.map (·.2))).valid := C08_cubes.2.1 c _ hc
    obtain ⟨i, n, -, -, -, -, h5⟩ := C20_lookup ⟨edges, corners⟩ (by
      obtain ⟨te, b1, b2, -⟩ := halfEdges_table
      rw [he] at b1; cases b1; exact b2) (by
      obtain ⟨te, b1, b2, -⟩ := corners_table
      rw [hk] at b1; cases b1; exact b2) _ hv
    unfold mus?
    rw [h5]
    rfl
  refine ⟨eq, ?_⟩
  simp only [eq]
  obtain ⟨h1, h2⟩ := C29_mus he hk c
  by_cases hr : c.Reachable
  · obtain ⟨alg, h, -⟩ := h1 hr
    exact ⟨some alg, h, by simpa using hr⟩
  · exact ⟨none, h2 hr, by simpa using hr⟩

/-- a valid cube on which the rounds of `C87_repeats` find nothing, with walks that are followed -/
example : (movedAlg Cube3.SOLVED [(⟨Face.R, .single⟩ : AxisMove), ⟨Face.U, .single⟩]).valid ∧
    (∀ m ∈ AxisMove.all, Cube.isSolved (movedAlg Cube3.SOLVED [(⟨Face.R, .single⟩ : AxisMove), ⟨Face.U, .single⟩, m]) = false) := by
  constructor
  · unfold Cube3.valid; decide +kernel
  · decide +kernel

end Barbarosa
