import Verif.Props.Heuristics
import Mathlib.Algebra.Order.Floor.Ring
import Mathlib.Algebra.Order.WithTop.Untop0
import Mathlib.Data.Rat.Floor

/-!
# C78: how deep the search recurses, and what infinite or undefined estimates do to it
-/

namespace Barbarosa

section
variable {C M K : Type} [DecidableEq C]

/-- the cost after a number of steps -/
def costAfter (ops : CostOps K) : Nat → K
  | 0 => ops.zero
  | n + 1 => ops.add (costAfter ops n) ops.one

/-- if every state is cut off after `N` steps then the recursion is at most `N + 1` calls deep -/
theorem searchImpl_total_of_cut (ops : CostOps K) (h : C → K) (succ : C → List (C × M)) (isTarget : C → Bool) (bound : K) (N : Nat)
    (hN : ∀ c, ops.lt bound (ops.add (costAfter ops N) (h c)) = true) :
    ∀ (k i : Nat) (cube : C) (p : List C) (me : K), i + k = N →
      (searchImpl ops h succ isTarget bound (k + 1) (costAfter ops i) (cube :: p) me).isSome := by
  intro k
  induction k with
  | zero =>
    intro i cube p me hi
    obtain rfl : i = N := by omega
    unfold searchImpl
    simp [hN]
  | succ k ih =>
    intro i cube p me hi
    unfold searchImpl
    simp only
    split
    · rfl
    · split
      · rfl
      · refine searchFor_total cube p ?_ ?_ _ _
        · intro s me path' me' hr
          exact searchImpl_sound ops h succ isTarget bound _ _ _ _ _ _ _ _ hr
        · intro s me _
          exact ih (i + 1) s (cube :: p) me (by omega)

theorem costAfter_exact (n : Nat) : costAfter exactOps n = n := by
  induction n with
  | zero => simp [costAfter, exactOps]
  | succ n ih => simp only [costAfter, ih]; simp [exactOps]

variable {h : C → ℚ} {succ : C → List (C × M)} {isTarget : C → Bool}

theorem exact_total (hh : ∀ c, 0 ≤ h c) {b : ℚ} {fuel : Nat} (hf : b + 1 < fuel) (h0 : 0 < fuel) (cube : C) (me : ℚ) :
    (searchImpl exactOps h succ isTarget b fuel exactOps.zero [cube] me).isSome :=
  searchImpl_total_nonneg hh b fuel 0 cube [] me (by linarith) h0

theorem loop_total (hh : ∀ c, 0 ≤ h c) {fuel : Nat} {cube : C} :
    ∀ (k : Nat) (b : ℚ), b + k < fuel → 0 < fuel → (searchLoop exactOps h succ isTarget fuel cube k b).isSome := by
  intro k
  induction k with
  | zero => intro b _ _; rfl
  | succ k ih =>
    intro b hf h0
    push_cast at hf
    have hk : (0 : ℚ) ≤ k := Nat.cast_nonneg k
    have h1 := exact_total (succ := succ) (isTarget := isTarget) hh (b := b) (by linarith) h0 cube (exactOps.add b exactOps.one)
    unfold searchLoop
    rcases hi : searchImpl exactOps h succ isTarget b fuel exactOps.zero [cube] (exactOps.add b exactOps.one) with
      _ | ⟨_ | sol, path, me⟩
    · rw [hi] at h1; cases h1
    · have h2 : me ≤ b + 1 := (searchImpl_fail b fuel 0 cube [] (b + 1) path me hi).2.1
      exact ih me (by linarith) h0
    · rfl

/-- **C78** With a heuristic that is not negative, at most `⌊h(start)⌋ + max_depth + 2` calls of `search_impl` are open at
any time: with that much room for the recursion the search gives its result. -/
theorem C78_depth (h : C → ℚ) (hh : ∀ c, 0 ≤ h c) (succ : C → List (C × M)) (maxDepth : Nat) (cube : C) (isTarget : C → Bool) :
    (search? exactOps h succ maxDepth (⌊h cube⌋₊ + maxDepth + 2) cube isTarget).isSome := by
  refine loop_total hh _ _ ?_ (by omega)
  have := Nat.lt_floor_add_one (h cube)
  have e : ((maxDepth : Int) + 1).toNat = maxDepth + 1 := by omega
  rw [e]
  push_cast
  linarith

/-- a ring of four states without target, the constant estimate 5/2 and the limit 3: 7 calls -/
example : (search? exactOps (fun _ : Fin 4 => 5 / 2) (fun c => [(c + 1, ())]) 3 7 0 (fun _ => false)).isSome := by
  have := C78_depth (fun _ : Fin 4 => (5 / 2 : ℚ)) (fun _ => by norm_num) (fun c => [(c + 1, ())]) 3 0 (fun _ => false)
  rwa [show ⌊(5 / 2 : ℚ)⌋₊ = 2 from by rw [Nat.floor_eq_iff] <;> norm_num] at this

/-- **C78** If the heuristic is admissible and there is a solution of `n` moves, then at most `n + 2` calls are open at any
time, whatever the limit. -/
theorem C78_depth_solution (h : C → ℚ) (hh : ∀ c, 0 ≤ h c) (succ : C → List (C × M)) (isTarget : C → Bool)
    (ha : Admissible succ isTarget h) (maxDepth : Int) (cube : C) (steps : List (C × M)) (hw : IsWalk succ cube steps)
    (ht : isTarget (walkEnd cube steps) = true) :
    (search? exactOps h succ maxDepth (steps.length + 2) cube isTarget).isSome := by
  obtain ⟨st, h1, h2, h3, h4, -⟩ := exists_simple_walk steps.length cube steps le_rfl hw
  have ht' : isTarget (walkEnd cube st) = true := by rw [h2]; exact ht
  have hest := admissible_estimates ha h1 ht'
  have hlen : (st.length : ℚ) ≤ steps.length := by exact_mod_cast h3
  have key : ∀ (k : Nat) (b : ℚ), b ≤ st.length →
      (searchLoop exactOps h succ isTarget (steps.length + 2) cube k b).isSome := by
    intro k
    induction k with
    | zero => intro b _; rfl
    | succ k ih =>
      intro b hb
      have h1' := exact_total (succ := succ) (isTarget := isTarget) hh (b := b) (fuel := steps.length + 2)
        (by push_cast; linarith) (by omega) cube (exactOps.add b exactOps.one)
      unfold searchLoop
      rcases hi : searchImpl exactOps h succ isTarget b (steps.length + 2) exactOps.zero [cube]
          (exactOps.add b exactOps.one) with _ | ⟨_ | sol, path, me⟩
      · rw [hi] at h1'; cases h1'
      · obtain ⟨pre, suf, e, -, hme⟩ := (searchImpl_fail b _ 0 cube [] (b + 1) path me hi).2.2.2 st h1 ht' (by
          have := h4
          rw [List.nodup_cons] at this
          rw [List.nodup_append]
          refine ⟨this.2, by simp, ?_⟩
          intro a ha' c hc
          simp at hc
          subst hc
          rintro rfl
          exact this.1 ha')
        refine ih me ?_
        have := hest pre suf e
        linarith
      · rfl
  exact key _ _ (ha cube st h1 ht')

/-- a ring of four states, target 2, no estimate -/
example : (search? exactOps (fun _ : Fin 4 => 0) (fun c => [(c + 1, ())]) 100 4 0 (fun c => c == 2)).isSome :=
  C78_depth_solution (fun _ => 0) (fun _ => le_rfl) _ _ (fun _ _ _ _ => Nat.cast_nonneg _) 100 0 [(1, ()), (2, ())]
    (by simp [IsWalk]) (by decide)

/-- what is true of a threshold and of all smaller ones stays true -/
theorem searchFor_threshold {P : K → Prop} {rec : List C → K → Option (Option (List M) × List C × K)}
    (hr : ∀ path me path' me', rec path me = some (none, path', me') → P me → P me') :
    ∀ (l : List (C × M)) (path : List C) (me : K) (path' : List C) (me' : K),
      searchFor rec l path me = some (none, path', me') → P me → P me' := by
  intro l
  induction l with
  | nil =>
    intro path me path' me' hs
    cases hs
    exact id
  | cons s l ih =>
    obtain ⟨s, m⟩ := s
    intro path me path' me' hs
    unfold searchFor at hs
    split at hs
    · exact ih _ _ _ _ hs
    · rcases hrec : rec (s :: path) me with _ | ⟨_ | sol, path1, me1⟩
      · rw [hrec] at hs; cases hs
      · rw [hrec] at hs
        exact fun hp => ih _ _ _ _ hs (hr _ _ _ _ hrec hp)
      · rw [hrec] at hs; cases hs

theorem searchImpl_threshold (ops : CostOps K) {P : K → Prop} (hP : ∀ a b, ops.lt a b = true → P b → P a) (h : C → K)
    (succ : C → List (C × M)) (isTarget : C → Bool) (bound : K) :
    ∀ (fuel : Nat) (cost : K) (path : List C) (me : K) (path' : List C) (me' : K),
      searchImpl ops h succ isTarget bound fuel cost path me = some (none, path', me') → P me → P me' := by
  intro fuel
  induction fuel with
  | zero => intro _ _ _ _ _ hs; cases hs
  | succ fuel ih =>
    intro cost path me path' me' hs
    rcases path with _ | ⟨cube, p⟩
    · cases hs
    unfold searchImpl at hs
    simp only at hs
    split at hs
    · cases hs
      split
      · rename_i hl
        exact hP _ _ hl
      · exact id
    · split at hs
      · cases hs
      · exact searchFor_threshold (fun path me path' me' hr => ih _ _ _ _ _ hr) _ _ _ _ _ hs

/-- Floats with their special values: `none` is NaN, `some ⊤` is infinity. (Negative infinity and rounding are left out.) -/
def specialOps : CostOps (Option (WithTop ℚ)) where
  zero := some 0
  one := some 1
  add
    | some a, some b => some (a + b)
    | _, _ => none
  lt
    | some a, some b => decide (a < b)
    | _, _ => false

theorem special_lt (a b : WithTop ℚ) : specialOps.lt (some a) (some b) = decide (a < b) := rfl

theorem special_add (a b : WithTop ℚ) : specialOps.add (some a) (some b) = some (a + b) := rfl

theorem costAfter_special (n : Nat) : costAfter specialOps n = some ((n : ℚ) : WithTop ℚ) := by
  induction n with
  | zero => rfl
  | succ n ih =>
    simp only [costAfter, ih]
    show some (((n : ℚ) : WithTop ℚ) + 1) = _
    push_cast
    rfl

/-- **C78** Infinite values do no harm as long as the start is not one of them: if `h(start)` is the number `b`, and all
values are numbers that are not negative, or infinite, then the depth is bounded as before. -/
theorem C78_depth_infinite (h : C → Option (WithTop ℚ)) (hh : ∀ c, ∃ x, h c = some x ∧ 0 ≤ x) (succ : C → List (C × M))
    (maxDepth : Nat) (cube : C) (isTarget : C → Bool) (b : ℚ) (hb : h cube = some b) :
    (search? specialOps h succ maxDepth (⌊b⌋₊ + maxDepth + 2) cube isTarget).isSome := by
  set fuel := ⌊b⌋₊ + maxDepth + 2 with hfuel
  have hfl := Nat.lt_floor_add_one b
  have key : ∀ (k : Nat) (x : ℚ), x + k ≤ b + maxDepth + 1 →
      (searchLoop specialOps h succ isTarget fuel cube k (some (x : WithTop ℚ))).isSome := by
    intro k
    induction k with
    | zero => intro x _; rfl
    | succ k ih =>
      intro x hx
      push_cast at hx
      have hk : (0 : ℚ) ≤ k := Nat.cast_nonneg k
      have h1 : (searchImpl specialOps h succ isTarget (some (x : WithTop ℚ)) fuel specialOps.zero [cube]
          (specialOps.add (some (x : WithTop ℚ)) specialOps.one)).isSome := by
        refine searchImpl_total_of_cut specialOps h succ isTarget _ (⌊b⌋₊ + maxDepth + 1) ?_ (⌊b⌋₊ + maxDepth + 1) 0 cube [] _
          (by omega)
        intro c
        obtain ⟨y, hy, hy0⟩ := hh c
        rw [costAfter_special, hy, special_add, special_lt, decide_eq_true_iff]
        refine lt_of_lt_of_le ?_ (le_add_of_nonneg_right hy0)
        rw [WithTop.coe_lt_coe]
        push_cast
        linarith
      unfold searchLoop
      rcases hi : searchImpl specialOps h succ isTarget (some (x : WithTop ℚ)) fuel specialOps.zero [cube]
          (specialOps.add (some (x : WithTop ℚ)) specialOps.one) with _ | ⟨_ | sol, path, me⟩
      · rw [hi] at h1; cases h1
      · have := searchImpl_threshold specialOps (P := fun k => ∃ y : ℚ, k = some (y : WithTop ℚ) ∧ y ≤ x + 1) (by
            rintro a c hac ⟨y, rfl, hy⟩
            rcases a with _ | a
            · cases hac
            · rw [special_lt, decide_eq_true_iff] at hac
              obtain ⟨z, rfl⟩ := WithTop.ne_top_iff_exists.1 (ne_top_of_lt hac)
              exact ⟨z, rfl, (WithTop.coe_lt_coe.1 hac).le.trans hy⟩) h succ isTarget _ _ _ _ _ _ _ hi
          ⟨x + 1, by rfl, le_rfl⟩
        obtain ⟨y, rfl, hy⟩ := this
        exact ih y (by linarith)
      · rfl
  unfold search?
  have e : ((maxDepth : Int) + 1).toNat = maxDepth + 1 := by omega
  rw [hb, e]
  exact key _ _ (by push_cast; linarith)

/-- infinite everywhere but at the start -/
example : (search? specialOps (fun c : Fin 4 => some (if c = 0 then 3 else ⊤)) (fun c => [(c + 1, ())]) 1 6 0 (fun _ => false)).isSome := by
  have := C78_depth_infinite (fun c : Fin 4 => some (if c = 0 then 3 else ⊤)) (fun c => ⟨_, rfl, by split <;> simp⟩)
    (fun c => [(c + 1, ())]) 1 0 (fun _ => false) 3 rfl
  rwa [show ⌊(3 : ℚ)⌋₊ = 3 from by norm_num] at this

/-- the loop over the successors does not return if one of its calls does not, and no call finds anything -/
theorem searchFor_diverges {rec : List C → K → Option (Option (List M) × List C × K)} (cube : C) (p : List C)
    (s : C) (m : M) (hs : s ∉ cube :: p) (hr : ∀ me, rec (s :: cube :: p) me = none) :
    ∀ (l : List (C × M)) me, (∀ x ∈ l, ∀ me ans path' me', rec (x.1 :: cube :: p) me = some (ans, path', me') →
      ans = none ∧ path' = x.1 :: cube :: p) → (s, m) ∈ l → searchFor rec l (cube :: p) me = none := by
  intro l
  induction l with
  | nil => intro me _ h; cases h
  | cons x l ih =>
    obtain ⟨y, n⟩ := x
    intro me hp hm
    have ih := fun me => ih me (fun x hx => hp x (List.mem_cons_of_mem _ hx))
    unfold searchFor
    by_cases hy : y ∈ cube :: p
    · rw [if_pos hy]
      refine ih me ?_
      rcases List.mem_cons.1 hm with e | hm
      · cases e; exact absurd hy hs
      · exact hm
    · rw [if_neg hy]
      rcases hrec : rec (y :: cube :: p) me with _ | ⟨ans, path', me'⟩
      · rfl
      · obtain ⟨rfl, rfl⟩ := hp _ (List.mem_cons_self ..) _ _ _ _ hrec
        refine ih _ ?_
        rcases List.mem_cons.1 hm with e | hm
        · cases e; rw [hr] at hrec; cases hrec
        · exact hm

theorem searchImpl_deep (ops : CostOps K) (h : C → K) (succ : C → List (C × M)) (isTarget : C → Bool) (bound : K) :
    ∀ (fuel i : Nat) (cube : C) (p : List C) (me : K) (steps : List (C × M)), IsWalk succ cube steps → fuel ≤ steps.length →
      (steps.map (·.1) ++ cube :: p).Nodup → (∀ st, IsWalk succ cube st → isTarget (walkEnd cube st) = false) →
      (∀ pre suf, steps = pre ++ suf → ops.lt bound (ops.add (costAfter ops (i + pre.length)) (h (walkEnd cube pre))) = false) →
      searchImpl ops h succ isTarget bound fuel (costAfter ops i) (cube :: p) me = none := by
  intro fuel
  induction fuel with
  | zero => intros; rfl
  | succ fuel ih =>
    intro i cube p me steps hw hl hnd hno hest
    rcases steps with _ | ⟨⟨s, m⟩, steps⟩
    · simp at hl
    unfold searchImpl
    have h0 := hest [] _ rfl
    simp only [List.length_nil, Nat.add_zero, walkEnd] at h0
    have ht := hno [] trivial
    simp only [walkEnd] at ht
    simp only [h0, ht]
    have hs : s ∉ cube :: p := by
      intro hc
      have := List.nodup_append.1 hnd
      exact this.2.2 s (by simp) s hc rfl
    refine searchFor_diverges cube p s m hs ?_ _ _ ?_ hw.1
    rotate_left
    · rintro ⟨y, n⟩ hy me ans path' me' hr
      have := searchImpl_sound ops h succ isTarget bound _ _ _ _ _ _ _ _ hr
      rcases ans with _ | sol
      · exact ⟨rfl, this⟩
      · obtain ⟨st, h1, -, -, h4⟩ := this
        have := hno ((y, n) :: st) ⟨hy, h1⟩
        simp only [walkEnd] at this
        rw [h4] at this
        cases this
    · intro me
      refine ih (i + 1) s (cube :: p) me steps hw.2 (by simpa using hl) ?_ ?_ ?_
      · have := hnd
        simp only [List.map_cons, List.cons_append] at this
        exact ((List.perm_middle (a := s) (l₁ := steps.map (·.1)) (l₂ := cube :: p)).nodup_iff).2 this
      · intro st hst
        exact hno ((s, m) :: st) ⟨hw.1, hst⟩
      · intro pre suf e
        have := hest ((s, m) :: pre) suf (by rw [e]; rfl)
        simp only [List.length_cons, walkEnd] at this
        rw [show i + 1 + pre.length = i + (pre.length + 1) by omega]
        exact this

/-- **C78** If the start has no solution and there is a walk without repetitions along which `steps so far + estimate`
never compares greater than `h(start)`, then the search goes as deep as that walk is long, already in its first round and
whatever `max_depth ≥ 0`. -/
theorem C78_deep (ops : CostOps K) (h : C → K) (succ : C → List (C × M)) (isTarget : C → Bool) (maxDepth : Nat) (cube : C)
    (hno : ∀ st, IsWalk succ cube st → isTarget (walkEnd cube st) = false) (steps : List (C × M)) (hw : IsWalk succ cube steps)
    (hnd : (cube :: steps.map (·.1)).Nodup)
    (hest : ∀ pre suf, steps = pre ++ suf →
      ops.lt (h cube) (ops.add (costAfter ops pre.length) (h (walkEnd cube pre))) = false) :
    search? ops h succ maxDepth steps.length cube isTarget = none := by
  have e : ((maxDepth : Int) + 1).toNat = maxDepth + 1 := by omega
  have := searchImpl_deep ops h succ isTarget (h cube) steps.length 0 cube [] (ops.add (h cube) ops.one) steps hw le_rfl
    ((List.perm_append_comm (l₁ := [cube])).nodup_iff.1 hnd) hno (by simpa using hest)
  unfold search?
  rw [e]
  unfold searchLoop
  simp only [costAfter] at this
  rw [this]

/-- a ring of four states without target, with an estimate that decreases along the walk -/
example : search? exactOps (fun c : Fin 4 => 3 - c.val) (fun c => [(c + 1, ())]) 0 3 0 (fun _ => false) = none :=
  C78_deep exactOps _ _ _ 0 0 (fun _ _ => rfl) [(1, ()), (2, ()), (3, ())] (by simp [IsWalk]) (by decide) (by
    intro pre suf e
    rcases pre with _ | ⟨a, _ | ⟨b, _ | ⟨c, _ | ⟨d, l⟩⟩⟩⟩ <;> simp at e
    · decide +kernel
    all_goals
      obtain ⟨rfl, e⟩ := e
      try obtain ⟨rfl, e⟩ := e
      try obtain ⟨rfl, e⟩ := e
      simp only [walkEnd, List.length_cons, List.length_nil]
      decide +kernel)

/-- **C78** So an infinite or undefined (NaN) estimate for a start without solution is not a quick `None`: the search ignores
`max_depth` and follows every walk without repetitions to its end. -/
theorem C78_infinite_start (h : C → Option (WithTop ℚ)) (succ : C → List (C × M)) (isTarget : C → Bool) (maxDepth : Nat) (cube : C)
    (hc : h cube = some ⊤ ∨ h cube = none)
    (hno : ∀ st, IsWalk succ cube st → isTarget (walkEnd cube st) = false) (steps : List (C × M)) (hw : IsWalk succ cube steps)
    (hnd : (cube :: steps.map (·.1)).Nodup) :
    search? specialOps h succ maxDepth steps.length cube isTarget = none := by
  refine C78_deep specialOps h succ isTarget maxDepth cube hno steps hw hnd ?_
  intro pre suf _
  rw [costAfter_special]
  rcases hc with hc | hc <;> rw [hc]
  · rcases h (walkEnd cube pre) with _ | x
    · rfl
    · rw [special_add, special_lt, decide_eq_false_iff_not]
      exact not_top_lt
  · rfl

/-- a ring of four states: the search goes round it -/
example : search? specialOps (fun _ : Fin 4 => none) (fun c => [(c + 1, ())]) 0 3 0 (fun _ => false) = none :=
  C78_infinite_start _ _ _ 0 0 (.inr rfl) (fun _ _ => rfl) [(1, ()), (2, ()), (3, ())] (by simp [IsWalk]) (by decide)

theorem searchFor_length {rec : List C → K → Option (Option (List M) × List C × K)} {n : Nat}
    (hr : ∀ path me sol path' me', rec path me = some (some sol, path', me') → sol.length + 1 ≤ n) :
    ∀ (l : List (C × M)) path me sol path' me', searchFor rec l path me = some (some sol, path', me') → sol.length ≤ n := by
  intro l
  induction l with
  | nil => intro _ _ _ _ _ hs; cases hs
  | cons x l ih =>
    obtain ⟨y, m⟩ := x
    intro path me sol path' me' hs
    unfold searchFor at hs
    split at hs
    · exact ih _ _ _ _ _ hs
    · rcases hrec : rec (y :: path) me with _ | ⟨_ | sol1, path1, me1⟩
      · rw [hrec] at hs; cases hs
      · rw [hrec] at hs; exact ih _ _ _ _ _ hs
      · rw [hrec] at hs
        cases hs
        have := hr _ _ _ _ _ hrec
        simpa using this

theorem searchImpl_length (ops : CostOps K) (h : C → K) (succ : C → List (C × M)) (isTarget : C → Bool) (bound : K) :
    ∀ (fuel : Nat) cost path me sol path' me', searchImpl ops h succ isTarget bound fuel cost path me = some (some sol, path', me') →
      sol.length + 1 ≤ fuel := by
  intro fuel
  induction fuel with
  | zero => intro _ _ _ _ _ _ hs; cases hs
  | succ fuel ih =>
    intro cost path me sol path' me' hs
    rcases path with _ | ⟨cube, p⟩
    · cases hs
    unfold searchImpl at hs
    simp only at hs
    split at hs
    · cases hs
    · split at hs
      · cases hs; simp
      · have := searchFor_length (fun path me sol path' me' hr => ih _ _ _ _ _ _ hr) _ _ _ _ _ _ hs
        omega

/-- **C78** The recursion is at least as deep as the returned alg is long, plus one. -/
theorem C78_depth_needed (ops : CostOps K) (h : C → K) (succ : C → List (C × M)) (maxDepth : Int) (fuel : Nat) (cube : C)
    (isTarget : C → Bool) (alg : List M) (e : C) (hs : search? ops h succ maxDepth fuel cube isTarget = some (some (alg, e))) :
    alg.length + 1 ≤ fuel := by
  have key : ∀ (k : Nat) (b : K), searchLoop ops h succ isTarget fuel cube k b = some (some (alg, e)) → alg.length + 1 ≤ fuel := by
    intro k
    induction k with
    | zero => intro b hs; cases hs
    | succ k ih =>
      intro b hs
      unfold searchLoop at hs
      rcases hi : searchImpl ops h succ isTarget b fuel ops.zero [cube] (ops.add b ops.one) with _ | ⟨_ | sol, path, me⟩
      · rw [hi] at hs; cases hs
      · rw [hi] at hs; exact ih _ hs
      · rw [hi] at hs
        have := searchImpl_length ops h succ isTarget b _ _ _ _ _ _ _ hi
        rcases path with _ | ⟨x, path⟩
        · simp at hs
        · simp at hs
          rw [← hs.1]
          simpa using this
  exact key _ _ hs

end

/-- the integers with the moves +1 and -1 -/
def lineSuccessors (z : ℤ) : List (ℤ × ℤ) := [(z + 1, 1), (z - 1, -1)]

/-- the walk to the right -/
def lineWalk (z : ℤ) : Nat → List (ℤ × ℤ)
  | 0 => []
  | n + 1 => (z + 1, 1) :: lineWalk (z + 1) n

theorem lineWalk_facts (n : Nat) : ∀ z, IsWalk lineSuccessors z (lineWalk z n) ∧ (lineWalk z n).length = n ∧
    (z :: (lineWalk z n).map (·.1)).Nodup ∧ ∀ x ∈ lineWalk z n, z < x.1 := by
  induction n with
  | zero => intro z; simp [lineWalk, IsWalk]
  | succ n ih =>
    intro z
    obtain ⟨h1, h2, h3, h4⟩ := ih (z + 1)
    have h5 : ∀ x ∈ lineWalk z (n + 1), z < x.1 := by
      intro x hx
      rcases List.mem_cons.1 hx with rfl | hx
      · simp
      · have := h4 x hx; omega
    refine ⟨⟨by simp [lineSuccessors], h1⟩, by simp [lineWalk, h2], ?_, h5⟩
    rw [List.nodup_cons]
    refine ⟨?_, by simpa [lineWalk] using h3⟩
    intro hm
    obtain ⟨x, hx, e⟩ := List.mem_map.1 hm
    have := h5 x hx
    omega

-- on the infinite line, with an infinite estimate, the search with limit 0 never returns; with the estimate 7 it does
example : (∀ fuel, search? specialOps (fun _ : ℤ => some ⊤) lineSuccessors 0 fuel 0 (fun _ => false) = none) ∧
    (search? specialOps (fun _ : ℤ => some 7) lineSuccessors 0 9 0 (fun _ => false)).isSome := by
  constructor
  · intro fuel
    obtain ⟨h1, h2, h3, -⟩ := lineWalk_facts fuel 0
    have := C78_infinite_start (fun _ : ℤ => some ⊤) lineSuccessors (fun _ => false) 0 0 (.inl rfl) (fun _ _ => rfl) _ h1 h3
    rw [h2] at this
    exact this
  · have := C78_depth_infinite (fun _ : ℤ => some 7) (fun _ => ⟨7, rfl, by norm_num⟩) lineSuccessors 0 0 (fun _ => false) 7 rfl
    have e : ⌊(7 : ℚ)⌋₊ + 0 + 2 = 9 := by norm_num
    rw [e] at this
    exact this

-- the search for 3 from 0 with the distance as heuristic has between 4 and 5 calls open
example : (search? exactOps (fun z : ℤ => |(3 - z : ℚ)|) lineSuccessors 10 5 0 (fun z => z == 3)).isSome ∧
    Admissible lineSuccessors (fun z => z == 3) (fun z : ℤ => |(3 - z : ℚ)|) := by
  have ha : Admissible lineSuccessors (fun z => z == 3) (fun z : ℤ => |(3 - z : ℚ)|) := by
    intro c steps
    induction steps generalizing c with
    | nil =>
      intro _ ht
      simp [walkEnd] at ht
      simp [ht]
    | cons s l ih =>
      intro hw ht
      have := ih s.1 hw.2 ht
      have hs : s = (c + 1, 1) ∨ s = (c - 1, -1) := by simpa [lineSuccessors] using hw.1
      have hd : |(3 - c : ℚ)| ≤ |(3 - s.1 : ℚ)| + 1 := by
        have h1 : |(s.1 - c : ℚ)| = 1 := by rcases hs with rfl | rfl <;> simp
        have h2 := abs_add_le (3 - s.1 : ℚ) (s.1 - c)
        rw [h1] at h2
        have e : (3 - s.1 : ℚ) + (s.1 - c) = 3 - c := by ring
        rwa [e] at h2
      simp only [List.length_cons]
      push_cast
      linarith
  refine ⟨?_, ha⟩
  obtain ⟨h1, h2, -, -⟩ := lineWalk_facts 3 0
  have := C78_depth_solution _ (fun _ => abs_nonneg _) lineSuccessors (fun z => z == 3) ha 10 0 (lineWalk 0 3) h1 (by decide)
  rw [h2] at this
  exact this

/-- **C78** For the 3x3: with an admissible heuristic and a solution of `n` moves, `solve_with_heuristic` never has more than
`n + 2` calls open. -/
theorem C78_cube3 (h : Cube3 → ℚ) (hh : ∀ c, 0 ≤ h c)
    (ha : ∀ (c : Cube3) (alg : List AxisMove), movedAlg c alg = Cube3.SOLVED → h c ≤ alg.length)
    (c : Cube3) (alg : List AxisMove) (hs : movedAlg c alg = Cube3.SOLVED) :
    (Cube3.solveWithHeuristic? exactOps h (alg.length + 2) c).isSome := by
  have key : ∀ c : Cube3, Cube.isSolved c = true ↔ c = Cube3.SOLVED := fun c => decide_eq_true_iff
  obtain ⟨steps, h1, h2, h3⟩ := cube3_walk_of_alg c alg
  have hd := C78_depth_solution h hh Cube3.successors Cube.isSolved
    ((cube3_admissible_iff Cube.isSolved h).2 fun c alg hs => ha c alg ((key _).1 hs)) 200 c steps h1
    (by rw [h3]; exact (key _).2 hs)
  have hl : steps.length = alg.length := by rw [← h2, List.length_map]
  rw [hl] at hd
  obtain ⟨r, hr⟩ := Option.isSome_iff_exists.1 hd
  unfold Cube3.solveWithHeuristic? solve?
  rw [hr]
  rcases r with _ | ⟨a, e⟩
  · rfl
  · have := (C26_search_sound exactOps h Cube3.successors cube3_successors_true 200 _ c Cube.isSolved a e hr).2
    simp [this]

-- the cube after four moves and the zero heuristic: at most six calls
example : (Cube3.solveWithHeuristic? exactOps zeroHeuristic 6 (movedAlg Cube3.SOLVED Perms.SEXY_MOVE)).isSome :=
  C78_cube3 zeroHeuristic (fun _ => le_rfl) (fun _ _ _ => by simp [zeroHeuristic])
    (movedAlg Cube3.SOLVED Perms.SEXY_MOVE) [⟨.U, .single⟩, ⟨.R, .single⟩, ⟨.U, .inverse⟩, ⟨.R, .inverse⟩] (by decide +kernel)

end Barbarosa
