import Verif.Spec.FirstSolution
import Verif.Props.Search
import Verif.Props.Heuristics
import Verif.Props.Mus

/-!
# C86: which solution is returned
-/

namespace Barbarosa

section
variable {C M K : Type}

/-! ## Walks by places -/

theorem walkAlong_isWalk {succ : C → List (C × M)} : ∀ {c : C} {is : List Nat} {steps : List (C × M)},
    walkAlong succ c is = some steps → IsWalk succ c steps ∧ steps.length = is.length := by
  intro c is
  induction is generalizing c with
  | nil => intro steps h; cases h; exact ⟨trivial, rfl⟩
  | cons i is ih =>
    intro steps h
    unfold walkAlong at h
    rcases e : (succ c)[i]? with _ | s
    · rw [e] at h; cases h
    · rw [e] at h
      obtain ⟨st, h1, rfl⟩ := Option.map_eq_some_iff.1 h
      obtain ⟨h2, h3⟩ := ih h1
      exact ⟨⟨List.mem_of_getElem? e, h2⟩, by simp [h3]⟩

/-- every walk has places -/
theorem exists_walkAlong {succ : C → List (C × M)} : ∀ {c : C} {steps : List (C × M)}, IsWalk succ c steps →
    ∃ is, walkAlong succ c is = some steps := by
  intro c steps
  induction steps generalizing c with
  | nil => intro _; exact ⟨[], rfl⟩
  | cons s l ih =>
    rintro ⟨h1, h2⟩
    obtain ⟨i, hi⟩ := List.mem_iff_getElem?.1 h1
    obtain ⟨is, his⟩ := ih h2
    exact ⟨i :: is, by simp only [walkAlong, hi, his, Option.map_some]⟩

theorem NotAfter.refl : ∀ a : List Nat, NotAfter a a
  | [] => trivial
  | _ :: l => Or.inr ⟨rfl, NotAfter.refl l⟩

theorem NotAfter.antisymm : ∀ {a b : List Nat}, NotAfter a b → NotAfter b a → a = b := by
  intro a
  induction a with
  | nil => intro b h1 h2; cases b with | nil => rfl | cons => exact h2.elim
  | cons i is ih =>
    intro b h1 h2
    cases b with
    | nil => exact h1.elim
    | cons j js =>
      rcases h1 with h1 | ⟨rfl, h1⟩
      · rcases h2 with h2 | ⟨rfl, -⟩ <;> omega
      · rcases h2 with h2 | ⟨-, h2⟩
        · omega
        · rw [ih h1 h2]

theorem NotAfter.total : ∀ a b : List Nat, NotAfter a b ∨ NotAfter b a := by
  intro a
  induction a with
  | nil => intro b; exact Or.inl trivial
  | cons i is ih =>
    intro b
    cases b with
    | nil => exact Or.inr trivial
    | cons j js =>
      rcases lt_trichotomy i j with h | rfl | h
      · exact Or.inl (Or.inl h)
      · rcases ih js with h | h
        · exact Or.inl (Or.inr ⟨rfl, h⟩)
        · exact Or.inr (Or.inr ⟨rfl, h⟩)
      · exact Or.inr (Or.inl h)

/-! ## One round -/

/-- The walks that a round may answer with: no state twice, no state cut off, the first target at the end. `path` has the
current state first. -/
def Qual (ops : CostOps K) (h : C → K) (succ : C → List (C × M)) (isTarget : C → Bool) (bound : K) :
    K → C → List C → List Nat → Prop
  | cost, cube, _, [] => ops.lt bound (ops.add cost (h cube)) = false ∧ isTarget cube = true
  | cost, cube, p, i :: is => ops.lt bound (ops.add cost (h cube)) = false ∧ isTarget cube = false ∧
    ∃ s, (succ cube)[i]? = some s ∧ s.1 ∉ cube :: p ∧ Qual ops h succ isTarget bound (ops.add cost ops.one) s.1 (cube :: p) is

theorem Qual.uncut {ops : CostOps K} {h : C → K} {succ : C → List (C × M)} {isTarget : C → Bool} {bound cost : K} {cube : C}
    {p : List C} : ∀ {l : List Nat}, Qual ops h succ isTarget bound cost cube p l → ops.lt bound (ops.add cost (h cube)) = false
  | [], h => h.1
  | _ :: _, h => h.1

theorem qual_target {ops : CostOps K} {h : C → K} {succ : C → List (C × M)} {isTarget : C → Bool} {bound : K} :
    ∀ {is : List Nat} {cost : K} {cube : C} {p : List C} {steps : List (C × M)},
      Qual ops h succ isTarget bound cost cube p is → walkAlong succ cube is = some steps →
      isTarget (walkEnd cube steps) = true := by
  intro is
  induction is with
  | nil => intro cost cube p steps hq hw; cases hw; exact hq.2
  | cons i is ih =>
    intro cost cube p steps hq hw
    obtain ⟨-, -, s, h1, -, h3⟩ := hq
    unfold walkAlong at hw
    rw [h1] at hw
    obtain ⟨st, hst, rfl⟩ := Option.map_eq_some_iff.1 hw
    exact ih (steps := st) h3 hst

variable [DecidableEq C]

theorem searchFor_first {ops : CostOps K} {h : C → K} {succ : C → List (C × M)} {isTarget : C → Bool} {bound cost : K}
    {rec : List C → K → Option (Option (List M) × List C × K)} (cube : C) (p : List C)
    (hr : ∀ s me ans path' me', rec (s :: cube :: p) me = some (ans, path', me') →
      match ans with
      | none => path' = s :: cube :: p ∧ ∀ js, ¬ Qual ops h succ isTarget bound cost s (cube :: p) js
      | some sol => ∃ is steps, Qual ops h succ isTarget bound cost s (cube :: p) is ∧ walkAlong succ s is = some steps ∧
          steps.map (·.2) = sol.reverse ∧ ∀ js, Qual ops h succ isTarget bound cost s (cube :: p) js → NotAfter is js) :
    ∀ (l : List (C × M)) (k : Nat), l = (succ cube).drop k → ∀ me ans path' me',
      searchFor rec l (cube :: p) me = some (ans, path', me') →
      match ans with
      | none => path' = cube :: p ∧ ∀ j s, k ≤ j → (succ cube)[j]? = some s → s.1 ∉ cube :: p → ∀ js,
          ¬ Qual ops h succ isTarget bound cost s.1 (cube :: p) js
      | some sol => ∃ i is s steps, k ≤ i ∧ (succ cube)[i]? = some s ∧ s.1 ∉ cube :: p ∧
          Qual ops h succ isTarget bound cost s.1 (cube :: p) is ∧ walkAlong succ s.1 is = some steps ∧
          (s :: steps).map (·.2) = sol.reverse ∧
          ∀ j s', k ≤ j → (succ cube)[j]? = some s' → s'.1 ∉ cube :: p → ∀ js,
            Qual ops h succ isTarget bound cost s'.1 (cube :: p) js → NotAfter (i :: is) (j :: js) := by
  intro l
  induction l with
  | nil =>
    intro k hk me ans path' me' hs
    cases hs
    refine ⟨rfl, fun j s hj hget => ?_⟩
    have := (List.drop_eq_nil_iff.1 hk.symm)
    rw [List.getElem?_eq_none (by omega)] at hget
    cases hget
  | cons s l ih =>
    obtain ⟨s, m⟩ := s
    intro k hk me ans path' me' hs
    have hget : (succ cube)[k]? = some (s, m) := by
      have : ((succ cube).drop k)[0]? = some (s, m) := by rw [← hk]; rfl
      simpa using this
    have hk' : l = (succ cube).drop (k + 1) := by
      rw [← List.drop_drop, ← hk]; rfl
    have split : ∀ j, k ≤ j → j = k ∨ k + 1 ≤ j := fun j hj => by omega
    unfold searchFor at hs
    split at hs
    · rename_i hm
      have := ih (k + 1) hk' me ans path' me' hs
      cases ans with
      | none =>
        refine ⟨this.1, fun j s' hj hg hn js => ?_⟩
        rcases split j hj with rfl | hj
        · rw [hget] at hg; cases hg; exact absurd hm hn
        · exact this.2 j s' hj hg hn js
      | some sol =>
        obtain ⟨i, is, s', steps, h1, h2, h3, h4, h5, h6, h7⟩ := this
        refine ⟨i, is, s', steps, by omega, h2, h3, h4, h5, h6, fun j s'' hj hg hn js hq => ?_⟩
        rcases split j hj with rfl | hj
        · rw [hget] at hg; cases hg; exact absurd hm hn
        · exact h7 j s'' hj hg hn js hq
    · rename_i hm
      rcases hrec : rec (s :: cube :: p) me with _ | ⟨_ | sol, path₁, me₁⟩
      · rw [hrec] at hs; cases hs
      · rw [hrec] at hs
        obtain ⟨rfl, hno⟩ := hr s me none path₁ me₁ hrec
        have := ih (k + 1) hk' me₁ ans path' me' hs
        cases ans with
        | none =>
          refine ⟨this.1, fun j s' hj hg hn js => ?_⟩
          rcases split j hj with rfl | hj
          · rw [hget] at hg; cases hg; exact hno js
          · exact this.2 j s' hj hg hn js
        | some sol =>
          obtain ⟨i, is, s', steps, h1, h2, h3, h4, h5, h6, h7⟩ := this
          refine ⟨i, is, s', steps, by omega, h2, h3, h4, h5, h6, fun j s'' hj hg hn js hq => ?_⟩
          rcases split j hj with rfl | hj
          · rw [hget] at hg; cases hg; exact absurd hq (hno js)
          · exact h7 j s'' hj hg hn js hq
      · rw [hrec] at hs
        cases hs
        obtain ⟨is, steps, h1, h2, h3, h4⟩ := hr s me (some sol) _ _ hrec
        refine ⟨k, is, (s, m), steps, le_rfl, hget, hm, h1, h2, by simp [h3], fun j s' hj hg hn js hq => ?_⟩
        rcases split j hj with rfl | hj
        · rw [hget] at hg; cases hg; exact Or.inr ⟨rfl, h4 js hq⟩
        · exact Or.inl (by omega)

theorem searchImpl_first (ops : CostOps K) (h : C → K) (succ : C → List (C × M)) (isTarget : C → Bool) (bound : K) :
    ∀ (fuel : Nat) (cost : K) (cube : C) (p : List C) (me : K) ans path' me',
      searchImpl ops h succ isTarget bound fuel cost (cube :: p) me = some (ans, path', me') →
      match ans with
      | none => path' = cube :: p ∧ ∀ js, ¬ Qual ops h succ isTarget bound cost cube p js
      | some sol => ∃ is steps, Qual ops h succ isTarget bound cost cube p is ∧ walkAlong succ cube is = some steps ∧
          steps.map (·.2) = sol.reverse ∧ ∀ js, Qual ops h succ isTarget bound cost cube p js → NotAfter is js := by
  intro fuel
  induction fuel with
  | zero => intro _ _ _ _ _ _ _ hs; cases hs
  | succ fuel ih =>
    intro cost cube p me ans path' me' hs
    unfold searchImpl at hs
    simp only at hs
    split at hs
    · rename_i hc
      cases hs
      refine ⟨rfl, fun js hq => ?_⟩
      rw [hq.uncut] at hc; cases hc
    · rename_i hc
      have hc : ops.lt bound (ops.add cost (h cube)) = false := by simpa using hc
      split at hs
      · rename_i ht
        cases hs
        exact ⟨[], [], ⟨hc, ht⟩, rfl, rfl, fun _ _ => trivial⟩
      · rename_i ht
        have ht : isTarget cube = false := by simpa using ht
        have := searchFor_first (ops := ops) (h := h) (succ := succ) (isTarget := isTarget) (bound := bound)
          (cost := ops.add cost ops.one) cube p (fun s me ans path' me' => ih _ s (cube :: p) me ans path' me')
          (succ cube) 0 rfl me ans path' me' hs
        cases ans with
        | none =>
          refine ⟨this.1, fun js hq => ?_⟩
          cases js with
          | nil => rw [hq.2] at ht; cases ht
          | cons j js =>
            obtain ⟨-, -, s, h1, h2, h3⟩ := hq
            exact this.2 j s (Nat.zero_le _) h1 h2 js h3
        | some sol =>
          obtain ⟨i, is, s, steps, -, h2, h3, h4, h5, h6, h7⟩ := this
          refine ⟨i :: is, s :: steps, ⟨hc, ht, s, h2, h3, h4⟩, by simp only [walkAlong, h2, h5, Option.map_some], h6, ?_⟩
          intro js hq
          cases js with
          | nil => rw [hq.2] at ht; cases ht
          | cons j js =>
            obtain ⟨-, -, s', g1, g2, g3⟩ := hq
            exact h7 j s' (Nat.zero_le _) g1 g2 js g3

/-! ## All rounds -/

/-- what the answer of a search is, for any arithmetic: the first among the walks that the successful round may take -/
theorem searchLoop_first (ops : CostOps K) (h : C → K) (succ : C → List (C × M)) (isTarget : C → Bool) (fuel : Nat) (cube : C)
    (alg : List M) (e : C) : ∀ (k : Nat) (b : K), searchLoop ops h succ isTarget fuel cube k b = some (some (alg, e)) →
      ∃ bound is steps, Qual ops h succ isTarget bound ops.zero cube [] is ∧ walkAlong succ cube is = some steps ∧
        steps.map (·.2) = alg ∧ ∀ js, Qual ops h succ isTarget bound ops.zero cube [] js → NotAfter is js := by
  intro k
  induction k with
  | zero => intro b hs; cases hs
  | succ k ih =>
    intro b hs
    unfold searchLoop at hs
    rcases hi : searchImpl ops h succ isTarget b fuel ops.zero [cube] (ops.add b ops.one) with _ | ⟨_ | sol, path, me⟩
    · rw [hi] at hs; cases hs
    · rw [hi] at hs; exact ih me hs
    · rw [hi] at hs
      obtain ⟨last, -, h2⟩ := Option.map_eq_some_iff.1 (Option.some.inj hs)
      cases h2
      obtain ⟨is, steps, h⟩ := searchImpl_first ops h succ isTarget b _ _ _ _ _ _ _ _ hi
      exact ⟨b, is, steps, h⟩

/-- the same with the bound of the successful round, for exact arithmetic and a walk whose estimates are at most `B` -/
theorem searchLoop_first_exact {h : C → ℚ} {succ : C → List (C × M)} {isTarget : C → Bool} {B : ℚ} {cube : C}
    {steps : List (C × M)} (hw : IsWalk succ cube steps) (ht : isTarget (walkEnd cube steps) = true)
    (hnd : (cube :: steps.map (·.1)).Nodup)
    (hB : ∀ pre suf, steps = pre ++ suf → pre.length + h (walkEnd cube pre) ≤ B) (hh : ∀ c, 0 ≤ h c) {fuel : Nat}
    {alg : List M} {e : C} :
    ∀ (k : Nat) (b : ℚ), b ≤ B → searchLoop exactOps h succ isTarget fuel cube k b = some (some (alg, e)) →
      ∃ bound is st, bound ≤ B ∧ (alg.length : ℚ) ≤ bound ∧ Qual exactOps h succ isTarget bound 0 cube [] is ∧
        walkAlong succ cube is = some st ∧ st.map (·.2) = alg ∧
        ∀ js, Qual exactOps h succ isTarget bound 0 cube [] js → NotAfter is js := by
  intro k
  induction k with
  | zero => intro b _ hs; cases hs
  | succ k ih =>
    intro b h1 hs
    unfold searchLoop at hs
    rcases hi : searchImpl exactOps h succ isTarget b fuel exactOps.zero [cube] (exactOps.add b exactOps.one) with
      _ | ⟨_ | sol, path, me⟩
    · rw [hi] at hs; cases hs
    · rw [hi] at hs
      obtain ⟨l1, l2, -⟩ := searchLoop_bound hw ht hnd hB hi
      exact ih me l2 hs
    · rw [hi] at hs
      have hl := searchImpl_within hh b fuel 0 cube [] (b + 1) sol path me hi
      obtain ⟨last, -, h2⟩ := Option.map_eq_some_iff.1 (Option.some.inj hs)
      cases h2
      obtain ⟨is, st, hq⟩ := searchImpl_first exactOps h succ isTarget b _ _ _ _ _ _ _ _ hi
      exact ⟨b, is, st, h1, by simpa using hl, hq⟩

omit [DecidableEq C] in
/-- a walk that is uncut, visits no state twice and reaches a target only at the end is one the round may answer with -/
theorem qual_of_walk {h : C → ℚ} {succ : C → List (C × M)} {isTarget : C → Bool} {b : ℚ} :
    ∀ (is : List Nat) (cost : ℚ) (cube : C) (p : List C) (steps : List (C × M)), walkAlong succ cube is = some steps →
      (∀ pre suf, steps = pre ++ suf → cost + pre.length + h (walkEnd cube pre) ≤ b) →
      (∀ pre s suf, steps = pre ++ s :: suf → isTarget (walkEnd cube pre) = false) → isTarget (walkEnd cube steps) = true →
      (steps.map (·.1) ++ cube :: p).Nodup → Qual exactOps h succ isTarget b cost cube p is := by
  intro is
  induction is with
  | nil =>
    intro cost cube p steps hw h1 h2 h3 h4
    cases hw
    refine ⟨?_, h3⟩
    have := h1 [] [] rfl
    simp only [walkEnd, List.length_nil, Nat.cast_zero, add_zero] at this
    simpa [exactOps] using this
  | cons i is ih =>
    intro cost cube p steps hw h1 h2 h3 h4
    unfold walkAlong at hw
    rcases e : (succ cube)[i]? with _ | s
    · rw [e] at hw; cases hw
    · rw [e] at hw
      obtain ⟨st, hst, rfl⟩ := Option.map_eq_some_iff.1 hw
      refine ⟨?_, h2 [] s st rfl, s, e, ?_, ?_⟩
      · have := h1 [] _ rfl
        simp only [walkEnd, List.length_nil, Nat.cast_zero, add_zero] at this
        simpa [exactOps] using this
      · simp only [List.map_cons, List.cons_append, List.nodup_cons, List.mem_append, not_or] at h4
        exact h4.1.2
      · refine ih (cost + 1) s.1 (cube :: p) st hst ?_ ?_ h3 ?_
        · intro pre suf he
          have := h1 (s :: pre) suf (by rw [he]; rfl)
          simp only [walkEnd, List.length_cons] at this
          push_cast at this
          linarith
        · intro pre s' suf he
          exact h2 (s :: pre) s' suf (by rw [he]; rfl)
        · refine (List.Perm.nodup_iff ?_).1 h4
          rw [List.map_cons, List.cons_append]
          exact (List.perm_middle (a := s.1) (l₁ := st.map (·.1)) (l₂ := cube :: p)).symm

omit [DecidableEq C] in
/-- a shortest walk visits no state twice -/
theorem nodup_of_shortest {succ : C → List (C × M)} : ∀ {steps : List (C × M)} {cube : C}, IsWalk succ cube steps →
    (∀ st, IsWalk succ cube st → walkEnd cube st = walkEnd cube steps → steps.length ≤ st.length) →
    (cube :: steps.map (·.1)).Nodup := by
  intro steps
  induction steps with
  | nil => intro cube _ _; simp
  | cons s l ih =>
    intro cube hw hmin
    rw [List.map_cons, List.nodup_cons]
    refine ⟨fun hc => ?_, ih hw.2 fun st h1 h2 => ?_⟩
    · obtain ⟨x, hx, he⟩ := List.mem_map.1 (show cube ∈ (s :: l).map (·.1) from hc)
      obtain ⟨a, b, e⟩ := List.append_of_mem hx
      rw [e] at hw hmin
      have h2 := (isWalk_append.1 hw).2.2
      rw [he] at h2
      have := hmin b h2 (by rw [walkEnd_append]; simp only [walkEnd, he])
      simp at this
      omega
    · have := hmin (s :: st) ⟨hw.1, h1⟩ h2
      simpa using this

/-- **C86** With a non-negative admissible heuristic the returned alg is, among all shortest ways to a target, the one that
comes first in the order in which `successors` lists the moves. -/
theorem C86_first (h : C → ℚ) (succ : C → List (C × M)) (isTarget : C → Bool) (hh : ∀ c, 0 ≤ h c)
    (ha : Admissible succ isTarget h) (maxDepth : Int) (fuel : Nat) (cube : C) (alg : List M) (e : C)
    (hs : search? exactOps h succ maxDepth fuel cube isTarget = some (some (alg, e))) :
    ∃ is steps, walkAlong succ cube is = some steps ∧ steps.map (·.2) = alg ∧ isTarget (walkEnd cube steps) = true ∧
      ∀ js steps', walkAlong succ cube js = some steps' → isTarget (walkEnd cube steps') = true →
        is.length ≤ js.length ∧ (js.length = is.length → NotAfter is js) := by
  have hopt := C27_optimal h succ isTarget hh ha maxDepth fuel cube alg e hs
  obtain ⟨st, hw, hm, rfl, ht⟩ := C26_search_walk exactOps h succ maxDepth fuel cube isTarget alg _ hs
  have hlen : st.length = alg.length := by rw [← hm, List.length_map]
  have simple : ∀ st', IsWalk succ cube st' → isTarget (walkEnd cube st') = true → st'.length = alg.length →
      (cube :: st'.map (·.1)).Nodup := fun st' hw' ht' hl' =>
    nodup_of_shortest hw' fun t h1 h2 => by have := hopt t h1 (by rw [h2]; exact ht'); omega
  have est : ∀ st', IsWalk succ cube st' → isTarget (walkEnd cube st') = true → st'.length = alg.length →
      ∀ pre suf, st' = pre ++ suf → (pre.length : ℚ) + h (walkEnd cube pre) ≤ alg.length := fun st' hw' ht' hl' => by
    have := admissible_estimates ha hw' ht'
    rw [hl'] at this
    exact this
  obtain ⟨bound, is, steps, hb, hb', hq, h1, h2, h3⟩ := searchLoop_first_exact hw ht (simple st hw ht hlen)
    (est st hw ht hlen) hh _ _ (by rw [← hlen]; exact ha cube st hw ht) hs
  have hbe : bound = alg.length := le_antisymm hb hb'
  obtain ⟨w1, w2⟩ := walkAlong_isWalk h1
  have hisl : is.length = alg.length := by rw [← w2, ← h2, List.length_map]
  have qual : ∀ js st', walkAlong succ cube js = some st' → isTarget (walkEnd cube st') = true → js.length = is.length →
      Qual exactOps h succ isTarget bound 0 cube [] js := by
    intro js st' hj ht' hl'
    obtain ⟨v1, v2⟩ := walkAlong_isWalk hj
    have hl2 : st'.length = alg.length := by omega
    refine qual_of_walk js 0 cube [] st' hj ?_ ?_ ht' ?_
    · intro pre suf he
      rw [hbe, zero_add]
      exact est st' v1 ht' hl2 pre suf he
    · intro pre s suf he
      by_contra hne
      rw [he] at v1
      have := hopt pre (isWalk_append.1 v1).1 (by simpa using hne)
      rw [he] at hl2
      simp at hl2
      omega
    · exact (List.perm_append_singleton _ _).nodup_iff.2 (simple st' v1 ht' hl2)
  refine ⟨is, steps, h1, h2, qual_target hq h1, fun js st' hj ht' => ?_⟩
  obtain ⟨v1, v2⟩ := walkAlong_isWalk hj
  refine ⟨?_, fun hl => h3 js (qual js st' hj ht' hl)⟩
  have := hopt st' v1 ht'
  omega

/-- two shortest ways lead to the goal; the one through the first successor is returned -/
example : ∃ is steps, walkAlong (fun c : Fin 4 => if c = 0 then [(1, 'a'), (2, 'b')] else if c = 3 then [] else [(3, 'c')]) 0 is = some steps ∧
    steps.map (·.2) = ['a', 'c'] := by
  obtain ⟨is, steps, h1, h2, -⟩ := C86_first (C := Fin 4) (M := Char) (fun _ => 0)
    (fun c => if c = 0 then [(1, 'a'), (2, 'b')] else if c = 3 then [] else [(3, 'c')]) (· = 3) (fun _ => le_rfl)
    (fun _ _ _ _ => by simp) 5 9 0 ['a', 'c'] 3 (by decide +kernel)
  exact ⟨is, steps, h1, h2⟩

/-- **C86** The answer does not depend on the heuristic: any two admissible heuristics that both lead to an answer (whatever
the limits) lead to the same alg and the same final state. -/
theorem C86_same_answer (h h' : C → ℚ) (succ : C → List (C × M)) (isTarget : C → Bool) (hh : ∀ c, 0 ≤ h c) (hh' : ∀ c, 0 ≤ h' c)
    (ha : Admissible succ isTarget h) (ha' : Admissible succ isTarget h') (maxDepth maxDepth' : Int) (fuel fuel' : Nat) (cube : C)
    (alg alg' : List M) (e e' : C) (hs : search? exactOps h succ maxDepth fuel cube isTarget = some (some (alg, e)))
    (hs' : search? exactOps h' succ maxDepth' fuel' cube isTarget = some (some (alg', e'))) : alg = alg' := by
  obtain ⟨is, st, h1, h2, h3, h4⟩ := C86_first h succ isTarget hh ha maxDepth fuel cube alg e hs
  obtain ⟨is', st', g1, g2, g3, g4⟩ := C86_first h' succ isTarget hh' ha' maxDepth' fuel' cube alg' e' hs'
  have l1 := (h4 is' st' g1 g3).1
  have l2 := (g4 is st h1 h3).1
  have := ((h4 is' st' g1 g3).2 (by omega)).antisymm ((g4 is st h1 h3).2 (by omega))
  subst this
  rw [h1] at g1
  cases g1
  rw [← h2, ← g2]

end

/-- A puzzle with four states: from 0 one can go to 1 or 2, and from both to 3. Two shortest ways lead to 3; the first one is
returned. The heuristic that is 10 on state 1 (not admissible) makes the search return the other one. -/
def diamond : Fin 4 → List (Fin 4 × Char)
  | 0 => [(1, 'a'), (2, 'b')]
  | 1 => [(3, 'x')]
  | 2 => [(3, 'y')]
  | 3 => []

example : Admissible diamond (· = 3) (fun _ => 0) ∧
    search? exactOps (fun _ => 0) diamond 5 9 0 (· = 3) = some (some (['a', 'x'], 3)) ∧
    search? exactOps (fun c => if c = 1 then 10 else 0) diamond 5 9 0 (· = 3) = some (some (['b', 'y'], 3)) :=
  ⟨fun _ _ _ _ => by simp, by decide +kernel, by decide +kernel⟩

/-! ## The 3x3 -/

/-- the places of the moves of an alg in the list of all moves -/
def places (alg : List AxisMove) : List Nat := alg.map fun m => AxisMove.all.idxOf m

theorem place_get (m : AxisMove) : AxisMove.all[AxisMove.all.idxOf m]? = some m := by
  rw [List.getElem?_eq_getElem (List.idxOf_lt_length_iff.2 (mem_allMoves m)), List.getElem_idxOf]

theorem cube3_walkAlong (c : Cube3) (alg : List AxisMove) :
    ∃ steps, walkAlong Cube3.successors c (places alg) = some steps ∧ steps.map (·.2) = alg ∧ walkEnd c steps = movedAlg c alg := by
  induction alg generalizing c with
  | nil => exact ⟨[], rfl, rfl, rfl⟩
  | cons m l ih =>
    obtain ⟨steps, h1, h2, h3⟩ := ih (moved c m)
    refine ⟨(moved c m, m) :: steps, ?_, by simp [h2], h3⟩
    have : (Cube3.successors c)[AxisMove.all.idxOf m]? = some (moved c m, m) := by
      rw [Cube3.successors, List.getElem?_map, place_get]; rfl
    show walkAlong Cube3.successors c (AxisMove.all.idxOf m :: places l) = _
    simp only [walkAlong, this, h1, Option.map_some]

theorem cube3_walkAlong_places : ∀ {is : List Nat} {c : Cube3} {steps : List (Cube3 × AxisMove)},
    walkAlong Cube3.successors c is = some steps → is = places (steps.map (·.2)) := by
  intro is
  induction is with
  | nil => intro c steps h; cases h; rfl
  | cons i is ih =>
    intro c steps h
    unfold walkAlong at h
    rcases e : (Cube3.successors c)[i]? with _ | s
    · rw [e] at h; cases h
    · rw [e] at h
      obtain ⟨st, h1, rfl⟩ := Option.map_eq_some_iff.1 h
      rw [Cube3.successors, List.getElem?_map] at e
      obtain ⟨m, hm, rfl⟩ := Option.map_eq_some_iff.1 e
      obtain ⟨hi, rfl⟩ := List.getElem?_eq_some_iff.1 hm
      have h2 := ih h1
      simp only [List.map_cons, places]
      rw [C37_axis_moves.1.idxOf_getElem i hi]
      congr 1

/-- **C86** On the 3x3, for any target: no alg that reaches a target is shorter than the returned one, and those of the same
length come later when algs are sorted like words, with the moves in the order of `AxisMove::all`. -/
theorem C86_cube3 (isTarget : Cube3 → Bool) (h : Cube3 → ℚ) (hh : ∀ c, 0 ≤ h c)
    (ha : ∀ c alg, isTarget (movedAlg c alg) = true → h c ≤ (alg : List AxisMove).length) (maxDepth : Int) (fuel : Nat)
    (c : Cube3) (alg : List AxisMove) (e : Cube3)
    (hs : search? exactOps h Cube3.successors maxDepth fuel c isTarget = some (some (alg, e))) (alg' : List AxisMove)
    (h' : isTarget (movedAlg c alg') = true) :
    alg.length ≤ alg'.length ∧ (alg'.length = alg.length → NotAfter (places alg) (places alg')) := by
  obtain ⟨is, st, h1, h2, h3, h4⟩ := C86_first h Cube3.successors isTarget hh ((cube3_admissible_iff isTarget h).2 ha) maxDepth
    fuel c alg e hs
  have e1 := cube3_walkAlong_places h1
  rw [h2] at e1
  obtain ⟨st', g1, g2, g3⟩ := cube3_walkAlong c alg'
  have := h4 _ st' g1 (by rw [g3]; exact h')
  rw [e1] at this
  simpa [places] using this

/-- the hypotheses for the constant 0, and two solutions of one cube, of which the first is returned -/
example (fuel : Nat) (alg : List AxisMove) (e : Cube3)
    (hs : search? exactOps zeroHeuristic Cube3.successors 200 fuel
      (movedAlg Cube3.SOLVED [(⟨Face.L, .single⟩ : AxisMove), ⟨Face.R, .double⟩]) Cube.isSolved = some (some (alg, e))) :
    alg.length ≤ 2 :=
  (C86_cube3 Cube.isSolved zeroHeuristic (fun _ => le_rfl) (fun _ _ _ => by simp [zeroHeuristic]) 200 fuel _ alg e hs
    [⟨Face.R, .double⟩, ⟨Face.L, .inverse⟩] (by decide +kernel)).1

theorem notAfter_append {a : List Nat} : ∀ {b c : List Nat}, NotAfter (a ++ b) (a ++ c) → NotAfter b c := by
  induction a with
  | nil => intro b c h; exact h
  | cons i a ih =>
    intro b c h
    rcases h with h | ⟨-, h⟩
    · omega
    · exact ih h

theorem place_order : ∀ a b : AxisMove, a.face.axis = b.face.axis → a.face ≠ b.face →
    AxisMove.all.idxOf a ≤ AxisMove.all.idxOf b → a.face.direction = .pos ∧ b.face.direction = .neg := by
  decide +kernel

/-- two moves of one face in a row can be replaced by at most one -/
theorem merge_moves (a b : AxisMove) (hf : a.face = b.face) :
    ∃ r : List AxisMove, r.length ≤ 1 ∧ ∀ c : Cube3, movedAlg c r = moved (moved c a) b := by
  obtain ⟨f, x⟩ := a
  obtain ⟨g, y⟩ := b
  obtain rfl : f = g := hf
  have h := fun c : Cube3 => (axisSystems_laws ⟨Cube3⟩ (by simp [axisSystems])).add c () f x y
  rcases e : x.add y with _ | z
  · refine ⟨[], by simp, fun c => ?_⟩
    have := h c
    rw [e] at this
    exact this.symm
  · refine ⟨[⟨f, z⟩], by simp, fun c => ?_⟩
    have := h c
    rw [e] at this
    exact this.symm

theorem swap_moves (a b : AxisMove) (hf : a.face.axis = b.face.axis) (c : Cube3) :
    moved (moved c a) b = moved (moved c b) a := by
  obtain ⟨⟨ax, d⟩, x⟩ := a
  obtain ⟨⟨ax', d'⟩, y⟩ := b
  obtain rfl : ax = ax' := hf
  exact (axisSystems_laws ⟨Cube3⟩ (by simp [axisSystems])).comm c () () ax d d' x y

/-- **C86** Which algs come back on the 3x3: no face is turned twice in a row, and two opposite faces in a row are turned
in the order right-left, up-down, front-back. So they are of the form of `Alg::random`, and never contain redundancy. -/
theorem C86_ordered (isTarget : Cube3 → Bool) (h : Cube3 → ℚ) (hh : ∀ c, 0 ≤ h c)
    (ha : ∀ c alg, isTarget (movedAlg c alg) = true → h c ≤ (alg : List AxisMove).length) (maxDepth : Int) (fuel : Nat)
    (c : Cube3) (alg : List AxisMove) (e : Cube3)
    (hs : search? exactOps h Cube3.successors maxDepth fuel c isTarget = some (some (alg, e))) :
    Ordered .pos alg ∧ RandomAlg alg.length alg ∧ Reduced alg := by
  have key := C86_cube3 isTarget h hh ha maxDepth fuel c alg e hs
  obtain ⟨hm, ht⟩ := C26_search_sound exactOps h Cube3.successors cube3_successors_true maxDepth fuel c isTarget alg e hs
  have ho : Ordered .pos alg := by
    refine List.isChain_iff_forall_rel_of_append_cons_cons.2 ?_
    intro a b l₁ l₂ hl hax
    subst hl
    have run : ∀ (l : List AxisMove), movedAlg c (l₁ ++ l ++ l₂) = movedAlg (movedAlg (movedAlg c l₁) l) l₂ := fun l => by
      simp only [movedAlg, List.foldl_append]
    have e0 : movedAlg (movedAlg (movedAlg c l₁) [a, b]) l₂ = e := by rw [← run, ← hm]; simp
    have hne : a.face ≠ b.face := by
      intro hf
      obtain ⟨r, r1, r2⟩ := merge_moves a b hf
      have := (key (l₁ ++ r ++ l₂) (by rw [run, r2, ← ht]; exact congrArg isTarget e0)).1
      simp at this
      omega
    have hsw := (key (l₁ ++ [b, a] ++ l₂) (by
      rw [run, ← ht]
      refine congrArg isTarget (Eq.trans ?_ e0)
      exact congrArg (movedAlg · l₂) (swap_moves a b hax _).symm)).2 (by simp)
    have : NotAfter (places l₁ ++ places (a :: b :: l₂)) (places l₁ ++ places (b :: a :: l₂)) := by
      simpa [places] using hsw
    have h1 : AxisMove.all.idxOf a ≤ AxisMove.all.idxOf b := by
      rcases notAfter_append this with h | ⟨h, -⟩
      · exact le_of_lt h
      · exact le_of_eq h
    obtain ⟨p1, p2⟩ := place_order a b hax hne h1
    exact ⟨p1, by rw [p2]; rfl⟩
  exact ⟨ho, (C36_random_alg _ _).2 ⟨rfl, ho⟩, ho.reduced⟩

/-- two shortest solutions of one cube; the second one is never returned -/
example :
    let c := movedAlg Cube3.SOLVED [(⟨Face.L, .single⟩ : AxisMove), ⟨Face.R, .double⟩]
    let a : List AxisMove := [⟨Face.R, .double⟩, ⟨Face.L, .inverse⟩]
    let b : List AxisMove := [⟨Face.L, .inverse⟩, ⟨Face.R, .double⟩]
    movedAlg c a = Cube3.SOLVED ∧ movedAlg c b = Cube3.SOLVED ∧ NotAfter (places a) (places b) ∧
      ¬ NotAfter (places b) (places a) ∧ places a = [1, 5] := by
  decide +kernel

/-! ## Solving the 3x3 -/

theorem search_of_solve {K : Type} {ops : CostOps K} {h : Cube3 → K} {fuel : Nat} {c : Cube3} {alg : List AxisMove}
    (hs : Cube3.solveWithHeuristic? ops h fuel c = some (some alg)) :
    ∃ e, search? ops h Cube3.successors 200 fuel c Cube.isSolved = some (some (alg, e)) := by
  unfold Cube3.solveWithHeuristic? solve? at hs
  rcases hr : search? ops h Cube3.successors 200 fuel c Cube.isSolved with _ | _ | ⟨alg', e⟩
  · rw [hr] at hs; cases hs
  · rw [hr] at hs; cases hs
  · rw [hr] at hs
    simp only at hs
    split at hs
    · cases hs; exact ⟨e, rfl⟩
    · cases hs

/-- **C86** Each reachable cube has one solution that `solve_with_heuristic` returns, whichever admissible (integer valued)
heuristic is used: the first one, sorted like words, among the shortest. -/
theorem C86_solve (c : Cube3) (hc : c.Reachable) :
    ∃ alg : List AxisMove, movedAlg c alg = Cube3.SOLVED ∧ Ordered .pos alg ∧
      (∀ alg' : List AxisMove, movedAlg c alg' = Cube3.SOLVED →
        alg.length ≤ alg'.length ∧ (alg'.length = alg.length → NotAfter (places alg) (places alg'))) ∧
      ∀ h : Cube3 → ℚ, (∀ c, 0 ≤ h c) → (∀ c, ∃ z : ℤ, h c = z) →
        (∀ (c : Cube3) (alg : List AxisMove), movedAlg c alg = Cube3.SOLVED → h c ≤ alg.length) →
        Returns (fun fuel => Cube3.solveWithHeuristic? exactOps h fuel c) (some alg) := by
  have key : ∀ c : Cube3, Cube.isSolved c = true ↔ c = Cube3.SOLVED := fun c => decide_eq_true_iff
  have hz : ∀ (c : Cube3) (alg : List AxisMove), movedAlg c alg = Cube3.SOLVED → zeroHeuristic c ≤ (alg.length : ℚ) :=
    fun _ _ _ => by simp [zeroHeuristic]
  obtain ⟨alg, ⟨F, hF⟩, h2, h3, -⟩ := C29_optimal zeroHeuristic (fun _ => le_rfl) (fun _ => ⟨0, by simp [zeroHeuristic]⟩) hz c hc
  obtain ⟨e, he⟩ := search_of_solve (hF F le_rfl)
  have ad : ∀ h : Cube3 → ℚ, (∀ (c : Cube3) (alg : List AxisMove), movedAlg c alg = Cube3.SOLVED → h c ≤ alg.length) →
      ∀ (c : Cube3) (alg : List AxisMove), Cube.isSolved (movedAlg c alg) = true → h c ≤ alg.length :=
    fun h ha c alg hs => ha c alg ((key _).1 hs)
  refine ⟨alg, h2, (C86_ordered Cube.isSolved zeroHeuristic (fun _ => le_rfl) (ad _ hz) 200 F c alg e he).1,
    fun alg' h' => C86_cube3 Cube.isSolved zeroHeuristic (fun _ => le_rfl) (ad _ hz) 200 F c alg e he alg' ((key _).2 h'), ?_⟩
  intro h hh hi ha
  obtain ⟨alg', ⟨F', hF'⟩, -, -, -⟩ := C29_optimal h hh hi ha c hc
  obtain ⟨e', he'⟩ := search_of_solve (hF' F' le_rfl)
  have := C86_same_answer h zeroHeuristic Cube3.successors Cube.isSolved hh (fun _ => le_rfl)
    ((cube3_admissible_iff _ _).2 (ad h ha)) ((cube3_admissible_iff _ _).2 (ad _ hz)) 200 200 F' F c alg' alg e' e he' he
  subst this
  exact ⟨F', hF'⟩

/-- a cube that can be reached -/
example : ∃ alg : List AxisMove, movedAlg (movedAlg Cube3.SOLVED Perms.SEXY_MOVE) alg = Cube3.SOLVED ∧ Ordered .pos alg := by
  obtain ⟨alg, h1, h2, -⟩ := C86_solve (movedAlg Cube3.SOLVED Perms.SEXY_MOVE) ⟨_, rfl⟩
  exact ⟨alg, h1, h2⟩

/-- **C86** With the tables of the MUS heuristic the answer is the very alg that the zero heuristic would find. -/
theorem C86_mus {edges corners : List Nat} (he : buildTable? HalfEdgesMUS = some edges)
    (hk : buildTable? CornersMUS = some corners) (c : Cube3) (r : Option (List AxisMove)) :
    Returns (fun fuel => Cube3.solveWithHeuristic? exactOps (fun c => (mus? ⟨edges, corners⟩ c).getD 0) fuel c) r ↔
      Returns (fun fuel => Cube3.solveWithHeuristic? exactOps zeroHeuristic fuel c) r := by
  have uniq : ∀ {R : Type} {f : Nat → Option R} {a b : R}, Returns f a → Returns f b → a = b := by
    rintro R f a b ⟨F, hF⟩ ⟨G, hG⟩
    have h1 := hF (max F G) (le_max_left _ _)
    rw [hG (max F G) (le_max_right _ _)] at h1
    exact (Option.some.inj h1).symm
  have hval : ∀ c : Cube3, ∃ n : Nat, (mus? ⟨edges, corners⟩ c).getD 0 = (n : ℚ) := by
    intro c
    unfold mus?
    cases Cache.get? ⟨edges, corners⟩ c with
    | none => exact ⟨0, by simp⟩
    | some n => exact ⟨n, rfl⟩
  have both : ∃ r₀, Returns (fun fuel => Cube3.solveWithHeuristic? exactOps (fun c => (mus? ⟨edges, corners⟩ c).getD 0) fuel c) r₀ ∧
      Returns (fun fuel => Cube3.solveWithHeuristic? exactOps zeroHeuristic fuel c) r₀ := by
    by_cases hc : c.Reachable
    · obtain ⟨alg, -, -, -, h⟩ := C86_solve c hc
      refine ⟨some alg, h _ (fun c => ?_) (fun c => ?_) (fun c alg hs => ?_), h _ (fun _ => le_rfl)
        (fun _ => ⟨0, by simp [zeroHeuristic]⟩) (fun _ _ _ => by simp [zeroHeuristic])⟩
      · obtain ⟨n, hn⟩ := hval c; simp only [hn]; positivity
      · obtain ⟨n, hn⟩ := hval c; exact ⟨n, by simp only [hn]; rfl⟩
      · obtain ⟨⟨x, hx1, _, hx3⟩, _⟩ := C25_admissible he hk c alg hs
        simp only [hx1]
        exact hx3
    · exact ⟨none, C29_unreachable exactOps _ c hc, C29_unreachable exactOps _ c hc⟩
  obtain ⟨r₀, h1, h2⟩ := both
  exact ⟨fun h => by rw [uniq h h1]; exact h2, fun h => by rw [uniq h h2]; exact h1⟩

example {edges corners : List Nat} (he : buildTable? HalfEdgesMUS = some edges) (hk : buildTable? CornersMUS = some corners) :
    ∃ alg : List AxisMove, Returns (fun fuel => Cube3.solveWithHeuristic? exactOps (fun c => (mus? ⟨edges, corners⟩ c).getD 0) fuel
        (movedAlg Cube3.SOLVED Perms.T)) (some alg) ∧
      Returns (fun fuel => Cube3.solveWithHeuristic? exactOps zeroHeuristic fuel (movedAlg Cube3.SOLVED Perms.T)) (some alg) := by
  obtain ⟨alg, h, -⟩ := (C29_zero (movedAlg Cube3.SOLVED Perms.T)).1 ⟨_, rfl⟩
  exact ⟨alg, (C86_mus he hk _ _).2 h, h⟩

end Barbarosa
