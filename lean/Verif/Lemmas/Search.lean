import Verif.Spec.Search
import Mathlib.Data.Fintype.Card
import Mathlib.Data.Rat.Floor
import Mathlib.Algebra.Order.Field.Rat
import Mathlib.Tactic.Linarith
import Mathlib.Tactic.Ring
import Mathlib.Tactic.FieldSimp
import Mathlib.Tactic.Push

/-!
# Lemmas about IDA*
-/

namespace Barbarosa

section walks
variable {C M : Type} {succ : C → List (C × M)}

theorem isWalk_append {c : C} {a b : List (C × M)} :
    IsWalk succ c (a ++ b) ↔ IsWalk succ c a ∧ IsWalk succ (walkEnd c a) b := by
  induction a generalizing c with
  | nil => simp [IsWalk, walkEnd]
  | cons s l ih => simp [IsWalk, walkEnd, ih, and_assoc]

theorem walkEnd_append {c : C} {a b : List (C × M)} : walkEnd c (a ++ b) = walkEnd (walkEnd c a) b := by
  induction a generalizing c with
  | nil => rfl
  | cons s l ih => exact ih

theorem walk_moved [Movable C M] (ht : TrueSuccessors succ) {c : C} {steps : List (C × M)} (h : IsWalk succ c steps) :
    movedAlg c (steps.map (·.2)) = walkEnd c steps := by
  induction steps generalizing c with
  | nil => rfl
  | cons s l ih =>
    have : movedAlg c ((s :: l).map (·.2)) = movedAlg (moved c s.2) (l.map (·.2)) := rfl
    rw [this, ht c s h.1, ih h.2]
    rfl

/-- every walk can be shortened to one that visits no state twice -/
theorem exists_simple_walk : ∀ (n : Nat) (c : C) (steps : List (C × M)), steps.length ≤ n → IsWalk succ c steps →
    ∃ steps', IsWalk succ c steps' ∧ walkEnd c steps' = walkEnd c steps ∧ steps'.length ≤ steps.length ∧
      (c :: steps'.map (·.1)).Nodup ∧ ∀ s ∈ steps', s.1 ∈ steps.map (·.1) := by
  classical
  intro n
  induction n with
  | zero =>
    intro c steps hn hw
    obtain rfl : steps = [] := List.length_eq_zero_iff.1 (by omega)
    exact ⟨[], trivial, rfl, le_rfl, by simp, by simp⟩
  | succ n ih =>
    intro c steps hn hw
    by_cases hc : c ∈ steps.map (·.1)
    · obtain ⟨s, hs, rfl⟩ := List.mem_map.1 hc
      obtain ⟨a, b, rfl⟩ := List.append_of_mem hs
      have hw2 := (isWalk_append.1 hw).2
      obtain ⟨st, h1, h2, h3, h4, h5⟩ := ih s.1 b (by simp at hn; omega) hw2.2
      refine ⟨st, h1, ?_, by simp; omega, h4, fun x hx => ?_⟩
      · rw [h2, walkEnd_append]; rfl
      · have := h5 x hx
        simp at this ⊢
        tauto
    · cases steps with
      | nil => exact ⟨[], trivial, rfl, le_rfl, by simp, by simp⟩
      | cons s l =>
        obtain ⟨st, h1, h2, h3, h4, h5⟩ := ih s.1 l (by simp at hn; omega) hw.2
        refine ⟨s :: st, ⟨hw.1, h1⟩, h2, by simpa using h3, ?_, ?_⟩
        · rw [List.map_cons, List.nodup_cons]
          refine ⟨fun hm => hc ?_, h4⟩
          rcases List.mem_cons.1 hm with h | h
          · rw [h]; simp
          · obtain ⟨x, hx, rfl⟩ := List.mem_map.1 h
            exact List.mem_cons_of_mem _ (h5 x hx)
        · intro x hx
          rcases List.mem_cons.1 hx with rfl | hx
          · simp
          · exact List.mem_cons_of_mem _ (h5 x hx)

end walks

section
variable {C M K : Type} [DecidableEq C] (ops : CostOps K)

/-! ## Fuel -/

theorem searchFor_mono {rec rec' : List C → K → Option (Option (List M) × List C × K)}
    (hr : ∀ p me r, rec p me = some r → rec' p me = some r) :
    ∀ (l : List (C × M)) (path : List C) (me : K) r, searchFor rec l path me = some r →
      searchFor rec' l path me = some r := by
  intro l
  induction l with
  | nil => intro path me r h; exact h
  | cons s l ih =>
    obtain ⟨s, m⟩ := s
    intro path me r h
    unfold searchFor at h ⊢
    split
    · rename_i hs; rw [if_pos hs] at h; exact ih _ _ _ h
    · rename_i hs
      rw [if_neg hs] at h
      rcases hrec : rec (s :: path) me with _ | ⟨_ | sol, path', me'⟩
      · rw [hrec] at h; cases h
      · rw [hrec] at h; rw [hr _ _ _ hrec]; exact ih _ _ _ h
      · rw [hrec] at h; rw [hr _ _ _ hrec]; exact h

theorem searchImpl_mono (h : C → K) (succ : C → List (C × M)) (isTarget : C → Bool) (bound : K) :
    ∀ (fuel fuel' : Nat), fuel ≤ fuel' → ∀ (cost : K) (path : List C) (me : K) r,
      searchImpl ops h succ isTarget bound fuel cost path me = some r →
      searchImpl ops h succ isTarget bound fuel' cost path me = some r := by
  intro fuel
  induction fuel with
  | zero => intro _ _ _ _ _ _ hs; cases hs
  | succ fuel ih =>
    intro fuel' hle cost path me r hs
    obtain ⟨f, rfl⟩ : ∃ f, fuel' = f + 1 := ⟨fuel' - 1, by omega⟩
    cases path with
    | nil => cases hs
    | cons c p =>
      unfold searchImpl at hs ⊢
      simp only at hs ⊢
      split
      · rename_i h1; rw [if_pos h1] at hs; exact hs
      · rename_i h1
        rw [if_neg h1] at hs
        split
        · rename_i h2; rw [if_pos h2] at hs; exact hs
        · rename_i h2
          rw [if_neg h2] at hs
          exact searchFor_mono (fun p me r hr => ih f (by omega) _ p me r hr) _ _ _ _ hs

theorem searchLoop_mono (h : C → K) (succ : C → List (C × M)) (isTarget : C → Bool) (cube : C) {fuel fuel' : Nat}
    (hle : fuel ≤ fuel') : ∀ (k : Nat) (bound : K) r, searchLoop ops h succ isTarget fuel cube k bound = some r →
      searchLoop ops h succ isTarget fuel' cube k bound = some r := by
  intro k
  induction k with
  | zero => intro _ _ hs; exact hs
  | succ k ih =>
    intro bound r hs
    unfold searchLoop at hs ⊢
    rcases hi : searchImpl ops h succ isTarget bound fuel ops.zero [cube] (ops.add bound ops.one) with _ | ⟨_ | sol, path, me⟩
    · rw [hi] at hs; cases hs
    · rw [hi] at hs
      rw [searchImpl_mono ops h succ isTarget bound _ _ hle _ _ _ _ hi]
      exact ih _ _ hs
    · rw [hi] at hs
      rw [searchImpl_mono ops h succ isTarget bound _ _ hle _ _ _ _ hi]
      exact hs

/-! ## Soundness -/

theorem searchFor_sound {succ : C → List (C × M)} {isTarget : C → Bool}
    {rec : List C → K → Option (Option (List M) × List C × K)} (cube : C) (p : List C)
    (hr : ∀ s me ans path' me', rec (s :: cube :: p) me = some (ans, path', me') →
      match ans with
      | none => path' = s :: cube :: p
      | some sol => ∃ steps, IsWalk succ s steps ∧ steps.map (·.2) = sol.reverse ∧ path'.head? = some (walkEnd s steps) ∧
          isTarget (walkEnd s steps) = true) :
    ∀ (l : List (C × M)), (∀ s ∈ l, s ∈ succ cube) → ∀ me ans path' me',
      searchFor rec l (cube :: p) me = some (ans, path', me') →
      match ans with
      | none => path' = cube :: p
      | some sol => ∃ steps, IsWalk succ cube steps ∧ steps.map (·.2) = sol.reverse ∧
          path'.head? = some (walkEnd cube steps) ∧ isTarget (walkEnd cube steps) = true := by
  intro l
  induction l with
  | nil =>
    intro _ me ans path' me' h
    simp only [searchFor, Option.some.injEq, Prod.mk.injEq] at h
    obtain ⟨rfl, rfl, rfl⟩ := h
    rfl
  | cons s l ih =>
    obtain ⟨s, m⟩ := s
    intro hl me ans path' me' h
    have hl' : ∀ s ∈ l, s ∈ succ cube := fun x hx => hl x (List.mem_cons_of_mem _ hx)
    unfold searchFor at h
    by_cases hs : s ∈ cube :: p
    · rw [if_pos hs] at h
      exact ih hl' _ _ _ _ h
    · rw [if_neg hs] at h
      rcases hrec : rec (s :: cube :: p) me with _ | ⟨_ | sol, path1, me1⟩
      · rw [hrec] at h; cases h
      · rw [hrec] at h
        have := hr s me _ _ _ hrec
        simp only at this
        subst this
        exact ih hl' _ _ _ _ h
      · rw [hrec] at h
        simp only [Option.some.injEq, Prod.mk.injEq] at h
        obtain ⟨rfl, rfl, rfl⟩ := h
        obtain ⟨steps, h1, h2, h3, h4⟩ := hr s me _ _ _ hrec
        exact ⟨(s, m) :: steps, ⟨hl _ (by simp), h1⟩, by simp [h2], h3, h4⟩

theorem searchImpl_sound (h : C → K) (succ : C → List (C × M)) (isTarget : C → Bool) (bound : K) :
    ∀ (fuel : Nat) (cost : K) (cube : C) (p : List C) (me : K) ans path' me',
      searchImpl ops h succ isTarget bound fuel cost (cube :: p) me = some (ans, path', me') →
      match ans with
      | none => path' = cube :: p
      | some sol => ∃ steps, IsWalk succ cube steps ∧ steps.map (·.2) = sol.reverse ∧
          path'.head? = some (walkEnd cube steps) ∧ isTarget (walkEnd cube steps) = true := by
  intro fuel
  induction fuel with
  | zero => intro _ _ _ _ _ _ _ hs; cases hs
  | succ fuel ih =>
    intro cost cube p me ans path' me' hs
    unfold searchImpl at hs
    simp only at hs
    split at hs
    · simp only [Option.some.injEq, Prod.mk.injEq] at hs
      obtain ⟨rfl, rfl, rfl⟩ := hs
      rfl
    · split at hs
      · rename_i ht
        simp only [Option.some.injEq, Prod.mk.injEq] at hs
        obtain ⟨rfl, rfl, rfl⟩ := hs
        exact ⟨[], trivial, rfl, rfl, ht⟩
      · exact searchFor_sound cube p (fun s me ans path' me' hr => ih _ s (cube :: p) me ans path' me' hr) _
          (fun s hs => hs) _ _ _ _ hs

theorem searchLoop_sound (h : C → K) (succ : C → List (C × M)) (isTarget : C → Bool) (fuel : Nat) (cube : C) :
    ∀ (k : Nat) (bound : K) (alg : List M) (e : C),
      searchLoop ops h succ isTarget fuel cube k bound = some (some (alg, e)) →
      ∃ steps, IsWalk succ cube steps ∧ steps.map (·.2) = alg ∧ walkEnd cube steps = e ∧ isTarget e = true := by
  intro k
  induction k with
  | zero => intro _ _ _ hs; cases hs
  | succ k ih =>
    intro bound alg e hs
    unfold searchLoop at hs
    rcases hi : searchImpl ops h succ isTarget bound fuel ops.zero [cube] (ops.add bound ops.one) with _ | ⟨_ | sol, path, me⟩
    · rw [hi] at hs; cases hs
    · rw [hi] at hs; exact ih _ _ _ hs
    · rw [hi] at hs
      obtain ⟨steps, h1, h2, h3, h4⟩ := searchImpl_sound ops h succ isTarget bound _ _ _ _ _ _ _ _ hi
      simp only [h3, Option.map_some, Option.some.injEq, Prod.mk.injEq] at hs
      obtain ⟨rfl, rfl⟩ := hs
      exact ⟨steps, h1, h2, rfl, h4⟩

/-! ## Termination on finite puzzles, for any heuristic -/

theorem searchFor_total {rec : List C → K → Option (Option (List M) × List C × K)} (cube : C) (p : List C)
    (hp : ∀ s me path' me', rec (s :: cube :: p) me = some (none, path', me') → path' = s :: cube :: p)
    (hr : ∀ s me, s ∉ cube :: p → (rec (s :: cube :: p) me).isSome) :
    ∀ (l : List (C × M)) me, (searchFor rec l (cube :: p) me).isSome := by
  intro l
  induction l with
  | nil => intro me; rfl
  | cons s l ih =>
    obtain ⟨s, m⟩ := s
    intro me
    unfold searchFor
    by_cases hs : s ∈ cube :: p
    · rw [if_pos hs]; exact ih me
    · rw [if_neg hs]
      have h1 := hr s me hs
      rcases hrec : rec (s :: cube :: p) me with _ | ⟨_ | sol, path1, me1⟩
      · rw [hrec] at h1; cases h1
      · have := hp s me _ _ hrec
        subst this
        exact ih me1
      · rfl

theorem searchImpl_total_finite [Fintype C] (h : C → K) (succ : C → List (C × M)) (isTarget : C → Bool) (bound : K) :
    ∀ (fuel : Nat) (cost : K) (cube : C) (p : List C) (me : K), (cube :: p).Nodup →
      Fintype.card C + 1 ≤ fuel + (cube :: p).length →
      (searchImpl ops h succ isTarget bound fuel cost (cube :: p) me).isSome := by
  intro fuel
  induction fuel with
  | zero =>
    intro cost cube p me hnd hf
    have := hnd.length_le_card
    omega
  | succ fuel ih =>
    intro cost cube p me hnd hf
    unfold searchImpl
    simp only
    split
    · rfl
    · split
      · rfl
      · refine searchFor_total cube p ?_ ?_ _ _
        · intro s me path' me' hr
          exact searchImpl_sound ops h succ isTarget bound _ _ _ _ _ _ _ _ hr
        · intro s me hs
          exact ih _ s (cube :: p) me (List.nodup_cons.2 ⟨hs, hnd⟩) (by simp at hf ⊢; omega)

theorem searchLoop_total {h : C → K} {succ : C → List (C × M)} {isTarget : C → Bool} {fuel : Nat} {cube : C}
    (hi : ∀ bound me, (searchImpl ops h succ isTarget bound fuel ops.zero [cube] me).isSome) :
    ∀ (k : Nat) (bound : K), (searchLoop ops h succ isTarget fuel cube k bound).isSome := by
  intro k
  induction k with
  | zero => intro _; rfl
  | succ k ih =>
    intro bound
    unfold searchLoop
    have h1 := hi bound (ops.add bound ops.one)
    rcases hs : searchImpl ops h succ isTarget bound fuel ops.zero [cube] (ops.add bound ops.one) with _ | ⟨_ | sol, path, me⟩
    · rw [hs] at h1; cases h1
    · exact ih me
    · rfl

end

/-! ## Exact costs -/

section exact
variable {C M : Type} [DecidableEq C] {h : C → ℚ} {succ : C → List (C × M)} {isTarget : C → Bool}

/-- the recursion is no deeper than the bound if the heuristic is not negative -/
theorem searchImpl_total_nonneg (hh : ∀ c, 0 ≤ h c) (bound : ℚ) :
    ∀ (fuel : Nat) (cost : ℚ) (cube : C) (p : List C) (me : ℚ), bound + 1 < cost + fuel → 0 < fuel →
      (searchImpl exactOps h succ isTarget bound fuel cost (cube :: p) me).isSome := by
  intro fuel
  induction fuel with
  | zero => intro cost cube p me h1 h2; omega
  | succ fuel ih =>
    intro cost cube p me h1 _
    unfold searchImpl
    simp only
    split
    · rfl
    · rename_i hb
      split
      · rfl
      · refine searchFor_total cube p ?_ ?_ _ _
        · intro s me path' me' hr
          exact searchImpl_sound exactOps h succ isTarget bound _ _ _ _ _ _ _ _ hr
        · intro s me _
          have hb' : ¬ bound < cost + h cube := by simpa [exactOps] using hb
          have := hh cube
          refine ih _ s (cube :: p) me ?_ ?_
          · push_cast at h1
            show bound + 1 < cost + 1 + fuel
            linarith
          · by_contra hc
            obtain rfl : fuel = 0 := by omega
            simp at h1
            linarith

/-- what a failing search tells -/
theorem searchFor_fail {rec : List C → ℚ → Option (Option (List M) × List C × ℚ)} {b : ℚ} (cube : C) (p : List C)
    (good : C → ℚ → Prop)
    (hr : ∀ s me path' me', rec (s :: cube :: p) me = some (none, path', me') →
      path' = s :: cube :: p ∧ me' ≤ me ∧ (b < me → b < me') ∧ good s me')
    (hg : ∀ s x y, x ≤ y → good s y → good s x) :
    ∀ (l : List (C × M)) me path' me', searchFor rec l (cube :: p) me = some (none, path', me') →
      path' = cube :: p ∧ me' ≤ me ∧ (b < me → b < me') ∧ ∀ s ∈ l, s.1 ∉ cube :: p → good s.1 me' := by
  intro l
  induction l with
  | nil =>
    intro me path' me' hs
    simp only [searchFor, Option.some.injEq, Prod.mk.injEq, true_and] at hs
    obtain ⟨rfl, rfl⟩ := hs
    exact ⟨rfl, le_rfl, id, by simp⟩
  | cons s l ih =>
    obtain ⟨s, m⟩ := s
    intro me path' me' hs
    unfold searchFor at hs
    by_cases hm : s ∈ cube :: p
    · rw [if_pos hm] at hs
      obtain ⟨h1, h2, h3, h4⟩ := ih _ _ _ hs
      refine ⟨h1, h2, h3, fun x hx hn => ?_⟩
      rcases List.mem_cons.1 hx with rfl | hx
      · exact absurd hm hn
      · exact h4 x hx hn
    · rw [if_neg hm] at hs
      rcases hrec : rec (s :: cube :: p) me with _ | ⟨_ | sol, path1, me1⟩
      · rw [hrec] at hs; cases hs
      · rw [hrec] at hs
        obtain ⟨e1, e2, e3, e4⟩ := hr _ _ _ _ hrec
        subst e1
        obtain ⟨h1, h2, h3, h4⟩ := ih _ _ _ hs
        refine ⟨h1, h2.trans e2, fun hb => h3 (e3 hb), fun x hx hn => ?_⟩
        rcases List.mem_cons.1 hx with rfl | hx
        · exact hg _ _ _ h2 e4
        · exact h4 x hx hn
      · rw [hrec] at hs; cases hs

/-- the search could not have missed `steps`: some state on the way was over the bound, and was recorded -/
def Blocked (h : C → ℚ) (b cost me : ℚ) (cube : C) (steps : List (C × M)) : Prop :=
  ∃ pre suf, steps = pre ++ suf ∧ b < cost + pre.length + h (walkEnd cube pre) ∧
    me ≤ cost + pre.length + h (walkEnd cube pre)

theorem searchImpl_fail (b : ℚ) :
    ∀ (fuel : Nat) (cost : ℚ) (cube : C) (p : List C) (me : ℚ) path' me',
      searchImpl exactOps h succ isTarget b fuel cost (cube :: p) me = some (none, path', me') →
      path' = cube :: p ∧ me' ≤ me ∧ (b < me → b < me') ∧
      ∀ steps, IsWalk succ cube steps → isTarget (walkEnd cube steps) = true →
        (steps.map (·.1) ++ cube :: p).Nodup → Blocked h b cost me' cube steps := by
  intro fuel
  induction fuel with
  | zero => intro _ _ _ _ _ _ hs; cases hs
  | succ fuel ih =>
    intro cost cube p me path' me' hs
    unfold searchImpl at hs
    simp only at hs
    split at hs
    · rename_i hb
      have hb' : b < cost + h cube := by simpa [exactOps] using hb
      simp only [Option.some.injEq, Prod.mk.injEq, true_and] at hs
      obtain ⟨rfl, rfl⟩ := hs
      simp only [exactOps, decide_eq_true_eq]
      refine ⟨trivial, ?_, ?_, fun steps _ _ _ => ⟨[], steps, rfl, by simpa [walkEnd] using hb', ?_⟩⟩
      · split <;> linarith
      · intro hm; split <;> assumption
      · simp only [walkEnd, List.length_nil, Nat.cast_zero, add_zero]
        split <;> linarith
    · split at hs
      · cases hs
      · rename_i hb ht
        obtain ⟨h1, h2, h3, h4⟩ := searchFor_fail (b := b) cube p
          (fun s me' => ∀ steps, IsWalk succ s steps → isTarget (walkEnd s steps) = true →
            (steps.map (·.1) ++ s :: cube :: p).Nodup → Blocked h b (cost + 1) me' s steps)
          (fun s me path' me' hr => ih _ s (cube :: p) me path' me' hr)
          (fun s x y hxy hy steps w t n => by
            obtain ⟨pre, suf, e, l1, l2⟩ := hy steps w t n
            exact ⟨pre, suf, e, l1, hxy.trans l2⟩)
          _ _ _ _ hs
        refine ⟨h1, h2, h3, fun steps hw htar hnd => ?_⟩
        cases steps with
        | nil => exact absurd htar ht
        | cons s l =>
          have hnd' : (l.map (·.1) ++ s.1 :: cube :: p).Nodup := by
            have : List.Perm (l.map (·.1) ++ s.1 :: cube :: p) ((s :: l).map (·.1) ++ cube :: p) := by
              simp only [List.map_cons, List.cons_append]
              exact List.perm_middle
            exact this.nodup_iff.2 hnd
          have hs1 : s.1 ∉ cube :: p := by
            rw [List.map_cons, List.cons_append, List.nodup_cons] at hnd
            exact fun hm => hnd.1 (List.mem_append_right _ hm)
          obtain ⟨pre, suf, e, l1, l2⟩ := h4 s hw.1 hs1 l hw.2 htar hnd'
          refine ⟨s :: pre, suf, by rw [e]; rfl, ?_, ?_⟩
          · simp only [List.length_cons, walkEnd]; push_cast; linarith
          · simp only [List.length_cons, walkEnd]; push_cast; linarith

/-- a successful search found something within the bound -/
theorem searchFor_within {rec : List C → ℚ → Option (Option (List M) × List C × ℚ)} {n : ℚ} (cube : C) (p : List C)
    (hp : ∀ s me path' me', rec (s :: cube :: p) me = some (none, path', me') → path' = s :: cube :: p)
    (hr : ∀ s me sol path' me', rec (s :: cube :: p) me = some (some sol, path', me') → (sol.length : ℚ) ≤ n) :
    ∀ (l : List (C × M)) me sol path' me', searchFor rec l (cube :: p) me = some (some sol, path', me') →
      (sol.length : ℚ) ≤ n + 1 := by
  intro l
  induction l with
  | nil => intro me sol path' me' hs; cases hs
  | cons s l ih =>
    obtain ⟨s, m⟩ := s
    intro me sol path' me' hs
    unfold searchFor at hs
    by_cases hm : s ∈ cube :: p
    · rw [if_pos hm] at hs
      exact ih _ _ _ _ hs
    · rw [if_neg hm] at hs
      rcases hrec : rec (s :: cube :: p) me with _ | ⟨_ | sol', path1, me1⟩
      · rw [hrec] at hs; cases hs
      · rw [hrec] at hs
        have := hp _ _ _ _ hrec
        subst this
        exact ih _ _ _ _ hs
      · rw [hrec] at hs
        simp only [Option.some.injEq, Prod.mk.injEq] at hs
        obtain ⟨rfl, rfl, rfl⟩ := hs
        have := hr _ _ _ _ _ hrec
        simp only [List.length_append, List.length_singleton]
        push_cast
        linarith

theorem searchImpl_within (hh : ∀ c, 0 ≤ h c) (b : ℚ) :
    ∀ (fuel : Nat) (cost : ℚ) (cube : C) (p : List C) (me : ℚ) sol path' me',
      searchImpl exactOps h succ isTarget b fuel cost (cube :: p) me = some (some sol, path', me') →
      (sol.length : ℚ) ≤ b - cost := by
  intro fuel
  induction fuel with
  | zero => intro _ _ _ _ _ _ _ hs; cases hs
  | succ fuel ih =>
    intro cost cube p me sol path' me' hs
    unfold searchImpl at hs
    simp only at hs
    split at hs
    · cases hs
    · rename_i hb
      have hb' : ¬ b < cost + h cube := by simpa [exactOps] using hb
      have := hh cube
      split at hs
      · simp only [Option.some.injEq, Prod.mk.injEq] at hs
        obtain ⟨rfl, rfl, rfl⟩ := hs
        simp
        linarith
      · have := searchFor_within (n := b - (cost + 1)) cube p
          (fun s me path' me' hr => searchImpl_sound exactOps h succ isTarget b _ _ _ _ _ _ _ _ hr)
          (fun s me sol path' me' hr => ih _ s (cube :: p) me sol path' me' hr) _ _ _ _ _ hs
        linarith

/-! ## Costs in fractions -/

/-- `x` is a multiple of `1/q` -/
def Frac (q : Nat) (x : ℚ) : Prop := ∃ z : ℤ, (q : ℚ) * x = z

theorem Frac.add {q : Nat} {x y : ℚ} : Frac q x → Frac q y → Frac q (x + y) := by
  rintro ⟨a, ha⟩ ⟨b, hb⟩
  exact ⟨a + b, by push_cast; rw [mul_add, ha, hb]⟩

theorem Frac.one (q : Nat) : Frac q 1 := ⟨q, by simp⟩
theorem Frac.zero (q : Nat) : Frac q 0 := ⟨0, by simp⟩

theorem Frac.gap {q : Nat} (hq : 0 < q) {x y : ℚ} (hx : Frac q x) (hy : Frac q y) (hlt : x < y) : x + 1 / q ≤ y := by
  obtain ⟨a, ha⟩ := hx
  obtain ⟨b, hb⟩ := hy
  have hq' : (0 : ℚ) < q := by exact_mod_cast hq
  have : (a : ℚ) < b := by rw [← ha, ← hb]; exact mul_lt_mul_of_pos_left hlt hq'
  have h1 : a + 1 ≤ b := by exact_mod_cast this
  have h2 : (a : ℚ) + 1 ≤ b := by exact_mod_cast h1
  rw [← ha, ← hb] at h2
  have h3 : (q : ℚ) * (x + 1 / q) ≤ q * y := by
    rw [mul_add, mul_one_div_cancel hq'.ne']; exact h2
  exact le_of_mul_le_mul_left h3 hq'

theorem searchFor_frac {q : Nat} {rec : List C → ℚ → Option (Option (List M) × List C × ℚ)} (cube : C) (p : List C)
    (hp : ∀ s me path' me', rec (s :: cube :: p) me = some (none, path', me') → path' = s :: cube :: p)
    (hr : ∀ s me path' me', rec (s :: cube :: p) me = some (none, path', me') → Frac q me → Frac q me') :
    ∀ (l : List (C × M)) me path' me', searchFor rec l (cube :: p) me = some (none, path', me') → Frac q me →
      Frac q me' := by
  intro l
  induction l with
  | nil =>
    intro me path' me' hs hf
    simp only [searchFor, Option.some.injEq, Prod.mk.injEq, true_and] at hs
    rw [← hs.2]; exact hf
  | cons s l ih =>
    obtain ⟨s, m⟩ := s
    intro me path' me' hs hf
    unfold searchFor at hs
    by_cases hm : s ∈ cube :: p
    · rw [if_pos hm] at hs
      exact ih _ _ _ hs hf
    · rw [if_neg hm] at hs
      rcases hrec : rec (s :: cube :: p) me with _ | ⟨_ | sol', path1, me1⟩
      · rw [hrec] at hs; cases hs
      · rw [hrec] at hs
        have := hp _ _ _ _ hrec
        subst this
        exact ih _ _ _ hs (hr _ _ _ _ hrec hf)
      · rw [hrec] at hs; cases hs

theorem searchImpl_frac {q : Nat} (hq : ∀ c, Frac q (h c)) (b : ℚ) :
    ∀ (fuel : Nat) (cost : ℚ) (cube : C) (p : List C) (me : ℚ) path' me', Frac q cost →
      searchImpl exactOps h succ isTarget b fuel cost (cube :: p) me = some (none, path', me') → Frac q me →
      Frac q me' := by
  intro fuel
  induction fuel with
  | zero => intro _ _ _ _ _ _ _ hs; cases hs
  | succ fuel ih =>
    intro cost cube p me path' me' hc hs hf
    unfold searchImpl at hs
    simp only at hs
    split at hs
    · simp only [Option.some.injEq, Prod.mk.injEq, true_and] at hs
      rw [← hs.2]
      split
      · exact hc.add (hq cube)
      · exact hf
    · split at hs
      · cases hs
      · exact searchFor_frac cube p
          (fun s me path' me' hr => searchImpl_sound exactOps h succ isTarget b _ _ _ _ _ _ _ _ hr)
          (fun s me path' me' hr => ih _ s (cube :: p) me path' me' (hc.add (.one q)) hr) _ _ _ _ hs hf

/-! ## The outer loop -/

/-- the bound never exceeds the largest estimate along a walk to a target -/
theorem searchLoop_bound {B : ℚ} {cube : C} {steps : List (C × M)} (hw : IsWalk succ cube steps)
    (ht : isTarget (walkEnd cube steps) = true) (hnd : (cube :: steps.map (·.1)).Nodup)
    (hB : ∀ pre suf, steps = pre ++ suf → pre.length + h (walkEnd cube pre) ≤ B) {fuel : Nat} {b : ℚ} {path : List C}
    {me : ℚ} (hs : searchImpl exactOps h succ isTarget b fuel 0 [cube] (b + 1) = some (none, path, me)) :
    b < me ∧ me ≤ B ∧ me ≤ b + 1 := by
  obtain ⟨-, h2, h3, h4⟩ := searchImpl_fail b fuel 0 cube [] (b + 1) path me hs
  have hnd' : (steps.map (·.1) ++ [cube]).Nodup := (List.perm_append_singleton _ _).nodup_iff.2 hnd
  obtain ⟨pre, suf, e, l1, l2⟩ := h4 steps hw ht hnd'
  have := hB pre suf e
  exact ⟨h3 (by linarith), by linarith, h2⟩

theorem searchLoop_found {q : Nat} (hq : 0 < q) (hfr : ∀ c, Frac q (h c)) {B : ℚ} {cube : C} {steps : List (C × M)}
    (hw : IsWalk succ cube steps) (ht : isTarget (walkEnd cube steps) = true)
    (hnd : (cube :: steps.map (·.1)).Nodup)
    (hB : ∀ pre suf, steps = pre ++ suf → pre.length + h (walkEnd cube pre) ≤ B) {fuel : Nat} :
    ∀ (k : Nat) (b : ℚ), Frac q b → b ≤ B → B < b + k / q →
      searchLoop exactOps h succ isTarget fuel cube k b ≠ some none := by
  have hq' : (0 : ℚ) < q := by exact_mod_cast hq
  intro k
  induction k with
  | zero => intro b _ h1 h2; simp at h2; exact absurd h1 (not_le.2 h2)
  | succ k ih =>
    intro b hb h1 h2 hs
    unfold searchLoop at hs
    rcases hi : searchImpl exactOps h succ isTarget b fuel exactOps.zero [cube] (exactOps.add b exactOps.one) with
      _ | ⟨_ | sol, path, me⟩
    · rw [hi] at hs; cases hs
    · rw [hi] at hs
      obtain ⟨l1, l2, -⟩ := searchLoop_bound hw ht hnd hB hi
      have hme : Frac q me := searchImpl_frac hfr b fuel 0 cube [] (b + 1) path me (.zero q) hi (hb.add (.one q))
      have hgap := hb.gap hq hme l1
      refine ih me hme l2 ?_ hs
      push_cast at h2
      rw [add_div] at h2
      linarith
    · rw [hi] at hs
      obtain ⟨st, -, -, h3, -⟩ := searchImpl_sound exactOps h succ isTarget b _ _ _ _ _ _ _ _ hi
      simp only [h3] at hs
      cases hs

theorem searchLoop_optimal (hh : ∀ c, 0 ≤ h c) {B : ℚ} {cube : C} {steps : List (C × M)}
    (hw : IsWalk succ cube steps) (ht : isTarget (walkEnd cube steps) = true)
    (hnd : (cube :: steps.map (·.1)).Nodup)
    (hB : ∀ pre suf, steps = pre ++ suf → pre.length + h (walkEnd cube pre) ≤ B) {fuel : Nat} {alg : List M} {e : C} :
    ∀ (k : Nat) (b : ℚ), b ≤ B → searchLoop exactOps h succ isTarget fuel cube k b = some (some (alg, e)) →
      (alg.length : ℚ) ≤ B := by
  intro k
  induction k with
  | zero => intro b _ hs; cases hs
  | succ k ih =>
    intro b h1 hs
    unfold searchLoop at hs
    rcases hi : searchImpl exactOps h succ isTarget b fuel exactOps.zero [cube] (exactOps.add b exactOps.one) with
      _ | ⟨_ | sol, path, me⟩
    · rw [hi] at hs; cases hs
    · rw [hi] at hs
      obtain ⟨l1, l2, -⟩ := searchLoop_bound hw ht hnd hB hi
      exact ih me l2 hs
    · rw [hi] at hs
      obtain ⟨st, -, -, h3, -⟩ := searchImpl_sound exactOps h succ isTarget b _ _ _ _ _ _ _ _ hi
      have hl := searchImpl_within hh b fuel 0 cube [] (b + 1) sol path me hi
      simp only [h3, Option.map_some, Option.some.injEq, Prod.mk.injEq] at hs
      obtain ⟨rfl, -⟩ := hs
      rw [List.length_reverse]
      linarith

/-- the limit: after `k` iterations nothing longer than `b + k - 1` can have been found -/
theorem searchLoop_limit (hh : ∀ c, 0 ≤ h c) {fuel : Nat} {cube : C} {alg : List M} {e : C} :
    ∀ (k : Nat) (b : ℚ), searchLoop exactOps h succ isTarget fuel cube k b = some (some (alg, e)) →
      (alg.length : ℚ) + 1 ≤ b + k := by
  intro k
  induction k with
  | zero => intro b hs; cases hs
  | succ k ih =>
    intro b hs
    unfold searchLoop at hs
    rcases hi : searchImpl exactOps h succ isTarget b fuel exactOps.zero [cube] (exactOps.add b exactOps.one) with
      _ | ⟨_ | sol, path, me⟩
    · rw [hi] at hs; cases hs
    · rw [hi] at hs
      have h2 := (searchImpl_fail b fuel 0 cube [] (b + 1) path me hi).2.1
      have := ih me hs
      push_cast
      linarith
    · rw [hi] at hs
      obtain ⟨st, -, -, h3, -⟩ := searchImpl_sound exactOps h succ isTarget b _ _ _ _ _ _ _ _ hi
      have hl := searchImpl_within hh b fuel 0 cube [] (b + 1) sol path me hi
      simp only [h3, Option.map_some, Option.some.injEq, Prod.mk.injEq] at hs
      obtain ⟨rfl, -⟩ := hs
      rw [List.length_reverse]
      have : (0 : ℚ) ≤ k := Nat.cast_nonneg k
      push_cast
      linarith

theorem searchLoop_total_nonneg (hh : ∀ c, 0 ≤ h c) {fuel : Nat} {cube : C} :
    ∀ (k : Nat) (b : ℚ), b + k + 1 < fuel → 0 < fuel →
      (searchLoop exactOps h succ isTarget fuel cube k b).isSome := by
  intro k
  induction k with
  | zero => intro b _ _; rfl
  | succ k ih =>
    intro b hf h0
    push_cast at hf
    have hk : (0 : ℚ) ≤ k := Nat.cast_nonneg k
    have h1 := searchImpl_total_nonneg (succ := succ) (isTarget := isTarget) hh b fuel 0 cube [] (b + 1)
      (by linarith) h0
    unfold searchLoop
    rcases hi : searchImpl exactOps h succ isTarget b fuel exactOps.zero [cube] (exactOps.add b exactOps.one) with
      _ | ⟨_ | sol, path, me⟩
    · have hi' : searchImpl exactOps h succ isTarget b fuel 0 [cube] (b + 1) = none := hi
      rw [hi'] at h1; cases h1
    · have h2 := (searchImpl_fail b fuel 0 cube [] (b + 1) path me hi).2.1
      exact ih me (by linarith) h0
    · rfl

end exact

end Barbarosa
