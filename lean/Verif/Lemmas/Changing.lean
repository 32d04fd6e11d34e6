import Verif.Model.Changing
import Verif.Lemmas.Search

/-!
# Lemmas about searching with a heuristic whose answers change
-/

namespace Barbarosa

section
variable {C M K : Type} [DecidableEq C] (ops : CostOps K)

/-! ## Fuel -/

theorem searchForV_mono {rec rec' : List C → K → Nat → Option ((Option (List M) × List C × K) × Nat)}
    (hr : ∀ p me n r, rec p me n = some r → rec' p me n = some r) :
    ∀ (l : List (C × M)) (path : List C) (me : K) (n : Nat) r, searchForV rec l path me n = some r →
      searchForV rec' l path me n = some r := by
  intro l
  induction l with
  | nil => intro path me n r h; exact h
  | cons s l ih =>
    obtain ⟨s, m⟩ := s
    intro path me n r h
    unfold searchForV at h ⊢
    split
    · rename_i hs; rw [if_pos hs] at h; exact ih _ _ _ _ h
    · rename_i hs
      rw [if_neg hs] at h
      rcases hrec : rec (s :: path) me n with _ | ⟨⟨_ | sol, path', me'⟩, n'⟩
      · rw [hrec] at h; cases h
      · rw [hrec] at h; rw [hr _ _ _ _ hrec]; exact ih _ _ _ _ h
      · rw [hrec] at h; rw [hr _ _ _ _ hrec]; exact h

theorem searchImplV_mono (h : Nat → C → Option K) (succ : C → List (C × M)) (isTarget : C → Bool) (bound : K) :
    ∀ (fuel fuel' : Nat), fuel ≤ fuel' → ∀ (cost : K) (path : List C) (me : K) (n : Nat) r,
      searchImplV ops h succ isTarget bound fuel cost path me n = some r →
      searchImplV ops h succ isTarget bound fuel' cost path me n = some r := by
  intro fuel
  induction fuel with
  | zero => intro _ _ _ _ _ _ _ hs; cases hs
  | succ fuel ih =>
    intro fuel' hle cost path me n r hs
    obtain ⟨f, rfl⟩ : ∃ f, fuel' = f + 1 := ⟨fuel' - 1, by omega⟩
    cases path with
    | nil => cases hs
    | cons c p =>
      unfold searchImplV at hs ⊢
      cases he : h n c with
      | none => rw [he] at hs; cases hs
      | some x =>
        rw [he] at hs
        simp only at hs ⊢
        split
        · rename_i h1; rw [if_pos h1] at hs; exact hs
        · rename_i h1
          rw [if_neg h1] at hs
          split
          · rename_i h2; rw [if_pos h2] at hs; exact hs
          · rename_i h2
            rw [if_neg h2] at hs
            exact searchForV_mono (fun p me n r hr => ih f (by omega) _ p me n r hr) _ _ _ _ _ hs

theorem searchLoopV_mono (h : Nat → C → Option K) (succ : C → List (C × M)) (isTarget : C → Bool) (cube : C) {fuel fuel' : Nat}
    (hle : fuel ≤ fuel') : ∀ (k : Nat) (bound : K) (n : Nat) r, searchLoopV ops h succ isTarget fuel cube k bound n = some r →
      searchLoopV ops h succ isTarget fuel' cube k bound n = some r := by
  intro k
  induction k with
  | zero => intro _ _ _ hs; exact hs
  | succ k ih =>
    intro bound n r hs
    unfold searchLoopV at hs ⊢
    rcases hi : searchImplV ops h succ isTarget bound fuel ops.zero [cube] (ops.add bound ops.one) n with
      _ | ⟨⟨_ | sol, path, me⟩, n'⟩
    · rw [hi] at hs; cases hs
    · rw [hi] at hs
      rw [searchImplV_mono ops h succ isTarget bound _ _ hle _ _ _ _ _ hi]
      exact ih _ _ _ hs
    · rw [hi] at hs
      rw [searchImplV_mono ops h succ isTarget bound _ _ hle _ _ _ _ _ hi]
      exact hs

/-! ## Soundness -/

theorem searchForV_sound {succ : C → List (C × M)} {isTarget : C → Bool}
    {rec : List C → K → Nat → Option ((Option (List M) × List C × K) × Nat)} (cube : C) (p : List C)
    (hr : ∀ s me n ans path' me' n', rec (s :: cube :: p) me n = some ((ans, path', me'), n') →
      match ans with
      | none => path' = s :: cube :: p
      | some sol => ∃ steps, IsWalk succ s steps ∧ steps.map (·.2) = sol.reverse ∧ path'.head? = some (walkEnd s steps) ∧
          isTarget (walkEnd s steps) = true) :
    ∀ (l : List (C × M)), (∀ s ∈ l, s ∈ succ cube) → ∀ me n ans path' me' n',
      searchForV rec l (cube :: p) me n = some ((ans, path', me'), n') →
      match ans with
      | none => path' = cube :: p
      | some sol => ∃ steps, IsWalk succ cube steps ∧ steps.map (·.2) = sol.reverse ∧
          path'.head? = some (walkEnd cube steps) ∧ isTarget (walkEnd cube steps) = true := by
  intro l
  induction l with
  | nil =>
    intro _ me n ans path' me' n' h
    cases h
    rfl
  | cons s l ih =>
    obtain ⟨s, m⟩ := s
    intro hl me n ans path' me' n' h
    have hl' : ∀ s ∈ l, s ∈ succ cube := fun x hx => hl x (List.mem_cons_of_mem _ hx)
    unfold searchForV at h
    by_cases hs : s ∈ cube :: p
    · rw [if_pos hs] at h
      exact ih hl' _ _ _ _ _ _ h
    · rw [if_neg hs] at h
      rcases hrec : rec (s :: cube :: p) me n with _ | ⟨⟨_ | sol, path1, me1⟩, n1⟩
      · rw [hrec] at h; cases h
      · rw [hrec] at h
        have := hr s me n _ _ _ _ hrec
        simp only at this
        subst this
        exact ih hl' _ _ _ _ _ _ h
      · rw [hrec] at h
        cases h
        obtain ⟨steps, h1, h2, h3, h4⟩ := hr s me n _ _ _ _ hrec
        exact ⟨(s, m) :: steps, ⟨hl _ (by simp), h1⟩, by simp [h2], h3, h4⟩

theorem searchImplV_sound (h : Nat → C → Option K) (succ : C → List (C × M)) (isTarget : C → Bool) (bound : K) :
    ∀ (fuel : Nat) (cost : K) (cube : C) (p : List C) (me : K) n ans path' me' n',
      searchImplV ops h succ isTarget bound fuel cost (cube :: p) me n = some ((ans, path', me'), n') →
      match ans with
      | none => path' = cube :: p
      | some sol => ∃ steps, IsWalk succ cube steps ∧ steps.map (·.2) = sol.reverse ∧
          path'.head? = some (walkEnd cube steps) ∧ isTarget (walkEnd cube steps) = true := by
  intro fuel
  induction fuel with
  | zero => intro _ _ _ _ _ _ _ _ _ hs; cases hs
  | succ fuel ih =>
    intro cost cube p me n ans path' me' n' hs
    unfold searchImplV at hs
    cases he : h n cube with
    | none => rw [he] at hs; cases hs
    | some x =>
      rw [he] at hs
      simp only at hs
      split at hs
      · cases hs
        rfl
      · split at hs
        · rename_i ht
          cases hs
          exact ⟨[], trivial, rfl, rfl, ht⟩
        · exact searchForV_sound cube p (fun s me n ans path' me' n' hr => ih _ s (cube :: p) me n ans path' me' n' hr) _
            (fun s hs => hs) _ _ _ _ _ _ hs

theorem searchLoopV_sound (h : Nat → C → Option K) (succ : C → List (C × M)) (isTarget : C → Bool) (fuel : Nat) (cube : C) :
    ∀ (k : Nat) (bound : K) (n : Nat) (alg : List M) (e : C),
      searchLoopV ops h succ isTarget fuel cube k bound n = some (some (alg, e)) →
      ∃ steps, IsWalk succ cube steps ∧ steps.map (·.2) = alg ∧ walkEnd cube steps = e ∧ isTarget e = true := by
  intro k
  induction k with
  | zero => intro _ _ _ _ hs; cases hs
  | succ k ih =>
    intro bound n alg e hs
    unfold searchLoopV at hs
    rcases hi : searchImplV ops h succ isTarget bound fuel ops.zero [cube] (ops.add bound ops.one) n with
      _ | ⟨⟨_ | sol, path, me⟩, n'⟩
    · rw [hi] at hs; cases hs
    · rw [hi] at hs; exact ih _ _ _ _ hs
    · rw [hi] at hs
      obtain ⟨steps, h1, h2, h3, h4⟩ := searchImplV_sound ops h succ isTarget bound _ _ _ _ _ _ _ _ _ _ hi
      simp only [h3, Option.map_some, Option.some.injEq, Prod.mk.injEq] at hs
      obtain ⟨rfl, rfl⟩ := hs
      exact ⟨steps, h1, h2, rfl, h4⟩

/-! ## Termination -/

theorem searchForV_total {rec : List C → K → Nat → Option ((Option (List M) × List C × K) × Nat)} (cube : C) (p : List C)
    (hp : ∀ s me n path' me' n', rec (s :: cube :: p) me n = some ((none, path', me'), n') → path' = s :: cube :: p) :
    ∀ (l : List (C × M)), (∀ s ∈ l, ∀ me n, s.1 ∉ cube :: p → (rec (s.1 :: cube :: p) me n).isSome) →
      ∀ me n, (searchForV rec l (cube :: p) me n).isSome := by
  intro l
  induction l with
  | nil => intro _ me n; rfl
  | cons s l ih =>
    obtain ⟨s, m⟩ := s
    intro hr me n
    have ih := ih fun s hs => hr s (List.mem_cons_of_mem _ hs)
    unfold searchForV
    by_cases hs : s ∈ cube :: p
    · rw [if_pos hs]; exact ih me n
    · rw [if_neg hs]
      have h1 := hr (s, m) (by simp) me n hs
      rcases hrec : rec (s :: cube :: p) me n with _ | ⟨⟨_ | sol, path1, me1⟩, n1⟩
      · rw [hrec] at h1; cases h1
      · have := hp s me n _ _ _ hrec
        subst this
        exact ih me1 n1
      · rfl

theorem searchImplV_total_finite [Fintype C] (h : Nat → C → Option K) (succ : C → List (C × M)) (isTarget : C → Bool)
    (bound : K) {S : C → Prop} (hS : ∀ c, S c → ∀ s ∈ succ c, S s.1) (hh : ∀ n c, S c → (h n c).isSome) :
    ∀ (fuel : Nat) (cost : K) (cube : C) (p : List C) (me : K) (n : Nat), S cube → (cube :: p).Nodup →
      Fintype.card C + 1 ≤ fuel + (cube :: p).length →
      (searchImplV ops h succ isTarget bound fuel cost (cube :: p) me n).isSome := by
  intro fuel
  induction fuel with
  | zero =>
    intro cost cube p me n _ hnd hf
    have := hnd.length_le_card
    omega
  | succ fuel ih =>
    intro cost cube p me n hc hnd hf
    unfold searchImplV
    obtain ⟨x, hx⟩ := Option.isSome_iff_exists.1 (hh n cube hc)
    rw [hx]
    simp only
    split
    · rfl
    · split
      · rfl
      · refine searchForV_total cube p ?_ _ ?_ _ _
        · intro s me n path' me' n' hr
          exact searchImplV_sound ops h succ isTarget bound _ _ _ _ _ _ _ _ _ _ hr
        · intro s hs me n hn
          exact ih _ s.1 (cube :: p) me n (hS _ hc s hs) (List.nodup_cons.2 ⟨hn, hnd⟩) (by simp at hf ⊢; omega)

theorem searchLoopV_total {h : Nat → C → Option K} {succ : C → List (C × M)} {isTarget : C → Bool} {fuel : Nat} {cube : C}
    (hi : ∀ bound me n, (searchImplV ops h succ isTarget bound fuel ops.zero [cube] me n).isSome) :
    ∀ (k : Nat) (bound : K) (n : Nat), (searchLoopV ops h succ isTarget fuel cube k bound n).isSome := by
  intro k
  induction k with
  | zero => intro _ _; rfl
  | succ k ih =>
    intro bound n
    unfold searchLoopV
    have h1 := hi bound (ops.add bound ops.one) n
    rcases hs : searchImplV ops h succ isTarget bound fuel ops.zero [cube] (ops.add bound ops.one) n with
      _ | ⟨⟨_ | sol, path, me⟩, n'⟩
    · rw [hs] at h1; cases h1
    · exact ih me n'
    · rfl

end

/-! ## Exact costs -/

section exact
variable {C M : Type} [DecidableEq C] {h : Nat → C → Option ℚ} {succ : C → List (C × M)} {isTarget : C → Bool}

/-- the search could not have missed `steps`: some state on the way was over the bound at some moment, and was recorded -/
def BlockedV (h : Nat → C → Option ℚ) (b cost me : ℚ) (cube : C) (steps : List (C × M)) : Prop :=
  ∃ pre suf n x, steps = pre ++ suf ∧ h n (walkEnd cube pre) = some x ∧ b < cost + pre.length + x ∧
    me ≤ cost + pre.length + x

theorem searchForV_fail {rec : List C → ℚ → Nat → Option ((Option (List M) × List C × ℚ) × Nat)} {b : ℚ} {q : Nat} (cube : C)
    (p : List C) (good : C → ℚ → Prop)
    (hr : ∀ s me n path' me' n', rec (s :: cube :: p) me n = some ((none, path', me'), n') →
      path' = s :: cube :: p ∧ me' ≤ me ∧ (b < me → b < me') ∧ (Frac q me → Frac q me') ∧ good s me')
    (hg : ∀ s x y, x ≤ y → good s y → good s x) :
    ∀ (l : List (C × M)) me n path' me' n', searchForV rec l (cube :: p) me n = some ((none, path', me'), n') →
      path' = cube :: p ∧ me' ≤ me ∧ (b < me → b < me') ∧ (Frac q me → Frac q me') ∧
        ∀ s ∈ l, s.1 ∉ cube :: p → good s.1 me' := by
  intro l
  induction l with
  | nil =>
    intro me n path' me' n' hs
    cases hs
    exact ⟨rfl, le_rfl, id, id, by simp⟩
  | cons s l ih =>
    obtain ⟨s, m⟩ := s
    intro me n path' me' n' hs
    unfold searchForV at hs
    by_cases hm : s ∈ cube :: p
    · rw [if_pos hm] at hs
      obtain ⟨h1, h2, h3, h3', h4⟩ := ih _ _ _ _ _ hs
      refine ⟨h1, h2, h3, h3', fun x hx hn => ?_⟩
      rcases List.mem_cons.1 hx with rfl | hx
      · exact absurd hm hn
      · exact h4 x hx hn
    · rw [if_neg hm] at hs
      rcases hrec : rec (s :: cube :: p) me n with _ | ⟨⟨_ | sol, path1, me1⟩, n1⟩
      · rw [hrec] at hs; cases hs
      · rw [hrec] at hs
        obtain ⟨e1, e2, e3, e3', e4⟩ := hr _ _ _ _ _ _ hrec
        subst e1
        obtain ⟨h1, h2, h3, h3', h4⟩ := ih _ _ _ _ _ hs
        refine ⟨h1, h2.trans e2, fun hb => h3 (e3 hb), fun hb => h3' (e3' hb), fun x hx hn => ?_⟩
        rcases List.mem_cons.1 hx with rfl | hx
        · exact hg _ _ _ h2 e4
        · exact h4 x hx hn
      · rw [hrec] at hs; cases hs

theorem searchImplV_fail {q : Nat} (hq : ∀ n c x, h n c = some x → Frac q x) (b : ℚ) :
    ∀ (fuel : Nat) (cost : ℚ) (cube : C) (p : List C) (me : ℚ) n path' me' n', Frac q cost →
      searchImplV exactOps h succ isTarget b fuel cost (cube :: p) me n = some ((none, path', me'), n') →
      path' = cube :: p ∧ me' ≤ me ∧ (b < me → b < me') ∧ (Frac q me → Frac q me') ∧
      ∀ steps, IsWalk succ cube steps → isTarget (walkEnd cube steps) = true →
        (steps.map (·.1) ++ cube :: p).Nodup → BlockedV h b cost me' cube steps := by
  intro fuel
  induction fuel with
  | zero => intro _ _ _ _ _ _ _ _ _ hs; cases hs
  | succ fuel ih =>
    intro cost cube p me n path' me' n' hc hs
    unfold searchImplV at hs
    cases he : h n cube with
    | none => rw [he] at hs; cases hs
    | some x =>
      rw [he] at hs
      simp only at hs
      split at hs
      · rename_i hb
        have hb' : b < cost + x := by simpa [exactOps] using hb
        simp only [Option.some.injEq, Prod.mk.injEq, true_and] at hs
        obtain ⟨⟨rfl, rfl⟩, rfl⟩ := hs
        simp only [exactOps, decide_eq_true_eq]
        refine ⟨trivial, ?_, ?_, ?_, fun steps _ _ _ => ⟨[], steps, n, x, rfl, he, by simpa using hb', ?_⟩⟩
        · split <;> linarith
        · intro hm; split <;> assumption
        · intro hm
          split
          · exact hc.add (hq _ _ _ he)
          · exact hm
        · simp only [List.length_nil, Nat.cast_zero, add_zero]
          split <;> linarith
      · split at hs
        · cases hs
        · rename_i hb ht
          obtain ⟨h1, h2, h3, h3', h4⟩ := searchForV_fail (b := b) (q := q) cube p
            (fun s me' => ∀ steps, IsWalk succ s steps → isTarget (walkEnd s steps) = true →
              (steps.map (·.1) ++ s :: cube :: p).Nodup → BlockedV h b (cost + 1) me' s steps)
            (fun s me n path' me' n' hr => ih _ s (cube :: p) me n path' me' n' (hc.add (.one q)) hr)
            (fun s x y hxy hy steps w t n => by
              obtain ⟨pre, suf, n, z, e, l0, l1, l2⟩ := hy steps w t n
              exact ⟨pre, suf, n, z, e, l0, l1, hxy.trans l2⟩)
            _ _ _ _ _ _ hs
          refine ⟨h1, h2, h3, h3', fun steps hw htar hnd => ?_⟩
          cases steps with
          | nil => exact absurd htar ht
          | cons s l =>
            have hnd' : (l.map (·.1) ++ s.1 :: cube :: p).Nodup := by
              have : List.Perm (l.map (·.1) ++ s.1 :: cube :: p) ((s :: l).map (·.1) ++ cube :: p) := by
                simp only [List.map_cons, List.cons_append]
                exact List.perm_middle
              exact this.nodup_iff.2 hnd
            have hs1 : s.1 ∉ cube :: p := by
              rw [List.map_cons, List.cons_append, List.nodup_cons] at hnd
              exact fun hm => hnd.1 (List.mem_append_right _ hm)
            obtain ⟨pre, suf, m, z, e, l0, l1, l2⟩ := h4 s hw.1 hs1 l hw.2 htar hnd'
            refine ⟨s :: pre, suf, m, z, by rw [e]; rfl, l0, ?_, ?_⟩
            · simp only [List.length_cons]; push_cast; linarith
            · simp only [List.length_cons]; push_cast; linarith

/-- a successful search found something within the bound -/
theorem searchForV_within {rec : List C → ℚ → Nat → Option ((Option (List M) × List C × ℚ) × Nat)} {N : ℚ} (cube : C)
    (p : List C)
    (hp : ∀ s me n path' me' n', rec (s :: cube :: p) me n = some ((none, path', me'), n') → path' = s :: cube :: p)
    (hr : ∀ s me n sol path' me' n', rec (s :: cube :: p) me n = some ((some sol, path', me'), n') → (sol.length : ℚ) ≤ N) :
    ∀ (l : List (C × M)) me n sol path' me' n', searchForV rec l (cube :: p) me n = some ((some sol, path', me'), n') →
      (sol.length : ℚ) ≤ N + 1 := by
  intro l
  induction l with
  | nil => intro me n sol path' me' n' hs; cases hs
  | cons s l ih =>
    obtain ⟨s, m⟩ := s
    intro me n sol path' me' n' hs
    unfold searchForV at hs
    by_cases hm : s ∈ cube :: p
    · rw [if_pos hm] at hs
      exact ih _ _ _ _ _ _ hs
    · rw [if_neg hm] at hs
      rcases hrec : rec (s :: cube :: p) me n with _ | ⟨⟨_ | sol', path1, me1⟩, n1⟩
      · rw [hrec] at hs; cases hs
      · rw [hrec] at hs
        have := hp _ _ _ _ _ _ hrec
        subst this
        exact ih _ _ _ _ _ _ hs
      · rw [hrec] at hs
        cases hs
        have := hr _ _ _ _ _ _ _ hrec
        simp only [List.length_append, List.length_singleton]
        push_cast
        linarith

theorem searchImplV_within (hh : ∀ n c x, h n c = some x → 0 ≤ x) (b : ℚ) :
    ∀ (fuel : Nat) (cost : ℚ) (cube : C) (p : List C) (me : ℚ) n sol path' me' n',
      searchImplV exactOps h succ isTarget b fuel cost (cube :: p) me n = some ((some sol, path', me'), n') →
      (sol.length : ℚ) ≤ b - cost := by
  intro fuel
  induction fuel with
  | zero => intro _ _ _ _ _ _ _ _ _ hs; cases hs
  | succ fuel ih =>
    intro cost cube p me n sol path' me' n' hs
    unfold searchImplV at hs
    cases he : h n cube with
    | none => rw [he] at hs; cases hs
    | some x =>
      rw [he] at hs
      simp only at hs
      split at hs
      · cases hs
      · rename_i hb
        have hb' : ¬ b < cost + x := by simpa [exactOps] using hb
        have := hh _ _ _ he
        split at hs
        · cases hs
          simp
          linarith
        · have := searchForV_within (N := b - (cost + 1)) cube p
            (fun s me n path' me' n' hr => searchImplV_sound exactOps h succ isTarget b _ _ _ _ _ _ _ _ _ _ hr)
            (fun s me n sol path' me' n' hr => ih _ s (cube :: p) me n sol path' me' n' hr) _ _ _ _ _ _ _ hs
          linarith

/-- the recursion is no deeper than the bound if the heuristic is not negative -/
theorem searchImplV_total_nonneg {S : C → Prop} (hS : ∀ c, S c → ∀ s ∈ succ c, S s.1)
    (hh : ∀ n c, S c → ∃ x, h n c = some x ∧ 0 ≤ x) (bound : ℚ) :
    ∀ (fuel : Nat) (cost : ℚ) (cube : C) (p : List C) (me : ℚ) (n : Nat), S cube → bound + 1 < cost + fuel → 0 < fuel →
      (searchImplV exactOps h succ isTarget bound fuel cost (cube :: p) me n).isSome := by
  intro fuel
  induction fuel with
  | zero => intro cost cube p me n _ h1 h2; omega
  | succ fuel ih =>
    intro cost cube p me n hc h1 _
    unfold searchImplV
    obtain ⟨x, hx, hx0⟩ := hh n cube hc
    rw [hx]
    simp only
    split
    · rfl
    · rename_i hb
      split
      · rfl
      · refine searchForV_total cube p ?_ _ ?_ _ _
        · intro s me n path' me' n' hr
          exact searchImplV_sound exactOps h succ isTarget bound _ _ _ _ _ _ _ _ _ _ hr
        · intro s hs me n _
          have hb' : ¬ bound < cost + x := by simpa [exactOps] using hb
          refine ih _ s.1 (cube :: p) me n (hS _ hc s hs) ?_ ?_
          · push_cast at h1
            show bound + 1 < cost + 1 + fuel
            linarith
          · by_contra hc
            obtain rfl : fuel = 0 := by omega
            simp at h1
            linarith

/-! ## The outer loop -/

/-- the bound never exceeds the largest estimate along a walk to a target -/
theorem searchLoopV_bound {q : Nat} (hq : ∀ n c x, h n c = some x → Frac q x) {B : ℚ} {cube : C} {steps : List (C × M)}
    (hw : IsWalk succ cube steps) (ht : isTarget (walkEnd cube steps) = true) (hnd : (cube :: steps.map (·.1)).Nodup)
    (hB : ∀ pre suf n x, steps = pre ++ suf → h n (walkEnd cube pre) = some x → pre.length + x ≤ B) {fuel : Nat} {b : ℚ}
    {path : List C} {me : ℚ} {n n' : Nat}
    (hs : searchImplV exactOps h succ isTarget b fuel 0 [cube] (b + 1) n = some ((none, path, me), n')) :
    b < me ∧ me ≤ B ∧ me ≤ b + 1 ∧ (Frac q b → Frac q me) := by
  obtain ⟨-, h2, h3, h3', h4⟩ := searchImplV_fail hq b fuel 0 cube [] (b + 1) n path me n' (.zero q) hs
  have hnd' : (steps.map (·.1) ++ [cube]).Nodup := (List.perm_append_singleton _ _).nodup_iff.2 hnd
  obtain ⟨pre, suf, m, x, e, l0, l1, l2⟩ := h4 steps hw ht hnd'
  have := hB pre suf m x e l0
  exact ⟨h3 (by linarith), by linarith, h2, fun hb => h3' (hb.add (.one q))⟩

theorem searchLoopV_found {q : Nat} (hq0 : 0 < q) (hq : ∀ n c x, h n c = some x → Frac q x) {B : ℚ} {cube : C}
    {steps : List (C × M)} (hw : IsWalk succ cube steps) (ht : isTarget (walkEnd cube steps) = true)
    (hnd : (cube :: steps.map (·.1)).Nodup)
    (hB : ∀ pre suf n x, steps = pre ++ suf → h n (walkEnd cube pre) = some x → pre.length + x ≤ B) {fuel : Nat} :
    ∀ (k : Nat) (b : ℚ) (n : Nat), Frac q b → b ≤ B → B < b + k / q →
      searchLoopV exactOps h succ isTarget fuel cube k b n ≠ some none := by
  have hq' : (0 : ℚ) < q := by exact_mod_cast hq0
  intro k
  induction k with
  | zero => intro b n _ h1 h2; simp at h2; exact absurd h1 (not_le.2 h2)
  | succ k ih =>
    intro b n hb h1 h2 hs
    unfold searchLoopV at hs
    rcases hi : searchImplV exactOps h succ isTarget b fuel exactOps.zero [cube] (exactOps.add b exactOps.one) n with
      _ | ⟨⟨_ | sol, path, me⟩, n'⟩
    · rw [hi] at hs; cases hs
    · rw [hi] at hs
      obtain ⟨l1, l2, -, l3⟩ := searchLoopV_bound hq hw ht hnd hB hi
      have hgap := hb.gap hq0 (l3 hb) l1
      refine ih me n' (l3 hb) l2 ?_ hs
      push_cast at h2
      rw [add_div] at h2
      linarith
    · rw [hi] at hs
      obtain ⟨st, -, -, h3, -⟩ := searchImplV_sound exactOps h succ isTarget b _ _ _ _ _ _ _ _ _ _ hi
      simp only [h3] at hs
      cases hs

theorem searchLoopV_optimal (hh : ∀ n c x, h n c = some x → 0 ≤ x) {B : ℚ} {cube : C} {steps : List (C × M)}
    (hw : IsWalk succ cube steps) (ht : isTarget (walkEnd cube steps) = true)
    (hnd : (cube :: steps.map (·.1)).Nodup)
    (hB : ∀ pre suf n x, steps = pre ++ suf → h n (walkEnd cube pre) = some x → pre.length + x ≤ B) {fuel : Nat}
    {alg : List M} {e : C} :
    ∀ (k : Nat) (b : ℚ) (n : Nat), b ≤ B → searchLoopV exactOps h succ isTarget fuel cube k b n = some (some (alg, e)) →
      (alg.length : ℚ) ≤ B := by
  intro k
  induction k with
  | zero => intro b n _ hs; cases hs
  | succ k ih =>
    intro b n h1 hs
    unfold searchLoopV at hs
    rcases hi : searchImplV exactOps h succ isTarget b fuel exactOps.zero [cube] (exactOps.add b exactOps.one) n with
      _ | ⟨⟨_ | sol, path, me⟩, n'⟩
    · rw [hi] at hs; cases hs
    · rw [hi] at hs
      obtain ⟨l1, l2, -⟩ := searchLoopV_bound (q := 0) (fun _ _ _ _ => ⟨0, by simp⟩) hw ht hnd hB hi
      exact ih me n' l2 hs
    · rw [hi] at hs
      obtain ⟨st, -, -, h3, -⟩ := searchImplV_sound exactOps h succ isTarget b _ _ _ _ _ _ _ _ _ _ hi
      have hl := searchImplV_within hh b fuel 0 cube [] (b + 1) n sol path me n' hi
      simp only [h3, Option.map_some, Option.some.injEq, Prod.mk.injEq] at hs
      obtain ⟨rfl, -⟩ := hs
      rw [List.length_reverse]
      linarith

theorem searchLoopV_total_nonneg {S : C → Prop} (hS : ∀ c, S c → ∀ s ∈ succ c, S s.1)
    (hh : ∀ n c, S c → ∃ x, h n c = some x ∧ 0 ≤ x) {fuel : Nat} {cube : C} (hc : S cube) :
    ∀ (k : Nat) (b : ℚ) (n : Nat), b + k + 1 < fuel → 0 < fuel →
      (searchLoopV exactOps h succ isTarget fuel cube k b n).isSome := by
  intro k
  induction k with
  | zero => intro b n _ _; rfl
  | succ k ih =>
    intro b n hf h0
    push_cast at hf
    have hk : (0 : ℚ) ≤ k := Nat.cast_nonneg k
    have h1 := searchImplV_total_nonneg (succ := succ) (isTarget := isTarget) hS hh b fuel 0 cube [] (b + 1) n hc
      (by linarith) h0
    unfold searchLoopV
    rcases hi : searchImplV exactOps h succ isTarget b fuel exactOps.zero [cube] (exactOps.add b exactOps.one) n with
      _ | ⟨⟨_ | sol, path, me⟩, n'⟩
    · have hi' : searchImplV exactOps h succ isTarget b fuel 0 [cube] (b + 1) n = none := hi
      rw [hi'] at h1; cases h1
    · have h2 := (searchImplV_fail (q := 0) (fun _ _ _ _ => ⟨0, by simp⟩) b fuel 0 cube [] (b + 1) n path me n'
        (.zero 0) hi).2.1
      exact ih me n' (by linarith) h0
    · rfl

end exact

end Barbarosa
