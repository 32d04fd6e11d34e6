import Verif.Lemmas.Search

/-!
# Rounding does not matter for the search
-/

namespace Barbarosa

section
variable {C M K : Type} [DecidableEq C] {ops : CostOps K} {q : Nat} {R : ℚ} (fl : FloatLike ops q R)

/-- a value on which the arithmetic of the search is exact -/
def FloatLike.Dom (a : K) : Prop := fl.ok a ∧ Frac q (fl.val a) ∧ 0 ≤ fl.val a

variable {fl}

theorem FloatLike.Dom.add {a b : K} (ha : fl.Dom a) (hb : fl.Dom b) (h : fl.val a + fl.val b ≤ R) :
    fl.Dom (ops.add a b) ∧ fl.val (ops.add a b) = fl.val a + fl.val b := by
  obtain ⟨h1, h2⟩ := fl.add_ok a b ha.1 hb.1 ha.2.2 hb.2.2 ha.2.1 hb.2.1 h
  refine ⟨⟨h1, ?_, ?_⟩, h2⟩
  · rw [h2]; exact ha.2.1.add hb.2.1
  · rw [h2]; exact add_nonneg ha.2.2 hb.2.2

variable (fl) in
theorem FloatLike.dom_one : fl.Dom ops.one := ⟨fl.one_ok, by rw [fl.one_val]; exact .one q, by rw [fl.one_val]; norm_num⟩

variable (fl) in
theorem FloatLike.dom_zero : fl.Dom ops.zero := ⟨fl.zero_ok, by rw [fl.zero_val]; exact .zero q, by rw [fl.zero_val]⟩

variable (fl) in
/-- the result of a search with its last component replaced by the value it stands for -/
def FloatLike.image (r : Option (Option (List M) × List C × K)) : Option (Option (List M) × List C × ℚ) :=
  r.map fun x => (x.1, x.2.1, fl.val x.2.2)

/-- all finite answers are in the domain -/
def FloatLike.Good (fl : FloatLike ops q R) (r : Option (Option (List M) × List C × K)) : Prop :=
  ∀ a p m, r = some (a, p, m) → fl.Dom m

theorem searchFor_sim {rec : List C → K → Option (Option (List M) × List C × K)}
    {rec' : List C → ℚ → Option (Option (List M) × List C × ℚ)}
    (hr : ∀ p me, fl.Dom me → fl.image (rec p me) = rec' p (fl.val me) ∧ fl.Good (rec p me)) :
    ∀ (l : List (C × M)) (path : List C) (me : K), fl.Dom me →
      fl.image (searchFor rec l path me) = searchFor rec' l path (fl.val me) ∧ fl.Good (searchFor rec l path me) := by
  intro l
  induction l with
  | nil =>
    intro path me hm
    refine ⟨rfl, fun a p m h => ?_⟩
    simp only [searchFor, Option.some.injEq, Prod.mk.injEq] at h
    rw [← h.2.2]; exact hm
  | cons s l ih =>
    obtain ⟨s, m⟩ := s
    intro path me hm
    unfold searchFor
    by_cases hs : s ∈ path
    · rw [if_pos hs, if_pos hs]; exact ih path me hm
    · rw [if_neg hs, if_neg hs]
      obtain ⟨h1, h2⟩ := hr (s :: path) me hm
      rcases hrec : rec (s :: path) me with _ | ⟨_ | sol, path1, me1⟩
      · rw [hrec] at h1
        rw [← h1]
        exact ⟨rfl, fun _ _ _ h => by cases h⟩
      · rw [hrec] at h1 h2
        rw [← h1]
        exact ih path1.tail me1 (h2 _ _ _ rfl)
      · rw [hrec] at h1 h2
        rw [← h1]
        refine ⟨rfl, fun a p m h => ?_⟩
        simp only [Option.some.injEq, Prod.mk.injEq] at h
        rw [← h.2.2]
        exact h2 _ _ _ rfl

theorem searchImpl_sim {h : C → K} {succ : C → List (C × M)} {isTarget : C → Bool} {bound : K} {H : ℚ}
    (hd : ∀ c, fl.Dom (h c)) (hH : ∀ c, fl.val (h c) ≤ H) (hbd : fl.Dom bound) (hb : fl.val bound + 1 + H ≤ R) :
    ∀ (fuel : Nat) (cost : K) (path : List C) (me : K), fl.Dom cost → fl.val cost + H ≤ R → fl.Dom me →
      fl.image (searchImpl ops h succ isTarget bound fuel cost path me) =
        searchImpl exactOps (fun c => fl.val (h c)) succ isTarget (fl.val bound) fuel (fl.val cost) path (fl.val me) ∧
      fl.Good (searchImpl ops h succ isTarget bound fuel cost path me) := by
  intro fuel
  induction fuel with
  | zero => intro cost path me _ _ _; exact ⟨rfl, fun _ _ _ h => by cases h⟩
  | succ fuel ih =>
    intro cost path me hc hcR hm
    cases path with
    | nil => exact ⟨rfl, fun _ _ _ h => by cases h⟩
    | cons cube p =>
      obtain ⟨a1, a2⟩ := hc.add (hd cube) (by have := hH cube; linarith)
      have e1 : ops.lt bound (ops.add cost (h cube)) =
          exactOps.lt (fl.val bound) (exactOps.add (fl.val cost) (fl.val (h cube))) := by
        rw [fl.lt_val _ _ hbd.1 a1.1, a2]; rfl
      have e2 : ops.lt (ops.add cost (h cube)) me =
          exactOps.lt (exactOps.add (fl.val cost) (fl.val (h cube))) (fl.val me) := by
        rw [fl.lt_val _ _ a1.1 hm.1, a2]; rfl
      unfold searchImpl
      simp only
      rw [e1, e2]
      split
      · refine ⟨?_, fun a p m h => ?_⟩
        · simp only [FloatLike.image, Option.map_some, Option.some.injEq, Prod.mk.injEq, true_and]
          split
          · exact a2
          · rfl
        · simp only [Option.some.injEq, Prod.mk.injEq] at h
          rw [← h.2.2]
          split
          · exact a1
          · exact hm
      · rename_i hb'
        split
        · refine ⟨rfl, fun a p m h => ?_⟩
          simp only [Option.some.injEq, Prod.mk.injEq] at h
          rw [← h.2.2]
          exact hm
        · have hb2 : ¬ fl.val bound < fl.val cost + fl.val (h cube) := by simpa [exactOps] using hb'
          have h0 := (hd cube).2.2
          have hH0 : 0 ≤ H := h0.trans (hH cube)
          obtain ⟨b1, b2⟩ := hc.add fl.dom_one (by rw [fl.one_val]; linarith)
          rw [fl.one_val] at b2
          have := searchFor_sim (fun p me hme => ih (ops.add cost ops.one) p me b1 (by rw [b2]; linarith) hme)
            (succ cube) (cube :: p) me hm
          rw [b2] at this
          exact this

theorem searchLoop_sim {h : C → K} {succ : C → List (C × M)} {isTarget : C → Bool} {H : ℚ} {fuel : Nat} {cube : C}
    (hd : ∀ c, fl.Dom (h c)) (hH : ∀ c, fl.val (h c) ≤ H) :
    ∀ (k : Nat) (b : K), fl.Dom b → fl.val b + k + H ≤ R →
      searchLoop ops h succ isTarget fuel cube k b =
        searchLoop exactOps (fun c => fl.val (h c)) succ isTarget fuel cube k (fl.val b) := by
  intro k
  induction k with
  | zero => intro b _ _; rfl
  | succ k ih =>
    intro b hb hR
    push_cast at hR
    have hk : (0 : ℚ) ≤ k := Nat.cast_nonneg k
    have h0 := (hd cube).2.2
    have hH0 : 0 ≤ H := h0.trans (hH cube)
    obtain ⟨a1, a2⟩ := hb.add fl.dom_one (by rw [fl.one_val]; linarith)
    rw [fl.one_val] at a2
    have hb0 := hb.2.2
    obtain ⟨s1, s2⟩ := searchImpl_sim (succ := succ) (isTarget := isTarget) hd hH hb (by linarith) fuel ops.zero [cube]
      (ops.add b ops.one) fl.dom_zero (by rw [fl.zero_val]; linarith) a1
    rw [fl.zero_val, a2] at s1
    unfold searchLoop
    have s1' : searchImpl exactOps (fun c => fl.val (h c)) succ isTarget (fl.val b) fuel exactOps.zero [cube]
        (exactOps.add (fl.val b) exactOps.one) =
        fl.image (searchImpl ops h succ isTarget b fuel ops.zero [cube] (ops.add b ops.one)) := s1.symm
    rw [s1']
    rcases hi : searchImpl ops h succ isTarget b fuel ops.zero [cube] (ops.add b ops.one) with _ | ⟨_ | sol, path, me⟩
    · rfl
    · rw [hi] at s1 s2
      have h2 := (searchImpl_fail (fl.val b) fuel 0 cube [] (fl.val b + 1) path (fl.val me) s1.symm).2.1
      exact ih me (s2 _ _ _ rfl) (by linarith)
    · rfl

end

end Barbarosa
