import Verif.Lemmas.TwoReduce
import Verif.Lemmas.TwoFull
import Verif.Lemmas.TwoFar

/-!
# Eleven moves for the 2x2

Every arrangement of the corners that satisfies the invariants is solved by at most 11 moves, and one of them needs 11.
-/

namespace Barbarosa.Two

/-! ## The sets of the check -/

theorem Depth_kindStep (k : Kind) {t : Tree} (ht : t.Depth 6) : (kindStep k t).Depth 6 := by
  obtain ⟨ax, _ | _⟩ := k
  · exact Depth_union (Depth_act ax ht _ _) (Depth_act2 ax (Depth_act ax ht _ _))
  · exact Depth_act2 ax ht

/-- the same with any set at the beginning -/
noncomputable def kindEndsFrom (ks : List Kind) (t : Tree) : Tree :=
  List.rec (motive := fun _ => Tree → Tree) (fun t => t) (fun k _ f t => f (kindStep k t)) ks t

theorem Depth_kindEndsFrom (ks : List Kind) {t : Tree} (ht : t.Depth 6) : (kindEndsFrom ks t).Depth 6 := by
  induction ks generalizing t with
  | nil => exact ht
  | cons k ks ih => exact ih (Depth_kindStep k ht)

theorem home_fine : Fine home := by
  intro p hp
  fin_cases hp <;> exact ⟨by decide, by decide⟩

theorem Depth_home : (only home).Depth 6 := Depth_only rfl

theorem Depth_kindEnds (ks : List Kind) : (kindEnds ks).Depth 6 := Depth_kindEndsFrom ks Depth_home

/-- the amounts of a kind -/
def amounts : Bool → List Amount
  | true => [.double]
  | false => [.single, .inverse]

theorem mem_kindStep (ax : Axis) (h : Bool) {t : Tree} (ht : t.Depth 6) {l : List (Nat × Nat)} (hl : l.length = 6)
    (hf : Fine l) (hm : Mem (kindStep (ax, h) t) l) :
    ∃ a ∈ amounts h, ∃ l0, l0.length = 6 ∧ Fine l0 ∧ Mem t l0 ∧ turns ax (quarters a) l0 = l := by
  have one : ∀ {l : List (Nat × Nat)}, l.length = 6 → Fine l → Mem (act ax t digits6 fun n => n) l → Mem t (turns ax 3 l) := by
    intro l hl hf hm
    refine (mem_act ax t (turns_fine ax 3 hl hf).1 (turns_fine ax 3 hl hf).2).1 ?_
    rwa [show turn ax (turns ax 3 l) = l from turn_four hf]
  have two : ∀ {t : Tree} {l : List (Nat × Nat)}, l.length = 6 → Fine l → Mem (act2 ax t) l → Mem t (turns ax 2 l) := by
    intro t l hl hf hm
    refine (mem_act2 ax t (turns_fine ax 2 hl hf).2).1 ?_
    rwa [show turn ax (turn ax (turns ax 2 l)) = l from turn_four hf]
  cases h with
  | true =>
    exact ⟨.double, by decide, turns ax 2 l, (turns_fine ax 2 hl hf).1, (turns_fine ax 2 hl hf).2, two hl hf hm, turn_four hf⟩
  | false =>
    rcases (mem_union (Depth_act ax ht _ _) (Depth_act2 ax (Depth_act ax ht _ _)) hl).1 hm with hm | hm
    · exact ⟨.single, by decide, turns ax 3 l, (turns_fine ax 3 hl hf).1, (turns_fine ax 3 hl hf).2, one hl hf hm, turn_four hf⟩
    · have h2 := turns_fine ax 2 hl hf
      have h5 := turns_fine ax 3 h2.1 h2.2
      refine ⟨.inverse, by decide, turns ax 3 (turns ax 2 l), h5.1, h5.2, one h2.1 h2.2 (two hl hf hm), ?_⟩
      have e : turns ax 3 (turns ax 3 (turns ax 2 l)) =
          turn ax (turn ax (turn ax (turn ax (turn ax (turn ax (turn ax (turn ax l))))))) := rfl
      show turns ax 3 (turns ax 3 (turns ax 2 l)) = l
      rw [e, turn_four (turn_fine (turn_fine (turn_fine (turn_fine hf)))), turn_four hf]

theorem mem_kindEndsFrom (ks : List Kind) {t : Tree} (ht : t.Depth 6) {l : List (Nat × Nat)} (hl : l.length = 6)
    (hf : Fine l) (hm : Mem (kindEndsFrom ks t) l) :
    ∃ w ∈ wordsOf ks, w.length = ks.length ∧ ∃ l0, l0.length = 6 ∧ Fine l0 ∧ Mem t l0 ∧
      w.foldl (fun l m => turns m.1 (quarters m.2) l) l0 = l := by
  induction ks generalizing t with
  | nil => exact ⟨[], List.mem_singleton.2 rfl, rfl, l, hl, hf, hm, rfl⟩
  | cons k ks ih =>
    obtain ⟨w, hw, hlen, l1, a1, a2, a3, a4⟩ := ih (Depth_kindStep k ht) hm
    obtain ⟨ax, h⟩ := k
    obtain ⟨a, ha, l0, b1, b2, b3, b4⟩ := mem_kindStep ax h ht a1 a2 a3
    refine ⟨(ax, a) :: w, ?_, congrArg Nat.succ hlen, l0, b1, b2, b3, ?_⟩
    · cases h with
      | true =>
        rw [List.mem_singleton.1 ha]
        exact List.mem_map.2 ⟨w, hw, rfl⟩
      | false =>
        refine List.mem_flatMap.2 ⟨w, hw, ?_⟩
        have ha' : a ∈ [Amount.single, Amount.inverse] := ha
        simp only [List.mem_cons, List.not_mem_nil, or_false] at ha'
        rcases ha' with rfl | rfl
        · exact List.mem_cons_self
        · exact List.mem_cons_of_mem _ List.mem_cons_self
    · show w.foldl (fun l m => turns m.1 (quarters m.2) l) (turns ax (quarters a) l0) = l
      rw [b4, a4]

theorem kinds_length : ∀ k ∈ kinds, k.length = 5 := by decide +kernel

theorem good_kindEnds {k : List Kind} (hk : k ∈ kinds) : Good 5 (kindEnds k) := by
  refine good_of_runs fun l hl hf hm => ?_
  obtain ⟨w, hw, hlen, l0, b1, b2, b3, b4⟩ := mem_kindEndsFrom k Depth_home hl hf hm
  have e := (mem_only (b1.symm ▸ rfl) home_fine b2).1 b3
  refine ⟨w, (hlen.trans (kinds_length k hk)).le, ?_, by rw [← b4, ← e]; rfl⟩
  exact List.all_eq_true.1 kinds_allAttitudes w (List.mem_flatMap.2 ⟨k, hk, hw⟩)

theorem ends5_from (l : List (List Kind)) (hl : ∀ k ∈ l, k ∈ kinds) :
    (List.rec (motive := fun _ => Tree) Tree.nil (fun k _ t => union (kindEnds k) t) l : Tree).Depth 6 ∧
      Good 5 (List.rec (motive := fun _ => Tree) Tree.nil (fun k _ t => union (kindEnds k) t) l) := by
  induction l with
  | nil => exact ⟨trivial, good_nil 5⟩
  | cons k l ih =>
    obtain ⟨h1, h2⟩ := ih fun k hk => hl k (List.mem_cons_of_mem _ hk)
    exact ⟨Depth_union (Depth_kindEnds k) h1,
      good_union (Depth_kindEnds k) h1 (good_kindEnds (hl k List.mem_cons_self)) h2⟩

theorem run_fine (w : List Letter) : (run w).length = 6 ∧ Fine (run w) := by
  rw [← digs_after]
  exact ⟨digs_length _, digs_fine (norm_after w)⟩

theorem ends6_from (l : List Nat) (hl : ∀ n ∈ l, n ∈ more) :
    (List.rec (motive := fun _ => Tree) Tree.nil (fun n _ t => union (only (run (word6 n))) t) l : Tree).Depth 6 ∧
      Good 6 (List.rec (motive := fun _ => Tree) Tree.nil (fun n _ t => union (only (run (word6 n))) t) l) := by
  induction l with
  | nil => exact ⟨trivial, good_nil 6⟩
  | cons n l ih =>
    obtain ⟨h1, h2⟩ := ih fun k hk => hl k (List.mem_cons_of_mem _ hk)
    have hd := Depth_only (run_fine (word6 n)).1
    refine ⟨Depth_union hd h1, good_union hd h1 (good_of_runs fun l hl' hf hm => ?_) h2⟩
    refine ⟨word6 n, le_refl 6, ?_, (mem_only ((run_fine _).1.trans hl'.symm) (run_fine _).2 hf).1 hm⟩
    exact List.all_eq_true.1 more_allAttitudes _ (List.mem_map.2 ⟨n, hl n List.mem_cons_self, rfl⟩)

theorem turned_of_full {n : Nat} {t : Tree} (hg : Good n t) (hd : t.Depth 6) (hr : full t 0 = true) {s : PieceSet Corner 8}
    (h : Norm s) : Turned n s := hg s h (mem_full hr hd (digs_length s) (digs_fine h) (digs_nodup h))

theorem turned_of_sets {a b : Tree} (ha : a.Depth 6 ∧ Good 5 a) (hb : b.Depth 6 ∧ Good 6 b)
    (hr : full (steps 5 (union (step a) b)) 0 = true) {s : PieceSet Corner 8} (h : Norm s) : Turned 11 s :=
  turned_of_full (good_steps (Depth_union (Depth_step ha.1) hb.1)
    (good_union (Depth_step ha.1) hb.1 (good_step ha.1 ha.2) hb.2) 5) (Depth_steps 5 (Depth_union (Depth_step ha.1) hb.1)) hr h

/-- every arrangement with the last corner in its place is reached by 11 moves, in every attitude -/
theorem turned_eleven {s : PieceSet Corner 8} (h : Norm s) : Turned 11 s :=
  turned_of_sets (a := ends5) (b := ends6) (ends5_from kinds fun _ h => h) (ends6_from more fun _ h => h) all_reached h

/-- corners in different places whose twists add up to a multiple of three are reached by at most 11 moves -/
theorem corners_reach (s : PieceSet Corner 8) (hs : s.Valid) (ht : ∑ i, cornerTrit (s i) = 0) : Reach 11 s := by
  obtain ⟨rs, hrs⟩ : ∃ rs, rs = unrot (path (s 7)) := ⟨_, rfl⟩
  obtain ⟨h1, h2⟩ := rots_kept rs s hs
  have hn : Norm fun i => rots rs (s i) := ⟨by
    show rots rs (s 7) = q7
    have := rots_unrot (path (s 7)) q7
    rwa [path_ok, ← hrs] at this, h1, h2.trans ht⟩
  have := turned_eleven hn (unrot rs)
  simp only [rots_unrot] at this
  exact this

/-! ## Ten are not always enough -/

/-- after `n` moves: a rotation of something in the set for `n` -/
theorem reach_mem (w : List AxisMove) : ∃ (t : PieceSet Corner 8) (rs : List AxisRotation), Norm t ∧
    Mem (steps w.length (only home)) (digs t) ∧ ∀ i, movedAlg (PieceSet.SOLVED Corner i) w = rots rs (t i) := by
  induction w using List.reverseRecOn with
  | nil => exact ⟨PieceSet.SOLVED Corner, [], norm_solved, (mem_only rfl home_fine (digs_fine norm_solved)).2 digs_home.symm,
      fun i => rfl⟩
  | append_singleton w m ih =>
    obtain ⟨t, rs, h1, h2, h3⟩ := ih
    obtain ⟨⟨⟨ax, dir⟩, a⟩, hm⟩ := moved_of_rots rs m
    have mem : Mem (steps (w ++ [m]).length (only home)) (digs fun i => moved (t i) (pos ax a)) := by
      rw [List.length_append]
      refine (mem_step (Depth_steps _ Depth_home) (digs_length _) (digs_fine (h1.moved ax a))).2 (.inr ?_)
      rw [digs_moved h1]
      have hf := digs_fine h1
      refine ⟨ax, 4 - quarters a, ?_, ?_, ?_⟩
      · cases a <;> decide
      · cases a <;> decide
      · have e : turns ax (4 - quarters a) (turns ax (quarters a) (digs t)) = digs t := by
          cases a <;> exact turn_four hf
        rw [e]
        exact h2
    cases dir with
    | pos =>
      refine ⟨_, rs, h1.moved ax a, mem, fun i => ?_⟩
      rw [alg_append, h3]
      exact hm (t i)
    | neg =>
      refine ⟨_, AxisRotation.ofMove ⟨⟨ax, .neg⟩, a⟩ :: rs, h1.moved ax a, mem, fun i => ?_⟩
      rw [alg_append, h3]
      refine (hm (t i)).trans ?_
      rw [moved_neg]
      rfl

theorem steps_mono {t : Tree} (ht : t.Depth 6) {l : List (Nat × Nat)} (hl : l.length = 6) (hf : Fine l) {n m : Nat} (h : n ≤ m)
    (hm : Mem (steps n t) l) : Mem (steps m t) l := by
  induction m with
  | zero => rwa [Nat.le_zero.1 h] at hm
  | succ m ih =>
    rcases Nat.lt_or_eq_of_le h with h | rfl
    · exact (mem_step (Depth_steps m ht) hl hf).2 (.inl (ih (Nat.le_of_lt_succ h)))
    · exact hm

/-- an arrangement that needs 11 moves -/
theorem far_needs (w : List AxisMove) (h : ∀ i, movedAlg (PieceSet.SOLVED Corner i) w = after farWord i) : 11 ≤ w.length := by
  by_contra hlt
  obtain ⟨t, rs, h1, h2, h3⟩ := reach_mem w
  have hn := norm_after farWord
  have e7 : rots rs q7 = q7 := by
    have := (h3 7).symm.trans (h 7)
    rwa [h1.last, hn.last] at this
  have e : t = after farWord := funext fun i => by
    rw [← h i, h3 i, rots_eq, e7, path_home]
  have := steps_mono Depth_home (digs_length t) (digs_fine h1) (Nat.le_of_lt_succ (Nat.lt_of_not_le hlt)) h2
  rw [e, digs_after] at this
  exact absurd this (by unfold Mem; rw [far_missing]; decide)

theorem movedAlg_back (w : List AxisMove) (c : Corner) : movedAlg (movedAlg c w) (reversed w) = c := by
  induction w generalizing c with
  | nil => rfl
  | cons m w ih =>
    have e : reversed (m :: w) = reversed w ++ [Move.inverse m] := by simp [reversed]
    rw [e, alg_append]
    show moved (movedAlg (movedAlg (moved c m) w) (reversed w)) (Move.inverse m) = c
    rw [ih, moved_back]

/-- from there to the solved arrangement in any attitude -/
theorem far_attitudes (w : List AxisMove) (rs : List AxisRotation)
    (h : ∀ i, movedAlg (after farWord i) w = rots rs (PieceSet.SOLVED Corner i)) : 11 ≤ w.length := by
  obtain ⟨t, rs', h1, h2, h3⟩ := reach_mem ((reversed w).map (rotsMove (unrot rs)))
  have hn := norm_after farWord
  -- undo the moves, then the rotation
  have e : ∀ i, movedAlg (PieceSet.SOLVED Corner i) ((reversed w).map (rotsMove (unrot rs))) = rots (unrot rs) (after farWord i) := by
    intro i
    have := movedAlg_rots (unrot rs) (rots rs (PieceSet.SOLVED Corner i)) (reversed w)
    rw [rots_unrot, ← h i, movedAlg_back] at this
    exact this
  have e' : ∀ i, rots (rs' ++ rs) (t i) = after farWord i := fun i => by
    rw [rots_append, ← h3 i, e i, rots_unrot']
  have e7 : rots (rs' ++ rs) q7 = q7 := by
    have := e' 7
    rwa [h1.last, hn.last] at this
  have et : t = after farWord := funext fun i => by
    rw [← e' i, rots_eq, e7, path_home]
  by_contra hlt
  have len : ((reversed w).map (rotsMove (unrot rs))).length = w.length := by simp [reversed]
  have := steps_mono Depth_home (digs_length t) (digs_fine h1) (m := 10) (by omega) h2
  rw [et, digs_after] at this
  exact absurd this (by unfold Mem; rw [far_missing]; decide)

end Barbarosa.Two

namespace Barbarosa

/-- corners in different places whose twists add up to a multiple of three are solved by some sequence of at most 11 moves -/
theorem corners_solvable (s : PieceSet Corner 8) (hs : s.Valid) (ht : 3 ∣ ∑ i, (s i).orientationIndex) :
    ∃ w : List AxisMove, w.length ≤ 11 ∧ ∀ i, movedAlg (s i) w = PieceSet.SOLVED Corner i := by
  obtain ⟨w, h1, h2⟩ := Two.corners_reach s hs ((twists_iff s).1 ht)
  refine ⟨reversed w, by simpa [reversed] using h1, fun i => ?_⟩
  rw [← h2 i]
  exact Two.movedAlg_back w _

end Barbarosa
