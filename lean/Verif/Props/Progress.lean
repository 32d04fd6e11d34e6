import Verif.Model.Progress
import Verif.Props.Mus
import Verif.Props.Lower

/-!
# C76: the progress messages tell the truth
-/

namespace Barbarosa

/-- how many states can be reached with at most `d` moves -/
noncomputable def ballSize {T : Type} [Movable T AxisMove] (start : T) (d : Nat) : Nat :=
  Nat.card { s : T // ∃ alg : List AxisMove, alg.length ≤ d ∧ movedAlg start alg = s }

section
variable {T : Type} [Deindexable T] [Movable T AxisMove] {Good : T → Prop} {start : T}

/-- printing does not change what is computed -/
theorem buildLoopLog_table : ∀ (left depth : Nat) (cache : List Nat),
    (buildLoopLog T left depth cache).map (·.2) = buildLoop T left depth cache
  | 0, _, _ => rfl
  | left + 1, depth, cache => by
    unfold buildLoopLog buildLoop
    simp only
    split
    · rfl
    · cases h : cacheNeighboursAtDepth? T cache depth with
      | none => rfl
      | some c => simp [← buildLoopLog_table left (depth + 1) c, Function.comp_def]

theorem amountCached_range (c : List Nat) :
    amountCached c = ((Finset.range c.length).filter fun i => c.getD i 255 ≠ 255).card := by
  have h1 : c = (List.range c.length).map fun i => c.getD i 255 := by
    apply List.ext_getElem
    · simp
    · intro i h1 h2
      simp [h1]
  unfold amountCached
  conv_lhs => rw [h1]
  rw [List.filter_map, List.length_map]
  have h2 : ((Finset.range c.length).filter fun i => c.getD i 255 ≠ 255) =
      ((List.range c.length).filter fun i => decide (c.getD i 255 ≠ 255)).toFinset := by
    ext i
    simp
  rw [h2, List.toFinset_card_of_nodup (List.nodup_range.filter _)]
  congr 1
  apply List.filter_congr
  intro i _
  show (entryGet (c.getD i 255)).isSome = decide (c.getD i 255 ≠ 255)
  generalize c.getD i 255 = x
  by_cases h : x = 255 <;> simp [entryGet, h]

/-- the amount that is counted after the pass for depth `d` -/
theorem amount_eq (laws : TableLaws T Good start) {c : List Nat} {d : Nat} (hd : d < 255) (h : UpTo Good start c d) :
    amountCached c = ballSize start d := by
  rw [amountCached_range, ballSize, ← Nat.card_eq_finsetCard]
  have key : ∀ s i, Good s → Deindexable.index? s = some i →
      (c.getD i 255 ≠ 255 ↔ ∃ alg : List AxisMove, alg.length ≤ d ∧ movedAlg start alg = s) := by
    intro s i hs hi
    obtain ⟨e, he, hcase⟩ := h.2 s i hs hi
    have : c.getD i 255 = e := by simp [List.getD_eq_getElem?_getD, he]
    rw [this]
    rcases hcase with ⟨h1, ⟨alg, h2, h3⟩, -⟩ | ⟨rfl, h2⟩
    · exact ⟨fun _ => ⟨alg, by omega, h3⟩, fun _ => by omega⟩
    · refine ⟨fun h => absurd rfl h, fun ⟨alg, h3, h4⟩ => ?_⟩
      have := h2 alg h4
      omega
  symm
  refine Nat.card_congr (Equiv.ofBijective (fun s => ⟨(Deindexable.index? s.1).getD 0, ?_⟩) ⟨?_, ?_⟩)
  · obtain ⟨s, alg, h1, rfl⟩ := s
    have hg := good_alg laws alg
    obtain ⟨r, r1, r2, r3⟩ := laws.index _ hg
    simp only [Finset.mem_filter, Finset.mem_range, r1, Option.getD_some]
    exact ⟨by rw [h.1]; exact r2, (key _ r hg r1).2 ⟨alg, h1, rfl⟩⟩
  · rintro ⟨s, alg, h1, rfl⟩ ⟨s', alg', h1', rfl⟩ e
    obtain ⟨r, r1, r2, r3⟩ := laws.index _ (good_alg laws alg)
    obtain ⟨r', r1', r2', r3'⟩ := laws.index _ (good_alg laws alg')
    simp only [r1, r1', Option.getD_some, Subtype.mk.injEq] at e
    subst e
    rw [r3] at r3'
    exact Subtype.ext (Option.some.inj r3')
  · rintro ⟨i, hi⟩
    simp only [Finset.mem_filter, Finset.mem_range] at hi
    obtain ⟨s, s1, s2, s3⟩ := laws.unindex i (by rw [← h.1]; exact hi.1)
    exact ⟨⟨s, (key s i s2 s3).1 hi.2⟩, by simp [s3]⟩

/-- the messages of the loop -/
theorem buildLoopLog_spec (laws : TableLaws T Good start) {B : Nat} (hB : B < 254)
    (hreach : ∀ s, Good s → ∃ alg : List AxisMove, alg.length ≤ B ∧ movedAlg start alg = s) :
    ∀ (left d : Nat) (c : List Nat), left + d = 254 → d ≤ B → UpTo Good start c d →
      ∃ log c', buildLoopLog T left (d + 1) c = some (log, c') ∧ log ≠ [] ∧
        (∀ k x, log[k]? = some x → x = (d + k + 1, ballSize start (d + k))) ∧
        (∀ k, k + 1 < log.length → ballSize start (d + k) ≠ Deindexable.TOTAL_SET_SIZE T) ∧
        ballSize start (d + (log.length - 1)) = Deindexable.TOTAL_SET_SIZE T
  | 0, d, c, hl, hdB, _ => by omega
  | left + 1, d, c, hl, hdB, h => by
    have ha := amount_eq laws (by omega) h
    obtain ⟨c0, hb, -, -⟩ := buildLoop_spec laws hB hreach (left + 1) d c hl hdB h
    unfold buildLoopLog
    simp only
    by_cases hfull : amountCached c = Deindexable.TOTAL_SET_SIZE T
    · rw [if_pos hfull]
      refine ⟨_, _, rfl, by simp, fun k x hk => ?_, fun k hk => by simp at hk, by simpa [← ha] using hfull⟩
      rcases k with _ | k
      · simp only [List.getElem?_cons_zero, Option.some.injEq] at hk
        rw [← hk, ha]; rfl
      · simp at hk
    · rw [if_neg hfull]
      obtain ⟨c', h1, h2⟩ := h.step laws (by omega)
      have hd : d ≠ B := by
        rintro rfl
        unfold buildLoop at hb
        rw [if_neg hfull, h1] at hb
        apply hfull
        unfold amountCached
        rw [← h.1, List.length_filter_eq_length_iff]
        intro e he
        obtain ⟨i, hi⟩ := List.mem_iff_getElem?.1 he
        have hit : i < Deindexable.TOTAL_SET_SIZE T := by
          rw [← h.1]; exact (List.getElem?_eq_some_iff.1 hi).1
        obtain ⟨s, _, hs2, hs3⟩ := laws.unindex i hit
        obtain ⟨e', he', hcase⟩ := h.2 s i hs2 hs3
        rw [hi] at he'
        cases he'
        rcases hcase with ⟨hle, _⟩ | ⟨_, hfar⟩
        · have : e ≠ 255 := by omega
          simp [entryGet, this]
        · obtain ⟨alg, ha1, ha2⟩ := hreach s hs2
          have := hfar alg ha2
          omega
      obtain ⟨log, cc, g1, g2, g3, g4, g5⟩ := buildLoopLog_spec laws hB hreach left (d + 1) c' (by omega) (by omega) h2
      rw [h1]
      simp only [g1, Option.map_some]
      have hlen : 0 < log.length := List.length_pos_iff.2 g2
      refine ⟨_, _, rfl, by simp, fun k x hk => ?_, fun k hk => ?_, ?_⟩
      · rcases k with _ | k
        · simp only [List.getElem?_cons_zero, Option.some.injEq] at hk
          rw [← hk, ha]; rfl
        · simp only [List.getElem?_cons_succ] at hk
          rw [g3 k x hk]
          congr 1 <;> [omega; (congr 1; omega)]
      · rcases k with _ | k
        · rw [Nat.add_zero, ← ha]; exact hfull
        · have := g4 k (by simpa using hk)
          rwa [show d + (k + 1) = d + 1 + k by omega]
      · rw [← g5]
        congr 1
        simp only [List.length_cons]
        omega

/-- the states within `d` moves -/
def ball (start : T) (d : Nat) : Set T := { s | ∃ alg : List AxisMove, alg.length ≤ d ∧ movedAlg start alg = s }

omit [Deindexable T] in
theorem ballSize_eq (start : T) (d : Nat) : ballSize start d = (ball start d).ncard := rfl

theorem ball_finite (laws : TableLaws T Good start) (d : Nat) : (ball start d).Finite := by
  have hinj : Set.InjOn (fun s : T => (Deindexable.index? s).getD 0) (ball start d) := by
    rintro s ⟨alg, h1, rfl⟩ s' ⟨alg', h1', rfl⟩ e
    obtain ⟨r, r1, r2, r3⟩ := laws.index _ (good_alg laws alg)
    obtain ⟨r', r1', r2', r3'⟩ := laws.index _ (good_alg laws alg')
    simp only [r1, r1', Option.getD_some] at e
    subst e
    rw [r3] at r3'
    exact Option.some.inj r3'
  refine Set.Finite.of_finite_image ((Set.finite_Iio (Deindexable.TOTAL_SET_SIZE T)).subset ?_) hinj
  rintro i ⟨s, ⟨alg, h1, rfl⟩, rfl⟩
  obtain ⟨r, r1, r2, r3⟩ := laws.index _ (good_alg laws alg)
  simpa [r1] using r2

/-- if a pass finds nothing new, everything has been found -/
theorem ball_stable (laws : TableLaws T Good start) {d : Nat} (h : ballSize start (d + 1) ≤ ballSize start d) (k : Nat) :
    ballSize start (d + k) = ballSize start d := by
  have hmono : ∀ a b, a ≤ b → ball start a ⊆ ball start b := fun a b hab s ⟨alg, h1, h2⟩ => ⟨alg, by omega, h2⟩
  have heq : ball start d = ball start (d + 1) :=
    Set.eq_of_subset_of_ncard_le (hmono _ _ (by omega)) h (ball_finite laws _)
  have hall : ∀ k, ball start (d + k) = ball start d := by
    intro k
    induction k with
    | zero => rfl
    | succ k ih =>
      apply Set.Subset.antisymm
      · rintro s ⟨alg, h1, rfl⟩
        rcases Nat.lt_or_ge alg.length (d + k + 1) with hl | hl
        · rw [← ih]; exact ⟨alg, by omega, rfl⟩
        · have hne : alg ≠ [] := by rintro rfl; simp at hl
          have hm : movedAlg start alg.dropLast ∈ ball start d := by
            rw [← ih]; exact ⟨_, by rw [List.length_dropLast]; omega, rfl⟩
          obtain ⟨w, w1, w2⟩ := hm
          rw [heq]
          refine ⟨w ++ [alg.getLast hne], by simp; omega, ?_⟩
          conv_rhs => rw [← List.dropLast_append_getLast hne]
          simp only [movedAlg, List.foldl_append] at w2 ⊢
          rw [w2]
      · exact hmono _ _ (by omega)
  rw [ballSize_eq, ballSize_eq, hall]

theorem ballSize_le_total (laws : TableLaws T Good start) (d : Nat) : ballSize start d ≤ Deindexable.TOTAL_SET_SIZE T := by
  have h := Set.ncard_le_ncard_of_injOn (s := ball start d) (t := Set.Iio (Deindexable.TOTAL_SET_SIZE T))
    (fun s : T => (Deindexable.index? s).getD 0) (by
      rintro s ⟨alg, h1, rfl⟩
      obtain ⟨r, r1, r2, r3⟩ := laws.index _ (good_alg laws alg)
      simpa [r1] using r2) (by
      rintro s ⟨alg, h1, rfl⟩ s' ⟨alg', h1', rfl⟩ e
      obtain ⟨r, r1, r2, r3⟩ := laws.index _ (good_alg laws alg)
      obtain ⟨r', r1', r2', r3'⟩ := laws.index _ (good_alg laws alg')
      simp only [r1, r1', Option.getD_some] at e
      subst e
      rw [r3] at r3'
      exact Option.some.inj r3') (Set.finite_Iio _)
  have e : (Set.Iio (Deindexable.TOTAL_SET_SIZE T)).ncard = Deindexable.TOTAL_SET_SIZE T := by
    rw [Set.ncard_eq_toFinset_card', Set.toFinset_Iio, Nat.card_Iio]
  rwa [e] at h

/-- when the whole table has been found, everything is within that many moves -/
theorem ball_whole (laws : TableLaws T Good start) {d e : Nat} (h : ballSize start d = Deindexable.TOTAL_SET_SIZE T)
    {s : T} (hs : s ∈ ball start e) : s ∈ ball start d := by
  rcases Nat.le_total e d with hle | hle
  · obtain ⟨alg, h1, h2⟩ := hs
    exact ⟨alg, h1.trans hle, h2⟩
  · have : ball start d = ball start e := Set.eq_of_subset_of_ncard_le (fun s ⟨alg, h1, h2⟩ => ⟨alg, h1.trans hle, h2⟩)
      (by rw [← ballSize_eq, ← ballSize_eq, h]; exact ballSize_le_total laws e) (ball_finite laws _)
    rwa [this]

omit [Deindexable T] in
theorem ballSize_zero : ballSize start 0 = 1 := by
  have : ball start 0 = {start} := by
    ext s
    constructor
    · rintro ⟨alg, h1, rfl⟩
      rw [List.length_eq_zero_iff.1 (Nat.le_zero.1 h1)]
      rfl
    · rintro rfl; exact ⟨[], le_rfl, rfl⟩
  rw [ballSize_eq, this, Set.ncard_singleton]

omit [Deindexable T] in
theorem ballSize_le (hw : ∀ (k : Nat) (alg : List AxisMove), movedAlg start (normalized^[k] alg) = movedAlg start alg) (d : Nat) :
    ballSize start d ≤ ((List.range (d + 1)).map algCount).sum := by
  classical
  have h : ball start d ⊆ (((shortAlgs d).map fun w => movedAlg start w).toFinset : Set T) := by
    rintro s ⟨alg, h1, rfl⟩
    simp only [List.coe_toFinset, Set.mem_ofPred_eq, List.mem_map]
    exact ⟨normalized^[alg.length] alg, (mem_shortAlgs _ _).2 ⟨(length_iterate _ _).trans h1, normalized_iterate _ _ (by omega)⟩,
      hw _ _⟩
  have h2 := Set.ncard_le_ncard h (Finset.finite_toSet _)
  rw [Set.ncard_coe_finset] at h2
  have h3 := h2.trans (List.toFinset_card_le _)
  rwa [List.length_map, shortAlgs_count] at h3

/-- what holds of the messages -/
theorem messages (laws : TableLaws T Good start) {B : Nat} (hB : B < 254)
    (hreach : ∀ s, Good s → ∃ alg : List AxisMove, alg.length ≤ B ∧ movedAlg start alg = s)
    (hw : ∀ (k : Nat) (alg : List AxisMove), movedAlg start (normalized^[k] alg) = movedAlg start alg)
    (htot : 8331112 < Deindexable.TOTAL_SET_SIZE T) :
    ∃ log t, buildTableLog? T = some (log, t) ∧ buildTable? T = some t ∧
      (∀ k x, log[k]? = some x → x = (k + 1, ballSize start k)) ∧
      log.head? = some (1, 1) ∧ (log.map (·.2)).Pairwise (· < ·) ∧
      (log.getLast?).map (·.2) = some (Deindexable.TOTAL_SET_SIZE T) ∧ 8 ≤ log.length ∧ log.length ≤ B + 1 := by
  have hpos : 0 < Deindexable.TOTAL_SET_SIZE T := by omega
  obtain ⟨log, t, h1, h2, h3, h4, h5⟩ := buildLoopLog_spec laws hB hreach 254 0 _ (by omega) (by omega) (UpTo.initial laws hpos)
  simp only [Nat.zero_add] at h1 h3 h4 h5
  have hlen : 0 < log.length := List.length_pos_iff.2 h2
  have hget : ∀ k (hk : k < log.length), log[k] = (k + 1, ballSize start k) := fun k hk =>
    h3 k _ (List.getElem?_eq_getElem hk)
  have hlast : (log.getLast?).map (·.2) = some (Deindexable.TOTAL_SET_SIZE T) := by
    rw [List.getLast?_eq_getElem?, List.getElem?_eq_getElem (by omega), hget _ (by omega), Option.map_some, h5]
  have hstep : ∀ k, k + 1 < log.length → ballSize start k < ballSize start (k + 1) := by
    intro k hk
    by_contra hc
    have := ball_stable laws (Nat.not_lt.1 hc) (log.length - 1 - k)
    rw [show k + (log.length - 1 - k) = log.length - 1 by omega, h5] at this
    exact h4 k hk this.symm
  have hmono : ∀ i j, i < j → j < log.length → ballSize start i < ballSize start j := by
    intro i j hij
    induction j with
    | zero => omega
    | succ j ih =>
      intro hj
      rcases Nat.lt_or_ge i j with hlt | hge
      · exact (ih hlt (by omega)).trans (hstep j hj)
      · have : i = j := by omega
        subst this
        exact hstep i hj
  refine ⟨log, t, ?_, ?_, h3, ?_, ?_, hlast, ?_, ?_⟩
  · unfold buildTableLog?
    rw [if_pos hpos, h1]
  · have := buildLoopLog_table (T := T) 254 1 ((List.replicate (Deindexable.TOTAL_SET_SIZE T) 255).set 0 0)
    unfold buildTable?
    rw [if_pos hpos, ← this, h1]
    rfl
  · rw [List.head?_eq_getElem?, List.getElem?_eq_getElem hlen, hget 0 hlen, ballSize_zero]
  · rw [List.pairwise_iff_getElem]
    intro i j hi hj hij
    simp only [List.length_map] at hi hj
    simp only [List.getElem_map, hget _ hi, hget _ hj]
    exact hmono i j hij hj
  · by_contra hc
    have hle := ballSize_le (start := start) hw 6
    have hc6 : ((List.range (6 + 1)).map algCount).sum = 8331112 := by decide +kernel
    have : ballSize start (log.length - 1) ≤ ballSize start 6 := by
      refine Set.ncard_le_ncard (s := ball start (log.length - 1)) (t := ball start 6) ?_ (ball_finite laws _)
      rintro s ⟨alg, a1, a2⟩
      exact ⟨alg, by omega, a2⟩
    omega
  · by_contra hc
    have hbe : ball start B = ball start (log.length - 1) := by
      apply Set.Subset.antisymm
      · rintro s ⟨alg, a1, a2⟩; exact ⟨alg, by omega, a2⟩
      · rintro s ⟨alg, a1, rfl⟩
        exact hreach _ (good_alg laws alg)
    exact h4 B (by omega) (by rw [ballSize_eq, hbe, ← ballSize_eq, h5])

end

/-- **C76** While the corner table is built, the message for depth `d` gives the number of arrangements that take fewer than `d`
moves. The first one says 1, the amounts strictly increase, the last one is the size of the table, and there are exactly 12. -/
theorem C76_corners : ∃ log t, buildTableLog? CornersMUS = some (log, t) ∧ buildTable? CornersMUS = some t ∧
    (∀ k x, log[k]? = some x → x = (k + 1, ballSize (T := CornersMUS) Cube3.SOLVED.corners k)) ∧
    log.head? = some (1, 1) ∧ (log.map (·.2)).Pairwise (· < ·) ∧
    (log.getLast?).map (·.2) = some 88179840 ∧ log.length = 12 := by
  have e : Deindexable.TOTAL_SET_SIZE CornersMUS = 88179840 := total_corners
  rw [← e]
  obtain ⟨log, t, h1, h2, h3, h4, h5, h6, h7, h8⟩ := messages corners_laws (B := 11) (by decide)
    (fun _ hs => corners_reachable hs) (fun k alg => by
      rw [← alg_corners, ← alg_corners, effect_iterate ⟨Cube3⟩ (by simp [axisSystems])]) (by rw [total_corners]; decide)
  refine ⟨log, t, h1, h2, h3, h4, h5, h6, Nat.le_antisymm h8 ?_⟩
  by_contra hlt
  have hlast : log[log.length - 1]? = some (log.length - 1 + 1, ballSize (T := CornersMUS) Cube3.SOLVED.corners (log.length - 1)) := by
    rw [List.getElem?_eq_getElem (by omega)]
    exact congrArg some (h3 _ _ (List.getElem?_eq_getElem (by omega)))
  rw [List.getLast?_eq_getElem?, hlast, Option.map_some] at h6
  obtain ⟨w, w1, w2⟩ := ball_whole corners_laws (Option.some.inj h6) (e := 11)
    (s := movedAlg (C := CornersMUS) Cube3.SOLVED.corners (Two.movesOf Two.farWord)) ⟨_, le_refl 11, rfl⟩
  have := corners_far w w2
  omega

/-- **C76** The same for the table of six edges; at most 16. -/
theorem C76_edges : ∃ log t, buildTableLog? HalfEdgesMUS = some (log, t) ∧ buildTable? HalfEdgesMUS = some t ∧
    (∀ k x, log[k]? = some x → x = (k + 1, ballSize (firstEdges Cube3.SOLVED) k)) ∧
    log.head? = some (1, 1) ∧ (log.map (·.2)).Pairwise (· < ·) ∧
    (log.getLast?).map (·.2) = some 42577920 ∧ 8 ≤ log.length ∧ log.length ≤ 16 := by
  have e : Deindexable.TOTAL_SET_SIZE HalfEdgesMUS = 42577920 := total_edges
  rw [← e]
  refine messages halfEdges_laws (B := 15) (by decide) (fun _ hs => firstEdges_reachable hs) (fun k alg => ?_) (by rw [total_edges]; decide)
  rw [← alg_firstEdges, ← alg_firstEdges, effect_iterate ⟨Cube3⟩ (by simp [axisSystems])]

/-- cutting off the fraction -/
theorem trunc_spec (x : ℚ) (h : |x| ≤ 9 * 10 ^ 15) :
    |(asI64 x : ℚ) - x| < 1 ∧ |(asI64 x : ℚ)| ≤ |x| ∧ durationSeconds? (asI64 x) = some (asI64 x) := by
  obtain ⟨hl, hu⟩ := abs_le.1 h
  have key : ∀ z : ℤ, |(z : ℚ)| ≤ |x| → max (-2 ^ 63) (min (2 ^ 63 - 1) z) = z ∧ durationSeconds? z = some z := by
    intro z hz
    have hz' : |(z : ℚ)| ≤ 9 * 10 ^ 15 := hz.trans h
    obtain ⟨a, b⟩ := abs_le.1 hz'
    have a' : -(9 * 10 ^ 15) ≤ z := by exact_mod_cast a
    have b' : z ≤ 9 * 10 ^ 15 := by exact_mod_cast b
    constructor
    · omega
    · unfold durationSeconds?
      rw [if_neg]
      omega
  unfold asI64
  by_cases h0 : 0 ≤ x
  · rw [if_pos h0]
    have f1 := Int.floor_le x
    have f2 := Int.lt_floor_add_one x
    have f3 : (0 : ℚ) ≤ ⌊x⌋ := by exact_mod_cast Int.floor_nonneg.2 h0
    have f4 : |((⌊x⌋ : ℤ) : ℚ)| ≤ |x| := by rw [abs_of_nonneg f3, abs_of_nonneg h0]; exact f1
    rw [(key _ f4).1]
    exact ⟨by rw [abs_lt]; constructor <;> linarith, f4, (key _ f4).2⟩
  · rw [if_neg h0]
    have h0' : x < 0 := not_le.1 h0
    have f1 := Int.le_ceil x
    have f2 := Int.ceil_lt_add_one x
    have f3 : ((⌈x⌉ : ℤ) : ℚ) ≤ 0 := by
      have : ⌈x⌉ ≤ 0 := Int.ceil_le.2 (by push_cast; exact h0'.le)
      exact_mod_cast this
    have f4 : |((⌈x⌉ : ℤ) : ℚ)| ≤ |x| := by rw [abs_of_nonpos f3, abs_of_neg h0']; linarith
    rw [(key _ f4).1]
    exact ⟨by rw [abs_lt]; constructor <;> linarith, f4, (key _ f4).2⟩

/-- **C76** Computing the statistics does not panic unless more than three years have passed (or the clock was set back as far), and
the time that is announced is the time taken so far scaled by states left to states done, rounded towards zero. At the end it
is zero and the share is one. The speed is the number of states per thousand milliseconds (not a number if no time has passed). -/
theorem C76_eta (cache : List Nat) (ms : Int) (h1 : 0 < amountCached cache) (h2 : cache.length ≤ 88179840)
    (h3 : -10 ^ 11 ≤ ms) (h4 : ms ≤ 10 ^ 11) :
    ∃ s, Stats.new? cache ms = some s ∧ s.amountCached = amountCached cache ∧
      s.percentCached * cache.length = amountCached cache ∧
      |(s.etaSeconds : ℚ) * (1000 * amountCached cache) - (cache.length - amountCached cache) * ms| < 1000 * amountCached cache ∧
      |(s.etaSeconds : ℚ) * (1000 * amountCached cache)| ≤ |(cache.length - amountCached cache) * (ms : ℚ)| ∧
      (amountCached cache = cache.length → s.etaSeconds = 0 ∧ s.percentCached = 1) ∧ s.timeElapsedMs = ms ∧
      (s.statesPerSecond = none ↔ ms = 0) ∧ ∀ v, s.statesPerSecond = some v → v * ms = 1000 * amountCached cache := by
  have hle : amountCached cache ≤ cache.length := List.length_filter_le _ _
  have hA : (0 : ℚ) < amountCached cache := by exact_mod_cast h1
  have hL : (amountCached cache : ℚ) ≤ cache.length := by exact_mod_cast hle
  have hL0 : (cache.length : ℚ) ≠ 0 := by linarith
  have hLe : (cache.length : ℚ) ≤ 88179840 := by exact_mod_cast h2
  have hA1 : (1 : ℚ) ≤ amountCached cache := by exact_mod_cast h1
  have hp : percentCached cache (amountCached cache) * cache.length = amountCached cache := by
    unfold percentCached; field_simp
  have hp1 : amountCached cache = cache.length → percentCached cache (amountCached cache) = 1 := by
    intro e
    unfold percentCached
    rw [e]
    exact div_self hL0
  unfold Stats.new?
  simp only
  by_cases hms : ms = 0
  · subst hms
    refine ⟨⟨amountCached cache, percentCached cache (amountCached cache), 0, none, 0⟩, ?_, rfl, hp, ?_, ?_, fun e => ⟨rfl, hp1 e⟩,
      rfl, by simp, by simp⟩
    · simp [durationSeconds?]
    · simp [h1]
    · simp
  · have hms' : (ms : ℚ) ≠ 0 := by exact_mod_cast hms
    have hv : (amountCached cache : ℚ) / ms * 1000 ≠ 0 := by positivity
    set x : ℚ := ((cache.length - amountCached cache : ℕ) : ℚ) / ((amountCached cache : ℚ) / ms * 1000) with hx
    have hx' : x * (1000 * amountCached cache) = (cache.length - amountCached cache) * ms := by
      rw [hx, Nat.cast_sub hle]
      field_simp
    have hm : |(ms : ℚ)| ≤ 10 ^ 11 := abs_le.2 ⟨by exact_mod_cast h3, by exact_mod_cast h4⟩
    have hb : |x| ≤ 9 * 10 ^ 15 := by
      have e1 : |x| * (1000 * amountCached cache) = (cache.length - amountCached cache) * |(ms : ℚ)| := by
        have := congrArg abs hx'
        rwa [abs_mul x, abs_mul _ (ms : ℚ), abs_of_pos (show (0 : ℚ) < 1000 * amountCached cache by linarith),
          abs_of_nonneg (show (0 : ℚ) ≤ cache.length - amountCached cache by linarith)] at this
      have e2 : ((cache.length : ℚ) - amountCached cache) * |(ms : ℚ)| ≤ 88179840 * 10 ^ 11 :=
        mul_le_mul (by linarith) hm (abs_nonneg _) (by norm_num)
      have e3 : |x| * 1000 ≤ |x| * (1000 * amountCached cache) :=
        mul_le_mul_of_nonneg_left (by linarith) (abs_nonneg _)
      linarith
    obtain ⟨t1, t2, t3⟩ := trunc_spec x hb
    have hnew : (durationSeconds? (match (if ms = 0 then none else some ((amountCached cache : ℚ) / ms * 1000) : Option ℚ) with
        | none => 0
        | some v => if v = 0 then (if cache.length - amountCached cache = 0 then 0 else 2 ^ 63 - 1)
          else asI64 (((cache.length - amountCached cache : ℕ) : ℚ) / v))) = some (asI64 x) := by
      rw [if_neg hms]
      show durationSeconds? (if _ then _ else _) = _
      rw [if_neg hv, ← hx, t3]
    have hpos : (0 : ℚ) < 1000 * amountCached cache := by linarith
    refine ⟨⟨amountCached cache, percentCached cache (amountCached cache), ms, _, asI64 x⟩,
      (congrArg (Option.map _) hnew).trans rfl, rfl, hp, ?_, ?_, fun e => ⟨?_, hp1 e⟩, rfl, by simp [hms], ?_⟩
    · simp only
      rw [← hx', ← sub_mul, abs_mul, abs_of_pos hpos]
      exact (mul_lt_iff_lt_one_left hpos).2 t1
    · simp only
      rw [← hx', abs_mul _ (1000 * _ : ℚ), abs_mul x]
      exact mul_le_mul_of_nonneg_right t2 (abs_nonneg _)
    · simp only
      have : x = 0 := by rw [hx, e]; simp
      rw [this] at t2
      have : (asI64 x : ℚ) = 0 := by rw [this]; simpa using t2
      exact_mod_cast this
    · intro v h
      simp only [if_neg hms] at h
      rw [← Option.some.inj h]
      field_simp

/-- half way after a second -/
example : (Stats.new? [0, 1, 255, 255] 1000).map (fun s => (s.etaSeconds, s.percentCached)) = some (1, 1 / 2) := by
  decide +kernel

/-- with one state done after four years the program would panic on a table of the size of the corner table -/
example : durationSeconds? (asI64 (88179839 / (1 / (4 * 365 * 86400 * 1000) * 1000))) = none := by decide +kernel

end Barbarosa
