import Verif.Lemmas.MusDistance
import Verif.Props.Heuristics

/-!
# Properties C20–C25 (and C29 for the MUS heuristic): numbering of arrangements, distance tables, the MUS heuristic
-/

namespace Barbarosa

/-! ## C23 -/

/-- **C23** For all `S` and all lengths: the number of a sequence of different values below `S` is below `S! / (S - N)!`, and
unranking that number gives the sequence back. (The condition says that the size of the number range fits into `usize`; without
it the code's own last multiplication overflows.) -/
theorem C23_positions_rank (S : Nat) (l : List Nat) (hnd : l.Nodup) (hlt : ∀ x ∈ l, x < S)
    (hfit : S.factorial / (S - l.length).factorial < 2 ^ 64) :
    ∃ r, positionDispositionIndex? S l = some r ∧ r < S.factorial / (S - l.length).factorial ∧
      deindexPositions? l.length S r = some l := by
  have hle : l.length ≤ S := by
    have := (List.Nodup.subperm hnd (l₂ := List.range S) fun x hx => List.mem_range.2 (hlt x hx)).length_le
    simpa using this
  rw [← Nat.descFactorial_eq_div hle] at hfit ⊢
  exact position_rank hnd hlt hfit

/-- three of five places -/
example : ∃ r < 60, positionDispositionIndex? 5 [3, 0, 4] = some r ∧ deindexPositions? 3 5 r = some [3, 0, 4] := by
  obtain ⟨r, h1, h2, h3⟩ := C23_positions_rank 5 [3, 0, 4] (by decide) (by decide) (by decide)
  exact ⟨r, h2, h1, h3⟩

/-- **C23** For all `S` and all `N ≤ S`: every number below `S! / (S - N)!` is unranked without panic to a sequence of `N`
different values below `S`, whose number it is. -/
theorem C23_positions_unrank (S N r : Nat) (hN : N ≤ S) (hfit : S.factorial / (S - N).factorial < 2 ^ 64)
    (hr : r < S.factorial / (S - N).factorial) :
    ∃ l, deindexPositions? N S r = some l ∧ l.length = N ∧ l.Nodup ∧ (∀ x ∈ l, x < S) ∧
      positionDispositionIndex? S l = some r := by
  rw [← Nat.descFactorial_eq_div hN] at hfit hr
  exact position_unrank hN hfit hr

/-- the number 38 -/
example : ∃ l, deindexPositions? 3 5 38 = some l ∧ l.Nodup ∧ positionDispositionIndex? 5 l = some 38 := by
  obtain ⟨l, h1, -, h2, -, h3⟩ := C23_positions_unrank 5 3 38 (by decide) (by decide) (by decide)
  exact ⟨l, h1, h2, h3⟩

/-- **C23** Beyond the range unranking a nonempty sequence panics, it never yields a wrong sequence. -/
theorem C23_positions_out_of_range (S N r : Nat) (hN : N ≤ S) (h0 : 0 < N) (hfit : S.factorial / (S - N).factorial < 2 ^ 64)
    (hr : S.factorial / (S - N).factorial ≤ r) : deindexPositions? N S r = none := by
  rw [← Nat.descFactorial_eq_div hN] at hfit hr
  obtain ⟨n, rfl⟩ : ∃ n, N = n + 1 := ⟨N - 1, by omega⟩
  obtain ⟨s, rfl⟩ : ∃ s, S = s + 1 := ⟨S - 1, by omega⟩
  exact position_unrank_large (by omega) hfit hr

/-- there are 60, so 60 is the first number too many -/
example : deindexPositions? 3 5 60 = none := C23_positions_out_of_range 5 3 60 (by decide) (by decide) (by decide) (by decide)

/-- **C23** For every base and every length: the number of a sequence of digits is below `base ^ N` and determines the
sequence; conversely every number below `base ^ N` comes from a sequence. -/
theorem C23_orientations (base : Nat) (hpos : 0 < base) :
    (∀ l : List Nat, (∀ x ∈ l, x < base) → base ^ l.length < 2 ^ 64 →
      ∃ r, orientationPermutationIndex? base l = some r ∧ r < base ^ l.length ∧ deindexOrientations base l.length r = l) ∧
    (∀ N r, base ^ N < 2 ^ 64 → r < base ^ N →
      (deindexOrientations base N r).length = N ∧ (∀ x ∈ deindexOrientations base N r, x < base) ∧
        orientationPermutationIndex? base (deindexOrientations base N r) = some r) :=
  ⟨fun _ hl hb => orientation_rank hpos hl hb, fun _ _ hb hr => orientation_unrank hpos hb hr⟩

example : [3, 0, 4].Nodup ∧ (∀ x ∈ [3, 0, 4], x < 5) ∧ Nat.factorial 5 / Nat.factorial (5 - [3, 0, 4].length) < 2 ^ 64 ∧
    positionDispositionIndex? 5 [3, 0, 4] = some 38 ∧ deindexPositions? 3 5 38 = some [3, 0, 4] ∧
    deindexPositions? 3 5 60 = none ∧ orientationPermutationIndex? 3 [2, 0, 1] = some 19 ∧
    deindexOrientations 3 3 19 = [2, 0, 1] := by decide +kernel

/-! ## C21 -/

/-- **C21** Six edges at different places: the index exists (no panic, no overflow), is below the size of the table and leads
back to the arrangement. -/
theorem C21_edges_index (s : HalfEdgesMUS) (h : ∀ i j, (s i).position = (s j).position → i = j) :
    ∃ r, Deindexable.index? s = some r ∧ r < 42577920 ∧ Deindexable.fromIndex? r = some s := by
  have := halfEdges_index (s := s) fun i j hij => h i j hij
  rwa [total_edges] at this

/-- the edges after the sexy move -/
example : ∃ r, Deindexable.index? (firstEdges (movedAlg Cube3.SOLVED Perms.SEXY_MOVE)) = some r ∧ r < 42577920 := by
  obtain ⟨r, h1, h2, -⟩ := C21_edges_index (firstEdges (movedAlg Cube3.SOLVED Perms.SEXY_MOVE)) (by decide +kernel)
  exact ⟨r, h1, h2⟩

/-- **C21** Every number below the size of the table is the index of an arrangement of six edges at different places, and
`from_index` finds it. -/
theorem C21_edges_from_index (r : Nat) (h : r < 42577920) :
    ∃ s : HalfEdgesMUS, Deindexable.fromIndex? r = some s ∧ (∀ i j, (s i).position = (s j).position → i = j) ∧
      Deindexable.index? s = some r := by
  obtain ⟨s, h1, h2, h3⟩ := halfEdges_unindex (r := r) (by rw [total_edges]; exact h)
  exact ⟨s, h1, fun i j hij => h2 hij, h3⟩

/-- the number 390656 -/
example : ∃ s : HalfEdgesMUS, Deindexable.fromIndex? 390656 = some s ∧ Deindexable.index? s = some 390656 := by
  obtain ⟨s, h1, -, h2⟩ := C21_edges_from_index 390656 (by decide)
  exact ⟨s, h1, h2⟩

/-- **C21** Eight corners at different places whose orientations add up to a multiple of three. -/
theorem C21_corners_index (s : CornersMUS) (h : ∀ i j, (s i).position = (s j).position → i = j)
    (ht : 3 ∣ ∑ i, (s i).orientationIndex) :
    ∃ r, Deindexable.index? s = some r ∧ r < 88179840 ∧ Deindexable.fromIndex? r = some s := by
  have := corners_index_good (s := s) ⟨fun i j hij => h i j hij, ht⟩
  rwa [total_corners] at this

/-- the corners after the sexy move -/
example : ∃ r, Deindexable.index? (T := CornersMUS) (movedAlg Cube3.SOLVED Perms.SEXY_MOVE).corners = some r ∧ r < 88179840 := by
  obtain ⟨r, h1, h2, -⟩ := C21_corners_index (movedAlg Cube3.SOLVED Perms.SEXY_MOVE).corners (by decide +kernel) (by decide +kernel)
  exact ⟨r, h1, h2⟩

/-- **C21** Every number below the size of the table is the index of such an arrangement. -/
theorem C21_corners_from_index (r : Nat) (h : r < 88179840) :
    ∃ s : CornersMUS, Deindexable.fromIndex? r = some s ∧ (∀ i j, (s i).position = (s j).position → i = j) ∧
      3 ∣ ∑ i, (s i).orientationIndex ∧ Deindexable.index? s = some r := by
  obtain ⟨s, h1, ⟨h2, h3⟩, h4⟩ := corners_unindex (r := r) (by rw [total_corners]; exact h)
  exact ⟨s, h1, fun i j hij => h2 hij, h3, h4⟩

/-- the last number -/
example : ∃ s : CornersMUS, Deindexable.fromIndex? 88179839 = some s ∧ Deindexable.index? s = some 88179839 := by
  obtain ⟨s, h1, -, -, h2⟩ := C21_corners_from_index 88179839 (by decide)
  exact ⟨s, h1, h2⟩

/-- **C21** Index 0 is the solved arrangement. -/
theorem C21_zero : Deindexable.fromIndex? (T := CornersMUS) 0 = some Cube3.SOLVED.corners ∧
    Deindexable.fromIndex? (T := HalfEdgesMUS) 0 = some (fun i => Cube3.SOLVED.edges ⟨i.val, by omega⟩) := by
  constructor
  · obtain ⟨r, h1, _, h3⟩ := corners_laws.index _ corners_laws.start_good
    rw [corners_laws.start_index] at h1
    cases h1
    exact h3
  · obtain ⟨r, h1, _, h3⟩ := halfEdges_laws.index _ halfEdges_laws.start_good
    rw [halfEdges_laws.start_index] at h1
    cases h1
    exact h3

/-- **C21** Numbers at or beyond the size of the table make `from_index` panic. -/
theorem C21_out_of_range (r : Nat) :
    (42577920 ≤ r → Deindexable.fromIndex? (T := HalfEdgesMUS) r = none) ∧
    (88179840 ≤ r → Deindexable.fromIndex? (T := CornersMUS) r = none) := by
  constructor
  · intro h
    have := position_unrank_large (N := 5) (S := 11) (r := r / 2 ^ 6) (by decide) (by decide +kernel)
      (by rw [show Nat.descFactorial (11 + 1) (5 + 1) = 665280 by decide +kernel]; omega)
    show HalfEdgesMUS.fromIndex? r = none
    unfold HalfEdgesMUS.fromIndex?
    rw [this]
  · intro h
    have := position_unrank_large (N := 7) (S := 7) (r := r / 3 ^ 7) (by decide) (by decide +kernel)
      (by rw [show Nat.descFactorial (7 + 1) (7 + 1) = 40320 by decide +kernel]; omega)
    show CornersMUS.fromIndex? r = none
    unfold CornersMUS.fromIndex?
    rw [this]

/-- the constants of the code are the sizes used above -/
example : Deindexable.TOTAL_SET_SIZE HalfEdgesMUS = 42577920 ∧ Deindexable.TOTAL_SET_SIZE CornersMUS = 88179840 := by
  decide +kernel

/-- arrangements with index other than 0: after `R U R' U'` -/
example : Deindexable.index? (T := CornersMUS) (movedAlg Cube3.SOLVED Perms.SEXY_MOVE).corners = some 23633535 ∧
    Deindexable.index? (firstEdges (movedAlg Cube3.SOLVED Perms.SEXY_MOVE)) = some 390656 := by decide +kernel

/-! ## C20 -/

/-- **C20** Arrays at different places, whatever turns are made and (for corners) whatever the orientations: the index can be
computed without panic, overflow or underflow and lies inside the table. -/
theorem C20_arrays (w : List AxisMove) :
    (∀ s : HalfEdgesMUS, (∀ i j, (s i).position = (s j).position → i = j) →
      ∃ r, Deindexable.index? (movedAlg s w) = some r ∧ r < Deindexable.TOTAL_SET_SIZE HalfEdgesMUS) ∧
    (∀ s : CornersMUS, (∀ i j, (s i).position = (s j).position → i = j) →
      ∃ r, Deindexable.index? (movedAlg s w) = some r ∧ r < Deindexable.TOTAL_SET_SIZE CornersMUS) := by
  constructor
  · intro s hs
    have : ∀ (w : List AxisMove) (s : HalfEdgesMUS), Apart s → Apart (movedAlg s w) := by
      intro w
      induction w with
      | nil => intro s h; exact h
      | cons m w ih => intro s h; exact ih _ (apart_moved s m h)
    obtain ⟨r, h1, h2, _⟩ := halfEdges_index (this w s fun i j hij => hs i j hij)
    exact ⟨r, h1, h2⟩
  · intro s hs
    have : ∀ (w : List AxisMove) (s : CornersMUS), Apart s → Apart (movedAlg s w) := by
      intro w
      induction w with
      | nil => intro s h; exact h
      | cons m w ih => intro s h; exact ih (moved s m) fun i j hij => h (corner_pos_inj m _ _ hij)
    obtain ⟨r, h1, h2, _⟩ := corners_index (this w s fun i j hij => hs i j hij)
    exact ⟨r, h1, h2⟩

/-- the first six edges of a cube with a flipped edge, after the sexy move -/
example : ∃ r, Deindexable.index? (movedAlg (firstEdges oneFlip) Perms.SEXY_MOVE) = some r ∧ r < Deindexable.TOTAL_SET_SIZE HalfEdgesMUS :=
  (C20_arrays Perms.SEXY_MOVE).1 _ (by decide +kernel)

/-- **C20** Every valid cube, solvable or not, and tables of the right sizes: all three reads are in bounds. -/
theorem C20_lookup (cache : Cache) (he : cache.edges.length = Deindexable.TOTAL_SET_SIZE HalfEdgesMUS)
    (hk : cache.corners.length = Deindexable.TOTAL_SET_SIZE CornersMUS) (c : Cube3) (hc : c.valid) :
    ∃ i n, c.indices? = some i ∧ i.corners < cache.corners.length ∧ i.edges0 < cache.edges.length ∧
      i.edges1 < cache.edges.length ∧ cache.get? c = some n := by
  obtain ⟨hv1, hv2⟩ := (valid_iff c).1 hc
  obtain ⟨k, k1, k2, _⟩ := corners_index (s := c.corners) hv2
  obtain ⟨e0, e1, e2, _⟩ := halfEdges_index (apart_first hv1)
  obtain ⟨f0, f1, f2, _⟩ := halfEdges_index (apart_second hv1).adjust
  have hi : c.indices? = some ⟨k, e0, f0⟩ := by
    unfold Cube3.indices?
    rw [k1, e1, f1]
  rw [← hk] at k2
  rw [← he] at e2 f2
  refine ⟨⟨k, e0, f0⟩, max cache.corners[k] (max cache.edges[e0] cache.edges[f0]), hi, k2, e2, f2, ?_⟩
  unfold Cache.get?
  rw [hi]
  simp only
  rw [List.getElem?_eq_getElem k2, List.getElem?_eq_getElem e2, List.getElem?_eq_getElem f2]

/-- a valid cube that cannot be solved -/
example : oneFlip.valid ∧ ¬ oneFlip.Solvable ∧ oneFlip.indices? ≠ Cube3.SOLVED.indices? := by
  refine ⟨?_, ?_, ?_⟩
  · unfold Cube3.valid; decide +kernel
  · intro h
    exact absurd ((C15_reachable_iff oneFlip).2.1.1 h).flips (by decide +kernel)
  · decide +kernel

/-! ## C22 -/

theorem concat_partition (c : Cube3) : concatEdges (firstEdges c) (secondEdges c) = c.edges := by
  funext i
  unfold concatEdges firstEdges secondEdges
  split
  · rfl
  · congr 1
    exact Fin.ext (by simp only; omega)

/-- **C22** A valid cube whose corner orientations add up to a multiple of three is rebuilt from its indices, without panic. -/
theorem C22_rebuild (c : Cube3) (hc : c.valid) (ht : 3 ∣ ∑ i, (c.corners i).orientationIndex) :
    ∃ i, c.indices? = some i ∧ Cube3.fromIndices? i = some c := by
  obtain ⟨hv1, hv2⟩ := (valid_iff c).1 hc
  obtain ⟨k, k1, _, k3⟩ := corners_index_good (s := c.corners) ⟨hv2, ht⟩
  obtain ⟨e0, e1, _, e3⟩ := halfEdges_index (apart_first hv1)
  obtain ⟨f0, f1, _, f3⟩ := halfEdges_index (apart_second hv1).adjust
  refine ⟨⟨k, e0, f0⟩, ?_, ?_⟩
  · unfold Cube3.indices?
    rw [k1, e1, f1]
  · unfold Cube3.fromIndices?
    simp only
    rw [k3, e3, f3]
    simp only
    rw [adjust_adjust, concat_partition, new_ok hv1, new_ok hv2]

/-- a cube with a flipped edge: it cannot be reached, but the numbers keep it -/
example : ∃ i, oneFlip.indices? = some i ∧ Cube3.fromIndices? i = some oneFlip :=
  C22_rebuild oneFlip (by unfold Cube3.valid; decide +kernel) (by decide +kernel)

/-- **C22** In particular every reachable cube is rebuilt, and reachable cubes with the same indices are equal. -/
theorem C22_reachable (c d : Cube3) (hc : c.Reachable) (hd : d.Reachable) :
    (∃ i, c.indices? = some i ∧ Cube3.fromIndices? i = some c) ∧ (c.indices? = d.indices? → c = d) := by
  have key : ∀ c : Cube3, c.Reachable → ∃ i, c.indices? = some i ∧ Cube3.fromIndices? i = some c := fun c hc => by
    have hl := (C15_reachable_iff c).1.1 hc
    exact C22_rebuild c ((valid_iff c).2 ⟨hl.edges_valid, hl.corners_valid⟩) hl.twists
  refine ⟨key c hc, fun h => ?_⟩
  obtain ⟨i, h1, h2⟩ := key c hc
  obtain ⟨j, h3, h4⟩ := key d hd
  rw [h1, h3] at h
  cases h
  rw [h2] at h4
  exact Option.some.inj h4

example : (movedAlg Cube3.SOLVED Perms.SEXY_MOVE).indices? = some ⟨23633535, 390656, 0⟩ := by decide +kernel

/-! ## C24 -/

/-- **C24** The corner table: the build comes to an end without panic or overflow of the depth counter; every entry is set and is
the least number of turns from the solved arrangement to the arrangement with that index (and back). The greatest entry is 11. -/
theorem C24_corners : ∃ t, buildTable? CornersMUS = some t ∧ t.length = 88179840 ∧ 11 ∈ t ∧
    ∀ i e, t[i]? = some e → e ≤ 11 ∧ ∃ s : CornersMUS, Deindexable.fromIndex? i = some s ∧
      MinTurns (T := CornersMUS) Cube3.SOLVED.corners s e ∧ MinTurns (T := CornersMUS) s Cube3.SOLVED.corners e := by
  obtain ⟨t, h1, h2, h3⟩ := corners_table
  have hlen : t.length = 88179840 := by rw [h2, total_corners]
  refine ⟨t, h1, hlen, ?_, fun i e hi => ?_⟩
  · have hg := good_alg corners_laws (Two.movesOf Two.farWord)
    obtain ⟨r, r1, -, -⟩ := corners_index_good hg
    obtain ⟨e, k1, k2, ⟨w, k3, k4⟩, -⟩ := h3 _ r hg r1
    have := corners_far w k4
    rw [show (11 : Nat) = e by omega]
    exact List.mem_of_getElem? k1
  obtain ⟨s, g1, g2, g3⟩ := corners_laws.unindex i (by rw [← h2]; exact (List.getElem?_eq_some_iff.1 hi).1)
  obtain ⟨e', k1, k2, k3⟩ := h3 s i g2 g3
  rw [hi] at k1
  cases k1
  exact ⟨k2, s, g1, k3, k3.symm cornersMUS_undo⟩

/-- **C24** The same for the table of six edges. -/
theorem C24_edges : ∃ t, buildTable? HalfEdgesMUS = some t ∧ t.length = 42577920 ∧
    ∀ i e, t[i]? = some e → e ≤ 15 ∧ ∃ s : HalfEdgesMUS, Deindexable.fromIndex? i = some s ∧
      MinTurns (firstEdges Cube3.SOLVED) s e ∧ MinTurns s (firstEdges Cube3.SOLVED) e := by
  obtain ⟨t, h1, h2, h3⟩ := halfEdges_table
  have hlen : t.length = 42577920 := by rw [h2, total_edges]
  refine ⟨t, h1, hlen, fun i e hi => ?_⟩
  obtain ⟨s, g1, g2, g3⟩ := halfEdges_laws.unindex i (by rw [← h2]; exact (List.getElem?_eq_some_iff.1 hi).1)
  obtain ⟨e', k1, k2, k3⟩ := h3 s i g2 g3
  rw [hi] at k1
  cases k1
  exact ⟨k2, s, g1, k3, k3.symm halfEdges_undo⟩

/-- **C24** After the pass for depth `d` (for every depth the loop can reach) exactly the distances up to `d` are in the table. -/
theorem C24_passes (t : List Nat) (d : Nat) (hd : d + 1 < 255) :
    (UpTo Apart (firstEdges Cube3.SOLVED) t d →
      ∃ t', cacheNeighboursAtDepth? HalfEdgesMUS t (d + 1) = some t' ∧ UpTo Apart (firstEdges Cube3.SOLVED) t' (d + 1)) ∧
    (UpTo CornersGood (Cube3.SOLVED.corners : CornersMUS) t d →
      ∃ t', cacheNeighboursAtDepth? CornersMUS t (d + 1) = some t' ∧
        UpTo CornersGood (Cube3.SOLVED.corners : CornersMUS) t' (d + 1)) :=
  ⟨fun h => h.step halfEdges_laws hd, fun h => h.step corners_laws hd⟩

/-- the first pass starts from the table with the solved entry only -/
example : UpTo Apart (firstEdges Cube3.SOLVED) ((List.replicate (Deindexable.TOTAL_SET_SIZE HalfEdgesMUS) 255).set 0 0) 0 :=
  UpTo.initial halfEdges_laws (by rw [total_edges]; decide)

/-- an arrangement at distance 1 -/
example : MinTurns (firstEdges Cube3.SOLVED) (firstEdges (moved Cube3.SOLVED (⟨Face.R, .single⟩ : AxisMove))) 1 := by
  refine ⟨⟨[⟨Face.R, .single⟩], rfl, by rw [← alg_firstEdges]; rfl⟩, fun alg h => ?_⟩
  rcases alg with _ | ⟨m, l⟩
  · exfalso
    have := congrFun h 2
    revert this
    decide +kernel
  · simp

/-! ## C25 -/

section
variable {edges corners : List Nat} (he : buildTable? HalfEdgesMUS = some edges) (hk : buildTable? CornersMUS = some corners)

include he hk

/-- **C25** With the tables the code builds, the MUS heuristic of a valid cube whose corner orientations add up to a multiple of
three is the maximum of the exact solving distances of the corners, of edges 0 to 5 and of edges 6 to 11. -/
theorem C25_exact (c : Cube3) (hc : c.valid) (ht : 3 ∣ ∑ i, (c.corners i).orientationIndex) :
    ∃ k e0 e1, mus? ⟨edges, corners⟩ c = some ((max k (max e0 e1) : Nat) : ℚ) ∧
      MinTurns (T := CornersMUS) c.corners Cube3.SOLVED.corners k ∧
      MinTurns (firstEdges c) (firstEdges Cube3.SOLVED) e0 ∧ MinTurns (secondEdges c) (secondEdges Cube3.SOLVED) e1 ∧
      max k (max e0 e1) ≤ 15 := by
  obtain ⟨hv1, hv2⟩ := (valid_iff c).1 hc
  obtain ⟨tk, a1, a2, a3⟩ := corners_table
  obtain ⟨te, b1, b2, b3⟩ := halfEdges_table
  rw [hk] at a1
  cases a1
  rw [he] at b1
  cases b1
  obtain ⟨ki, k1, _, _⟩ := corners_index_good (s := c.corners) ⟨hv2, ht⟩
  obtain ⟨ei, e1, _, _⟩ := halfEdges_index (apart_first hv1)
  obtain ⟨fi, f1, _, _⟩ := halfEdges_index (apart_second hv1).adjust
  obtain ⟨k, g1, g2, g3⟩ := a3 _ ki ⟨hv2, ht⟩ k1
  obtain ⟨e, h1, h2, h3⟩ := b3 _ ei (apart_first hv1) e1
  obtain ⟨f, i1, i2, i3⟩ := b3 _ fi (apart_second hv1).adjust f1
  refine ⟨k, e, f, ?_, g3.symm cornersMUS_undo, h3.symm halfEdges_undo, ?_, ?_⟩
  · unfold mus? Cache.get? Cube3.indices?
    rw [k1, e1, f1]
    simp only
    rw [g1, h1, i1]
    rfl
  · have := (i3.symm halfEdges_undo).adjust
    rw [adjust_adjust, ← adjust_solved, adjust_adjust] at this
    exact this
  · omega

include he hk in
example : ∃ k e0 e1, mus? ⟨edges, corners⟩ (movedAlg Cube3.SOLVED Perms.T) = some ((max k (max e0 e1) : Nat) : ℚ) ∧
    max k (max e0 e1) ≤ 15 := by
  obtain ⟨k, e0, e1, h, -, -, -, hm⟩ := C25_exact he hk (movedAlg Cube3.SOLVED Perms.T)
    (C08_cubes.2.1 Cube3.SOLVED Perms.T C08_solved_valid.2.1) (by decide +kernel)
  exact ⟨k, e0, e1, h, hm⟩

/-- **C25** It never overestimates: at most the length of any alg that solves the cube. It is 0 on the solved cube. -/
theorem C25_admissible (c : Cube3) (alg : List AxisMove) (h : movedAlg c alg = Cube3.SOLVED) :
    (∃ x, mus? ⟨edges, corners⟩ c = some x ∧ 0 ≤ x ∧ x ≤ alg.length) ∧ mus? ⟨edges, corners⟩ Cube3.SOLVED = some 0 := by
  have key : ∀ (c : Cube3) (alg : List AxisMove), movedAlg c alg = Cube3.SOLVED →
      ∃ x, mus? ⟨edges, corners⟩ c = some x ∧ 0 ≤ x ∧ x ≤ alg.length := by
    intro c alg h
    have hl : c.Lawful := (C15_reachable_iff c).2.1.1 ⟨alg, h⟩
    obtain ⟨k, e0, e1, h1, h2, h3, h4, _⟩ := C25_exact he hk c ((valid_iff c).2 ⟨hl.edges_valid, hl.corners_valid⟩) hl.twists
    refine ⟨_, h1, by positivity, ?_⟩
    have g1 := h2.2 alg (by rw [← alg_corners, h])
    have g2 := h3.2 alg (by rw [← alg_firstEdges, h])
    have g3 := h4.2 alg (by rw [← alg_secondEdges, h])
    exact_mod_cast (max_le g1 (max_le g2 g3))
  refine ⟨key c alg h, ?_⟩
  obtain ⟨x, h1, h2, h3⟩ := key Cube3.SOLVED [] rfl
  rw [h1]
  simp only [List.length_nil, Nat.cast_zero] at h3
  exact congrArg some (le_antisymm h3 h2)

include he hk in
/-- after the sexy move the heuristic says at most 4 -/
example : ∃ x, mus? ⟨edges, corners⟩ (movedAlg Cube3.SOLVED Perms.SEXY_MOVE) = some x ∧ 0 ≤ x ∧ x ≤ 4 :=
  (C25_admissible he hk _ (reversed Perms.SEXY_MOVE) (by decide +kernel)).1

/-- **C25** `mus_with_fallback` never overestimates either, whether the cache is there or not, if the fallback does not. -/
theorem C25_fallback (fallback : Cube3 → Option ℚ)
    (hf : ∀ (c : Cube3) (alg : List AxisMove), movedAlg c alg = Cube3.SOLVED → ∃ x, fallback c = some x ∧ x ≤ alg.length)
    (lock : Option Cache) (hlock : lock = none ∨ lock = some ⟨edges, corners⟩) (c : Cube3) (alg : List AxisMove)
    (h : movedAlg c alg = Cube3.SOLVED) : ∃ x, musWithFallback? lock fallback c = some x ∧ x ≤ alg.length := by
  rcases hlock with rfl | rfl
  · exact hf c alg h
  · obtain ⟨⟨x, h1, _, h3⟩, _⟩ := C25_admissible he hk c alg h
    exact ⟨x, h1, h3⟩

include he hk in
/-- with and without the cache, the constant 0 as fallback -/
example (lock : Option Cache) (hlock : lock = none ∨ lock = some ⟨edges, corners⟩) :
    ∃ x, musWithFallback? lock (fun _ => some 0) (movedAlg Cube3.SOLVED Perms.SEXY_MOVE) = some x ∧ x ≤ 4 :=
  C25_fallback he hk (fun _ => some 0) (fun _ _ _ => ⟨0, rfl, by positivity⟩) lock hlock _ (reversed Perms.SEXY_MOVE) (by decide +kernel)

/-- **C29** Solving with the MUS heuristic: an optimal solution for every reachable cube, `None` for the others. (Cubes on which
the table read would be out of bounds are not valid; the search never meets them, the value there does not matter.) -/
theorem C29_mus (c : Cube3) :
    (c.Reachable → ∃ alg : List AxisMove,
      Returns (fun fuel => Cube3.solveWithHeuristic? exactOps (fun c => (mus? ⟨edges, corners⟩ c).getD 0) fuel c) (some alg) ∧
      movedAlg c alg = Cube3.SOLVED ∧
      ∀ alg' : List AxisMove, movedAlg c alg' = Cube3.SOLVED → alg.length ≤ alg'.length) ∧
    (¬ c.Reachable →
      Returns (fun fuel => Cube3.solveWithHeuristic? exactOps (fun c => (mus? ⟨edges, corners⟩ c).getD 0) fuel c) none) := by
  refine ⟨fun hc => ?_, C29_unreachable exactOps _ c⟩
  have hval : ∀ c : Cube3, ∃ n : Nat, (mus? ⟨edges, corners⟩ c).getD 0 = (n : ℚ) := by
    intro c
    unfold mus?
    cases Cache.get? ⟨edges, corners⟩ c with
    | none => exact ⟨0, by simp⟩
    | some n => exact ⟨n, rfl⟩
  obtain ⟨alg, h1, h2, h3, -⟩ := C29_optimal (fun c => (mus? ⟨edges, corners⟩ c).getD 0)
    (fun c => by obtain ⟨n, hn⟩ := hval c; simp only [hn]; positivity)
    (fun c => by obtain ⟨n, hn⟩ := hval c; exact ⟨n, by simp only [hn]; rfl⟩)
    (fun c alg h => by
      obtain ⟨⟨x, hx1, _, hx3⟩, _⟩ := C25_admissible he hk c alg h
      simp only [hx1]
      exact hx3) c hc
  exact ⟨alg, h1, h2, h3⟩

end

/-- the tables exist, and a cube that is neither solved nor unsolvable meets the other hypotheses -/
example : (∃ edges, buildTable? HalfEdgesMUS = some edges) ∧ (∃ corners, buildTable? CornersMUS = some corners) ∧
    (moved Cube3.SOLVED (⟨Face.R, .single⟩ : AxisMove)).valid ∧
    3 ∣ ∑ i, ((moved Cube3.SOLVED (⟨Face.R, .single⟩ : AxisMove)).corners i).orientationIndex := by
  refine ⟨⟨_, C24_edges.choose_spec.1⟩, ⟨_, C24_corners.choose_spec.1⟩, ?_, ?_⟩
  · unfold Cube3.valid; decide +kernel
  · decide +kernel

end Barbarosa
