import Verif.Props.Mus
import Verif.Spec.Indices
import Mathlib.Data.Nat.Factorial.Basic

/-!
# C88, C89, C90: which numbers belong to cubes, the second half of the edges, how the MUS heuristic changes
-/

namespace Barbarosa

/-! ## C88 -/

theorem fromIndex_lt :
    (∀ r s, Deindexable.fromIndex? (T := CornersMUS) r = some s → r < Deindexable.TOTAL_SET_SIZE CornersMUS) ∧
    (∀ r s, Deindexable.fromIndex? (T := HalfEdgesMUS) r = some s → r < Deindexable.TOTAL_SET_SIZE HalfEdgesMUS) := by
  refine ⟨fun r s h => ?_, fun r s h => ?_⟩
  · by_contra hr
    rw [total_corners] at hr
    rw [(C21_out_of_range r).2 (by omega)] at h
    cases h
  · by_contra hr
    rw [total_edges] at hr
    rw [(C21_out_of_range r).1 (by omega)] at h
    cases h

theorem first_concat (a b : HalfEdgesMUS) (k : PieceSet Corner 8) : firstEdges ⟨concatEdges a b, k⟩ = a := by
  funext i
  unfold firstEdges concatEdges
  simp only
  rw [dif_pos i.isLt]

theorem second_concat (a b : HalfEdgesMUS) (k : PieceSet Corner 8) : secondEdges ⟨concatEdges a b, k⟩ = b := by
  funext i
  unfold secondEdges concatEdges
  simp only
  rw [dif_neg (by omega)]
  congr 1

/-- **C88** `from_indices` returns a cube exactly if it is a valid cube with twists adding up to a multiple of three and these
are its indices; for all other numbers it panics. -/
theorem C88_from_indices_iff (i : CubeIndices) (c : Cube3) :
    Cube3.fromIndices? i = some c ↔ c.valid ∧ 3 ∣ ∑ j, (c.corners j).orientationIndex ∧ c.indices? = some i := by
  constructor
  · intro h
    obtain ⟨k, e0, e1⟩ := i
    unfold Cube3.fromIndices? at h
    simp only at h
    rcases hk : Deindexable.fromIndex? (T := CornersMUS) k with _ | s
    · rw [hk] at h; cases h
    rcases h0 : Deindexable.fromIndex? (T := HalfEdgesMUS) e0 with _ | a
    · rw [hk, h0] at h; cases h
    rcases h1 : Deindexable.fromIndex? (T := HalfEdgesMUS) e1 with _ | b
    · rw [hk, h0, h1] at h; cases h
    rw [hk, h0, h1] at h
    simp only at h
    obtain ⟨s', s1, s2, s3⟩ := corners_unindex (fromIndex_lt.1 _ _ hk)
    obtain ⟨a', a1, a2, a3⟩ := halfEdges_unindex (fromIndex_lt.2 _ _ h0)
    obtain ⟨b', b1, b2, b3⟩ := halfEdges_unindex (fromIndex_lt.2 _ _ h1)
    rw [hk] at s1; cases s1
    rw [h0] at a1; cases a1
    rw [h1] at b1; cases b1
    rw [new_ok (s := s) s2.1] at h
    rcases he : PieceSet.new (concatEdges a (adjustSecondEdges b)) with _ | t
    · rw [he] at h; cases h
    rw [he] at h
    simp only at h
    cases h
    obtain ⟨rfl, hv⟩ := (C09_new_accepts _ _).1 he
    refine ⟨(valid_iff _).2 ⟨fun i j e => by_contra fun hij => hv i j hij e, s2.1⟩, s2.2, ?_⟩
    unfold Cube3.indices?
    rw [first_concat, second_concat, adjust_adjust, a3, b3, s3]
  · rintro ⟨hv, ht, hi⟩
    obtain ⟨j, h1, h2⟩ := C22_rebuild c hv ht
    rw [hi] at h1
    cases h1
    exact h2

example : Cube3.fromIndices? ⟨23633535, 390656, 0⟩ = some (movedAlg Cube3.SOLVED Perms.SEXY_MOVE) :=
  (C88_from_indices_iff _ _).2 ⟨C08_cubes.2.1 Cube3.SOLVED Perms.SEXY_MOVE C08_solved_valid.2.1, by decide +kernel, by decide +kernel⟩

/-- **C88** In other words: the three numbers must be below the sizes of the tables, and none of the six edges of one number may
be where one of the six edges of the other is. -/
theorem C88_domain (i : CubeIndices) :
    (∃ c, Cube3.fromIndices? i = some c) ↔ i.corners < 88179840 ∧ i.edges0 < 42577920 ∧ i.edges1 < 42577920 ∧
      ∀ a b : HalfEdgesMUS, Deindexable.fromIndex? i.edges0 = some a → Deindexable.fromIndex? i.edges1 = some b →
        ∀ j k, (a j).position ≠ (rotated (b k) (⟨.X, .double⟩ : AxisRotation)).position := by
  have t1 : Deindexable.TOTAL_SET_SIZE CornersMUS = 88179840 := by rw [total_corners]
  have t2 : Deindexable.TOTAL_SET_SIZE HalfEdgesMUS = 42577920 := by rw [total_edges]
  constructor
  · rintro ⟨c, h⟩
    obtain ⟨hv, ht, hi⟩ := (C88_from_indices_iff i c).1 h
    obtain ⟨hv1, hv2⟩ := (valid_iff c).1 hv
    obtain ⟨k, k1, k2, _⟩ := corners_index_good (s := c.corners) ⟨hv2, ht⟩
    obtain ⟨e, e1, e2, e3⟩ := halfEdges_index (apart_first hv1)
    obtain ⟨f, f1, f2, f3⟩ := halfEdges_index (apart_second hv1).adjust
    have : c.indices? = some ⟨k, e, f⟩ := by
      unfold Cube3.indices?
      rw [k1, e1, f1]
    rw [hi] at this
    cases this
    refine ⟨t1 ▸ k2, t2 ▸ e2, t2 ▸ f2, fun a b ha hb j l hjl => ?_⟩
    rw [e3] at ha; cases ha
    rw [f3] at hb; cases hb
    have h2 : rotated (adjustSecondEdges (secondEdges c) l) (⟨.X, .double⟩ : AxisRotation) = secondEdges c l :=
      edge_x2_x2 _
    rw [h2] at hjl
    have := congrArg Fin.val (hv1 hjl)
    simp only at this
    omega
  · rintro ⟨h1, h2, h3, h4⟩
    obtain ⟨s, s1, s2, s3⟩ := corners_unindex (t1 ▸ h1)
    obtain ⟨a, a1, a2, a3⟩ := halfEdges_unindex (t2 ▸ h2)
    obtain ⟨b, b1, b2, b3⟩ := halfEdges_unindex (t2 ▸ h3)
    refine ⟨⟨concatEdges a (adjustSecondEdges b), s⟩, (C88_from_indices_iff i _).2 ⟨(valid_iff _).2 ⟨?_, s2.1⟩, s2.2, ?_⟩⟩
    · have hb := b2.adjust
      have hd := h4 a b a1 b1
      intro x y hxy
      simp only [concatEdges] at hxy
      by_cases hx : x.val < 6 <;> by_cases hy : y.val < 6
      · rw [dif_pos hx, dif_pos hy] at hxy
        have := congrArg Fin.val (a2 hxy)
        exact Fin.ext this
      · rw [dif_pos hx, dif_neg hy] at hxy
        exact absurd hxy (hd _ _)
      · rw [dif_neg hx, dif_pos hy] at hxy
        exact absurd hxy.symm (hd _ _)
      · rw [dif_neg hx, dif_neg hy] at hxy
        have := congrArg Fin.val (hb hxy)
        simp only at this
        exact Fin.ext (by omega)
    · unfold Cube3.indices?
      rw [first_concat, second_concat, adjust_adjust, a3, b3, s3]

/-- the number of the corners is too big -/
example : ¬ ∃ c, Cube3.fromIndices? ⟨88179840, 0, 0⟩ = some c := fun h => absurd ((C88_domain _).1 h).1 (by decide)

/-- **C88** The indices of a valid cube say everything about it but how corner 7 is twisted. -/
theorem C88_same_indices (c d : Cube3) (hc : c.valid) (hd : d.valid) :
    c.indices? = d.indices? ↔ c.SameButLastTwist d := by
  obtain ⟨hc1, hc2⟩ := (valid_iff c).1 hc
  obtain ⟨hd1, hd2⟩ := (valid_iff d).1 hd
  obtain ⟨k, k1, _, s, s1, s2, s3, s4⟩ := corners_index (s := c.corners) hc2
  obtain ⟨e, e1, _, e3⟩ := halfEdges_index (apart_first hc1)
  obtain ⟨f, f1, _, f3⟩ := halfEdges_index (apart_second hc1).adjust
  obtain ⟨k', k1', _, s', s1', s2', s3', s4'⟩ := corners_index (s := d.corners) hd2
  obtain ⟨e', e1', _, e3'⟩ := halfEdges_index (apart_first hd1)
  obtain ⟨f', f1', _, f3'⟩ := halfEdges_index (apart_second hd1).adjust
  have hci : c.indices? = some ⟨k, e, f⟩ := by
    unfold Cube3.indices?
    rw [k1, e1, f1]
  have hdi : d.indices? = some ⟨k', e', f'⟩ := by
    unfold Cube3.indices?
    rw [k1', e1', f1']
  constructor
  · intro h
    rw [hci, hdi] at h
    cases h
    rw [s1] at s1'; cases s1'
    rw [e3] at e3'
    rw [f3] at f3'
    refine ⟨?_, fun i hi => ?_, (s3 7).symm.trans (s3' 7)⟩
    · have h1 := Option.some.inj e3'
      have h2 := congrArg adjustSecondEdges (Option.some.inj f3')
      rw [adjust_adjust, adjust_adjust] at h2
      rw [← concat_partition c, ← concat_partition d, h1, h2]
    · have hlt : i.val < 7 := by
        have := fun e : i.val = 7 => hi (Fin.ext e)
        omega
      exact (s4 ⟨i.val, hlt⟩).symm.trans (s4' ⟨i.val, hlt⟩)
  · rintro ⟨h1, h2, h3⟩
    have hf : firstEdges c = firstEdges d := by unfold firstEdges; rw [h1]
    have hs : secondEdges c = secondEdges d := by unfold secondEdges; rw [h1]
    have hp : ∀ i, Piece.position (c.corners i) = Piece.position (d.corners i) := fun i => by
      by_cases hi : i = 7
      · rw [hi]; exact h3
      · rw [h2 i hi]
    have hk : Deindexable.index? (T := CornersMUS) c.corners = Deindexable.index? (T := CornersMUS) d.corners := by
      show combineIndex? (3 ^ 7) (CornersMUS.positionIndex? _) (CornersMUS.orientationIndex? _) =
        combineIndex? (3 ^ 7) (CornersMUS.positionIndex? _) (CornersMUS.orientationIndex? _)
      rw [corners_position, corners_orientation, corners_position, corners_orientation]
      have g1 : (fun i => (placeOf (n := 8) (c.corners i)).val) = fun i => (placeOf (n := 8) (d.corners i)).val :=
        funext fun i => congrArg Fin.val (placeOf_eq (by rw [ref_placeOf]; exact hp i))
      have g2 : (fun i : Fin 7 => (c.corners ⟨i.val, by omega⟩).orientationIndex) =
          fun i : Fin 7 => (d.corners ⟨i.val, by omega⟩).orientationIndex :=
        funext fun i => by
          rw [h2 _ fun e => by have := congrArg Fin.val e; simp at this; omega]
      rw [g1, g2]
    unfold Cube3.indices?
    rw [hf, hs, hk]

/-- the cube with corner 7 twisted `t` times more -/
def twistLast (t : ZMod 3) (c : Cube3) : Cube3 :=
  ⟨c.edges, fun i => if i = 7 then Corner.twist^[t.val] (c.corners i) else c.corners i⟩

theorem twistLast_position (t : ZMod 3) (c : Cube3) (i : Fin 8) :
    Piece.position ((twistLast t c).corners i) = Piece.position (c.corners i) := by
  show Piece.position (if i = 7 then _ else _) = _
  split
  · exact twists_position _ _
  · rfl

theorem twistLast_trits (t : ZMod 3) (c : Cube3) :
    ∑ i, cornerTrit ((twistLast t c).corners i) = ∑ i, cornerTrit (c.corners i) + t :=
  fixUp_trits false false t c

theorem twistLast_valid (t : ZMod 3) (c : Cube3) : (twistLast t c).valid ↔ c.valid := by
  rw [valid_iff, valid_iff]
  refine and_congr Iff.rfl ?_
  show Function.Injective (fun i => Piece.position ((twistLast t c).corners i)) ↔ Function.Injective fun i => Piece.position (c.corners i)
  simp only [twistLast_position]

theorem twistLast_twistLast (s t : ZMod 3) (c : Cube3) : twistLast t (twistLast s c) = twistLast (s + t) c := by
  unfold twistLast
  congr 1
  funext i
  by_cases h : i = 7
  · simp only [if_pos h]; exact twists_twists _ _ _
  · simp only [if_neg h]

theorem twistLast_zero (c : Cube3) : twistLast 0 c = c := by
  unfold twistLast
  congr 1
  funext i
  split <;> rfl

theorem twistLast_same (t : ZMod 3) (c : Cube3) : (twistLast t c).SameButLastTwist c :=
  ⟨rfl, fun _ hi => if_neg hi, twistLast_position t c 7⟩

/-- **C88** The number of triples of numbers that belong to a cube: four times the number of states that can be reached. -/
theorem C88_number : Nat.card { i : CubeIndices // ∃ c, Cube3.fromIndices? i = some c } = 4 * 43252003274489856000 := by
  have e1 : { i : CubeIndices // ∃ c, Cube3.fromIndices? i = some c } ≃
      { c : Cube3 // c.valid ∧ ∑ j, cornerTrit (c.corners j) = 0 } :=
    Equiv.symm (Equiv.ofBijective (fun c => ⟨(c.1.indices?).get (by
        obtain ⟨_, h, _⟩ := C22_rebuild c.1 c.2.1 ((twists_iff _).2 c.2.2)
        rw [h]; rfl), c.1, by
        obtain ⟨_, h, h'⟩ := C22_rebuild c.1 c.2.1 ((twists_iff _).2 c.2.2)
        simp only [h, Option.get_some, h']⟩) (by
      constructor
      · rintro ⟨c, hc⟩ ⟨d, hd⟩ h
        obtain ⟨i, h1, h2⟩ := C22_rebuild c hc.1 ((twists_iff _).2 hc.2)
        obtain ⟨j, h3, h4⟩ := C22_rebuild d hd.1 ((twists_iff _).2 hd.2)
        have h' := congrArg Subtype.val h
        simp only [h1, h3, Option.get_some] at h'
        rw [h', h4] at h2
        exact Subtype.ext (Option.some.inj h2).symm
      · rintro ⟨i, c, hi⟩
        obtain ⟨h1, h2, h3⟩ := (C88_from_indices_iff i c).1 hi
        exact ⟨⟨c, h1, (twists_iff _).1 h2⟩, Subtype.ext (by simp only [h3, Option.get_some])⟩))
  have e2 : { c : Cube3 // c.valid ∧ ∑ j, cornerTrit (c.corners j) = 0 } × ZMod 3 ≃ { c : Cube3 // c.valid } :=
    { toFun := fun x => ⟨twistLast x.2 x.1.1, (twistLast_valid _ _).2 x.1.2.1⟩
      invFun := fun c => (⟨twistLast (-∑ j, cornerTrit (c.1.corners j)) c.1, (twistLast_valid _ _).2 c.2, by
        rw [twistLast_trits, add_neg_cancel]⟩, ∑ j, cornerTrit (c.1.corners j))
      left_inv := fun x => by
        obtain ⟨⟨c, h1, h2⟩, t⟩ := x
        have h3 : ∑ j, cornerTrit ((twistLast t c).corners j) = t := by rw [twistLast_trits, h2, zero_add]
        refine Prod.ext (Subtype.ext ?_) h3
        show twistLast (-∑ j, cornerTrit ((twistLast t c).corners j)) (twistLast t c) = c
        rw [h3, twistLast_twistLast, add_neg_cancel, twistLast_zero]
      right_inv := fun c => Subtype.ext (by
        show twistLast _ (twistLast _ c.1) = c.1
        rw [twistLast_twistLast, neg_add_cancel, twistLast_zero]) }
  have h := C16_one_in_twelve
  rw [← Nat.card_congr e2, Nat.card_prod, ← Nat.card_congr e1, C16_number_of_states, Nat.card_zmod] at h
  omega

/-- **C88** Each of the three numbers alone is contiguous: each number below the size of its table belongs to a cube that can be
reached (and no other number does). -/
theorem C88_contiguous (r : Nat) :
    ((∃ c : Cube3, c.Reachable ∧ ∃ i, c.indices? = some i ∧ i.corners = r) ↔ r < 88179840) ∧
    ((∃ c : Cube3, c.Reachable ∧ ∃ i, c.indices? = some i ∧ i.edges0 = r) ↔ r < 42577920) ∧
    ((∃ c : Cube3, c.Reachable ∧ ∃ i, c.indices? = some i ∧ i.edges1 = r) ↔ r < 42577920) := by
  have t1 : Deindexable.TOTAL_SET_SIZE CornersMUS = 88179840 := by rw [total_corners]
  have t2 : Deindexable.TOTAL_SET_SIZE HalfEdgesMUS = 42577920 := by rw [total_edges]
  have lt : ∀ (c : Cube3) (i : CubeIndices), c.Reachable → c.indices? = some i →
      i.corners < 88179840 ∧ i.edges0 < 42577920 ∧ i.edges1 < 42577920 := by
    intro c i hc hi
    obtain ⟨j, h1, h2⟩ := (C22_reachable c c hc hc).1
    rw [hi] at h1
    cases h1
    obtain ⟨h3, h4, h5, _⟩ := (C88_domain i).1 ⟨c, h2⟩
    exact ⟨h3, h4, h5⟩
  have ex : ∀ c : Cube3, c.Reachable → ∃ i, c.indices? = some i ∧ Deindexable.index? (T := CornersMUS) c.corners = some i.corners ∧
      Deindexable.index? (firstEdges c) = some i.edges0 ∧
      Deindexable.index? (adjustSecondEdges (secondEdges c)) = some i.edges1 := by
    intro c hc
    obtain ⟨i, h1, _⟩ := (C22_reachable c c hc hc).1
    refine ⟨i, h1, ?_⟩
    unfold Cube3.indices? at h1
    rcases hk : Deindexable.index? (T := CornersMUS) c.corners with _ | k
    · rw [hk] at h1; cases h1
    rcases he : Deindexable.index? (firstEdges c) with _ | e
    · rw [hk, he] at h1; cases h1
    rcases hf : Deindexable.index? (adjustSecondEdges (secondEdges c)) with _ | f
    · rw [hk, he, hf] at h1; cases h1
    rw [hk, he, hf] at h1
    cases h1
    exact ⟨rfl, rfl, rfl⟩
  refine ⟨⟨?_, fun h => ?_⟩, ⟨?_, fun h => ?_⟩, ?_, fun h => ?_⟩
  · rintro ⟨c, hc, i, hi, rfl⟩; exact (lt c i hc hi).1
  · obtain ⟨s, _, s2, s3⟩ := corners_unindex (t1 ▸ h)
    obtain ⟨c, c1, c2⟩ := corners_extend s2
    have hc := (C15_reachable_iff c).1.2 c1
    obtain ⟨i, h1, h2, _⟩ := ex c hc
    rw [c2, s3] at h2
    exact ⟨c, hc, i, h1, (Option.some.inj h2).symm⟩
  · rintro ⟨c, hc, i, hi, rfl⟩; exact (lt c i hc hi).2.1
  · obtain ⟨s, _, s2, s3⟩ := halfEdges_unindex (t2 ▸ h)
    obtain ⟨c, c1, c2⟩ := halfEdges_extend s2
    have hc := (C15_reachable_iff c).1.2 c1
    obtain ⟨i, h1, _, h2, _⟩ := ex c hc
    rw [c2, s3] at h2
    exact ⟨c, hc, i, h1, (Option.some.inj h2).symm⟩
  · rintro ⟨c, hc, i, hi, rfl⟩; exact (lt c i hc hi).2.2
  · obtain ⟨s, _, s2, s3⟩ := halfEdges_unindex (t2 ▸ h)
    obtain ⟨c, c1, c2⟩ := halfEdges_extend s2
    obtain ⟨w, hw⟩ := (C15_reachable_iff c).1.2 c1
    have hd : (movedAlg Cube3.SOLVED (algRotated w ⟨.X, .double⟩)).Reachable := ⟨_, rfl⟩
    obtain ⟨i, h1, _, _, h2⟩ := ex _ hd
    have h3 : adjustSecondEdges (firstEdges c) = secondEdges (movedAlg Cube3.SOLVED (algRotated w ⟨.X, .double⟩)) := by
      rw [← hw, alg_firstEdges, adjust_alg, ← adjust_solved, adjust_adjust, alg_secondEdges]
    rw [← h3, adjust_adjust, c2, s3] at h2
    exact ⟨_, hd, i, h1, (Option.some.inj h2).symm⟩

/-- some cube that can be reached has the corner number 12345678 -/
example : ∃ c : Cube3, c.Reachable ∧ ∃ i, c.indices? = some i ∧ i.corners = 12345678 := (C88_contiguous 12345678).1.2 (by decide)

/-- **C88** The three together are neither unique on valid cubes nor contiguous, as the documentation of `indices` says: a cube
with one twisted corner has the indices of the solved cube, and although 64 is a number of six edges, no cube has the indices
0, 0, 64. -/
theorem C88_not_unique_not_contiguous :
    (∃ c : Cube3, c.valid ∧ c ≠ Cube3.SOLVED ∧ c.indices? = Cube3.SOLVED.indices?) ∧
    Cube3.fromIndices? ⟨0, 0, 64⟩ = none ∧ ∀ c : Cube3, c.valid → c.indices? ≠ some ⟨0, 0, 64⟩ := by
  have hs : Cube3.SOLVED.valid := by unfold Cube3.valid; decide +kernel
  have hn : Cube3.fromIndices? ⟨0, 0, 64⟩ = none := by decide +kernel
  refine ⟨⟨twistLast 1 Cube3.SOLVED, (twistLast_valid _ _).2 hs, by decide +kernel, ?_⟩, hn, fun c hc h => ?_⟩
  · exact (C88_same_indices _ _ ((twistLast_valid _ _).2 hs) hs).2 (twistLast_same _ _)
  · have hv := (twistLast_valid (-∑ i, cornerTrit (c.corners i)) c).2 hc
    have := (C88_same_indices _ _ hv hc).2 (twistLast_same _ _)
    rw [h] at this
    have := (C88_from_indices_iff _ _).2 ⟨hv, (twists_iff _).2 (by rw [twistLast_trits, add_neg_cancel]), this⟩
    rw [hn] at this
    cases this

/-- a cube that is not reachable but is rebuilt from its numbers, and one triple of numbers of a cube that is -/
example : Cube3.fromIndices? ⟨0, 1, 0⟩ ≠ none ∧ Cube3.fromIndices? ⟨23633535, 390656, 0⟩ =
    some (movedAlg Cube3.SOLVED Perms.SEXY_MOVE) := by decide +kernel

/-! ## C89 -/

/-- **C89** `factorial` is the factorial as long as that fits into 64 bits, and 0 exactly if it does not. -/
theorem C89_factorial (n : Nat) :
    mus.factorial n = (if n.factorial < 2 ^ 64 then n.factorial else 0) ∧ (mus.factorial n = 0 ↔ 20 < n) := by
  have small : ∀ n, n ≤ 20 → mus.factorial n = n.factorial := by
    intro n
    induction n with
    | zero => intro _; rfl
    | succ n ih =>
      intro h
      rcases n with _ | n
      · rfl
      · rw [mus.factorial, if_pos h, ih (by omega), Nat.factorial_succ (n + 1), Nat.mul_comm]
  have large : ∀ n, 20 < n → mus.factorial n = 0 := by
    intro n h
    obtain ⟨k, rfl⟩ : ∃ k, n = k + 2 := ⟨n - 2, by omega⟩
    rw [mus.factorial, if_neg (by omega)]
  by_cases h : n ≤ 20
  · have hlt : n.factorial < 2 ^ 64 := lt_of_le_of_lt (Nat.factorial_le h) (by decide +kernel)
    rw [if_pos hlt, small n h]
    refine ⟨rfl, ?_⟩
    have := Nat.factorial_pos n
    omega
  · have hge : ¬ n.factorial < 2 ^ 64 := not_lt.2 (le_trans (by decide +kernel) (Nat.factorial_le (show 21 ≤ n by omega)))
    rw [if_neg hge, large n (by omega)]
    exact ⟨rfl, by omega⟩

/-- twenty fits in 64 bits, 21 does not -/
example : mus.factorial 20 = 2432902008176640000 ∧ mus.factorial 21 = 0 := by
  refine ⟨?_, (C89_factorial 21).2.2 (by decide)⟩
  rw [(C89_factorial 20).1]
  decide +kernel

theorem card_of_numbers {T : Type} {Good : T → Prop} {n : Nat} {f : Nat → Option T} {g : T → Option Nat}
    (h1 : ∀ r < n, ∃ s, f r = some s ∧ Good s ∧ g s = some r) (h2 : ∀ s, Good s → ∃ r, g s = some r ∧ r < n ∧ f r = some s) :
    Nat.card { s : T // Good s } = n := by
  choose F F1 F2 F3 using h1
  have hF : Function.Bijective (fun r : Fin n => (⟨F r.1 r.2, F2 r.1 r.2⟩ : { s : T // Good s })) := by
    constructor
    · intro r r' h
      have h3 := F3 r.1 r.2
      rw [show F r.1 r.2 = F r'.1 r'.2 from congrArg Subtype.val h, F3] at h3
      exact Fin.ext (Option.some.inj h3).symm
    · rintro ⟨s, hs⟩
      obtain ⟨r, _, g2, g3⟩ := h2 s hs
      exact ⟨⟨r, g2⟩, Subtype.ext (Option.some.inj ((F1 r g2).symm.trans g3))⟩
  rw [← Nat.card_congr (Equiv.ofBijective _ hF), Nat.card_fin]

/-- **C89** The constants of the code are the true numbers of arrangements: of eight corners in different places with twists that
add up to a multiple of three, and of six edges in different places. -/
theorem C89_sizes :
    Deindexable.TOTAL_SET_SIZE CornersMUS = Nat.card { s : CornersMUS //
      (∀ i j, (s i).position = (s j).position → i = j) ∧ 3 ∣ ∑ i, (s i).orientationIndex } ∧
    Deindexable.TOTAL_SET_SIZE HalfEdgesMUS = Nat.card { s : HalfEdgesMUS //
      ∀ i j, (s i).position = (s j).position → i = j } := by
  constructor
  · rw [← card_of_numbers (Good := CornersGood) (fun r hr => corners_unindex hr) (fun s hs => corners_index_good hs)]
    exact Nat.card_congr (Equiv.subtypeEquivRight fun s =>
      and_congr ⟨fun h i j e => h e, fun h i j e => h i j e⟩ Iff.rfl)
  · rw [← card_of_numbers (Good := Apart) (fun r hr => halfEdges_unindex hr) (fun s hs => halfEdges_index hs)]
    exact Nat.card_congr (Equiv.subtypeEquivRight fun s => ⟨fun h i j e => h e, fun h i j e => h i j e⟩)

/-- **C89** An x2 rotation takes the home of edge `n` to the home of edge `n + 6` and back, so the six edges of the second half are
numbered like the six edges of the first half of the cube that is turned over: the number is 0 exactly if they are at home. -/
theorem C89_second_half :
    (∀ i : Fin 6, rotated (Cube3.SOLVED.edges ⟨i.val, by omega⟩) (⟨.X, .double⟩ : AxisRotation) = Cube3.SOLVED.edges ⟨i.val + 6, by omega⟩ ∧
      rotated (Cube3.SOLVED.edges ⟨i.val + 6, by omega⟩) (⟨.X, .double⟩ : AxisRotation) = Cube3.SOLVED.edges ⟨i.val, by omega⟩) ∧
    ∀ (c : Cube3) (i : CubeIndices), c.valid → c.indices? = some i →
      (i.edges1 = 0 ↔ ∀ j : Fin 12, 6 ≤ j.val → c.edges j = Cube3.SOLVED.edges j) ∧
      (i.edges0 = 0 ↔ ∀ j : Fin 12, j.val < 6 → c.edges j = Cube3.SOLVED.edges j) := by
  refine ⟨by decide +kernel, fun c i hc hi => ?_⟩
  obtain ⟨hv1, hv2⟩ := (valid_iff c).1 hc
  obtain ⟨k, k1, _, _⟩ := corners_index (s := c.corners) hv2
  obtain ⟨e, e1, _, e3⟩ := halfEdges_index (apart_first hv1)
  obtain ⟨f, f1, _, f3⟩ := halfEdges_index (apart_second hv1).adjust
  have : c.indices? = some ⟨k, e, f⟩ := by
    unfold Cube3.indices?
    rw [k1, e1, f1]
  rw [hi] at this
  cases this
  constructor
  · show f = 0 ↔ _
    constructor
    · rintro rfl
      have h : firstEdges Cube3.SOLVED = adjustSecondEdges (secondEdges c) := Option.some.inj (C21_zero.2.symm.trans f3)
      replace h := congrArg adjustSecondEdges h
      rw [adjust_adjust, ← adjust_solved, adjust_adjust] at h
      intro j hj
      have := congrFun h ⟨j.val - 6, by omega⟩
      unfold secondEdges at this
      rw [show j = ⟨j.val - 6 + 6, by omega⟩ from Fin.ext (by simp only; omega)]
      exact this.symm
    · intro h
      have hs : secondEdges c = secondEdges Cube3.SOLVED := funext fun j => h _ (by simp)
      rw [hs, adjust_solved, halfEdges_solved_index] at f1
      exact (Option.some.inj f1).symm
  · show e = 0 ↔ _
    constructor
    · rintro rfl
      rw [C21_zero.2] at e3
      intro j hj
      exact (congrFun (Option.some.inj e3) ⟨j.val, hj⟩).symm
    · intro h
      have hs : firstEdges c = firstEdges Cube3.SOLVED := funext fun j => h _ j.isLt
      rw [hs, halfEdges_solved_index] at e1
      exact (Option.some.inj e1).symm

/-- `R U R' U'` moves none of the edges 6 to 11 -/
example : ∀ j : Fin 12, 6 ≤ j.val → (movedAlg Cube3.SOLVED Perms.SEXY_MOVE).edges j = Cube3.SOLVED.edges j :=
  (C89_second_half.2 _ ⟨23633535, 390656, 0⟩ (C08_cubes.2.1 Cube3.SOLVED Perms.SEXY_MOVE C08_solved_valid.2.1)
    (by decide +kernel)).1.1 rfl

/-- **C89** The example in the documentation of the function that prepares the second half is wrong: edge 6 is not between B and R
but between D and B, and `U2 B` would bring neither of these to edge 0, which is (as it says) between U and F. -/
theorem C89_doc_example :
    (Cube3.SOLVED.edges 0).faces = (Face.U, Face.F) ∧ (Cube3.SOLVED.edges 6).faces = (Face.D, Face.B) ∧
    ∀ e : Edge, e.faces = (Face.B, Face.R) ∨ e.faces = (Face.R, Face.B) ∨ e = Cube3.SOLVED.edges 6 →
      movedAlg e [(⟨Face.U, .double⟩ : AxisMove), ⟨Face.B, .single⟩] ≠ Cube3.SOLVED.edges 0 ∧
      movedAlg e [(⟨Face.U, .double⟩ : AxisMove), ⟨Face.B, .single⟩] ≠ (Cube3.SOLVED.edges 0).flip := by
  decide +kernel

/-! ## C90 -/

theorem MinTurns.eq {T : Type} [Movable T AxisMove] {a b : T} {d e : Nat} (h1 : MinTurns a b d) (h2 : MinTurns a b e) : d = e := by
  obtain ⟨⟨v, v1, v2⟩, v3⟩ := h1
  obtain ⟨⟨w, w1, w2⟩, w3⟩ := h2
  have := v3 w w2
  have := w3 v v2
  omega

theorem MinTurns.step {T : Type} [Movable T AxisMove] (hu : ∀ (s : T) (m : AxisMove), moved (moved s m) (Move.inverse m) = s)
    {a b : T} (m : AxisMove) {d e : Nat} (h1 : MinTurns a b d) (h2 : MinTurns (moved a m) b e) : d ≤ e + 1 ∧ e ≤ d + 1 := by
  obtain ⟨⟨v, v1, v2⟩, v3⟩ := h1
  obtain ⟨⟨w, w1, w2⟩, w3⟩ := h2
  have g1 := v3 (m :: w) w2
  have g2 := w3 (Move.inverse m :: v) (by
    show movedAlg (moved (moved a m) (Move.inverse m)) v = b
    rw [hu, v2])
  simp only [List.length_cons] at g1 g2
  omega

theorem MinTurns.zero {T : Type} [Movable T AxisMove] {a b : T} {d : Nat} (h : MinTurns a b d) : d = 0 ↔ a = b := by
  obtain ⟨⟨v, v1, v2⟩, v3⟩ := h
  constructor
  · rintro rfl
    rw [List.length_eq_zero_iff] at v1
    rw [v1] at v2
    exact v2
  · intro e
    exact Nat.le_zero.1 (v3 [] e)

theorem corner_position_moved : ∀ (c d : Corner) (m : AxisMove), c.position = d.position →
    (moved c m).position = (moved d m).position := by decide +kernel

/-- turning a layer does not make two cubes distinguishable -/
theorem sameButLastTwist_moved {c d : Cube3} (h : c.SameButLastTwist d) (m : AxisMove) :
    (moved c m).SameButLastTwist (moved d m) :=
  ⟨funext fun i => congrArg (fun e : Edge => moved e m) (congrFun h.edges i),
    fun i hi => congrArg (fun e : Corner => moved e m) (h.corners i hi), corner_position_moved _ _ m h.last⟩

theorem valid_moved {c : Cube3} (h : c.valid) (m : AxisMove) : (moved c m).valid := by
  obtain ⟨h1, h2⟩ := (valid_iff c).1 h
  exact (valid_iff _).2 ⟨fun i j hij => h1 (edge_pos_inj m _ _ hij), fun i j hij => h2 (corner_pos_inj m _ _ hij)⟩

theorem corner_x2 : ∀ (c : Corner) (m : AxisMove), rotated (moved c m) (⟨.X, .double⟩ : AxisRotation) =
    moved (rotated c (⟨.X, .double⟩ : AxisRotation)) (rotated m (⟨.X, .double⟩ : AxisRotation)) := by decide +kernel

theorem corner_x2_alg (w : List AxisMove) : ∀ c : Corner, rotated (movedAlg c w) (⟨.X, .double⟩ : AxisRotation) =
    movedAlg (rotated c (⟨.X, .double⟩ : AxisRotation)) (algRotated w ⟨.X, .double⟩) := by
  induction w with
  | nil => intro c; rfl
  | cons m w ih =>
    intro c
    show rotated (movedAlg (moved c m) w) (⟨.X, .double⟩ : AxisRotation) =
      movedAlg (moved (rotated c (⟨.X, .double⟩ : AxisRotation)) (m.rotated ⟨.X, .double⟩)) (algRotated w ⟨.X, .double⟩)
    rw [ih]
    congr 1
    exact corner_x2 c m

theorem solved_corner_x2 : ∀ i : Fin 8, ∃ j : Fin 8,
    Cube3.SOLVED.corners i = rotated (Cube3.SOLVED.corners j) (⟨.X, .double⟩ : AxisRotation) := by decide +kernel

theorem algRotated_x2_x2 (w : List AxisMove) : algRotated (algRotated w ⟨.X, .double⟩) ⟨.X, .double⟩ = w := by
  have : ∀ m : AxisMove, (m.rotated ⟨.X, .double⟩).rotated ⟨.X, .double⟩ = m := by decide +kernel
  simp [algRotated, Function.comp_def, this]

theorem algRotated_append (v w : List AxisMove) (r : AxisRotation) : algRotated (v ++ w) r = algRotated v r ++ algRotated w r := by
  simp [algRotated]

/-- an alg that brings all corners home does so when turned over -/
theorem corners_home_x2 {u : List AxisMove} (h : movedAlg (C := CornersMUS) Cube3.SOLVED.corners u = Cube3.SOLVED.corners) :
    movedAlg (C := CornersMUS) Cube3.SOLVED.corners (algRotated u ⟨.X, .double⟩) = Cube3.SOLVED.corners := by
  funext i
  rw [corners_alg]
  obtain ⟨j, hj⟩ := solved_corner_x2 i
  rw [hj, ← corner_x2_alg, ← corners_alg, h]

theorem corners_x2 {w : List AxisMove} {d : Nat}
    (h : MinTurns (movedAlg (C := CornersMUS) Cube3.SOLVED.corners w) (Cube3.SOLVED.corners : CornersMUS) d) :
    MinTurns (movedAlg (C := CornersMUS) Cube3.SOLVED.corners (algRotated w ⟨.X, .double⟩)) (Cube3.SOLVED.corners : CornersMUS) d := by
  obtain ⟨⟨v, v1, v2⟩, v3⟩ := h
  have app : ∀ a b : List AxisMove, movedAlg (movedAlg (C := CornersMUS) Cube3.SOLVED.corners a) b =
      movedAlg (C := CornersMUS) Cube3.SOLVED.corners (a ++ b) := fun a b => by simp [movedAlg]
  rw [app] at v2
  refine ⟨⟨algRotated v ⟨.X, .double⟩, by simp [algRotated, v1], ?_⟩, fun x hx => ?_⟩
  · rw [app, ← algRotated_append]
    exact corners_home_x2 v2
  · rw [app] at hx
    have := corners_home_x2 hx
    rw [algRotated_append, algRotated_x2_x2, ← app] at this
    have := v3 _ this
    simpa [algRotated] using this

section
variable {edges corners : List Nat} (he : buildTable? HalfEdgesMUS = some edges) (hk : buildTable? CornersMUS = some corners)

omit he hk in
/-- **C90** The heuristic does not see how corner 7 is twisted, so it takes a valid cube with an impossible twist for the cube
with that corner put right. -/
theorem C90_last_twist (cache : Cache) (c d : Cube3) (hc : c.valid) (hd : d.valid) (h : c.SameButLastTwist d) :
    mus? cache c = mus? cache d := by
  unfold mus? Cache.get?
  rw [(C88_same_indices c d hc hd).2 h]

/-- the cache cannot see the twist of the last corner -/
example (cache : Cache) : mus? cache (twistLast 2 Cube3.SOLVED) = mus? cache Cube3.SOLVED :=
  C90_last_twist cache _ _ ((twistLast_valid _ _).2 C08_solved_valid.2.1) C08_solved_valid.2.1 (twistLast_same _ _)

/-- `C88_same_indices`: the last corner twisted: other cube, same numbers -/
example : (twistLast 1 Cube3.SOLVED).indices? = Cube3.SOLVED.indices? :=
  (C88_same_indices _ _ ((twistLast_valid _ _).2 C08_solved_valid.2.1) C08_solved_valid.2.1).2 (twistLast_same _ _)

include he hk

/-- every valid cube: the value is the greatest of the three exact distances of the cube with corner 7 put right -/
theorem mus_valid (c : Cube3) (hc : c.valid) : ∃ (d : Cube3) (k e0 e1 : Nat), c.SameButLastTwist d ∧ d.valid ∧
    3 ∣ ∑ i, (d.corners i).orientationIndex ∧ mus? ⟨edges, corners⟩ c = some ((max k (max e0 e1) : Nat) : ℚ) ∧
    MinTurns (T := CornersMUS) d.corners Cube3.SOLVED.corners k ∧
    MinTurns (firstEdges d) (firstEdges Cube3.SOLVED) e0 ∧ MinTurns (secondEdges d) (secondEdges Cube3.SOLVED) e1 := by
  have h := twistLast_same (-∑ i, cornerTrit (c.corners i)) c
  have hv := (twistLast_valid (-∑ i, cornerTrit (c.corners i)) c).2 hc
  have ht : 3 ∣ ∑ i, ((twistLast (-∑ i, cornerTrit (c.corners i)) c).corners i).orientationIndex :=
    (twists_iff _).2 (by rw [twistLast_trits, add_neg_cancel])
  obtain ⟨k, e0, e1, h1, h2, h3, h4, _⟩ := C25_exact he hk _ hv ht
  exact ⟨_, k, e0, e1, ⟨h.edges.symm, fun i hi => (h.corners i hi).symm, h.last.symm⟩, hv, ht,
    (C90_last_twist _ _ _ hv hc h) ▸ h1, h2, h3, h4⟩

/-- **C90** One move changes the heuristic by at most one, on every valid cube (solvable or not). -/
theorem C90_one_move (c : Cube3) (hc : c.valid) (m : AxisMove) : ∃ x y : Nat,
    mus? ⟨edges, corners⟩ c = some (x : ℚ) ∧ mus? ⟨edges, corners⟩ (moved c m) = some (y : ℚ) ∧ x ≤ y + 1 ∧ y ≤ x + 1 := by
  obtain ⟨d, k, e0, e1, d1, d2, d3, d4, d5, d6, d7⟩ := mus_valid he hk c hc
  obtain ⟨k', e0', e1', g1, g2, g3, g4, _⟩ := C25_exact he hk (moved d m) (valid_moved d2 m)
    (cornersGood_moved d.corners m ⟨((valid_iff d).1 d2).2, d3⟩).2
  refine ⟨_, _, d4, (C90_last_twist _ _ _ (valid_moved hc m) (valid_moved d2 m) (sameButLastTwist_moved d1 m)).trans g1, ?_⟩
  have q1 := d5.step cornersMUS_undo m g2
  have q2 := d6.step halfEdges_undo m g3
  have q3 := d7.step halfEdges_undo m g4
  omega

include he hk in
/-- one move from the solved cube: 0 and at most 1 -/
example (m : AxisMove) : ∃ y : Nat, mus? ⟨edges, corners⟩ (moved Cube3.SOLVED m) = some (y : ℚ) ∧ y ≤ 1 := by
  obtain ⟨x, y, h1, h2, h3, h4⟩ := C90_one_move he hk Cube3.SOLVED C08_solved_valid.2.1 m
  refine ⟨y, h2, ?_⟩
  obtain ⟨z, hz, hz0, hz1⟩ := (C25_admissible he hk Cube3.SOLVED [] rfl).1
  rw [h1] at hz
  cases hz
  have : x = 0 := by
    have : (x : ℚ) ≤ 0 := by simpa using hz1
    exact_mod_cast le_antisymm this (Nat.cast_nonneg x)
  omega

/-- **C90** So an alg changes it by at most its length: the values of two cubes differ by at most the number of moves between
them. -/
theorem C90_alg (c : Cube3) (hc : c.valid) (alg : List AxisMove) : ∃ x y : Nat,
    mus? ⟨edges, corners⟩ c = some (x : ℚ) ∧ mus? ⟨edges, corners⟩ (movedAlg c alg) = some (y : ℚ) ∧
      x ≤ y + alg.length ∧ y ≤ x + alg.length := by
  induction alg generalizing c with
  | nil =>
    obtain ⟨x, _, h, _⟩ := C90_one_move he hk c hc ⟨Face.R, .single⟩
    exact ⟨x, x, h, h, by simp, by simp⟩
  | cons m w ih =>
    obtain ⟨x, y, h1, h2, h3, h4⟩ := C90_one_move he hk c hc m
    obtain ⟨y', z, g1, g2, g3, g4⟩ := ih (moved c m) (valid_moved hc m)
    rw [h2] at g1
    have : y = y' := by exact_mod_cast Option.some.inj g1
    subst this
    refine ⟨x, z, h1, g2, ?_, ?_⟩ <;> simp only [List.length_cons] <;> omega

include he hk in
/-- a flipped edge and the sexy move -/
example : ∃ x y : Nat, mus? ⟨edges, corners⟩ oneFlip = some (x : ℚ) ∧
    mus? ⟨edges, corners⟩ (movedAlg oneFlip Perms.SEXY_MOVE) = some (y : ℚ) ∧ x ≤ y + 4 ∧ y ≤ x + 4 :=
  C90_alg he hk oneFlip (by unfold Cube3.valid; decide +kernel) Perms.SEXY_MOVE

/-- **C90** On valid cubes the heuristic is 0 only for the solved cube and for the solved cube with corner 7 twisted; among the
cubes that can be solved only for the solved one. -/
theorem C90_zero (c : Cube3) (hc : c.valid) :
    (mus? ⟨edges, corners⟩ c = some 0 ↔ c.SameButLastTwist Cube3.SOLVED) ∧
    (c.Solvable → (mus? ⟨edges, corners⟩ c = some 0 ↔ c = Cube3.SOLVED)) := by
  have first : mus? ⟨edges, corners⟩ c = some 0 ↔ c.SameButLastTwist Cube3.SOLVED := by
    obtain ⟨d, k, e0, e1, d1, d2, d3, d4, d5, d6, d7⟩ := mus_valid he hk c hc
    constructor
    · intro h
      rw [d4] at h
      have h' : max k (max e0 e1) = 0 := by exact_mod_cast Option.some.inj h
      have hd : d = Cube3.SOLVED := by
        refine Cube3.ext ?_ (d5.zero.1 (by omega))
        rw [← concat_partition d, ← concat_partition Cube3.SOLVED, d6.zero.1 (by omega), d7.zero.1 (by omega)]
      rw [← hd]
      exact d1
    · intro h
      have hs : Cube3.SOLVED.valid := by unfold Cube3.valid; decide +kernel
      rw [C90_last_twist _ _ _ hc hs h]
      exact (C25_admissible he hk Cube3.SOLVED [] rfl).2
  refine ⟨first, fun hs => first.trans ⟨fun h => ?_, fun h => by rw [h]; exact ⟨rfl, fun _ _ => rfl, rfl⟩⟩⟩
  have hr := (reachable_solvable c).2 hs
  have hs : Cube3.SOLVED.valid := by unfold Cube3.valid; decide +kernel
  exact (C22_reachable c Cube3.SOLVED hr ⟨[], rfl⟩).2 ((C88_same_indices c _ hc hs).2 h)

include he hk in
/-- the last corner twisted: 0 though not solved; the cube after `R`: not 0 -/
example : mus? ⟨edges, corners⟩ (twistLast 1 Cube3.SOLVED) = some 0 ∧
    mus? ⟨edges, corners⟩ (moved Cube3.SOLVED (⟨Face.R, .single⟩ : AxisMove)) ≠ some 0 := by
  refine ⟨(C90_zero he hk _ ((twistLast_valid _ _).2 C08_solved_valid.2.1)).1.2 (twistLast_same _ _), fun h => ?_⟩
  have := ((C90_zero he hk _ (C08_cubes.2.1 Cube3.SOLVED [⟨Face.R, .single⟩] C08_solved_valid.2.1)).2
    ⟨[⟨Face.R, .inverse⟩], by decide +kernel⟩).1 h
  exact absurd this (by decide +kernel)

/-- **C90** The heuristic gives the same value for a scramble and for the same scramble done with the cube turned over (x2). -/
theorem C90_turned_over (w : List AxisMove) :
    mus? ⟨edges, corners⟩ (movedAlg Cube3.SOLVED (algRotated w ⟨.X, .double⟩)) =
      mus? ⟨edges, corners⟩ (movedAlg Cube3.SOLVED w) := by
  have hl : ∀ w, (movedAlg Cube3.SOLVED w).Lawful := fun w => (C15_reachable_iff _).1.1 ⟨w, rfl⟩
  have ex := fun w => C25_exact he hk (movedAlg Cube3.SOLVED w) ((valid_iff _).2 ⟨(hl w).edges_valid, (hl w).corners_valid⟩) (hl w).twists
  obtain ⟨k, e0, e1, h1, h2, h3, h4, _⟩ := ex w
  obtain ⟨k', e0', e1', h1', h2', h3', h4', _⟩ := ex (algRotated w ⟨.X, .double⟩)
  rw [alg_corners] at h2 h2'
  rw [alg_firstEdges] at h3 h3'
  rw [alg_secondEdges] at h4 h4'
  have q1 := (corners_x2 h2).eq h2'
  have as : adjustSecondEdges (firstEdges Cube3.SOLVED) = secondEdges Cube3.SOLVED := by rw [← adjust_solved, adjust_adjust]
  have r3 := h3.adjust
  rw [adjust_alg, as] at r3
  have q2 := r3.eq h4'
  have r4 := h4.adjust
  rw [adjust_alg, adjust_solved] at r4
  have q3 := r4.eq h3'
  rw [h1, h1', ← q1, ← q2, ← q3, max_comm e0 e1]

end

/-- a valid cube that cannot be solved and differs from the solved one by the twist of corner 7 only -/
example : (twistLast 1 Cube3.SOLVED).valid ∧ (twistLast 1 Cube3.SOLVED).SameButLastTwist Cube3.SOLVED ∧
    twistLast 1 Cube3.SOLVED ≠ Cube3.SOLVED ∧ ¬ (twistLast 1 Cube3.SOLVED).Solvable :=
  ⟨(twistLast_valid _ _).2 (by unfold Cube3.valid; decide +kernel), twistLast_same _ _, by decide +kernel, fun h =>
    absurd ((C15_reachable_iff _).2.1.1 h).twists (by decide +kernel)⟩

/-- a scramble and the scramble turned over lead to different cubes -/
example : movedAlg Cube3.SOLVED (algRotated Perms.SEXY_MOVE ⟨.X, .double⟩) ≠ movedAlg Cube3.SOLVED Perms.SEXY_MOVE := by
  decide +kernel

end Barbarosa
