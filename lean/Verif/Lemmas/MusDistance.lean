import Verif.Lemmas.Phases
import Verif.Lemmas.PartStages
import Verif.Lemmas.TwoSolve
import Verif.Lemmas.Mus
import Verif.Lemmas.Table
import Verif.Lemmas.Heuristics
import Mathlib.Data.Fintype.Sum

/-!
# Distances of corner and half edge arrangements
-/

namespace Barbarosa

open Equiv

/-! ## Algs on arrays of pieces -/

theorem corners_alg (s : CornersMUS) (w : List AxisMove) (i : Fin 8) : movedAlg s w i = movedAlg (s i) w := by
  induction w generalizing s with
  | nil => rfl
  | cons m w ih => exact ih (moved s m)

theorem halfEdges_alg (s : HalfEdgesMUS) (w : List AxisMove) (i : Fin 6) : movedAlg s w i = movedAlg (s i) w := by
  induction w generalizing s with
  | nil => rfl
  | cons m w ih => exact ih (moved s m)

theorem alg_corners (c : Cube3) (w : List AxisMove) : (movedAlg c w).corners = movedAlg (C := CornersMUS) c.corners w := by
  funext i
  rw [cube3_corners_alg]
  exact (corners_alg c.corners w i).symm

theorem alg_firstEdges (c : Cube3) (w : List AxisMove) : firstEdges (movedAlg c w) = movedAlg (firstEdges c) w := by
  funext i
  rw [halfEdges_alg]
  exact cube3_edges_alg c w _

theorem alg_secondEdges (c : Cube3) (w : List AxisMove) : secondEdges (movedAlg c w) = movedAlg (secondEdges c) w := by
  funext i
  rw [halfEdges_alg]
  exact cube3_edges_alg c w _

theorem edge_undo : ∀ (e : Edge) (m : AxisMove), moved (moved e m) (Move.inverse m) = e := by decide +kernel
theorem corner_undo : ∀ (c : Corner) (m : AxisMove), moved (moved c m) (Move.inverse m) = c := by decide +kernel
theorem axisMove_inverse_inverse : ∀ m : AxisMove, Move.inverse (Move.inverse m) = m := by decide +kernel

theorem alg_undo {T : Type} [Movable T AxisMove] (h : ∀ (s : T) (m : AxisMove), moved (moved s m) (Move.inverse m) = s)
    (w : List AxisMove) : ∀ s : T, movedAlg (movedAlg s w) (reversed w) = s := by
  induction w with
  | nil => intro s; rfl
  | cons m w ih =>
    intro s
    have e : reversed (m :: w) = reversed w ++ [Move.inverse m] := by simp [reversed]
    rw [e, alg_append]
    show movedAlg (movedAlg (movedAlg (moved s m) w) (reversed w)) [Move.inverse m] = s
    rw [ih]
    exact h s m

theorem halfEdges_undo (s : HalfEdgesMUS) (m : AxisMove) : moved (moved s m) (Move.inverse m) = s :=
  funext fun i => edge_undo (s i) m

theorem cornersMUS_undo (s : CornersMUS) (m : AxisMove) : moved (moved s m) (Move.inverse m) = s :=
  funext fun i => corner_undo (s i) m

theorem reversed_reversed_axis (w : List AxisMove) : reversed (reversed w) = w := by
  have : reversed (reversed w) = w.map fun m => Move.inverse (Move.inverse m) := by
    simp [reversed, Function.comp_def]
  rw [this]
  simp [axisMove_inverse_inverse]

theorem MinTurns.symm {T : Type} [Movable T AxisMove] (h : ∀ (s : T) (m : AxisMove), moved (moved s m) (Move.inverse m) = s)
    {a b : T} {d : Nat} (hd : MinTurns a b d) : MinTurns b a d := by
  obtain ⟨⟨w, hw1, hw2⟩, hmin⟩ := hd
  refine ⟨⟨reversed w, by simp [reversed, hw1], ?_⟩, fun v hv => ?_⟩
  · rw [← hw2]; exact alg_undo h w a
  · have := hmin (reversed v) (by rw [← hv]; exact alg_undo h v b)
    simpa [reversed] using this

/-! ## Turning the whole cube over -/

theorem edge_x2 : ∀ (e : Edge) (m : AxisMove), rotated (moved e m) ⟨.X, .double⟩ =
    moved (rotated e ⟨.X, .double⟩) (rotated m (⟨.X, .double⟩ : AxisRotation)) := by decide +kernel

theorem edge_x2_x2 : ∀ e : Edge, rotated (rotated e ⟨.X, .double⟩) ⟨.X, .double⟩ = e := by decide +kernel

theorem edge_x2_pos : ∀ e f : Edge, Piece.position (rotated e ⟨.X, .double⟩) = Piece.position (rotated f ⟨.X, .double⟩) →
    Piece.position e = Piece.position f := by decide +kernel

theorem adjust_adjust (s : HalfEdgesMUS) : adjustSecondEdges (adjustSecondEdges s) = s := funext fun i => edge_x2_x2 (s i)

theorem adjust_alg (w : List AxisMove) : ∀ s : HalfEdgesMUS, adjustSecondEdges (movedAlg s w) =
    movedAlg (adjustSecondEdges s) (algRotated w ⟨.X, .double⟩) := by
  induction w with
  | nil => intro s; rfl
  | cons m w ih =>
    intro s
    show adjustSecondEdges (movedAlg (moved s m) w) =
      movedAlg (moved (adjustSecondEdges s) (m.rotated ⟨.X, .double⟩)) (algRotated w ⟨.X, .double⟩)
    rw [ih]
    congr 1
    funext i
    exact edge_x2 (s i) m

theorem MinTurns.adjust {a b : HalfEdgesMUS} {d : Nat} (h : MinTurns a b d) :
    MinTurns (adjustSecondEdges a) (adjustSecondEdges b) d := by
  obtain ⟨⟨w, hw1, hw2⟩, hmin⟩ := h
  refine ⟨⟨algRotated w ⟨.X, .double⟩, by simp [algRotated, hw1], ?_⟩, fun v hv => ?_⟩
  · rw [← adjust_alg, hw2]
  · have := hmin (algRotated v ⟨.X, .double⟩) (by
      have := adjust_alg v (adjustSecondEdges a)
      rw [hv, adjust_adjust, adjust_adjust] at this
      exact this.symm)
    simpa [algRotated] using this

theorem adjust_solved : adjustSecondEdges (secondEdges Cube3.SOLVED) = firstEdges Cube3.SOLVED := by
  have h : ∀ i, adjustSecondEdges (secondEdges Cube3.SOLVED) i = firstEdges Cube3.SOLVED i := by decide +kernel
  exact funext h

theorem Apart.adjust {s : HalfEdgesMUS} (h : Apart s) : Apart (adjustSecondEdges s) := fun _ _ hij =>
  h (edge_x2_pos _ _ hij)

theorem apart_first {c : Cube3} (h : c.edges.Valid) : Apart (firstEdges c) := fun i j hij => by
  have := congrArg Fin.val (h hij)
  exact Fin.ext (by simpa using this)

theorem apart_second {c : Cube3} (h : c.edges.Valid) : Apart (secondEdges c) := fun i j hij => by
  have := congrArg Fin.val (h hij)
  exact Fin.ext (by simpa using this)

/-! ## Every arrangement is part of a solvable cube -/

theorem sign_swap01 {n : Nat} : Perm.sign (swap (0 : Fin (n + 2)) 1) = -1 := Perm.sign_swap (by simp)

theorem solved_edges_arranged : (PieceSet.SOLVED Edge : PieceSet Edge 12).Arranged 1 := fun i =>
  LawfulDescriptor.solved_pos (P := Edge) i

theorem solved_corners_arranged : (PieceSet.SOLVED Corner : PieceSet Corner 8).Arranged 1 := fun i =>
  LawfulDescriptor.solved_pos (P := Corner) i

theorem solved_bits : ∑ i, edgeBit (Cube3.SOLVED.edges i) = 0 := by decide +kernel
theorem solved_trits : ∑ i, cornerTrit (Cube3.SOLVED.corners i) = 0 := by decide +kernel

theorem corners_extend {s : CornersMUS} (h : CornersGood s) : ∃ c : Cube3, c.Lawful ∧ c.corners = s := by
  obtain ⟨τ, hτ⟩ := PieceSet.Valid.arranged (P := Corner) (n := 8) (s := s) h.1
  rcases units_cases (Perm.sign τ) 1 with e | e
  · refine ⟨⟨Cube3.SOLVED.edges, s⟩, ⟨⟨1, τ, solved_edges_arranged, hτ, by rw [e]; simp⟩, ?_, h.2⟩, rfl⟩
    exact (even_flips_iff _).2 solved_bits
  · refine ⟨⟨PieceSet.swapAt Cube3.SOLVED.edges 0 1, s⟩, ⟨⟨1 * swap 0 1, τ, swapAt_arranged solved_edges_arranged 0 1, hτ, ?_⟩,
      ?_, h.2⟩, rfl⟩
    · rw [e, one_mul]; exact sign_swap01
    · refine (even_flips_iff _).2 ?_
      show ∑ i, edgeBit (PieceSet.swapAt Cube3.SOLVED.edges 0 1 i) = 0
      rw [sum_swapAt]; exact solved_bits

/-- pieces in the slots after the sixth, at the places `σ`, the last one flipped if `b` -/
def extendEdges (s : HalfEdgesMUS) (σ : Perm (Fin 12)) (b : Bool) : PieceSet Edge 12 := fun i =>
  if h : i.val < 6 then s ⟨i.val, h⟩
  else if b && i == 11 then (Cube3.SOLVED.edges (σ i)).flip else Cube3.SOLVED.edges (σ i)

theorem flip_position : ∀ e : Edge, Piece.position e.flip = Piece.position e := by decide +kernel

theorem extendEdges_arranged {s : HalfEdgesMUS} {σ : Perm (Fin 12)}
    (h : ∀ i : Fin 6, Piece.position (s i) = Edge.REFERENCE_POSITIONS (σ ⟨i.val, by omega⟩)) (b : Bool) :
    (extendEdges s σ b).Arranged σ := by
  intro i
  unfold extendEdges
  by_cases hi : i.val < 6
  · rw [dif_pos hi]; exact h ⟨i.val, hi⟩
  · rw [dif_neg hi]
    split
    · rw [flip_position]; exact LawfulDescriptor.solved_pos (P := Edge) (σ i)
    · exact LawfulDescriptor.solved_pos (P := Edge) (σ i)

theorem extendEdges_bits (s : HalfEdgesMUS) (σ : Perm (Fin 12)) :
    ∑ i, edgeBit (extendEdges s σ true i) = ∑ i, edgeBit (extendEdges s σ false i) + 1 := by
  have h11 : edgeBit (extendEdges s σ true (Fin.last 11)) = edgeBit (extendEdges s σ false (Fin.last 11)) + 1 := by
    show edgeBit (Cube3.SOLVED.edges (σ (Fin.last 11))).flip = edgeBit (Cube3.SOLVED.edges (σ (Fin.last 11))) + 1
    exact edgeBit_flip _
  have hr : ∀ i : Fin 11, edgeBit (extendEdges s σ true i.castSucc) = edgeBit (extendEdges s σ false i.castSucc) := by
    intro i
    have hne : (i.castSucc == (11 : Fin 12)) = false := by
      rw [beq_eq_false_iff_ne]
      intro e
      have := congrArg Fin.val e
      have hlt := i.isLt
      simp at this
      omega
    unfold extendEdges
    rw [hne]
    simp
  rw [Fin.sum_univ_castSucc (f := fun i => edgeBit (extendEdges s σ true i)),
    Fin.sum_univ_castSucc (f := fun i => edgeBit (extendEdges s σ false i)), h11, Finset.sum_congr rfl fun i _ => hr i, add_assoc]

theorem zmod2_cases : ∀ x : ZMod 2, x = 0 ∨ x + 1 = 0 := by decide

theorem halfEdges_extend {s : HalfEdgesMUS} (h : Apart s) : ∃ c : Cube3, c.Lawful ∧ firstEdges c = s := by
  obtain ⟨g, hg⟩ := Set.MapsTo.exists_equiv_extend_of_card_eq (α := Fin 12) (β := Fin 12) (t := Finset.univ) (by simp)
    (s := { i : Fin 12 | i.val < 6 }) (f := fun i => if hi : i.val < 6 then placeOf (n := 12) (s ⟨i.val, hi⟩) else i)
    (fun _ _ => by simp) (by
      intro i hi j hj hij
      simp only [Set.mem_ofPred_eq] at hi hj
      simp only [hi, hj, dif_pos] at hij
      have : Piece.position (s ⟨i.val, hi⟩) = Piece.position (s ⟨j.val, hj⟩) := by
        rw [← ref_placeOf (P := Edge) (n := 12), hij, ref_placeOf]
      have := congrArg Fin.val (h this)
      exact Fin.ext this)
  let σ : Perm (Fin 12) := g.trans (Equiv.subtypeUnivEquiv fun i => Finset.mem_univ i)
  have hσ : ∀ i : Fin 6, Piece.position (s i) = Edge.REFERENCE_POSITIONS (σ ⟨i.val, by omega⟩) := by
    intro i
    have e : σ ⟨i.val, by omega⟩ = placeOf (n := 12) (s i) := by
      have := hg ⟨i.val, by omega⟩ (by simp)
      simp only [i.isLt, dif_pos] at this
      exact this
    rw [e]
    exact (ref_placeOf (P := Edge) (n := 12) (s i)).symm
  obtain ⟨b, hb⟩ : ∃ b, ∑ i, edgeBit (extendEdges s σ b i) = 0 := by
    rcases zmod2_cases (∑ i, edgeBit (extendEdges s σ false i)) with h0 | h0
    · exact ⟨false, h0⟩
    · exact ⟨true, by rw [extendEdges_bits, h0]⟩
  have hfirst : ∀ corners, firstEdges ⟨extendEdges s σ b, corners⟩ = s := by
    intro corners
    funext i
    show extendEdges s σ b ⟨i.val, _⟩ = s i
    unfold extendEdges
    rw [dif_pos i.isLt]
  rcases units_cases (Perm.sign σ) 1 with e | e
  · refine ⟨⟨extendEdges s σ b, Cube3.SOLVED.corners⟩, ⟨⟨σ, 1, extendEdges_arranged hσ b, solved_corners_arranged, by rw [e]; simp⟩,
      (even_flips_iff _).2 hb, (twists_iff _).2 solved_trits⟩, hfirst _⟩
  · refine ⟨⟨extendEdges s σ b, PieceSet.swapAt Cube3.SOLVED.corners 0 1⟩, ⟨⟨σ, 1 * swap 0 1, extendEdges_arranged hσ b,
      swapAt_arranged solved_corners_arranged 0 1, ?_⟩, (even_flips_iff _).2 hb, (twists_iff _).2 ?_⟩, hfirst _⟩
    · rw [e, one_mul]; exact sign_swap01.symm
    · show ∑ i, cornerTrit (PieceSet.swapAt Cube3.SOLVED.corners 0 1 i) = 0
      rw [sum_swapAt]; exact solved_trits

theorem lawful_reachable {c : Cube3} (h : c.Lawful) : ∃ w : List AxisMove, w.length ≤ 45 ∧ movedAlg Cube3.SOLVED w = c := by
  obtain ⟨w, hw1, hw2⟩ := lawful_solvable c h
  refine ⟨reversed w, by simpa [reversed] using hw1, ?_⟩
  rw [← hw2]
  exact (C02_alg_then_reversed ⟨Cube3, AxisMove⟩ (by simp [moveSystems]) w c).1

theorem corners_reachable {s : CornersMUS} (h : CornersGood s) :
    ∃ w : List AxisMove, w.length ≤ 11 ∧ movedAlg (C := CornersMUS) Cube3.SOLVED.corners w = s := by
  obtain ⟨c, -, rfl⟩ := corners_extend h
  obtain ⟨w, hw1, hw2⟩ := corners_solvable c.corners h.1 h.2
  refine ⟨reversed w, by simpa [reversed] using hw1, ?_⟩
  have e : (movedAlg c w).corners = Cube3.SOLVED.corners := funext fun i => (cube3_corners_alg c w i).trans (hw2 i)
  rw [← e, ← alg_corners]
  exact congrArg Cube3.corners (C02_alg_then_reversed ⟨Cube3, AxisMove⟩ (by simp [moveSystems]) w c).1

/-- one arrangement of the corners needs eleven moves -/
theorem corners_far (w : List AxisMove)
    (h : movedAlg (C := CornersMUS) Cube3.SOLVED.corners w = movedAlg (C := CornersMUS) Cube3.SOLVED.corners (Two.movesOf Two.farWord)) :
    11 ≤ w.length := by
  refine Two.far_needs w fun i => ?_
  have := congrFun h i
  rwa [← alg_corners, ← alg_corners, cube3_corners_alg, cube3_corners_alg] at this

theorem firstEdges_reachable {s : HalfEdgesMUS} (h : Apart s) :
    ∃ w : List AxisMove, w.length ≤ 15 ∧ movedAlg (firstEdges Cube3.SOLVED) w = s := by
  obtain ⟨c, -, rfl⟩ := halfEdges_extend h
  obtain ⟨w, hw1, hw2⟩ := sixEdges_solvable (firstEdges c) h
  refine ⟨reversed w, by simpa [reversed] using hw1, ?_⟩
  have e : firstEdges (movedAlg c w) = firstEdges Cube3.SOLVED := funext fun i => (cube3_edges_alg c w _).trans (hw2 i)
  rw [← e, ← alg_firstEdges]
  exact congrArg firstEdges (C02_alg_then_reversed ⟨Cube3, AxisMove⟩ (by simp [moveSystems]) w c).1

/-! ## The two tables -/

theorem corners_solved_index : Deindexable.index? (T := CornersMUS) Cube3.SOLVED.corners = some 0 := by decide +kernel
theorem halfEdges_solved_index : Deindexable.index? (firstEdges Cube3.SOLVED) = some 0 := by decide +kernel

theorem cornersGood_moved (s : CornersMUS) (m : AxisMove) (h : CornersGood s) : CornersGood (moved s m) := by
  have := conserved_moved ⟨Cube3.SOLVED.edges, s⟩ (PieceSet.solved_valid (P := Edge)) h.1 m
  exact ⟨this.2.2, (twists_iff _).2 (this.1.twists.trans ((twists_iff _).1 h.2))⟩

theorem apart_moved (s : HalfEdgesMUS) (m : AxisMove) (h : Apart s) : Apart (moved s m) := fun _ _ hij =>
  h (edge_pos_inj m _ _ hij)

theorem cornersGood_solved : CornersGood Cube3.SOLVED.corners :=
  ⟨PieceSet.solved_valid (P := Corner), (twists_iff _).2 solved_trits⟩

theorem corners_laws : TableLaws CornersMUS CornersGood Cube3.SOLVED.corners where
  index _ h := corners_index_good h
  unindex _ h := corners_unindex h
  moved := cornersGood_moved
  all := mem_allMoves
  start_good := cornersGood_solved
  start_index := corners_solved_index

theorem halfEdges_laws : TableLaws HalfEdgesMUS Apart (firstEdges Cube3.SOLVED) where
  index _ h := halfEdges_index h
  unindex _ h := halfEdges_unindex h
  moved := apart_moved
  all := mem_allMoves
  start_good := apart_first (c := Cube3.SOLVED) (PieceSet.solved_valid (P := Edge))
  start_index := halfEdges_solved_index

theorem corners_table : ∃ c, buildTable? CornersMUS = some c ∧ c.length = Deindexable.TOTAL_SET_SIZE CornersMUS ∧
    ∀ (s : CornersMUS) i, CornersGood s → Deindexable.index? s = some i →
      ∃ e, c[i]? = some e ∧ e ≤ 11 ∧ MinTurns (T := CornersMUS) Cube3.SOLVED.corners s e :=
  buildTable?_spec corners_laws (by decide) fun _ hs => corners_reachable hs

theorem halfEdges_table : ∃ c, buildTable? HalfEdgesMUS = some c ∧ c.length = Deindexable.TOTAL_SET_SIZE HalfEdgesMUS ∧
    ∀ (s : HalfEdgesMUS) i, Apart s → Deindexable.index? s = some i →
      ∃ e, c[i]? = some e ∧ e ≤ 15 ∧ MinTurns (firstEdges Cube3.SOLVED) s e :=
  buildTable?_spec halfEdges_laws (by decide) fun _ hs => firstEdges_reachable hs

end Barbarosa
