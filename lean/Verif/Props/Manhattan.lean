import Verif.Props.Heuristics

/-!
# C64: solving with the Manhattan heuristic
-/

namespace Barbarosa

theorem edgeManhattan_table : ∀ (p : Edge.Pos) (e : Edge), 0 ≤ pieceManhattan (P := Edge) p e ∧ pieceManhattan (P := Edge) p e ≤ 4 ∧
    2 ∣ pieceManhattan (P := Edge) p e := by decide +kernel

theorem cornerManhattan_table : ∀ (p : Vec3) (e : Corner), 0 ≤ pieceManhattan (P := Corner) p e ∧ pieceManhattan (P := Corner) p e ≤ 6 ∧
    2 ∣ pieceManhattan (P := Corner) p e := by decide +kernel

/-- The values of the heuristic are multiples of 1/8 from 0 to 6: distances between places of the same kind are even, a corner is at most 6
and an edge at most 4 away from its place. -/
theorem manhattan_range (c : Cube3) : 0 ≤ manhattan c ∧ manhattan c ≤ 6 ∧ ∃ z : ℤ, (8 : ℚ) * manhattan c = z := by
  have e0 : 0 ≤ pieceSetManhattan c.edges := by
    rw [pieceSetManhattan_eq]; exact Finset.sum_nonneg fun i _ => (edgeManhattan_table _ _).1
  have e1 : pieceSetManhattan c.edges ≤ 48 := by
    rw [pieceSetManhattan_eq]
    exact (Finset.sum_le_card_nsmul _ _ 4 fun i _ => (edgeManhattan_table _ _).2.1).trans (by simp)
  have e2 : 2 ∣ pieceSetManhattan c.edges := by
    rw [pieceSetManhattan_eq]; exact Finset.dvd_sum fun i _ => (edgeManhattan_table _ _).2.2
  have c0 : 0 ≤ pieceSetManhattan c.corners := by
    rw [pieceSetManhattan_eq]; exact Finset.sum_nonneg fun i _ => (cornerManhattan_table _ _).1
  have c1 : pieceSetManhattan c.corners ≤ 48 := by
    rw [pieceSetManhattan_eq]
    exact (Finset.sum_le_card_nsmul _ _ 6 fun i _ => (cornerManhattan_table _ _).2.1).trans (by simp)
  have c2 : 2 ∣ pieceSetManhattan c.corners := by
    rw [pieceSetManhattan_eq]; exact Finset.dvd_sum fun i _ => (cornerManhattan_table _ _).2.2
  obtain ⟨z, hz⟩ := dvd_add e2 c2
  have h0 : (0 : ℚ) ≤ ((pieceSetManhattan c.edges + pieceSetManhattan c.corners : Int) : ℚ) := by exact_mod_cast add_nonneg e0 c0
  have h1 : ((pieceSetManhattan c.edges + pieceSetManhattan c.corners : Int) : ℚ) ≤ 96 := by
    exact_mod_cast (show pieceSetManhattan c.edges + pieceSetManhattan c.corners ≤ 96 by omega)
  unfold manhattan
  refine ⟨by positivity, by linarith, z, ?_⟩
  rw [hz]
  push_cast
  ring

/-- along a shortest solution the estimates stay below the length plus 2, and below three halves of the length -/
theorem manhattan_along (c : Cube3) (alg : List AxisMove) (h : movedAlg c alg = Cube3.SOLVED) :
    ∃ steps, IsWalk Cube3.successors c steps ∧ Cube.isSolved (walkEnd c steps) = true ∧ (c :: steps.map (·.1)).Nodup ∧
      ∀ pre suf, steps = pre ++ suf → (pre.length : ℚ) + manhattan (walkEnd c pre) ≤ alg.length + 2 ∧
        (pre.length : ℚ) + manhattan (walkEnd c pre) ≤ 3 / 2 * alg.length := by
  obtain ⟨st0, h1, h2, h3⟩ := cube3_walk_of_alg c alg
  obtain ⟨st, g1, g2, g3, g4, -⟩ := exists_simple_walk st0.length c st0 le_rfl h1
  have hlen : st0.length = alg.length := by rw [← h2, List.length_map]
  have hend : walkEnd c st = Cube3.SOLVED := by rw [g2, h3, h]
  refine ⟨st, g1, by rw [hend]; decide, g4, ?_⟩
  rintro pre suf rfl
  obtain ⟨-, k2⟩ := isWalk_append.1 g1
  have k3 := (C33_partial (walkEnd c pre) (suf.map (·.2)) (by
    rw [cube3_alg_of_walk k2, ← walkEnd_append]; exact hend)).2.1
  have k4 := (manhattan_range (walkEnd c pre)).2.1
  have k5 : ((pre.length + suf.length : ℕ) : ℚ) ≤ alg.length := by
    rw [List.length_append] at g3
    exact_mod_cast g3.trans hlen.le
  rw [List.length_map] at k3
  push_cast at k5
  have k6 : (0 : ℚ) ≤ pre.length := by positivity
  constructor <;> linarith

/-- **C64** Whatever `solve_with_heuristic(manhattan)` returns solves the cube, with at most two moves more than any other solution and with
at most one and a half times as many. -/
theorem C64_near_optimal (c : Cube3) (fuel : Nat) (alg : List AxisMove)
    (hs : Cube3.solveWithHeuristic? exactOps manhattan fuel c = some (some alg)) :
    movedAlg c alg = Cube3.SOLVED ∧ ∀ alg' : List AxisMove, movedAlg c alg' = Cube3.SOLVED →
      alg.length ≤ alg'.length + 2 ∧ 2 * alg.length ≤ 3 * alg'.length := by
  have hsol : Cube.isSolved (movedAlg c alg) = true :=
    (C26_solve_sound exactOps manhattan Cube3.successors cube3_successors_true 200 fuel c Cube.isSolved).1 alg hs
  refine ⟨by simpa [Cube.isSolved] using hsol, fun alg' h' => ?_⟩
  obtain ⟨e, he⟩ : ∃ e, search? exactOps manhattan Cube3.successors 200 fuel c Cube.isSolved = some (some (alg, e)) := by
    unfold Cube3.solveWithHeuristic? solve? at hs
    rcases h : search? exactOps manhattan Cube3.successors 200 fuel c Cube.isSolved with _ | _ | ⟨a, e⟩
    · rw [h] at hs; cases hs
    · rw [h] at hs; cases hs
    · rw [h] at hs
      simp only at hs
      split at hs
      · cases hs; exact ⟨e, rfl⟩
      · cases hs
  obtain ⟨st, g1, g2, g3, g4⟩ := manhattan_along c alg' h'
  have b1 := C27_bounded manhattan Cube3.successors Cube.isSolved (fun c => (manhattan_range c).1) 200 fuel c alg e he st g1 g2 g3
    (alg'.length + 2) (fun pre suf h => (g4 pre suf h).1)
  have b2 := C27_bounded manhattan Cube3.successors Cube.isSolved (fun c => (manhattan_range c).1) 200 fuel c alg e he st g1 g2 g3
    (3 / 2 * alg'.length) (fun pre suf h => (g4 pre suf h).2)
  constructor
  · exact_mod_cast b1
  · have : (2 : ℚ) * alg.length ≤ 3 * alg'.length := by linarith
    exact_mod_cast this

/-- whatever is returned for the sexy move has at most six moves -/
example (fuel : Nat) (alg : List AxisMove)
    (hs : Cube3.solveWithHeuristic? exactOps manhattan fuel (movedAlg Cube3.SOLVED Perms.SEXY_MOVE) = some (some alg)) : alg.length ≤ 6 :=
  ((C64_near_optimal _ fuel alg hs).2 (reversed Perms.SEXY_MOVE) (by decide +kernel)).1

/-- **C64** The search ends on every cube, returns `None` for every unreachable one and finds a solution for every cube that can be
solved in at most 23 moves. Missing: reachable cubes that need more than 23 moves. There are none, by the computation that showed that 20
moves always suffice, but that is not proved here (45 is, `lawful_reachable`); the limit of 200 thresholds, 1/8 apart, would come into play. -/
theorem C64_succeeds_partial (c : Cube3) :
    (∀ w : List AxisMove, movedAlg c w = Cube3.SOLVED → w.length ≤ 23 →
      ∃ alg : List AxisMove, Returns (fun fuel => Cube3.solveWithHeuristic? exactOps manhattan fuel c) (some alg)) ∧
    (¬ c.Reachable → Returns (fun fuel => Cube3.solveWithHeuristic? exactOps manhattan fuel c) none) ∧
    ∃ r, Returns (fun fuel => Cube3.solveWithHeuristic? exactOps manhattan fuel c) r := by
  obtain ⟨r, F, hF⟩ := C28_terminates_nonneg manhattan (fun c => (manhattan_range c).1) Cube3.successors 200 c Cube.isSolved
  have hret : Returns (fun fuel => Cube3.solveWithHeuristic? exactOps manhattan fuel c) (r.map (·.1)) := returns_solve ⟨F, hF⟩
  refine ⟨fun w hw hl => ?_, C29_unreachable exactOps manhattan c, _, hret⟩
  rcases r with _ | ⟨alg, e⟩
  · exfalso
    obtain ⟨st, g1, g2, g3, g4⟩ := manhattan_along c w hw
    refine C28_complete_general manhattan Cube3.successors Cube.isSolved 8 (by norm_num)
      (fun c => by simpa using (manhattan_range c).2.2) 200 F c st g1 g2 g3 (w.length + 2) (fun pre suf h => (g4 pre suf h).1) ?_
      (hF F le_rfl)
    have h0 := (manhattan_range c).1
    have h1 : (w.length : ℚ) ≤ 23 := by exact_mod_cast hl
    norm_num
    linarith
  · exact ⟨alg, hret⟩

/-- a cube four moves away -/
example : ∃ alg : List AxisMove, Returns (fun fuel => Cube3.solveWithHeuristic? exactOps manhattan fuel (movedAlg Cube3.SOLVED Perms.SEXY_MOVE)) (some alg) :=
  (C64_succeeds_partial _).1 (reversed Perms.SEXY_MOVE) (by decide +kernel) (by decide)

/-- **C64** In floating point arithmetic the results are the same. -/
theorem C64_floats {K : Type} {ops : CostOps K} {R : ℚ} (fl : FloatLike ops 16 R) (hR : 213 ≤ R) (h : Cube3 → K)
    (hok : ∀ c, fl.ok (h c)) (hv : ∀ c, fl.val (h c) = manhattan c) (fuel : Nat) (c : Cube3) :
    Cube3.solveWithHeuristic? ops h fuel c = Cube3.solveWithHeuristic? exactOps manhattan fuel c := by
  have := C28_floats fl h 6 hok (fun c => by
      obtain ⟨z, hz⟩ := (manhattan_range c).2.2
      exact ⟨2 * z, by rw [hv]; push_cast; linarith⟩) (fun c => by rw [hv]; exact (manhattan_range c).1)
      (fun c => by rw [hv]; exact (manhattan_range c).2.1) Cube3.successors Cube.isSolved
      200 c (by rw [hv]; norm_num; linarith [(manhattan_range c).2.1]) fuel
  simp only [hv] at this
  unfold Cube3.solveWithHeuristic? solve?
  rw [this]

/-- The heuristic overestimates here (3/2 for a single half turn, see C33) and the search still returns the solution. -/
example : manhattan (movedAlg Cube3.SOLVED [(⟨Face.R, .double⟩ : AxisMove)]) = 3 / 2 ∧
    Cube3.solveWithHeuristic? exactOps manhattan 6 (movedAlg Cube3.SOLVED [(⟨Face.R, .double⟩ : AxisMove)]) =
      some (some [⟨Face.R, .double⟩]) := by decide +kernel

/-- The hypotheses of `C64_floats` are met by an arithmetic that is not exact. -/
example (fuel : Nat) (c : Cube3) :
    Cube3.solveWithHeuristic? sloppyOps manhattan fuel c = Cube3.solveWithHeuristic? exactOps manhattan fuel c :=
  C64_floats sloppyFloat (by norm_num) manhattan (fun _ => trivial) (fun _ => rfl) fuel c

/-- The hypotheses of `C64_succeeds_partial`: a four move scramble is solved by at most 23 moves. -/
example : movedAlg (movedAlg Cube3.SOLVED Perms.SEXY_MOVE) (reversed Perms.SEXY_MOVE) = Cube3.SOLVED ∧
    (reversed Perms.SEXY_MOVE).length ≤ 23 := by decide +kernel

end Barbarosa
