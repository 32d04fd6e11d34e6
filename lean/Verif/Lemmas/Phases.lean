import Verif.Lemmas.PhaseHalf

/-!
# Every lawful cube can be solved in 45 moves
-/

namespace Barbarosa

/-- every cube that satisfies the three invariants is solved by some sequence of at most 45 moves -/
theorem lawful_solvable (c : Cube3) (h : c.Lawful) :
    ∃ w : List AxisMove, w.length ≤ 45 ∧ movedAlg c w = Cube3.SOLVED := by
  obtain ⟨w1, l1, q1⟩ := edges_oriented c h
  have k1 := lawful_alg c h w1
  obtain ⟨w2, l2, q2⟩ := all_oriented _ k1 q1
  have k2 := lawful_alg _ k1 w2
  obtain ⟨w3, l3, q3⟩ := all_sorted _ k2 q2
  have k3 := lawful_alg _ k2 w3
  obtain ⟨w4, -, l4, q4⟩ := half_solved _ k3 q3
  refine ⟨w1 ++ w2 ++ w3 ++ w4, ?_, ?_⟩
  · simp only [List.length_append]
    omega
  · rw [alg_append, alg_append, alg_append, q4]

end Barbarosa
