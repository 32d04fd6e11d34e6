import Verif.Props.Heuristics
import Verif.Props.PieceSet
import Verif.Lemmas.MusDistance

/-!
# Property C91: how many moves a cross takes
-/

namespace Barbarosa

/-- **C91** From every valid cube, reachable or not, every cross can be solved in at most eight moves. -/
theorem C91_at_most_eight (c : Cube3) (hv : c.valid) (f : Face) :
    ∃ alg : List AxisMove, alg.length ≤ 8 ∧ (movedAlg c alg).CrossSolved f := by
  obtain ⟨w, h1, h2⟩ := cross_exists c ((valid_iff c).1 hv).1 f
  exact ⟨w, h1, ((C32_count _ f).2.2).1 (beq_iff_eq.1 h2)⟩

/-- the cross of D after any scramble -/
example (s : List AxisMove) : ∃ alg : List AxisMove, alg.length ≤ 8 ∧ (movedAlg (movedAlg Cube3.SOLVED s) alg).CrossSolved Face.D :=
  C91_at_most_eight _ (C08_cubes.2.1 _ _ C08_solved_valid.2.1) Face.D

/-- **C91** Eight are necessary: for every face there are eight moves after which its cross cannot be solved in less. -/
theorem C91_sometimes_eight (f : Face) : ∃ s : List AxisMove, s.length = 8 ∧
    ∀ alg : List AxisMove, (movedAlg (movedAlg Cube3.SOLVED s) alg).CrossSolved f → 8 ≤ alg.length := by
  obtain ⟨t, h1, h2⟩ := Bits.needs_eight f
  obtain ⟨s, h3, h4⟩ := Bits.within_eight f t h1
  have h5 : s.length = 8 := le_antisymm h3 (h2 s h4)
  refine ⟨reversed s, by rw [(C02_reversed_append s []).2, h5], fun w hw => h2 w fun i => ?_⟩
  have hw' := (cross_iff_homes _ w f).1 (beq_iff_eq.2 ((C32_count _ f).2.2.2 hw)) i
  rw [cube3_edges_alg] at hw'
  rw [← hw']
  congr 1
  have := alg_undo edge_undo s (t i)
  rw [h4 i] at this
  exact this.symm

/-- so on every face there is a cross that seven moves do not solve -/
example : ∃ c : Cube3, c.valid ∧ ∀ alg : List AxisMove, alg.length = 7 → ¬ (movedAlg c alg).CrossSolved Face.D := by
  obtain ⟨s, -, h⟩ := C91_sometimes_eight Face.D
  refine ⟨_, C08_cubes.2.1 Cube3.SOLVED s C08_solved_valid.2.1, fun alg ha hc => ?_⟩
  have := h alg hc
  omega

/-- **C91** How many moves a cross takes depends on its four edges only. -/
theorem C91_only_cross_edges (c d : Cube3) (f : Face)
    (h : ∀ i, Edge.Touches (Edge.REFERENCE_POSITIONS i) f → c.edges i = d.edges i) (alg : List AxisMove) :
    (movedAlg c alg).CrossSolved f ↔ (movedAlg d alg).CrossSolved f := by
  unfold Cube3.CrossSolved
  simp only [cube3_edges_alg]
  constructor
  · intro hc i hi
    rw [← h i hi]
    exact hc i hi
  · intro hc i hi
    rw [h i hi]
    exact hc i hi

/-- a `D` turn is not seen by the cross of U -/
example (alg : List AxisMove) : (movedAlg (moved Cube3.SOLVED (⟨Face.D, .single⟩ : AxisMove)) alg).CrossSolved Face.U ↔
    (movedAlg Cube3.SOLVED alg).CrossSolved Face.U :=
  C91_only_cross_edges _ _ Face.U (by decide +kernel) alg

/-- **C91** So `solve_cross` never returns more than eight moves, and for every face there is a cube, eight moves from solved, for
which it returns eight. -/
theorem C91_solve_cross (f : Face) :
    (∀ c : Cube3, c.valid → ∃ alg d, Returns (fun fuel => solveCross? fuel c f) (some (alg, d)) ∧ alg.length ≤ 8) ∧
    ∃ s : List AxisMove, s.length = 8 ∧
      ∃ alg d, Returns (fun fuel => solveCross? fuel (movedAlg Cube3.SOLVED s) f) (some (alg, d)) ∧ alg.length = 8 := by
  constructor
  · intro c hc
    obtain ⟨alg, d, h1, -, -, -, h2⟩ := C31_solve_cross c hc f
    exact ⟨alg, d, h1, h2⟩
  · obtain ⟨s, h1, h2⟩ := C91_sometimes_eight f
    obtain ⟨alg, d, h3, rfl, h5, -, h6⟩ := C31_solve_cross (movedAlg Cube3.SOLVED s) (C08_cubes.2.1 _ s C08_solved_valid.2.1) f
    exact ⟨s, h1, alg, _, h3, le_antisymm h6 (h2 alg h5)⟩

example : ∃ alg d, Returns (fun fuel => solveCross? fuel (movedAlg Cube3.SOLVED Perms.T) Face.L) (some (alg, d)) ∧ alg.length ≤ 8 :=
  (C91_solve_cross Face.L).1 _ (C08_cubes.2.1 Cube3.SOLVED Perms.T C08_solved_valid.2.1)

/-- **C91** The heuristic of `solve_cross_fast` is never more than one above the number of moves a cross takes. -/
theorem C91_good_heuristic (c : Cube3) (f : Face) (alg : List AxisMove) (h : (movedAlg c alg).CrossSolved f) :
    goodCrossHeuristic c f ≤ alg.length + 1 :=
  (goodCross_props c f).2.2.2 alg (beq_iff_eq.2 ((C32_count _ f).2.2.2 h))

/-- after `R` the good heuristic says at most 2 for the cross of U -/
example : goodCrossHeuristic (moved Cube3.SOLVED (⟨Face.R, .single⟩ : AxisMove)) Face.U ≤ 2 := by
  have := C91_good_heuristic (moved Cube3.SOLVED (⟨Face.R, .single⟩ : AxisMove)) Face.U [⟨Face.R, .inverse⟩] (by decide +kernel)
  norm_num at this
  exact this

/-- **C91** It is as documented: the heuristic sometimes overestimates (by one, after a turn of the face), … -/
theorem C91_good_heuristic_overestimates (f : Face) (a : Amount) :
    goodCrossHeuristic (moved Cube3.SOLVED (⟨f, a⟩ : AxisMove)) f = 2 ∧
    (moved (moved Cube3.SOLVED (⟨f, a⟩ : AxisMove)) (Move.inverse (⟨f, a⟩ : AxisMove))).CrossSolved f := by
  revert f a
  decide +kernel

example : goodCrossHeuristic (moved Cube3.SOLVED (⟨Face.F, .double⟩ : AxisMove)) Face.F = 2 :=
  (C91_good_heuristic_overestimates Face.F .double).1

/-- the moves of the example -/
def crossExample : List AxisMove := [⟨Face.U, .double⟩, ⟨Face.B, .double⟩]

theorem crossExample_fast : (solveCrossFast? 5 (movedAlg Cube3.SOLVED crossExample) Face.U).map (fun r => r.map (·.1)) =
    some (some [⟨Face.U, .double⟩, ⟨Face.D, .double⟩, ⟨Face.F, .double⟩]) := by decide +kernel

/-- **C91** … and so `solve_cross_fast` is sometimes not optimal: after U2 B2 it returns three moves for the upper face, U2 D2 F2, although
two (B2 U2) are enough. -/
theorem C91_fast_not_optimal :
    (∃ d, Returns (fun fuel => solveCrossFast? fuel (movedAlg Cube3.SOLVED crossExample) Face.U)
      (some ([⟨Face.U, .double⟩, ⟨Face.D, .double⟩, ⟨Face.F, .double⟩], d))) ∧
    (movedAlg (movedAlg Cube3.SOLVED crossExample) [(⟨Face.B, .double⟩ : AxisMove), ⟨Face.U, .double⟩]).CrossSolved Face.U := by
  constructor
  · rcases h : solveCrossFast? 5 (movedAlg Cube3.SOLVED crossExample) Face.U with _ | _ | ⟨alg, d⟩
    · have := crossExample_fast
      rw [h] at this
      cases this
    · have := crossExample_fast
      rw [h] at this
      cases this
    · have e := crossExample_fast
      rw [h] at e
      simp only [Option.map_some, Option.some.injEq] at e
      subst e
      exact ⟨d, 5, fun fuel hf => searchLoop_mono _ _ _ _ _ hf _ _ _ h⟩
  · decide +kernel

/-- a cube meeting the hypotheses: a valid cube with an unsolved cross; and a cross that is not affected by the other pieces -/
example : (movedAlg Cube3.SOLVED crossExample).valid ∧ ¬ (movedAlg Cube3.SOLVED crossExample).CrossSolved Face.U ∧
    (∀ i, Edge.Touches (Edge.REFERENCE_POSITIONS i) Face.U →
      (moved Cube3.SOLVED (⟨Face.D, .single⟩ : AxisMove)).edges i = (Cube3.SOLVED).edges i) ∧
    moved Cube3.SOLVED (⟨Face.D, .single⟩ : AxisMove) ≠ Cube3.SOLVED := by
  refine ⟨C08_cubes.2.1 _ _ C08_solved_valid.2.1, by decide +kernel, by decide +kernel, by decide +kernel⟩

end Barbarosa
