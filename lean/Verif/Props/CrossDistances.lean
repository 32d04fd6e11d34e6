import Verif.Props.Cross
import Verif.Props.Invariants
import Verif.Props.Effects
import Verif.Props.Symmetry
import Verif.Lemmas.CrossCount

/-!
# Property C102: how many crosses take how many moves
-/

namespace Barbarosa

/-- The cross of the face can be solved in `n` moves and not in fewer. -/
def Cube3.CrossNeeds (c : Cube3) (f : Face) (n : Nat) : Prop :=
  IsLeast { k | ∃ alg : List AxisMove, alg.length = k ∧ (movedAlg c alg).CrossSolved f } n

/-- the four edges that belong to the cross, where they are -/
def crossEdges (f : Face) (c : Cube3) (k : Fin 4) : Edge := c.edges (Bits.slot f k)

theorem crossSolved_iff (c : Cube3) (f : Face) (alg : List AxisMove) :
    (movedAlg c alg).CrossSolved f ↔ ∀ k, movedAlg (crossEdges f c k) alg = Bits.homes f k := by
  rw [← (C32_count _ f).2.2, ← beq_iff_eq, cross_iff_homes]
  rfl

theorem crossNeeds_iff (c : Cube3) (f : Face) (n : Nat) :
    c.CrossNeeds f n ↔ Bits.Mem (Bits.level f n) (crossEdges f c) ∧ ∀ k < n, ¬ Bits.Mem (Bits.level f k) (crossEdges f c) := by
  unfold Cube3.CrossNeeds
  simp only [Bits.mem_level, ← crossSolved_iff]
  constructor
  · rintro ⟨⟨w, h1, h2⟩, h3⟩
    refine ⟨⟨w, h1.le, h2⟩, ?_⟩
    rintro k hk ⟨w', h4, h5⟩
    have := h3 ⟨w', rfl, h5⟩
    omega
  · rintro ⟨⟨w, h1, h2⟩, h3⟩
    have h4 : ∀ w' : List AxisMove, (movedAlg c w').CrossSolved f → n ≤ w'.length := by
      intro w' h5
      by_contra hc
      exact h3 w'.length (by omega) ⟨w', le_rfl, h5⟩
    refine ⟨⟨w, le_antisymm h1 (h4 w h2), h2⟩, ?_⟩
    rintro _ ⟨w', rfl, h5⟩
    exact h4 w' h5

theorem crossEdges_alg (f : Face) (c : Cube3) (w : List AxisMove) (k : Fin 4) :
    crossEdges f (movedAlg c w) k = movedAlg (crossEdges f c k) w := cube3_edges_alg c w _

theorem reachable_alg {c : Cube3} (h : c.Reachable) (w : List AxisMove) : (movedAlg c w).Reachable := by
  obtain ⟨s, rfl⟩ := h
  exact ⟨s ++ w, List.foldl_append⟩

/-- every arrangement of the cross edges belongs to equally many reachable cubes -/
theorem card_crossEdges (f : Face) (P : (Fin 4 → Edge) → Prop) (hP : ∀ t, P t → Bits.Mem (Bits.level f 8) t) :
    Nat.card { c : Cube3 // c.Reachable ∧ P (crossEdges f c) } =
      Nat.card { t // P t } * Nat.card { c : Cube3 // c.Reachable ∧ crossEdges f c = Bits.homes f } := by
  rw [← Nat.card_prod]
  have hw : ∀ t : { t // P t }, ∃ w : List AxisMove, ∀ k, movedAlg (t.1 k) w = Bits.homes f k := fun t => by
    obtain ⟨w, -, h⟩ := (Bits.mem_level f 8 t.1).1 (hP t.1 t.2)
    exact ⟨w, h⟩
  choose w hw using hw
  refine Nat.card_congr
    { toFun := fun c => (⟨crossEdges f c.1, c.2.2⟩, ⟨movedAlg c.1 (w ⟨crossEdges f c.1, c.2.2⟩), reachable_alg c.2.1 _,
        funext fun k => (crossEdges_alg f c.1 _ k).trans (hw ⟨crossEdges f c.1, c.2.2⟩ k)⟩)
      invFun := fun p => ⟨movedAlg p.2.1 (reversed (w p.1)), reachable_alg p.2.2.1 _, ?_⟩
      left_inv := ?_
      right_inv := ?_ }
  · have e : crossEdges f (movedAlg p.2.1 (reversed (w p.1))) = p.1.1 := by
      funext k
      rw [crossEdges_alg, p.2.2.2, ← hw p.1 k]
      exact alg_undo edge_undo _ _
    rw [e]
    exact p.1.2
  · rintro ⟨c, h1, h2⟩
    exact Subtype.ext (cube3_undo _ c).1
  · rintro ⟨t, ⟨c, h1, h2⟩⟩
    have e : crossEdges f (movedAlg c (reversed (w t))) = t.1 := by
      funext k
      rw [crossEdges_alg, h2, ← hw t k]
      exact alg_undo edge_undo _ _
    have e' : (⟨crossEdges f (movedAlg c (reversed (w t))), e ▸ t.2⟩ : { t // P t }) = t := Subtype.ext e
    refine Prod.ext e' (Subtype.ext ?_)
    show movedAlg (movedAlg c (reversed (w t))) (w ⟨crossEdges f (movedAlg c (reversed (w t))), _⟩) = c
    rw [e']
    exact (cube3_undo _ c).2

/-- so many of the 190080 arrangements of the four edges of a cross need 0, 1, …, 8 moves -/
def crossDistances : List Nat := [1, 15, 158, 1394, 9809, 46381, 97254, 34966, 102]

theorem card_exactly (f : Face) {n : Nat} (hn : n ≤ 8) :
    Nat.card { t : Fin 4 → Edge // Bits.Mem (Bits.level f n) t ∧ ∀ k < n, ¬ Bits.Mem (Bits.level f k) t } =
      crossDistances.getD n 0 := by
  rcases n with _ | n
  · have e := Bits.card_level f (n := 0) (by decide)
    rw [show crossDistances.getD 0 0 = Bits.within.getD 0 0 by rfl, ← e]
    simp
  · have e1 := Bits.card_level f hn
    have e0 := Bits.card_level f (n := n) (by omega)
    have e2 : Nat.card { t : Fin 4 → Edge // Bits.Mem (Bits.level f (n + 1)) t } =
        Nat.card { t : Fin 4 → Edge // Bits.Mem (Bits.level f n) t } +
        Nat.card { t : Fin 4 → Edge // Bits.Mem (Bits.level f (n + 1)) t ∧ ∀ k < n + 1, ¬ Bits.Mem (Bits.level f k) t } := by
      classical
      rw [← Nat.card_congr (Equiv.sumCompl fun t : { t : Fin 4 → Edge // Bits.Mem (Bits.level f (n + 1)) t } =>
        Bits.Mem (Bits.level f n) t.1), Nat.card_sum]
      congr 1
      · exact Nat.card_congr ((Equiv.subtypeSubtypeEquivSubtypeInter _ fun t => Bits.Mem (Bits.level f n) t).trans
          (Equiv.subtypeEquivRight fun t => ⟨fun h => h.2, fun h => ⟨Bits.level_mono f (Nat.le_succ n) t h, h⟩⟩))
      · exact Nat.card_congr ((Equiv.subtypeSubtypeEquivSubtypeInter _ fun t => ¬ Bits.Mem (Bits.level f n) t).trans
          (Equiv.subtypeEquivRight fun t => ⟨fun h => ⟨h.1, fun k hk hm => h.2 (Bits.level_mono f (Nat.le_of_lt_succ hk) t hm)⟩,
            fun h => ⟨h.1, h.2 n (Nat.lt_succ_self n)⟩⟩))
    have e3 : ∀ n, n < 8 → Bits.within.getD (n + 1) 0 = Bits.within.getD n 0 + crossDistances.getD (n + 1) 0 := by decide
    have := e3 n (by omega)
    omega

theorem reachable_level (f : Face) {c : Cube3} (hc : c.Reachable) : Bits.Mem (Bits.level f 8) (crossEdges f c) := by
  obtain ⟨s, rfl⟩ := hc
  obtain ⟨w, h1, h2⟩ := C91_at_most_eight _ (C08_cubes.2.1 _ s C08_solved_valid.2.1) f
  exact (Bits.mem_level f 8 _).2 ⟨w, h1, (crossSolved_iff _ f w).1 h2⟩

/-- **C102** Of every 190080 reachable cubes 1, 15, 158, 1394, 9809, 46381, 97254, 34966 and 102 have a cross that needs 0, 1, 2, …, 8
moves; this is the same for all six faces. -/
theorem C102_distances (f : Face) (n : Nat) :
    190080 * Nat.card { c : Cube3 // c.Reachable ∧ c.CrossNeeds f n } =
      crossDistances.getD n 0 * Nat.card { c : Cube3 // c.Reachable } := by
  have h8 := card_crossEdges f (Bits.Mem (Bits.level f 8)) fun t h => h
  rw [Bits.card_level f le_rfl] at h8
  have e8 : Nat.card { c : Cube3 // c.Reachable ∧ Bits.Mem (Bits.level f 8) (crossEdges f c) } =
      Nat.card { c : Cube3 // c.Reachable } :=
    Nat.card_congr (Equiv.subtypeEquivRight fun c => ⟨fun h => h.1, fun h => ⟨h, reachable_level f h⟩⟩)
  rw [e8] at h8
  rw [h8]
  by_cases hn : n ≤ 8
  · have hk := card_crossEdges f (fun t => Bits.Mem (Bits.level f n) t ∧ ∀ k < n, ¬ Bits.Mem (Bits.level f k) t)
      fun t h => Bits.level_mono f hn t h.1
    rw [card_exactly f hn] at hk
    have e : Nat.card { c : Cube3 // c.Reachable ∧ c.CrossNeeds f n } = _ :=
      (Nat.card_congr (Equiv.subtypeEquivRight fun c => and_congr_right fun _ => crossNeeds_iff c f n)).trans hk
    rw [e, show Bits.within.getD 8 0 = 190080 by rfl]
    ring
  · have : IsEmpty { c : Cube3 // c.Reachable ∧ c.CrossNeeds f n } :=
      ⟨fun c => ((crossNeeds_iff c.1 f n).1 c.2.2).2 8 (by omega) (reachable_level f c.2.1)⟩
    rw [Nat.card_of_isEmpty, show crossDistances.getD n 0 = 0 from List.getD_eq_default _ _ (by simp [crossDistances]; omega)]
    ring

/-- hardly any cross needs eight moves, most need six -/
example : 190080 * Nat.card { c : Cube3 // c.Reachable ∧ c.CrossNeeds Face.D 8 } = 102 * Nat.card { c : Cube3 // c.Reachable } ∧
    2 * Nat.card { c : Cube3 // c.Reachable ∧ c.CrossNeeds Face.D 6 } > Nat.card { c : Cube3 // c.Reachable } := by
  have h := C102_distances Face.D 6
  rw [show crossDistances.getD 6 0 = 97254 by rfl] at h
  have := C16_number_of_states
  exact ⟨C102_distances Face.D 8, by omega⟩

/-- **C102** `solve_cross` returns exactly as many moves as the cross needs. -/
theorem C102_solve_cross (c : Cube3) (hv : c.valid) (f : Face) (n : Nat) :
    (∃ (alg : List AxisMove) (d : Cube3), Returns (fun fuel => solveCross? fuel c f) (some (alg, d)) ∧ alg.length = n) ↔
      c.CrossNeeds f n := by
  obtain ⟨alg, d, h1, rfl, h2, h3, -⟩ := C31_solve_cross c hv f
  have hl : c.CrossNeeds f alg.length := ⟨⟨alg, rfl, h2⟩, by rintro _ ⟨w, rfl, hw⟩; exact h3 w hw⟩
  constructor
  · rintro ⟨alg', d', h4, rfl⟩
    have := returns_unique h1 h4
    simp only [Option.some.injEq, Prod.mk.injEq] at this
    rw [← this.1]
    exact hl
  · intro h
    exact ⟨alg, _, h1, hl.unique h⟩

/-- after a turn of the right face the cross of U takes one move -/
example : (moved Cube3.SOLVED (⟨Face.R, .single⟩ : AxisMove)).CrossNeeds Face.U 1 := by
  refine ⟨⟨[⟨Face.R, .inverse⟩], rfl, by decide +kernel⟩, ?_⟩
  rintro _ ⟨w, rfl, hw⟩
  rcases w with _ | ⟨m, w⟩
  · exact absurd hw (by decide +kernel)
  · simp

/-- the outcomes of the draws that lead to a certain kind of cube -/
theorem card_draws_of (P : Cube3 → Prop) :
    Nat.card { d : Draw3 // ∃ c, sampleCube3? d = some c ∧ P c } = 12 * Nat.card { c : Cube3 // c.Reachable ∧ P c } := by
  classical
  have hfin : Finite { c : Cube3 // c.Reachable } := Nat.finite_of_card_ne_zero (by rw [C16_number_of_states]; decide)
  have hfin' : Finite { c : Cube3 // c.Reachable ∧ P c } :=
    Finite.of_injective (fun c => (⟨c.1, c.2.1⟩ : { c : Cube3 // c.Reachable })) fun a b h => Subtype.ext (congrArg (fun x => x.1) h)
  have := Fintype.ofFinite { c : Cube3 // c.Reachable ∧ P c }
  have hs : ∀ d c, sampleCube3? d = some c → c.Reachable := fun d c h => by
    obtain ⟨c', h1, h2⟩ := sampleCube3?_lawful d
    rw [h] at h1
    obtain rfl := Option.some.inj h1
    exact (C15_reachable_iff c).1.2 h2
  have e : { d : Draw3 // ∃ c, sampleCube3? d = some c ∧ P c } ≃
      Σ c : { c : Cube3 // c.Reachable ∧ P c }, { d : Draw3 // sampleCube3? d = some c.1 } :=
    (Equiv.ofBijective (fun x => (⟨x.2.1, x.1.1, x.2.2, x.1.2.2⟩ : { d : Draw3 // ∃ c, sampleCube3? d = some c ∧ P c })) ⟨by
        rintro ⟨⟨c, h1, h2⟩, d, h3⟩ ⟨⟨c', h1', h2'⟩, d', h3'⟩ h
        obtain rfl : d = d' := congrArg Subtype.val h
        obtain rfl : c = c' := Option.some.inj (h3.symm.trans h3')
        rfl, by
        rintro ⟨d, c, h1, h2⟩
        exact ⟨⟨⟨c, hs d c h1, h2⟩, d, h1⟩, rfl⟩⟩).symm
  rw [Nat.card_congr e, Nat.card_sigma]
  rw [Finset.sum_congr rfl fun c _ => (C58_uniform c.1).trans (if_pos ((C15_reachable_iff c.1).2.1.2 ((C15_reachable_iff c.1).1.1 c.2.1)))]
  rw [Finset.sum_const, Finset.card_univ, Nat.card_eq_fintype_card, smul_eq_mul, Nat.mul_comm]

/-- **C102** So these are also the probabilities, in 190080ths, with which the cross of a random cube needs 0, 1, …, 8 moves. -/
theorem C102_random (f : Face) (n : Nat) :
    190080 * Nat.card { d : Draw3 // ∃ c, sampleCube3? d = some c ∧ c.CrossNeeds f n } = crossDistances.getD n 0 * Nat.card Draw3 := by
  have h := card_draws_of fun _ => True
  have e : Nat.card { d : Draw3 // ∃ c, sampleCube3? d = some c ∧ True } = Nat.card Draw3 :=
    Nat.card_congr (Equiv.subtypeUnivEquiv fun d => by
      obtain ⟨c, h1, -⟩ := C13_random_lawful d
      exact ⟨c, h1, trivial⟩)
  rw [e] at h
  have e' : Nat.card { c : Cube3 // c.Reachable ∧ True } = Nat.card { c : Cube3 // c.Reachable } :=
    Nat.card_congr (Equiv.subtypeEquivRight fun c => and_iff_left trivial)
  rw [card_draws_of, h, e']
  have := C102_distances f n
  calc _ = 12 * (190080 * Nat.card { c : Cube3 // c.Reachable ∧ c.CrossNeeds f n }) := by ring
    _ = _ := by rw [this]; ring

/-- one random cube in 190080 has its cross solved -/
example : 190080 * Nat.card { d : Draw3 // ∃ c, sampleCube3? d = some c ∧ c.CrossNeeds Face.U 0 } = 1 * Nat.card Draw3 :=
  C102_random Face.U 0

/-- **C102** The crosses of all reachable cubes together take 1104756 / 190080 = 5.81… moves per cube. -/
theorem C102_mean (f : Face) :
    190080 * ∑ n ∈ Finset.range 9, n * Nat.card { c : Cube3 // c.Reachable ∧ c.CrossNeeds f n } =
      1104756 * Nat.card { c : Cube3 // c.Reachable } ∧
    ∀ c : Cube3, c.Reachable → ∃! n, c.CrossNeeds f n ∧ n < 9 := by
  constructor
  · rw [Finset.mul_sum]
    have : ∀ n ∈ Finset.range 9, 190080 * (n * Nat.card { c : Cube3 // c.Reachable ∧ c.CrossNeeds f n }) =
        n * crossDistances.getD n 0 * Nat.card { c : Cube3 // c.Reachable } := fun n _ => by
      rw [Nat.mul_assoc n, ← C102_distances f n]
      ring
    rw [Finset.sum_congr rfl this, ← Finset.sum_mul]
    rfl
  · intro c hc
    obtain ⟨s, rfl⟩ := hc
    obtain ⟨alg, d, h1, h2⟩ := (C91_solve_cross f).1 _ (C08_cubes.2.1 _ s C08_solved_valid.2.1)
    have h3 := (C102_solve_cross _ (C08_cubes.2.1 _ s C08_solved_valid.2.1) f alg.length).1 ⟨alg, d, h1, rfl⟩
    exact ⟨alg.length, ⟨h3, by omega⟩, fun n hn => hn.1.unique h3⟩

/-- the mean is between 5.81 and 5.82 -/
example : 581 * 190080 < 100 * 1104756 ∧ 100 * 1104756 < 582 * 190080 := by decide

end Barbarosa
