import Verif.Lemmas.HalfCount
import Verif.Props.Effects

/-!
# C107: algs of half turns

An alg of half turns alone reaches few of the states of the 3x3, and the shortest such algs are all known.
-/

namespace Barbarosa

/-- **C107** The states of the 3x3 that algs of at most `n` half turns reach, counted for every `n`: 1 state for 0, 7 for 1, 34
for 2, and so on up to 663552 for 15. More half turns reach no further state. -/
theorem C107_states_by_half_turns (n : Nat) :
    Nat.card { c : Cube3 // ∃ w : List AxisMove, (∀ m ∈ w, m.amount = .double) ∧ w.length ≤ n ∧ movedAlg Cube3.SOLVED w = c } =
      [1, 7, 34, 154, 673, 2605, 9089, 29399, 84433, 198325, 376820, 556016, 645744, 661920, 663408].getD n 663552 := by
  have h : ∀ k, Nat.card { c : Cube3 // ∃ w : List AxisMove, (∀ m ∈ w, m.amount = .double) ∧ w.length ≤ k ∧
      movedAlg Cube3.SOLVED w = c } = Nat.card { c : Cube3 // Blocks.Within HalfTurn (fun c => c = Cube3.SOLVED) k c } :=
    fun k => Nat.card_congr (Equiv.subtypeEquivRight fun c => within_iff.symm)
  by_cases hn : n < 15
  · rw [h, card_half (by omega)]
    revert n
    decide
  · have e : Nat.card { c : Cube3 // Blocks.Within HalfTurn (fun c => c = Cube3.SOLVED) n c } =
        Nat.card { c : Cube3 // Blocks.Within HalfTurn (fun c => c = Cube3.SOLVED) 15 c } :=
      Nat.card_congr (Equiv.subtypeEquivRight fun c => ⟨half_fifteen, fun ⟨w, h1, h2, h3⟩ => ⟨w, h1, by omega, h3⟩⟩)
    rw [h, e, card_half (by decide)]
    exact (List.getD_eq_default _ 663552 (by simpa using hn)).symm

/-- the states within two half turns: the solved one, six after one and 27 after two -/
example : Nat.card { c : Cube3 // ∃ w : List AxisMove, (∀ m ∈ w, m.amount = .double) ∧ w.length ≤ 2 ∧ movedAlg Cube3.SOLVED w = c } = 34 :=
  C107_states_by_half_turns 2

/-- **C107** The states that half turns reach at all are 663552. -/
theorem C107_half_turn_states :
    Nat.card { c : Cube3 // ∃ w : List AxisMove, (∀ m ∈ w, m.amount = .double) ∧ movedAlg Cube3.SOLVED w = c } = 663552 := by
  refine (Nat.card_congr (Equiv.subtypeEquivRight fun c => ⟨?_, ?_⟩)).trans (C107_states_by_half_turns 15)
  · rintro ⟨w, h1, h2⟩
    exact within_iff.1 (half_fifteen (within_iff.2 ⟨w, h1, Nat.le_refl _, h2⟩))
  · rintro ⟨w, h1, -, h2⟩
    exact ⟨w, h1, h2⟩

/-- **C107** Every alg of half turns has the same effect on every state as one of at most fifteen half turns. -/
theorem C107_fifteen_half_turns (a : List AxisMove) (ha : ∀ m ∈ a, m.amount = .double) :
    ∃ b : List AxisMove, (∀ m ∈ b, m.amount = .double) ∧ b.length ≤ 15 ∧ ∀ c : Cube3, movedAlg c b = movedAlg c a := by
  obtain ⟨b, h1, h2, e⟩ := within_iff.1 (half_fifteen (within_iff.2 ⟨a, ha, Nat.le_refl _, rfl⟩))
  exact ⟨b, h1, h2, one_state_shows_effect ⟨Cube3, AxisMove⟩ (by simp [cubeSystems]) Cube3.SOLVED C08_solved_valid.2.1 b a e⟩

example : ∃ b : List AxisMove, (∀ m ∈ b, m.amount = .double) ∧ b.length ≤ 15 ∧
    ∀ c : Cube3, movedAlg c b = movedAlg c (List.replicate 20 [(⟨.R, .double⟩ : AxisMove), ⟨.U, .double⟩, ⟨.F, .double⟩]).flatten :=
  C107_fifteen_half_turns _ (by decide)

/-- **C107** Fourteen are not enough: some alg of fifteen half turns has an effect that no shorter alg of half turns has. -/
theorem C107_not_fourteen : ∃ a : List AxisMove, (∀ m ∈ a, m.amount = .double) ∧ a.length = 15 ∧
    ∀ b : List AxisMove, (∀ m ∈ b, m.amount = .double) → movedAlg Cube3.SOLVED b = movedAlg Cube3.SOLVED a → 15 ≤ b.length := by
  by_contra hno
  have all : ∀ c : Cube3, (∃ w : List AxisMove, (∀ m ∈ w, m.amount = .double) ∧ w.length ≤ 15 ∧ movedAlg Cube3.SOLVED w = c) ↔
      ∃ w : List AxisMove, (∀ m ∈ w, m.amount = .double) ∧ w.length ≤ 14 ∧ movedAlg Cube3.SOLVED w = c := by
    intro c
    constructor
    · rintro ⟨w, h1, h2, h3⟩
      by_cases hw : w.length ≤ 14
      · exact ⟨w, h1, hw, h3⟩
      · by_contra hc
        refine hno ⟨w, h1, by omega, fun b hb e => ?_⟩
        by_contra hlt
        exact hc ⟨b, hb, by omega, e.trans h3⟩
    · rintro ⟨w, h1, h2, h3⟩
      exact ⟨w, h1, by omega, h3⟩
  have h1 := C107_states_by_half_turns 15
  have h2 := C107_states_by_half_turns 14
  rw [Nat.card_congr (Equiv.subtypeEquivRight all), h2] at h1
  revert h1
  decide

/-- **C107** Seen from a state: when half turns solve it at all, fifteen of them do. -/
theorem C107_solved_by_half_turns (c : Cube3) (a : List AxisMove) (ha : ∀ m ∈ a, m.amount = .double)
    (h : movedAlg c a = Cube3.SOLVED) :
    ∃ b : List AxisMove, (∀ m ∈ b, m.amount = .double) ∧ b.length ≤ 15 ∧ movedAlg c b = Cube3.SOLVED := by
  obtain ⟨b, h1, h2, h3⟩ := C107_fifteen_half_turns a ha
  exact ⟨b, h1, h2, (h3 c).trans h⟩

/-- Hypotheses met: the alg of sixteen half turns below is longer than fifteen and does change the cube. -/
example : ∃ a : List AxisMove, (∀ m ∈ a, m.amount = .double) ∧ a.length = 16 ∧ movedAlg Cube3.SOLVED a ≠ Cube3.SOLVED :=
  ⟨(List.replicate 8 [⟨.R, .double⟩, ⟨.U, .double⟩]).flatten, by decide, by decide, by decide +kernel⟩

end Barbarosa
