import Verif.Lemmas.TwoCount
import Verif.Props.TwoByTwo
import Verif.Props.LooksSolved

/-!
# C108: how many 2x2 states take how many moves

A 2x2 has no centers, so it counts as solved in the hand in every attitude: what is counted are moves until it looks solved.
-/

namespace Barbarosa

theorem path_whole : ∀ x : Corner, ∃ w ∈ wholeTurns, ∀ i : Fin 8,
    Two.rots w (PieceSet.SOLVED Corner i) = Two.rots (Two.path x) (PieceSet.SOLVED Corner i) := by decide +kernel

/-- a 2x2 looks solved if it is the solved one in some attitude -/
theorem looks_solved_rots (c : Cube2) :
    c.LooksSolved ↔ ∃ rs : List AxisRotation, ∀ i, c.corners i = Two.rots rs (PieceSet.SOLVED Corner i) := by
  rw [C79_looks_solved]
  constructor
  · rintro ⟨w, -, rfl⟩
    exact ⟨w, fun i => turnedAll_corners w _ i⟩
  · rintro ⟨rs, h⟩
    obtain ⟨w, hw, e⟩ := path_whole (Two.rots rs Two.q7)
    refine ⟨w, hw, Cube2.ext (funext fun i => ?_)⟩
    rw [h i, Two.rots_eq rs, ← e i]
    exact (turnedAll_corners w (Cube.SOLVED : Cube2) i).symm

theorem near_iff (n : Nat) (c : Cube2) :
    (∃ alg : List AxisMove, alg.length ≤ n ∧ (movedAlg c alg).LooksSolved) ↔ Two.NearTurned n c.corners := by
  constructor
  · rintro ⟨alg, h1, h2⟩
    obtain ⟨rs, h3⟩ := (looks_solved_rots _).1 h2
    exact ⟨alg, rs, h1, fun i => (cube2_alg_corners alg c i).symm.trans (h3 i)⟩
  · rintro ⟨alg, rs, h1, h2⟩
    exact ⟨alg, h1, (looks_solved_rots _).2 ⟨rs, fun i => (cube2_alg_corners alg c i).trans (h2 i)⟩⟩

theorem reachable_of_near {c : Cube2} {alg : List AxisMove} (h : (movedAlg c alg).LooksSolved) : c.Reachable := by
  obtain ⟨w, hw⟩ := C79_number.1 _ h
  refine ⟨w ++ reversed alg, ?_⟩
  have e : movedAlg (Cube.SOLVED : Cube2) (w ++ reversed alg) = movedAlg (movedAlg (Cube.SOLVED : Cube2) w) (reversed alg) :=
    List.foldl_append
  rw [e]
  exact (congrArg (fun d => movedAlg d (reversed alg)) hw).trans
    (C02_alg_then_reversed ⟨Cube2, AxisMove⟩ (by simp [moveSystems]) alg c).1

theorem near_reachable {c : Cube2} : (∃ alg : List AxisMove, alg.length ≤ 11 ∧ (movedAlg c alg).LooksSolved) ↔ c.Reachable := by
  constructor
  · rintro ⟨alg, -, h⟩
    exact reachable_of_near h
  · intro hc
    obtain ⟨b, h1, h2⟩ := C105_eleven_suffice c hc
    exact ⟨b, h1, by rw [h2]; exact (C79_looks_solved _).2 ⟨[], by decide, rfl⟩⟩

/-- what can be made to look solved can be made so with eleven moves -/
theorem near_eleven {n : Nat} {c : Cube2} (h : ∃ alg : List AxisMove, alg.length ≤ n ∧ (movedAlg c alg).LooksSolved) :
    ∃ alg : List AxisMove, alg.length ≤ 11 ∧ (movedAlg c alg).LooksSolved := by
  obtain ⟨alg, -, h⟩ := h
  exact near_reachable.2 (reachable_of_near h)

/-- **C108** How many states of the 2x2 can be made to look solved with at most `n` moves, for every `n`: each of the numbers below
in each of the 24 attitudes. Eleven moves are enough for all 3674160 (times 24). -/
theorem C108_within (n : Nat) :
    Nat.card { c : Cube2 // ∃ alg : List AxisMove, alg.length ≤ n ∧ (movedAlg c alg).LooksSolved } =
      24 * [1, 10, 64, 385, 2232, 12224, 62360, 289896, 1159968, 3047716, 3671516].getD n 3674160 := by
  have h : ∀ k, Nat.card { c : Cube2 // ∃ alg : List AxisMove, alg.length ≤ k ∧ (movedAlg c alg).LooksSolved } =
      Nat.card { s : PieceSet Corner 8 // Two.NearTurned k s } := fun k =>
    Nat.card_congr ⟨fun c => ⟨c.1.corners, (near_iff k c.1).1 c.2⟩, fun s => ⟨⟨s.1⟩, (near_iff k ⟨s.1⟩).2 s.2⟩, fun _ => rfl,
      fun _ => rfl⟩
  by_cases hn : n < 11
  · rw [h, Two.card_near (by omega)]
    revert n
    decide
  · have e : Nat.card { c : Cube2 // ∃ alg : List AxisMove, alg.length ≤ n ∧ (movedAlg c alg).LooksSolved } =
        Nat.card { c : Cube2 // ∃ alg : List AxisMove, alg.length ≤ 11 ∧ (movedAlg c alg).LooksSolved } :=
      Nat.card_congr (Equiv.subtypeEquivRight fun c => ⟨near_eleven, fun ⟨w, h1, h2⟩ => ⟨w, by omega, h2⟩⟩)
    rw [e, h, Two.card_near (by decide)]
    exact congrArg (24 * ·) (List.getD_eq_default _ 3674160 (by simpa using hn)).symm

example : Nat.card { c : Cube2 // ∃ alg : List AxisMove, alg.length ≤ 1 ∧ (movedAlg c alg).LooksSolved } = 240 := C108_within 1

/-- the states that at most `n` moves make look solved -/
def nearStates (n : Nat) : Set Cube2 := { c | ∃ alg : List AxisMove, alg.length ≤ n ∧ (movedAlg c alg).LooksSolved }

theorem card_further {n m : Nat} (h : n ≤ m) : Nat.card { c : Cube2 // c ∈ nearStates m \ nearStates n } =
    24 * [1, 10, 64, 385, 2232, 12224, 62360, 289896, 1159968, 3047716, 3671516].getD m 3674160 -
      24 * [1, 10, 64, 385, 2232, 12224, 62360, 289896, 1159968, 3047716, 3671516].getD n 3674160 := by
  have sub : nearStates n ⊆ nearStates m := fun c ⟨w, h1, h2⟩ => ⟨w, h1.trans h, h2⟩
  have e := Set.ncard_sdiff sub (Set.toFinite _)
  rw [← Nat.card_coe_set_eq, ← Nat.card_coe_set_eq, ← Nat.card_coe_set_eq] at e
  exact e.trans (congrArg₂ (· - ·) (C108_within m) (C108_within n))

theorem exactly_iff (n : Nat) (c : Cube2) : ((∃ alg : List AxisMove, alg.length = n + 1 ∧ (movedAlg c alg).LooksSolved) ∧
      ∀ alg : List AxisMove, (movedAlg c alg).LooksSolved → n + 1 ≤ alg.length) ↔ c ∈ nearStates (n + 1) \ nearStates n := by
  constructor
  · rintro ⟨⟨w, h1, h2⟩, h3⟩
    refine ⟨⟨w, h1.le, h2⟩, ?_⟩
    rintro ⟨v, h4, h5⟩
    have := h3 v h5
    omega
  · rintro ⟨⟨w, h1, h2⟩, h3⟩
    have h4 : ∀ alg : List AxisMove, (movedAlg c alg).LooksSolved → n + 1 ≤ alg.length := fun v hv => by
      by_contra hlt
      exact h3 ⟨v, by omega, hv⟩
    exact ⟨⟨w, le_antisymm h1 (h4 w h2), h2⟩, h4⟩

/-- **C108** How many states take exactly `n` moves until the 2x2 looks solved: for 11 moves 2644 (times 24), and none takes more. -/
theorem C108_exactly (n : Nat) :
    Nat.card { c : Cube2 // (∃ alg : List AxisMove, alg.length = n ∧ (movedAlg c alg).LooksSolved) ∧
      ∀ alg : List AxisMove, (movedAlg c alg).LooksSolved → n ≤ alg.length } =
      24 * [1, 9, 54, 321, 1847, 9992, 50136, 227536, 870072, 1887748, 623800, 2644].getD n 0 := by
  cases n with
  | zero =>
    refine (Nat.card_congr (Equiv.subtypeEquivRight fun c => ⟨?_, ?_⟩)).trans (C108_within 0)
    · rintro ⟨⟨w, h1, h2⟩, -⟩
      exact ⟨w, h1.le, h2⟩
    · rintro ⟨w, h1, h2⟩
      exact ⟨⟨w, Nat.le_zero.1 h1, h2⟩, fun _ _ => Nat.zero_le _⟩
  | succ n =>
    rw [Nat.card_congr (Equiv.subtypeEquivRight (exactly_iff n))]
    refine (card_further (Nat.le_succ n)).trans ?_
    by_cases hn : n < 11
    · revert n
      decide
    · rw [List.getD_eq_default _ _ (by simp; omega), List.getD_eq_default _ _ (by simp; omega), List.getD_eq_default _ _ (by simp; omega)]

/-- no 2x2 needs twelve moves -/
example : Nat.card { c : Cube2 // (∃ alg : List AxisMove, alg.length = 12 ∧ (movedAlg c alg).LooksSolved) ∧
    ∀ alg : List AxisMove, (movedAlg c alg).LooksSolved → 12 ≤ alg.length } = 0 := C108_exactly 12

/-- **C108** Every state that turns lead to is among them: for each some number of moves makes it look solved, and that number is at
most 11. -/
theorem C108_all (c : Cube2) (h : c.Reachable) : ∃ n ≤ 11, (∃ alg : List AxisMove, alg.length = n ∧ (movedAlg c alg).LooksSolved) ∧
    ∀ alg : List AxisMove, (movedAlg c alg).LooksSolved → n ≤ alg.length := by
  classical
  obtain ⟨b, h1, h2⟩ := C105_eleven_suffice c h
  have hb : (movedAlg c b).LooksSolved := by rw [h2]; exact (C79_looks_solved _).2 ⟨[], by decide, rfl⟩
  have ex : ∃ n, ∃ alg : List AxisMove, alg.length = n ∧ (movedAlg c alg).LooksSolved := ⟨_, b, rfl, hb⟩
  exact ⟨Nat.find ex, (Nat.find_min' ex ⟨b, rfl, hb⟩).trans h1, Nat.find_spec ex, fun w hw => Nat.find_min' ex ⟨w, rfl, hw⟩⟩

example : ∃ n ≤ 11, (∃ alg : List AxisMove, alg.length = n ∧ (movedAlg (movedAlg (Cube.SOLVED : Cube2) Perms.T) alg).LooksSolved) ∧
    ∀ alg : List AxisMove, (movedAlg (movedAlg (Cube.SOLVED : Cube2) Perms.T) alg).LooksSolved → n ≤ alg.length :=
  C108_all _ ⟨_, rfl⟩

/-- **C108** More than half of the states take nine moves or more. -/
theorem C108_most : Nat.card { c : Cube2 // c.Reachable } <
    2 * Nat.card { c : Cube2 // c.Reachable ∧ ∀ alg : List AxisMove, (movedAlg c alg).LooksSolved → 9 ≤ alg.length } := by
  have h1 : Nat.card { c : Cube2 // c.Reachable } =
      Nat.card { c : Cube2 // ∃ alg : List AxisMove, alg.length ≤ 11 ∧ (movedAlg c alg).LooksSolved } :=
    Nat.card_congr (Equiv.subtypeEquivRight fun c => near_reachable.symm)
  have h2 : Nat.card { c : Cube2 // c.Reachable ∧ ∀ alg : List AxisMove, (movedAlg c alg).LooksSolved → 9 ≤ alg.length } =
      Nat.card { c : Cube2 // c ∈ nearStates 11 \ nearStates 8 } := by
    refine Nat.card_congr (Equiv.subtypeEquivRight fun c => ?_)
    constructor
    · rintro ⟨hc, h⟩
      refine ⟨near_reachable.2 hc, ?_⟩
      rintro ⟨w, h3, h4⟩
      have := h w h4
      omega
    · rintro ⟨h3, h4⟩
      refine ⟨near_reachable.1 h3, fun w hw => ?_⟩
      by_contra hlt
      exact h4 ⟨w, by omega, hw⟩
  rw [h1, h2, C108_within, card_further (by decide)]
  decide

/-- Hypotheses met: a 2x2 that looks solved after one move though no single move brings it to `SOLVED`. -/
example : ∃ c : Cube2, c.Reachable ∧ (∃ alg : List AxisMove, alg.length = 1 ∧ (movedAlg c alg).LooksSolved) ∧
    ∀ m : AxisMove, moved c m ≠ (Cube.SOLVED : Cube2) := by
  refine ⟨movedAlg (Cube.SOLVED : Cube2) [(⟨.R, .single⟩ : AxisMove), ⟨.L, .double⟩], ⟨_, rfl⟩,
    ⟨[⟨.L, .single⟩], rfl, (looks_solved_rots _).2 ⟨[⟨.X, .single⟩], by decide +kernel⟩⟩, ?_⟩
  decide +kernel

end Barbarosa
