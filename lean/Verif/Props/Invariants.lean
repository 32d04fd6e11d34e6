import Verif.Lemmas.Phases
import Verif.Lemmas.PartStages
import Verif.Lemmas.TwoSolve
import Verif.Lemmas.Sampling
import Verif.Props.Moves
import Mathlib.Tactic.Abel

/-!
# C12–C17, C58: invariants, solvability and random cubes
-/

namespace Barbarosa

open Equiv

theorem valid_iff (c : Cube3) : c.valid ↔ c.edges.Valid ∧ c.corners.Valid := by
  unfold Cube3.valid
  rw [PieceSet.validate_eq_none, PieceSet.validate_eq_none]

/-! ## C12 -/

theorem conserved_alg (c : Cube3) (he : c.edges.Valid) (hc : c.corners.Valid) (alg : List AxisMove) :
    Conserved c (movedAlg c alg) ∧ (movedAlg c alg).edges.Valid ∧ (movedAlg c alg).corners.Valid := by
  induction alg generalizing c with
  | nil => exact ⟨⟨fun σ τ h1 h2 => ⟨σ, τ, h1, h2, rfl⟩, rfl, rfl⟩, he, hc⟩
  | cons m l ih =>
    obtain ⟨h1, h2, h3⟩ := conserved_moved c he hc m
    obtain ⟨k1, k2, k3⟩ := ih (moved c m) h2 h3
    refine ⟨⟨fun σ τ a b => ?_, k1.flips.trans h1.flips, k1.twists.trans h1.twists⟩, k2, k3⟩
    obtain ⟨σ', τ', a', b', e⟩ := h1.parity σ τ a b
    obtain ⟨σ'', τ'', a'', b'', e'⟩ := k1.parity σ' τ' a' b'
    exact ⟨σ'', τ'', a'', b'', e'.trans e⟩

/-- a valid cube that is not solvable: one edge flipped -/
def oneFlip : Cube3 := ⟨Function.update Cube3.SOLVED.edges 3 (Cube3.SOLVED.edges 3).flip, Cube3.SOLVED.corners⟩

/-- **C12** On every valid 3x3 (solvable or not) an alg of any length changes neither the product of the signs of the edge
and corner permutations, nor the parity of the number of oriented edges, nor the sum of the corner orientation indices
modulo 3. -/
theorem C12_conserved (c : Cube3) (hc : c.valid) (alg : List AxisMove) :
    (∃ σ τ σ' τ', c.edges.Arranged σ ∧ c.corners.Arranged τ ∧
      (movedAlg c alg).edges.Arranged σ' ∧ (movedAlg c alg).corners.Arranged τ' ∧
      Perm.sign σ' * Perm.sign τ' = Perm.sign σ * Perm.sign τ) ∧
    (Finset.univ.filter fun i => ((movedAlg c alg).edges i).oriented = true).card ≡
      (Finset.univ.filter fun i => (c.edges i).oriented = true).card [MOD 2] ∧
    (∑ i, ((movedAlg c alg).corners i).orientationIndex) ≡ (∑ i, (c.corners i).orientationIndex) [MOD 3] := by
  rw [valid_iff] at hc
  obtain ⟨h, -, -⟩ := conserved_alg c hc.1 hc.2 alg
  obtain ⟨σ, hσ⟩ := hc.1.arranged
  obtain ⟨τ, hτ⟩ := hc.2.arranged
  obtain ⟨σ', τ', a, b, e⟩ := h.parity σ τ hσ hτ
  refine ⟨⟨σ, τ, σ', τ', hσ, hτ, a, b, e⟩, ?_, ?_⟩
  · rw [← ZMod.natCast_eq_natCast_iff, ← edgeBits_card, ← edgeBits_card]
    exact h.flips
  · rw [← ZMod.natCast_eq_natCast_iff]
    have := h.twists
    unfold cornerTrit at this
    push_cast
    exact this

/-- a flipped edge stays one, whatever is done -/
example (alg : List AxisMove) : movedAlg oneFlip alg ≠ Cube3.SOLVED := by
  intro h
  have := (C12_conserved oneFlip (by unfold Cube3.valid; decide +kernel) alg).2.1
  rw [h] at this
  exact absurd this (by unfold Nat.ModEq; decide +kernel)

/-- **C12** In particular the three invariants, once they hold, hold after every alg. -/
theorem C12_lawful (c : Cube3) (h : c.Lawful) (alg : List AxisMove) : (movedAlg c alg).Lawful := lawful_alg c h alg

example : oneFlip.valid ∧
    (Finset.univ.filter fun i => ((movedAlg oneFlip Perms.SEXY_MOVE).edges i).oriented = true).card % 2 = 1 ∧
    (∑ i, ((movedAlg oneFlip Perms.SEXY_MOVE).corners i).orientationIndex) % 3 = 0 ∧ Cube3.SOLVED.Lawful :=
  ⟨by unfold Cube3.valid; decide +kernel, by decide +kernel, by decide +kernel, lawful_solved⟩

/-! ## C13 -/

/-- **C13** Whatever the random generator returns, sampling does not panic and the cube is a valid arrangement that
satisfies all three invariants. -/
theorem C13_random_lawful (d : Draw3) : ∃ c, sampleCube3? d = some c ∧ c.valid ∧ c.Lawful := by
  obtain ⟨c, h1, h2⟩ := sampleCube3?_lawful d
  exact ⟨c, h1, (valid_iff c).2 ⟨h2.edges_valid, h2.corners_valid⟩, h2⟩

/-- nothing shuffled, one edge flipped: the parities are corrected -/
example : ∃ c, sampleCube3? ⟨1, 1, fun i => i ≠ 3, fun _ => .Y⟩ = some c ∧ c.valid ∧ c.Lawful := C13_random_lawful _

/-- **C13** Each step repairs its own invariant and the later ones do not undo it: after the swap the parities agree,
whatever flips and twists follow; the flip and the twist repair the other two. The steps touch nothing but the slots the
documentation names: the first two edge slots, the last edge slot, the last corner slot. -/
theorem C13_steps (c : Cube3) (hc : c.valid) :
    ∃ c₁ c₂, fixSwapParity? c = some c₁ ∧ fixInvariants? c = some c₂ ∧
      (∃ σ τ, c₁.edges.Arranged σ ∧ c₁.corners.Arranged τ ∧ Perm.sign σ = Perm.sign τ ∧
        c₂.edges.Arranged σ ∧ c₂.corners.Arranged τ) ∧
      c₂.Lawful ∧
      (∀ i, i ≠ 0 → i ≠ 1 → c₁.edges i = c.edges i) ∧ c₁.corners = c.corners ∧
      (∀ i, i ≠ 11 → c₂.edges i = c₁.edges i) ∧ (c₂.edges 11).position = (c₁.edges 11).position ∧
      (∀ i, i ≠ 7 → c₂.corners i = c.corners i) ∧ (c₂.corners 7).position = (c.corners 7).position := by
  rw [valid_iff] at hc
  obtain ⟨σ, hσ⟩ := hc.1.arranged
  obtain ⟨τ, hτ⟩ := hc.2.arranged
  refine ⟨_, _, fixSwapParity?_eq hσ hτ, sample_of_valid hσ hτ, ?_, fixUp_lawful hσ hτ, ?_, ?_, ?_, ?_, ?_, ?_⟩
  · obtain ⟨a1, a2⟩ := fixUp_arranged hσ hτ (decide (Perm.sign σ ≠ Perm.sign τ)) false 0
    obtain ⟨b1, b2⟩ := fixUp_arranged hσ hτ (decide (Perm.sign σ ≠ Perm.sign τ))
      (decide (∑ i, edgeBit (c.edges i) ≠ 0)) (-∑ i, cornerTrit (c.corners i))
    refine ⟨_, _, a1, a2, ?_, b1, b2⟩
    obtain ⟨⟨σ', τ', k1, k2, k3⟩, -, -⟩ := fixUp_lawful hσ hτ
    rw [b1.unique k1, b2.unique k2, k3]
  · intro i h0 h1
    cases decide (Perm.sign σ ≠ Perm.sign τ) <;> simp [fixUp, PieceSet.swapAt_apply, swap_apply_of_ne_of_ne h0 h1]
  · funext i
    simp [fixUp]
  · intro i hi
    simp [fixUp, hi]
  · cases decide (∑ i, edgeBit (c.edges i) ≠ 0) 
    · simp [fixUp]
    · simp [fixUp]; rfl
  · intro i hi
    simp [fixUp, hi]
  · exact twists_position _ _

/-- draws for which every step acts: one swap of corners, one edge drawn unoriented, one corner drawn twisted -/
def someDraw : Draw3 := ⟨1, swap 0 5, fun i => i != 4, fun i => if i = 2 then .X else .Y⟩

example : sampleCube3? someDraw ≠ some someDraw.raw ∧
    ((sampleCube3? someDraw).map fun c => c.edges 0) = some (someDraw.raw.edges 1) ∧
    ((sampleCube3? someDraw).map fun c => (c.edges 11).oriented) = some false ∧
    ((sampleCube3? someDraw).map fun c => (c.corners 7).orientationAxis) ≠ some .Y := by decide +kernel

/-! ## C15 -/

theorem reachable_solvable (c : Cube3) : c.Reachable ↔ c.Solvable := by
  constructor
  · rintro ⟨alg, rfl⟩
    exact ⟨reversed alg, (C02_alg_then_reversed ⟨Cube3, AxisMove⟩ (by simp [moveSystems]) alg Cube3.SOLVED).1⟩
  · rintro ⟨alg, h⟩
    refine ⟨reversed alg, ?_⟩
    rw [← h]
    exact (C02_alg_then_reversed ⟨Cube3, AxisMove⟩ (by simp [moveSystems]) alg c).1

/-- **C15** A 3x3 state can be obtained from the solved one by face turns if and only if it satisfies the three invariants
(`Lawful` includes that the arrangement is valid); the same states are the ones that can be solved; and then at most 45
moves are needed. -/
theorem C15_reachable_iff (c : Cube3) :
    (c.Reachable ↔ c.Lawful) ∧ (c.Solvable ↔ c.Lawful) ∧ (c.Lawful → c.valid) ∧
    (c.Lawful → ∃ alg : List AxisMove, alg.length ≤ 45 ∧ movedAlg c alg = Cube3.SOLVED) := by
  have h : c.Reachable → c.Lawful := by
    rintro ⟨alg, rfl⟩
    exact lawful_alg _ lawful_solved alg
  have h' : c.Lawful → c.Solvable := fun hc => by
    obtain ⟨w, -, hw⟩ := lawful_solvable c hc
    exact ⟨w, hw⟩
  exact ⟨⟨h, fun hc => (reachable_solvable c).2 (h' hc)⟩, ⟨fun hs => h ((reachable_solvable c).2 hs), h'⟩,
    fun hl => (valid_iff c).2 ⟨hl.edges_valid, hl.corners_valid⟩, lawful_solvable c⟩

/-- from the sexy move to the law and back -/
example : (movedAlg Cube3.SOLVED Perms.SEXY_MOVE).Lawful ∧ ¬ oneFlip.Lawful :=
  ⟨(C15_reachable_iff _).1.1 ⟨_, rfl⟩, fun h => by
    have := h
    obtain ⟨alg, -, ha⟩ := (C15_reachable_iff _).2.2.2 h
    have := (C12_conserved oneFlip (by unfold Cube3.valid; decide +kernel) alg).2.1
    rw [ha] at this
    exact absurd this (by unfold Nat.ModEq; decide +kernel)⟩

theorem sum_update {n : Nat} {P A : Type} [AddCommGroup A] (s : Fin n → P) (i : Fin n) (p : P) (g : P → A) :
    ∑ j, g (Function.update s i p j) = ∑ j, g (s j) + (g p - g (s i)) := by
  rw [← Finset.add_sum_erase _ _ (Finset.mem_univ i), ← Finset.add_sum_erase Finset.univ (fun j => g (s j)) (Finset.mem_univ i),
    Function.update_self, Finset.sum_congr rfl fun j hj => by rw [Function.update_of_ne (Finset.ne_of_mem_erase hj)]]
  abel

/-- **C15** Take any state that can be solved. Flip one edge, twist one corner (either way), exchange two edges or exchange
two corners: the result cannot be solved. -/
theorem C15_single_defects (c : Cube3) (h : c.Solvable) :
    (∀ i, ¬ (⟨Function.update c.edges i (c.edges i).flip, c.corners⟩ : Cube3).Solvable) ∧
    (∀ i, ¬ (⟨c.edges, Function.update c.corners i (c.corners i).twist⟩ : Cube3).Solvable) ∧
    (∀ i, ¬ (⟨c.edges, Function.update c.corners i (c.corners i).twist.twist⟩ : Cube3).Solvable) ∧
    (∀ i j, i ≠ j → ¬ (⟨c.edges.swapAt i j, c.corners⟩ : Cube3).Solvable) ∧
    (∀ i j, i ≠ j → ¬ (⟨c.edges, c.corners.swapAt i j⟩ : Cube3).Solvable) := by
  rw [(C15_reachable_iff c).2.1] at h
  obtain ⟨⟨σ, τ, h1, h2, h3⟩, h4, h5⟩ := h
  rw [even_flips_iff] at h4
  rw [twists_iff] at h5
  have tw : ∀ c : Corner, cornerTrit c.twist = cornerTrit c + 1 := by decide +kernel
  have neg : ∀ x : ℤˣ, x * -1 ≠ x := by decide
  refine ⟨fun i hs => ?_, fun i hs => ?_, fun i hs => ?_, fun i j hij hs => ?_, fun i j hij hs => ?_⟩
  · have := (even_flips_iff _).1 (((C15_reachable_iff _).2.1.1 hs).flips)
    simp only at this
    rw [sum_update, h4, edgeBit_flip] at this
    simp at this
  · have := (twists_iff _).1 (((C15_reachable_iff _).2.1.1 hs).twists)
    simp only at this
    rw [sum_update, h5, tw] at this
    simp at this
  · have := (twists_iff _).1 (((C15_reachable_iff _).2.1.1 hs).twists)
    simp only at this
    rw [sum_update, h5, tw, tw, add_assoc, add_sub_cancel_left] at this
    exact absurd this (by decide)
  · obtain ⟨σ', τ', a, b, e⟩ := ((C15_reachable_iff _).2.1.1 hs).parity
    rw [← a.unique (swapAt_arranged h1 i j) |>.symm, ← b.unique h2 |>.symm, Perm.sign_mul, Perm.sign_swap hij, h3] at e
    exact neg _ e
  · obtain ⟨σ', τ', a, b, e⟩ := ((C15_reachable_iff _).2.1.1 hs).parity
    rw [← b.unique (swapAt_arranged h2 i j) |>.symm, ← a.unique h1 |>.symm, Perm.sign_mul, Perm.sign_swap hij, h3] at e
    exact neg _ e.symm

/-- the cube after the sexy move is solvable, and its edge 3 flipped is a valid cube that is not -/
example : (movedAlg Cube3.SOLVED Perms.SEXY_MOVE).Solvable ∧ ¬ oneFlip.Solvable ∧ oneFlip.valid :=
  ⟨(reachable_solvable _).1 ⟨_, rfl⟩, (C15_single_defects Cube3.SOLVED ⟨[], rfl⟩).1 3, by unfold Cube3.valid; decide +kernel⟩

/-! ## C14 -/

/-- **C14** Every cube the random generator can return can be solved, in at most 45 moves. -/
theorem C14_random_solvable (d : Draw3) :
    ∃ c, sampleCube3? d = some c ∧ ∃ alg : List AxisMove, alg.length ≤ 45 ∧ movedAlg c alg = Cube3.SOLVED := by
  obtain ⟨c, h1, h2⟩ := sampleCube3?_lawful d
  exact ⟨c, h1, lawful_solvable c h2⟩

/-- not all of them are solved already -/
example : sampleCube3? someDraw ≠ some Cube3.SOLVED := by decide +kernel

/-! ## C16 -/

/-- **C16** Exactly 43,252,003,274,489,856,000 states of the 3x3 can be reached from the solved one. -/
theorem C16_number_of_states : Nat.card { c : Cube3 // c.Reachable } = 43252003274489856000 := by
  rw [← card_lawful]
  exact Nat.card_congr (Equiv.subtypeEquivRight fun c => (C15_reachable_iff c).1)

/-- **C16** They are one twelfth of all valid arrangements. -/
theorem C16_one_in_twelve :
    Nat.card { c : Cube3 // c.valid } = 12 * Nat.card { c : Cube3 // c.Reachable } := by
  have e : Draw3 ≃ { c : Cube3 // c.valid } :=
    Equiv.ofBijective (fun d => ⟨d.raw, (valid_iff _).2 ⟨(raw_arranged d).1.valid, (raw_arranged d).2.valid⟩⟩)
      ⟨fun a b h => raw_injective (congrArg Subtype.val h), fun c => by
        obtain ⟨he, hc⟩ := (valid_iff _).1 c.2
        obtain ⟨d, hd⟩ := raw_surjective he hc
        exact ⟨d, Subtype.ext hd⟩⟩
  rw [← Nat.card_congr e, Nat.card_eq_fintype_card, card_draws, C16_number_of_states]
  decide +kernel

example : Cube3.Reachable (movedAlg Cube3.SOLVED Perms.SEXY_MOVE) ∧ movedAlg Cube3.SOLVED Perms.SEXY_MOVE ≠ Cube3.SOLVED :=
  ⟨⟨_, rfl⟩, by decide +kernel⟩

/-! ## C58 -/

/-- **C58** The random generator covers the puzzle without bias: every state that can be solved comes from exactly 12
outcomes of the draws (so it has the same probability as any other if the draws are uniform), every other state from none. -/
theorem C58_uniform (c : Cube3) :
    Nat.card { d : Draw3 // sampleCube3? d = some c } = open Classical in if c.Solvable then 12 else 0 := by
  classical
  by_cases h : c.Solvable
  · rw [if_pos h]
    exact draws_of_lawful c ((C15_reachable_iff c).2.1.1 h)
  · rw [if_neg h]
    have : IsEmpty { d : Draw3 // sampleCube3? d = some c } := ⟨fun ⟨d, hd⟩ => by
      obtain ⟨c', h1, h2⟩ := sampleCube3?_lawful d
      rw [hd] at h1
      obtain rfl := Option.some.inj h1
      exact h ((C15_reachable_iff c).2.1.2 h2)⟩
    exact Nat.card_of_isEmpty

example : Nat.card { d : Draw3 // sampleCube3? d = some Cube3.SOLVED } = 12 ∧
    Nat.card { d : Draw3 // sampleCube3? d = some oneFlip } = 0 := by
  rw [C58_uniform, C58_uniform, if_pos ⟨[], rfl⟩, if_neg (show ¬ oneFlip.Solvable from (C15_single_defects Cube3.SOLVED ⟨[], rfl⟩).1 3)]
  exact ⟨rfl, rfl⟩

/-! ## C17 -/

theorem cube2_corners_alg (c : Cube3) (w : List AxisMove) : (movedAlg (⟨c.corners⟩ : Cube2) w) = ⟨(movedAlg c w).corners⟩ := by
  induction w generalizing c with
  | nil => rfl
  | cons m w ih => exact ih (moved c m)

theorem cube2_lawful_solvable (c : Cube2) (h : c.Lawful) :
    ∃ w : List AxisMove, w.length ≤ 11 ∧ movedAlg c w = (Cube.SOLVED : Cube2) := by
  obtain ⟨⟨τ, hτ⟩, ht⟩ := h
  obtain ⟨w, hw1, hw2⟩ := corners_solvable c.corners hτ.valid ht
  refine ⟨w, hw1, (cube2_corners_alg ⟨Cube3.SOLVED.edges, c.corners⟩ w).trans (Cube2.ext (funext fun i => ?_))⟩
  exact (cube3_corners_alg ⟨Cube3.SOLVED.edges, c.corners⟩ w i).trans (hw2 i)

theorem cube2_lawful_alg (c : Cube2) (h : c.Lawful) (w : List AxisMove) : (movedAlg c w).Lawful := by
  obtain ⟨⟨τ, hτ⟩, ht⟩ := h
  have hv : (Cube3.SOLVED.edges).Valid := lawful_solved.edges_valid
  obtain ⟨h1, h2, h3⟩ := conserved_alg ⟨Cube3.SOLVED.edges, c.corners⟩ hv hτ.valid w
  rw [show c = ⟨(⟨Cube3.SOLVED.edges, c.corners⟩ : Cube3).corners⟩ from rfl, cube2_corners_alg]
  refine ⟨h3.arranged, ?_⟩
  rw [twists_iff] at ht ⊢
  exact h1.twists.trans ht

/-- **C17** A 2x2 state can be reached (equivalently: solved) by face turns iff it is a valid arrangement whose twists add
up to a multiple of three; then at most 11 moves are needed. -/
theorem C17_reachable_iff (c : Cube2) :
    (c.Reachable ↔ c.Lawful) ∧ (c.Solvable ↔ c.Lawful) ∧
    (c.Lawful → ∃ alg : List AxisMove, alg.length ≤ 11 ∧ movedAlg c alg = Cube.SOLVED) := by
  have hsol : (Cube.SOLVED : Cube2).Lawful := by
    obtain ⟨⟨σ, τ, -, a, -⟩, -, b⟩ := lawful_solved
    exact ⟨⟨τ, a⟩, b⟩
  have rs : c.Reachable ↔ c.Solvable := by
    constructor
    · rintro ⟨alg, rfl⟩
      exact ⟨reversed alg, (C02_alg_then_reversed ⟨Cube2, AxisMove⟩ (by simp [moveSystems]) alg _).1⟩
    · rintro ⟨alg, h⟩
      refine ⟨reversed alg, ?_⟩
      rw [← h]
      exact (C02_alg_then_reversed ⟨Cube2, AxisMove⟩ (by simp [moveSystems]) alg c).1
  have h : c.Reachable → c.Lawful := by
    rintro ⟨alg, rfl⟩
    exact cube2_lawful_alg _ hsol alg
  have h' : c.Lawful → c.Solvable := fun hc => by
    obtain ⟨w, -, hw⟩ := cube2_lawful_solvable c hc
    exact ⟨w, hw⟩
  exact ⟨⟨h, fun hc => rs.2 (h' hc)⟩, ⟨fun hs => h (rs.2 hs), h'⟩, cube2_lawful_solvable c⟩

/-- the sexy move on a 2x2 -/
example : (movedAlg (Cube.SOLVED : Cube2) Perms.SEXY_MOVE).Lawful := (C17_reachable_iff _).1.1 ⟨_, rfl⟩

theorem sampleCube2?_eq (σ : Perm (Fin 8)) : sampleCube2? σ = some ⟨(PieceSet.SOLVED Corner).shuffle σ⟩ := by
  unfold sampleCube2?
  have h := fixCornerMultiplicity?_eq ⟨Cube3.SOLVED.edges, (PieceSet.SOLVED Corner).shuffle σ⟩
  simp only at h
  rw [h]
  have hz : ∑ i, cornerTrit ((PieceSet.SOLVED Corner).shuffle σ i) = 0 :=
    (Equiv.sum_comp σ fun i => cornerTrit (PieceSet.SOLVED Corner i)).trans (by decide +kernel)
  rw [hz]
  have e : (fixUp false false (-0) ⟨Cube3.SOLVED.edges, (PieceSet.SOLVED Corner).shuffle σ⟩).corners =
      (PieceSet.SOLVED Corner).shuffle σ := by
    funext i
    by_cases hi : i = 7 <;> simp [fixUp, hi]
  rw [e]

/-- **C17**, the first half and the part of the second half that holds: sampling a 2x2 never panics and the result can be
solved; the states sampled are exactly the valid arrangements in which every corner is oriented (each of the 8! ones
from exactly one outcome of the shuffle).

What is missing: coverage of the states with twisted corners, which `C17_not_covering` refutes. -/
theorem C17_random_partial :
    (∀ σ, ∃ c, sampleCube2? σ = some c ∧ c.Solvable) ∧
    (∀ c : Cube2, (∃ σ, sampleCube2? σ = some c) ↔
      c.corners.validate = none ∧ ∀ i, (c.corners i).orientationAxis = .Y) ∧
    (∀ σ σ', sampleCube2? σ = sampleCube2? σ' → σ = σ') := by
  have harr : ∀ σ, ((PieceSet.SOLVED Corner).shuffle σ : PieceSet Corner 8).Arranged σ := fun σ i => rfl
  refine ⟨fun σ => ⟨_, sampleCube2?_eq σ, ?_⟩, fun c => ⟨?_, ?_⟩, fun σ σ' h => ?_⟩
  · rw [(C17_reachable_iff _).2.1]
    refine ⟨⟨σ, harr σ⟩, ?_⟩
    rw [twists_iff]
    exact (Equiv.sum_comp σ fun i => cornerTrit (PieceSet.SOLVED Corner i)).trans (by decide +kernel)
  · rintro ⟨σ, h⟩
    rw [sampleCube2?_eq] at h
    obtain rfl := Option.some.inj h
    exact ⟨(PieceSet.validate_eq_none _).2 (harr σ).valid, fun i => rfl⟩
  · rintro ⟨h1, h2⟩
    obtain ⟨σ, hσ⟩ := ((PieceSet.validate_eq_none _).1 h1).arranged
    refine ⟨σ, ?_⟩
    rw [sampleCube2?_eq]
    congr 1
    refine Cube2.ext (funext fun i => ?_)
    have a := hσ i
    have b := h2 i
    show PieceSet.SOLVED Corner (σ i) = c.corners i
    have a' : (c.corners i).position = (PieceSet.SOLVED Corner (σ i)).position := a
    generalize c.corners i = x at a' b ⊢
    obtain ⟨p, o⟩ := x
    simp only at a' b
    subst a' b
    rfl
  · rw [sampleCube2?_eq, sampleCube2?_eq] at h
    have e : (PieceSet.SOLVED Corner : PieceSet Corner 8).shuffle σ = (PieceSet.SOLVED Corner).shuffle σ' :=
      congrArg Cube2.corners (Option.some.inj h)
    have a := harr σ'
    rw [← e] at a
    exact (harr σ).unique a

/-- so no draw gives the state after one turn of F -/
example : ¬ ∃ σ, sampleCube2? σ = some (moved (Cube.SOLVED : Cube2) (⟨Face.F, .single⟩ : AxisMove)) := by
  intro h
  have := ((C17_random_partial.2.1 _).1 h).2
  revert this
  decide +kernel

/-- **C17** The second half fails: the state after one turn of the right face is reachable, yet no outcome of the random
generator gives it, because the orientations of the corners are never drawn. -/
theorem C17_not_covering : ∃ c : Cube2, c.Reachable ∧ ∀ σ, sampleCube2? σ ≠ some c := by
  refine ⟨movedAlg Cube.SOLVED [(⟨Face.R, .single⟩ : AxisMove)], ⟨_, rfl⟩, fun σ h => ?_⟩
  have := ((C17_random_partial.2.1 _).1 ⟨σ, h⟩).2 0
  revert this
  decide +kernel

example : ∃ c, sampleCube2? (swap 0 3) = some c ∧ c ≠ Cube.SOLVED := ⟨_, sampleCube2?_eq _, by decide +kernel⟩

end Barbarosa
