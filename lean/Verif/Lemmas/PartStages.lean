import Verif.Lemmas.PartTables
import Verif.Lemmas.StagesSound

/-!
# Solving six edges alone

The six edges of the table for edges can be solved in 15 moves: three of them in 7, then the others in 8, from tables of words
that are checked in the kernel for every entry.
-/

namespace Barbarosa

open Equiv

/-! ## What the tables are checked for -/

/-- two codes with the same place -/
def samePlace (k x y : Nat) : Bool := Nat.beq (Nat.div x k) (Nat.div y k)

noncomputable def edgesA (x y z : Nat) : Bool :=
  cond (samePlace 2 x y) true (cond (samePlace 2 x z) true (cond (samePlace 2 y z) true
    (cond (Nat.beq (runEdge (wordAt 7 (edgeWordsA.getD x 0) (Nat.add (Nat.mul 24 y) z)) x) 0)
      (cond (Nat.beq (runEdge (wordAt 7 (edgeWordsA.getD x 0) (Nat.add (Nat.mul 24 y) z)) y) 4)
        (Nat.beq (runEdge (wordAt 7 (edgeWordsA.getD x 0) (Nat.add (Nat.mul 24 y) z)) z) 8) false) false)))

/-- the place of an edge is not 0, 2 or 4 -/
def awayFrom (x : Nat) : Bool :=
  cond (Nat.beq (Nat.div x 2) 0) false (cond (Nat.beq (Nat.div x 2) 2) false (!Nat.beq (Nat.div x 2) 4))

noncomputable def edgesBWord (w : List Nat) (x y z : Nat) : Bool :=
  cond (Nat.beq (runEdge w x) 2) (cond (Nat.beq (runEdge w y) 6) (cond (Nat.beq (runEdge w z) 10)
    (cond (Nat.beq (runEdge w 0) 0) (cond (Nat.beq (runEdge w 4) 4) (Nat.beq (runEdge w 8) 8) false) false) false) false) false

noncomputable def edgesB (x y z : Nat) : Bool :=
  cond (samePlace 2 x y) true (cond (samePlace 2 x z) true (cond (samePlace 2 y z) true
    (cond (awayFrom x) (cond (awayFrom y) (cond (awayFrom z)
      (edgesBWord (wordAt 8 (edgeWordsB.getD x 0) (Nat.add (Nat.mul 24 y) z)) x y z) true) true) true)))

theorem edgesA_ok : allBelow 24 (fun x => allBelow 24 fun y => allBelow 24 fun z => edgesA x y z) = true := by
  decide +kernel

theorem edgesB_ok : allBelow 24 (fun x => allBelow 24 fun y => allBelow 24 fun z => edgesB x y z) = true := by
  decide +kernel

/-! ## Six edges -/

/-- six edges in different places are solved by some sequence of at most 15 moves -/
theorem sixEdges_solvable (s : Fin 6 → Edge) (h : Function.Injective fun i => (s i).position) :
    ∃ w : List AxisMove, w.length ≤ 15 ∧ ∀ i : Fin 6, movedAlg (s i) w = PieceSet.SOLVED Edge (n := 12) ⟨i.val, by omega⟩ := by
  have far : ∀ {s : Fin 6 → Edge}, (Function.Injective fun i => (s i).position) → ∀ i j, i ≠ j →
      samePlace 2 (edgeCode (s i)) (edgeCode (s j)) = false := by
    intro s h i j hij
    unfold samePlace
    cases hb : Nat.beq (Nat.div (edgeCode (s i)) 2) (Nat.div (edgeCode (s j)) 2) with
    | false => rfl
    | true =>
      have e : edgeCode (s i) / 2 = edgeCode (s j) / 2 := Nat.eq_of_beq_eq_true hb
      have l : edgeCode (s i) / 2 < 12 := by have := (edgeCode_ok (s i)).1; omega
      have a1 := edgeCode_place (s i) ⟨_, l⟩ rfl
      have a2 := edgeCode_place (s j) ⟨_, l⟩ e
      exact absurd (h (a1.trans a2.symm)) hij
  have h1 := allBelow_spec (allBelow_spec (allBelow_spec edgesA_ok (edgeCode_ok (s 0)).1) (edgeCode_ok (s 2)).1)
    (edgeCode_ok (s 4)).1
  unfold edgesA at h1
  rw [far h 0 2 (by decide), far h 0 4 (by decide), far h 2 4 (by decide), cond_false, cond_false, cond_false] at h1
  obtain ⟨k0, h1⟩ := cond_and h1
  obtain ⟨k2, k4⟩ := cond_and h1
  have len1 := wordAt_length 7 (edgeWordsA.getD (edgeCode (s 0)) 0) (Nat.add (Nat.mul 24 (edgeCode (s 2))) (edgeCode (s 4)))
  have r := fun e => runEdge_ok (wordAt 7 (edgeWordsA.getD (edgeCode (s 0)) 0)
    (Nat.add (Nat.mul 24 (edgeCode (s 2))) (edgeCode (s 4)))) (unpack_lt _ _) e
  have k0' := (r (s 0)).trans (Nat.eq_of_beq_eq_true k0)
  have k2' := (r (s 2)).trans (Nat.eq_of_beq_eq_true k2)
  have k4' := (r (s 4)).trans (Nat.eq_of_beq_eq_true k4)
  generalize (wordAt 7 (edgeWordsA.getD (edgeCode (s 0)) 0)
    (Nat.add (Nat.mul 24 (edgeCode (s 2))) (edgeCode (s 4)))).map mv = w1 at len1 k0' k2' k4'
  obtain ⟨u, hu⟩ : ∃ u : Fin 6 → Edge, u = fun i => movedAlg (s i) w1 := ⟨_, rfl⟩
  have hinj : ∀ (w : List AxisMove) (s : Fin 6 → Edge), (Function.Injective fun i => (s i).position) →
      Function.Injective fun i => (movedAlg (s i) w).position := by
    intro w
    induction w with
    | nil => exact fun s h => h
    | cons m w ih => exact fun s h => ih (fun i => moved (s i) m) fun i j e => h (edge_pos_inj m _ _ e)
  have h' : Function.Injective fun i => (u i).position := by rw [hu]; exact hinj w1 s h
  have e0 : edgeCode (u 0) = 0 := by rw [hu]; exact k0'
  have e2 : edgeCode (u 2) = 4 := by rw [hu]; exact k2'
  have e4 : edgeCode (u 4) = 8 := by rw [hu]; exact k4'
  have away : ∀ i, i ≠ 0 → i ≠ 2 → i ≠ 4 → awayFrom (edgeCode (u i)) = true := by
    intro i n0 n2 n4
    have f0 := far h' i 0 n0
    have f2 := far h' i 2 n2
    have f4 := far h' i 4 n4
    rw [e0] at f0
    rw [e2] at f2
    rw [e4] at f4
    unfold awayFrom
    rw [show Nat.beq (Nat.div (edgeCode (u i)) 2) 0 = false from f0, show Nat.beq (Nat.div (edgeCode (u i)) 2) 2 = false from f2,
      show Nat.beq (Nat.div (edgeCode (u i)) 2) 4 = false from f4]
    rfl
  have hB := allBelow_spec (allBelow_spec (allBelow_spec edgesB_ok (edgeCode_ok (u 1)).1) (edgeCode_ok (u 3)).1)
    (edgeCode_ok (u 5)).1
  unfold edgesB at hB
  rw [far h' 1 3 (by decide), far h' 1 5 (by decide), far h' 3 5 (by decide), cond_false, cond_false, cond_false,
    away 1 (by decide) (by decide) (by decide), away 3 (by decide) (by decide) (by decide),
    away 5 (by decide) (by decide) (by decide), cond_true, cond_true, cond_true] at hB
  have len2 := wordAt_length 8 (edgeWordsB.getD (edgeCode (u 1)) 0) (Nat.add (Nat.mul 24 (edgeCode (u 3))) (edgeCode (u 5)))
  have r2 := fun e => runEdge_ok (wordAt 8 (edgeWordsB.getD (edgeCode (u 1)) 0)
    (Nat.add (Nat.mul 24 (edgeCode (u 3))) (edgeCode (u 5)))) (unpack_lt _ _) e
  generalize wordAt 8 (edgeWordsB.getD (edgeCode (u 1)) 0)
    (Nat.add (Nat.mul 24 (edgeCode (u 3))) (edgeCode (u 5))) = w2 at len2 r2 hB
  unfold edgesBWord at hB
  obtain ⟨m1, hB⟩ := cond_and hB
  obtain ⟨m3, hB⟩ := cond_and hB
  obtain ⟨m5, hB⟩ := cond_and hB
  obtain ⟨m0, hB⟩ := cond_and hB
  obtain ⟨m2, m4⟩ := cond_and hB
  refine ⟨w1 ++ w2.map mv, by rw [List.length_append]; omega, fun i => ?_⟩
  rw [alg_append, show movedAlg (s i) w1 = u i by rw [hu]]
  have fin : edgeCode (movedAlg (u i) (w2.map mv)) = 2 * i.val := by
    rw [r2]
    match i with
    | 0 => rw [e0]; exact Nat.eq_of_beq_eq_true m0
    | 1 => exact Nat.eq_of_beq_eq_true m1
    | 2 => rw [e2]; exact Nat.eq_of_beq_eq_true m2
    | 3 => exact Nat.eq_of_beq_eq_true m3
    | 4 => rw [e4]; exact Nat.eq_of_beq_eq_true m4
    | 5 => exact Nat.eq_of_beq_eq_true m5
  have hc := (edgeCode_ok (movedAlg (u i) (w2.map mv))).2
  rw [fin] at hc
  rw [← hc]
  exact edge_of_home_code ⟨i.val, by omega⟩

end Barbarosa
