import Verif.Lemmas.PhasesTable
import Verif.Lemmas.StagesSound

/-!
# From oriented edges to oriented corners and a filled slice in ten moves

The rows are the sets of places of the four edges that belong between U and D, the digits are the twists of the corners at
the eight places. The kernel computes the set of everything that is at most ten moves away and finds nothing missing.
-/

namespace Barbarosa

open Equiv Blocks

/-! ## Single moves -/

theorem edgeAt_moved (c : Cube3) {n : Nat} (hn : n < 31) (i : Fin 12) : (moved c (mv n)).edgeAt i = edgeStep (c.edgeAt i) n := by
  have h := edgeStep_ok n hn (edgeCode (c.edges i)) (edgeCode_ok _).1
  rw [(edgeCode_ok _).2] at h
  exact h.symm

theorem cornerAt_moved (c : Cube3) {n : Nat} (hn : n < 31) (i : Fin 8) :
    (moved c (mv n)).cornerAt i = cornerStep (c.cornerAt i) n := by
  have h := cornerStep_ok n hn (cornerCode (c.corners i)) (cornerCode_ok _).1
  rw [(cornerCode_ok _).2] at h
  exact h.symm

theorem edgeAt_lt (c : Cube3) (i : Fin 12) : c.edgeAt i < 24 := (edgeCode_ok _).1
theorem cornerAt_lt (c : Cube3) (i : Fin 8) : c.cornerAt i < 24 := (cornerCode_ok _).1

/-- two moves in a row that are one on every piece are one on every cube -/
theorem merge_of_pieces {a b r : AxisMove} (he : ∀ e : Edge, moved (moved e a) b = moved e r)
    (hc : ∀ p : Corner, moved (moved p a) b = moved p r) (c : Cube3) : moved (moved c a) b = moved c r :=
  Cube3.ext (funext fun i => he (c.edges i)) (funext fun i => hc (c.corners i))

theorem quarter_edges : ∀ f < 6, ∀ e : Edge, moved (moved e (mv (3 * f + 1))) (mv (3 * f)) = moved e (mv (3 * f + 2)) := by
  decide +kernel
theorem quarter_corners : ∀ f < 6, ∀ p : Corner, moved (moved p (mv (3 * f + 1))) (mv (3 * f)) = moved p (mv (3 * f + 2)) := by
  decide +kernel

theorem quarter_face {M : AxisMove → Prop} {f : Nat} (hf : f < 6) (h0 : M (mv (3 * f))) (h1 : M (mv (3 * f + 1)))
    (h2 : M (mv (3 * f + 2))) : Blocks.Face M [mv (3 * f + 1), mv (3 * f)] :=
  .inr ⟨_, _, _, rfl, h1, h0, h2, merge_of_pieces (quarter_edges f hf) (quarter_corners f hf)⟩

/-! ## Rows and digits -/

/-- set number `i` of four edge places -/
def pattern (i : Nat) : Nat := Nat.land (Nat.shiftRight patterns (Nat.mul 12 i)) 4095

/-- the cube that belongs to a row and a number -/
def OrientState (i v : Nat) (c : Cube3) : Prop :=
  c.Q1 ∧ (∀ j : Fin 12, bitOf (pattern i) (c.edgeAt j / 2) = bitOf sliceE j) ∧
    ∀ j : Fin 8, digit 3 v (c.cornerAt j / 3) = twist (c.cornerAt j)

/-- the rows of a move are right -/
noncomputable def orientRows (g : Gen) (n : Nat) : Bool :=
  allBelow 495 fun i => cond (Nat.ble (Nat.add (g.row i) 1) 495)
    (allBelow 12 fun p => Nat.beq (bitOf (pattern (g.row i)) (Nat.div (edgeStep (Nat.mul 2 p) n) 2)) (bitOf (pattern i) p)) false

/-- the changes of a move are right -/
noncomputable def orientDigits (l : List Blk) (n : Nat) : Bool :=
  cond (allOk 3 8 l) (cond (allBelow 12 fun p => Nat.beq (bitOf (edgeStep (Nat.mul 2 p) n) 0) 0)
    (allBelow 24 fun y => cond (Nat.beq (srcs l (Nat.div (cornerStep y n) 3)) (Nat.div y 3))
      (Nat.beq (vals l (Nat.div (cornerStep y n) 3) (twist y)) (twist (cornerStep y n))) false) false) false

theorem orient_does {g : Gen} {l : List Blk} {n : Nat} (hn : n < 31) (ha : ∀ k, g.act k = changes 3 8 l k)
    (hr : orientRows g n = true) (hd : orientDigits l n = true) : g.Does 495 OrientState (mv n) := by
  obtain ⟨h1, hd⟩ := cond_and hd
  obtain ⟨h2, h3⟩ := cond_and hd
  intro i hi
  obtain ⟨r1, r2⟩ := cond_and (allBelow_spec hr hi)
  refine ⟨Nat.le_of_ble_eq_true r1, fun k v c hv ⟨q1, q2, q3⟩ => ?_⟩
  rw [ha] at hv
  obtain ⟨x, hx, hk⟩ := digit_changes (by decide) h1 hv
  have he : ∀ j : Fin 12, c.edgeAt j / 2 < 12 ∧ Nat.mul 2 (c.edgeAt j / 2) = c.edgeAt j := by
    intro j
    have a1 := edgeAt_lt c j
    have a2 := q1 j
    refine ⟨by omega, ?_⟩
    show 2 * (c.edgeAt j / 2) = c.edgeAt j
    omega
  refine ⟨x, hx, fun j => ?_, fun j => ?_, fun j => ?_⟩
  · rw [edgeAt_moved c hn]
    have := Nat.eq_of_beq_eq_true (allBelow_spec h2 (he j).1)
    rw [(he j).2, bitOf_zero] at this
    exact this
  · rw [edgeAt_moved c hn, ← q2 j]
    have := Nat.eq_of_beq_eq_true (allBelow_spec r2 (he j).1)
    rw [(he j).2] at this
    exact this
  · obtain ⟨s1, s2⟩ := cond_and (allBelow_spec h3 (cornerAt_lt c j))
    have s1 : srcs l (cornerStep (c.cornerAt j) n / 3) = c.cornerAt j / 3 := Nat.eq_of_beq_eq_true s1
    have s2 : vals l (cornerStep (c.cornerAt j) n / 3) (twist (c.cornerAt j)) = twist (cornerStep (c.cornerAt j) n) :=
      Nat.eq_of_beq_eq_true s2
    rw [cornerAt_moved c hn, hk, s1, q3 j, s2]

theorem orient_rows0 : orientRows orientMove0 0 = true := by decide +kernel
theorem orient_rows1 : orientRows orientMove1 1 = true := by decide +kernel
theorem orient_rows3 : orientRows orientMove3 3 = true := by decide +kernel
theorem orient_rows4 : orientRows orientMove4 4 = true := by decide +kernel
theorem orient_rows6 : orientRows orientMove6 6 = true := by decide +kernel
theorem orient_rows7 : orientRows orientMove7 7 = true := by decide +kernel
theorem orient_rows9 : orientRows orientMove9 9 = true := by decide +kernel
theorem orient_rows10 : orientRows orientMove10 10 = true := by decide +kernel
theorem orient_rows13 : orientRows orientMove13 13 = true := by decide +kernel
theorem orient_rows16 : orientRows orientMove16 16 = true := by decide +kernel

theorem orient_digits0 : orientDigits orientBlks0 0 = true := by decide +kernel
theorem orient_digits1 : orientDigits orientBlks1 1 = true := by decide +kernel
theorem orient_digits3 : orientDigits orientBlks3 3 = true := by decide +kernel
theorem orient_digits4 : orientDigits orientBlks4 4 = true := by decide +kernel
theorem orient_digits6 : orientDigits orientBlks6 6 = true := by decide +kernel
theorem orient_digits7 : orientDigits orientBlks7 7 = true := by decide +kernel
theorem orient_digits9 : orientDigits orientBlks9 9 = true := by decide +kernel
theorem orient_digits10 : orientDigits orientBlks10 10 = true := by decide +kernel
theorem orient_digits13 : orientDigits orientBlks13 13 = true := by decide +kernel
theorem orient_digits16 : orientDigits orientBlks16 16 = true := by decide +kernel

/-! ## The search -/

/-- the faces, with the moves of the cube -/
noncomputable def orientFaces : List (List (Gen × AxisMove)) := [[(orientMove1, mv 1), (orientMove0, mv 0)],
  [(orientMove4, mv 4), (orientMove3, mv 3)], [(orientMove7, mv 7), (orientMove6, mv 6)],
  [(orientMove10, mv 10), (orientMove9, mv 9)], [(orientMove13, mv 13)], [(orientMove16, mv 16)]]

theorem orient_does_all : ∀ f ∈ orientFaces, ∀ p ∈ f, p.1.Does 495 OrientState p.2 := by
  unfold orientFaces
  simp only [List.forall_mem_cons, List.not_mem_nil, false_imp_iff, implies_true, and_true]
  exact ⟨⟨orient_does (by decide) orient_act1 orient_rows1 orient_digits1,
      orient_does (by decide) orient_act0 orient_rows0 orient_digits0⟩,
    ⟨orient_does (by decide) orient_act4 orient_rows4 orient_digits4,
      orient_does (by decide) orient_act3 orient_rows3 orient_digits3⟩,
    ⟨orient_does (by decide) orient_act7 orient_rows7 orient_digits7,
      orient_does (by decide) orient_act6 orient_rows6 orient_digits6⟩,
    ⟨orient_does (by decide) orient_act10 orient_rows10 orient_digits10,
      orient_does (by decide) orient_act9 orient_rows9 orient_digits9⟩,
    orient_does (by decide) orient_act13 orient_rows13 orient_digits13,
    orient_does (by decide) orient_act16 orient_rows16 orient_digits16⟩

theorem orient_faces : ∀ f ∈ orientFaces, Blocks.Face (fun _ => True) (f.map Prod.snd) := by
  unfold orientFaces
  simp only [List.forall_mem_cons, List.not_mem_nil, false_imp_iff, implies_true, and_true]
  exact ⟨quarter_face (f := 0) (by decide) trivial trivial trivial, quarter_face (f := 1) (by decide) trivial trivial trivial,
    quarter_face (f := 2) (by decide) trivial trivial trivial, quarter_face (f := 3) (by decide) trivial trivial trivial,
    .inl ⟨_, rfl, trivial⟩, .inl ⟨_, rfl, trivial⟩⟩

/-- the twists that are possible -/
noncomputable def twistsPossible : Nat := select (fun v => Nat.beq (Nat.mod (sumBelow 8 (digit 3 v)) 3) 0) 6561

theorem orient_all : covers (steps 9 (orientFaces.map fun f => f.map Prod.fst) (single 9 187 0) 10) (fun _ => twistsPossible) 495 =
    true := by decide +kernel

theorem twist_zero : ∀ y < 24, twist y = 0 → y % 3 = 1 := by decide +kernel

theorem orient_goal (c : Cube3) (h : OrientState 187 0 c) : c.Q3 := by
  obtain ⟨q1, q2, q3⟩ := h
  refine ⟨⟨q1, q2⟩, fun j => twist_zero _ (cornerAt_lt c j) ?_⟩
  rw [← q3 j]
  show 0 / _ % 3 = 0
  rw [Nat.zero_div]

theorem orient_holds : Holds 495 OrientState (steps 9 (orientFaces.map fun f => f.map Prod.fst) (single 9 187 0) 10)
    (Within (fun _ => True) Cube3.Q3 10) :=
  steps_holds (by decide) orient_does_all orient_faces (single_holds (by decide) orient_goal) 10

/-- a set of four edge places has a number -/
noncomputable def patternFound (v : Nat) : Bool :=
  cond (Nat.beq (sumBelow 12 (bitOf v)) 4) (!allBelow 495 fun m => !Nat.beq (pattern m) v) true

theorem patternFound_ok : allBelow 4096 patternFound = true := by decide +kernel

theorem exists_of_not_allBelow {n : Nat} {f : Nat → Bool} (h : (!allBelow n fun m => !f m) = true) : ∃ m < n, f m = true := by
  by_contra hne
  rw [allBelow_of (n := n) (f := fun m => !f m)] at h
  · cases h
  · intro m hm
    cases hb : f m with
    | false => rfl
    | true => exact absurd ⟨m, hm, hb⟩ hne

theorem pattern_exists (v : Nat) (hv : v < 4096) (h4 : sumBelow 12 (bitOf v) = 4) : ∃ m < 495, pattern m = v := by
  have h := allBelow_spec patternFound_ok hv
  unfold patternFound at h
  rw [h4, show Nat.beq 4 4 = true from rfl, cond_true] at h
  obtain ⟨m, hm, h⟩ := exists_of_not_allBelow h
  exact ⟨m, hm, Nat.eq_of_beq_eq_true h⟩

theorem twist_lt : ∀ y < 24, twist y < 3 := by decide +kernel

/-- from oriented edges to oriented corners and a filled slice -/
theorem all_oriented (c : Cube3) (h : c.Lawful) (q : c.Q1) : ∃ w : List AxisMove, w.length ≤ 10 ∧ (movedAlg c w).Q3 := by
  obtain ⟨⟨σ, τ, h1, h2, h3⟩, h4, h5⟩ := h
  obtain ⟨u, hu, hd⟩ := mask_exists σ (fun i => bitOf sliceE i) fun i => bitOf_lt _ _
  obtain ⟨m, hm, rfl⟩ := pattern_exists u hu (by
    rw [sumBelow_perm σ, Finset.sum_congr rfl fun i _ => hd i]
    decide +kernel)
  obtain ⟨v, hv, ht⟩ := key_exists 3 τ (fun i => twist (c.cornerAt i)) fun i => twist_lt _ (cornerAt_lt c i)
  have hs : Nat.mod (sumBelow 8 (digit 3 v)) 3 = 0 := by
    rw [sumBelow_perm τ, Finset.sum_congr rfl fun i _ => ht i]
    unfold Cube3.cornerAt
    rw [Finset.sum_congr rfl fun i _ => twist_code (c.corners i)]
    exact Nat.mod_eq_zero_of_dvd h5
  have hb := covered orient_all hm (testBit_select (f := fun v => Nat.beq (Nat.mod (sumBelow 8 (digit 3 v)) 3) 0) hv (by
    show Nat.beq (Nat.mod (sumBelow 8 (digit 3 v)) 3) 0 = true
    rw [hs]
    rfl))
  obtain ⟨w, -, hw⟩ := orient_holds m hm v hb c ⟨q, fun j => by rw [edgeAt_place h1 j]; exact hd j,
    fun j => by rw [cornerAt_place h2 j]; exact ht j⟩
  exact ⟨w, hw⟩

end Barbarosa
