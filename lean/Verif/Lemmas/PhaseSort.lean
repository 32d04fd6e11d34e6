import Verif.Lemmas.PhaseOrient
import Mathlib.GroupTheory.Perm.Sign

/-!
# From oriented pieces to what half turns can do, in thirteen moves

The rows are the classes of arrangements of the corners, two of them in one class if half turns lead from one to the other. The
digits say which of the edge places outside the filled slice hold the edges between L and R.
-/

namespace Barbarosa

open Equiv Blocks

/-! ## Arrangements of the corners -/

/-- the place of corner `i` in arrangement `k` of those that half turns lead to -/
def halfCorner (k i : Nat) : Nat := Nat.land (Nat.shiftRight halfCorners (Nat.add (Nat.mul 24 k) (Nat.mul 3 i))) 7

/-- the place of corner `i` in the representative of class `r` -/
def classCorner (r i : Nat) : Nat := Nat.land (Nat.shiftRight classCorners (Nat.add (Nat.mul 24 r) (Nat.mul 3 i))) 7

/-- one of the arrangements after another -/
def halfProduct (k k' : Nat) : Nat := Nat.land (Nat.shiftRight halfProducts (Nat.mul 7 (Nat.add (Nat.mul 96 k) k'))) 127

theorem land_seven_lt (x : Nat) : Nat.land x 7 < 8 := Nat.lt_of_le_of_lt Nat.and_le_right (by decide)

theorem halfCorner_lt (k i : Nat) : halfCorner k i < 8 := land_seven_lt _
theorem classCorner_lt (r i : Nat) : classCorner r i < 8 := land_seven_lt _

noncomputable def productsRight : Bool :=
  allBelow 96 fun k => allBelow 96 fun k' => cond (Nat.ble (Nat.add (halfProduct k k') 1) 96)
    (allBelow 8 fun i => Nat.beq (halfCorner (halfProduct k k') i) (halfCorner k (halfCorner k' i))) false

theorem products_right : productsRight = true := by decide +kernel

theorem halfProduct_ok {k k' : Nat} (hk : k < 96) (hk' : k' < 96) :
    halfProduct k k' < 96 ∧ ∀ i < 8, halfCorner (halfProduct k k') i = halfCorner k (halfCorner k' i) := by
  obtain ⟨h1, h2⟩ := cond_and (allBelow_spec (allBelow_spec products_right hk) hk')
  exact ⟨Nat.le_of_ble_eq_true h1, fun i hi => Nat.eq_of_beq_eq_true (allBelow_spec h2 hi)⟩

/-- the class and the rest in an entry of a table -/
def entryClass (t r : Nat) : Nat := Nat.land (Nat.shiftRight t (Nat.mul 16 r)) 511
def entryRest (t r : Nat) : Nat := Nat.land (Nat.shiftRight t (Nat.add (Nat.mul 16 r) 9)) 127

/-- a table says what happens to the classes when places change -/
noncomputable def classesRight (t : Nat) (f : Nat → Nat) : Bool :=
  allBelow 420 fun r => cond (Nat.ble (Nat.add (entryClass t r) 1) 420) (cond (Nat.ble (Nat.add (entryRest t r) 1) 96)
    (allBelow 8 fun i => Nat.beq (f (classCorner r i)) (classCorner (entryClass t r) (halfCorner (entryRest t r) i))) false) false

/-- the arrangements in a class -/
def InClass (r : Nat) (p : Nat → Nat) : Prop := ∃ k < 96, ∀ i < 8, p i = classCorner r (halfCorner k i)

theorem classesRight_ok {t : Nat} {f : Nat → Nat} (h : classesRight t f = true) {r : Nat} (hr : r < 420) {p : Nat → Nat}
    (hp : InClass r p) : entryClass t r < 420 ∧ InClass (entryClass t r) fun i => f (p i) := by
  obtain ⟨h1, h2⟩ := cond_and (allBelow_spec h hr)
  obtain ⟨h2, h3⟩ := cond_and h2
  obtain ⟨k, hk, e⟩ := hp
  have h2 : entryRest t r < 96 := Nat.le_of_ble_eq_true h2
  obtain ⟨h4, h5⟩ := halfProduct_ok h2 hk
  refine ⟨Nat.le_of_ble_eq_true h1, _, h4, fun i hi => ?_⟩
  show f (p i) = _
  rw [e i hi, h5 i hi]
  exact Nat.eq_of_beq_eq_true (allBelow_spec h3 (halfCorner_lt k i))

/-- exchanges the places `j` and `j + 1` -/
def swapPlaces (j x : Nat) : Nat := cond (Nat.beq x j) (Nat.add j 1) (cond (Nat.beq x (Nat.add j 1)) j x)

theorem class_swaps : ∀ j < 7, classesRight (classSwaps.getD j 0) (swapPlaces j) = true := by decide +kernel

theorem swapPlaces_eq : ∀ (j : Fin 7) (x : Fin 8), swapPlaces j x = (swap j.castSucc j.succ x : Fin 8) := by decide +kernel

theorem half_start : ∀ i < 8, classCorner 0 (halfCorner 0 i) = i := by decide +kernel
theorem class_start : ∀ i < 8, classCorner 0 i = i := by decide +kernel

/-- a function of the corners as one of numbers -/
def onNumbers (f : Fin 8 → Nat) (i : Nat) : Nat := if h : i < 8 then f ⟨i, h⟩ else 0

theorem onNumbers_of (f : Fin 8 → Nat) {i : Nat} (h : i < 8) : onNumbers f i = f ⟨i, h⟩ := dif_pos h

/-- every arrangement of the corners is in a class -/
theorem class_exists (τ : Perm (Fin 8)) : ∃ r < 420, ∃ k < 96, ∀ i : Fin 8, (τ i).val = classCorner r (halfCorner k i) := by
  have hm : τ ∈ Submonoid.closure (Set.range fun i : Fin 7 => swap i.castSucc i.succ) := by
    rw [Equiv.Perm.mclosure_swap_castSucc_succ]
    exact Submonoid.mem_top τ
  induction hm using Submonoid.closure_induction_left with
  | one => exact ⟨0, by decide, 0, by decide, fun i => (half_start i i.2).symm⟩
  | mul_left x hx y _ ih =>
    obtain ⟨j, rfl⟩ := hx
    obtain ⟨r, hr, k, hk, e⟩ := ih
    have hp : InClass r (onNumbers fun i => (y i).val) :=
      ⟨k, hk, fun i hi => (onNumbers_of _ hi).trans (e ⟨i, hi⟩)⟩
    obtain ⟨h1, k', hk', e'⟩ := classesRight_ok (class_swaps j j.2) hr hp
    refine ⟨_, h1, k', hk', fun i => ?_⟩
    rw [← e' i i.2]
    show _ = swapPlaces j (onNumbers _ i)
    rw [onNumbers_of _ i.2, swapPlaces_eq]
    rfl

/-! ## Rows and digits -/

/-- the number of an edge place outside the slice between U and D -/
def outerIndex (p : Nat) : Nat := [0, 1, 0, 0, 2, 3, 4, 5, 0, 0, 6, 7].getD p 0

/-- the edge place with a number -/
def outerPlace (k : Nat) : Nat := [0, 1, 4, 5, 6, 7, 10, 11].getD k 0

/-- the places of the edges between L and R, by number -/
def outerHome : Nat := 51

/-- the cube that belongs to a row and a number -/
def SortState (r v : Nat) (c : Cube3) : Prop :=
  c.Q3 ∧ (∃ k < 96, ∀ j : Fin 8, c.cornerAt j / 3 = classCorner r (halfCorner k j)) ∧
    ∀ j : Fin 12, bitOf sliceE j = 0 → digit 2 v (outerIndex (c.edgeAt j / 2)) = bitOf sliceM j

/-- the changes of a move are right -/
noncomputable def sortDigits (l : List Blk) (n : Nat) : Bool :=
  cond (allOk 2 8 l) (cond (allBelow 8 fun x => Nat.beq (Nat.mod (cornerStep (Nat.add (Nat.mul 3 x) 1) n) 3) 1)
    (allBelow 12 fun p => cond (Nat.beq (bitOf (edgeStep (Nat.mul 2 p) n) 0) 0)
      (cond (Nat.beq (bitOf sliceE (Nat.div (edgeStep (Nat.mul 2 p) n) 2)) (bitOf sliceE p))
        (cond (Nat.beq (bitOf sliceE p) 1) true
          (cond (Nat.beq (srcs l (outerIndex (Nat.div (edgeStep (Nat.mul 2 p) n) 2))) (outerIndex p))
            (allBelow 2 fun b => Nat.beq (vals l (outerIndex (Nat.div (edgeStep (Nat.mul 2 p) n) 2)) b) b) false)) false) false)
    false) false

theorem sort_does {g : Gen} {l : List Blk} {n t : Nat} (hn : n < 31) (ha : ∀ k, g.act k = changes 2 8 l k)
    (ht : ∀ i, g.row i = entryClass t i)
    (hr : classesRight t (fun x => Nat.div (cornerStep (Nat.add (Nat.mul 3 x) 1) n) 3) = true) (hd : sortDigits l n = true) :
    g.Does 420 SortState (mv n) := by
  obtain ⟨h1, hd⟩ := cond_and hd
  obtain ⟨h2, h3⟩ := cond_and hd
  intro i hi
  refine ⟨?_, fun k v c hv ⟨⟨⟨q1, q2⟩, q3⟩, ⟨k', hk', e⟩, q4⟩ => ?_⟩
  · rw [ht]
    exact (classesRight_ok hr hi ⟨0, by decide, fun _ _ => rfl⟩).1
  rw [ha] at hv
  obtain ⟨x, hx, hk⟩ := digit_changes (by decide) h1 hv
  have he : ∀ j : Fin 12, c.edgeAt j / 2 < 12 ∧ Nat.mul 2 (c.edgeAt j / 2) = c.edgeAt j := by
    intro j
    have a1 := edgeAt_lt c j
    have a2 := q1 j
    refine ⟨by omega, ?_⟩
    show 2 * (c.edgeAt j / 2) = c.edgeAt j
    omega
  have hc : ∀ j : Fin 8, c.cornerAt j / 3 < 8 ∧ Nat.add (Nat.mul 3 (c.cornerAt j / 3)) 1 = c.cornerAt j := by
    intro j
    have a1 := cornerAt_lt c j
    have a2 := q3 j
    refine ⟨by omega, ?_⟩
    show 3 * (c.cornerAt j / 3) + 1 = c.cornerAt j
    omega
  have hs := fun j : Fin 12 => allBelow_spec h3 (he j).1
  simp only [(he _).2] at hs
  refine ⟨x, hx, ⟨⟨fun j => ?_, fun j => ?_⟩, fun j => ?_⟩, ?_, fun j hj => ?_⟩
  · rw [edgeAt_moved c hn]
    have := Nat.eq_of_beq_eq_true (cond_and (hs j)).1
    rw [bitOf_zero] at this
    exact this
  · rw [edgeAt_moved c hn, ← q2 j]
    exact Nat.eq_of_beq_eq_true (cond_and (cond_and (hs j)).2).1
  · rw [cornerAt_moved c hn]
    have := Nat.eq_of_beq_eq_true (allBelow_spec h2 (hc j).1)
    rw [(hc j).2] at this
    exact this
  · obtain ⟨-, k'', hk'', e''⟩ := classesRight_ok hr hi (p := onNumbers fun j => c.cornerAt j / 3)
      ⟨k', hk', fun i hi => (onNumbers_of _ hi).trans (e ⟨i, hi⟩)⟩
    refine ⟨k'', hk'', fun j => ?_⟩
    rw [cornerAt_moved c hn, ht, ← e'' j j.2]
    show _ = Nat.div (cornerStep (Nat.add (Nat.mul 3 (onNumbers _ j)) 1) n) 3
    rw [onNumbers_of _ j.2, (hc j).2]
    rfl
  · have s := (cond_and (cond_and (hs j)).2).2
    rw [q2 j, hj] at s
    obtain ⟨s1, s2⟩ := cond_and s
    have s1 : srcs l (outerIndex (edgeStep (c.edgeAt j) n / 2)) = outerIndex (c.edgeAt j / 2) := Nat.eq_of_beq_eq_true s1
    rw [edgeAt_moved c hn, hk, s1, q4 j hj]
    exact Nat.eq_of_beq_eq_true (allBelow_spec s2 (bitOf_lt _ _))

theorem sort_rows6 : classesRight sortRows6 (fun x => Nat.div (cornerStep (Nat.add (Nat.mul 3 x) 1) 6) 3) = true := by
  decide +kernel
theorem sort_rows7 : classesRight sortRows7 (fun x => Nat.div (cornerStep (Nat.add (Nat.mul 3 x) 1) 7) 3) = true := by
  decide +kernel
theorem sort_rows9 : classesRight sortRows9 (fun x => Nat.div (cornerStep (Nat.add (Nat.mul 3 x) 1) 9) 3) = true := by
  decide +kernel
theorem sort_rows10 : classesRight sortRows10 (fun x => Nat.div (cornerStep (Nat.add (Nat.mul 3 x) 1) 10) 3) = true := by
  decide +kernel
theorem sort_rows1 : classesRight sortRows1 (fun x => Nat.div (cornerStep (Nat.add (Nat.mul 3 x) 1) 1) 3) = true := by
  decide +kernel
theorem sort_rows4 : classesRight sortRows4 (fun x => Nat.div (cornerStep (Nat.add (Nat.mul 3 x) 1) 4) 3) = true := by
  decide +kernel
theorem sort_rows13 : classesRight sortRows13 (fun x => Nat.div (cornerStep (Nat.add (Nat.mul 3 x) 1) 13) 3) = true := by
  decide +kernel
theorem sort_rows16 : classesRight sortRows16 (fun x => Nat.div (cornerStep (Nat.add (Nat.mul 3 x) 1) 16) 3) = true := by
  decide +kernel

theorem sort_digits6 : sortDigits sortBlks6 6 = true := by decide +kernel
theorem sort_digits7 : sortDigits sortBlks7 7 = true := by decide +kernel
theorem sort_digits9 : sortDigits sortBlks9 9 = true := by decide +kernel
theorem sort_digits10 : sortDigits sortBlks10 10 = true := by decide +kernel
theorem sort_digits1 : sortDigits sortBlks1 1 = true := by decide +kernel
theorem sort_digits4 : sortDigits sortBlks4 4 = true := by decide +kernel
theorem sort_digits13 : sortDigits sortBlks13 13 = true := by decide +kernel
theorem sort_digits16 : sortDigits sortBlks16 16 = true := by decide +kernel

theorem sort_does6 : sortMove6.Does 420 SortState (mv 6) :=
  sort_does (by decide) sort_act6 (fun _ => rfl) sort_rows6 sort_digits6
theorem sort_does7 : sortMove7.Does 420 SortState (mv 7) :=
  sort_does (by decide) sort_act7 (fun _ => rfl) sort_rows7 sort_digits7
theorem sort_does9 : sortMove9.Does 420 SortState (mv 9) :=
  sort_does (by decide) sort_act9 (fun _ => rfl) sort_rows9 sort_digits9
theorem sort_does10 : sortMove10.Does 420 SortState (mv 10) :=
  sort_does (by decide) sort_act10 (fun _ => rfl) sort_rows10 sort_digits10
theorem sort_does1 : sortMove1.Does 420 SortState (mv 1) :=
  sort_does (by decide) sort_act1 (fun _ => rfl) sort_rows1 sort_digits1
theorem sort_does4 : sortMove4.Does 420 SortState (mv 4) :=
  sort_does (by decide) sort_act4 (fun _ => rfl) sort_rows4 sort_digits4
theorem sort_does13 : sortMove13.Does 420 SortState (mv 13) :=
  sort_does (by decide) sort_act13 (fun _ => rfl) sort_rows13 sort_digits13
theorem sort_does16 : sortMove16.Does 420 SortState (mv 16) :=
  sort_does (by decide) sort_act16 (fun _ => rfl) sort_rows16 sort_digits16

/-! ## The search -/

/-- the faces, with the moves of the cube -/
noncomputable def sortFaces : List (List (Gen × AxisMove)) := [[(sortMove7, mv 7), (sortMove6, mv 6)],
  [(sortMove10, mv 10), (sortMove9, mv 9)], [(sortMove1, mv 1)], [(sortMove4, mv 4)], [(sortMove13, mv 13)], [(sortMove16, mv 16)]]

theorem sort_does_all : ∀ f ∈ sortFaces, ∀ p ∈ f, p.1.Does 420 SortState p.2 := by
  unfold sortFaces
  simp only [List.forall_mem_cons, List.not_mem_nil, false_imp_iff, implies_true, and_true]
  exact ⟨⟨sort_does7, sort_does6⟩, ⟨sort_does10, sort_does9⟩, sort_does1, sort_does4, sort_does13, sort_does16⟩

theorem sort_faces : ∀ f ∈ sortFaces, Blocks.Face (fun _ => True) (f.map Prod.snd) := by
  unfold sortFaces
  simp only [List.forall_mem_cons, List.not_mem_nil, false_imp_iff, implies_true, and_true]
  exact ⟨quarter_face (f := 2) (by decide) trivial trivial trivial, quarter_face (f := 3) (by decide) trivial trivial trivial,
    .inl ⟨_, rfl, trivial⟩, .inl ⟨_, rfl, trivial⟩, .inl ⟨_, rfl, trivial⟩, .inl ⟨_, rfl, trivial⟩⟩

/-- the sets of four of the eight places -/
noncomputable def foursPossible : Nat := select (fun v => Nat.beq (sumBelow 8 (bitOf v)) 4) 256

theorem sort_all : covers (steps 9 (sortFaces.map fun f => f.map Prod.fst) (single 9 0 outerHome) 13) (fun _ => foursPossible) 420 =
    true := by decide +kernel

/-- everything is where half turns can take it -/
def Cube3.Q4h (c : Cube3) : Prop := c.Q3 ∧ (∀ i, bitOf sliceM (c.edgeAt i / 2) = bitOf sliceM i) ∧
  ∃ k < 96, ∀ j : Fin 8, c.cornerAt j / 3 = halfCorner k j

theorem outer_home : ∀ p < 12, bitOf sliceE p = 0 → digit 2 outerHome (outerIndex p) = bitOf sliceM p := by decide +kernel
theorem slices_apart : ∀ p < 12, bitOf sliceE p = 1 → bitOf sliceM p = 0 := by decide +kernel
theorem outer_place : ∀ p < 12, bitOf sliceE p = 0 → outerIndex p < 8 ∧ outerPlace (outerIndex p) = p := by decide +kernel
theorem outerPlace_lt : ∀ k < 8, outerPlace k < 12 := by decide +kernel

theorem bit_cases (v p : Nat) : bitOf v p = 0 ∨ bitOf v p = 1 := by
  have := bitOf_lt v p
  omega

theorem sort_goal (c : Cube3) (h : SortState 0 outerHome c) : c.Q4h := by
  obtain ⟨q, ⟨k, hk, e⟩, hm⟩ := h
  refine ⟨q, fun j => ?_, k, hk, fun j => by rw [e j]; exact class_start _ (halfCorner_lt _ _)⟩
  have hj : c.edgeAt j / 2 < 12 := by have := edgeAt_lt c j; omega
  rcases bit_cases sliceE j with h0 | h1
  · rw [← hm j h0]
    exact (outer_home _ hj (by rw [q.1.2 j, h0])).symm
  · rw [slices_apart j j.2 h1]
    exact slices_apart _ hj (by rw [q.1.2 j, h1])

theorem sort_holds : Holds 420 SortState (steps 9 (sortFaces.map fun f => f.map Prod.fst) (single 9 0 outerHome) 13)
    (Within (fun _ => True) Cube3.Q4h 13) :=
  steps_holds (by decide) sort_does_all sort_faces (single_holds (by decide) sort_goal) 13

theorem sum_outer (g : Nat → Nat) (h : ∀ p < 12, bitOf sliceE p = 1 → g p = 0) :
    sumBelow 8 (fun k => g (outerPlace k)) = sumBelow 12 g := by
  show g 11 + (g 10 + (g 7 + (g 6 + (g 5 + (g 4 + (g 1 + (g 0 + 0))))))) = g 11 + (g 10 + (g 9 + (g 8 + (g 7 + (g 6 + (g 5 +
    (g 4 + (g 3 + (g 2 + (g 1 + (g 0 + 0)))))))))))
  rw [h 2 (by decide) (by decide), h 3 (by decide) (by decide), h 8 (by decide) (by decide), h 9 (by decide) (by decide)]
  omega

/-- from oriented pieces to what half turns can do -/
theorem all_sorted (c : Cube3) (h : c.Lawful) (q : c.Q3) : ∃ w : List AxisMove, w.length ≤ 13 ∧ (movedAlg c w).Q4h := by
  obtain ⟨⟨σ, τ, h1, h2, h3⟩, h4, h5⟩ := h
  obtain ⟨r, hr, k, hk, e⟩ := class_exists τ
  obtain ⟨u, hu, hd⟩ := mask_exists σ (fun i => bitOf sliceM i) fun i => bitOf_lt _ _
  obtain ⟨v, hv, hb⟩ := digits_exist 2 8 (fun k => bitOf u (outerPlace k)) fun p _ => bitOf_lt _ _
  have hin : ∀ p < 12, bitOf sliceE p = 1 → bitOf u p = 0 := by
    intro p hp h1'
    obtain ⟨j, hj⟩ := σ.surjective ⟨p, hp⟩
    have hj' : (σ j).val = p := congrArg Fin.val hj
    rw [← hj', hd j]
    have := q.1.2 j
    rw [edgeAt_place h1 j, hj', h1'] at this
    exact slices_apart j j.2 this.symm
  have hs : sumBelow 8 (bitOf v) = 4 := by
    have e1 : sumBelow 8 (bitOf v) = sumBelow 8 fun k => bitOf u (outerPlace k) := by
      rw [sumBelow_eq, sumBelow_eq]
      exact Finset.sum_congr rfl fun i _ => by rw [bitOf_eq, hb i i.2]
    rw [e1, sum_outer (bitOf u) hin, sumBelow_perm σ, Finset.sum_congr rfl fun i _ => hd i]
    decide +kernel
  have hb' := covered sort_all hr (testBit_select (f := fun v => Nat.beq (sumBelow 8 (bitOf v)) 4) hv (by
    show Nat.beq (sumBelow 8 (bitOf v)) 4 = true
    rw [hs]
    rfl))
  obtain ⟨w, -, hw⟩ := sort_holds r hr v hb' c ⟨q, ⟨k, hk, fun j => by rw [cornerAt_place h2 j]; exact e j⟩, fun j hj => by
    have hp : c.edgeAt j / 2 < 12 := by have := edgeAt_lt c j; omega
    obtain ⟨o1, o2⟩ := outer_place _ hp (by rw [q.1.2 j, hj])
    rw [hb _ o1, o2, edgeAt_place h1 j]
    exact hd j⟩
  exact ⟨w, hw⟩

end Barbarosa
