import Verif.Lemmas.PhaseSort

/-!
# The last phase: half turns only

The rows are the arrangements of the corners that half turns lead to, the three digits are the permutations of the edges within
the three slices. At most fifteen half turns are needed.
-/

namespace Barbarosa

open Equiv Blocks

/-! ## Rows and digits -/

/-- the edges `f 0`, `f 1`, `f 2`, `f 3` sit on each other's places as permutation `a` says -/
def Cube3.Sits (f : Nat → Nat) (a : Nat) (c : Cube3) : Prop :=
  ∀ (j : Fin 12) (i : Nat), i < 4 → j.val = f i → c.edgeAt j = 2 * f (digit 4 (fourAt a) i)

/-- the cube that belongs to a row and a number -/
def HalfState (k v : Nat) (c : Cube3) : Prop :=
  (∀ j : Fin 8, c.cornerAt j = 3 * halfCorner k j + 1) ∧ c.Sits fourE (digit 24 v 0) ∧ c.Sits fourM (digit 24 v 1) ∧
    c.Sits fourS (digit 24 v 2)

/-- the rows of a move are right -/
noncomputable def halfRows (g : Gen) (n : Nat) : Bool :=
  allBelow 96 fun r => cond (Nat.ble (Nat.add (g.row r) 1) 96)
    (allBelow 8 fun i => Nat.beq (cornerStep (Nat.add (Nat.mul 3 (halfCorner r i)) 1) n)
      (Nat.add (Nat.mul 3 (halfCorner (g.row r) i)) 1)) false

/-- the changes of a move are right in one slice -/
noncomputable def halfSlice (l : List Blk) (n : Nat) (f : Nat → Nat) (k : Nat) : Bool :=
  cond (Nat.beq (srcs l k) k) (allBelow 24 fun a => allBelow 4 fun i =>
    Nat.beq (edgeStep (Nat.mul 2 (f (digit 4 (fourAt a) i))) n) (Nat.mul 2 (f (digit 4 (fourAt (vals l k a)) i)))) false

/-- the changes of a move are right -/
noncomputable def halfDigits (l : List Blk) (n : Nat) : Bool :=
  cond (allOk 24 3 l) (cond (halfSlice l n fourE 0) (cond (halfSlice l n fourM 1) (halfSlice l n fourS 2) false) false) false

theorem half_slice {l : List Blk} {n : Nat} (hn : n < 31) {f : Nat → Nat} {k : Nat} (h : halfSlice l n f k = true) {c : Cube3}
    {v x : Nat} (hk : digit 24 x k = vals l k (digit 24 v (srcs l k))) (hs : c.Sits f (digit 24 v k)) :
    (moved c (mv n)).Sits f (digit 24 x k) := by
  obtain ⟨h1, h2⟩ := cond_and h
  intro j i hi hj
  rw [edgeAt_moved c hn, hs j i hi hj, hk, Nat.eq_of_beq_eq_true h1]
  exact Nat.eq_of_beq_eq_true (allBelow_spec (allBelow_spec h2 (digit_lt (by decide) v k)) hi)

theorem half_does {g : Gen} {l : List Blk} {n : Nat} (hn : n < 31) (ha : ∀ k, g.act k = changes 24 3 l k)
    (hr : halfRows g n = true) (hd : halfDigits l n = true) : g.Does 96 HalfState (mv n) := by
  obtain ⟨h1, hd⟩ := cond_and hd
  obtain ⟨h2, hd⟩ := cond_and hd
  obtain ⟨h3, h4⟩ := cond_and hd
  intro i hi
  obtain ⟨r1, r2⟩ := cond_and (allBelow_spec hr hi)
  refine ⟨Nat.le_of_ble_eq_true r1, fun k v c hv ⟨q1, q2, q3, q4⟩ => ?_⟩
  rw [ha] at hv
  obtain ⟨x, hx, hk⟩ := digit_changes (by decide) h1 hv
  refine ⟨x, hx, fun j => ?_, half_slice hn h2 (hk 0) q2, half_slice hn h3 (hk 1) q3, half_slice hn h4 (hk 2) q4⟩
  rw [cornerAt_moved c hn, q1 j]
  exact Nat.eq_of_beq_eq_true (allBelow_spec r2 j.2)

theorem half_rows1 : halfRows halfMove1 1 = true := by decide +kernel
theorem half_rows4 : halfRows halfMove4 4 = true := by decide +kernel
theorem half_rows7 : halfRows halfMove7 7 = true := by decide +kernel
theorem half_rows10 : halfRows halfMove10 10 = true := by decide +kernel
theorem half_rows13 : halfRows halfMove13 13 = true := by decide +kernel
theorem half_rows16 : halfRows halfMove16 16 = true := by decide +kernel

theorem half_digits1 : halfDigits halfBlks1 1 = true := by decide +kernel
theorem half_digits4 : halfDigits halfBlks4 4 = true := by decide +kernel
theorem half_digits7 : halfDigits halfBlks7 7 = true := by decide +kernel
theorem half_digits10 : halfDigits halfBlks10 10 = true := by decide +kernel
theorem half_digits13 : halfDigits halfBlks13 13 = true := by decide +kernel
theorem half_digits16 : halfDigits halfBlks16 16 = true := by decide +kernel

/-! ## The search -/

/-- the faces, with the moves of the cube -/
noncomputable def halfFaces : List (List (Gen × AxisMove)) := [[(halfMove1, mv 1)], [(halfMove4, mv 4)], [(halfMove7, mv 7)], [(halfMove10, mv 10)], [(halfMove13, mv 13)], [(halfMove16, mv 16)]]

theorem half_does_all : ∀ f ∈ halfFaces, ∀ p ∈ f, p.1.Does 96 HalfState p.2 := by
  unfold halfFaces
  simp only [List.forall_mem_cons, List.not_mem_nil, false_imp_iff, implies_true, and_true]
  exact ⟨half_does (by decide) half_act1 half_rows1 half_digits1,
    half_does (by decide) half_act4 half_rows4 half_digits4,
    half_does (by decide) half_act7 half_rows7 half_digits7,
    half_does (by decide) half_act10 half_rows10 half_digits10,
    half_does (by decide) half_act13 half_rows13 half_digits13,
    half_does (by decide) half_act16 half_rows16 half_digits16⟩

/-- half turns -/
def HalfTurn (m : AxisMove) : Prop := m.amount = .double

theorem half_faces : ∀ f ∈ halfFaces, Blocks.Face HalfTurn (f.map Prod.snd) := by
  unfold halfFaces
  simp only [List.forall_mem_cons, List.not_mem_nil, false_imp_iff, implies_true, and_true]
  exact ⟨.inl ⟨_, rfl, rfl⟩, .inl ⟨_, rfl, rfl⟩, .inl ⟨_, rfl, rfl⟩, .inl ⟨_, rfl, rfl⟩, .inl ⟨_, rfl, rfl⟩, .inl ⟨_, rfl, rfl⟩⟩

/-- the permutations of four things that need an odd number of exchanges -/
def fourOdds : Nat := 0x666666

/-- whether permutation number `a` is odd -/
def fourOdd (a : Nat) : Nat := bitOf fourOdds a

theorem fourOdd_ok : ∀ a < 24, fourOdd a = fourLength a % 2 := by decide +kernel

/-- the two permutations that make up an arrangement of the corners -/
def halfFour (k s : Nat) : Nat := Nat.land (Nat.shiftRight halfFours (Nat.add (Nat.mul 10 k) s)) 31

/-- whether the arrangement of the corners is odd -/
def cornersOdd (k : Nat) : Nat := Nat.mod (Nat.add (fourOdd (halfFour k 0)) (fourOdd (halfFour k 5))) 2

/-- whether the arrangement of the edges is odd -/
def edgesOdd (v : Nat) : Nat := Nat.mod (Nat.add (Nat.add (fourOdd (digit 24 v 0)) (fourOdd (digit 24 v 1))) (fourOdd (digit 24 v 2))) 2

/-- the arrangements of the edges that are even, those that are odd -/
noncomputable def edgesEven : Nat := select (fun v => Nat.beq (edgesOdd v) 0) 13824
noncomputable def edgesUneven : Nat := select (fun v => Nat.beq (edgesOdd v) 1) 13824

/-- the arrangements of the edges that go with one of the corners -/
noncomputable def edgesPossible (k : Nat) : Nat := cond (Nat.beq (cornersOdd k) 0) edgesEven edgesUneven

theorem half_all : covers (steps 7 (halfFaces.map fun f => f.map Prod.fst) (single 7 0 0) 15) edgesPossible 96 = true := by
  decide +kernel

/-! ## The permutations -/

theorem four_start : ∀ i < 4, digit 4 (fourAt (digit 24 0 0)) i = i ∧ digit 4 (fourAt (digit 24 0 1)) i = i ∧
    digit 4 (fourAt (digit 24 0 2)) i = i := by decide +kernel

theorem half_home : ∀ i < 8, halfCorner 0 i = i := by decide +kernel

/-- every edge is in one of the three slices -/
theorem edge_slices (j : Fin 12) : (∃ k < 4, j.val = fourE k) ∨ (∃ k < 4, j.val = fourM k) ∨ ∃ k < 4, j.val = fourS k := by
  rcases bit_cases sliceE j with a | a
  · rcases bit_cases sliceM j with b | b
    · exact .inr (.inr (fourS_mem j a b))
    · exact .inr (.inl (fourM_mem j b))
  · exact .inl (fourE_mem j a)

theorem half_goal (c : Cube3) (h : HalfState 0 0 c) : c = Cube3.SOLVED := by
  obtain ⟨h1, h2, h3, h4⟩ := h
  refine solved_of_codes c (fun j => ?_) fun j => by rw [h1 j, half_home j j.2]
  rcases edge_slices j with ⟨k, hk, e⟩ | ⟨k, hk, e⟩ | ⟨k, hk, e⟩
  · rw [h2 j k hk e, (four_start k hk).1, e]
  · rw [h3 j k hk e, (four_start k hk).2.1, e]
  · rw [h4 j k hk e, (four_start k hk).2.2, e]

theorem half_holds : Holds 96 HalfState (steps 7 (halfFaces.map fun f => f.map Prod.fst) (single 7 0 0) 15)
    (Within HalfTurn (fun c => c = Cube3.SOLVED) 15) :=
  steps_holds (by decide) half_does_all half_faces (single_holds (by decide) half_goal) 15

/-- the permutation of the edges in three permutations of four -/
theorem slices_of_perm (σ : Perm (Fin 12)) (qe : ∀ i : Fin 12, bitOf sliceE (σ i) = bitOf sliceE i)
    (qm : ∀ i : Fin 12, bitOf sliceM (σ i) = bitOf sliceM i) :
    ∃ e < 24, ∃ m < 24, ∃ s < 24, (∀ (j : Fin 12) (i : Nat), i < 4 → j.val = fourE i → (σ j).val = fourE (digit 4 (fourAt e) i)) ∧
      (∀ (j : Fin 12) (i : Nat), i < 4 → j.val = fourM i → (σ j).val = fourM (digit 4 (fourAt m) i)) ∧
      (∀ (j : Fin 12) (i : Nat), i < 4 → j.val = fourS i → (σ j).val = fourS (digit 4 (fourAt s) i)) ∧
      Perm.sign σ = (-1) ^ (fourLength e + fourLength m + fourLength s) := by
  have fE : ∀ i < 4, fourE i < 12 := fun i hi => (fourE_bit i hi).1
  have fM : ∀ i < 4, fourM i < 12 := fun i hi => (fourM_bit i hi).1
  have fS : ∀ i < 4, fourS i < 12 := fun i hi => (fourS_bit i hi).1
  have mE : ∀ i (hi : i < 4), ∃ d < 4, (σ ⟨fourE i, fE i hi⟩).val = fourE d := fun i hi =>
    fourE_mem _ (by rw [qe]; exact (fourE_bit i hi).2)
  have mM : ∀ i (hi : i < 4), ∃ d < 4, (σ ⟨fourM i, fM i hi⟩).val = fourM d := fun i hi =>
    fourM_mem _ (by rw [qm]; exact (fourM_bit i hi).2)
  have mS : ∀ i (hi : i < 4), ∃ d < 4, (σ ⟨fourS i, fS i hi⟩).val = fourS d := fun i hi =>
    fourS_mem _ (by rw [qe]; exact (fourS_bit i hi).2.1) (by rw [qm]; exact (fourS_bit i hi).2.2)
  obtain ⟨e, he, ke⟩ := four_of_perm σ fourE fE mE fourE_inj
  obtain ⟨m, hm, km⟩ := four_of_perm σ fourM fM mM fourM_inj
  obtain ⟨s, hs, ks⟩ := four_of_perm σ fourS fS mS fourS_inj
  refine ⟨e, he, m, hm, s, hs, fun j i hi hj => ?_, fun j i hi hj => ?_, fun j i hi hj => ?_, ?_⟩
  · rw [ke i hi, show j = ⟨fourE i, fE i hi⟩ from Fin.ext hj]
  · rw [km i hi, show j = ⟨fourM i, fM i hi⟩ from Fin.ext hj]
  · rw [ks i hi, show j = ⟨fourS i, fS i hi⟩ from Fin.ext hj]
  have hprod : σ = fourPerm (fourSwaps.getD e []) (fourFin fourE fE) * fourPerm (fourSwaps.getD m []) (fourFin fourM fM) *
      fourPerm (fourSwaps.getD s []) (fourFin fourS fS) := by
    apply Equiv.ext
    intro i
    rw [Perm.mul_apply, Perm.mul_apply]
    rcases edge_slices i with ⟨k, hk, hj⟩ | ⟨k, hk, hj⟩ | ⟨k, hk, hj⟩
    · obtain rfl : i = ⟨fourE k, fE k hk⟩ := Fin.ext hj
      rw [fourPerm_other _ (fourFin fourS fS) _ fun j h => (four_disjoint k hk j j.2).2.1 (Fin.mk.inj h).symm,
        fourPerm_other _ (fourFin fourM fM) _ fun j h => (four_disjoint k hk j j.2).1 (Fin.mk.inj h).symm,
        fourPerm_agrees fourE_inj he ke k hk]
    · obtain rfl : i = ⟨fourM k, fM k hk⟩ := Fin.ext hj
      rw [fourPerm_other _ (fourFin fourS fS) _ fun j h => (four_disjoint k hk j j.2).2.2 (Fin.mk.inj h).symm,
        fourPerm_agrees fourM_inj hm km k hk]
      obtain ⟨d, hd, hd'⟩ := mM k hk
      rw [fourPerm_other _ (fourFin fourE fE) _ fun j h => (four_disjoint j j.2 d hd).1 ((congrArg Fin.val h).trans hd')]
    · obtain rfl : i = ⟨fourS k, fS k hk⟩ := Fin.ext hj
      rw [fourPerm_agrees fourS_inj hs ks k hk]
      obtain ⟨d, hd, hd'⟩ := mS k hk
      rw [fourPerm_other _ (fourFin fourM fM) _ fun j h => (four_disjoint j j.2 d hd).2.2 ((congrArg Fin.val h).trans hd'),
        fourPerm_other _ (fourFin fourE fE) _ fun j h => (four_disjoint j j.2 d hd).2.1 ((congrArg Fin.val h).trans hd')]
  rw [hprod, Perm.sign_mul, Perm.sign_mul,
    fourPerm_sign _ (fourSwaps_ok e he).1 _ (fourFin_inj fE fourE_inj),
    fourPerm_sign _ (fourSwaps_ok m hm).1 _ (fourFin_inj fM fourM_inj),
    fourPerm_sign _ (fourSwaps_ok s hs).1 _ (fourFin_inj fS fourS_inj), ← pow_add, ← pow_add]
  rfl

noncomputable def halfFoursRight : Bool :=
  allBelow 96 fun k => cond (Nat.ble (Nat.add (halfFour k 0) 1) 24) (cond (Nat.ble (Nat.add (halfFour k 5) 1) 24)
    (allBelow 4 fun i => cond (Nat.beq (fourA (digit 4 (fourAt (halfFour k 0)) i)) (halfCorner k (fourA i)))
      (Nat.beq (fourB (digit 4 (fourAt (halfFour k 5)) i)) (halfCorner k (fourB i))) false) false) false

theorem half_fours : halfFoursRight = true := by decide +kernel

theorem fourAB_apart : ∀ i < 4, ∀ j < 4, fourA i ≠ fourB j := by decide +kernel

theorem corner_fours (j : Fin 8) : (∃ k < 4, j.val = fourA k) ∨ ∃ k < 4, j.val = fourB k := by
  rcases bit_cases tetrad j with a | a
  · exact .inr (fourB_mem j a)
  · exact .inl (fourA_mem j a)

/-- the sign of an arrangement of the corners that half turns lead to -/
theorem half_sign {k : Nat} (hk : k < 96) (τ : Perm (Fin 8)) (h : ∀ j : Fin 8, (τ j).val = halfCorner k j) :
    Perm.sign τ = (-1) ^ (fourLength (halfFour k 0) + fourLength (halfFour k 5)) := by
  obtain ⟨a1, h1⟩ := cond_and (allBelow_spec half_fours hk)
  obtain ⟨b1, h2⟩ := cond_and h1
  have ha : halfFour k 0 < 24 := Nat.le_of_ble_eq_true a1
  have hb : halfFour k 5 < 24 := Nat.le_of_ble_eq_true b1
  have fA : ∀ i < 4, fourA i < 8 := fun i hi => (fourA_bit i hi).1
  have fB : ∀ i < 4, fourB i < 8 := fun i hi => (fourB_bit i hi).1
  have ka : ∀ i (hi : i < 4), fourA (digit 4 (fourAt (halfFour k 0)) i) = (τ ⟨fourA i, fA i hi⟩).val := fun i hi =>
    (Nat.eq_of_beq_eq_true (cond_and (allBelow_spec h2 hi)).1).trans (h ⟨fourA i, fA i hi⟩).symm
  have kb : ∀ i (hi : i < 4), fourB (digit 4 (fourAt (halfFour k 5)) i) = (τ ⟨fourB i, fB i hi⟩).val := fun i hi =>
    (Nat.eq_of_beq_eq_true (cond_and (allBelow_spec h2 hi)).2).trans (h ⟨fourB i, fB i hi⟩).symm
  have d4 : ∀ a i, digit 4 (fourAt a) i < 4 := fun a i => digit_lt (by decide) _ _
  have hprod : τ = fourPerm (fourSwaps.getD (halfFour k 0) []) (fourFin fourA fA) *
      fourPerm (fourSwaps.getD (halfFour k 5) []) (fourFin fourB fB) := by
    apply Equiv.ext
    intro i
    rw [Perm.mul_apply]
    rcases corner_fours i with ⟨n, hn, hj⟩ | ⟨n, hn, hj⟩
    · obtain rfl : i = ⟨fourA n, fA n hn⟩ := Fin.ext hj
      rw [fourPerm_other _ (fourFin fourB fB) _ fun j h => fourAB_apart n hn j j.2 (Fin.mk.inj h).symm,
        fourPerm_agrees fourA_inj ha ka n hn]
    · obtain rfl : i = ⟨fourB n, fB n hn⟩ := Fin.ext hj
      rw [fourPerm_agrees fourB_inj hb kb n hn, fourPerm_other _ (fourFin fourA fA) _ fun j h =>
        fourAB_apart j j.2 _ (d4 _ n) ((congrArg Fin.val h).trans (kb n hn).symm)]
  rw [hprod, Perm.sign_mul, fourPerm_sign _ (fourSwaps_ok _ ha).1 _ (fourFin_inj fA fourA_inj),
    fourPerm_sign _ (fourSwaps_ok _ hb).1 _ (fourFin_inj fB fourB_inj), ← pow_add]
  rfl

theorem neg_one_pow_eq {a b : Nat} (h : (-1 : ℤˣ) ^ a = (-1) ^ b) : a % 2 = b % 2 := by
  rcases Nat.even_or_odd a with ha | ha <;> rcases Nat.even_or_odd b with hb | hb
  · rw [Nat.even_iff.1 ha, Nat.even_iff.1 hb]
  · rw [ha.neg_one_pow, hb.neg_one_pow] at h
    exact absurd h (by decide)
  · rw [ha.neg_one_pow, hb.neg_one_pow] at h
    exact absurd h (by decide)
  · rw [Nat.odd_iff.1 ha, Nat.odd_iff.1 hb]

/-- three digits in one number -/
theorem digits_three {e m s : Nat} (he : e < 24) (hm : m < 24) (hs : s < 24) :
    ∃ v < 13824, digit 24 v 0 = e ∧ digit 24 v 1 = m ∧ digit 24 v 2 = s := by
  obtain ⟨v, hv, h⟩ := digits_exist 24 3 (fun i => [e, m, s].getD i 0) fun p hp => by
    match p, hp with
    | 0, _ => exact he
    | 1, _ => exact hm
    | 2, _ => exact hs
  exact ⟨v, hv, h 0 (by decide), h 1 (by decide), h 2 (by decide)⟩

/-- the state of a cube that half turns can solve -/
theorem half_state (c : Cube3) (h : c.Lawful) (q : c.Q4h) :
    ∃ k < 96, ∃ v < 13824, HalfState k v c ∧ edgesOdd v = cornersOdd k := by
  obtain ⟨⟨σ, τ, h1, h2, h3⟩, -, -⟩ := h
  obtain ⟨⟨q2, q3⟩, qm, k, hk, qc⟩ := q
  obtain ⟨e, he, m, hm, s, hs, ke, km, ks, hsign⟩ := slices_of_perm σ (fun i => by rw [← edgeAt_place h1 i, q2.2 i])
    fun i => by rw [← edgeAt_place h1 i, qm i]
  obtain ⟨v, hv, d0, d1, d2⟩ := digits_three he hm hs
  have hτ := half_sign hk τ fun j => by rw [← cornerAt_place h2 j, qc j]
  have even : ∀ j : Fin 12, c.edgeAt j = 2 * (σ j).val := fun j => by
    have := edgeAt_place h1 j
    have := q2.1 j
    omega
  refine ⟨k, hk, v, hv, ⟨fun j => ?_, ?_, ?_, ?_⟩, ?_⟩
  · have := q3 j
    have := qc j
    omega
  · rw [d0]
    exact fun j i hi hj => by rw [even j, ke j i hi hj]
  · rw [d1]
    exact fun j i hi hj => by rw [even j, km j i hi hj]
  · rw [d2]
    exact fun j i hi hj => by rw [even j, ks j i hi hj]
  · obtain ⟨a1, hx⟩ := cond_and (allBelow_spec half_fours hk)
    have ha : halfFour k 0 < 24 := Nat.le_of_ble_eq_true a1
    have hb : halfFour k 5 < 24 := Nat.le_of_ble_eq_true (cond_and hx).1
    rw [hsign, hτ] at h3
    have := neg_one_pow_eq h3
    show (fourOdd (digit 24 v 0) + fourOdd (digit 24 v 1) + fourOdd (digit 24 v 2)) % 2 =
      (fourOdd (halfFour k 0) + fourOdd (halfFour k 5)) % 2
    rw [d0, d1, d2, fourOdd_ok e he, fourOdd_ok m hm, fourOdd_ok s hs, fourOdd_ok _ ha, fourOdd_ok _ hb]
    omega

theorem cornersOdd_lt (k : Nat) : cornersOdd k < 2 := Nat.mod_lt _ (by decide)

theorem edges_even {v : Nat} (hv : v < 13824) (h : edgesOdd v = 0) : edgesEven.testBit v = true := by
  unfold edgesEven
  exact testBit_select hv (by rw [h]; rfl)

theorem edges_uneven {v : Nat} (hv : v < 13824) (h : edgesOdd v = 1) : edgesUneven.testBit v = true := by
  unfold edgesUneven
  exact testBit_select hv (by rw [h]; rfl)

theorem edges_possible {k v : Nat} (hv : v < 13824) (h : edgesOdd v = cornersOdd k) : (edgesPossible k).testBit v = true := by
  unfold edgesPossible
  have := cornersOdd_lt k
  rcases (show cornersOdd k = 0 ∨ cornersOdd k = 1 by omega) with e | e
  · rw [e, show Nat.beq 0 0 = true from rfl, cond_true]
    exact edges_even hv (h.trans e)
  · rw [e, show Nat.beq 1 0 = false from rfl, cond_false]
    exact edges_uneven hv (h.trans e)

/-- what half turns can do takes at most fifteen of them -/
theorem half_solved (c : Cube3) (h : c.Lawful) (q : c.Q4h) :
    ∃ w : List AxisMove, (∀ m ∈ w, HalfTurn m) ∧ w.length ≤ 15 ∧ movedAlg c w = Cube3.SOLVED := by
  obtain ⟨k, hk, v, hv, hs, ho⟩ := half_state c h q
  exact half_holds k hk v (covered half_all hk (edges_possible hv ho)) c hs

end Barbarosa
