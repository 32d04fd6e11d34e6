import Verif.Lemmas.PhaseHalf
import Verif.Lemmas.BlocksComplete
import Verif.Lemmas.CrossCount
import Verif.Props.Moves

/-!
# How many states take how many half turns
-/

namespace Barbarosa

open Equiv Blocks

/-! ## Descriptions of cubes by numbers -/

/-- different permutations have different numbers -/
noncomputable def foursDiffer : Bool := allBelow 24 fun a => allBelow 24 fun b => cond (Nat.beq a b) true
  (!allBelow 4 fun i => Nat.beq (digit 4 (fourAt a) i) (digit 4 (fourAt b) i))

theorem fours_differ : foursDiffer = true := by decide +kernel

theorem four_unique {a b : Nat} (ha : a < 24) (hb : b < 24) (h : ∀ i < 4, digit 4 (fourAt a) i = digit 4 (fourAt b) i) : a = b := by
  have h1 := allBelow_spec (allBelow_spec fours_differ ha) hb
  cases hab : Nat.beq a b with
  | true => exact Nat.eq_of_beq_eq_true hab
  | false =>
    rw [hab, cond_false, allBelow_of fun i hi => by rw [h i hi]; exact Nat.beq_refl _] at h1
    cases h1

theorem sits_unique {f : Nat → Nat} (hf : ∀ i < 4, f i < 12) (inj : ∀ i < 4, ∀ j < 4, f i = f j → i = j) {a b : Nat} (ha : a < 24)
    (hb : b < 24) {c : Cube3} (h : c.Sits f a) (h' : c.Sits f b) : a = b := by
  refine four_unique ha hb fun i hi => inj _ (digit_lt (by decide) _ _) _ (digit_lt (by decide) _ _) ?_
  have e1 := h ⟨f i, hf i hi⟩ i hi rfl
  have e2 := h' ⟨f i, hf i hi⟩ i hi rfl
  omega

/-- different arrangements of the corners have different numbers -/
noncomputable def cornersDiffer : Bool := allBelow 96 fun k => allBelow 96 fun k' => cond (Nat.beq k k') true
  (!allBelow 8 fun i => Nat.beq (halfCorner k i) (halfCorner k' i))

theorem corners_differ : cornersDiffer = true := by decide +kernel

theorem corners_unique {k k' : Nat} (hk : k < 96) (hk' : k' < 96) (h : ∀ i < 8, halfCorner k i = halfCorner k' i) : k = k' := by
  have h1 := allBelow_spec (allBelow_spec corners_differ hk) hk'
  cases hab : Nat.beq k k' with
  | true => exact Nat.eq_of_beq_eq_true hab
  | false =>
    rw [hab, cond_false, allBelow_of fun i hi => by rw [h i hi]; exact Nat.beq_refl _] at h1
    cases h1

theorem digits_unique {v x : Nat} (hv : v < 13824) (hx : x < 13824) (h0 : digit 24 v 0 = digit 24 x 0)
    (h1 : digit 24 v 1 = digit 24 x 1) (h2 : digit 24 v 2 = digit 24 x 2) : v = x := by
  change v / 24 ^ 0 % 24 = x / 24 ^ 0 % 24 at h0
  change v / 24 ^ 1 % 24 = x / 24 ^ 1 % 24 at h1
  change v / 24 ^ 2 % 24 = x / 24 ^ 2 % 24 at h2
  norm_num at h0 h1 h2
  omega

/-- a cube has at most one description -/
theorem state_unique {k k' v x : Nat} (hk : k < 96) (hk' : k' < 96) (hv : v < 13824) (hx : x < 13824) {c : Cube3}
    (h : HalfState k v c) (h' : HalfState k' x c) : k = k' ∧ v = x := by
  obtain ⟨a1, a2, a3, a4⟩ := h
  obtain ⟨b1, b2, b3, b4⟩ := h'
  have l : ∀ v k, digit 24 v k < 24 := fun v k => digit_lt (by decide) v k
  refine ⟨corners_unique hk hk' fun i hi => ?_, digits_unique hv hx ?_ ?_ ?_⟩
  · have e1 := a1 ⟨i, hi⟩
    have e2 := b1 ⟨i, hi⟩
    simp only at e1 e2
    omega
  · exact sits_unique (fun i hi => (fourE_bit i hi).1) fourE_inj (l _ _) (l _ _) a2 b2
  · exact sits_unique (fun i hi => (fourM_bit i hi).1) fourM_inj (l _ _) (l _ _) a3 b3
  · exact sits_unique (fun i hi => (fourS_bit i hi).1) fourS_inj (l _ _) (l _ _) a4 b4

theorem slice_bits : ∀ i < 4, bitOf sliceE (fourE i) = 1 ∧ bitOf sliceM (fourE i) = 0 ∧ bitOf sliceE (fourM i) = 0 ∧
    bitOf sliceM (fourM i) = 1 ∧ bitOf sliceE (fourS i) = 0 ∧ bitOf sliceM (fourS i) = 0 := by decide +kernel

/-- half turns keep all pieces in their slices and classes -/
theorem state_sorted {k v : Nat} (hk : k < 96) {c : Cube3} (h : HalfState k v c) : c.Q4h := by
  obtain ⟨h1, h2, h3, h4⟩ := h
  have d4 : ∀ a i, digit 4 (fourAt a) i < 4 := fun a i => digit_lt (by decide) _ _
  have key : ∀ j : Fin 12, c.edgeAt j % 2 = 0 ∧ bitOf sliceE (c.edgeAt j / 2) = bitOf sliceE j ∧
      bitOf sliceM (c.edgeAt j / 2) = bitOf sliceM j := by
    intro j
    rcases edge_slices j with ⟨n, hn, e⟩ | ⟨n, hn, e⟩ | ⟨n, hn, e⟩
    · obtain ⟨a1, a2, -⟩ := slice_bits n hn
      obtain ⟨b1, b2, -⟩ := slice_bits _ (d4 (digit 24 v 0) n)
      rw [h2 j n hn e, Nat.mul_mod_right, Nat.mul_div_cancel_left _ (by decide), e, a1, a2, b1, b2]
      exact ⟨rfl, rfl, rfl⟩
    · obtain ⟨-, -, a1, a2, -⟩ := slice_bits n hn
      obtain ⟨-, -, b1, b2, -⟩ := slice_bits _ (d4 (digit 24 v 1) n)
      rw [h3 j n hn e, Nat.mul_mod_right, Nat.mul_div_cancel_left _ (by decide), e, a1, a2, b1, b2]
      exact ⟨rfl, rfl, rfl⟩
    · obtain ⟨-, -, -, -, a1, a2⟩ := slice_bits n hn
      obtain ⟨-, -, -, -, b1, b2⟩ := slice_bits _ (d4 (digit 24 v 2) n)
      rw [h4 j n hn e, Nat.mul_mod_right, Nat.mul_div_cancel_left _ (by decide), e, a1, a2, b1, b2]
      exact ⟨rfl, rfl, rfl⟩
  exact ⟨⟨⟨fun i => (key i).1, fun i => (key i).2.1⟩, fun i => by rw [h1 i]; omega⟩, fun i => (key i).2.2, k, hk,
    fun j => by rw [h1 j]; omega⟩

theorem edgeCode_of : ∀ x < 24, edgeCode (edgeOfCode x) = x := by decide +kernel
theorem cornerCode_of : ∀ x < 24, cornerCode (cornerOfCode x) = x := by decide +kernel

/-- every description belongs to a cube -/
theorem state_exists (k v : Nat) : ∃ c : Cube3, HalfState k v c := by
  have fE : ∀ i < 4, fourE i < 12 := fun i hi => (fourE_bit i hi).1
  have fM : ∀ i < 4, fourM i < 12 := fun i hi => (fourM_bit i hi).1
  have fS : ∀ i < 4, fourS i < 12 := fun i hi => (fourS_bit i hi).1
  have d4 : ∀ a i, digit 4 (fourAt a) i < 4 := fun a i => digit_lt (by decide) _ _
  have key : ∀ j : Fin 12, ∃ x < 24, (∀ i < 4, j.val = fourE i → x = 2 * fourE (digit 4 (fourAt (digit 24 v 0)) i)) ∧
      (∀ i < 4, j.val = fourM i → x = 2 * fourM (digit 4 (fourAt (digit 24 v 1)) i)) ∧
      ∀ i < 4, j.val = fourS i → x = 2 * fourS (digit 4 (fourAt (digit 24 v 2)) i) := by
    intro j
    rcases edge_slices j with ⟨n, hn, e⟩ | ⟨n, hn, e⟩ | ⟨n, hn, e⟩
    · refine ⟨2 * fourE (digit 4 (fourAt (digit 24 v 0)) n), by have := fE _ (d4 (digit 24 v 0) n); omega, fun i hi h => ?_,
        fun i hi h => absurd (e.symm.trans h) (four_disjoint n hn i hi).1,
        fun i hi h => absurd (e.symm.trans h) (four_disjoint n hn i hi).2.1⟩
      rw [fourE_inj i hi n hn (h.symm.trans e)]
    · refine ⟨2 * fourM (digit 4 (fourAt (digit 24 v 1)) n), by have := fM _ (d4 (digit 24 v 1) n); omega,
        fun i hi h => absurd (h.symm.trans e) (four_disjoint i hi n hn).1, fun i hi h => ?_,
        fun i hi h => absurd (e.symm.trans h) (four_disjoint n hn i hi).2.2⟩
      rw [fourM_inj i hi n hn (h.symm.trans e)]
    · refine ⟨2 * fourS (digit 4 (fourAt (digit 24 v 2)) n), by have := fS _ (d4 (digit 24 v 2) n); omega,
        fun i hi h => absurd (h.symm.trans e) (four_disjoint i hi n hn).2.1,
        fun i hi h => absurd (h.symm.trans e) (four_disjoint i hi n hn).2.2, fun i hi h => ?_⟩
      rw [fourS_inj i hi n hn (h.symm.trans e)]
  choose x hx h1 h2 h3 using key
  refine ⟨⟨fun j => edgeOfCode (x j), fun j => cornerOfCode (3 * halfCorner k j + 1)⟩, fun j => ?_, fun j i hi hj => ?_,
    fun j i hi hj => ?_, fun j i hi hj => ?_⟩
  · exact cornerCode_of _ (by have := halfCorner_lt k j; omega)
  · exact (edgeCode_of _ (hx j)).trans (h1 j i hi hj)
  · exact (edgeCode_of _ (hx j)).trans (h2 j i hi hj)
  · exact (edgeCode_of _ (hx j)).trans (h3 j i hi hj)

/-! ## The searches leave nothing out -/

/-- the changes of a digit take different values to different values -/
noncomputable def digitOnto (l : List Blk) (k : Nat) : Bool :=
  allBelow 24 fun a => cond (Nat.ble (Nat.add (vals l k a) 1) 24)
    (allBelow 24 fun b => cond (Nat.beq (vals l k a) (vals l k b)) (Nat.beq a b) true) false

noncomputable def allOnto (l : List Blk) : Bool :=
  cond (allFull 24 l) (cond (digitOnto l 0) (cond (digitOnto l 1) (digitOnto l 2) false) false) false

theorem digitOnto_lt {l : List Blk} {k : Nat} (h : digitOnto l k = true) {a : Nat} (ha : a < 24) : vals l k a < 24 :=
  Nat.le_of_ble_eq_true (cond_and (allBelow_spec h ha)).1

theorem digitOnto_inj {l : List Blk} {k : Nat} (h : digitOnto l k = true) {a b : Nat} (ha : a < 24) (hb : b < 24)
    (e : vals l k a = vals l k b) : a = b := by
  have h1 := allBelow_spec (cond_and (allBelow_spec h ha)).2 hb
  rw [e, Nat.beq_refl, cond_true] at h1
  exact Nat.eq_of_beq_eq_true h1

theorem half_finds {g : Gen} {l : List Blk} {n : Nat} (hn : n < 31) (ha : ∀ k, g.act k = changes 24 3 l k)
    (hr : halfRows g n = true) (hd : halfDigits l n = true) (ho : allOnto l = true) : g.Finds 96 13824 HalfState (mv n) := by
  obtain ⟨h1, hd⟩ := cond_and hd
  obtain ⟨h2, hd⟩ := cond_and hd
  obtain ⟨h3, h4⟩ := cond_and hd
  obtain ⟨o1, ho⟩ := cond_and ho
  obtain ⟨o2, ho⟩ := cond_and ho
  obtain ⟨o3, o4⟩ := cond_and ho
  have s2 : srcs l 0 = 0 := Nat.eq_of_beq_eq_true (cond_and h2).1
  have s3 : srcs l 1 = 1 := Nat.eq_of_beq_eq_true (cond_and h3).1
  have s4 : srcs l 2 = 2 := Nat.eq_of_beq_eq_true (cond_and h4).1
  have lt : ∀ v k, digit 24 v k < 24 := fun v k => digit_lt (by decide) v k
  intro i hi v hv c ⟨q1, q2, q3, q4⟩
  obtain ⟨r1, r2⟩ := cond_and (allBelow_spec hr hi)
  refine ⟨Nat.le_of_ble_eq_true r1, ?_⟩
  obtain ⟨x, hx, x0, x1, x2⟩ := digits_three (digitOnto_lt o2 (lt v 0)) (digitOnto_lt o3 (lt v 1)) (digitOnto_lt o4 (lt v 2))
  refine ⟨x, hx, ⟨fun j => ?_, half_slice hn h2 (by rw [s2, x0]) q2, half_slice hn h3 (by rw [s3, x1]) q3,
    half_slice hn h4 (by rw [s4, x2]) q4⟩, fun k hk => ?_⟩
  · rw [cornerAt_moved c hn, q1 j]
    exact Nat.eq_of_beq_eq_true (allBelow_spec r2 j.2)
  · obtain ⟨y, hy, hyb, e⟩ := changes_testBit (b := 24) (N := 3) (by decide) h1 o1 (x := x) hx hk
    have e0 := e 0
    have e1 := e 1
    have e2 := e 2
    rw [s2, x0] at e0
    rw [s3, x1] at e1
    rw [s4, x2] at e2
    have : v = y := digits_unique hv hy (digitOnto_inj o2 (lt _ _) (lt _ _) e0) (digitOnto_inj o3 (lt _ _) (lt _ _) e1)
      (digitOnto_inj o4 (lt _ _) (lt _ _) e2)
    rw [ha, this]
    exact hyb

theorem half_onto1 : allOnto halfBlks1 = true := by decide +kernel
theorem half_onto4 : allOnto halfBlks4 = true := by decide +kernel
theorem half_onto7 : allOnto halfBlks7 = true := by decide +kernel
theorem half_onto10 : allOnto halfBlks10 = true := by decide +kernel
theorem half_onto13 : allOnto halfBlks13 = true := by decide +kernel
theorem half_onto16 : allOnto halfBlks16 = true := by decide +kernel

/-- the six half turns -/
noncomputable def halfGens : List (Gen × AxisMove) := [(halfMove1, mv 1), (halfMove4, mv 4), (halfMove7, mv 7), (halfMove10, mv 10), (halfMove13, mv 13), (halfMove16, mv 16)]

theorem halfFaces_eq : halfFaces.map (fun f => f.map Prod.fst) = halfGens.map fun p => [p.1] := rfl

theorem half_finds_all : ∀ p ∈ halfGens, p.1.Finds 96 13824 HalfState p.2 := by
  unfold halfGens
  simp only [List.forall_mem_cons, List.not_mem_nil, false_imp_iff, implies_true, and_true]
  exact ⟨half_finds (by decide) half_act1 half_rows1 half_digits1 half_onto1,
    half_finds (by decide) half_act4 half_rows4 half_digits4 half_onto4,
    half_finds (by decide) half_act7 half_rows7 half_digits7 half_onto7,
    half_finds (by decide) half_act10 half_rows10 half_digits10 half_onto10,
    half_finds (by decide) half_act13 half_rows13 half_digits13 half_onto13,
    half_finds (by decide) half_act16 half_rows16 half_digits16 half_onto16⟩

theorem half_turn_number : ∀ m : AxisMove, m.amount = .double → m = mv 1 ∨ m = mv 4 ∨ m = mv 7 ∨ m = mv 10 ∨ m = mv 13 ∨ m = mv 16 := by
  decide +kernel

theorem half_turns : ∀ m, HalfTurn m → ∃ p ∈ halfGens, p.2 = m := by
  intro m hm
  unfold halfGens
  simp only [List.mem_cons, List.not_mem_nil, or_false, exists_eq_or_imp, exists_eq_left]
  rcases half_turn_number m hm with h | h | h | h | h | h <;> simp [h]

/-- the set of all states at most `n` half turns away -/
noncomputable def halfLevel (n : Nat) : Rows := steps 7 (halfFaces.map fun f => f.map Prod.fst) (single 7 0 0) n

theorem half_solved_state : HalfState 0 0 Cube3.SOLVED := by
  refine ⟨by decide +kernel, ?_, ?_, ?_⟩ <;> (unfold Cube3.Sits; decide +kernel)

theorem half_complete (n : Nat) : Complete 96 13824 HalfState (halfLevel n) (Within HalfTurn (fun c => c = Cube3.SOLVED) n) := by
  unfold halfLevel
  rw [halfFaces_eq]
  refine steps_complete (by decide) half_finds_all half_turns (build_deep _ _ _ _) (single_complete (by decide) ?_) n
  rintro i hi v hv c hc rfl
  exact state_unique hi (by decide) hv (by decide) hc half_solved_state

theorem half_sound (n : Nat) : Holds 96 HalfState (halfLevel n) (Within HalfTurn (fun c => c = Cube3.SOLVED) n) :=
  steps_holds (by decide) half_does_all half_faces (single_holds (by decide) half_goal) n

theorem half_inverse : ∀ m : AxisMove, m.amount = .double → (Move.inverse m).amount = .double := by decide +kernel

/-- the description determines the cube -/
theorem half_state_det {k v : Nat} {c c' : Cube3} (h : HalfState k v c) (h' : HalfState k v c') : c = c' := by
  obtain ⟨a1, a2, a3, a4⟩ := h
  obtain ⟨b1, b2, b3, b4⟩ := h'
  refine Cube3.ext (funext fun j => ?_) (funext fun j => ?_)
  · have e : c.edgeAt j = c'.edgeAt j := by
      rcases edge_slices j with ⟨n, hn, e⟩ | ⟨n, hn, e⟩ | ⟨n, hn, e⟩
      · rw [a2 j n hn e, b2 j n hn e]
      · rw [a3 j n hn e, b3 j n hn e]
      · rw [a4 j n hn e, b4 j n hn e]
    rw [← (edgeCode_ok (c.edges j)).2, ← (edgeCode_ok (c'.edges j)).2]
    exact congrArg edgeOfCode e
  · have e : c.cornerAt j = c'.cornerAt j := by rw [a1 j, b1 j]
    rw [← (cornerCode_ok (c.corners j)).2, ← (cornerCode_ok (c'.corners j)).2]
    exact congrArg cornerOfCode e

theorem half_reversed {w : List AxisMove} (h : ∀ m ∈ w, HalfTurn m) : ∀ m ∈ reversed w, HalfTurn m := by
  intro m hm
  unfold reversed at hm
  rw [List.mem_map] at hm
  obtain ⟨x, hx, rfl⟩ := hm
  exact half_inverse x (h x (List.mem_reverse.1 hx))

theorem half_undo (c : Cube3) (w : List AxisMove) : movedAlg (movedAlg c w) (reversed w) = c :=
  (C02_alg_then_reversed ⟨Cube3, AxisMove⟩ (by simp [moveSystems]) w c).1

/-- a cube that is solved by half turns has a description -/
theorem state_of_within {n : Nat} {c : Cube3} (h : Within HalfTurn (fun c => c = Cube3.SOLVED) n c) :
    ∃ k < 96, ∃ v < 13824, HalfState k v c := by
  obtain ⟨w, h1, -, h3⟩ := h
  have key : ∀ w : List AxisMove, (∀ m ∈ w, HalfTurn m) → ∀ c, (∃ k < 96, ∃ v < 13824, HalfState k v c) →
      ∃ k < 96, ∃ v < 13824, HalfState k v (movedAlg c w) := by
    intro w
    induction w with
    | nil => exact fun _ c hc => hc
    | cons m w ih =>
      intro hw c ⟨k, hk, v, hv, hc⟩
      obtain ⟨p, hp, rfl⟩ := half_turns m (hw m List.mem_cons_self)
      obtain ⟨hr, x, hx, hd, -⟩ := half_finds_all p hp k hk v hv c hc
      exact ih (fun q hq => hw q (List.mem_cons_of_mem _ hq)) _ ⟨_, hr, x, hx, hd⟩
  have := key (reversed w) (half_reversed h1) (movedAlg c w) (by
    rw [h3]
    exact ⟨0, by decide, 0, by decide, half_solved_state⟩)
  rwa [half_undo] at this

/-- the number of members -/
noncomputable def rowsCount (s : Rows) : Nat := sumBelow 96 fun i => Bits.countBits (s.get i)

/-- the rows have no other members -/
noncomputable def rowsFit (s : Rows) : Bool := allBelow 96 fun i => Nat.ble (Nat.add (s.get i) 1) (Nat.pow 2 13824)

theorem fits {S B : Nat} (h : Nat.ble (Nat.add S 1) (Nat.pow 2 B) = true) : S < 2 ^ B := Nat.le_of_ble_eq_true h

theorem card_row {S : Nat} (hS : S < 2 ^ 13824) : ((Finset.range 13824).filter fun v => S.testBit v = true).card = Bits.countBits S := by
  have hS' : S < 2 ^ 331776 := hS.trans (Nat.pow_lt_pow_right (by decide) (show 13824 < 331776 by decide))
  rw [Bits.countBits_eq, Bits.sum_high hS', Nat.add_zero,
    Nat.mod_eq_of_lt (lt_of_le_of_lt (Bits.sum_bits_le _ _) (by norm_num)), show 331776 = 13824 + 317952 from rfl,
    Finset.sum_range_add, Bits.sum_high hS, Nat.add_zero, Bits.sum_bits_card]

/-- the members are as many as the cubes they describe -/
theorem card_states {R B : Nat} {D : Nat → Nat → Cube3 → Prop} {s : Rows} {Q : Cube3 → Prop} {F : Nat → Nat → Cube3}
    (hF : ∀ k v, D k v (F k v)) (det : ∀ k v c c', D k v c → D k v c' → c = c')
    (uniq : ∀ k < R, ∀ k' < R, ∀ v < B, ∀ v' < B, ∀ c, D k v c → D k' v' c → k = k' ∧ v = v')
    (sound : Holds R D s Q) (complete : Complete R B D s Q) (ex : ∀ c, Q c → ∃ k < R, ∃ v < B, D k v c) :
    Nat.card { c : Cube3 // Q c } =
      ((Finset.range R ×ˢ Finset.range B).filter fun p => (s.get p.1).testBit p.2 = true).card := by
  have hP : ∀ p, p ∈ ((Finset.range R ×ˢ Finset.range B).filter fun p => (s.get p.1).testBit p.2 = true) ↔
      (p.1 < R ∧ p.2 < B) ∧ (s.get p.1).testBit p.2 = true := by
    intro p
    rw [Finset.mem_filter, Finset.mem_product, Finset.mem_range, Finset.mem_range]
  rw [← Nat.card_eq_finsetCard]
  have hin : ∀ p : ((Finset.range R ×ˢ Finset.range B).filter fun p => (s.get p.1).testBit p.2 = true),
      Q (F p.1.1 p.1.2) := by
    rintro ⟨⟨k, v⟩, h⟩
    obtain ⟨⟨h1, -⟩, h3⟩ := (hP (k, v)).1 h
    exact sound k h1 v h3 _ (hF k v)
  refine (Nat.card_congr (Equiv.ofBijective (fun p => (⟨F p.1.1 p.1.2, hin p⟩ : { c : Cube3 // Q c })) ⟨?_, ?_⟩)).symm
  · rintro ⟨⟨k, v⟩, h⟩ ⟨⟨k', v'⟩, h'⟩ he
    obtain ⟨⟨h1, h2⟩, -⟩ := (hP (k, v)).1 h
    obtain ⟨⟨h1', h2'⟩, -⟩ := (hP (k', v')).1 h'
    have he : F k v = F k' v' := congrArg Subtype.val he
    obtain ⟨rfl, rfl⟩ := uniq k h1 k' h1' v h2 v' h2' _ (hF k v) (by rw [he]; exact hF k' v')
    rfl
  · rintro ⟨c, hc⟩
    obtain ⟨k, hk, v, hv, hs⟩ := ex c hc
    exact ⟨⟨(k, v), (hP (k, v)).2 ⟨⟨hk, hv⟩, complete k hk v hv c hs hc⟩⟩, Subtype.ext (det k v _ _ (hF k v) hs)⟩

theorem card_rows {R B : Nat} (s : Rows) :
    ((Finset.range R ×ˢ Finset.range B).filter fun p => (s.get p.1).testBit p.2 = true).card =
      ∑ i : Fin R, ((Finset.range B).filter fun v => (s.get i).testBit v = true).card := by
  rw [Finset.card_filter, Finset.sum_product, Finset.sum_range]
  exact Finset.sum_congr rfl fun i _ => (Finset.card_filter _ _).symm

theorem card_within {n : Nat} (hf : rowsFit (halfLevel n) = true) :
    Nat.card { c : Cube3 // Within HalfTurn (fun c => c = Cube3.SOLVED) n c } = rowsCount (halfLevel n) := by
  choose F hF using state_exists
  rw [card_states hF (fun _ _ _ _ => half_state_det) (fun k hk k' hk' v hv v' hv' c => state_unique hk hk' hv hv') (half_sound n)
    (half_complete n) (fun _ => state_of_within), card_rows, rowsCount, sumBelow_eq]
  exact Finset.sum_congr rfl fun i _ => card_row (fits (allBelow_spec hf i.2))

/-- the numbers of states at most 0, 1, ... half turns away -/
def halfTurnCounts : List Nat :=
  [1, 7, 34, 154, 673, 2605, 9089, 29399, 84433, 198325, 376820, 556016, 645744, 661920, 663408, 663552]

noncomputable def halfCounted (n : Nat) : Bool :=
  cond (rowsFit (halfLevel n)) (Nat.beq (rowsCount (halfLevel n)) (halfTurnCounts.getD n 0)) false

theorem half_counted : allBelow 16 halfCounted = true := by decide +kernel

theorem card_half {n : Nat} (hn : n < 16) :
    Nat.card { c : Cube3 // Within HalfTurn (fun c => c = Cube3.SOLVED) n c } = halfTurnCounts.getD n 0 := by
  obtain ⟨h1, h2⟩ := cond_and (allBelow_spec half_counted hn)
  exact (card_within h1).trans (Nat.eq_of_beq_eq_true h2)

/-- fifteen half turns do what any number of them does -/
theorem half_fifteen {n : Nat} {c : Cube3} (h : Within HalfTurn (fun c => c = Cube3.SOLVED) n c) :
    Within HalfTurn (fun c => c = Cube3.SOLVED) 15 c := by
  obtain ⟨k, hk, v, -, hs⟩ := state_of_within h
  obtain ⟨w, -, -, e⟩ := h
  have hl : c.Lawful := by
    rw [← half_undo c w, e]
    exact lawful_alg _ lawful_solved _
  exact half_solved c hl (state_sorted hk hs)

/-- the way back from the solved cube -/
theorem within_iff {n : Nat} {c : Cube3} : Within HalfTurn (fun c => c = Cube3.SOLVED) n c ↔
    ∃ w : List AxisMove, (∀ m ∈ w, m.amount = .double) ∧ w.length ≤ n ∧ movedAlg Cube3.SOLVED w = c := by
  constructor
  · rintro ⟨w, h1, h2, h3⟩
    exact ⟨reversed w, half_reversed h1, by simpa [reversed] using h2, by rw [← h3]; exact half_undo c w⟩
  · rintro ⟨w, h1, h2, rfl⟩
    exact ⟨reversed w, half_reversed h1, by simpa [reversed] using h2, half_undo _ w⟩

end Barbarosa
