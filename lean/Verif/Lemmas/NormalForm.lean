import Verif.Lemmas.Reduced
import Verif.Spec.Rewriting
import Mathlib.Data.Fintype.Prod
import Mathlib.Data.ZMod.Defs
import Mathlib.Algebra.Group.Fin.Basic

/-!
# Normal forms of algs

Moves act on lists of blocks; a block is an axis with the quarter turns of its two faces. What a list of moves makes of the empty list of
blocks is its normal form, because this action obeys the laws of turns.
-/

namespace Barbarosa

/-- the quarter turns of the positive and of the negative face -/
abbrev Turns := Fin 4 × Fin 4

/-- the turns of one move -/
def AxisMove.turns (m : AxisMove) : Turns :=
  match m.face.direction, m.amount with
  | .pos, .single => (1, 0)
  | .pos, .double => (2, 0)
  | .pos, .inverse => (3, 0)
  | .neg, .single => (0, 1)
  | .neg, .double => (0, 2)
  | .neg, .inverse => (0, 3)

/-- no block is empty, and neighbouring blocks are of different axes -/
def Alternating (l : List (Axis × Turns)) : Prop :=
  (∀ b ∈ l, b.2 ≠ 0) ∧ l.IsChain fun b b' => b.1 ≠ b'.1

/-- the turns about an axis at the front, and the rest -/
def frontTurns (a : Axis) (l : List (Axis × Turns)) : Turns :=
  match l with
  | [] => 0
  | b :: _ => if b.1 = a then b.2 else 0

/-- what follows the turns about an axis -/
def afterFront (a : Axis) (l : List (Axis × Turns)) : List (Axis × Turns) :=
  match l with
  | [] => []
  | b :: l => if b.1 = a then l else b :: l

/-- put turns about an axis in front -/
def putFront (a : Axis) (t : Turns) (l : List (Axis × Turns)) : List (Axis × Turns) := if t = 0 then l else (a, t) :: l

/-- the list does not begin with this axis -/
def NotFirst (a : Axis) (l : List (Axis × Turns)) : Prop := ∀ b ∈ l.head?, b.1 ≠ a

theorem afterFront_notFirst {a : Axis} {l : List (Axis × Turns)} (h : Alternating l) :
    NotFirst a (afterFront a l) ∧ Alternating (afterFront a l) := by
  rcases l with _ | ⟨b, l⟩
  · exact ⟨by simp [NotFirst, afterFront], h⟩
  · unfold afterFront
    by_cases hb : b.1 = a
    · simp only [hb, if_true]
      refine ⟨?_, fun x hx => h.1 x (List.mem_cons_of_mem _ hx), h.2.tail⟩
      rcases l with _ | ⟨b', l⟩
      · simp [NotFirst]
      · intro x hx
        simp only [List.head?_cons, Option.mem_some_iff] at hx
        subst hx
        have := (List.isChain_cons_cons.1 h.2).1
        rw [hb] at this
        exact this.symm
    · simp only [hb, if_false]
      exact ⟨fun x hx => by simp only [List.head?_cons, Option.mem_some_iff] at hx; rw [← hx]; exact hb, h⟩

theorem putFront_alternating {a : Axis} {t : Turns} {l : List (Axis × Turns)} (h : Alternating l) (hn : NotFirst a l) :
    Alternating (putFront a t l) := by
  unfold putFront
  by_cases ht : t = 0
  · simpa [ht] using h
  · simp only [ht, if_false]
    refine ⟨fun b hb => ?_, ?_⟩
    · rcases List.mem_cons.1 hb with rfl | hb
      · exact ht
      · exact h.1 b hb
    · rcases l with _ | ⟨b, l⟩
      · exact List.isChain_singleton _
      · exact List.isChain_cons_cons.2 ⟨(hn b rfl).symm, h.2⟩

theorem front_putFront {a : Axis} {t : Turns} {l : List (Axis × Turns)} (hn : NotFirst a l) :
    frontTurns a (putFront a t l) = t ∧ afterFront a (putFront a t l) = l := by
  unfold putFront
  by_cases ht : t = 0
  · subst ht
    rcases l with _ | ⟨b, l⟩
    · exact ⟨rfl, rfl⟩
    · have := hn b rfl
      simp [frontTurns, afterFront, this]
  · simp [ht, frontTurns, afterFront]

theorem putFront_front {a : Axis} {l : List (Axis × Turns)} (h : Alternating l) :
    putFront a (frontTurns a l) (afterFront a l) = l := by
  rcases l with _ | ⟨⟨b, t⟩, l⟩
  · rfl
  · unfold putFront frontTurns afterFront
    by_cases hb : b = a
    · subst hb
      have ht : t ≠ 0 := h.1 _ List.mem_cons_self
      simp [ht]
    · simp [hb]

/-- lists of blocks, in normal form -/
def Blocks := { l : List (Axis × Turns) // Alternating l }

/-- add turns about an axis -/
def Blocks.push (a : Axis) (t : Turns) (b : Blocks) : Blocks :=
  ⟨putFront a (frontTurns a b.1 + t) (afterFront a b.1),
    putFront_alternating (afterFront_notFirst b.2).2 (afterFront_notFirst b.2).1⟩

theorem Blocks.push_push (a : Axis) (t t' : Turns) (b : Blocks) : (b.push a t).push a t' = b.push a (t + t') := by
  apply Subtype.ext
  unfold Blocks.push
  obtain ⟨h1, h2⟩ := front_putFront (t := frontTurns a b.1 + t) (afterFront_notFirst (a := a) b.2).1
  simp only [h1, h2, add_assoc]

theorem Blocks.push_zero (a : Axis) (b : Blocks) : b.push a 0 = b := by
  apply Subtype.ext
  unfold Blocks.push
  simp only [add_zero]
  exact putFront_front b.2

instance : Movable Blocks AxisMove := ⟨fun b m => b.push m.face.axis m.turns⟩

theorem turns_add : ∀ (f : Face) (x y : Amount), AxisMove.turns ⟨f, x⟩ + AxisMove.turns ⟨f, y⟩ =
    match x.add y with
    | none => 0
    | some z => AxisMove.turns ⟨f, z⟩ := by decide +kernel

theorem blocks_laws : AxisLaws Blocks where
  add b _ f x y := by
    show (b.push f.axis _).push f.axis _ = _
    rw [Blocks.push_push, turns_add]
    rcases x.add y with _ | z
    · exact Blocks.push_zero _ _
    · rfl
  comm b _ _ a d d' x y := by
    show (b.push a _).push a _ = (b.push a _).push a _
    rw [Blocks.push_push, Blocks.push_push, add_comm]

/-- no blocks -/
def Blocks.empty : Blocks := ⟨[], by simp [Alternating]⟩

/-- the normal form of an alg, as blocks, the last one first -/
def blocksOf (a : List AxisMove) : Blocks := movedAlg Blocks.empty a

/-- the moves of a face -/
def turnsMoves (f : Face) (t : Fin 4) : List AxisMove :=
  match t with
  | 0 => []
  | 1 => [⟨f, .single⟩]
  | 2 => [⟨f, .double⟩]
  | 3 => [⟨f, .inverse⟩]

/-- the moves of a block, the negative face first -/
def blockMoves (b : Axis × Turns) : List AxisMove := turnsMoves ⟨b.1, .neg⟩ b.2.2 ++ turnsMoves ⟨b.1, .pos⟩ b.2.1

/-- the moves of blocks, the last one first -/
def blocksMoves : List (Axis × Turns) → List AxisMove
  | [] => []
  | b :: l => blocksMoves l ++ blockMoves b

theorem blockMoves_push_new : ∀ m : AxisMove, m.turns ≠ 0 ∧ blockMoves (m.face.axis, m.turns) = [m] := by decide +kernel

theorem blockMoves_push : ∀ (t : Turns), t ≠ 0 → ∀ (a : Axis) (m : AxisMove), m.face.axis = a →
    (∀ x ∈ (blockMoves (a, t)).getLast?, x.face.direction = .neg ∧ m.face.direction = .pos) →
    t + m.turns ≠ 0 ∧ blockMoves (a, t + m.turns) = blockMoves (a, t) ++ [m] := by decide +kernel

theorem blockMoves_axis : ∀ (b : Axis × Turns), b.2 ≠ 0 →
    ∃ m, (blockMoves b).getLast? = some m ∧ m.face.axis = b.1 := by decide +kernel

/-- ordered algs can be read back from their blocks -/
theorem blocksOf_ordered (a : List AxisMove) (h : Ordered .neg a) : blocksMoves (blocksOf a).1 = a := by
  induction a using List.reverseRecOn with
  | nil => rfl
  | append_singleton a m ih =>
    have ho : Ordered .neg a := (List.isChain_append.1 h).1
    have hl := (List.isChain_append.1 h).2.2
    have ih := ih ho
    have e : blocksOf (a ++ [m]) = (blocksOf a).push m.face.axis m.turns := by
      unfold blocksOf
      rw [movedAlg_append]
      rfl
    rw [e]
    generalize hB : blocksOf a = B at ih ⊢
    obtain ⟨l, hal⟩ := B
    simp only at ih
    obtain ⟨n1, n2⟩ := blockMoves_push_new m
    unfold Blocks.push putFront frontTurns afterFront
    rcases l with _ | ⟨⟨b, t⟩, l⟩
    · simp only [zero_add, n1, if_false, blocksMoves, n2]
      rw [← ih]
      rfl
    · by_cases hb : b = m.face.axis
      · simp only [hb, if_true]
        have ht : t ≠ 0 := hal.1 _ List.mem_cons_self
        have hx : ∀ x ∈ (blockMoves (m.face.axis, t)).getLast?, x.face.direction = .neg ∧ m.face.direction = .pos := by
          obtain ⟨y, y1, y2⟩ := blockMoves_axis (m.face.axis, t) ht
          intro x hx
          rw [y1, Option.mem_some_iff] at hx
          subst hx
          refine hl y ?_ m (by simp) y2
          rw [← ih, blocksMoves, hb, List.getLast?_append, y1]
          rfl
        obtain ⟨k1, k2⟩ := blockMoves_push t ht m.face.axis m rfl hx
        simp only [k1, if_false, blocksMoves, k2]
        rw [← ih, blocksMoves, hb, List.append_assoc]
      · simp only [hb, if_false, zero_add, n1, blocksMoves, n2]
        rw [← ih, blocksMoves]

/-- a cube that obeys the laws of turns does not see obvious simplifications -/
theorem laws_same {C : Type} [Movable C AxisMove] (hl : AxisLaws C) {a b : List AxisMove} (h : SameObviously a b) (c : C) :
    movedAlg c a = movedAlg c b := by
  have hadd : ∀ x y z : Amount, (quarterTurns x + quarterTurns y) % 4 = quarterTurns z → x.add y = some z := by decide
  have hcan : ∀ x y : Amount, (quarterTurns x + quarterTurns y) % 4 = 0 → x.add y = none := by decide
  induction h with
  | rel a b h =>
    cases h with
    | exchange u v m m' h =>
      simp only [movedAlg_append]
      congr 1
      obtain ⟨⟨a, d⟩, x⟩ := m
      obtain ⟨⟨a', d'⟩, y⟩ := m'
      obtain rfl : a = a' := h
      exact laws_comm hl _ a d d' x y
    | merge u v f x y z h =>
      simp only [movedAlg_append]
      congr 1
      have := laws_add hl (movedAlg c u) f x y
      rw [hadd x y z h] at this
      exact this
    | cancel u v f x y h =>
      simp only [movedAlg_append]
      congr 1
      have := laws_add hl (movedAlg c u) f x y
      rw [hcan x y h] at this
      exact this
  | refl => rfl
  | symm _ _ _ ih => exact ih.symm
  | trans _ _ _ _ _ ih1 ih2 => exact ih1.trans ih2

/-- the algs up to obvious simplifications -/
def AlgClass := Quot Simplifies

/-- the class of an alg -/
def AlgClass.mk (a : List AxisMove) : AlgClass := Quot.mk Simplifies a

theorem simplifies_append {a b : List AxisMove} (h : Simplifies a b) (w : List AxisMove) : Simplifies (a ++ w) (b ++ w) := by
  cases h with
  | exchange u v m m' h => simpa using Simplifies.exchange u (v ++ w) m m' h
  | merge u v f x y z h => simpa using Simplifies.merge u (v ++ w) f x y z h
  | cancel u v f x y h => simpa using Simplifies.cancel u (v ++ w) f x y h

instance : Movable AlgClass AxisMove :=
  ⟨fun q m => Quot.map (· ++ [m]) (fun _ _ h => simplifies_append h [m]) q⟩

theorem algClass_laws : AxisLaws AlgClass where
  add q _ f x y := by
    induction q using Quot.ind with
    | mk a =>
      have key : ∀ x y : Amount, (x.add y = none → (quarterTurns x + quarterTurns y) % 4 = 0) ∧
          ∀ z, x.add y = some z → (quarterTurns x + quarterTurns y) % 4 = quarterTurns z := by decide
      have k := key x y
      show Quot.mk _ ((a ++ [⟨f, x⟩]) ++ [⟨f, y⟩]) = _
      rcases hxy : x.add y with _ | z
      · have := Simplifies.cancel a [] f x y (k.1 hxy)
        simp only [List.append_nil] at this
        rw [List.append_assoc]
        exact Quot.sound this
      · have := Simplifies.merge a [] f x y z (k.2 z hxy)
        simp only [List.append_nil] at this
        rw [List.append_assoc]
        exact Quot.sound this
  comm q _ _ a d d' x y := by
    induction q using Quot.ind with
    | mk w =>
      show Quot.mk _ ((w ++ [⟨⟨a, d⟩, x⟩]) ++ [⟨⟨a, d'⟩, y⟩]) = Quot.mk _ ((w ++ [⟨⟨a, d'⟩, y⟩]) ++ [⟨⟨a, d⟩, x⟩])
      have := Simplifies.exchange w [] ⟨⟨a, d⟩, x⟩ ⟨⟨a, d'⟩, y⟩ rfl
      simp only [List.append_nil] at this
      rw [List.append_assoc, List.append_assoc]
      exact Quot.sound this

theorem algClass_alg (a w : List AxisMove) : movedAlg (AlgClass.mk a) w = AlgClass.mk (a ++ w) := by
  induction w generalizing a with
  | nil => rw [List.append_nil]; rfl
  | cons m w ih =>
    show movedAlg (AlgClass.mk (a ++ [m])) w = _
    rw [ih, List.append_assoc]
    rfl

theorem sameObviously_iff (a b : List AxisMove) :
    SameObviously a b ↔ movedAlg (AlgClass.mk []) a = movedAlg (AlgClass.mk []) b := by
  rw [algClass_alg, algClass_alg, List.nil_append, List.nil_append]
  exact (Quot.eq).symm

/-- whatever obeys the laws of turns does not see `normalized` -/
theorem laws_normalized {C : Type} [Movable C AxisMove] (hl : AxisLaws C) (alg : List AxisMove) (c : C) :
    movedAlg c (normalized alg) = movedAlg c alg := by
  obtain ⟨t, h1, -, h3, -⟩ := normalized_final alg
  obtain ⟨h5, h6⟩ := normLoop_effect hl _ _ _ h1 c
  rw [h3, offload_effect hl]
  have e1 : (⟨alg.reverse, none, []⟩ : NormState).word = alg := by simp [NormState.word, optMoves]
  have e2 : t.word = optMoves t.held ++ t.out := by simp [NormState.word, h6]
  rw [← e2, h5, e1]

theorem normalized_same (a : List AxisMove) : SameObviously a (normalized a) :=
  (sameObviously_iff _ _).2 (laws_normalized algClass_laws a _).symm

theorem same_refl (a : List AxisMove) : SameObviously a a := .refl a
theorem SameObviously.symm {a b : List AxisMove} (h : SameObviously a b) : SameObviously b a := Relation.EqvGen.symm _ _ h
theorem SameObviously.trans {a b c : List AxisMove} (h : SameObviously a b) (h' : SameObviously b c) : SameObviously a c :=
  Relation.EqvGen.trans _ _ _ h h'

theorem iterate_same (k : Nat) (a : List AxisMove) : SameObviously a (normalized^[k] a) := by
  induction k generalizing a with
  | zero => exact same_refl a
  | succ k ih => exact (normalized_same a).trans (ih (normalized a))

/-- ordered algs are equal if they are obviously the same -/
theorem ordered_unique {a b : List AxisMove} (ha : Ordered .neg a) (hb : Ordered .neg b) (h : SameObviously a b) : a = b := by
  have := laws_same blocks_laws h Blocks.empty
  rw [← blocksOf_ordered a ha, ← blocksOf_ordered b hb, blocksOf, blocksOf, this]

theorem iterate_length (k : Nat) (a : List AxisMove) : (normalized^[k] a).length ≤ a.length := by
  induction k generalizing a with
  | zero => exact le_rfl
  | succ k ih => exact (ih (normalized a)).trans (normalized_length a)

end Barbarosa
