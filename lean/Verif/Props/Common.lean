import Verif.Props.Independent
import Mathlib.GroupTheory.Perm.Cycle.Type

/-!
# C120: commutators, on every cube

Doing two algs and undoing both changes at most three times as many pieces of each kind as both algs change.
-/

namespace Barbarosa

open PieceSet

/-- how many pieces of an array are different on both of two others -/
def differingBoth {P : Type} {n : Nat} [DecidableEq P] (s t u : PieceSet P n) : Nat := (Finset.univ.filter fun i => s i ≠ t i ∧ s i ≠ u i).card

/-- how many pieces of a cube are different on both of two others, for each of the arrays in the order of the fields -/
class DifferencesBoth (C : Type) where
  both : C → C → C → List Nat
  /-- the number of arrays of corners and edges, which come first; the pieces of the others cannot be turned in their places -/
  turned : Nat

instance : DifferencesBoth Cube2 := ⟨fun c d e => [differingBoth c.corners d.corners e.corners], 1⟩
instance : DifferencesBoth Cube3 := ⟨fun c d e => [differingBoth c.edges d.edges e.edges, differingBoth c.corners d.corners e.corners], 2⟩
instance : DifferencesBoth Cube4 := ⟨fun c d e => [differingBoth c.corners d.corners e.corners, differingBoth c.wings d.wings e.wings, differingBoth c.centers d.centers e.centers], 1⟩
instance : DifferencesBoth Cube5 := ⟨fun c d e => [differingBoth c.corners d.corners e.corners, differingBoth c.edges d.edges e.edges, differingBoth c.cornerCenters d.cornerCenters e.cornerCenters, differingBoth c.cornerEdges d.cornerEdges e.cornerEdges], 2⟩
instance : DifferencesBoth Cube6 := ⟨fun c d e => [differingBoth c.corners d.corners e.corners, differingBoth c.wings1 d.wings1 e.wings1, differingBoth c.wings2 d.wings2 e.wings2, differingBoth c.centerCorners1 d.centerCorners1 e.centerCorners1, differingBoth c.centerCorners2 d.centerCorners2 e.centerCorners2, differingBoth c.centerWings d.centerWings e.centerWings], 1⟩
instance : DifferencesBoth Cube7 := ⟨fun c d e => [differingBoth c.corners d.corners e.corners, differingBoth c.edges d.edges e.edges, differingBoth c.wings1 d.wings1 e.wings1, differingBoth c.wings2 d.wings2 e.wings2, differingBoth c.centerCorners1 d.centerCorners1 e.centerCorners1, differingBoth c.centerCorners2 d.centerCorners2 e.centerCorners2, differingBoth c.centerWings d.centerWings e.centerWings, differingBoth c.centerEdges1 d.centerEdges1 e.centerEdges1, differingBoth c.centerEdges2 d.centerEdges2 e.centerEdges2], 2⟩

/-- no array is left out: what is different on both of two equal cubes is what is different on one -/
theorem both_complete :
    (∀ c d : Cube2, DifferencesBoth.both c d d = differences c d) ∧
    (∀ c d : Cube3, DifferencesBoth.both c d d = differences c d) ∧
    (∀ c d : Cube4, DifferencesBoth.both c d d = differences c d) ∧
    (∀ c d : Cube5, DifferencesBoth.both c d d = differences c d) ∧
    (∀ c d : Cube6, DifferencesBoth.both c d d = differences c d) ∧
    (∀ c d : Cube7, DifferencesBoth.both c d d = differences c d) := by
  refine ⟨fun c d => ?_, fun c d => ?_, fun c d => ?_, fun c d => ?_, fun c d => ?_, fun c d => ?_⟩ <;>
    simp only [DifferencesBoth.both, differences, differingBoth, differing, and_self]

/-- the number of pieces of a valid array whose place has a property does not depend on the array -/
theorem places_count {P : Type} {n : Nat} [DecidableEq P] [PieceSetDescriptor P n] [LawfulDescriptor P n]
    (Q : Piece.Position P → Prop) [DecidablePred Q] {s t : PieceSet P n} (hs : s.validate = none) (ht : t.validate = none) :
    (Finset.univ.filter fun i => Q (Piece.position (s i))).card = (Finset.univ.filter fun i => Q (Piece.position (t i))).card := by
  obtain ⟨σ, hσ⟩ := ((validate_eq_none s).1 hs).arranged
  obtain ⟨τ, hτ⟩ := ((validate_eq_none t).1 ht).arranged
  rw [Finset.card_filter, Finset.card_filter, Arranged.sum hσ fun p => if Q p then 1 else 0, Arranged.sum hτ fun p => if Q p then 1 else 0]

/-- two maps that move pieces one by one commute except on, before and behind the pieces that both change -/
theorem differing_commutator {P : Type} {n : Nat} [DecidableEq P] [PieceSetDescriptor P n] [LawfulDescriptor P n] [Turnable P]
    (law : TurnedInPlace P n) {f g : P → P} (hf : Blind f) (hg : Blind g) (fi : Function.Injective f) (gi : Function.Injective g)
    {s : PieceSet P n} (hs : s.validate = none) :
    differing (fun i => f (g (s i))) (fun i => g (f (s i))) ≤ 3 * differingBoth s (fun i => f (s i)) (fun i => g (s i)) := by
  classical
  obtain ⟨Q, hQ⟩ : ∃ Q : Piece.Position P → Prop, ∀ x : P, (x ≠ f x ∧ x ≠ g x) ↔ Q (Piece.position x) := by
    refine ⟨fun p => ∃ y : P, Piece.position y = p ∧ y ≠ f y ∧ y ≠ g y, fun x => ⟨fun h => ⟨x, rfl, h⟩, fun ⟨y, e, h⟩ => ?_⟩⟩
    obtain ⟨k, -, rfl⟩ := law.turns y x e
    rw [hf.iterate, hg.iterate] at h
    exact ⟨fun e => h.1 (congrArg _ e), fun e => h.2 (congrArg _ e)⟩
  have where_ : ∀ x, f (g x) ≠ g (f x) → Q (Piece.position x) ∨ Q (Piece.position (f x)) ∨ Q (Piece.position (g x)) := by
    intro x h
    rw [← hQ, ← hQ, ← hQ]
    by_cases hx : x = f x
    · by_cases hy : x = g x
      · exact absurd (by rw [← hx, ← hy, ← hx]) h
      · refine .inr (.inr ⟨fun e => h ?_, fun e => hy (gi e)⟩)
        rw [← e, ← hx]
    · by_cases hy : x = g x
      · refine .inr (.inl ⟨fun e => hx (fi e), fun e => h ?_⟩)
        rw [← e, ← hy]
      · exact .inl ⟨hx, hy⟩
  have e0 : differingBoth s (fun i => f (s i)) (fun i => g (s i)) = (Finset.univ.filter fun i => Q (Piece.position (s i))).card := by
    unfold differingBoth
    exact congrArg _ (Finset.filter_congr fun i _ => hQ (s i))
  have e1 := places_count Q (validate_injective law hf fi hs) hs
  have e2 := places_count Q (validate_injective law hg gi hs) hs
  rw [e0]
  calc differing (fun i => f (g (s i))) (fun i => g (f (s i)))
      ≤ ((Finset.univ.filter fun i => Q (Piece.position (s i))) ∪ ((Finset.univ.filter fun i => Q (Piece.position (f (s i)))) ∪
          (Finset.univ.filter fun i => Q (Piece.position (g (s i)))))).card := by
        refine Finset.card_le_card fun i hi => ?_
        simp only [Finset.mem_filter, Finset.mem_univ, true_and, Finset.mem_union] at hi ⊢
        exact where_ _ hi
    _ ≤ (Finset.univ.filter fun i => Q (Piece.position (s i))).card + ((Finset.univ.filter fun i => Q (Piece.position (f (s i)))).card +
          (Finset.univ.filter fun i => Q (Piece.position (g (s i)))).card) :=
        (Finset.card_union_le _ _).trans (Nat.add_le_add_left (Finset.card_union_le _ _) _)
    _ = 3 * (Finset.univ.filter fun i => Q (Piece.position (s i))).card := by rw [e1, e2]; omega

/-- for pieces that cannot be turned in their place: if both maps change only one piece, they fail to commute on three -/
theorem differing_three {P : Type} {n : Nat} [DecidableEq P] [PieceSetDescriptor P n] [LawfulDescriptor P n]
    (pi : Function.Injective (Piece.position : P → Piece.Position P)) {f g : P → P} (fi : Function.Injective f) (gi : Function.Injective g)
    {s : PieceSet P n} (hs : s.validate = none) (h1 : differingBoth s (fun i => f (s i)) (fun i => g (s i)) = 1) :
    differing (fun i => f (g (s i))) (fun i => g (f (s i))) = 3 := by
  have hb := ((validate_eq_none s).1 hs).bijective
  have si : Function.Injective s := fun i j e => hb.1 (congrArg Piece.position e)
  have ss : Function.Surjective s := fun x => (hb.2 (Piece.position x)).imp fun i e => pi e
  have : Finite P := Finite.of_surjective s ss
  obtain ⟨i, hi⟩ := Finset.card_eq_one.1 h1
  have only : ∀ x, x ≠ f x → x ≠ g x → x = s i := fun x h h' => by
    obtain ⟨j, rfl⟩ := ss x
    have : j ∈ (Finset.univ.filter fun i => s i ≠ f (s i) ∧ s i ≠ g (s i)) := by simp [h, h']
    rw [hi, Finset.mem_singleton] at this
    rw [this]
  obtain ⟨hf, hg⟩ : s i ≠ f (s i) ∧ s i ≠ g (s i) := by
    have : i ∈ (Finset.univ.filter fun i => s i ≠ f (s i) ∧ s i ≠ g (s i)) := by rw [hi, Finset.mem_singleton]
    simpa using this
  obtain ⟨x, hx⟩ := (Finite.injective_iff_surjective.1 fi) (s i)
  obtain ⟨y, hy⟩ := (Finite.injective_iff_surjective.1 gi) (s i)
  obtain ⟨j, rfl⟩ := ss x
  obtain ⟨k, rfl⟩ := ss y
  have fx : ∀ z, z ≠ f z → z ≠ s i → g z = z := fun z h h' => by
    by_contra h2
    exact h' (only z h (Ne.symm h2))
  have gx : ∀ z, z ≠ g z → z ≠ s i → f z = z := fun z h h' => by
    by_contra h2
    exact h' (only z (Ne.symm h2) h)
  have a1 : g (f (s i)) = f (s i) := fx _ (fun e => hf (fi e)) hf.symm
  have a2 : f (g (s i)) = g (s i) := gx _ (fun e => hg (gi e)) hg.symm
  have ji : s j ≠ s i := fun e => hf (by rw [← e, hx, e])
  have ki : s k ≠ s i := fun e => hg (by rw [← e, hy, e])
  have jf : s j ≠ f (s j) := by rwa [hx]
  have kg : s k ≠ g (s k) := by rwa [hy]
  have b1 : g (s j) = s j := fx _ jf ji
  have b2 : f (s k) = s k := gx _ kg ki
  have jk : s j ≠ s k := fun e => jf (by rw [e, b2])
  have e : (Finset.univ.filter fun i => f (g (s i)) ≠ g (f (s i))) = {i, j, k} := by
    ext l
    simp only [Finset.mem_filter, Finset.mem_univ, true_and, Finset.mem_insert, Finset.mem_singleton]
    constructor
    · intro h
      by_contra hn
      rw [not_or, not_or] at hn
      have n1 : s l ≠ s i := fun e => hn.1 (si e)
      have n2 : f (s l) ≠ s i := fun e => hn.2.1 (si (fi (e.trans hx.symm)))
      have n3 : g (s l) ≠ s i := fun e => hn.2.2 (si (gi (e.trans hy.symm)))
      by_cases c1 : s l = f (s l)
      · by_cases c2 : s l = g (s l)
        · exact h (by rw [← c1, ← c2, ← c1])
        · exact h (by rw [gx _ (fun e => c2 (gi e)) n3, ← c1])
      · exact h (by rw [fx _ (fun e => c1 (fi e)) n2, fx _ c1 n1])
    · rintro (rfl | rfl | rfl)
      · rw [a1, a2]
        intro e
        exact hf (gi (by rw [a1, e]))
      · rw [b1, hx]
        exact hg
      · rw [b2, hy]
        exact hf.symm
  unfold differing
  rw [e, Finset.card_insert_of_notMem (by
      simp only [Finset.mem_insert, Finset.mem_singleton, not_or]
      exact ⟨fun e => ji (congrArg s e.symm), fun e => ki (congrArg s e.symm)⟩),
    Finset.card_insert_of_notMem (by
      simp only [Finset.mem_singleton]
      exact fun e => jk (congrArg s e)), Finset.card_singleton]

theorem wing_place : Function.Injective (Piece.position : Wing → Piece.Position Wing) := fun p q h => by
  obtain ⟨k, -, e⟩ := wing_turns p q h
  exact e.trans (by simp [show (Turnable.turn : Wing → Wing) = id from rfl])
theorem centerCorner_place : Function.Injective (Piece.position : CenterCorner → Piece.Position CenterCorner) := fun p q h => by
  obtain ⟨k, -, e⟩ := centerCorner_turns p q h
  exact e.trans (by simp [show (Turnable.turn : CenterCorner → CenterCorner) = id from rfl])
theorem centerEdge_place : Function.Injective (Piece.position : CenterEdge → Piece.Position CenterEdge) := fun p q h => by
  obtain ⟨k, -, e⟩ := centerEdge_turns p q h
  exact e.trans (by simp [show (Turnable.turn : CenterEdge → CenterEdge) = id from rfl])
theorem centerWing_place : Function.Injective (Piece.position : CenterWing → Piece.Position CenterWing) := fun p q h => by
  obtain ⟨k, -, e⟩ := centerWing_turns p q h
  exact e.trans (by simp [show (Turnable.turn : CenterWing → CenterWing) = id from rfl])

/-- the same for all arrays of a cube -/
class CommutatorLaw (C : Type) [HasValid C] [PieceByPiece C] [Differences C] [DifferencesBoth C] : Prop where
  atMost : ∀ {F G : C → C} {c : C}, PieceByPiece.Uniform F → PieceByPiece.Uniform G → Function.Injective F → Function.Injective G →
    HasValid.valid c → List.Forall₂ (fun x y => x ≤ 3 * y) (differences (F (G c)) (G (F c))) (DifferencesBoth.both c (F c) (G c)) ∧
      List.Forall₂ (fun x y => y = 1 → x = 3) ((differences (F (G c)) (G (F c))).drop (DifferencesBoth.turned C))
        ((DifferencesBoth.both c (F c) (G c)).drop (DifferencesBoth.turned C))

instance : CommutatorLaw Cube2 where
  atMost := by
    rintro F G c ⟨f₁, hf₁, eF⟩ ⟨f₂, hf₂, eG⟩ Fi Gi hc
    have h_corners : c.corners.validate = none := hc
    have inj : ∀ H : Cube2 → Cube2, Function.Injective H → ∀ c d, H c = H d → c = d := fun H h c d e => h e
    rw [eF (G c), eG (F c), eF c, eG c]
    refine ⟨
      .cons (differing_commutator corner_inPlace hf₁ hf₂
        (fun x y h => congrFun (congrArg Cube2.corners (inj _ Fi { c with corners := fun _ => x } { c with corners := fun _ => y } (by simp only [eF, h]))) 0)
        (fun x y h => congrFun (congrArg Cube2.corners (inj _ Gi { c with corners := fun _ => x } { c with corners := fun _ => y } (by simp only [eG, h]))) 0) h_corners) <|
      .nil,
      .nil⟩

instance : CommutatorLaw Cube3 where
  atMost := by
    rintro F G c ⟨f₁, e₁, hf₁, he₁, eF⟩ ⟨f₂, e₂, hf₂, he₂, eG⟩ Fi Gi hc
    obtain ⟨h_edges, h_corners⟩ := hc
    have inj : ∀ H : Cube3 → Cube3, Function.Injective H → ∀ c d, H c = H d → c = d := fun H h c d e => h e
    rw [eF (G c), eG (F c), eF c, eG c]
    refine ⟨
      .cons (differing_commutator edge_inPlace he₁ he₂
        (fun x y h => congrFun (congrArg Cube3.edges (inj _ Fi { c with edges := fun _ => x } { c with edges := fun _ => y } (by simp only [eF, h]))) 0)
        (fun x y h => congrFun (congrArg Cube3.edges (inj _ Gi { c with edges := fun _ => x } { c with edges := fun _ => y } (by simp only [eG, h]))) 0) h_edges) <|
      .cons (differing_commutator corner_inPlace hf₁ hf₂
        (fun x y h => congrFun (congrArg Cube3.corners (inj _ Fi { c with corners := fun _ => x } { c with corners := fun _ => y } (by simp only [eF, h]))) 0)
        (fun x y h => congrFun (congrArg Cube3.corners (inj _ Gi { c with corners := fun _ => x } { c with corners := fun _ => y } (by simp only [eG, h]))) 0) h_corners) <|
      .nil,
      .nil⟩

instance : CommutatorLaw Cube4 where
  atMost := by
    rintro F G c ⟨f₁, w₁, t₁, hf₁, eF⟩ ⟨f₂, w₂, t₂, hf₂, eG⟩ Fi Gi hc
    obtain ⟨h_corners, h_wings, h_centers⟩ := hc
    have inj : ∀ H : Cube4 → Cube4, Function.Injective H → ∀ c d, H c = H d → c = d := fun H h c d e => h e
    rw [eF (G c), eG (F c), eF c, eG c]
    refine ⟨
      .cons (differing_commutator corner_inPlace hf₁ hf₂
        (fun x y h => congrFun (congrArg Cube4.corners (inj _ Fi { c with corners := fun _ => x } { c with corners := fun _ => y } (by simp only [eF, h]))) 0)
        (fun x y h => congrFun (congrArg Cube4.corners (inj _ Gi { c with corners := fun _ => x } { c with corners := fun _ => y } (by simp only [eG, h]))) 0) h_corners) <|
      .cons (differing_commutator wing_inPlace (blind_wing w₁) (blind_wing w₂)
        (fun x y h => congrFun (congrArg Cube4.wings (inj _ Fi { c with wings := fun _ => x } { c with wings := fun _ => y } (by simp only [eF, h]))) 0)
        (fun x y h => congrFun (congrArg Cube4.wings (inj _ Gi { c with wings := fun _ => x } { c with wings := fun _ => y } (by simp only [eG, h]))) 0) h_wings) <|
      .cons (differing_commutator centerCorner_inPlace (blind_centerCorner t₁) (blind_centerCorner t₂)
        (fun x y h => congrFun (congrArg Cube4.centers (inj _ Fi { c with centers := fun _ => x } { c with centers := fun _ => y } (by simp only [eF, h]))) 0)
        (fun x y h => congrFun (congrArg Cube4.centers (inj _ Gi { c with centers := fun _ => x } { c with centers := fun _ => y } (by simp only [eG, h]))) 0) h_centers) <|
      .nil,
      .cons (differing_three wing_place
        (fun x y h => congrFun (congrArg Cube4.wings (inj _ Fi { c with wings := fun _ => x } { c with wings := fun _ => y } (by simp only [eF, h]))) 0)
        (fun x y h => congrFun (congrArg Cube4.wings (inj _ Gi { c with wings := fun _ => x } { c with wings := fun _ => y } (by simp only [eG, h]))) 0) h_wings) <|
      .cons (differing_three centerCorner_place
        (fun x y h => congrFun (congrArg Cube4.centers (inj _ Fi { c with centers := fun _ => x } { c with centers := fun _ => y } (by simp only [eF, h]))) 0)
        (fun x y h => congrFun (congrArg Cube4.centers (inj _ Gi { c with centers := fun _ => x } { c with centers := fun _ => y } (by simp only [eG, h]))) 0) h_centers) <|
      .nil⟩

instance : CommutatorLaw Cube5 where
  atMost := by
    rintro F G c ⟨f₁, e₁, t₁, u₁, hf₁, he₁, eF⟩ ⟨f₂, e₂, t₂, u₂, hf₂, he₂, eG⟩ Fi Gi hc
    obtain ⟨h_corners, h_edges, h_cornerCenters, h_cornerEdges⟩ := hc
    have inj : ∀ H : Cube5 → Cube5, Function.Injective H → ∀ c d, H c = H d → c = d := fun H h c d e => h e
    rw [eF (G c), eG (F c), eF c, eG c]
    refine ⟨
      .cons (differing_commutator corner_inPlace hf₁ hf₂
        (fun x y h => congrFun (congrArg Cube5.corners (inj _ Fi { c with corners := fun _ => x } { c with corners := fun _ => y } (by simp only [eF, h]))) 0)
        (fun x y h => congrFun (congrArg Cube5.corners (inj _ Gi { c with corners := fun _ => x } { c with corners := fun _ => y } (by simp only [eG, h]))) 0) h_corners) <|
      .cons (differing_commutator edge_inPlace he₁ he₂
        (fun x y h => congrFun (congrArg Cube5.edges (inj _ Fi { c with edges := fun _ => x } { c with edges := fun _ => y } (by simp only [eF, h]))) 0)
        (fun x y h => congrFun (congrArg Cube5.edges (inj _ Gi { c with edges := fun _ => x } { c with edges := fun _ => y } (by simp only [eG, h]))) 0) h_edges) <|
      .cons (differing_commutator centerCorner_inPlace (blind_centerCorner t₁) (blind_centerCorner t₂)
        (fun x y h => congrFun (congrArg Cube5.cornerCenters (inj _ Fi { c with cornerCenters := fun _ => x } { c with cornerCenters := fun _ => y } (by simp only [eF, h]))) 0)
        (fun x y h => congrFun (congrArg Cube5.cornerCenters (inj _ Gi { c with cornerCenters := fun _ => x } { c with cornerCenters := fun _ => y } (by simp only [eG, h]))) 0) h_cornerCenters) <|
      .cons (differing_commutator centerEdge_inPlace (blind_centerEdge u₁) (blind_centerEdge u₂)
        (fun x y h => congrFun (congrArg Cube5.cornerEdges (inj _ Fi { c with cornerEdges := fun _ => x } { c with cornerEdges := fun _ => y } (by simp only [eF, h]))) 0)
        (fun x y h => congrFun (congrArg Cube5.cornerEdges (inj _ Gi { c with cornerEdges := fun _ => x } { c with cornerEdges := fun _ => y } (by simp only [eG, h]))) 0) h_cornerEdges) <|
      .nil,
      .cons (differing_three centerCorner_place
        (fun x y h => congrFun (congrArg Cube5.cornerCenters (inj _ Fi { c with cornerCenters := fun _ => x } { c with cornerCenters := fun _ => y } (by simp only [eF, h]))) 0)
        (fun x y h => congrFun (congrArg Cube5.cornerCenters (inj _ Gi { c with cornerCenters := fun _ => x } { c with cornerCenters := fun _ => y } (by simp only [eG, h]))) 0) h_cornerCenters) <|
      .cons (differing_three centerEdge_place
        (fun x y h => congrFun (congrArg Cube5.cornerEdges (inj _ Fi { c with cornerEdges := fun _ => x } { c with cornerEdges := fun _ => y } (by simp only [eF, h]))) 0)
        (fun x y h => congrFun (congrArg Cube5.cornerEdges (inj _ Gi { c with cornerEdges := fun _ => x } { c with cornerEdges := fun _ => y } (by simp only [eG, h]))) 0) h_cornerEdges) <|
      .nil⟩

instance : CommutatorLaw Cube6 where
  atMost := by
    rintro F G c ⟨f₁, w1₁, w2₁, t1₁, t2₁, v₁, hf₁, eF⟩ ⟨f₂, w1₂, w2₂, t1₂, t2₂, v₂, hf₂, eG⟩ Fi Gi hc
    obtain ⟨h_corners, h_wings1, h_wings2, h_centerCorners1, h_centerCorners2, h_centerWings⟩ := hc
    have inj : ∀ H : Cube6 → Cube6, Function.Injective H → ∀ c d, H c = H d → c = d := fun H h c d e => h e
    rw [eF (G c), eG (F c), eF c, eG c]
    refine ⟨
      .cons (differing_commutator corner_inPlace hf₁ hf₂
        (fun x y h => congrFun (congrArg Cube6.corners (inj _ Fi { c with corners := fun _ => x } { c with corners := fun _ => y } (by simp only [eF, h]))) 0)
        (fun x y h => congrFun (congrArg Cube6.corners (inj _ Gi { c with corners := fun _ => x } { c with corners := fun _ => y } (by simp only [eG, h]))) 0) h_corners) <|
      .cons (differing_commutator wing_inPlace (blind_wing w1₁) (blind_wing w1₂)
        (fun x y h => congrFun (congrArg Cube6.wings1 (inj _ Fi { c with wings1 := fun _ => x } { c with wings1 := fun _ => y } (by simp only [eF, h]))) 0)
        (fun x y h => congrFun (congrArg Cube6.wings1 (inj _ Gi { c with wings1 := fun _ => x } { c with wings1 := fun _ => y } (by simp only [eG, h]))) 0) h_wings1) <|
      .cons (differing_commutator wing_inPlace (blind_wing w2₁) (blind_wing w2₂)
        (fun x y h => congrFun (congrArg Cube6.wings2 (inj _ Fi { c with wings2 := fun _ => x } { c with wings2 := fun _ => y } (by simp only [eF, h]))) 0)
        (fun x y h => congrFun (congrArg Cube6.wings2 (inj _ Gi { c with wings2 := fun _ => x } { c with wings2 := fun _ => y } (by simp only [eG, h]))) 0) h_wings2) <|
      .cons (differing_commutator centerCorner_inPlace (blind_centerCorner t1₁) (blind_centerCorner t1₂)
        (fun x y h => congrFun (congrArg Cube6.centerCorners1 (inj _ Fi { c with centerCorners1 := fun _ => x } { c with centerCorners1 := fun _ => y } (by simp only [eF, h]))) 0)
        (fun x y h => congrFun (congrArg Cube6.centerCorners1 (inj _ Gi { c with centerCorners1 := fun _ => x } { c with centerCorners1 := fun _ => y } (by simp only [eG, h]))) 0) h_centerCorners1) <|
      .cons (differing_commutator centerCorner_inPlace (blind_centerCorner t2₁) (blind_centerCorner t2₂)
        (fun x y h => congrFun (congrArg Cube6.centerCorners2 (inj _ Fi { c with centerCorners2 := fun _ => x } { c with centerCorners2 := fun _ => y } (by simp only [eF, h]))) 0)
        (fun x y h => congrFun (congrArg Cube6.centerCorners2 (inj _ Gi { c with centerCorners2 := fun _ => x } { c with centerCorners2 := fun _ => y } (by simp only [eG, h]))) 0) h_centerCorners2) <|
      .cons (differing_commutator centerWing_inPlace (blind_centerWing v₁) (blind_centerWing v₂)
        (fun x y h => congrFun (congrArg Cube6.centerWings (inj _ Fi { c with centerWings := fun _ => x } { c with centerWings := fun _ => y } (by simp only [eF, h]))) 0)
        (fun x y h => congrFun (congrArg Cube6.centerWings (inj _ Gi { c with centerWings := fun _ => x } { c with centerWings := fun _ => y } (by simp only [eG, h]))) 0) h_centerWings) <|
      .nil,
      .cons (differing_three wing_place
        (fun x y h => congrFun (congrArg Cube6.wings1 (inj _ Fi { c with wings1 := fun _ => x } { c with wings1 := fun _ => y } (by simp only [eF, h]))) 0)
        (fun x y h => congrFun (congrArg Cube6.wings1 (inj _ Gi { c with wings1 := fun _ => x } { c with wings1 := fun _ => y } (by simp only [eG, h]))) 0) h_wings1) <|
      .cons (differing_three wing_place
        (fun x y h => congrFun (congrArg Cube6.wings2 (inj _ Fi { c with wings2 := fun _ => x } { c with wings2 := fun _ => y } (by simp only [eF, h]))) 0)
        (fun x y h => congrFun (congrArg Cube6.wings2 (inj _ Gi { c with wings2 := fun _ => x } { c with wings2 := fun _ => y } (by simp only [eG, h]))) 0) h_wings2) <|
      .cons (differing_three centerCorner_place
        (fun x y h => congrFun (congrArg Cube6.centerCorners1 (inj _ Fi { c with centerCorners1 := fun _ => x } { c with centerCorners1 := fun _ => y } (by simp only [eF, h]))) 0)
        (fun x y h => congrFun (congrArg Cube6.centerCorners1 (inj _ Gi { c with centerCorners1 := fun _ => x } { c with centerCorners1 := fun _ => y } (by simp only [eG, h]))) 0) h_centerCorners1) <|
      .cons (differing_three centerCorner_place
        (fun x y h => congrFun (congrArg Cube6.centerCorners2 (inj _ Fi { c with centerCorners2 := fun _ => x } { c with centerCorners2 := fun _ => y } (by simp only [eF, h]))) 0)
        (fun x y h => congrFun (congrArg Cube6.centerCorners2 (inj _ Gi { c with centerCorners2 := fun _ => x } { c with centerCorners2 := fun _ => y } (by simp only [eG, h]))) 0) h_centerCorners2) <|
      .cons (differing_three centerWing_place
        (fun x y h => congrFun (congrArg Cube6.centerWings (inj _ Fi { c with centerWings := fun _ => x } { c with centerWings := fun _ => y } (by simp only [eF, h]))) 0)
        (fun x y h => congrFun (congrArg Cube6.centerWings (inj _ Gi { c with centerWings := fun _ => x } { c with centerWings := fun _ => y } (by simp only [eG, h]))) 0) h_centerWings) <|
      .nil⟩

instance : CommutatorLaw Cube7 where
  atMost := by
    rintro F G c ⟨f₁, e₁, w1₁, w2₁, t1₁, t2₁, v₁, u1₁, u2₁, hf₁, he₁, eF⟩ ⟨f₂, e₂, w1₂, w2₂, t1₂, t2₂, v₂, u1₂, u2₂, hf₂, he₂, eG⟩ Fi Gi hc
    obtain ⟨h_corners, h_edges, h_wings1, h_wings2, h_centerCorners1, h_centerCorners2, h_centerWings, h_centerEdges1, h_centerEdges2⟩ := hc
    have inj : ∀ H : Cube7 → Cube7, Function.Injective H → ∀ c d, H c = H d → c = d := fun H h c d e => h e
    rw [eF (G c), eG (F c), eF c, eG c]
    refine ⟨
      .cons (differing_commutator corner_inPlace hf₁ hf₂
        (fun x y h => congrFun (congrArg Cube7.corners (inj _ Fi { c with corners := fun _ => x } { c with corners := fun _ => y } (by simp only [eF, h]))) 0)
        (fun x y h => congrFun (congrArg Cube7.corners (inj _ Gi { c with corners := fun _ => x } { c with corners := fun _ => y } (by simp only [eG, h]))) 0) h_corners) <|
      .cons (differing_commutator edge_inPlace he₁ he₂
        (fun x y h => congrFun (congrArg Cube7.edges (inj _ Fi { c with edges := fun _ => x } { c with edges := fun _ => y } (by simp only [eF, h]))) 0)
        (fun x y h => congrFun (congrArg Cube7.edges (inj _ Gi { c with edges := fun _ => x } { c with edges := fun _ => y } (by simp only [eG, h]))) 0) h_edges) <|
      .cons (differing_commutator wing_inPlace (blind_wing w1₁) (blind_wing w1₂)
        (fun x y h => congrFun (congrArg Cube7.wings1 (inj _ Fi { c with wings1 := fun _ => x } { c with wings1 := fun _ => y } (by simp only [eF, h]))) 0)
        (fun x y h => congrFun (congrArg Cube7.wings1 (inj _ Gi { c with wings1 := fun _ => x } { c with wings1 := fun _ => y } (by simp only [eG, h]))) 0) h_wings1) <|
      .cons (differing_commutator wing_inPlace (blind_wing w2₁) (blind_wing w2₂)
        (fun x y h => congrFun (congrArg Cube7.wings2 (inj _ Fi { c with wings2 := fun _ => x } { c with wings2 := fun _ => y } (by simp only [eF, h]))) 0)
        (fun x y h => congrFun (congrArg Cube7.wings2 (inj _ Gi { c with wings2 := fun _ => x } { c with wings2 := fun _ => y } (by simp only [eG, h]))) 0) h_wings2) <|
      .cons (differing_commutator centerCorner_inPlace (blind_centerCorner t1₁) (blind_centerCorner t1₂)
        (fun x y h => congrFun (congrArg Cube7.centerCorners1 (inj _ Fi { c with centerCorners1 := fun _ => x } { c with centerCorners1 := fun _ => y } (by simp only [eF, h]))) 0)
        (fun x y h => congrFun (congrArg Cube7.centerCorners1 (inj _ Gi { c with centerCorners1 := fun _ => x } { c with centerCorners1 := fun _ => y } (by simp only [eG, h]))) 0) h_centerCorners1) <|
      .cons (differing_commutator centerCorner_inPlace (blind_centerCorner t2₁) (blind_centerCorner t2₂)
        (fun x y h => congrFun (congrArg Cube7.centerCorners2 (inj _ Fi { c with centerCorners2 := fun _ => x } { c with centerCorners2 := fun _ => y } (by simp only [eF, h]))) 0)
        (fun x y h => congrFun (congrArg Cube7.centerCorners2 (inj _ Gi { c with centerCorners2 := fun _ => x } { c with centerCorners2 := fun _ => y } (by simp only [eG, h]))) 0) h_centerCorners2) <|
      .cons (differing_commutator centerWing_inPlace (blind_centerWing v₁) (blind_centerWing v₂)
        (fun x y h => congrFun (congrArg Cube7.centerWings (inj _ Fi { c with centerWings := fun _ => x } { c with centerWings := fun _ => y } (by simp only [eF, h]))) 0)
        (fun x y h => congrFun (congrArg Cube7.centerWings (inj _ Gi { c with centerWings := fun _ => x } { c with centerWings := fun _ => y } (by simp only [eG, h]))) 0) h_centerWings) <|
      .cons (differing_commutator centerEdge_inPlace (blind_centerEdge u1₁) (blind_centerEdge u1₂)
        (fun x y h => congrFun (congrArg Cube7.centerEdges1 (inj _ Fi { c with centerEdges1 := fun _ => x } { c with centerEdges1 := fun _ => y } (by simp only [eF, h]))) 0)
        (fun x y h => congrFun (congrArg Cube7.centerEdges1 (inj _ Gi { c with centerEdges1 := fun _ => x } { c with centerEdges1 := fun _ => y } (by simp only [eG, h]))) 0) h_centerEdges1) <|
      .cons (differing_commutator centerEdge_inPlace (blind_centerEdge u2₁) (blind_centerEdge u2₂)
        (fun x y h => congrFun (congrArg Cube7.centerEdges2 (inj _ Fi { c with centerEdges2 := fun _ => x } { c with centerEdges2 := fun _ => y } (by simp only [eF, h]))) 0)
        (fun x y h => congrFun (congrArg Cube7.centerEdges2 (inj _ Gi { c with centerEdges2 := fun _ => x } { c with centerEdges2 := fun _ => y } (by simp only [eG, h]))) 0) h_centerEdges2) <|
      .nil,
      .cons (differing_three wing_place
        (fun x y h => congrFun (congrArg Cube7.wings1 (inj _ Fi { c with wings1 := fun _ => x } { c with wings1 := fun _ => y } (by simp only [eF, h]))) 0)
        (fun x y h => congrFun (congrArg Cube7.wings1 (inj _ Gi { c with wings1 := fun _ => x } { c with wings1 := fun _ => y } (by simp only [eG, h]))) 0) h_wings1) <|
      .cons (differing_three wing_place
        (fun x y h => congrFun (congrArg Cube7.wings2 (inj _ Fi { c with wings2 := fun _ => x } { c with wings2 := fun _ => y } (by simp only [eF, h]))) 0)
        (fun x y h => congrFun (congrArg Cube7.wings2 (inj _ Gi { c with wings2 := fun _ => x } { c with wings2 := fun _ => y } (by simp only [eG, h]))) 0) h_wings2) <|
      .cons (differing_three centerCorner_place
        (fun x y h => congrFun (congrArg Cube7.centerCorners1 (inj _ Fi { c with centerCorners1 := fun _ => x } { c with centerCorners1 := fun _ => y } (by simp only [eF, h]))) 0)
        (fun x y h => congrFun (congrArg Cube7.centerCorners1 (inj _ Gi { c with centerCorners1 := fun _ => x } { c with centerCorners1 := fun _ => y } (by simp only [eG, h]))) 0) h_centerCorners1) <|
      .cons (differing_three centerCorner_place
        (fun x y h => congrFun (congrArg Cube7.centerCorners2 (inj _ Fi { c with centerCorners2 := fun _ => x } { c with centerCorners2 := fun _ => y } (by simp only [eF, h]))) 0)
        (fun x y h => congrFun (congrArg Cube7.centerCorners2 (inj _ Gi { c with centerCorners2 := fun _ => x } { c with centerCorners2 := fun _ => y } (by simp only [eG, h]))) 0) h_centerCorners2) <|
      .cons (differing_three centerWing_place
        (fun x y h => congrFun (congrArg Cube7.centerWings (inj _ Fi { c with centerWings := fun _ => x } { c with centerWings := fun _ => y } (by simp only [eF, h]))) 0)
        (fun x y h => congrFun (congrArg Cube7.centerWings (inj _ Gi { c with centerWings := fun _ => x } { c with centerWings := fun _ => y } (by simp only [eG, h]))) 0) h_centerWings) <|
      .cons (differing_three centerEdge_place
        (fun x y h => congrFun (congrArg Cube7.centerEdges1 (inj _ Fi { c with centerEdges1 := fun _ => x } { c with centerEdges1 := fun _ => y } (by simp only [eF, h]))) 0)
        (fun x y h => congrFun (congrArg Cube7.centerEdges1 (inj _ Gi { c with centerEdges1 := fun _ => x } { c with centerEdges1 := fun _ => y } (by simp only [eG, h]))) 0) h_centerEdges1) <|
      .cons (differing_three centerEdge_place
        (fun x y h => congrFun (congrArg Cube7.centerEdges2 (inj _ Fi { c with centerEdges2 := fun _ => x } { c with centerEdges2 := fun _ => y } (by simp only [eF, h]))) 0)
        (fun x y h => congrFun (congrArg Cube7.centerEdges2 (inj _ Gi { c with centerEdges2 := fun _ => x } { c with centerEdges2 := fun _ => y } (by simp only [eG, h]))) 0) h_centerEdges2) <|
      .nil⟩

/-- a cube with its arrays and one of the move types it accepts -/
structure BothSys where
  sys : CountSys
  [both : DifferencesBoth sys.sys.C]

attribute [instance] BothSys.both

/-- the systems of `countSystems` -/
def bothSystems : List BothSys :=
  [⟨⟨⟨Cube2, AxisMove⟩⟩⟩, ⟨⟨⟨Cube3, AxisMove⟩⟩⟩, ⟨⟨⟨Cube4, AxisMove⟩⟩⟩, ⟨⟨⟨Cube5, AxisMove⟩⟩⟩, ⟨⟨⟨Cube6, AxisMove⟩⟩⟩, ⟨⟨⟨Cube7, AxisMove⟩⟩⟩,
   ⟨⟨⟨Cube2, WideAxisMove 0⟩⟩⟩, ⟨⟨⟨Cube3, WideAxisMove 0⟩⟩⟩, ⟨⟨⟨Cube4, WideAxisMove 0⟩⟩⟩, ⟨⟨⟨Cube5, WideAxisMove 0⟩⟩⟩,
   ⟨⟨⟨Cube6, WideAxisMove 0⟩⟩⟩, ⟨⟨⟨Cube7, WideAxisMove 0⟩⟩⟩,
   ⟨⟨⟨Cube2, QuarterAxisMove⟩⟩⟩, ⟨⟨⟨Cube3, QuarterAxisMove⟩⟩⟩, ⟨⟨⟨Cube4, QuarterAxisMove⟩⟩⟩, ⟨⟨⟨Cube5, QuarterAxisMove⟩⟩⟩,
   ⟨⟨⟨Cube6, QuarterAxisMove⟩⟩⟩, ⟨⟨⟨Cube7, QuarterAxisMove⟩⟩⟩,
   ⟨⟨⟨Cube2, NonRedundantAxisMove⟩⟩⟩, ⟨⟨⟨Cube3, NonRedundantAxisMove⟩⟩⟩, ⟨⟨⟨Cube4, NonRedundantAxisMove⟩⟩⟩,
   ⟨⟨⟨Cube5, NonRedundantAxisMove⟩⟩⟩, ⟨⟨⟨Cube6, NonRedundantAxisMove⟩⟩⟩, ⟨⟨⟨Cube7, NonRedundantAxisMove⟩⟩⟩,
   ⟨⟨⟨Cube4, WideAxisMove 1⟩⟩⟩, ⟨⟨⟨Cube5, WideAxisMove 1⟩⟩⟩, ⟨⟨⟨Cube6, WideAxisMove 1⟩⟩⟩, ⟨⟨⟨Cube7, WideAxisMove 1⟩⟩⟩,
   ⟨⟨⟨Cube6, WideAxisMove 2⟩⟩⟩, ⟨⟨⟨Cube7, WideAxisMove 2⟩⟩⟩]

theorem bothSystems_complete : bothSystems.map (·.sys) = countSystems := rfl

theorem MovesUniform.atMost {C M : Type} [HasValid C] [PieceByPiece C] [Differences C] [DifferencesBoth C] [CommutatorLaw C] [Movable C M]
    (h : MovesUniform C M) (inj : ∀ a : List M, Function.Injective fun d : C => movedAlg d a) (a b : List M) (c : C) (hc : HasValid.valid c) :
    List.Forall₂ (fun x y => x ≤ 3 * y) (differences (movedAlg (movedAlg c b) a) (movedAlg (movedAlg c a) b))
      (DifferencesBoth.both c (movedAlg c a) (movedAlg c b)) ∧
    List.Forall₂ (fun x y => y = 1 → x = 3) ((differences (movedAlg (movedAlg c b) a) (movedAlg (movedAlg c a) b)).drop (DifferencesBoth.turned C))
      ((DifferencesBoth.both c (movedAlg c a) (movedAlg c b)).drop (DifferencesBoth.turned C)) :=
  CommutatorLaw.atMost (F := fun c => movedAlg c a) (G := fun c => movedAlg c b) (h.alg a) (h.alg b) (inj a) (inj b) hc

theorem both_alg : ∀ s ∈ bothSystems, (∀ a : List s.sys.sys.M, Function.Injective fun d : s.sys.sys.C => movedAlg d a) →
    ∀ (a b : List s.sys.sys.M) (c : s.sys.sys.C), HasValid.valid c →
    List.Forall₂ (fun x y => x ≤ 3 * y) (differences (movedAlg (movedAlg c b) a) (movedAlg (movedAlg c a) b))
      (DifferencesBoth.both c (movedAlg c a) (movedAlg c b)) ∧
    List.Forall₂ (fun x y => y = 1 → x = 3) ((differences (movedAlg (movedAlg c b) a) (movedAlg (movedAlg c a) b)).drop (DifferencesBoth.turned s.sys.sys.C))
      ((DifferencesBoth.both c (movedAlg c a) (movedAlg c b)).drop (DifferencesBoth.turned s.sys.sys.C)) := by
  simp only [bothSystems, List.forall_mem_cons, List.not_mem_nil, false_imp_iff, implies_true, and_true]
  exact ⟨cube2_uniform.atMost, cube3_uniform.atMost, cube4_axis_uniform.atMost, cube5_axis_uniform.atMost,
    cube6_axis_uniform.atMost, cube7_axis_uniform.atMost,
    cube2_uniform.wide0.atMost, cube3_uniform.wide0.atMost, cube4_axis_uniform.wide0.atMost, cube5_axis_uniform.wide0.atMost,
    cube6_axis_uniform.wide0.atMost, cube7_axis_uniform.wide0.atMost,
    cube2_uniform.quarter.atMost, cube3_uniform.quarter.atMost, cube4_axis_uniform.quarter.atMost,
    cube5_axis_uniform.quarter.atMost, cube6_axis_uniform.quarter.atMost, cube7_axis_uniform.quarter.atMost,
    cube2_uniform.nonRedundant.atMost, cube3_uniform.nonRedundant.atMost, cube4_axis_uniform.nonRedundant.atMost,
    cube5_axis_uniform.nonRedundant.atMost, cube6_axis_uniform.nonRedundant.atMost, cube7_axis_uniform.nonRedundant.atMost,
    cube4_uniform.atMost, cube5_uniform.atMost, cube6_wide1_uniform.atMost, cube7_wide1_uniform.atMost,
    cube6_uniform.atMost, cube7_uniform.atMost⟩

/-- **C120** On every size and for every kind of moves, on every valid cube: doing two algs and undoing both in the same order changes, of
each kind of pieces, at most three times as many as both algs change; the latter can be counted on any valid cube, for example on the
solved one. Of the wings and the kinds of centers exactly three are changed if both algs change one in common. -/
theorem C120_commutator_every_size (s : BothSys) (hs : s ∈ bothSystems) (a b : List s.sys.sys.M) (c c₀ : s.sys.sys.C)
    (hc : HasValid.valid c) (h₀ : HasValid.valid c₀) :
    List.Forall₂ (fun x y => x ≤ 3 * y) (differences c (movedAlg c (a ++ b ++ reversed a ++ reversed b)))
      (DifferencesBoth.both c₀ (movedAlg c₀ a) (movedAlg c₀ b)) ∧
    List.Forall₂ (fun x y => y = 1 → x = 3)
      ((differences c (movedAlg c (a ++ b ++ reversed a ++ reversed b))).drop (DifferencesBoth.turned s.sys.sys.C))
      ((DifferencesBoth.both c₀ (movedAlg c₀ a) (movedAlg c₀ b)).drop (DifferencesBoth.turned s.sys.sys.C)) := by
  have h1 : s.sys ∈ countSystems := by
    rw [← bothSystems_complete]
    exact List.mem_map.2 ⟨s, hs, rfl⟩
  have h2 : s.sys.sys ∈ cubeSystems := by
    rw [← countSystems_complete]
    exact List.mem_map.2 ⟨s.sys, h1, rfl⟩
  have hm : (⟨s.sys.sys.C, s.sys.sys.M⟩ : MoveSys) ∈ moveSystems := by
    rw [← cubeSystems_complete.1]
    exact List.mem_map.2 ⟨s.sys.sys, h2, rfl⟩
  have e : ∀ (c : s.sys.sys.C) (u v : List s.sys.sys.M), movedAlg c (u ++ v) = movedAlg (movedAlg c u) v := fun _ _ _ => List.foldl_append
  have inj := alg_injective s.sys.sys h2
  have h := counts_alg s.sys h1 inj
  have ub : ∀ x : s.sys.sys.C, movedAlg (movedAlg x (reversed b)) b = x := (C02_alg_then_reversed ⟨s.sys.sys.C, s.sys.sys.M⟩ hm b · |>.2)
  have ua : ∀ x : s.sys.sys.C, movedAlg (movedAlg x (reversed a)) a = x := (C02_alg_then_reversed ⟨s.sys.sys.C, s.sys.sys.M⟩ hm a · |>.2)
  rw [(h (a ++ b ++ reversed a ++ reversed b)).1 c c₀ hc h₀, (h b).2.1 c₀, (h a).2.1 (movedAlg c₀ b), e, e, ub, ua, e]
  exact both_alg s hs inj a b c₀ h₀

/-- on the 4x4, `r U r'` with the inner slice beside R, and the inner slice beside D (examples, not in the Rust code) -/
def sliceAlgs : List (WideAxisMove 1) × List (WideAxisMove 1) :=
  ([⟨1, ⟨Face.R, .single⟩⟩, ⟨0, ⟨Face.R, .inverse⟩⟩, ⟨0, ⟨Face.U, .single⟩⟩, ⟨0, ⟨Face.R, .single⟩⟩, ⟨1, ⟨Face.R, .inverse⟩⟩],
   [⟨1, ⟨Face.D, .single⟩⟩, ⟨0, ⟨Face.D, .inverse⟩⟩])

/-- Both change one center and nothing else. So on every valid 4x4 exactly three centers are changed, and no corner and no wing. -/
example (c : Cube4) (hc : HasValid.valid c) :
    differences c (movedAlg c (sliceAlgs.1 ++ sliceAlgs.2 ++ reversed sliceAlgs.1 ++ reversed sliceAlgs.2)) = [0, 0, 3] := by
  have h := C120_commutator_every_size ⟨⟨⟨Cube4, WideAxisMove 1⟩⟩⟩ (by simp [bothSystems]) sliceAlgs.1 sliceAlgs.2 c (Cube.SOLVED : Cube4) hc
    C08_solved_valid.2.2.1
  rw [show DifferencesBoth.both (Cube.SOLVED : Cube4) (movedAlg Cube.SOLVED sliceAlgs.1) (movedAlg Cube.SOLVED sliceAlgs.2) = [0, 0, 1] by decide +kernel] at h
  obtain ⟨h1, h2⟩ := h
  generalize differences c (movedAlg c (sliceAlgs.1 ++ sliceAlgs.2 ++ reversed sliceAlgs.1 ++ reversed sliceAlgs.2)) = l at h1 h2 ⊢
  obtain _ | ⟨x, _ | ⟨y, _ | ⟨z, _ | ⟨w, l⟩⟩⟩⟩ := l <;> simp_all [DifferencesBoth.turned]

/-! ## Three-cycles -/

/-- maps that change no piece of a valid array change none at all -/
theorem differing_none {P : Type} {n : Nat} [DecidableEq P] [PieceSetDescriptor P n] [LawfulDescriptor P n] [Turnable P]
    (law : TurnedInPlace P n) {f : P → P} (hf : Blind f) {s : PieceSet P n} (hs : s.validate = none)
    (h : differing s (fun i => f (s i)) = 0) (x : P) : f x = x := by
  obtain ⟨i, k, -, rfl⟩ := covers_of_valid law.turns hs x
  have : s i = f (s i) := by
    by_contra hn
    have hm : i ∈ (Finset.univ.filter fun i => s i ≠ f (s i)) := by simpa using hn
    unfold differing at h
    rw [Finset.card_eq_zero.1 h] at hm
    simp at hm
  rw [hf.iterate, ← this]

/-- maps that change none or three of the pieces, which cannot be turned in their places, do nothing when done three times -/
theorem differing_cycle {P : Type} {n : Nat} [DecidableEq P] [PieceSetDescriptor P n] [LawfulDescriptor P n]
    (pi : Function.Injective (Piece.position : P → Piece.Position P)) {f : P → P} (fi : Function.Injective f)
    {s : PieceSet P n} (hs : s.validate = none) (h : differing s (fun i => f (s i)) = 0 ∨ differing s (fun i => f (s i)) = 3) (x : P) :
    f (f (f x)) = x := by
  have hb := ((validate_eq_none s).1 hs).bijective
  have si : Function.Injective s := fun i j e => hb.1 (congrArg Piece.position e)
  have ss : Function.Surjective s := fun x => (hb.2 (Piece.position x)).imp fun i e => pi e
  let e : Fin n ≃ P := Equiv.ofBijective s ⟨si, ss⟩
  have : Finite P := Finite.of_surjective s ss
  let F : Equiv.Perm P := Equiv.ofBijective f (Finite.injective_iff_bijective.1 fi)
  let σ : Equiv.Perm (Fin n) := (e.trans F).trans e.symm
  have hσ : ∀ i, s (σ i) = f (s i) := fun i => e.apply_symm_apply (f (s i))
  have hsup : σ.support = (Finset.univ.filter fun i => s i ≠ f (s i)) := by
    ext i
    simp only [Equiv.Perm.mem_support, Finset.mem_filter, Finset.mem_univ, true_and]
    rw [← hσ i]
    exact not_congr ⟨fun e => by rw [e], fun e => (si e).symm⟩
  have three : σ ^ 3 = 1 := by
    unfold differing at h
    rw [← hsup] at h
    rcases h with h | h
    · rw [Equiv.Perm.card_support_eq_zero.1 h, one_pow]
    · have := (card_support_eq_three_iff.1 h).orderOf
      rw [← this, pow_orderOf_eq_one]
  obtain ⟨i, rfl⟩ := ss x
  rw [← hσ, ← hσ, ← hσ]
  exact congrArg s (congrArg (fun τ : Equiv.Perm (Fin n) => τ i) three)

/-- the same for all arrays of a cube -/
class CycleLaw (C : Type) [HasValid C] [PieceByPiece C] [Differences C] [DifferencesBoth C] : Prop where
  cycle : ∀ {F : C → C} {c₀ : C}, PieceByPiece.Uniform F → Function.Injective F → HasValid.valid c₀ →
    (∀ x ∈ (differences c₀ (F c₀)).take (DifferencesBoth.turned C), x = 0) →
    (∀ x ∈ (differences c₀ (F c₀)).drop (DifferencesBoth.turned C), x = 0 ∨ x = 3) → ∀ c, F (F (F c)) = c

instance : CycleLaw Cube2 where
  cycle := by
    rintro F c₀ ⟨f, hf, eF⟩ Fi hc h1 h2 c
    have v_corners : c₀.corners.validate = none := hc
    have inj : ∀ c d, F c = F d → c = d := fun c d e => Fi e
    rw [eF c₀] at h1 h2
    simp only [differences, DifferencesBoth.turned, List.take_succ_cons, List.take_zero, List.drop_succ_cons, List.drop_zero, List.forall_mem_cons, List.not_mem_nil,
      false_imp_iff, implies_true, and_true] at h1 h2
    have k_corners := h1
    simp only [eF]
    exact Cube2.ext (funext fun i => by
        have := differing_none corner_inPlace hf v_corners k_corners
        simp only [this])

instance : CycleLaw Cube3 where
  cycle := by
    rintro F c₀ ⟨f, e, hf, he, eF⟩ Fi hc h1 h2 c
    obtain ⟨v_edges, v_corners⟩ := hc
    have inj : ∀ c d, F c = F d → c = d := fun c d e => Fi e
    rw [eF c₀] at h1 h2
    simp only [differences, DifferencesBoth.turned, List.take_succ_cons, List.take_zero, List.drop_succ_cons, List.drop_zero, List.forall_mem_cons, List.not_mem_nil,
      false_imp_iff, implies_true, and_true] at h1 h2
    obtain ⟨k_edges, k_corners⟩ := h1
    simp only [eF]
    exact Cube3.ext (funext fun i => by
        have := differing_none edge_inPlace he v_edges k_edges
        simp only [this])
      (funext fun i => by
        have := differing_none corner_inPlace hf v_corners k_corners
        simp only [this])

instance : CycleLaw Cube4 where
  cycle := by
    rintro F c₀ ⟨f, w, t, hf, eF⟩ Fi hc h1 h2 c
    obtain ⟨v_corners, v_wings, v_centers⟩ := hc
    have inj : ∀ c d, F c = F d → c = d := fun c d e => Fi e
    rw [eF c₀] at h1 h2
    simp only [differences, DifferencesBoth.turned, List.take_succ_cons, List.take_zero, List.drop_succ_cons, List.drop_zero, List.forall_mem_cons, List.not_mem_nil,
      false_imp_iff, implies_true, and_true] at h1 h2
    have k_corners := h1
    obtain ⟨k_wings, k_centers⟩ := h2
    simp only [eF]
    exact Cube4.ext (funext fun i => by
        have := differing_none corner_inPlace hf v_corners k_corners
        simp only [this])
      (funext fun i => differing_cycle wing_place
        (fun x y h => congrFun (congrArg Cube4.wings (inj { c with wings := fun _ => x } { c with wings := fun _ => y } (by simp only [eF, h]))) 0) v_wings k_wings _)
      (funext fun i => differing_cycle centerCorner_place
        (fun x y h => congrFun (congrArg Cube4.centers (inj { c with centers := fun _ => x } { c with centers := fun _ => y } (by simp only [eF, h]))) 0) v_centers k_centers _)

instance : CycleLaw Cube5 where
  cycle := by
    rintro F c₀ ⟨f, e, t, u, hf, he, eF⟩ Fi hc h1 h2 c
    obtain ⟨v_corners, v_edges, v_cornerCenters, v_cornerEdges⟩ := hc
    have inj : ∀ c d, F c = F d → c = d := fun c d e => Fi e
    rw [eF c₀] at h1 h2
    simp only [differences, DifferencesBoth.turned, List.take_succ_cons, List.take_zero, List.drop_succ_cons, List.drop_zero, List.forall_mem_cons, List.not_mem_nil,
      false_imp_iff, implies_true, and_true] at h1 h2
    obtain ⟨k_corners, k_edges⟩ := h1
    obtain ⟨k_cornerCenters, k_cornerEdges⟩ := h2
    simp only [eF]
    exact Cube5.ext (funext fun i => by
        have := differing_none corner_inPlace hf v_corners k_corners
        simp only [this])
      (funext fun i => by
        have := differing_none edge_inPlace he v_edges k_edges
        simp only [this])
      (funext fun i => differing_cycle centerCorner_place
        (fun x y h => congrFun (congrArg Cube5.cornerCenters (inj { c with cornerCenters := fun _ => x } { c with cornerCenters := fun _ => y } (by simp only [eF, h]))) 0) v_cornerCenters k_cornerCenters _)
      (funext fun i => differing_cycle centerEdge_place
        (fun x y h => congrFun (congrArg Cube5.cornerEdges (inj { c with cornerEdges := fun _ => x } { c with cornerEdges := fun _ => y } (by simp only [eF, h]))) 0) v_cornerEdges k_cornerEdges _)

instance : CycleLaw Cube6 where
  cycle := by
    rintro F c₀ ⟨f, w1, w2, t1, t2, v, hf, eF⟩ Fi hc h1 h2 c
    obtain ⟨v_corners, v_wings1, v_wings2, v_centerCorners1, v_centerCorners2, v_centerWings⟩ := hc
    have inj : ∀ c d, F c = F d → c = d := fun c d e => Fi e
    rw [eF c₀] at h1 h2
    simp only [differences, DifferencesBoth.turned, List.take_succ_cons, List.take_zero, List.drop_succ_cons, List.drop_zero, List.forall_mem_cons, List.not_mem_nil,
      false_imp_iff, implies_true, and_true] at h1 h2
    have k_corners := h1
    obtain ⟨k_wings1, k_wings2, k_centerCorners1, k_centerCorners2, k_centerWings⟩ := h2
    simp only [eF]
    exact Cube6.ext (funext fun i => by
        have := differing_none corner_inPlace hf v_corners k_corners
        simp only [this])
      (funext fun i => differing_cycle wing_place
        (fun x y h => congrFun (congrArg Cube6.wings1 (inj { c with wings1 := fun _ => x } { c with wings1 := fun _ => y } (by simp only [eF, h]))) 0) v_wings1 k_wings1 _)
      (funext fun i => differing_cycle wing_place
        (fun x y h => congrFun (congrArg Cube6.wings2 (inj { c with wings2 := fun _ => x } { c with wings2 := fun _ => y } (by simp only [eF, h]))) 0) v_wings2 k_wings2 _)
      (funext fun i => differing_cycle centerCorner_place
        (fun x y h => congrFun (congrArg Cube6.centerCorners1 (inj { c with centerCorners1 := fun _ => x } { c with centerCorners1 := fun _ => y } (by simp only [eF, h]))) 0) v_centerCorners1 k_centerCorners1 _)
      (funext fun i => differing_cycle centerCorner_place
        (fun x y h => congrFun (congrArg Cube6.centerCorners2 (inj { c with centerCorners2 := fun _ => x } { c with centerCorners2 := fun _ => y } (by simp only [eF, h]))) 0) v_centerCorners2 k_centerCorners2 _)
      (funext fun i => differing_cycle centerWing_place
        (fun x y h => congrFun (congrArg Cube6.centerWings (inj { c with centerWings := fun _ => x } { c with centerWings := fun _ => y } (by simp only [eF, h]))) 0) v_centerWings k_centerWings _)

instance : CycleLaw Cube7 where
  cycle := by
    rintro F c₀ ⟨f, e, w1, w2, t1, t2, v, u1, u2, hf, he, eF⟩ Fi hc h1 h2 c
    obtain ⟨v_corners, v_edges, v_wings1, v_wings2, v_centerCorners1, v_centerCorners2, v_centerWings, v_centerEdges1, v_centerEdges2⟩ := hc
    have inj : ∀ c d, F c = F d → c = d := fun c d e => Fi e
    rw [eF c₀] at h1 h2
    simp only [differences, DifferencesBoth.turned, List.take_succ_cons, List.take_zero, List.drop_succ_cons, List.drop_zero, List.forall_mem_cons, List.not_mem_nil,
      false_imp_iff, implies_true, and_true] at h1 h2
    obtain ⟨k_corners, k_edges⟩ := h1
    obtain ⟨k_wings1, k_wings2, k_centerCorners1, k_centerCorners2, k_centerWings, k_centerEdges1, k_centerEdges2⟩ := h2
    simp only [eF]
    exact Cube7.ext (funext fun i => by
        have := differing_none corner_inPlace hf v_corners k_corners
        simp only [this])
      (funext fun i => by
        have := differing_none edge_inPlace he v_edges k_edges
        simp only [this])
      (funext fun i => differing_cycle wing_place
        (fun x y h => congrFun (congrArg Cube7.wings1 (inj { c with wings1 := fun _ => x } { c with wings1 := fun _ => y } (by simp only [eF, h]))) 0) v_wings1 k_wings1 _)
      (funext fun i => differing_cycle wing_place
        (fun x y h => congrFun (congrArg Cube7.wings2 (inj { c with wings2 := fun _ => x } { c with wings2 := fun _ => y } (by simp only [eF, h]))) 0) v_wings2 k_wings2 _)
      (funext fun i => differing_cycle centerCorner_place
        (fun x y h => congrFun (congrArg Cube7.centerCorners1 (inj { c with centerCorners1 := fun _ => x } { c with centerCorners1 := fun _ => y } (by simp only [eF, h]))) 0) v_centerCorners1 k_centerCorners1 _)
      (funext fun i => differing_cycle centerCorner_place
        (fun x y h => congrFun (congrArg Cube7.centerCorners2 (inj { c with centerCorners2 := fun _ => x } { c with centerCorners2 := fun _ => y } (by simp only [eF, h]))) 0) v_centerCorners2 k_centerCorners2 _)
      (funext fun i => differing_cycle centerWing_place
        (fun x y h => congrFun (congrArg Cube7.centerWings (inj { c with centerWings := fun _ => x } { c with centerWings := fun _ => y } (by simp only [eF, h]))) 0) v_centerWings k_centerWings _)
      (funext fun i => differing_cycle centerEdge_place
        (fun x y h => congrFun (congrArg Cube7.centerEdges1 (inj { c with centerEdges1 := fun _ => x } { c with centerEdges1 := fun _ => y } (by simp only [eF, h]))) 0) v_centerEdges1 k_centerEdges1 _)
      (funext fun i => differing_cycle centerEdge_place
        (fun x y h => congrFun (congrArg Cube7.centerEdges2 (inj { c with centerEdges2 := fun _ => x } { c with centerEdges2 := fun _ => y } (by simp only [eF, h]))) 0) v_centerEdges2 k_centerEdges2 _)

theorem MovesUniform.cycle {C M : Type} [HasValid C] [PieceByPiece C] [Differences C] [DifferencesBoth C] [CycleLaw C] [Movable C M]
    (h : MovesUniform C M) (inj : ∀ a : List M, Function.Injective fun d : C => movedAlg d a) (a : List M) (c₀ : C) (h₀ : HasValid.valid c₀)
    (h1 : ∀ x ∈ (differences c₀ (movedAlg c₀ a)).take (DifferencesBoth.turned C), x = 0)
    (h2 : ∀ x ∈ (differences c₀ (movedAlg c₀ a)).drop (DifferencesBoth.turned C), x = 0 ∨ x = 3) (c : C) :
    movedAlg (movedAlg (movedAlg c a) a) a = c :=
  CycleLaw.cycle (F := fun c => movedAlg c a) (h.alg a) (inj a) h₀ h1 h2 c

theorem cycle_alg : ∀ s ∈ bothSystems, (∀ a : List s.sys.sys.M, Function.Injective fun d : s.sys.sys.C => movedAlg d a) →
    ∀ (a : List s.sys.sys.M) (c₀ : s.sys.sys.C), HasValid.valid c₀ →
    (∀ x ∈ (differences c₀ (movedAlg c₀ a)).take (DifferencesBoth.turned s.sys.sys.C), x = 0) →
    (∀ x ∈ (differences c₀ (movedAlg c₀ a)).drop (DifferencesBoth.turned s.sys.sys.C), x = 0 ∨ x = 3) → ∀ c : s.sys.sys.C,
    movedAlg (movedAlg (movedAlg c a) a) a = c := by
  simp only [bothSystems, List.forall_mem_cons, List.not_mem_nil, false_imp_iff, implies_true, and_true]
  exact ⟨cube2_uniform.cycle, cube3_uniform.cycle, cube4_axis_uniform.cycle, cube5_axis_uniform.cycle,
    cube6_axis_uniform.cycle, cube7_axis_uniform.cycle,
    cube2_uniform.wide0.cycle, cube3_uniform.wide0.cycle, cube4_axis_uniform.wide0.cycle, cube5_axis_uniform.wide0.cycle,
    cube6_axis_uniform.wide0.cycle, cube7_axis_uniform.wide0.cycle,
    cube2_uniform.quarter.cycle, cube3_uniform.quarter.cycle, cube4_axis_uniform.quarter.cycle,
    cube5_axis_uniform.quarter.cycle, cube6_axis_uniform.quarter.cycle, cube7_axis_uniform.quarter.cycle,
    cube2_uniform.nonRedundant.cycle, cube3_uniform.nonRedundant.cycle, cube4_axis_uniform.nonRedundant.cycle,
    cube5_axis_uniform.nonRedundant.cycle, cube6_axis_uniform.nonRedundant.cycle, cube7_axis_uniform.nonRedundant.cycle,
    cube4_uniform.cycle, cube5_uniform.cycle, cube6_wide1_uniform.cycle, cube7_wide1_uniform.cycle,
    cube6_uniform.cycle, cube7_uniform.cycle⟩

/-- **C120** On every size and for every kind of moves: an alg that changes no corner and no edge of one valid cube, and three or none of the
wings and of each kind of centers, does nothing to any cube when it is done three times. -/
theorem C120_cycles_every_size (s : BothSys) (hs : s ∈ bothSystems) (a : List s.sys.sys.M) (c₀ : s.sys.sys.C) (h₀ : HasValid.valid c₀)
    (h1 : ∀ x ∈ (differences c₀ (movedAlg c₀ a)).take (DifferencesBoth.turned s.sys.sys.C), x = 0)
    (h2 : ∀ x ∈ (differences c₀ (movedAlg c₀ a)).drop (DifferencesBoth.turned s.sys.sys.C), x = 0 ∨ x = 3) (c : s.sys.sys.C) :
    movedAlg c (a ++ a ++ a) = c := by
  have h3 : s.sys.sys ∈ cubeSystems := by
    rw [← countSystems_complete, ← bothSystems_complete]
    exact List.mem_map.2 ⟨s.sys, List.mem_map.2 ⟨s, hs, rfl⟩, rfl⟩
  have e : ∀ (c : s.sys.sys.C) (u v : List s.sys.sys.M), movedAlg c (u ++ v) = movedAlg (movedAlg c u) v := fun _ _ _ => List.foldl_append
  rw [e, e]
  exact cycle_alg s hs (alg_injective s.sys.sys h3) a c₀ h₀ h1 h2 c

/-- on the 4x4 the three-cycle of centers above -/
example (c : Cube4) : let w := sliceAlgs.1 ++ sliceAlgs.2 ++ reversed sliceAlgs.1 ++ reversed sliceAlgs.2
    movedAlg c (w ++ w ++ w) = c ∧ movedAlg (Cube.SOLVED : Cube4) (w ++ w) ≠ Cube.SOLVED := by
  refine ⟨C120_cycles_every_size ⟨⟨⟨Cube4, WideAxisMove 1⟩⟩⟩ (by simp [bothSystems]) _ (Cube.SOLVED : Cube4) C08_solved_valid.2.2.1 ?_ ?_ c,
    by decide +kernel⟩ <;> decide +kernel

end Barbarosa
