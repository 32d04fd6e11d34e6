import Verif.Props.Common

/-!
# C120: three-cycles of all kinds of pieces, on every cube

If two algs change one piece of a kind in common, and both bring it to another place, then doing both and undoing both changes exactly
three pieces of this kind.
-/

namespace Barbarosa

open PieceSet

/-- how many pieces of an array are different on both of two others, and how many are in another place on both -/
def differingAway {P : Type} {n : Nat} [DecidableEq P] [Piece P] [DecidableEq (Piece.Position P)] (s t u : PieceSet P n) : Nat × Nat :=
  (differingBoth s t u,
    (Finset.univ.filter fun i => Piece.position (s i) ≠ Piece.position (t i) ∧ Piece.position (s i) ≠ Piece.position (u i)).card)

/-- the same for each of the arrays of a cube, in the order of the fields -/
class DifferencesAway (C : Type) where
  away : C → C → C → List (Nat × Nat)

instance : DifferencesAway Cube2 := ⟨fun c d e => [differingAway c.corners d.corners e.corners]⟩
instance : DifferencesAway Cube3 := ⟨fun c d e => [differingAway c.edges d.edges e.edges, differingAway c.corners d.corners e.corners]⟩
instance : DifferencesAway Cube4 := ⟨fun c d e => [differingAway c.corners d.corners e.corners, differingAway c.wings d.wings e.wings, differingAway c.centers d.centers e.centers]⟩
instance : DifferencesAway Cube5 := ⟨fun c d e => [differingAway c.corners d.corners e.corners, differingAway c.edges d.edges e.edges, differingAway c.cornerCenters d.cornerCenters e.cornerCenters, differingAway c.cornerEdges d.cornerEdges e.cornerEdges]⟩
instance : DifferencesAway Cube6 := ⟨fun c d e => [differingAway c.corners d.corners e.corners, differingAway c.wings1 d.wings1 e.wings1, differingAway c.wings2 d.wings2 e.wings2, differingAway c.centerCorners1 d.centerCorners1 e.centerCorners1, differingAway c.centerCorners2 d.centerCorners2 e.centerCorners2, differingAway c.centerWings d.centerWings e.centerWings]⟩
instance : DifferencesAway Cube7 := ⟨fun c d e => [differingAway c.corners d.corners e.corners, differingAway c.edges d.edges e.edges, differingAway c.wings1 d.wings1 e.wings1, differingAway c.wings2 d.wings2 e.wings2, differingAway c.centerCorners1 d.centerCorners1 e.centerCorners1, differingAway c.centerCorners2 d.centerCorners2 e.centerCorners2, differingAway c.centerWings d.centerWings e.centerWings, differingAway c.centerEdges1 d.centerEdges1 e.centerEdges1, differingAway c.centerEdges2 d.centerEdges2 e.centerEdges2]⟩

/-- no array is left out -/
theorem away_complete :
    (∀ c d e : Cube2, (DifferencesAway.away c d e).map Prod.fst = DifferencesBoth.both c d e) ∧
    (∀ c d e : Cube3, (DifferencesAway.away c d e).map Prod.fst = DifferencesBoth.both c d e) ∧
    (∀ c d e : Cube4, (DifferencesAway.away c d e).map Prod.fst = DifferencesBoth.both c d e) ∧
    (∀ c d e : Cube5, (DifferencesAway.away c d e).map Prod.fst = DifferencesBoth.both c d e) ∧
    (∀ c d e : Cube6, (DifferencesAway.away c d e).map Prod.fst = DifferencesBoth.both c d e) ∧
    (∀ c d e : Cube7, (DifferencesAway.away c d e).map Prod.fst = DifferencesBoth.both c d e) :=
  ⟨fun _ _ _ => rfl, fun _ _ _ => rfl, fun _ _ _ => rfl, fun _ _ _ => rfl, fun _ _ _ => rfl, fun _ _ _ => rfl⟩

/-- if both maps change only one piece, and bring it elsewhere, they fail to commute on three -/
theorem differing_three_away {P : Type} {n : Nat} [DecidableEq P] [PieceSetDescriptor P n] [DecidableEq (Piece.Position P)] [LawfulDescriptor P n]
    [Turnable P] (law : TurnedInPlace P n) {f g : P → P} (hf : Blind f) (hg : Blind g) (fi : Function.Injective f) (gi : Function.Injective g)
    {s : PieceSet P n} (hs : s.validate = none) (h : differingAway s (fun i => f (s i)) (fun i => g (s i)) = (1, 1)) :
    differing (fun i => f (g (s i))) (fun i => g (f (s i))) = 3 := by
  have h1 : (Finset.univ.filter fun i => s i ≠ f (s i) ∧ s i ≠ g (s i)).card = 1 := congrArg Prod.fst h
  have h2 : (Finset.univ.filter fun i => Piece.position (s i) ≠ Piece.position (f (s i)) ∧ Piece.position (s i) ≠ Piece.position (g (s i))).card = 1 :=
    congrArg Prod.snd h
  obtain ⟨i, hi⟩ := Finset.card_eq_one.1 h1
  obtain ⟨i', hi'⟩ := Finset.card_eq_one.1 h2
  have mem : ∀ j, (s j ≠ f (s j) ∧ s j ≠ g (s j)) ↔ j = i := fun j => by
    rw [← Finset.mem_singleton, ← hi]
    simp
  have mem' : ∀ j, (Piece.position (s j) ≠ Piece.position (f (s j)) ∧ Piece.position (s j) ≠ Piece.position (g (s j))) ↔ j = i' := fun j => by
    rw [← Finset.mem_singleton, ← hi']
    simp
  have ii : i' = i := (mem i').1 ⟨fun e => ((mem' i').2 rfl).1 (congrArg _ e), fun e => ((mem' i').2 rfl).2 (congrArg _ e)⟩
  subst ii
  obtain ⟨pf, pg⟩ := (mem' i').2 rfl
  have hb := ((validate_eq_none s).1 hs).bijective
  obtain ⟨j, hj⟩ := ((validate_eq_none _).1 (validate_injective law hf fi hs)).bijective.2 (Piece.position (s i'))
  obtain ⟨k, hk⟩ := ((validate_eq_none _).1 (validate_injective law hg gi hs)).bijective.2 (Piece.position (s i'))
  have hj : Piece.position (f (s j)) = Piece.position (s i') := hj
  have hk : Piece.position (g (s k)) = Piece.position (s i') := hk
  have fb := ((validate_eq_none _).1 (validate_injective law hf fi hs)).bijective
  have gb := ((validate_eq_none _).1 (validate_injective law hg gi hs)).bijective
  have N : ∀ x : P, (x ≠ f x ∧ x ≠ g x) ↔ Piece.position x = Piece.position (s i') := fun x => by
    obtain ⟨l, hl⟩ := hb.2 (Piece.position x)
    have hl : Piece.position (s l) = Piece.position x := hl
    obtain ⟨m, -, e⟩ := law.turns x (s l) hl.symm
    have ti := law.inj.iterate m
    rw [← hl, e, hf.iterate, hg.iterate, ti.ne_iff, ti.ne_iff, mem]
    exact ⟨fun e => by rw [e], fun e => hb.1 e⟩
  have fx : ∀ z, z ≠ f z → Piece.position z ≠ Piece.position (s i') → g z = z := fun z h h' => by
    by_contra h2
    exact h' ((N z).1 ⟨h, Ne.symm h2⟩)
  have gx : ∀ z, z ≠ g z → Piece.position z ≠ Piece.position (s i') → f z = z := fun z h h' => by
    by_contra h2
    exact h' ((N z).1 ⟨Ne.symm h2, h⟩)
  obtain ⟨nf, ng⟩ := (mem i').2 rfl
  have a1 : g (f (s i')) = f (s i') := fx _ (fun e => nf (fi e)) pf.symm
  have a2 : f (g (s i')) = g (s i') := gx _ (fun e => ng (gi e)) pg.symm
  have ji : Piece.position (s j) ≠ Piece.position (s i') := fun e => pf (by rw [← hb.1 e]; exact e.trans hj.symm)
  have ki : Piece.position (s k) ≠ Piece.position (s i') := fun e => pg (by rw [← hb.1 e]; exact e.trans hk.symm)
  have jf : s j ≠ f (s j) := fun e => ji (by rw [← hj, ← e])
  have kg : s k ≠ g (s k) := fun e => ki (by rw [← hk, ← e])
  have b1 : g (s j) = s j := fx _ jf ji
  have b2 : f (s k) = s k := gx _ kg ki
  have jk : j ≠ k := fun e => jf (by rw [e, b2])
  have e : (Finset.univ.filter fun i => f (g (s i)) ≠ g (f (s i))) = {i', j, k} := by
    ext l
    simp only [Finset.mem_filter, Finset.mem_univ, true_and, Finset.mem_insert, Finset.mem_singleton]
    constructor
    · intro h
      by_contra hn
      rw [not_or, not_or] at hn
      have n1 : Piece.position (s l) ≠ Piece.position (s i') := fun e => hn.1 (hb.1 e)
      have n2 : Piece.position (f (s l)) ≠ Piece.position (s i') := fun e => hn.2.1 (fb.1 (e.trans hj.symm))
      have n3 : Piece.position (g (s l)) ≠ Piece.position (s i') := fun e => hn.2.2 (gb.1 (e.trans hk.symm))
      by_cases c1 : s l = f (s l)
      · by_cases c2 : s l = g (s l)
        · exact h (by rw [← c1, ← c2, ← c1])
        · exact h (by rw [gx _ (fun e => c2 (gi e)) n3, ← c1])
      · exact h (by rw [fx _ (fun e => c1 (fi e)) n2, fx _ c1 n1])
    · rintro (rfl | rfl | rfl)
      · rw [a1, a2]
        intro e
        exact nf (gi (by rw [a1, e]))
      · rw [b1]
        exact ((N _).2 hj).2
      · rw [b2]
        exact ((N _).2 hk).1.symm
  unfold differing
  rw [e, Finset.card_insert_of_notMem (by
      simp only [Finset.mem_insert, Finset.mem_singleton, not_or]
      exact ⟨fun e => ji (by rw [e]), fun e => ki (by rw [e])⟩),
    Finset.card_insert_of_notMem (by simpa using jk), Finset.card_singleton]

/-- the same for all arrays of a cube -/
class AwayLaw (C : Type) [HasValid C] [PieceByPiece C] [Differences C] [DifferencesAway C] : Prop where
  three : ∀ {F G : C → C} {c : C}, PieceByPiece.Uniform F → PieceByPiece.Uniform G → Function.Injective F → Function.Injective G →
    HasValid.valid c → List.Forall₂ (fun x y => y = (1, 1) → x = 3) (differences (F (G c)) (G (F c))) (DifferencesAway.away c (F c) (G c))

instance : AwayLaw Cube2 where
  three := by
    rintro F G c ⟨f₁, hf₁, eF⟩ ⟨f₂, hf₂, eG⟩ Fi Gi hc
    have h_corners : c.corners.validate = none := hc
    have inj : ∀ H : Cube2 → Cube2, Function.Injective H → ∀ c d, H c = H d → c = d := fun H h c d e => h e
    rw [eF (G c), eG (F c), eF c, eG c]
    exact
      .cons (differing_three_away corner_inPlace hf₁ hf₂
        (fun x y h => congrFun (congrArg Cube2.corners (inj _ Fi { c with corners := fun _ => x } { c with corners := fun _ => y } (by simp only [eF, h]))) 0)
        (fun x y h => congrFun (congrArg Cube2.corners (inj _ Gi { c with corners := fun _ => x } { c with corners := fun _ => y } (by simp only [eG, h]))) 0) h_corners) <|
      .nil

instance : AwayLaw Cube3 where
  three := by
    rintro F G c ⟨f₁, e₁, hf₁, he₁, eF⟩ ⟨f₂, e₂, hf₂, he₂, eG⟩ Fi Gi hc
    obtain ⟨h_edges, h_corners⟩ := hc
    have inj : ∀ H : Cube3 → Cube3, Function.Injective H → ∀ c d, H c = H d → c = d := fun H h c d e => h e
    rw [eF (G c), eG (F c), eF c, eG c]
    exact
      .cons (differing_three_away edge_inPlace he₁ he₂
        (fun x y h => congrFun (congrArg Cube3.edges (inj _ Fi { c with edges := fun _ => x } { c with edges := fun _ => y } (by simp only [eF, h]))) 0)
        (fun x y h => congrFun (congrArg Cube3.edges (inj _ Gi { c with edges := fun _ => x } { c with edges := fun _ => y } (by simp only [eG, h]))) 0) h_edges) <|
      .cons (differing_three_away corner_inPlace hf₁ hf₂
        (fun x y h => congrFun (congrArg Cube3.corners (inj _ Fi { c with corners := fun _ => x } { c with corners := fun _ => y } (by simp only [eF, h]))) 0)
        (fun x y h => congrFun (congrArg Cube3.corners (inj _ Gi { c with corners := fun _ => x } { c with corners := fun _ => y } (by simp only [eG, h]))) 0) h_corners) <|
      .nil

instance : AwayLaw Cube4 where
  three := by
    rintro F G c ⟨f₁, w₁, t₁, hf₁, eF⟩ ⟨f₂, w₂, t₂, hf₂, eG⟩ Fi Gi hc
    obtain ⟨h_corners, h_wings, h_centers⟩ := hc
    have inj : ∀ H : Cube4 → Cube4, Function.Injective H → ∀ c d, H c = H d → c = d := fun H h c d e => h e
    rw [eF (G c), eG (F c), eF c, eG c]
    exact
      .cons (differing_three_away corner_inPlace hf₁ hf₂
        (fun x y h => congrFun (congrArg Cube4.corners (inj _ Fi { c with corners := fun _ => x } { c with corners := fun _ => y } (by simp only [eF, h]))) 0)
        (fun x y h => congrFun (congrArg Cube4.corners (inj _ Gi { c with corners := fun _ => x } { c with corners := fun _ => y } (by simp only [eG, h]))) 0) h_corners) <|
      .cons (differing_three_away wing_inPlace (blind_wing w₁) (blind_wing w₂)
        (fun x y h => congrFun (congrArg Cube4.wings (inj _ Fi { c with wings := fun _ => x } { c with wings := fun _ => y } (by simp only [eF, h]))) 0)
        (fun x y h => congrFun (congrArg Cube4.wings (inj _ Gi { c with wings := fun _ => x } { c with wings := fun _ => y } (by simp only [eG, h]))) 0) h_wings) <|
      .cons (differing_three_away centerCorner_inPlace (blind_centerCorner t₁) (blind_centerCorner t₂)
        (fun x y h => congrFun (congrArg Cube4.centers (inj _ Fi { c with centers := fun _ => x } { c with centers := fun _ => y } (by simp only [eF, h]))) 0)
        (fun x y h => congrFun (congrArg Cube4.centers (inj _ Gi { c with centers := fun _ => x } { c with centers := fun _ => y } (by simp only [eG, h]))) 0) h_centers) <|
      .nil

instance : AwayLaw Cube5 where
  three := by
    rintro F G c ⟨f₁, e₁, t₁, u₁, hf₁, he₁, eF⟩ ⟨f₂, e₂, t₂, u₂, hf₂, he₂, eG⟩ Fi Gi hc
    obtain ⟨h_corners, h_edges, h_cornerCenters, h_cornerEdges⟩ := hc
    have inj : ∀ H : Cube5 → Cube5, Function.Injective H → ∀ c d, H c = H d → c = d := fun H h c d e => h e
    rw [eF (G c), eG (F c), eF c, eG c]
    exact
      .cons (differing_three_away corner_inPlace hf₁ hf₂
        (fun x y h => congrFun (congrArg Cube5.corners (inj _ Fi { c with corners := fun _ => x } { c with corners := fun _ => y } (by simp only [eF, h]))) 0)
        (fun x y h => congrFun (congrArg Cube5.corners (inj _ Gi { c with corners := fun _ => x } { c with corners := fun _ => y } (by simp only [eG, h]))) 0) h_corners) <|
      .cons (differing_three_away edge_inPlace he₁ he₂
        (fun x y h => congrFun (congrArg Cube5.edges (inj _ Fi { c with edges := fun _ => x } { c with edges := fun _ => y } (by simp only [eF, h]))) 0)
        (fun x y h => congrFun (congrArg Cube5.edges (inj _ Gi { c with edges := fun _ => x } { c with edges := fun _ => y } (by simp only [eG, h]))) 0) h_edges) <|
      .cons (differing_three_away centerCorner_inPlace (blind_centerCorner t₁) (blind_centerCorner t₂)
        (fun x y h => congrFun (congrArg Cube5.cornerCenters (inj _ Fi { c with cornerCenters := fun _ => x } { c with cornerCenters := fun _ => y } (by simp only [eF, h]))) 0)
        (fun x y h => congrFun (congrArg Cube5.cornerCenters (inj _ Gi { c with cornerCenters := fun _ => x } { c with cornerCenters := fun _ => y } (by simp only [eG, h]))) 0) h_cornerCenters) <|
      .cons (differing_three_away centerEdge_inPlace (blind_centerEdge u₁) (blind_centerEdge u₂)
        (fun x y h => congrFun (congrArg Cube5.cornerEdges (inj _ Fi { c with cornerEdges := fun _ => x } { c with cornerEdges := fun _ => y } (by simp only [eF, h]))) 0)
        (fun x y h => congrFun (congrArg Cube5.cornerEdges (inj _ Gi { c with cornerEdges := fun _ => x } { c with cornerEdges := fun _ => y } (by simp only [eG, h]))) 0) h_cornerEdges) <|
      .nil

instance : AwayLaw Cube6 where
  three := by
    rintro F G c ⟨f₁, w1₁, w2₁, t1₁, t2₁, v₁, hf₁, eF⟩ ⟨f₂, w1₂, w2₂, t1₂, t2₂, v₂, hf₂, eG⟩ Fi Gi hc
    obtain ⟨h_corners, h_wings1, h_wings2, h_centerCorners1, h_centerCorners2, h_centerWings⟩ := hc
    have inj : ∀ H : Cube6 → Cube6, Function.Injective H → ∀ c d, H c = H d → c = d := fun H h c d e => h e
    rw [eF (G c), eG (F c), eF c, eG c]
    exact
      .cons (differing_three_away corner_inPlace hf₁ hf₂
        (fun x y h => congrFun (congrArg Cube6.corners (inj _ Fi { c with corners := fun _ => x } { c with corners := fun _ => y } (by simp only [eF, h]))) 0)
        (fun x y h => congrFun (congrArg Cube6.corners (inj _ Gi { c with corners := fun _ => x } { c with corners := fun _ => y } (by simp only [eG, h]))) 0) h_corners) <|
      .cons (differing_three_away wing_inPlace (blind_wing w1₁) (blind_wing w1₂)
        (fun x y h => congrFun (congrArg Cube6.wings1 (inj _ Fi { c with wings1 := fun _ => x } { c with wings1 := fun _ => y } (by simp only [eF, h]))) 0)
        (fun x y h => congrFun (congrArg Cube6.wings1 (inj _ Gi { c with wings1 := fun _ => x } { c with wings1 := fun _ => y } (by simp only [eG, h]))) 0) h_wings1) <|
      .cons (differing_three_away wing_inPlace (blind_wing w2₁) (blind_wing w2₂)
        (fun x y h => congrFun (congrArg Cube6.wings2 (inj _ Fi { c with wings2 := fun _ => x } { c with wings2 := fun _ => y } (by simp only [eF, h]))) 0)
        (fun x y h => congrFun (congrArg Cube6.wings2 (inj _ Gi { c with wings2 := fun _ => x } { c with wings2 := fun _ => y } (by simp only [eG, h]))) 0) h_wings2) <|
      .cons (differing_three_away centerCorner_inPlace (blind_centerCorner t1₁) (blind_centerCorner t1₂)
        (fun x y h => congrFun (congrArg Cube6.centerCorners1 (inj _ Fi { c with centerCorners1 := fun _ => x } { c with centerCorners1 := fun _ => y } (by simp only [eF, h]))) 0)
        (fun x y h => congrFun (congrArg Cube6.centerCorners1 (inj _ Gi { c with centerCorners1 := fun _ => x } { c with centerCorners1 := fun _ => y } (by simp only [eG, h]))) 0) h_centerCorners1) <|
      .cons (differing_three_away centerCorner_inPlace (blind_centerCorner t2₁) (blind_centerCorner t2₂)
        (fun x y h => congrFun (congrArg Cube6.centerCorners2 (inj _ Fi { c with centerCorners2 := fun _ => x } { c with centerCorners2 := fun _ => y } (by simp only [eF, h]))) 0)
        (fun x y h => congrFun (congrArg Cube6.centerCorners2 (inj _ Gi { c with centerCorners2 := fun _ => x } { c with centerCorners2 := fun _ => y } (by simp only [eG, h]))) 0) h_centerCorners2) <|
      .cons (differing_three_away centerWing_inPlace (blind_centerWing v₁) (blind_centerWing v₂)
        (fun x y h => congrFun (congrArg Cube6.centerWings (inj _ Fi { c with centerWings := fun _ => x } { c with centerWings := fun _ => y } (by simp only [eF, h]))) 0)
        (fun x y h => congrFun (congrArg Cube6.centerWings (inj _ Gi { c with centerWings := fun _ => x } { c with centerWings := fun _ => y } (by simp only [eG, h]))) 0) h_centerWings) <|
      .nil

instance : AwayLaw Cube7 where
  three := by
    rintro F G c ⟨f₁, e₁, w1₁, w2₁, t1₁, t2₁, v₁, u1₁, u2₁, hf₁, he₁, eF⟩ ⟨f₂, e₂, w1₂, w2₂, t1₂, t2₂, v₂, u1₂, u2₂, hf₂, he₂, eG⟩ Fi Gi hc
    obtain ⟨h_corners, h_edges, h_wings1, h_wings2, h_centerCorners1, h_centerCorners2, h_centerWings, h_centerEdges1, h_centerEdges2⟩ := hc
    have inj : ∀ H : Cube7 → Cube7, Function.Injective H → ∀ c d, H c = H d → c = d := fun H h c d e => h e
    rw [eF (G c), eG (F c), eF c, eG c]
    exact
      .cons (differing_three_away corner_inPlace hf₁ hf₂
        (fun x y h => congrFun (congrArg Cube7.corners (inj _ Fi { c with corners := fun _ => x } { c with corners := fun _ => y } (by simp only [eF, h]))) 0)
        (fun x y h => congrFun (congrArg Cube7.corners (inj _ Gi { c with corners := fun _ => x } { c with corners := fun _ => y } (by simp only [eG, h]))) 0) h_corners) <|
      .cons (differing_three_away edge_inPlace he₁ he₂
        (fun x y h => congrFun (congrArg Cube7.edges (inj _ Fi { c with edges := fun _ => x } { c with edges := fun _ => y } (by simp only [eF, h]))) 0)
        (fun x y h => congrFun (congrArg Cube7.edges (inj _ Gi { c with edges := fun _ => x } { c with edges := fun _ => y } (by simp only [eG, h]))) 0) h_edges) <|
      .cons (differing_three_away wing_inPlace (blind_wing w1₁) (blind_wing w1₂)
        (fun x y h => congrFun (congrArg Cube7.wings1 (inj _ Fi { c with wings1 := fun _ => x } { c with wings1 := fun _ => y } (by simp only [eF, h]))) 0)
        (fun x y h => congrFun (congrArg Cube7.wings1 (inj _ Gi { c with wings1 := fun _ => x } { c with wings1 := fun _ => y } (by simp only [eG, h]))) 0) h_wings1) <|
      .cons (differing_three_away wing_inPlace (blind_wing w2₁) (blind_wing w2₂)
        (fun x y h => congrFun (congrArg Cube7.wings2 (inj _ Fi { c with wings2 := fun _ => x } { c with wings2 := fun _ => y } (by simp only [eF, h]))) 0)
        (fun x y h => congrFun (congrArg Cube7.wings2 (inj _ Gi { c with wings2 := fun _ => x } { c with wings2 := fun _ => y } (by simp only [eG, h]))) 0) h_wings2) <|
      .cons (differing_three_away centerCorner_inPlace (blind_centerCorner t1₁) (blind_centerCorner t1₂)
        (fun x y h => congrFun (congrArg Cube7.centerCorners1 (inj _ Fi { c with centerCorners1 := fun _ => x } { c with centerCorners1 := fun _ => y } (by simp only [eF, h]))) 0)
        (fun x y h => congrFun (congrArg Cube7.centerCorners1 (inj _ Gi { c with centerCorners1 := fun _ => x } { c with centerCorners1 := fun _ => y } (by simp only [eG, h]))) 0) h_centerCorners1) <|
      .cons (differing_three_away centerCorner_inPlace (blind_centerCorner t2₁) (blind_centerCorner t2₂)
        (fun x y h => congrFun (congrArg Cube7.centerCorners2 (inj _ Fi { c with centerCorners2 := fun _ => x } { c with centerCorners2 := fun _ => y } (by simp only [eF, h]))) 0)
        (fun x y h => congrFun (congrArg Cube7.centerCorners2 (inj _ Gi { c with centerCorners2 := fun _ => x } { c with centerCorners2 := fun _ => y } (by simp only [eG, h]))) 0) h_centerCorners2) <|
      .cons (differing_three_away centerWing_inPlace (blind_centerWing v₁) (blind_centerWing v₂)
        (fun x y h => congrFun (congrArg Cube7.centerWings (inj _ Fi { c with centerWings := fun _ => x } { c with centerWings := fun _ => y } (by simp only [eF, h]))) 0)
        (fun x y h => congrFun (congrArg Cube7.centerWings (inj _ Gi { c with centerWings := fun _ => x } { c with centerWings := fun _ => y } (by simp only [eG, h]))) 0) h_centerWings) <|
      .cons (differing_three_away centerEdge_inPlace (blind_centerEdge u1₁) (blind_centerEdge u1₂)
        (fun x y h => congrFun (congrArg Cube7.centerEdges1 (inj _ Fi { c with centerEdges1 := fun _ => x } { c with centerEdges1 := fun _ => y } (by simp only [eF, h]))) 0)
        (fun x y h => congrFun (congrArg Cube7.centerEdges1 (inj _ Gi { c with centerEdges1 := fun _ => x } { c with centerEdges1 := fun _ => y } (by simp only [eG, h]))) 0) h_centerEdges1) <|
      .cons (differing_three_away centerEdge_inPlace (blind_centerEdge u2₁) (blind_centerEdge u2₂)
        (fun x y h => congrFun (congrArg Cube7.centerEdges2 (inj _ Fi { c with centerEdges2 := fun _ => x } { c with centerEdges2 := fun _ => y } (by simp only [eF, h]))) 0)
        (fun x y h => congrFun (congrArg Cube7.centerEdges2 (inj _ Gi { c with centerEdges2 := fun _ => x } { c with centerEdges2 := fun _ => y } (by simp only [eG, h]))) 0) h_centerEdges2) <|
      .nil

/-- a cube with its arrays and one of the move types it accepts -/
structure AwaySys where
  sys : CountSys
  [away : DifferencesAway sys.sys.C]

attribute [instance] AwaySys.away

/-- the systems of `countSystems` -/
def awaySystems : List AwaySys :=
  [⟨⟨⟨Cube2, AxisMove⟩⟩⟩, ⟨⟨⟨Cube3, AxisMove⟩⟩⟩, ⟨⟨⟨Cube4, AxisMove⟩⟩⟩, ⟨⟨⟨Cube5, AxisMove⟩⟩⟩, ⟨⟨⟨Cube6, AxisMove⟩⟩⟩, ⟨⟨⟨Cube7, AxisMove⟩⟩⟩,
   ⟨⟨⟨Cube2, WideAxisMove 0⟩⟩⟩, ⟨⟨⟨Cube3, WideAxisMove 0⟩⟩⟩, ⟨⟨⟨Cube4, WideAxisMove 0⟩⟩⟩, ⟨⟨⟨Cube5, WideAxisMove 0⟩⟩⟩,
   ⟨⟨⟨Cube6, WideAxisMove 0⟩⟩⟩, ⟨⟨⟨Cube7, WideAxisMove 0⟩⟩⟩,
   ⟨⟨⟨Cube2, QuarterAxisMove⟩⟩⟩, ⟨⟨⟨Cube3, QuarterAxisMove⟩⟩⟩, ⟨⟨⟨Cube4, QuarterAxisMove⟩⟩⟩, ⟨⟨⟨Cube5, QuarterAxisMove⟩⟩⟩,
   ⟨⟨⟨Cube6, QuarterAxisMove⟩⟩⟩, ⟨⟨⟨Cube7, QuarterAxisMove⟩⟩⟩,
   ⟨⟨⟨Cube2, NonRedundantAxisMove⟩⟩⟩, ⟨⟨⟨Cube3, NonRedundantAxisMove⟩⟩⟩, ⟨⟨⟨Cube4, NonRedundantAxisMove⟩⟩⟩,
   ⟨⟨⟨Cube5, NonRedundantAxisMove⟩⟩⟩, ⟨⟨⟨Cube6, NonRedundantAxisMove⟩⟩⟩, ⟨⟨⟨Cube7, NonRedundantAxisMove⟩⟩⟩,
   ⟨⟨⟨Cube4, WideAxisMove 1⟩⟩⟩, ⟨⟨⟨Cube5, WideAxisMove 1⟩⟩⟩, ⟨⟨⟨Cube6, WideAxisMove 1⟩⟩⟩, ⟨⟨⟨Cube7, WideAxisMove 1⟩⟩⟩,
   ⟨⟨⟨Cube6, WideAxisMove 2⟩⟩⟩, ⟨⟨⟨Cube7, WideAxisMove 2⟩⟩⟩]

theorem awaySystems_complete : awaySystems.map (·.sys) = countSystems := rfl

theorem MovesUniform.away {C M : Type} [HasValid C] [PieceByPiece C] [Differences C] [DifferencesAway C] [AwayLaw C] [Movable C M]
    (h : MovesUniform C M) (inj : ∀ a : List M, Function.Injective fun d : C => movedAlg d a) (a b : List M) (c : C) (hc : HasValid.valid c) :
    List.Forall₂ (fun x y => y = (1, 1) → x = 3) (differences (movedAlg (movedAlg c b) a) (movedAlg (movedAlg c a) b))
      (DifferencesAway.away c (movedAlg c a) (movedAlg c b)) :=
  AwayLaw.three (F := fun c => movedAlg c a) (G := fun c => movedAlg c b) (h.alg a) (h.alg b) (inj a) (inj b) hc

theorem away_alg : ∀ s ∈ awaySystems, (∀ a : List s.sys.sys.M, Function.Injective fun d : s.sys.sys.C => movedAlg d a) →
    ∀ (a b : List s.sys.sys.M) (c : s.sys.sys.C), HasValid.valid c →
    List.Forall₂ (fun x y => y = (1, 1) → x = 3) (differences (movedAlg (movedAlg c b) a) (movedAlg (movedAlg c a) b))
      (DifferencesAway.away c (movedAlg c a) (movedAlg c b)) := by
  simp only [awaySystems, List.forall_mem_cons, List.not_mem_nil, false_imp_iff, implies_true, and_true]
  exact ⟨cube2_uniform.away, cube3_uniform.away, cube4_axis_uniform.away, cube5_axis_uniform.away,
    cube6_axis_uniform.away, cube7_axis_uniform.away,
    cube2_uniform.wide0.away, cube3_uniform.wide0.away, cube4_axis_uniform.wide0.away, cube5_axis_uniform.wide0.away,
    cube6_axis_uniform.wide0.away, cube7_axis_uniform.wide0.away,
    cube2_uniform.quarter.away, cube3_uniform.quarter.away, cube4_axis_uniform.quarter.away,
    cube5_axis_uniform.quarter.away, cube6_axis_uniform.quarter.away, cube7_axis_uniform.quarter.away,
    cube2_uniform.nonRedundant.away, cube3_uniform.nonRedundant.away, cube4_axis_uniform.nonRedundant.away,
    cube5_axis_uniform.nonRedundant.away, cube6_axis_uniform.nonRedundant.away, cube7_axis_uniform.nonRedundant.away,
    cube4_uniform.away, cube5_uniform.away, cube6_wide1_uniform.away, cube7_wide1_uniform.away,
    cube6_uniform.away, cube7_uniform.away⟩

/-- **C120** On every size and for every kind of moves, for each kind of pieces: if two algs change one piece in common, which both bring to
another place, then doing both and undoing both in the same order changes exactly three pieces of this kind, on every valid cube. What
the two algs have in common can be seen on any valid cube, for example on the solved one. -/
theorem C120_three_every_size (s : AwaySys) (hs : s ∈ awaySystems) (a b : List s.sys.sys.M) (c c₀ : s.sys.sys.C)
    (hc : HasValid.valid c) (h₀ : HasValid.valid c₀) :
    List.Forall₂ (fun x y => y = (1, 1) → x = 3) (differences c (movedAlg c (a ++ b ++ reversed a ++ reversed b)))
      (DifferencesAway.away c₀ (movedAlg c₀ a) (movedAlg c₀ b)) := by
  have h1 : s.sys ∈ countSystems := by
    rw [← awaySystems_complete]
    exact List.mem_map.2 ⟨s, hs, rfl⟩
  have h2 : s.sys.sys ∈ cubeSystems := by
    rw [← countSystems_complete]
    exact List.mem_map.2 ⟨s.sys, h1, rfl⟩
  have hm : (⟨s.sys.sys.C, s.sys.sys.M⟩ : MoveSys) ∈ moveSystems := by
    rw [← cubeSystems_complete.1]
    exact List.mem_map.2 ⟨s.sys.sys, h2, rfl⟩
  have e : ∀ (c : s.sys.sys.C) (u v : List s.sys.sys.M), movedAlg c (u ++ v) = movedAlg (movedAlg c u) v := fun _ _ _ => List.foldl_append
  have inj := alg_injective s.sys.sys h2
  have h := counts_alg s.sys h1 inj
  have ub : ∀ x : s.sys.sys.C, movedAlg (movedAlg x (reversed b)) b = x := (C02_alg_then_reversed ⟨s.sys.sys.C, s.sys.sys.M⟩ hm b · |>.2)
  have ua : ∀ x : s.sys.sys.C, movedAlg (movedAlg x (reversed a)) a = x := (C02_alg_then_reversed ⟨s.sys.sys.C, s.sys.sys.M⟩ hm a · |>.2)
  rw [(h (a ++ b ++ reversed a ++ reversed b)).1 c c₀ hc h₀, (h b).2.1 c₀, (h a).2.1 (movedAlg c₀ b), e, e, ub, ua, e]
  exact away_alg s hs inj a b c₀ h₀

/-- on the 5x5 with single layers, `R U R'` and `D` (examples, not in the Rust code) -/
def cornerAlgs : List (WideAxisMove 1) × List (WideAxisMove 1) :=
  ([⟨0, ⟨Face.R, .single⟩⟩, ⟨0, ⟨Face.U, .single⟩⟩, ⟨0, ⟨Face.R, .inverse⟩⟩], [⟨0, ⟨Face.D, .single⟩⟩])

/-- They have only the corner at the front of the bottom right in common. So on every valid 5x5 three corners are changed and nothing else. -/
example (c : Cube5) (hc : HasValid.valid c) :
    differences c (movedAlg c (cornerAlgs.1 ++ cornerAlgs.2 ++ reversed cornerAlgs.1 ++ reversed cornerAlgs.2)) = [3, 0, 0, 0] := by
  have h := C120_three_every_size ⟨⟨⟨Cube5, WideAxisMove 1⟩⟩⟩ (by simp [awaySystems]) cornerAlgs.1 cornerAlgs.2 c (Cube.SOLVED : Cube5) hc
    C08_solved_valid.2.2.2.1
  have h' := (C120_commutator_every_size ⟨⟨⟨Cube5, WideAxisMove 1⟩⟩⟩ (by simp [bothSystems]) cornerAlgs.1 cornerAlgs.2 c (Cube.SOLVED : Cube5) hc
    C08_solved_valid.2.2.2.1).1
  rw [show DifferencesAway.away (Cube.SOLVED : Cube5) (movedAlg Cube.SOLVED cornerAlgs.1) (movedAlg Cube.SOLVED cornerAlgs.2) =
    [(1, 1), (0, 0), (0, 0), (0, 0)] by decide +kernel] at h
  rw [show DifferencesBoth.both (Cube.SOLVED : Cube5) (movedAlg Cube.SOLVED cornerAlgs.1) (movedAlg Cube.SOLVED cornerAlgs.2) = [1, 0, 0, 0] by decide +kernel] at h'
  generalize differences c (movedAlg c (cornerAlgs.1 ++ cornerAlgs.2 ++ reversed cornerAlgs.1 ++ reversed cornerAlgs.2)) = l at h h' ⊢
  obtain _ | ⟨x, _ | ⟨y, _ | ⟨z, _ | ⟨w, _ | ⟨v, l⟩⟩⟩⟩⟩ := l <;> simp_all

/-! ## Three times -/

theorem away_spec {P : Type} {n : Nat} [DecidableEq P] [PieceSetDescriptor P n] [DecidableEq (Piece.Position P)] [LawfulDescriptor P n]
    [Turnable P] (law : TurnedInPlace P n) {f g : P → P} (hf : Blind f) (hg : Blind g) {s : PieceSet P n} (hs : s.validate = none)
    (h : differingAway s (fun i => f (s i)) (fun i => g (s i)) = (1, 1)) :
    ∃ p : Piece.Position P, (∀ x : P, (x ≠ f x ∧ x ≠ g x) ↔ Piece.position x = p) ∧
      ∀ x : P, Piece.position x = p → Piece.position (f x) ≠ p ∧ Piece.position (g x) ≠ p := by
  have h1 : (Finset.univ.filter fun i => s i ≠ f (s i) ∧ s i ≠ g (s i)).card = 1 := congrArg Prod.fst h
  have h2 : (Finset.univ.filter fun i => Piece.position (s i) ≠ Piece.position (f (s i)) ∧ Piece.position (s i) ≠ Piece.position (g (s i))).card = 1 :=
    congrArg Prod.snd h
  obtain ⟨i, hi⟩ := Finset.card_eq_one.1 h1
  obtain ⟨i', hi'⟩ := Finset.card_eq_one.1 h2
  have mem : ∀ j, (s j ≠ f (s j) ∧ s j ≠ g (s j)) ↔ j = i := fun j => by
    rw [← Finset.mem_singleton, ← hi]
    simp
  have mem' : ∀ j, (Piece.position (s j) ≠ Piece.position (f (s j)) ∧ Piece.position (s j) ≠ Piece.position (g (s j))) ↔ j = i' := fun j => by
    rw [← Finset.mem_singleton, ← hi']
    simp
  have ii : i' = i := (mem i').1 ⟨fun e => ((mem' i').2 rfl).1 (congrArg _ e), fun e => ((mem' i').2 rfl).2 (congrArg _ e)⟩
  subst ii
  obtain ⟨pf, pg⟩ := (mem' i').2 rfl
  have hb := ((validate_eq_none s).1 hs).bijective
  have stay : ∀ (k : Nat) (x : P), Piece.position (Turnable.turn^[k] x) = Piece.position x := fun k x => by
    induction k with
    | zero => rfl
    | succ k ih => rw [Function.iterate_succ_apply', law.place, ih]
  refine ⟨Piece.position (s i'), fun x => ?_, fun x hx => ?_⟩
  · obtain ⟨l, hl⟩ := hb.2 (Piece.position x)
    have hl : Piece.position (s l) = Piece.position x := hl
    obtain ⟨m, -, e⟩ := law.turns x (s l) hl.symm
    have ti := law.inj.iterate m
    rw [← hl, e, hf.iterate, hg.iterate, ti.ne_iff, ti.ne_iff, mem]
    exact ⟨fun e => by rw [e], fun e => hb.1 e⟩
  · obtain ⟨m, -, rfl⟩ := law.turns x (s i') hx
    rw [hf.iterate, hg.iterate, stay, stay]
    exact ⟨pf.symm, pg.symm⟩

/-- doing both and undoing both three times does nothing -/
theorem away_three_times {P : Type} {n : Nat} [DecidableEq P] [PieceSetDescriptor P n] [DecidableEq (Piece.Position P)] [LawfulDescriptor P n]
    [Turnable P] (law : TurnedInPlace P n) {f g k : P → P} (hf : Blind f) (hg : Blind g) (fi : Function.Injective f) (gi : Function.Injective g)
    (ki : Function.Injective k) (hk : ∀ x, f (g (k x)) = g (f x)) {s : PieceSet P n} (hs : s.validate = none)
    (h : (differingAway s (fun i => f (s i)) (fun i => g (s i))).1 = 0 ∨ differingAway s (fun i => f (s i)) (fun i => g (s i)) = (1, 1)) (x : P) :
    k (k (k x)) = x := by
  have same : ∀ x, f (g x) = g (f x) → k x = x := fun x e => gi (fi ((hk x).trans e.symm))
  rcases h with h | h
  · have all : ∀ x, f (g x) = g (f x) := fun x => (pieces_commute hf hg fi gi (covers_of_valid law.turns hs) (fun i => by
      have h : (Finset.univ.filter fun i => s i ≠ f (s i) ∧ s i ≠ g (s i)).card = 0 := h
      by_contra hn
      rw [not_or] at hn
      have : i ∈ (Finset.univ.filter fun i => s i ≠ f (s i) ∧ s i ≠ g (s i)) := by simp [Ne.symm hn.1, Ne.symm hn.2]
      rw [Finset.card_eq_zero.1 h] at this
      simp at this) x).symm
    rw [same x (all x), same x (all x), same x (all x)]
  obtain ⟨p, N, away⟩ := away_spec law hf hg hs h
  have fx : ∀ z, z ≠ f z → Piece.position z ≠ p → g z = z := fun z h h' => by
    by_contra h2
    exact h' ((N z).1 ⟨h, Ne.symm h2⟩)
  have gx : ∀ z, z ≠ g z → Piece.position z ≠ p → f z = z := fun z h h' => by
    by_contra h2
    exact h' ((N z).1 ⟨Ne.symm h2, h⟩)
  have a1 : ∀ y, Piece.position y = p → g (f y) = f y := fun y hy => fx _ (fun e => ((N y).2 hy).1 (fi e)) (away y hy).1
  have a2 : ∀ y, Piece.position y = p → f (g y) = g y := fun y hy => gx _ (fun e => ((N y).2 hy).2 (gi e)) (away y hy).2
  have bf : ∀ z, Piece.position (f z) = p → Piece.position z ≠ p ∧ g z = z := fun z hz => by
    have h1 : Piece.position z ≠ p := fun e => (away z e).1 hz
    exact ⟨h1, fx z (fun e => h1 (by rw [e, hz])) h1⟩
  have bg : ∀ z, Piece.position (g z) = p → Piece.position z ≠ p ∧ f z = z := fun z hz => by
    have h1 : Piece.position z ≠ p := fun e => (away z e).2 hz
    exact ⟨h1, gx z (fun e => h1 (by rw [e, hz])) h1⟩
  have back : ∀ z, Piece.position (f z) = p → k z = f z := fun z hz => gi (fi ((hk z).trans (by
    rw [a2 _ hz])))
  have one : ∀ y, Piece.position y = p → g (k y) = y := fun y hy => fi ((hk y).trans (a1 y hy))
  have cyc : ∀ y, Piece.position y = p → k (k (k y)) = y := fun y hy => by
    have e1 := one y hy
    have e2 : f (g (k (k y))) = y := by
      rw [hk, (bg (k y) (by rw [e1, hy])).2, e1]
    have e3 := (bf (g (k (k y))) (by rw [e2, hy])).2
    have e4 : f (k (k y)) = y := by rw [← gi e3, e2]
    rw [back _ (by rw [e4, hy]), e4]
  by_cases h1 : Piece.position x = p
  · exact cyc x h1
  by_cases h2 : Piece.position (f x) = p
  · have e := cyc _ h2
    rw [← back x h2] at e
    exact ki e
  by_cases h3 : Piece.position (g x) = p
  · have e : k (g x) = x := gi (one _ h3)
    have e' := cyc _ h3
    calc k (k (k x)) = k (k (k (k (g x)))) := by rw [e]
      _ = x := by rw [e', e]
  · have c : f (g x) = g (f x) := by
      by_cases c1 : x = f x
      · by_cases c2 : x = g x
        · rw [← c1, ← c2, ← c1]
        · rw [gx _ (fun e => c2 (gi e)) h3, ← c1]
      · rw [fx _ (fun e => c1 (fi e)) h2, fx _ c1 h1]
    rw [same x c, same x c, same x c]

/-- the same for all arrays of a cube -/
class ThreeTimes (C : Type) [HasValid C] [PieceByPiece C] [DifferencesAway C] : Prop where
  times : ∀ {F G K : C → C} {c₀ : C}, PieceByPiece.Uniform F → PieceByPiece.Uniform G → PieceByPiece.Uniform K → Function.Injective F →
    Function.Injective G → Function.Injective K → (∀ c, F (G (K c)) = G (F c)) → HasValid.valid c₀ →
    (∀ y ∈ DifferencesAway.away c₀ (F c₀) (G c₀), y.1 = 0 ∨ y = (1, 1)) → ∀ c, K (K (K c)) = c

instance : ThreeTimes Cube2 where
  times := by
    rintro F G K c₀ ⟨f₁, hf₁, eF⟩ ⟨f₂, hf₂, eG⟩ ⟨f₃, hf₃, eK⟩ Fi Gi Ki hk hc h c
    have v_corners : c₀.corners.validate = none := hc
    have inj : ∀ H : Cube2 → Cube2, Function.Injective H → ∀ c d, H c = H d → c = d := fun H h c d e => h e
    rw [eF c₀, eG c₀] at h
    simp only [DifferencesAway.away, List.forall_mem_cons, List.not_mem_nil, false_imp_iff, implies_true, and_true] at h
    have k_corners := h
    simp only [eF, eG, eK] at hk
    rw [eK, eK, eK]
    exact Cube2.ext (funext fun i => away_three_times corner_inPlace hf₁ hf₂
        (fun x y h => congrFun (congrArg Cube2.corners (inj _ Fi { c with corners := fun _ => x } { c with corners := fun _ => y } (by simp only [eF, h]))) 0)
        (fun x y h => congrFun (congrArg Cube2.corners (inj _ Gi { c with corners := fun _ => x } { c with corners := fun _ => y } (by simp only [eG, h]))) 0)
        (fun x y h => congrFun (congrArg Cube2.corners (inj _ Ki { c with corners := fun _ => x } { c with corners := fun _ => y } (by simp only [eK, h]))) 0)
        (fun x => congrFun (congrArg Cube2.corners (hk { c with corners := fun _ => x })) 0) v_corners k_corners _)

instance : ThreeTimes Cube3 where
  times := by
    rintro F G K c₀ ⟨f₁, e₁, hf₁, he₁, eF⟩ ⟨f₂, e₂, hf₂, he₂, eG⟩ ⟨f₃, e₃, hf₃, he₃, eK⟩ Fi Gi Ki hk hc h c
    obtain ⟨v_edges, v_corners⟩ := hc
    have inj : ∀ H : Cube3 → Cube3, Function.Injective H → ∀ c d, H c = H d → c = d := fun H h c d e => h e
    rw [eF c₀, eG c₀] at h
    simp only [DifferencesAway.away, List.forall_mem_cons, List.not_mem_nil, false_imp_iff, implies_true, and_true] at h
    obtain ⟨k_edges, k_corners⟩ := h
    simp only [eF, eG, eK] at hk
    rw [eK, eK, eK]
    exact Cube3.ext (funext fun i => away_three_times edge_inPlace he₁ he₂
        (fun x y h => congrFun (congrArg Cube3.edges (inj _ Fi { c with edges := fun _ => x } { c with edges := fun _ => y } (by simp only [eF, h]))) 0)
        (fun x y h => congrFun (congrArg Cube3.edges (inj _ Gi { c with edges := fun _ => x } { c with edges := fun _ => y } (by simp only [eG, h]))) 0)
        (fun x y h => congrFun (congrArg Cube3.edges (inj _ Ki { c with edges := fun _ => x } { c with edges := fun _ => y } (by simp only [eK, h]))) 0)
        (fun x => congrFun (congrArg Cube3.edges (hk { c with edges := fun _ => x })) 0) v_edges k_edges _)
      (funext fun i => away_three_times corner_inPlace hf₁ hf₂
        (fun x y h => congrFun (congrArg Cube3.corners (inj _ Fi { c with corners := fun _ => x } { c with corners := fun _ => y } (by simp only [eF, h]))) 0)
        (fun x y h => congrFun (congrArg Cube3.corners (inj _ Gi { c with corners := fun _ => x } { c with corners := fun _ => y } (by simp only [eG, h]))) 0)
        (fun x y h => congrFun (congrArg Cube3.corners (inj _ Ki { c with corners := fun _ => x } { c with corners := fun _ => y } (by simp only [eK, h]))) 0)
        (fun x => congrFun (congrArg Cube3.corners (hk { c with corners := fun _ => x })) 0) v_corners k_corners _)

instance : ThreeTimes Cube4 where
  times := by
    rintro F G K c₀ ⟨f₁, w₁, t₁, hf₁, eF⟩ ⟨f₂, w₂, t₂, hf₂, eG⟩ ⟨f₃, w₃, t₃, hf₃, eK⟩ Fi Gi Ki hk hc h c
    obtain ⟨v_corners, v_wings, v_centers⟩ := hc
    have inj : ∀ H : Cube4 → Cube4, Function.Injective H → ∀ c d, H c = H d → c = d := fun H h c d e => h e
    rw [eF c₀, eG c₀] at h
    simp only [DifferencesAway.away, List.forall_mem_cons, List.not_mem_nil, false_imp_iff, implies_true, and_true] at h
    obtain ⟨k_corners, k_wings, k_centers⟩ := h
    simp only [eF, eG, eK] at hk
    rw [eK, eK, eK]
    exact Cube4.ext (funext fun i => away_three_times corner_inPlace hf₁ hf₂
        (fun x y h => congrFun (congrArg Cube4.corners (inj _ Fi { c with corners := fun _ => x } { c with corners := fun _ => y } (by simp only [eF, h]))) 0)
        (fun x y h => congrFun (congrArg Cube4.corners (inj _ Gi { c with corners := fun _ => x } { c with corners := fun _ => y } (by simp only [eG, h]))) 0)
        (fun x y h => congrFun (congrArg Cube4.corners (inj _ Ki { c with corners := fun _ => x } { c with corners := fun _ => y } (by simp only [eK, h]))) 0)
        (fun x => congrFun (congrArg Cube4.corners (hk { c with corners := fun _ => x })) 0) v_corners k_corners _)
      (funext fun i => away_three_times wing_inPlace (blind_wing w₁) (blind_wing w₂)
        (fun x y h => congrFun (congrArg Cube4.wings (inj _ Fi { c with wings := fun _ => x } { c with wings := fun _ => y } (by simp only [eF, h]))) 0)
        (fun x y h => congrFun (congrArg Cube4.wings (inj _ Gi { c with wings := fun _ => x } { c with wings := fun _ => y } (by simp only [eG, h]))) 0)
        (fun x y h => congrFun (congrArg Cube4.wings (inj _ Ki { c with wings := fun _ => x } { c with wings := fun _ => y } (by simp only [eK, h]))) 0)
        (fun x => congrFun (congrArg Cube4.wings (hk { c with wings := fun _ => x })) 0) v_wings k_wings _)
      (funext fun i => away_three_times centerCorner_inPlace (blind_centerCorner t₁) (blind_centerCorner t₂)
        (fun x y h => congrFun (congrArg Cube4.centers (inj _ Fi { c with centers := fun _ => x } { c with centers := fun _ => y } (by simp only [eF, h]))) 0)
        (fun x y h => congrFun (congrArg Cube4.centers (inj _ Gi { c with centers := fun _ => x } { c with centers := fun _ => y } (by simp only [eG, h]))) 0)
        (fun x y h => congrFun (congrArg Cube4.centers (inj _ Ki { c with centers := fun _ => x } { c with centers := fun _ => y } (by simp only [eK, h]))) 0)
        (fun x => congrFun (congrArg Cube4.centers (hk { c with centers := fun _ => x })) 0) v_centers k_centers _)

instance : ThreeTimes Cube5 where
  times := by
    rintro F G K c₀ ⟨f₁, e₁, t₁, u₁, hf₁, he₁, eF⟩ ⟨f₂, e₂, t₂, u₂, hf₂, he₂, eG⟩ ⟨f₃, e₃, t₃, u₃, hf₃, he₃, eK⟩ Fi Gi Ki hk hc h c
    obtain ⟨v_corners, v_edges, v_cornerCenters, v_cornerEdges⟩ := hc
    have inj : ∀ H : Cube5 → Cube5, Function.Injective H → ∀ c d, H c = H d → c = d := fun H h c d e => h e
    rw [eF c₀, eG c₀] at h
    simp only [DifferencesAway.away, List.forall_mem_cons, List.not_mem_nil, false_imp_iff, implies_true, and_true] at h
    obtain ⟨k_corners, k_edges, k_cornerCenters, k_cornerEdges⟩ := h
    simp only [eF, eG, eK] at hk
    rw [eK, eK, eK]
    exact Cube5.ext (funext fun i => away_three_times corner_inPlace hf₁ hf₂
        (fun x y h => congrFun (congrArg Cube5.corners (inj _ Fi { c with corners := fun _ => x } { c with corners := fun _ => y } (by simp only [eF, h]))) 0)
        (fun x y h => congrFun (congrArg Cube5.corners (inj _ Gi { c with corners := fun _ => x } { c with corners := fun _ => y } (by simp only [eG, h]))) 0)
        (fun x y h => congrFun (congrArg Cube5.corners (inj _ Ki { c with corners := fun _ => x } { c with corners := fun _ => y } (by simp only [eK, h]))) 0)
        (fun x => congrFun (congrArg Cube5.corners (hk { c with corners := fun _ => x })) 0) v_corners k_corners _)
      (funext fun i => away_three_times edge_inPlace he₁ he₂
        (fun x y h => congrFun (congrArg Cube5.edges (inj _ Fi { c with edges := fun _ => x } { c with edges := fun _ => y } (by simp only [eF, h]))) 0)
        (fun x y h => congrFun (congrArg Cube5.edges (inj _ Gi { c with edges := fun _ => x } { c with edges := fun _ => y } (by simp only [eG, h]))) 0)
        (fun x y h => congrFun (congrArg Cube5.edges (inj _ Ki { c with edges := fun _ => x } { c with edges := fun _ => y } (by simp only [eK, h]))) 0)
        (fun x => congrFun (congrArg Cube5.edges (hk { c with edges := fun _ => x })) 0) v_edges k_edges _)
      (funext fun i => away_three_times centerCorner_inPlace (blind_centerCorner t₁) (blind_centerCorner t₂)
        (fun x y h => congrFun (congrArg Cube5.cornerCenters (inj _ Fi { c with cornerCenters := fun _ => x } { c with cornerCenters := fun _ => y } (by simp only [eF, h]))) 0)
        (fun x y h => congrFun (congrArg Cube5.cornerCenters (inj _ Gi { c with cornerCenters := fun _ => x } { c with cornerCenters := fun _ => y } (by simp only [eG, h]))) 0)
        (fun x y h => congrFun (congrArg Cube5.cornerCenters (inj _ Ki { c with cornerCenters := fun _ => x } { c with cornerCenters := fun _ => y } (by simp only [eK, h]))) 0)
        (fun x => congrFun (congrArg Cube5.cornerCenters (hk { c with cornerCenters := fun _ => x })) 0) v_cornerCenters k_cornerCenters _)
      (funext fun i => away_three_times centerEdge_inPlace (blind_centerEdge u₁) (blind_centerEdge u₂)
        (fun x y h => congrFun (congrArg Cube5.cornerEdges (inj _ Fi { c with cornerEdges := fun _ => x } { c with cornerEdges := fun _ => y } (by simp only [eF, h]))) 0)
        (fun x y h => congrFun (congrArg Cube5.cornerEdges (inj _ Gi { c with cornerEdges := fun _ => x } { c with cornerEdges := fun _ => y } (by simp only [eG, h]))) 0)
        (fun x y h => congrFun (congrArg Cube5.cornerEdges (inj _ Ki { c with cornerEdges := fun _ => x } { c with cornerEdges := fun _ => y } (by simp only [eK, h]))) 0)
        (fun x => congrFun (congrArg Cube5.cornerEdges (hk { c with cornerEdges := fun _ => x })) 0) v_cornerEdges k_cornerEdges _)

instance : ThreeTimes Cube6 where
  times := by
    rintro F G K c₀ ⟨f₁, w1₁, w2₁, t1₁, t2₁, v₁, hf₁, eF⟩ ⟨f₂, w1₂, w2₂, t1₂, t2₂, v₂, hf₂, eG⟩ ⟨f₃, w1₃, w2₃, t1₃, t2₃, v₃, hf₃, eK⟩ Fi Gi Ki hk hc h c
    obtain ⟨v_corners, v_wings1, v_wings2, v_centerCorners1, v_centerCorners2, v_centerWings⟩ := hc
    have inj : ∀ H : Cube6 → Cube6, Function.Injective H → ∀ c d, H c = H d → c = d := fun H h c d e => h e
    rw [eF c₀, eG c₀] at h
    simp only [DifferencesAway.away, List.forall_mem_cons, List.not_mem_nil, false_imp_iff, implies_true, and_true] at h
    obtain ⟨k_corners, k_wings1, k_wings2, k_centerCorners1, k_centerCorners2, k_centerWings⟩ := h
    simp only [eF, eG, eK] at hk
    rw [eK, eK, eK]
    exact Cube6.ext (funext fun i => away_three_times corner_inPlace hf₁ hf₂
        (fun x y h => congrFun (congrArg Cube6.corners (inj _ Fi { c with corners := fun _ => x } { c with corners := fun _ => y } (by simp only [eF, h]))) 0)
        (fun x y h => congrFun (congrArg Cube6.corners (inj _ Gi { c with corners := fun _ => x } { c with corners := fun _ => y } (by simp only [eG, h]))) 0)
        (fun x y h => congrFun (congrArg Cube6.corners (inj _ Ki { c with corners := fun _ => x } { c with corners := fun _ => y } (by simp only [eK, h]))) 0)
        (fun x => congrFun (congrArg Cube6.corners (hk { c with corners := fun _ => x })) 0) v_corners k_corners _)
      (funext fun i => away_three_times wing_inPlace (blind_wing w1₁) (blind_wing w1₂)
        (fun x y h => congrFun (congrArg Cube6.wings1 (inj _ Fi { c with wings1 := fun _ => x } { c with wings1 := fun _ => y } (by simp only [eF, h]))) 0)
        (fun x y h => congrFun (congrArg Cube6.wings1 (inj _ Gi { c with wings1 := fun _ => x } { c with wings1 := fun _ => y } (by simp only [eG, h]))) 0)
        (fun x y h => congrFun (congrArg Cube6.wings1 (inj _ Ki { c with wings1 := fun _ => x } { c with wings1 := fun _ => y } (by simp only [eK, h]))) 0)
        (fun x => congrFun (congrArg Cube6.wings1 (hk { c with wings1 := fun _ => x })) 0) v_wings1 k_wings1 _)
      (funext fun i => away_three_times wing_inPlace (blind_wing w2₁) (blind_wing w2₂)
        (fun x y h => congrFun (congrArg Cube6.wings2 (inj _ Fi { c with wings2 := fun _ => x } { c with wings2 := fun _ => y } (by simp only [eF, h]))) 0)
        (fun x y h => congrFun (congrArg Cube6.wings2 (inj _ Gi { c with wings2 := fun _ => x } { c with wings2 := fun _ => y } (by simp only [eG, h]))) 0)
        (fun x y h => congrFun (congrArg Cube6.wings2 (inj _ Ki { c with wings2 := fun _ => x } { c with wings2 := fun _ => y } (by simp only [eK, h]))) 0)
        (fun x => congrFun (congrArg Cube6.wings2 (hk { c with wings2 := fun _ => x })) 0) v_wings2 k_wings2 _)
      (funext fun i => away_three_times centerCorner_inPlace (blind_centerCorner t1₁) (blind_centerCorner t1₂)
        (fun x y h => congrFun (congrArg Cube6.centerCorners1 (inj _ Fi { c with centerCorners1 := fun _ => x } { c with centerCorners1 := fun _ => y } (by simp only [eF, h]))) 0)
        (fun x y h => congrFun (congrArg Cube6.centerCorners1 (inj _ Gi { c with centerCorners1 := fun _ => x } { c with centerCorners1 := fun _ => y } (by simp only [eG, h]))) 0)
        (fun x y h => congrFun (congrArg Cube6.centerCorners1 (inj _ Ki { c with centerCorners1 := fun _ => x } { c with centerCorners1 := fun _ => y } (by simp only [eK, h]))) 0)
        (fun x => congrFun (congrArg Cube6.centerCorners1 (hk { c with centerCorners1 := fun _ => x })) 0) v_centerCorners1 k_centerCorners1 _)
      (funext fun i => away_three_times centerCorner_inPlace (blind_centerCorner t2₁) (blind_centerCorner t2₂)
        (fun x y h => congrFun (congrArg Cube6.centerCorners2 (inj _ Fi { c with centerCorners2 := fun _ => x } { c with centerCorners2 := fun _ => y } (by simp only [eF, h]))) 0)
        (fun x y h => congrFun (congrArg Cube6.centerCorners2 (inj _ Gi { c with centerCorners2 := fun _ => x } { c with centerCorners2 := fun _ => y } (by simp only [eG, h]))) 0)
        (fun x y h => congrFun (congrArg Cube6.centerCorners2 (inj _ Ki { c with centerCorners2 := fun _ => x } { c with centerCorners2 := fun _ => y } (by simp only [eK, h]))) 0)
        (fun x => congrFun (congrArg Cube6.centerCorners2 (hk { c with centerCorners2 := fun _ => x })) 0) v_centerCorners2 k_centerCorners2 _)
      (funext fun i => away_three_times centerWing_inPlace (blind_centerWing v₁) (blind_centerWing v₂)
        (fun x y h => congrFun (congrArg Cube6.centerWings (inj _ Fi { c with centerWings := fun _ => x } { c with centerWings := fun _ => y } (by simp only [eF, h]))) 0)
        (fun x y h => congrFun (congrArg Cube6.centerWings (inj _ Gi { c with centerWings := fun _ => x } { c with centerWings := fun _ => y } (by simp only [eG, h]))) 0)
        (fun x y h => congrFun (congrArg Cube6.centerWings (inj _ Ki { c with centerWings := fun _ => x } { c with centerWings := fun _ => y } (by simp only [eK, h]))) 0)
        (fun x => congrFun (congrArg Cube6.centerWings (hk { c with centerWings := fun _ => x })) 0) v_centerWings k_centerWings _)

instance : ThreeTimes Cube7 where
  times := by
    rintro F G K c₀ ⟨f₁, e₁, w1₁, w2₁, t1₁, t2₁, v₁, u1₁, u2₁, hf₁, he₁, eF⟩ ⟨f₂, e₂, w1₂, w2₂, t1₂, t2₂, v₂, u1₂, u2₂, hf₂, he₂, eG⟩ ⟨f₃, e₃, w1₃, w2₃, t1₃, t2₃, v₃, u1₃, u2₃, hf₃, he₃, eK⟩ Fi Gi Ki hk hc h c
    obtain ⟨v_corners, v_edges, v_wings1, v_wings2, v_centerCorners1, v_centerCorners2, v_centerWings, v_centerEdges1, v_centerEdges2⟩ := hc
    have inj : ∀ H : Cube7 → Cube7, Function.Injective H → ∀ c d, H c = H d → c = d := fun H h c d e => h e
    rw [eF c₀, eG c₀] at h
    simp only [DifferencesAway.away, List.forall_mem_cons, List.not_mem_nil, false_imp_iff, implies_true, and_true] at h
    obtain ⟨k_corners, k_edges, k_wings1, k_wings2, k_centerCorners1, k_centerCorners2, k_centerWings, k_centerEdges1, k_centerEdges2⟩ := h
    simp only [eF, eG, eK] at hk
    rw [eK, eK, eK]
    exact Cube7.ext (funext fun i => away_three_times corner_inPlace hf₁ hf₂
        (fun x y h => congrFun (congrArg Cube7.corners (inj _ Fi { c with corners := fun _ => x } { c with corners := fun _ => y } (by simp only [eF, h]))) 0)
        (fun x y h => congrFun (congrArg Cube7.corners (inj _ Gi { c with corners := fun _ => x } { c with corners := fun _ => y } (by simp only [eG, h]))) 0)
        (fun x y h => congrFun (congrArg Cube7.corners (inj _ Ki { c with corners := fun _ => x } { c with corners := fun _ => y } (by simp only [eK, h]))) 0)
        (fun x => congrFun (congrArg Cube7.corners (hk { c with corners := fun _ => x })) 0) v_corners k_corners _)
      (funext fun i => away_three_times edge_inPlace he₁ he₂
        (fun x y h => congrFun (congrArg Cube7.edges (inj _ Fi { c with edges := fun _ => x } { c with edges := fun _ => y } (by simp only [eF, h]))) 0)
        (fun x y h => congrFun (congrArg Cube7.edges (inj _ Gi { c with edges := fun _ => x } { c with edges := fun _ => y } (by simp only [eG, h]))) 0)
        (fun x y h => congrFun (congrArg Cube7.edges (inj _ Ki { c with edges := fun _ => x } { c with edges := fun _ => y } (by simp only [eK, h]))) 0)
        (fun x => congrFun (congrArg Cube7.edges (hk { c with edges := fun _ => x })) 0) v_edges k_edges _)
      (funext fun i => away_three_times wing_inPlace (blind_wing w1₁) (blind_wing w1₂)
        (fun x y h => congrFun (congrArg Cube7.wings1 (inj _ Fi { c with wings1 := fun _ => x } { c with wings1 := fun _ => y } (by simp only [eF, h]))) 0)
        (fun x y h => congrFun (congrArg Cube7.wings1 (inj _ Gi { c with wings1 := fun _ => x } { c with wings1 := fun _ => y } (by simp only [eG, h]))) 0)
        (fun x y h => congrFun (congrArg Cube7.wings1 (inj _ Ki { c with wings1 := fun _ => x } { c with wings1 := fun _ => y } (by simp only [eK, h]))) 0)
        (fun x => congrFun (congrArg Cube7.wings1 (hk { c with wings1 := fun _ => x })) 0) v_wings1 k_wings1 _)
      (funext fun i => away_three_times wing_inPlace (blind_wing w2₁) (blind_wing w2₂)
        (fun x y h => congrFun (congrArg Cube7.wings2 (inj _ Fi { c with wings2 := fun _ => x } { c with wings2 := fun _ => y } (by simp only [eF, h]))) 0)
        (fun x y h => congrFun (congrArg Cube7.wings2 (inj _ Gi { c with wings2 := fun _ => x } { c with wings2 := fun _ => y } (by simp only [eG, h]))) 0)
        (fun x y h => congrFun (congrArg Cube7.wings2 (inj _ Ki { c with wings2 := fun _ => x } { c with wings2 := fun _ => y } (by simp only [eK, h]))) 0)
        (fun x => congrFun (congrArg Cube7.wings2 (hk { c with wings2 := fun _ => x })) 0) v_wings2 k_wings2 _)
      (funext fun i => away_three_times centerCorner_inPlace (blind_centerCorner t1₁) (blind_centerCorner t1₂)
        (fun x y h => congrFun (congrArg Cube7.centerCorners1 (inj _ Fi { c with centerCorners1 := fun _ => x } { c with centerCorners1 := fun _ => y } (by simp only [eF, h]))) 0)
        (fun x y h => congrFun (congrArg Cube7.centerCorners1 (inj _ Gi { c with centerCorners1 := fun _ => x } { c with centerCorners1 := fun _ => y } (by simp only [eG, h]))) 0)
        (fun x y h => congrFun (congrArg Cube7.centerCorners1 (inj _ Ki { c with centerCorners1 := fun _ => x } { c with centerCorners1 := fun _ => y } (by simp only [eK, h]))) 0)
        (fun x => congrFun (congrArg Cube7.centerCorners1 (hk { c with centerCorners1 := fun _ => x })) 0) v_centerCorners1 k_centerCorners1 _)
      (funext fun i => away_three_times centerCorner_inPlace (blind_centerCorner t2₁) (blind_centerCorner t2₂)
        (fun x y h => congrFun (congrArg Cube7.centerCorners2 (inj _ Fi { c with centerCorners2 := fun _ => x } { c with centerCorners2 := fun _ => y } (by simp only [eF, h]))) 0)
        (fun x y h => congrFun (congrArg Cube7.centerCorners2 (inj _ Gi { c with centerCorners2 := fun _ => x } { c with centerCorners2 := fun _ => y } (by simp only [eG, h]))) 0)
        (fun x y h => congrFun (congrArg Cube7.centerCorners2 (inj _ Ki { c with centerCorners2 := fun _ => x } { c with centerCorners2 := fun _ => y } (by simp only [eK, h]))) 0)
        (fun x => congrFun (congrArg Cube7.centerCorners2 (hk { c with centerCorners2 := fun _ => x })) 0) v_centerCorners2 k_centerCorners2 _)
      (funext fun i => away_three_times centerWing_inPlace (blind_centerWing v₁) (blind_centerWing v₂)
        (fun x y h => congrFun (congrArg Cube7.centerWings (inj _ Fi { c with centerWings := fun _ => x } { c with centerWings := fun _ => y } (by simp only [eF, h]))) 0)
        (fun x y h => congrFun (congrArg Cube7.centerWings (inj _ Gi { c with centerWings := fun _ => x } { c with centerWings := fun _ => y } (by simp only [eG, h]))) 0)
        (fun x y h => congrFun (congrArg Cube7.centerWings (inj _ Ki { c with centerWings := fun _ => x } { c with centerWings := fun _ => y } (by simp only [eK, h]))) 0)
        (fun x => congrFun (congrArg Cube7.centerWings (hk { c with centerWings := fun _ => x })) 0) v_centerWings k_centerWings _)
      (funext fun i => away_three_times centerEdge_inPlace (blind_centerEdge u1₁) (blind_centerEdge u1₂)
        (fun x y h => congrFun (congrArg Cube7.centerEdges1 (inj _ Fi { c with centerEdges1 := fun _ => x } { c with centerEdges1 := fun _ => y } (by simp only [eF, h]))) 0)
        (fun x y h => congrFun (congrArg Cube7.centerEdges1 (inj _ Gi { c with centerEdges1 := fun _ => x } { c with centerEdges1 := fun _ => y } (by simp only [eG, h]))) 0)
        (fun x y h => congrFun (congrArg Cube7.centerEdges1 (inj _ Ki { c with centerEdges1 := fun _ => x } { c with centerEdges1 := fun _ => y } (by simp only [eK, h]))) 0)
        (fun x => congrFun (congrArg Cube7.centerEdges1 (hk { c with centerEdges1 := fun _ => x })) 0) v_centerEdges1 k_centerEdges1 _)
      (funext fun i => away_three_times centerEdge_inPlace (blind_centerEdge u2₁) (blind_centerEdge u2₂)
        (fun x y h => congrFun (congrArg Cube7.centerEdges2 (inj _ Fi { c with centerEdges2 := fun _ => x } { c with centerEdges2 := fun _ => y } (by simp only [eF, h]))) 0)
        (fun x y h => congrFun (congrArg Cube7.centerEdges2 (inj _ Gi { c with centerEdges2 := fun _ => x } { c with centerEdges2 := fun _ => y } (by simp only [eG, h]))) 0)
        (fun x y h => congrFun (congrArg Cube7.centerEdges2 (inj _ Ki { c with centerEdges2 := fun _ => x } { c with centerEdges2 := fun _ => y } (by simp only [eK, h]))) 0)
        (fun x => congrFun (congrArg Cube7.centerEdges2 (hk { c with centerEdges2 := fun _ => x })) 0) v_centerEdges2 k_centerEdges2 _)

theorem MovesUniform.times {C M : Type} [HasValid C] [PieceByPiece C] [DifferencesAway C] [ThreeTimes C] [Movable C M]
    (h : MovesUniform C M) (inj : ∀ a : List M, Function.Injective fun d : C => movedAlg d a) (a b w : List M)
    (hw : ∀ c : C, movedAlg (movedAlg (movedAlg c w) b) a = movedAlg (movedAlg c a) b) (c₀ : C) (h₀ : HasValid.valid c₀)
    (hy : ∀ y ∈ DifferencesAway.away c₀ (movedAlg c₀ a) (movedAlg c₀ b), y.1 = 0 ∨ y = (1, 1)) (c : C) :
    movedAlg (movedAlg (movedAlg c w) w) w = c :=
  ThreeTimes.times (F := fun c => movedAlg c a) (G := fun c => movedAlg c b) (K := fun c => movedAlg c w) (h.alg a) (h.alg b) (h.alg w)
    (inj a) (inj b) (inj w) hw h₀ hy c

theorem times_alg : ∀ s ∈ awaySystems, (∀ a : List s.sys.sys.M, Function.Injective fun d : s.sys.sys.C => movedAlg d a) →
    ∀ (a b w : List s.sys.sys.M), (∀ c : s.sys.sys.C, movedAlg (movedAlg (movedAlg c w) b) a = movedAlg (movedAlg c a) b) →
    ∀ c₀ : s.sys.sys.C, HasValid.valid c₀ →
    (∀ y ∈ DifferencesAway.away c₀ (movedAlg c₀ a) (movedAlg c₀ b), y.1 = 0 ∨ y = (1, 1)) → ∀ c : s.sys.sys.C,
    movedAlg (movedAlg (movedAlg c w) w) w = c := by
  simp only [awaySystems, List.forall_mem_cons, List.not_mem_nil, false_imp_iff, implies_true, and_true]
  exact ⟨cube2_uniform.times, cube3_uniform.times, cube4_axis_uniform.times, cube5_axis_uniform.times,
    cube6_axis_uniform.times, cube7_axis_uniform.times,
    cube2_uniform.wide0.times, cube3_uniform.wide0.times, cube4_axis_uniform.wide0.times, cube5_axis_uniform.wide0.times,
    cube6_axis_uniform.wide0.times, cube7_axis_uniform.wide0.times,
    cube2_uniform.quarter.times, cube3_uniform.quarter.times, cube4_axis_uniform.quarter.times,
    cube5_axis_uniform.quarter.times, cube6_axis_uniform.quarter.times, cube7_axis_uniform.quarter.times,
    cube2_uniform.nonRedundant.times, cube3_uniform.nonRedundant.times, cube4_axis_uniform.nonRedundant.times,
    cube5_axis_uniform.nonRedundant.times, cube6_axis_uniform.nonRedundant.times, cube7_axis_uniform.nonRedundant.times,
    cube4_uniform.times, cube5_uniform.times, cube6_wide1_uniform.times, cube7_wide1_uniform.times,
    cube6_uniform.times, cube7_uniform.times⟩

/-- **C120** On every size and for every kind of moves: if of each kind of pieces two algs change none in common, or only one, which both
bring to another place, then doing both and undoing both, three times over, does nothing to any cube. -/
theorem C120_three_times_every_size (s : AwaySys) (hs : s ∈ awaySystems) (a b : List s.sys.sys.M) (c₀ : s.sys.sys.C) (h₀ : HasValid.valid c₀)
    (hy : ∀ y ∈ DifferencesAway.away c₀ (movedAlg c₀ a) (movedAlg c₀ b), y.1 = 0 ∨ y = (1, 1)) (c : s.sys.sys.C) :
    movedAlg c ((a ++ b ++ reversed a ++ reversed b) ++ (a ++ b ++ reversed a ++ reversed b) ++ (a ++ b ++ reversed a ++ reversed b)) = c := by
  have h2 : s.sys.sys ∈ cubeSystems := by
    rw [← countSystems_complete, ← awaySystems_complete]
    exact List.mem_map.2 ⟨s.sys, List.mem_map.2 ⟨s, hs, rfl⟩, rfl⟩
  have hm : (⟨s.sys.sys.C, s.sys.sys.M⟩ : MoveSys) ∈ moveSystems := by
    rw [← cubeSystems_complete.1]
    exact List.mem_map.2 ⟨s.sys.sys, h2, rfl⟩
  have e : ∀ (c : s.sys.sys.C) (u v : List s.sys.sys.M), movedAlg c (u ++ v) = movedAlg (movedAlg c u) v := fun _ _ _ => List.foldl_append
  have ub : ∀ x : s.sys.sys.C, movedAlg (movedAlg x (reversed b)) b = x := (C02_alg_then_reversed ⟨s.sys.sys.C, s.sys.sys.M⟩ hm b · |>.2)
  have ua : ∀ x : s.sys.sys.C, movedAlg (movedAlg x (reversed a)) a = x := (C02_alg_then_reversed ⟨s.sys.sys.C, s.sys.sys.M⟩ hm a · |>.2)
  have h := times_alg s hs (alg_injective s.sys.sys h2) a b (a ++ b ++ reversed a ++ reversed b) (fun c => by rw [e, e, ub, ua, e]) c₀ h₀ hy c
  generalize a ++ b ++ reversed a ++ reversed b = w at h ⊢
  rw [e, e]
  exact h

/-- on the 5x5 the three-cycle of corners above -/
example (c : Cube5) : let w := cornerAlgs.1 ++ cornerAlgs.2 ++ reversed cornerAlgs.1 ++ reversed cornerAlgs.2
    movedAlg c (w ++ w ++ w) = c ∧ movedAlg (Cube.SOLVED : Cube5) (w ++ w) ≠ Cube.SOLVED := by
  refine ⟨C120_three_times_every_size ⟨⟨⟨Cube5, WideAxisMove 1⟩⟩⟩ (by simp [awaySystems]) cornerAlgs.1 cornerAlgs.2 (Cube.SOLVED : Cube5)
    C08_solved_valid.2.2.2.1 ?_ c, by decide +kernel⟩
  decide +kernel

end Barbarosa
