import Verif.Props.Common
import Verif.Props.Invariants

/-!
# C121: no alg changes exactly one piece of any kind, on any cube

Wings and centers are permuted, and a permutation does not move exactly one thing. A corner or an edge that is changed alone would stay in its
place and be turned there, which the invariants of the 3x3 exclude.
-/

namespace Barbarosa

open PieceSet

/-- where the only changed piece would be: it stays in its place -/
theorem only_changed_stays {P : Type} {n : Nat} [DecidableEq P] [PieceSetDescriptor P n] [LawfulDescriptor P n]
    {s t : PieceSet P n} (hs : s.validate = none) (ht : t.validate = none) {i : Fin n} (h : ∀ j, j ≠ i → s j = t j) :
    Piece.position (t i) = Piece.position (s i) := by
  have hb := ((validate_eq_none s).1 hs).bijective
  have hb' := ((validate_eq_none t).1 ht).bijective
  obtain ⟨j, hj⟩ := hb.2 (Piece.position (t i))
  have hj : Piece.position (s j) = Piece.position (t i) := hj
  by_cases e : j = i
  · rw [← hj, e]
  · rw [h j e] at hj
    exact absurd (hb'.1 hj) e

/-- exactly one difference: the index, and that the others are equal -/
theorem differing_one {P : Type} {n : Nat} [DecidableEq P] {s t : PieceSet P n} (h : 1 = differing s t) :
    ∃ i, s i ≠ t i ∧ ∀ j, j ≠ i → s j = t j := by
  obtain ⟨i, hi⟩ := Finset.card_eq_one.1 h.symm
  have mem : ∀ j, s j ≠ t j ↔ j = i := fun j => by
    rw [← Finset.mem_singleton, ← hi]
    simp
  exact ⟨i, (mem i).2 rfl, fun j hj => by
    by_contra hn
    exact hj ((mem j).1 hn)⟩

/-- pieces that cannot be turned in their places -/
theorem place_ne_one {P : Type} {n : Nat} [DecidableEq P] [PieceSetDescriptor P n] [LawfulDescriptor P n]
    (pi : Function.Injective (Piece.position : P → Piece.Position P)) {s t : PieceSet P n} (hs : s.validate = none) (ht : t.validate = none) :
    1 ≠ differing s t := fun h => by
  obtain ⟨i, h1, h2⟩ := differing_one h
  exact h1 (pi (only_changed_stays hs ht h2).symm)

/-- if the sum of something that shows how a piece is turned is the same -/
theorem sum_ne_one {P : Type} {n : Nat} [DecidableEq P] [PieceSetDescriptor P n] [LawfulDescriptor P n] {A : Type} [AddCommGroup A] (g : P → A)
    (hg : ∀ x y : P, Piece.position x = Piece.position y → g x = g y → x = y) {s t : PieceSet P n} (hs : s.validate = none)
    (ht : t.validate = none) (e : ∑ i, g (s i) = ∑ i, g (t i)) : 1 ≠ differing s t := fun h => by
  obtain ⟨i, h1, h2⟩ := differing_one h
  refine h1 (hg _ _ (only_changed_stays hs ht h2).symm ?_)
  rw [← Finset.add_sum_erase _ _ (Finset.mem_univ i), ← Finset.add_sum_erase Finset.univ (fun j => g (t j)) (Finset.mem_univ i),
    Finset.sum_congr rfl fun j hj => by rw [h2 j (Finset.ne_of_mem_erase hj)]] at e
  exact add_right_cancel e

theorem corner_ne_one (a : List AxisMove) {s : PieceSet Corner 8} (hs : s.validate = none) : 1 ≠ differing s (fun i => movedAlg (s i) a) := by
  have blind : Blind fun x : Corner => movedAlg x a := by
    induction a with
    | nil => exact blind_id
    | cons m l ih => exact (corner_blind m).comp ih
  have hv : Cube3.SOLVED.corners.Valid := ((valid_iff _).1 C08_solved_valid.2.1).2
  rw [differing_blind corner_inPlace blind hs ((validate_eq_none _).2 hv)]
  have e : (fun i => movedAlg (Cube3.SOLVED.corners i) a) = (movedAlg Cube3.SOLVED a).corners := funext fun i => (cube3_corners_alg _ _ i).symm
  rw [e]
  refine sum_ne_one cornerTrit (by decide +kernel) ((validate_eq_none _).2 hv) ((validate_eq_none _).2 ((valid_iff _).1 (C08_cubes.2.1 _ a C08_solved_valid.2.1)).2) ?_
  rw [(twists_iff _).1 lawful_solved.twists, (twists_iff _).1 (lawful_alg _ lawful_solved a).twists]

theorem edge_ne_one (a : List AxisMove) {s : PieceSet Edge 12} (hs : s.validate = none) : 1 ≠ differing s (fun i => movedAlg (s i) a) := by
  have blind : Blind fun x : Edge => movedAlg x a := by
    induction a with
    | nil => exact blind_id
    | cons m l ih => exact (edge_blind m).comp ih
  have hv : Cube3.SOLVED.edges.Valid := ((valid_iff _).1 C08_solved_valid.2.1).1
  rw [differing_blind edge_inPlace blind hs ((validate_eq_none _).2 hv)]
  have e : (fun i => movedAlg (Cube3.SOLVED.edges i) a) = (movedAlg Cube3.SOLVED a).edges := funext fun i => (cube3_edges_alg _ _ i).symm
  rw [e]
  refine sum_ne_one edgeBit (by decide +kernel) ((validate_eq_none _).2 hv) ((validate_eq_none _).2 ((valid_iff _).1 (C08_cubes.2.1 _ a C08_solved_valid.2.1)).1) ?_
  rw [(even_flips_iff _).1 lawful_solved.flips, (even_flips_iff _).1 (lawful_alg _ lawful_solved a).flips]

/-- the map moves the corners, and the edges if there are any, like an alg of the 3x3 -/
class LikeSmall (C : Type) where
  like : (C → C) → List AxisMove → Prop
  none : like id []
  comp : ∀ {F G : C → C} {a b : List AxisMove}, like F a → like G b → like (G ∘ F) (a ++ b)

theorem piece_alg_append {P : Type} [Movable P AxisMove] (x : P) (a b : List AxisMove) : movedAlg x (a ++ b) = movedAlg (movedAlg x a) b := List.foldl_append

instance : LikeSmall Cube2 where
  like F a := ∀ c i, (F c).corners i = movedAlg (c.corners i) a
  none _ _ := rfl
  comp h h' c i := by rw [piece_alg_append, ← h c, ← h' _]; rfl

instance : LikeSmall Cube3 where
  like F a := ∀ c, (∀ i, (F c).corners i = movedAlg (c.corners i) a) ∧ ∀ i, (F c).edges i = movedAlg (c.edges i) a
  none _ := ⟨fun _ => rfl, fun _ => rfl⟩
  comp h h' c := ⟨fun i => by rw [piece_alg_append, ← (h c).1, ← (h' _).1]; rfl, fun i => by rw [piece_alg_append, ← (h c).2, ← (h' _).2]; rfl⟩

instance : LikeSmall Cube4 where
  like F a := ∀ c i, (F c).corners i = movedAlg (c.corners i) a
  none _ _ := rfl
  comp h h' c i := by rw [piece_alg_append, ← h c, ← h' _]; rfl

instance : LikeSmall Cube5 where
  like F a := ∀ c, (∀ i, (F c).corners i = movedAlg (c.corners i) a) ∧ ∀ i, (F c).edges i = movedAlg (c.edges i) a
  none _ := ⟨fun _ => rfl, fun _ => rfl⟩
  comp h h' c := ⟨fun i => by rw [piece_alg_append, ← (h c).1, ← (h' _).1]; rfl, fun i => by rw [piece_alg_append, ← (h c).2, ← (h' _).2]; rfl⟩

instance : LikeSmall Cube6 where
  like F a := ∀ c i, (F c).corners i = movedAlg (c.corners i) a
  none _ _ := rfl
  comp h h' c i := by rw [piece_alg_append, ← h c, ← h' _]; rfl

instance : LikeSmall Cube7 where
  like F a := ∀ c, (∀ i, (F c).corners i = movedAlg (c.corners i) a) ∧ ∀ i, (F c).edges i = movedAlg (c.edges i) a
  none _ := ⟨fun _ => rfl, fun _ => rfl⟩
  comp h h' c := ⟨fun i => by rw [piece_alg_append, ← (h c).1, ← (h' _).1]; rfl, fun i => by rw [piece_alg_append, ← (h c).2, ← (h' _).2]; rfl⟩

/-- such maps do not change exactly one piece of any kind -/
class NeverOne (C : Type) [HasValid C] [Differences C] [LikeSmall C] : Prop where
  never : ∀ {F : C → C} {a : List AxisMove} {c : C}, LikeSmall.like F a → HasValid.valid c → HasValid.valid (F c) → 1 ∉ differences c (F c)

instance : NeverOne Cube2 where
  never := by
    intro F a c h hc hF
    have v_corners : c.corners.validate = none := hc
    have e1 : (F c).corners = fun i => movedAlg (c.corners i) a := funext (h c)
    simp only [differences, List.mem_cons, List.not_mem_nil, or_false, e1]
    exact corner_ne_one a v_corners

instance : NeverOne Cube3 where
  never := by
    intro F a c h hc hF
    obtain ⟨v_edges, v_corners⟩ := hc
    obtain ⟨-, -⟩ := hF
    have e1 : (F c).corners = fun i => movedAlg (c.corners i) a := funext (h c).1
    have e2 : (F c).edges = fun i => movedAlg (c.edges i) a := funext (h c).2
    simp only [differences, List.mem_cons, List.not_mem_nil, or_false, not_or, e1, e2]
    exact ⟨edge_ne_one a v_edges, corner_ne_one a v_corners⟩

instance : NeverOne Cube4 where
  never := by
    intro F a c h hc hF
    obtain ⟨v_corners, v_wings, v_centers⟩ := hc
    obtain ⟨-, w_wings, w_centers⟩ := hF
    have e1 : (F c).corners = fun i => movedAlg (c.corners i) a := funext (h c)
    simp only [differences, List.mem_cons, List.not_mem_nil, or_false, not_or, e1]
    exact ⟨corner_ne_one a v_corners, place_ne_one wing_place v_wings w_wings, place_ne_one centerCorner_place v_centers w_centers⟩

instance : NeverOne Cube5 where
  never := by
    intro F a c h hc hF
    obtain ⟨v_corners, v_edges, v_cornerCenters, v_cornerEdges⟩ := hc
    obtain ⟨-, -, w_cornerCenters, w_cornerEdges⟩ := hF
    have e1 : (F c).corners = fun i => movedAlg (c.corners i) a := funext (h c).1
    have e2 : (F c).edges = fun i => movedAlg (c.edges i) a := funext (h c).2
    simp only [differences, List.mem_cons, List.not_mem_nil, or_false, not_or, e1, e2]
    exact ⟨corner_ne_one a v_corners, edge_ne_one a v_edges, place_ne_one centerCorner_place v_cornerCenters w_cornerCenters, place_ne_one centerEdge_place v_cornerEdges w_cornerEdges⟩

instance : NeverOne Cube6 where
  never := by
    intro F a c h hc hF
    obtain ⟨v_corners, v_wings1, v_wings2, v_centerCorners1, v_centerCorners2, v_centerWings⟩ := hc
    obtain ⟨-, w_wings1, w_wings2, w_centerCorners1, w_centerCorners2, w_centerWings⟩ := hF
    have e1 : (F c).corners = fun i => movedAlg (c.corners i) a := funext (h c)
    simp only [differences, List.mem_cons, List.not_mem_nil, or_false, not_or, e1]
    exact ⟨corner_ne_one a v_corners, place_ne_one wing_place v_wings1 w_wings1, place_ne_one wing_place v_wings2 w_wings2, place_ne_one centerCorner_place v_centerCorners1 w_centerCorners1, place_ne_one centerCorner_place v_centerCorners2 w_centerCorners2, place_ne_one centerWing_place v_centerWings w_centerWings⟩

instance : NeverOne Cube7 where
  never := by
    intro F a c h hc hF
    obtain ⟨v_corners, v_edges, v_wings1, v_wings2, v_centerCorners1, v_centerCorners2, v_centerWings, v_centerEdges1, v_centerEdges2⟩ := hc
    obtain ⟨-, -, w_wings1, w_wings2, w_centerCorners1, w_centerCorners2, w_centerWings, w_centerEdges1, w_centerEdges2⟩ := hF
    have e1 : (F c).corners = fun i => movedAlg (c.corners i) a := funext (h c).1
    have e2 : (F c).edges = fun i => movedAlg (c.edges i) a := funext (h c).2
    simp only [differences, List.mem_cons, List.not_mem_nil, or_false, not_or, e1, e2]
    exact ⟨corner_ne_one a v_corners, edge_ne_one a v_edges, place_ne_one wing_place v_wings1 w_wings1, place_ne_one wing_place v_wings2 w_wings2, place_ne_one centerCorner_place v_centerCorners1 w_centerCorners1, place_ne_one centerCorner_place v_centerCorners2 w_centerCorners2, place_ne_one centerWing_place v_centerWings w_centerWings, place_ne_one centerEdge_place v_centerEdges1 w_centerEdges1, place_ne_one centerEdge_place v_centerEdges2 w_centerEdges2⟩

/-- the moves of a cube move corners and edges like algs of the 3x3 -/
def MovesSmall (C M : Type) [LikeSmall C] [Movable C M] : Prop := ∀ m : M, ∃ a, LikeSmall.like (fun c : C => moved c m) a

section
variable {C : Type} [LikeSmall C]

theorem MovesSmall.alg {M : Type} [Movable C M] (h : MovesSmall C M) (a : List M) : ∃ b, LikeSmall.like (fun c : C => movedAlg c a) b := by
  induction a with
  | nil => exact ⟨_, LikeSmall.none⟩
  | cons m l ih =>
    obtain ⟨b, hb⟩ := h m
    obtain ⟨b', hb'⟩ := ih
    exact ⟨_, LikeSmall.comp hb hb'⟩

theorem MovesSmall.wide0 [Cube C] [Movable C AxisMove] (h : MovesSmall C AxisMove) : MovesSmall C (WideAxisMove 0) := fun m => h m.axisMove
theorem MovesSmall.quarter [Cube C] [Movable C AxisMove] (h : MovesSmall C AxisMove) : MovesSmall C QuarterAxisMove := fun m => h m.toAxisMove
theorem MovesSmall.nonRedundant [Cube C] [Movable C AxisMove] (h : MovesSmall C AxisMove) : MovesSmall C NonRedundantAxisMove :=
  fun m => h.alg m.moves

theorem small_widened {W : Nat} [Movable C (WideAxisMove W)] (h : MovesSmall C (WideAxisMove W)) (m : AxisMove) :
    ∃ a, LikeSmall.like (fun c : C => movedWidened W c m) a := by
  unfold movedWidened
  cases m.widen W W with
  | none => exact ⟨_, LikeSmall.none⟩
  | some w => exact h w

end

theorem cube2_small : MovesSmall Cube2 AxisMove := fun m => ⟨[m], fun _ _ => rfl⟩
theorem cube3_small : MovesSmall Cube3 AxisMove := fun m => ⟨[m], fun _ => ⟨fun _ => rfl, fun _ => rfl⟩⟩
theorem cube4_small : MovesSmall Cube4 (WideAxisMove 1) := fun m => ⟨[m.axisMove], fun _ _ => rfl⟩
theorem cube5_small : MovesSmall Cube5 (WideAxisMove 1) := fun m => ⟨[m.axisMove], fun _ => ⟨fun _ => rfl, fun _ => rfl⟩⟩
theorem cube6_small : MovesSmall Cube6 (WideAxisMove 2) := fun m => ⟨[m.axisMove], fun _ _ => rfl⟩
theorem cube7_small : MovesSmall Cube7 (WideAxisMove 2) := fun m => ⟨[m.axisMove], fun _ => ⟨fun _ => rfl, fun _ => rfl⟩⟩
theorem cube4_axis_small : MovesSmall Cube4 AxisMove := small_widened cube4_small
theorem cube5_axis_small : MovesSmall Cube5 AxisMove := small_widened cube5_small
theorem cube6_axis_small : MovesSmall Cube6 AxisMove := small_widened cube6_small
theorem cube7_axis_small : MovesSmall Cube7 AxisMove := small_widened cube7_small
theorem cube6_wide1_small : MovesSmall Cube6 (WideAxisMove 1) := fun m => cube6_small ⟨m.depth, m.axisMove⟩
theorem cube7_wide1_small : MovesSmall Cube7 (WideAxisMove 1) := fun m => cube7_small ⟨m.depth, m.axisMove⟩

theorem MovesSmall.never {C M : Type} [HasValid C] [Differences C] [LikeSmall C] [NeverOne C] [Movable C M] (h : MovesSmall C M) (a : List M) (c : C)
    (hc : HasValid.valid c) (hF : HasValid.valid (movedAlg c a)) : 1 ∉ differences c (movedAlg c a) := by
  obtain ⟨b, hb⟩ := h.alg a
  exact NeverOne.never (F := fun c => movedAlg c a) hb hc hF

theorem never_alg : ∀ s ∈ countSystems, ∀ (a : List s.sys.M) (c : s.sys.C), HasValid.valid c → HasValid.valid (movedAlg c a) →
    1 ∉ differences c (movedAlg c a) := by
  simp only [countSystems, List.forall_mem_cons, List.not_mem_nil, false_imp_iff, implies_true, and_true]
  exact ⟨cube2_small.never, cube3_small.never, cube4_axis_small.never, cube5_axis_small.never,
    cube6_axis_small.never, cube7_axis_small.never,
    cube2_small.wide0.never, cube3_small.wide0.never, cube4_axis_small.wide0.never, cube5_axis_small.wide0.never,
    cube6_axis_small.wide0.never, cube7_axis_small.wide0.never,
    cube2_small.quarter.never, cube3_small.quarter.never, cube4_axis_small.quarter.never,
    cube5_axis_small.quarter.never, cube6_axis_small.quarter.never, cube7_axis_small.quarter.never,
    cube2_small.nonRedundant.never, cube3_small.nonRedundant.never, cube4_axis_small.nonRedundant.never,
    cube5_axis_small.nonRedundant.never, cube6_axis_small.nonRedundant.never, cube7_axis_small.nonRedundant.never,
    cube4_small.never, cube5_small.never, cube6_wide1_small.never, cube7_wide1_small.never,
    cube6_small.never, cube7_small.never⟩

/-- **C121** On every size and for every kind of moves: no alg changes exactly one piece of any kind, on any valid cube, solvable or not. -/
theorem C121_never_one (s : CountSys) (hs : s ∈ countSystems) (a : List s.sys.M) (c : s.sys.C) (hc : HasValid.valid c) :
    1 ∉ differences c (movedAlg c a) :=
  never_alg s hs a c hc ((C08_every_size s hs a c).2 hc)

/-- on a 7x7 that is solved but for one turned corner no alg solves it; two pieces can be changed, as the T perm shows -/
example (a : List (WideAxisMove 2)) :
    movedAlg { (Cube.SOLVED : Cube7) with corners := Function.update (Cube.SOLVED : Cube7).corners 3 ((Cube.SOLVED : Cube7).corners 3).twist } a ≠ Cube.SOLVED ∧
    differences Cube3.SOLVED (movedAlg Cube3.SOLVED Perms.T) = [2, 2] := by
  refine ⟨fun h => ?_, by decide +kernel⟩
  have hv := (C08_every_size ⟨⟨Cube7, WideAxisMove 2⟩⟩ (by simp [countSystems]) a
    { (Cube.SOLVED : Cube7) with corners := Function.update (Cube.SOLVED : Cube7).corners 3 ((Cube.SOLVED : Cube7).corners 3).twist }).1
    (by rw [h]; exact C08_solved_valid.2.2.2.2.2)
  have := C121_never_one ⟨⟨Cube7, WideAxisMove 2⟩⟩ (by simp [countSystems]) a _ hv
  rw [h] at this
  exact this (by decide +kernel)

/-- the cube has to be valid: with seven corners in one place a turn can change the eighth only -/
example : let c : Cube2 := { corners := Function.update (fun _ => (Cube.SOLVED : Cube2).corners 0) 5 ((Cube.SOLVED : Cube2).corners 7) }
    differences c (movedAlg c [(⟨Face.D, .single⟩ : AxisMove)]) = [1] := by
  decide +kernel

end Barbarosa
