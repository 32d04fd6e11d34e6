import Verif.Spec.Centre
import Verif.Props.Effects
import Verif.Props.Reach

/-!
# C115: which algs may be done before or after any other
-/

namespace Barbarosa

/-! ## Pieces -/

section
variable {P M : Type}

/-- what can be reached in `n` steps -/
def orbitList [DecidableEq P] (step : P → M → P) (ms : List M) : Nat → List P → List P
  | 0, l => l
  | n + 1, l => orbitList step ms n (l ++ l.flatMap fun x => ms.map (step x)).dedup

/-- two maps that commute with all steps and agree on one piece agree on all that can be reached from it -/
theorem same_on_orbit [DecidableEq P] {step : P → M → P} {ms : List M} {f g : P → P}
    (hf : ∀ x, ∀ m ∈ ms, f (step x m) = step (f x) m) (hg : ∀ x, ∀ m ∈ ms, g (step x m) = step (g x) m) (n : Nat) :
    ∀ l : List P, (∀ x ∈ l, f x = g x) → ∀ x ∈ orbitList step ms n l, f x = g x := by
  induction n with
  | zero => exact fun l h => h
  | succ n ih =>
    intro l h
    refine ih _ fun x hx => ?_
    rcases List.mem_append.1 (List.mem_dedup.1 hx) with hx | hx
    · exact h x hx
    · obtain ⟨y, hy, hx⟩ := List.mem_flatMap.1 hx
      obtain ⟨m, hm, rfl⟩ := List.mem_map.1 hx
      rw [hf y m hm, hg y m hm, h y hy]

end

/-- the six clockwise quarter turns -/
def sixTurns : List AxisMove := Face.all.map fun f => ⟨f, .single⟩

/-- the clockwise quarter turns of one to `N + 1` layers -/
def layerTurns (N : Nat) : List (WideAxisMove N) :=
  (List.range (N + 1)).flatMap fun d => Face.all.map fun f => ⟨d, ⟨f, .single⟩⟩

/-- a map of corners that commutes with the turns twists all corners alike -/
theorem corner_central {f : Corner → Corner} (hf : ∀ x, ∀ m ∈ sixTurns, f (x.moved m) = (f x).moved m) :
    ∃ k : Fin 3, f = Corner.twist^[k] := by
  have h0 : ∀ y : Corner, (∀ m ∈ sixTurns, (Corner.oriented ⟨.pos, .pos, .pos⟩).moved m = Corner.oriented ⟨.pos, .pos, .pos⟩ →
      y.moved m = y) → ∃ k : Fin 3, y = Corner.twist^[k] (Corner.oriented ⟨.pos, .pos, .pos⟩) := by decide +kernel
  obtain ⟨k, hk⟩ := h0 (f (Corner.oriented ⟨.pos, .pos, .pos⟩)) fun m hm e => by rw [← hf _ m hm, e]
  refine ⟨k, funext fun x => same_on_orbit (step := Corner.moved) (ms := sixTurns) hf ?_ 5 [Corner.oriented ⟨.pos, .pos, .pos⟩] ?_ x ?_⟩
  · have : ∀ (k : Fin 3) (x : Corner), ∀ m ∈ sixTurns, Corner.twist^[k] (x.moved m) = (Corner.twist^[k] x).moved m := by decide +kernel
    exact this k
  · intro x hx
    rw [List.mem_singleton.1 hx, hk]
  · revert x
    decide +kernel

/-- a map of edges that commutes with the turns leaves all edges or flips them all -/
theorem edge_central {f : Edge → Edge} (hf : ∀ x, ∀ m ∈ sixTurns, f (x.moved m) = (f x).moved m) : f = id ∨ f = Edge.flip := by
  have h0 : ∀ y : Edge, (∀ m ∈ sixTurns, (Edge.mk .X ⟨.pos, .pos⟩ true).moved m = Edge.mk .X ⟨.pos, .pos⟩ true → y.moved m = y) →
      y = Edge.mk .X ⟨.pos, .pos⟩ true ∨ y = (Edge.mk .X ⟨.pos, .pos⟩ true).flip := by decide +kernel
  have cover : ∀ x : Edge, x ∈ orbitList Edge.moved sixTurns 6 [Edge.mk .X ⟨.pos, .pos⟩ true] := by decide +kernel
  rcases h0 (f (Edge.mk .X ⟨.pos, .pos⟩ true)) (fun m hm e => by rw [← hf _ m hm, e]) with h | h
  · exact .inl (funext fun x => same_on_orbit hf (g := id) (fun _ _ _ => rfl) 6 [Edge.mk .X ⟨.pos, .pos⟩ true]
      (fun x hx => by rw [List.mem_singleton.1 hx]; exact h) x (cover x))
  · exact .inr (funext fun x => same_on_orbit hf (g := Edge.flip) (by decide +kernel) 6 [Edge.mk .X ⟨.pos, .pos⟩ true]
      (fun x hx => by rw [List.mem_singleton.1 hx]; exact h) x (cover x))

/-- a map of pieces that commutes with the turns leaves those pieces that are told apart by the turns that leave them -/
theorem piece_central {P M : Type} {step : P → M → P} {ms : List M}
    (table : ∀ x y : P, (∀ m ∈ ms, step x m = x → step y m = y) → y = x) {f : P → P}
    (hf : ∀ x, ∀ m ∈ ms, f (step x m) = step (f x) m) : f = id :=
  funext fun x => table x (f x) fun m hm e => by rw [← hf x m hm, e]

theorem wing_table_1 : ∀ x y : Wing, (∀ m ∈ layerTurns 1, DepthPiece.moved 1 0 x m = x → DepthPiece.moved 1 0 y m = y) → y = x := by
  decide +kernel

theorem centerCorner_table_1 : ∀ x y : CenterCorner,
    (∀ m ∈ layerTurns 1, DepthPiece.moved 1 0 x m = x → DepthPiece.moved 1 0 y m = y) → y = x := by
  decide +kernel

theorem centerEdge_table_1 : ∀ x y : CenterEdge,
    (∀ m ∈ layerTurns 1, DepthPiece.moved 1 0 x m = x → DepthPiece.moved 1 0 y m = y) → y = x ∨ y = x.across := by
  decide +kernel

theorem wing_table_2 : ∀ x y : Wing, ((∀ m ∈ layerTurns 2, DepthPiece.moved 1 0 x m = x → DepthPiece.moved 1 0 y m = y) → y = x) ∧
    ((∀ m ∈ layerTurns 2, DepthPiece.moved 2 0 x m = x → DepthPiece.moved 2 0 y m = y) → y = x) := by
  decide +kernel

theorem centerCorner_table_2 : ∀ x y : CenterCorner,
    ((∀ m ∈ layerTurns 2, DepthPiece.moved 1 0 x m = x → DepthPiece.moved 1 0 y m = y) → y = x) ∧
    ((∀ m ∈ layerTurns 2, DepthPiece.moved 2 0 x m = x → DepthPiece.moved 2 0 y m = y) → y = x) := by
  decide +kernel

theorem centerWing_table_2 : ∀ x y : CenterWing,
    (∀ m ∈ layerTurns 2, DepthPiece.moved 1 2 x m = x → DepthPiece.moved 1 2 y m = y) → y = x := by
  decide +kernel

theorem centerEdge_table_2 : ∀ x y : CenterEdge,
    ((∀ m ∈ layerTurns 2, DepthPiece.moved 1 0 x m = x → DepthPiece.moved 1 0 y m = y) → y = x ∨ y = x.across) ∧
    ((∀ m ∈ layerTurns 2, DepthPiece.moved 2 0 x m = x → DepthPiece.moved 2 0 y m = y) → y = x ∨ y = x.across) := by
  decide +kernel

theorem sum_twist : ∀ k : Fin 3, 3 ∣ ∑ i, (Corner.twist^[k] (PieceSet.SOLVED Corner i)).orientationIndex → k = 0 := by
  decide +kernel

/-- the twists of a lawful cube add up to a multiple of three: so a map that twists all corners alike leaves them -/
theorem corner_central_id {f : Corner → Corner} (hf : ∀ x, ∀ m ∈ sixTurns, f (x.moved m) = (f x).moved m)
    (ht : 3 ∣ ∑ i, (f (PieceSet.SOLVED Corner i)).orientationIndex) : f = id := by
  obtain ⟨k, rfl⟩ := corner_central hf
  rw [sum_twist k ht]
  rfl

/-! ## Cubes -/

/-- an alg that may be done before or after the alg of one move, on one state and so on all -/
theorem commutes_of_solved {C M : Type} [HasValid C] [PieceByPiece C] [Movable C M] (hu : MovesUniform C M) {c₀ : C}
    (h₀ : HasValid.valid c₀) {a : List M} {m : M} (h : movedAlg c₀ (a ++ [m]) = movedAlg c₀ ([m] ++ a)) (c : C) :
    moved (movedAlg c a) m = movedAlg (moved c m) a := by
  have := hu.same c₀ h₀ _ _ h c
  unfold movedAlg at this ⊢
  rwa [List.foldl_append, List.foldl_append] at this

/-- conversely -/
theorem commutes_all {C M : Type} [Movable C M] {F : C → C} (hF : ∀ c (m : M), F (moved c m) = moved (F c) m) {a : List M}
    (ha : ∀ c, movedAlg c a = F c) (b : List M) (c : C) : movedAlg c (a ++ b) = movedAlg c (b ++ a) := by
  have key : ∀ (b : List M) c, F (movedAlg c b) = movedAlg (F c) b := by
    intro b
    induction b with
    | nil => exact fun _ => rfl
    | cons m l ih => exact fun c => (ih (moved c m)).trans (by rw [hF]; rfl)
  have e : ∀ x y : List M, movedAlg c (x ++ y) = movedAlg (movedAlg c x) y := fun x y => by unfold movedAlg; rw [List.foldl_append]
  rw [e, e, ha, ha, key]

/-- **C115** On the 2x2 an alg may be done before or after every other alg only if it does nothing. -/
theorem C115_cube2 (a : List AxisMove) :
    (∀ b : List AxisMove, movedAlg (Cube.SOLVED : Cube2) (a ++ b) = movedAlg (Cube.SOLVED : Cube2) (b ++ a)) ↔
      ∀ c : Cube2, movedAlg c a = c := by
  refine ⟨fun h => ?_, fun h b => commutes_all (F := id) (fun _ _ => rfl) h b _⟩
  obtain ⟨f, hf, e⟩ := cube2_uniform.alg a
  have h1 : ∀ x m, f (Corner.moved x m) = (f x).moved m := fun x m => by
    have := commutes_of_solved cube2_uniform C08_solved_valid.1 (h [m]) ⟨fun _ => x⟩
    rw [show movedAlg _ a = _ from e _, show movedAlg _ a = _ from e _] at this
    exact (congrFun (congrArg Cube2.corners this) 0).symm
  have ht := ((C17_reachable_iff _).1.1 ⟨a, rfl⟩).twists
  rw [show movedAlg _ a = _ from e _] at ht
  rw [corner_central_id (fun x m _ => h1 x m) ht] at e
  exact e

/-- so the sexy move, which does something, does not commute with every alg -/
example : ∃ b : List AxisMove, movedAlg (Cube.SOLVED : Cube2) (Perms.SEXY_MOVE ++ b) ≠ movedAlg (Cube.SOLVED : Cube2) (b ++ Perms.SEXY_MOVE) := by
  by_contra hc
  have := (C115_cube2 Perms.SEXY_MOVE).1 (fun b => by_contra fun h => hc ⟨b, h⟩) Cube.SOLVED
  revert this
  decide +kernel

theorem flip_moved : ∀ (x : Edge) (m : AxisMove), (x.moved m).flip = x.flip.moved m := by decide +kernel

theorem allFlipped_moved (c : Cube3) (m : AxisMove) : (moved c m).allFlipped = moved c.allFlipped m :=
  Cube3.ext (funext fun i => flip_moved (c.edges i) m) rfl

/-- **C115** On the 3x3 an alg may be done before or after every other alg exactly if it does nothing, or nothing but flip all
twelve edges in their places. -/
theorem C115_cube3 (a : List AxisMove) :
    (∀ b : List AxisMove, movedAlg Cube3.SOLVED (a ++ b) = movedAlg Cube3.SOLVED (b ++ a)) ↔
      (∀ c : Cube3, movedAlg c a = c) ∨ ∀ c : Cube3, movedAlg c a = c.allFlipped := by
  constructor
  · intro h
    obtain ⟨f, g, hf, hg, e⟩ := cube3_uniform.alg a
    have h1 : ∀ (x : Corner) (y : Edge) m, f (x.moved m) = (f x).moved m ∧ g (y.moved m) = (g y).moved m := fun x y m => by
      have := commutes_of_solved cube3_uniform C08_solved_valid.2.1 (h [m]) ⟨fun _ => y, fun _ => x⟩
      rw [show movedAlg _ a = _ from e _, show movedAlg _ a = _ from e _] at this
      exact ⟨(congrFun (congrArg Cube3.corners this) 0).symm, (congrFun (congrArg Cube3.edges this) 0).symm⟩
    have ht := ((C15_reachable_iff _).1.1 ⟨a, rfl⟩).twists
    rw [show movedAlg _ a = _ from e _] at ht
    rw [corner_central_id (fun x m _ => (h1 x ⟨.X, ⟨.pos, .pos⟩, true⟩ m).1) ht] at e
    rcases edge_central (fun y m _ => (h1 (Corner.oriented ⟨.pos, .pos, .pos⟩) y m).2) with rfl | rfl
    · exact .inl e
    · exact .inr e
  · rintro (h | h) b
    · exact commutes_all (F := id) (fun _ _ => rfl) h b _
    · exact commutes_all allFlipped_moved h b _

/-- `U R2 F B R B2 R U2 L B2 R U' D' R2 F R' L B2 U2 F2` -/
def superflip : List AxisMove :=
  [⟨.U, .single⟩, ⟨.R, .double⟩, ⟨.F, .single⟩, ⟨.B, .single⟩, ⟨.R, .single⟩, ⟨.B, .double⟩, ⟨.R, .single⟩, ⟨.U, .double⟩,
   ⟨.L, .single⟩, ⟨.B, .double⟩, ⟨.R, .single⟩, ⟨.U, .inverse⟩, ⟨.D, .inverse⟩, ⟨.R, .double⟩, ⟨.F, .single⟩, ⟨.R, .inverse⟩,
   ⟨.L, .single⟩, ⟨.B, .double⟩, ⟨.U, .double⟩, ⟨.F, .double⟩]

theorem pieces_alg (a : List AxisMove) : ∀ (c : Cube3) (i j), (movedAlg c a).edges i = a.foldl Edge.moved (c.edges i) ∧
    (movedAlg c a).corners j = a.foldl Corner.moved (c.corners j) := by
  induction a with
  | nil => exact fun _ _ _ => ⟨rfl, rfl⟩
  | cons m l ih => exact fun c i j => ih (moved c m) i j

/-- **C115** There is an alg of the second kind: twenty moves that flip all twelve edges of every 3x3. It commutes with all algs
and undoes itself, although it is none of the algs that do nothing. -/
theorem C115_superflip : superflip.length = 20 ∧ (∀ c : Cube3, movedAlg c superflip = c.allFlipped) ∧
    (∀ (b : List AxisMove) (c : Cube3), movedAlg c (superflip ++ b) = movedAlg c (b ++ superflip)) ∧
    (∀ c : Cube3, movedAlg c (superflip ++ superflip) = c) ∧ movedAlg Cube3.SOLVED superflip ≠ Cube3.SOLVED := by
  have h : ∀ c : Cube3, movedAlg c superflip = c.allFlipped := by
    have he : ∀ x : Edge, superflip.foldl Edge.moved x = x.flip := by decide +kernel
    have hc : ∀ x : Corner, superflip.foldl Corner.moved x = x := by decide +kernel
    exact fun c => Cube3.ext (funext fun i => ((pieces_alg superflip c i 0).1.trans (he _)))
      (funext fun i => ((pieces_alg superflip c 0 i).2.trans (hc _)))
  refine ⟨rfl, h, fun b c => commutes_all allFlipped_moved h b c, fun c => ?_, ?_⟩
  · have e : movedAlg c (superflip ++ superflip) = movedAlg (movedAlg c superflip) superflip := by
      unfold movedAlg; rw [List.foldl_append]
    rw [e, h, h]
    exact Cube3.ext (funext fun i => by simp [Cube3.allFlipped, Edge.flip]) rfl
  · rw [h]
    decide +kernel

/-- so it may be done before or after the T permutation -/
example : movedAlg Cube3.SOLVED (superflip ++ Perms.T) = movedAlg Cube3.SOLVED (Perms.T ++ superflip) :=
  (C115_cube3 superflip).2 (.inr C115_superflip.2.1) Perms.T

/-! ## Big cubes -/

theorem mem_layerTurns {N : Nat} {m : WideAxisMove N} (h : m ∈ layerTurns N) : m.WF := by
  obtain ⟨d, hd, h⟩ := List.mem_flatMap.1 h
  obtain ⟨f, -, rfl⟩ := List.mem_map.1 h
  exact Nat.lt_succ_iff.1 (List.mem_range.1 hd)

theorem single_wf {N : Nat} {m : WideAxisMove N} (h : m.WF) : ∀ x ∈ [m], x.WF := fun x hx => by rwa [List.mem_singleton.1 hx]

/-- **C115** On the 4x4 an alg may be done before or after every other alg only if it does nothing. -/
theorem C115_cube4 (a : List (WideAxisMove 1)) (ha : ∀ m ∈ a, m.WF) :
    (∀ b : List (WideAxisMove 1), (∀ m ∈ b, m.WF) → movedAlg (Cube.SOLVED : Cube4) (a ++ b) = movedAlg (Cube.SOLVED : Cube4) (b ++ a)) ↔
      ∀ c : Cube4, movedAlg c a = c := by
  refine ⟨fun h => ?_, fun h b _ => commutes_all (F := id) (fun _ _ => rfl) h b _⟩
  obtain ⟨f, w, t, hf, e⟩ := cube4_uniform.alg a
  have h1 : ∀ (x : Corner) (y : Wing) (z : CenterCorner) (m : WideAxisMove 1), m.WF → f (x.moved m.axisMove) = (f x).moved m.axisMove ∧
      w (DepthPiece.moved 1 0 y m) = DepthPiece.moved 1 0 (w y) m ∧ t (DepthPiece.moved 1 0 z m) = DepthPiece.moved 1 0 (t z) m := by
    intro x y z m hm
    have := commutes_of_solved cube4_uniform C08_solved_valid.2.2.1 (h [m] (single_wf hm)) ⟨fun _ => x, fun _ => y, fun _ => z⟩
    rw [show movedAlg _ a = _ from e _, show movedAlg _ a = _ from e _] at this
    exact ⟨(congrFun (congrArg Cube4.corners this) 0).symm, (congrFun (congrArg Cube4.wings this) 0).symm,
      (congrFun (congrArg Cube4.centers this) 0).symm⟩
  have ht := ((C71_cube4 _).1.1 ⟨a, ha, rfl⟩).twists
  rw [show movedAlg _ a = _ from e _] at ht
  have x₀ := Corner.oriented ⟨.pos, .pos, .pos⟩
  have y₀ := Wing.SOLVED 0
  have z₀ := CenterCorner.SOLVED 0
  rw [corner_central_id (fun x m _ => (h1 x y₀ z₀ ⟨0, m⟩ (Nat.zero_le _)).1) ht,
    piece_central wing_table_1 fun y m hm => (h1 x₀ y z₀ m (mem_layerTurns hm)).2.1,
    piece_central centerCorner_table_1 fun z m hm => (h1 x₀ y₀ z m (mem_layerTurns hm)).2.2] at e
  exact e

/-- so the turn of two layers does not commute with every alg -/
example : ∃ b : List (WideAxisMove 1), (∀ m ∈ b, m.WF) ∧
    movedAlg (Cube.SOLVED : Cube4) ([⟨1, ⟨.R, .single⟩⟩] ++ b) ≠ movedAlg (Cube.SOLVED : Cube4) (b ++ [⟨1, ⟨.R, .single⟩⟩]) := by
  by_contra hc
  have := (C115_cube4 [⟨1, ⟨.R, .single⟩⟩] (by decide)).1 (fun b hb => by_contra fun h => hc ⟨b, hb, h⟩) Cube.SOLVED
  revert this
  decide +kernel

/-- **C115** On the 6x6 an alg may be done before or after every other alg only if it does nothing. -/
theorem C115_cube6 (a : List (WideAxisMove 2)) (ha : ∀ m ∈ a, m.WF) :
    (∀ b : List (WideAxisMove 2), (∀ m ∈ b, m.WF) → movedAlg (Cube.SOLVED : Cube6) (a ++ b) = movedAlg (Cube.SOLVED : Cube6) (b ++ a)) ↔
      ∀ c : Cube6, movedAlg c a = c := by
  refine ⟨fun h => ?_, fun h b _ => commutes_all (F := id) (fun _ _ => rfl) h b _⟩
  obtain ⟨f, w1, w2, t1, t2, v, hf, e⟩ := cube6_uniform.alg a
  have h1 : ∀ (x : Corner) (y : Wing) (z : CenterCorner) (u : CenterWing) (m : WideAxisMove 2), m.WF →
      f (x.moved m.axisMove) = (f x).moved m.axisMove ∧
      w1 (DepthPiece.moved 1 0 y m) = DepthPiece.moved 1 0 (w1 y) m ∧ w2 (DepthPiece.moved 2 0 y m) = DepthPiece.moved 2 0 (w2 y) m ∧
      t1 (DepthPiece.moved 1 0 z m) = DepthPiece.moved 1 0 (t1 z) m ∧ t2 (DepthPiece.moved 2 0 z m) = DepthPiece.moved 2 0 (t2 z) m ∧
      v (DepthPiece.moved 1 2 u m) = DepthPiece.moved 1 2 (v u) m := by
    intro x y z u m hm
    have := commutes_of_solved cube6_uniform C08_solved_valid.2.2.2.2.1 (h [m] (single_wf hm))
      ⟨fun _ => x, fun _ => y, fun _ => y, fun _ => z, fun _ => z, fun _ => u⟩
    rw [show movedAlg _ a = _ from e _, show movedAlg _ a = _ from e _] at this
    exact ⟨(congrFun (congrArg Cube6.corners this) 0).symm, (congrFun (congrArg Cube6.wings1 this) 0).symm,
      (congrFun (congrArg Cube6.wings2 this) 0).symm, (congrFun (congrArg Cube6.centerCorners1 this) 0).symm,
      (congrFun (congrArg Cube6.centerCorners2 this) 0).symm, (congrFun (congrArg Cube6.centerWings this) 0).symm⟩
  have ht := ((C71_cube6 _).1.1 ⟨a, ha, rfl⟩).twists
  rw [show movedAlg _ a = _ from e _] at ht
  have x₀ := Corner.oriented ⟨.pos, .pos, .pos⟩
  have y₀ := Wing.SOLVED 0
  have z₀ := CenterCorner.SOLVED 0
  have u₀ := CenterWing.SOLVED 0
  rw [corner_central_id (fun x m _ => (h1 x y₀ z₀ u₀ ⟨0, m⟩ (Nat.zero_le _)).1) ht,
    piece_central (fun x y => (wing_table_2 x y).1) fun y m hm => (h1 x₀ y z₀ u₀ m (mem_layerTurns hm)).2.1,
    piece_central (fun x y => (wing_table_2 x y).2) fun y m hm => (h1 x₀ y z₀ u₀ m (mem_layerTurns hm)).2.2.1,
    piece_central (fun x y => (centerCorner_table_2 x y).1) fun z m hm => (h1 x₀ y₀ z u₀ m (mem_layerTurns hm)).2.2.2.1,
    piece_central (fun x y => (centerCorner_table_2 x y).2) fun z m hm => (h1 x₀ y₀ z u₀ m (mem_layerTurns hm)).2.2.2.2.1,
    piece_central centerWing_table_2 fun u m hm => (h1 x₀ y₀ z₀ u m (mem_layerTurns hm)).2.2.2.2.2] at e
  exact e

/-- so the turn of three layers does not commute with every alg -/
example : ∃ b : List (WideAxisMove 2), (∀ m ∈ b, m.WF) ∧
    movedAlg (Cube.SOLVED : Cube6) ([⟨2, ⟨.R, .single⟩⟩] ++ b) ≠ movedAlg (Cube.SOLVED : Cube6) (b ++ [⟨2, ⟨.R, .single⟩⟩]) := by
  by_contra hc
  have := (C115_cube6 [⟨2, ⟨.R, .single⟩⟩] (by decide)).1 (fun b hb => by_contra fun h => hc ⟨b, hb, h⟩) Cube.SOLVED
  revert this
  decide +kernel

/-- a map of center edges that commutes with the turns leaves them all or brings them all across -/
theorem centerEdge_central {N nd : Nat} (x₀ : CenterEdge)
    (table : ∀ y : CenterEdge, (∀ m ∈ layerTurns N, DepthPiece.moved nd 0 x₀ m = x₀ → DepthPiece.moved nd 0 y m = y) →
      y = x₀ ∨ y = x₀.across)
    (across : ∀ x : CenterEdge, ∀ m ∈ layerTurns N, (DepthPiece.moved nd 0 x m).across = DepthPiece.moved nd 0 x.across m)
    (cover : ∀ x : CenterEdge, x ∈ orbitList (DepthPiece.moved nd 0) (layerTurns N) 6 [x₀]) {f : CenterEdge → CenterEdge}
    (hf : ∀ x, ∀ m ∈ layerTurns N, f (DepthPiece.moved nd 0 x m) = DepthPiece.moved nd 0 (f x) m) :
    f = id ∨ f = CenterEdge.across := by
  rcases table (f x₀) (fun m hm e => by rw [← hf _ m hm, e]) with h | h
  · exact .inl (funext fun x => same_on_orbit hf (g := id) (fun _ _ _ => rfl) 6 [x₀]
      (fun x hx => by rw [List.mem_singleton.1 hx]; exact h) x (cover x))
  · exact .inr (funext fun x => same_on_orbit hf (g := CenterEdge.across) across 6 [x₀]
      (fun x hx => by rw [List.mem_singleton.1 hx]; exact h) x (cover x))

theorem centerEdge_central_1 {f : CenterEdge → CenterEdge}
    (hf : ∀ x, ∀ m ∈ layerTurns 1, f (DepthPiece.moved 1 0 x m) = DepthPiece.moved 1 0 (f x) m) : f = id ∨ f = CenterEdge.across :=
  centerEdge_central (CenterEdge.SOLVED 0) (centerEdge_table_1 _) (by decide +kernel) (by decide +kernel) hf

theorem centerEdge_central_2 {f : CenterEdge → CenterEdge} :
    ((∀ x, ∀ m ∈ layerTurns 2, f (DepthPiece.moved 1 0 x m) = DepthPiece.moved 1 0 (f x) m) → f = id ∨ f = CenterEdge.across) ∧
    ((∀ x, ∀ m ∈ layerTurns 2, f (DepthPiece.moved 2 0 x m) = DepthPiece.moved 2 0 (f x) m) → f = id ∨ f = CenterEdge.across) :=
  ⟨centerEdge_central (CenterEdge.SOLVED 0) (fun y => (centerEdge_table_2 _ y).1) (by decide +kernel) (by decide +kernel),
    centerEdge_central (CenterEdge.SOLVED 0) (fun y => (centerEdge_table_2 _ y).2) (by decide +kernel) (by decide +kernel)⟩

/-- the center edges go with the edges -/
theorem across_follows {g : Edge → Edge} {u : CenterEdge → CenterEdge}
    (hF : CenterEdgesFollow (fun i => u (PieceSet.SOLVED CenterEdge i)) (fun i => g (PieceSet.SOLVED Edge i)))
    (hg : g = id ∨ g = Edge.flip) (hu : u = id ∨ u = CenterEdge.across) :
    g = id ∧ u = id ∨ g = Edge.flip ∧ u = CenterEdge.across := by
  rcases hg with rfl | rfl <;> rcases hu with rfl | rfl
  · exact .inl ⟨rfl, rfl⟩
  · exfalso; revert hF; unfold CenterEdgesFollow; decide +kernel
  · exfalso; revert hF; unfold CenterEdgesFollow; decide +kernel
  · exact .inr ⟨rfl, rfl⟩

theorem across_moved_1 (x : CenterEdge) (m : WideAxisMove 1) : (DepthPiece.moved 1 0 x m).across = DepthPiece.moved 1 0 x.across m := by
  obtain ⟨d, t⟩ := m
  revert x t
  have : ∀ (x : CenterEdge) (t : AxisMove), (DepthPiece.moved 1 0 x (⟨0, t⟩ : WideAxisMove 1)).across =
      DepthPiece.moved 1 0 x.across (⟨0, t⟩ : WideAxisMove 1) := by decide +kernel
  exact this

theorem across_moved_2 (x : CenterEdge) (m : WideAxisMove 2) :
    (DepthPiece.moved 1 0 x m).across = DepthPiece.moved 1 0 x.across m ∧
    (DepthPiece.moved 2 0 x m).across = DepthPiece.moved 2 0 x.across m := by
  obtain ⟨d, t⟩ := m
  revert x t
  have : ∀ (x : CenterEdge) (t : AxisMove), (DepthPiece.moved 1 0 x (⟨0, t⟩ : WideAxisMove 2)).across =
      DepthPiece.moved 1 0 x.across (⟨0, t⟩ : WideAxisMove 2) ∧
      (DepthPiece.moved 2 0 x (⟨0, t⟩ : WideAxisMove 2)).across = DepthPiece.moved 2 0 x.across (⟨0, t⟩ : WideAxisMove 2) := by
    decide +kernel
  exact this

/-- **C115** On the 5x5 an alg may be done before or after every other alg exactly if it does nothing, or nothing but flip all twelve
edges, each with the center edges beside it. (That these go along is the defect of C72.) -/
theorem C115_cube5 (a : List (WideAxisMove 1)) (ha : ∀ m ∈ a, m.WF) :
    (∀ b : List (WideAxisMove 1), (∀ m ∈ b, m.WF) → movedAlg (Cube.SOLVED : Cube5) (a ++ b) = movedAlg (Cube.SOLVED : Cube5) (b ++ a)) ↔
      (∀ c : Cube5, movedAlg c a = c) ∨ ∀ c : Cube5, movedAlg c a = c.allFlipped := by
  constructor
  · intro h
    obtain ⟨f, g, t, u, hf, hg, e⟩ := cube5_uniform.alg a
    have h1 : ∀ (x : Corner) (y : Edge) (z : CenterCorner) (v : CenterEdge) (m : WideAxisMove 1), m.WF →
        f (x.moved m.axisMove) = (f x).moved m.axisMove ∧ g (y.moved m.axisMove) = (g y).moved m.axisMove ∧
        t (DepthPiece.moved 1 0 z m) = DepthPiece.moved 1 0 (t z) m ∧ u (DepthPiece.moved 1 0 v m) = DepthPiece.moved 1 0 (u v) m := by
      intro x y z v m hm
      have := commutes_of_solved cube5_uniform C08_solved_valid.2.2.2.1 (h [m] (single_wf hm))
        ⟨fun _ => x, fun _ => y, fun _ => z, fun _ => v⟩
      rw [show movedAlg _ a = _ from e _, show movedAlg _ a = _ from e _] at this
      exact ⟨(congrFun (congrArg Cube5.corners this) 0).symm, (congrFun (congrArg Cube5.edges this) 0).symm,
        (congrFun (congrArg Cube5.cornerCenters this) 0).symm, (congrFun (congrArg Cube5.cornerEdges this) 0).symm⟩
    have ht := ((C72_cube5_partial _).1 ⟨a, ha, rfl⟩).1.core.twists
    have hF := (C72_center_edges_stuck.1 a).1
    rw [show movedAlg _ a = _ from e _] at ht hF
    have x₀ := Corner.oriented ⟨.pos, .pos, .pos⟩
    have y₀ : Edge := ⟨.X, ⟨.pos, .pos⟩, true⟩
    have z₀ := CenterCorner.SOLVED 0
    have v₀ := CenterEdge.SOLVED 0
    have c1 := corner_central_id (fun x m _ => (h1 x y₀ z₀ v₀ ⟨0, m⟩ (Nat.zero_le _)).1) ht
    have c2 := piece_central centerCorner_table_1 fun z m hm => (h1 x₀ y₀ z v₀ m (mem_layerTurns hm)).2.2.1
    have c3 := edge_central fun y m _ => (h1 x₀ y z₀ v₀ ⟨0, m⟩ (Nat.zero_le _)).2.1
    have c4 := centerEdge_central_1 fun v m hm => (h1 x₀ y₀ z₀ v m (mem_layerTurns hm)).2.2.2
    rcases across_follows hF c3 c4 with ⟨rfl, rfl⟩ | ⟨rfl, rfl⟩
    · rw [c1, c2] at e; exact .inl e
    · rw [c1, c2] at e; exact .inr e
  · rintro (h | h) b -
    · exact commutes_all (F := id) (fun _ _ => rfl) h b _
    · refine commutes_all (F := Cube5.allFlipped) (fun c m => ?_) h b _
      exact Cube5.ext rfl (funext fun i => flip_moved (c.edges i) m.axisMove) rfl (funext fun i => across_moved_1 (c.cornerEdges i) m)

/-- **C115** On the 7x7 an alg may be done before or after every other alg exactly if it does nothing, or nothing but flip all twelve
edges, each with the center edges beside it. -/
theorem C115_cube7 (a : List (WideAxisMove 2)) (ha : ∀ m ∈ a, m.WF) :
    (∀ b : List (WideAxisMove 2), (∀ m ∈ b, m.WF) → movedAlg (Cube.SOLVED : Cube7) (a ++ b) = movedAlg (Cube.SOLVED : Cube7) (b ++ a)) ↔
      (∀ c : Cube7, movedAlg c a = c) ∨ ∀ c : Cube7, movedAlg c a = c.allFlipped := by
  constructor
  · intro h
    obtain ⟨f, g, w1, w2, t1, t2, v, u1, u2, hf, hg, e⟩ := cube7_uniform.alg a
    have h1 : ∀ (x : Corner) (p : Edge) (y : Wing) (z : CenterCorner) (q : CenterWing) (r : CenterEdge) (m : WideAxisMove 2), m.WF →
        (f (x.moved m.axisMove) = (f x).moved m.axisMove ∧ g (p.moved m.axisMove) = (g p).moved m.axisMove) ∧
        (w1 (DepthPiece.moved 1 0 y m) = DepthPiece.moved 1 0 (w1 y) m ∧ w2 (DepthPiece.moved 2 0 y m) = DepthPiece.moved 2 0 (w2 y) m) ∧
        (t1 (DepthPiece.moved 1 0 z m) = DepthPiece.moved 1 0 (t1 z) m ∧ t2 (DepthPiece.moved 2 0 z m) = DepthPiece.moved 2 0 (t2 z) m) ∧
        v (DepthPiece.moved 1 2 q m) = DepthPiece.moved 1 2 (v q) m ∧
        u1 (DepthPiece.moved 1 0 r m) = DepthPiece.moved 1 0 (u1 r) m ∧ u2 (DepthPiece.moved 2 0 r m) = DepthPiece.moved 2 0 (u2 r) m := by
      intro x p y z q r m hm
      have := commutes_of_solved cube7_uniform C08_solved_valid.2.2.2.2.2 (h [m] (single_wf hm))
        ⟨fun _ => x, fun _ => p, fun _ => y, fun _ => y, fun _ => z, fun _ => z, fun _ => q, fun _ => r, fun _ => r⟩
      rw [show movedAlg _ a = _ from e _, show movedAlg _ a = _ from e _] at this
      exact ⟨⟨(congrFun (congrArg Cube7.corners this) 0).symm, (congrFun (congrArg Cube7.edges this) 0).symm⟩,
        ⟨(congrFun (congrArg Cube7.wings1 this) 0).symm, (congrFun (congrArg Cube7.wings2 this) 0).symm⟩,
        ⟨(congrFun (congrArg Cube7.centerCorners1 this) 0).symm, (congrFun (congrArg Cube7.centerCorners2 this) 0).symm⟩,
        (congrFun (congrArg Cube7.centerWings this) 0).symm,
        (congrFun (congrArg Cube7.centerEdges1 this) 0).symm, (congrFun (congrArg Cube7.centerEdges2 this) 0).symm⟩
    have ht := ((C72_cube7_partial _).1 ⟨a, ha, rfl⟩).1.core.twists
    have hF := (C72_center_edges_stuck.2 a).1
    rw [show movedAlg _ a = _ from e _] at ht hF
    have x₀ := Corner.oriented ⟨.pos, .pos, .pos⟩
    have p₀ : Edge := ⟨.X, ⟨.pos, .pos⟩, true⟩
    have y₀ := Wing.SOLVED 0
    have z₀ := CenterCorner.SOLVED 0
    have q₀ := CenterWing.SOLVED 0
    have r₀ := CenterEdge.SOLVED 0
    have c1 := corner_central_id (fun x m _ => (h1 x p₀ y₀ z₀ q₀ r₀ ⟨0, m⟩ (Nat.zero_le _)).1.1) ht
    have c2 := edge_central fun p m _ => (h1 x₀ p y₀ z₀ q₀ r₀ ⟨0, m⟩ (Nat.zero_le _)).1.2
    have c3 := piece_central (fun x y => (wing_table_2 x y).1) fun y m hm => (h1 x₀ p₀ y z₀ q₀ r₀ m (mem_layerTurns hm)).2.1.1
    have c4 := piece_central (fun x y => (wing_table_2 x y).2) fun y m hm => (h1 x₀ p₀ y z₀ q₀ r₀ m (mem_layerTurns hm)).2.1.2
    have c5 := piece_central (fun x y => (centerCorner_table_2 x y).1) fun z m hm => (h1 x₀ p₀ y₀ z q₀ r₀ m (mem_layerTurns hm)).2.2.1.1
    have c6 := piece_central (fun x y => (centerCorner_table_2 x y).2) fun z m hm => (h1 x₀ p₀ y₀ z q₀ r₀ m (mem_layerTurns hm)).2.2.1.2
    have c7 := piece_central centerWing_table_2 fun q m hm => (h1 x₀ p₀ y₀ z₀ q r₀ m (mem_layerTurns hm)).2.2.2.1
    have c8 := centerEdge_central_2.1 fun r m hm => (h1 x₀ p₀ y₀ z₀ q₀ r m (mem_layerTurns hm)).2.2.2.2.1
    have c9 := centerEdge_central_2.2 fun r m hm => (h1 x₀ p₀ y₀ z₀ q₀ r m (mem_layerTurns hm)).2.2.2.2.2
    have ne : (id : Edge → Edge) ≠ Edge.flip := fun h => absurd (congrFun h ⟨.X, ⟨.pos, .pos⟩, true⟩) (by decide)
    rw [c1, c3, c4, c5, c6, c7] at e
    rcases across_follows hF.1 c2 c8 with ⟨hg, rfl⟩ | ⟨hg, rfl⟩ <;> rcases across_follows hF.2 c2 c9 with ⟨hg', rfl⟩ | ⟨hg', rfl⟩
    · rw [hg] at e; exact .inl e
    · exact absurd (hg.symm.trans hg') ne
    · exact absurd (hg'.symm.trans hg) ne
    · rw [hg] at e; exact .inr e
  · rintro (h | h) b -
    · exact commutes_all (F := id) (fun _ _ => rfl) h b _
    · refine commutes_all (F := Cube7.allFlipped) (fun c m => ?_) h b _
      exact Cube7.ext rfl (funext fun i => flip_moved (c.edges i) m.axisMove) rfl rfl rfl rfl rfl
        (funext fun i => (across_moved_2 (c.centerEdges1 i) m).1) (funext fun i => (across_moved_2 (c.centerEdges2 i) m).2)

theorem flipped_core : (Cube3.SOLVED.allFlipped).Lawful := (C15_reachable_iff _).1.1 ⟨superflip, C115_superflip.2.1 Cube3.SOLVED⟩

theorem flipped_follow : CenterEdgesFollow (fun i => (PieceSet.SOLVED CenterEdge i).across) fun i => (PieceSet.SOLVED Edge i).flip := by
  unfold CenterEdgesFollow
  decide +kernel

/-- **C115** There are algs of the second kind on the 5x5 and on the 7x7; they do something. -/
theorem C115_big_superflip :
    (∃ a : List (WideAxisMove 1), (∀ m ∈ a, m.WF) ∧ (∀ c : Cube5, movedAlg c a = c.allFlipped) ∧
      movedAlg (Cube.SOLVED : Cube5) a ≠ Cube.SOLVED) ∧
    ∃ a : List (WideAxisMove 2), (∀ m ∈ a, m.WF) ∧ (∀ c : Cube7, movedAlg c a = c.allFlipped) ∧
      movedAlg (Cube.SOLVED : Cube7) a ≠ Cube.SOLVED := by
  have hb : Blind Edge.flip := fun _ => rfl
  have ne : (fun i => (PieceSet.SOLVED Edge i).flip) ≠ PieceSet.SOLVED Edge := fun h => absurd (congrFun h 0) (by decide +kernel)
  constructor
  · obtain ⟨a, ha, e⟩ := (C72_cube5_partial (Cube.SOLVED : Cube5).allFlipped).2
      ⟨⟨flipped_core, ((C72_cube5_partial Cube.SOLVED).1 ⟨[], by simp, rfl⟩).1.parity⟩, flipped_follow⟩
    have hu : PieceByPiece.Uniform Cube5.allFlipped :=
      ⟨fun x => x, Edge.flip, fun x => x, CenterEdge.across, blind_id, hb, fun _ => rfl⟩
    refine ⟨a, ha, fun c => congrFun (PieceByPiece.determined (cube5_uniform.alg a) hu C08_solved_valid.2.2.2.1 e) c, fun h => ?_⟩
    exact ne (congrArg Cube5.edges (e.symm.trans h))
  · obtain ⟨a, ha, e⟩ := (C72_cube7_partial (Cube.SOLVED : Cube7).allFlipped).2
      ⟨⟨flipped_core, ((C72_cube7_partial Cube.SOLVED).1 ⟨[], by simp, rfl⟩).1.parity⟩, flipped_follow, flipped_follow⟩
    have hu : PieceByPiece.Uniform Cube7.allFlipped :=
      ⟨fun x => x, Edge.flip, fun x => x, fun x => x, fun x => x, fun x => x, fun x => x, CenterEdge.across, CenterEdge.across,
        blind_id, hb, fun _ => rfl⟩
    refine ⟨a, ha, fun c => congrFun (PieceByPiece.determined (cube7_uniform.alg a) hu C08_solved_valid.2.2.2.2.2 e) c, fun h => ?_⟩
    exact ne (congrArg Cube7.edges (e.symm.trans h))

/-- so some alg of the 5x5 may be done before or after the turn of two layers, and any other, without being trivial -/
example : ∃ a : List (WideAxisMove 1), movedAlg (Cube.SOLVED : Cube5) a ≠ Cube.SOLVED ∧
    movedAlg (Cube.SOLVED : Cube5) (a ++ [⟨1, ⟨.R, .single⟩⟩]) = movedAlg (Cube.SOLVED : Cube5) ([⟨1, ⟨.R, .single⟩⟩] ++ a) := by
  obtain ⟨a, ha, h, hn⟩ := C115_big_superflip.1
  exact ⟨a, hn, (C115_cube5 a ha).2 (.inr h) _ (by decide)⟩

/-- and on the 7x7 -/
example : ∃ a : List (WideAxisMove 2), movedAlg (Cube.SOLVED : Cube7) a ≠ Cube.SOLVED ∧
    movedAlg (Cube.SOLVED : Cube7) (a ++ [⟨2, ⟨.R, .single⟩⟩]) = movedAlg (Cube.SOLVED : Cube7) ([⟨2, ⟨.R, .single⟩⟩] ++ a) := by
  obtain ⟨a, ha, h, hn⟩ := C115_big_superflip.2
  exact ⟨a, hn, (C115_cube7 a ha).2 (.inr h) _ (by decide)⟩

end Barbarosa
