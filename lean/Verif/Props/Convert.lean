import Verif.Props.Constructors
import Verif.Props.Orientable

/-!
# C93, C94: no assertion about pieces ever fails; conversions to extended moves
-/

namespace Barbarosa

open Face

/-! ## C93 -/

/-- **C93** The accessors of a center edge never fail: the side face is on another axis than the main face, the normal axis is the third
axis. Rotating it never fails either and rotates both faces. -/
theorem C93_center_edge (c : CenterEdge) (r : AxisRotation) :
    (∃ s n, c.sideFace? = some s ∧ c.normalAxis? = some n ∧ s.axis ≠ c.mainFace.axis ∧ s.direction = c.sideDirection ∧
      n ≠ c.mainFace.axis ∧ n ≠ s.axis) ∧
    ∃ c', c.rotate? r = some c' ∧ c'.mainFace = c.mainFace.rotated r ∧ c'.sideFace? = c.sideFace?.map fun s => s.rotated r := by
  have h1 : ∀ c : CenterEdge, c.sideFace.axis ≠ c.mainFace.axis ∧ c.sideFace.direction = c.sideDirection ∧
      c.normalAxis ≠ c.mainFace.axis ∧ c.normalAxis ≠ c.sideFace.axis := by decide +kernel
  have h2 : ∀ (c : CenterEdge) (r : AxisRotation), (c.rotated r).mainFace = c.mainFace.rotated r ∧
      (c.rotated r).sideFace = c.sideFace.rotated r := by decide +kernel
  refine ⟨⟨_, _, c.sideFace?_eq, c.normalAxis?_eq, h1 c⟩, _, c.rotate?_eq r, (h2 c r).1, ?_⟩
  rw [CenterEdge.sideFace?_eq, CenterEdge.sideFace?_eq, (h2 c r).2]
  rfl

/-- the center edge of U next to R, turned by `z` -/
example : (⟨U, .neg, .pos⟩ : CenterEdge).rotate? ⟨.Z, .single⟩ = CenterEdge.tryFromFaces R D := by decide

/-- **C93** Asking an edge on which side of an axis it is never fails, and it is on the side `d` exactly if the face there is one of its two
faces; asking a face whether it contains the edge never fails and tells the same. -/
theorem C93_edge_sides (e : Edge) (f : Face) :
    (∃ d, Edge.directionOnAxis? e.position f.axis = some d ∧ (d = some f.direction ↔ f = e.faces.1 ∨ f = e.faces.2)) ∧
    ∃ b, f.containsEdge? e = some b ∧ (b = true ↔ f = e.faces.1 ∨ f = e.faces.2) := by
  have h1 : ∀ (e : Edge) (f : Face), Edge.directionOnAxis e.position f.axis = some f.direction ↔ f = e.faces.1 ∨ f = e.faces.2 := by
    decide +kernel
  have h2 : ∀ (e : Edge) (f : Face), f.containsEdge e = true ↔ f = e.faces.1 ∨ f = e.faces.2 := by decide +kernel
  exact ⟨⟨_, Edge.directionOnAxis?_eq _ _, h1 e f⟩, _, Face.containsEdge?_eq f e, h2 e f⟩

/-- the edge UR is on U and not on D -/
example : U.containsEdge? ⟨.Z, ⟨.pos, .pos⟩, true⟩ = some true ∧ D.containsEdge? ⟨.Z, ⟨.pos, .pos⟩, true⟩ = some false := by decide

/-- **C93** Rotating an edge never reaches an `unreachable!()`: its faces are rotated. -/
theorem C93_edge_rotate (e : Edge) (r : AxisRotation) :
    ∃ e', e.rotate? r = some e' ∧ SameFaces e'.faces (e.faces.1.rotated r) (e.faces.2.rotated r) := by
  have h : ∀ (e : Edge) (r : AxisRotation), SameFaces (e.rotated r).faces (e.faces.1.rotated r) (e.faces.2.rotated r) := by
    decide +kernel
  exact ⟨_, e.rotate?_eq r, h e r⟩

/-- `y` takes UR to UF -/
example : ∃ e, (⟨.Z, ⟨.pos, .pos⟩, true⟩ : Edge).rotate? ⟨.Y, .single⟩ = some e ∧ SameFaces e.faces U F := by
  obtain ⟨e, h, hs⟩ := C93_edge_rotate ⟨.Z, ⟨.pos, .pos⟩, true⟩ ⟨.Y, .single⟩
  refine ⟨e, h, ?_⟩
  revert hs
  unfold SameFaces
  revert e
  decide +kernel

theorem centerWing_inLayers {M : Nat} (N k t d : Nat) (hk : 2 * k + 2 ≤ N) (ht : 2 * t + 2 ≤ N) (hd : 2 * d + 2 ≤ N)
    (w : CenterWing) (m : AxisMove) :
    DepthPiece.isInWideMove w k t (⟨d, m⟩ : WideAxisMove M) = true ↔ InLayers N d m.face (w.cell N k t) := by
  obtain ⟨-, -, -, h4⟩ := centerWing_vec m w
  have e : (w.cell N k t).dot m.face.normal = (N - 1) * w.mainFace.normal.dot m.face.normal +
      (N - 1 - 2 * k) * w.sideFace.normal.dot m.face.normal + (N - 1 - 2 * t) * (CenterWing.along w).dot m.face.normal := by
    simp only [CenterWing.cell, Z3.add, Z3.smul, CenterWing.along, Z3.dot]
    ring
  unfold InLayers
  rw [e, centerWing_isIn]
  revert h4
  split
  · rintro ⟨a1, a2, a3⟩; rw [a1, a2, a3]; exact iff_of_true rfl (by omega)
  · split
    · rintro ⟨a1, a2, a3⟩; rw [a1, a2, a3, decide_eq_true_iff]; omega
    · split
      · rintro ⟨a3, a4⟩
        simp only [List.mem_cons, Prod.mk.injEq, List.not_mem_nil, or_false] at a4
        rcases a4 with ⟨a1, a2⟩ | ⟨a1, a2⟩ <;> rw [a1, a2, a3] <;> exact iff_of_false (by simp) (by omega)
      · rintro ⟨a1, a2, a3⟩
        rw [a1, a2, a3, decide_eq_true_iff]
        split
        · rename_i hn
          simp only [hn, true_and]
          omega
        · rename_i hn
          exact iff_of_false (fun h => hn h.1) (by omega)

/-- **C93** Asking a center wing whether a move turns it never fails, for moves of any width. On a cube of any size and for depths below half
the size the answer is whether its cubie lies in the layers that the move turns. -/
theorem C93_center_wing {M : Nat} (c : CenterWing) (k t : Nat) (m : WideAxisMove M) :
    ∃ b, c.isInWideMove? k t m = some b ∧
      ∀ N, 2 * k + 2 ≤ N → 2 * t + 2 ≤ N → 2 * m.depth + 2 ≤ N → (b = true ↔ InLayers N m.depth m.face (c.cell N k t)) :=
  ⟨_, c.isInWideMove?_eq k t m, fun N hk ht hd => centerWing_inLayers N k t m.depth hk ht hd c m.axisMove⟩

/-- a center wing of a 7x7 that is in a move of three layers and not in one of two -/
example : (CenterWing.new U .neg .pos .pos).isInWideMove? (M := 2) 1 2 ⟨2, ⟨F, .single⟩⟩ = some true ∧
    (CenterWing.new U .neg .pos .pos).isInWideMove? (M := 2) 1 2 ⟨0, ⟨F, .single⟩⟩ = some false := by decide

/-- **C93** Widening a plain move to the width of the cube never fails. -/
theorem C93_widen {C : Type} (W : Nat) [Movable C (WideAxisMove W)] (c : C) (m : AxisMove) :
    movedWidened? W c m = some (moved c (⟨W, m⟩ : WideAxisMove W)) := by
  rw [movedWidened?_eq, movedWidened_def]

/-- `R` on any 7x7 -/
example (c : Cube7) : movedWidened? 2 c (⟨R, .single⟩ : AxisMove) = some (moved c (⟨2, ⟨R, .single⟩⟩ : WideAxisMove 2)) :=
  C93_widen 2 c _

/-- **C93** `Edge::flipped` turns an edge over in its place: twice does nothing, it changes whether the edge is solved and it commutes with
moves. `Edge::oriented` makes the edge with the right side up. -/
theorem C93_flipped (e : Edge) (m : AxisMove) :
    e.flipped.position = e.position ∧ e.flipped ≠ e ∧ e.flipped.flipped = e ∧ e.flipped = e.flip ∧
    (Piece.isSolved e e.position = true ↔ Piece.isSolved e.flipped e.position = false) ∧
    moved e.flipped m = (moved e m).flipped ∧
    ∀ e' : Edge, e'.position = e.position → e' = e ∨ e' = e.flipped := by
  have h : ∀ e : Edge, e.flipped.position = e.position ∧ e.flipped ≠ e ∧ e.flipped.flipped = e ∧ e.flipped = e.flip ∧
    (Piece.isSolved e e.position = true ↔ Piece.isSolved e.flipped e.position = false) ∧
    ∀ e' : Edge, e'.position = e.position → e' = e ∨ e' = e.flipped := by decide +kernel
  have h' : ∀ (e : Edge) (m : AxisMove), moved e.flipped m = (moved e m).flipped := by decide +kernel
  obtain ⟨a, b, c, d, f, g⟩ := h e
  exact ⟨a, b, c, d, f, h' e m, g⟩

/-- flipping before or after `F` -/
example : moved (⟨.X, ⟨.pos, .pos⟩, true⟩ : Edge).flipped (⟨F, .single⟩ : AxisMove) =
    (moved (⟨.X, ⟨.pos, .pos⟩, true⟩ : Edge) (⟨F, .single⟩ : AxisMove)).flipped :=
  (C93_flipped _ _).2.2.2.2.2.1

/-- **C93** `Edge::oriented` makes the solved edge of a place, and the solved cube consists of these. -/
theorem C93_oriented (a : Axis) (v : Vec2) :
    (Edge.orientedAt a v).position = (a, v) ∧ Piece.isSolved (Edge.orientedAt a v) (a, v) = true ∧
    (∀ e : Edge, Piece.isSolved e (a, v) = true ↔ e = Edge.orientedAt a v) ∧ ∃ i, PieceSet.SOLVED Edge i = Edge.orientedAt a v := by
  revert a v
  decide +kernel

example : (Edge.orientedAt .Z ⟨.pos, .pos⟩).faces = (R, U) ∧ (Edge.orientedAt .Z ⟨.pos, .pos⟩).flipped.faces = (R, U) ∧
    (⟨U, .neg, .pos⟩ : CenterEdge).sideFace? = some R ∧ (⟨U, .neg, .pos⟩ : CenterEdge).normalAxis? = some .Z := by decide +kernel

/-! ## C94 -/

/-- **C94** The four conversions, with their effect on a cube that is held in any way: `from` of a face move is the face move, … -/
theorem C94_axis_move (s : HeldSys) (c : Orientable s.C) (m : AxisMove) :
    c.apply? (ExtendedAxisMove.ofAxisMove m) = c.moved? m ∧
    (ExtendedAxisMove.ofAxisMove m).inverse = ExtendedAxisMove.ofAxisMove (Move.inverse m) ∧
    Function.Injective ExtendedAxisMove.ofAxisMove := by
  refine ⟨rfl, rfl, fun a b h => ?_⟩
  cases h
  rfl

example (c : Orientable Cube5) : c.apply? (ExtendedAxisMove.ofAxisMove ⟨F, .inverse⟩) = c.moved? (⟨F, .inverse⟩ : AxisMove) ∧
    (ExtendedAxisMove.ofAxisMove ⟨F, .inverse⟩).inverse = .regular ⟨F, .single⟩ :=
  ⟨(C94_axis_move ⟨Cube5⟩ c _).1, (C94_axis_move ⟨Cube5⟩ c _).2.1⟩

/-- **C94** … on a cube that has not been turned round it turns that face of it, … -/
theorem C94_axis_move_default (s : HeldSys) (c : s.C) (m : AxisMove) :
    (Orientable.new c).apply? (ExtendedAxisMove.ofAxisMove m) = some (Orientable.new (moved c m)) := by
  have h : ∀ m : AxisMove, (Orientation.default.rotations?).map (fun rs => rs.foldl AxisMove.rotated m) = some m := by decide +kernel
  have hm := h m
  show (Orientable.new c).moved? m = _
  unfold Orientable.moved? Orientable.new
  simp only
  split
  · rename_i hn
    rw [hn] at hm
    cases hm
  · rename_i rs hn
    rw [hn] at hm
    rw [show rs.foldl AxisMove.rotated m = m from Option.some.inj hm]

/-- `U` on a solved 6x6 -/
example : (Orientable.new (Cube.SOLVED : Cube6)).apply? (ExtendedAxisMove.ofAxisMove ⟨U, .single⟩) =
    some (Orientable.new (moved (Cube.SOLVED : Cube6) (⟨U, .single⟩ : AxisMove))) :=
  C94_axis_move_default ⟨Cube6⟩ _ _

/-- **C94** … `from` of a rotation leaves the pieces alone and turns the cube round, as the rotation of space does, … -/
theorem C94_rotation (s : HeldSys) (c : Orientable s.C) (r : AxisRotation) :
    (∃ o, c.apply? (ExtendedAxisMove.ofRotation r) = some ⟨c.baseCube, o⟩ ∧ ∀ p, o.place p = Z3.rot r (c.orientation.place p)) ∧
    (ExtendedAxisMove.ofRotation r).inverse = ExtendedAxisMove.ofRotation r.inverse ∧
    Function.Injective ExtendedAxisMove.ofRotation := by
  obtain ⟨o, ho⟩ := rotate_isSome c.orientation r
  refine ⟨⟨o, ?_, fun p => place_rotate ho p⟩, rfl, fun a b h => by cases h; rfl⟩
  show (c.orientation.rotate? r).bind _ = _
  rw [ho]
  rfl

/-- `x` on a solved 3x3 leaves the pieces alone and brings the front face up -/
example : ∃ o, (Orientable.new Cube3.SOLVED).apply? (ExtendedAxisMove.ofRotation ⟨.X, .single⟩) = some ⟨Cube3.SOLVED, o⟩ ∧
    o ≠ Orientation.default := by
  obtain ⟨o, h, hp⟩ := (C94_rotation ⟨Cube3⟩ (Orientable.new Cube3.SOLVED) ⟨.X, .single⟩).1
  refine ⟨o, h, ?_⟩
  rintro rfl
  exact absurd (hp ⟨0, 1, 0⟩) (by decide)

/-- **C94** … `from` of a wide move never fails, and on every cube that the move fits it does what the move does, … -/
theorem C94_wide (s : HeldSys) (hs : s ∈ heldSystems) (c : Orientable s.C) (m : WideAxisMove (maxDepth s.C)) (hm : m.WF) :
    ∃ e, ExtendedAxisMove.ofWide? m = some e ∧ c.apply? e = some ⟨moved c.baseCube m, c.orientation⟩ ∧
      ExtendedAxisMove.ofWide? (Move.inverse m) = some e.inverse := by
  obtain ⟨h2, h7⟩ := held_size s hs
  have hu := u32_big
  have hM : maxDepth s.C = Cube.N s.C / 2 - 1 := rfl
  have hd : m.depth ≤ maxDepth s.C := hm
  refine ⟨.wide ⟨m.depth, m.axisMove⟩, ?_, ?_, ?_⟩
  · unfold ExtendedAxisMove.ofWide? WideAxisMove.setMaxDepth
    rw [if_neg (by omega)]
    rfl
  · exact (C45_wide_partial s c ⟨m.depth, m.axisMove⟩).2 (show m.depth < _ by omega)
  · unfold ExtendedAxisMove.ofWide? WideAxisMove.setMaxDepth
    rw [if_neg (show ¬ (Move.inverse m).depth > U32_MAX from show ¬ m.depth > U32_MAX by omega)]
    rfl

/-- Rw on any 4x4, held in any way -/
example (c : Orientable Cube4) : ∃ e, ExtendedAxisMove.ofWide? (⟨1, ⟨R, .single⟩⟩ : WideAxisMove (maxDepth Cube4)) = some e ∧
    c.apply? e = some ⟨moved c.baseCube (⟨1, ⟨R, .single⟩⟩ : WideAxisMove (maxDepth Cube4)), c.orientation⟩ := by
  obtain ⟨e, h1, h2, -⟩ := C94_wide ⟨Cube4⟩ (by simp [heldSystems]) c ⟨1, ⟨R, .single⟩⟩ (by decide)
  exact ⟨e, h1, h2⟩

/-- **C94** … and the depth is kept for moves of any width (a depth is a `u32`). -/
theorem C94_wide_any {N : Nat} (m : WideAxisMove N) (hm : m.WF) (hN : N ≤ U32_MAX) :
    ∃ w : WideAxisMove U32_MAX, ExtendedAxisMove.ofWide? m = some (.wide w) ∧ w.WF ∧ w.depth = m.depth ∧ w.axisMove = m.axisMove := by
  have hd : m.depth ≤ N := hm
  refine ⟨⟨m.depth, m.axisMove⟩, ?_, show m.depth ≤ U32_MAX by omega, rfl, rfl⟩
  unfold ExtendedAxisMove.ofWide? WideAxisMove.setMaxDepth
  rw [if_neg (by omega)]
  rfl

/-- a move of a hundred layers -/
example : ∃ w : WideAxisMove U32_MAX, ExtendedAxisMove.ofWide? (⟨100, ⟨R, .double⟩⟩ : WideAxisMove 200) = some (.wide w) ∧ w.depth = 100 := by
  obtain ⟨w, h1, -, h2, -⟩ := C94_wide_any (⟨100, ⟨R, .double⟩⟩ : WideAxisMove 200) (by decide) (by unfold U32_MAX; norm_num)
  exact ⟨w, h1, h2⟩

/-- **C94** `from` of a rotation and a flag is the slice move: it turns both sides of the axis against the rotation, one layer each or, with
the flag, all but the middle, and turns the cube round. -/
theorem C94_slice (s : HeldSys) (c : Orientable s.C) (r : AxisRotation) (b : Bool) :
    (∃ o, c.apply? (ExtendedAxisMove.ofSlice (r, b)) = some ⟨moved
        (moved c.baseCube (⟨if b then Cube.N s.C / 2 - 1 else 0, ⟨⟨r.axis, .pos⟩, r.amount.mul .neg⟩⟩ : WideAxisMove (maxDepth s.C)))
        (⟨if b then Cube.N s.C / 2 - 1 else 0, ⟨⟨r.axis, .neg⟩, r.amount.mul .neg⟩⟩ : WideAxisMove (maxDepth s.C)), o⟩ ∧
      ∀ p, o.place p = Z3.rot r (c.orientation.place p)) ∧
    (ExtendedAxisMove.ofSlice (r, b)).inverse = ExtendedAxisMove.ofSlice (r.inverse, b) ∧
    Function.Injective ExtendedAxisMove.ofSlice := by
  obtain ⟨o, ho⟩ := rotate_isSome c.orientation r
  refine ⟨⟨o, ?_, fun p => place_rotate ho p⟩, rfl, fun x y h => by cases x; cases y; cases h; rfl⟩
  unfold ExtendedAxisMove.ofSlice Orientable.apply?
  simp only [List.foldlM, sliceTurn?, WideAxisMove.new, maxDepth]
  cases b
  · simp [ho]
  · simp [ho]

/-- The hypotheses of `C94_wide`: Rw on a 4x4 is as deep as the cube allows; `M` is made from the rotation `x'`. -/
example : (⟨1, ⟨R, .single⟩⟩ : WideAxisMove (maxDepth Cube4)).WF ∧ (⟨Cube4⟩ : HeldSys) ∈ heldSystems ∧
    ExtendedAxisMove.ofSlice (⟨.X, .inverse⟩, false) = .slice ⟨.X, .inverse⟩ false :=
  ⟨by decide, by simp [heldSystems], rfl⟩

end Barbarosa
