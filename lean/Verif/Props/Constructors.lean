import Verif.Model.Debug
import Verif.Lemmas.Pieces
import Verif.Lemmas.BigCubes

/-!
# C81, C82: making pieces from faces, and reading them
-/

namespace Barbarosa

open Face

/-- the pair of faces consists of these two, in any order -/
def SameFaces (p : Face × Face) (a b : Face) : Prop := p = (a, b) ∨ p = (b, a)

instance (p : Face × Face) (a b : Face) : Decidable (SameFaces p a b) := by unfold SameFaces; infer_instance

/-! ## C81 -/

theorem normal_add_comm (a b : Face) : a.normal.add b.normal = b.normal.add a.normal := by revert a b; decide +kernel

/-- **C81** `Edge::position_from_faces` never reaches its `unreachable!()`; it refuses exactly faces of one axis, and names that axis. Otherwise
it is the one place whose edge lies on the two faces. -/
theorem C81_edge_position (a b : Face) :
    Edge.positionFromFaces? a b ≠ none ∧
    (∀ x, Edge.positionFromFaces? a b = some (.error x) ↔ a.axis = b.axis ∧ x = a.axis) ∧
    (∀ p, Edge.positionFromFaces? a b = some (.ok p) ↔ ∀ o, SameFaces (Edge.faces ⟨p.1, p.2, o⟩) a b) := by
  rw [Edge.positionFromFaces?_eq]
  have h1 : ∀ a b : Face, Edge.positionFromFaces a b = none ↔ a.axis = b.axis := by decide +kernel
  have h2 : ∀ (a b : Face) (x : Axis) (v : Vec2), Edge.positionFromFaces a b = some (x, v) ↔
      ∀ o, SameFaces (Edge.faces ⟨x, v, o⟩) a b := by decide +kernel
  refine ⟨by simp, fun x => ?_, fun p => ?_⟩
  · rw [← h1 a b]
    cases h : Edge.positionFromFaces a b <;> simp [eq_comm]
  · obtain ⟨x, v⟩ := p
    rw [← h2 a b x v]
    cases h : Edge.positionFromFaces a b <;> simp

/-- up and right, and two opposite faces -/
example : Edge.positionFromFaces? U R = some (.ok (.Z, ⟨.pos, .pos⟩)) ∧ Edge.positionFromFaces? U D = some (.error .Y) :=
  ⟨(C81_edge_position U R).2.2 _ |>.2 (by decide), (C81_edge_position U D).2.1 _ |>.2 (by decide)⟩

/-- **C81** `Edge::try_from([a, b])` fails exactly for faces of one axis; otherwise it is the one well oriented edge that lies on the two
faces, whichever is named first. -/
theorem C81_edge (a b : Face) :
    (Edge.ofFaces a b = none ↔ a.axis = b.axis) ∧
    (∀ e, Edge.ofFaces a b = some e ↔ SameFaces e.faces a b ∧ e.oriented = true) ∧
    Edge.ofFaces a b = Edge.ofFaces b a ∧
    ∀ e, Edge.ofFaces a b = some e → Piece.isSolved e e.position = true ∧ ∃ i, PieceSet.SOLVED Edge i = e := by
  revert a b; decide +kernel

example : Edge.ofFaces U D = none ∧ Edge.ofFaces U R = Edge.ofFaces R U ∧ ∃ e, Edge.ofFaces U R = some e ∧ SameFaces e.faces U R := by
  refine ⟨(C81_edge U D).1.2 rfl, (C81_edge U R).2.2.1, ?_⟩
  cases h : Edge.ofFaces U R with
  | none => exact absurd ((C81_edge U R).1.1 h) (by decide)
  | some e => exact ⟨e, rfl, (((C81_edge U R).2.1 e).1 h).1⟩

/-- **C81** On a cube of any size that edge is the cubie between the two faces. -/
theorem C81_edge_cell (N : Nat) (a b : Face) (e : Edge) (h : Edge.ofFaces a b = some e) :
    e.cell N = (a.normal.add b.normal).smul (N - 1) := by
  have := (((C81_edge a b).2.1 e).1 h).1
  have hc := normal_add_comm a b
  unfold Edge.cell
  rcases this with h | h <;> rw [h]
  rw [hc]

/-- both orders, and opposite faces -/
example : Edge.ofFaces U R = some ⟨.Z, ⟨.pos, .pos⟩, true⟩ ∧ Edge.ofFaces R U = some ⟨.Z, ⟨.pos, .pos⟩, true⟩ ∧
    Edge.ofFaces F D = some ⟨.X, ⟨.neg, .pos⟩, true⟩ ∧ Edge.ofFaces R L = none := by decide +kernel

/-- **C81** `Wing::new` makes the wing that reports what it was made from, and every wing is made in exactly one way. -/
theorem C81_wing_new (a : Axis) (v : Vec2) (d : Direction) (w : Wing) :
    Wing.new a v d = w ↔ w.normalAxis = a ∧ w.slicePosition = v ∧ w.normalDirection = d := by
  revert a v d w; decide +kernel

/-- the wing of the edge UR on the front half -/
example : Wing.new .Z ⟨.pos, .pos⟩ .pos = ⟨⟨.Z, ⟨.pos, .pos⟩, false⟩⟩ :=
  (C81_wing_new _ _ _ _).2 (by decide)

/-- **C81** `Wing::try_from_faces` fails exactly for faces of one axis; otherwise it is the one wing that lies on the two faces, on the side
that was asked for, whichever face is named first. -/
theorem C81_wing (a b : Face) (d : Direction) :
    (Wing.tryFromFaces a b d = none ↔ a.axis = b.axis) ∧
    (∀ w, Wing.tryFromFaces a b d = some w ↔ SameFaces w.faces a b ∧ w.normalDirection = d) ∧
    Wing.tryFromFaces a b d = Wing.tryFromFaces b a d := by
  revert a b d; decide +kernel

example : Wing.tryFromFaces L R .pos = none ∧ Wing.tryFromFaces F R .neg = Wing.tryFromFaces R F .neg ∧
    ∃ w, Wing.tryFromFaces F R .neg = some w ∧ w.normalDirection = .neg := by
  refine ⟨(C81_wing L R .pos).1.2 rfl, (C81_wing F R .neg).2.2, ?_⟩
  cases h : Wing.tryFromFaces F R .neg with
  | none => exact absurd ((C81_wing F R .neg).1.1 h) (by decide)
  | some w => exact ⟨w, rfl, (((C81_wing F R .neg).2.1 w).1 h).2⟩

/-- **C81** On a cube of any size and in any layer, that wing is the cubie between the two faces that is nearer to the given end. -/
theorem C81_wing_cell (N k : Nat) (a b : Face) (d : Direction) (w : Wing) (h : Wing.tryFromFaces a b d = some w) :
    ∃ x, Axis.other a.axis b.axis = some x ∧
      w.cell N k = ((a.normal.add b.normal).smul (N - 1)).add ((Face.normal ⟨x, d⟩).smul (N - 1 - 2 * k)) := by
  obtain ⟨h1, h2⟩ := ((C81_wing a b d).2.1 w).1 h
  have hx : ∀ w : Wing, Axis.other w.faces.1.axis w.faces.2.axis = some w.normalAxis ∧
      Axis.other w.faces.2.axis w.faces.1.axis = some w.normalAxis := by decide +kernel
  have hc := normal_add_comm a b
  refine ⟨w.normalAxis, ?_, ?_⟩
  · rcases h1 with h | h
    · have := (hx w).1; rwa [h] at this
    · have := (hx w).2; rwa [h] at this
  · unfold Wing.cell
    rw [h2]
    rcases h1 with h | h <;> rw [h]
    rw [hc]

/-- the two wings between U and R -/
example : Wing.tryFromFaces U R .pos = some ⟨⟨.Z, ⟨.pos, .pos⟩, false⟩⟩ ∧
    Wing.tryFromFaces R U .neg = some ⟨⟨.Z, ⟨.pos, .pos⟩, true⟩⟩ ∧ Wing.tryFromFaces U D .neg = none := by decide +kernel

/-- **C81** `CenterEdge::try_from_faces` fails exactly for faces of one axis; otherwise it is the one center edge with this main face and
this side face. Here the order matters. -/
theorem C81_center_edge (a b : Face) :
    (CenterEdge.tryFromFaces a b = none ↔ a.axis = b.axis) ∧
    (∀ c, CenterEdge.tryFromFaces a b = some c ↔ c.mainFace = a ∧ c.sideFace = b) ∧
    (a.axis ≠ b.axis → CenterEdge.tryFromFaces a b ≠ CenterEdge.tryFromFaces b a) := by
  revert a b; decide +kernel

example : CenterEdge.tryFromFaces B F = none ∧ CenterEdge.tryFromFaces U R ≠ CenterEdge.tryFromFaces R U ∧
    ∃ c, CenterEdge.tryFromFaces U R = some c ∧ c.mainFace = U ∧ c.sideFace = R := by
  refine ⟨(C81_center_edge B F).1.2 rfl, (C81_center_edge U R).2.2 (by decide), ?_⟩
  cases h : CenterEdge.tryFromFaces U R with
  | none => exact absurd ((C81_center_edge U R).1.1 h) (by decide)
  | some c => exact ⟨c, rfl, ((C81_center_edge U R).2.1 c).1 h⟩

/-- **C81** On a cube of any size and in any layer, that center edge is the cubie on the main face towards the side face. -/
theorem C81_center_edge_cell (N k : Nat) (a b : Face) (c : CenterEdge) (h : CenterEdge.tryFromFaces a b = some c) :
    c.cell N k = (a.normal.smul (N - 1)).add (b.normal.smul (N - 1 - 2 * k)) := by
  obtain ⟨h1, h2⟩ := ((C81_center_edge a b).2.1 c).1 h
  unfold CenterEdge.cell
  rw [h1, h2]

example : CenterEdge.tryFromFaces U R = some ⟨U, .neg, .pos⟩ ∧ CenterEdge.tryFromFaces R U = some ⟨R, .pos, .pos⟩ ∧
    CenterEdge.tryFromFaces F B = none := by decide +kernel

/-- **C81** `CenterWing::new` makes the center wing that reports what it was made from, and every center wing is made in exactly one way. -/
theorem C81_center_wing_new (f : Face) (h s d : Direction) (c : CenterWing) :
    CenterWing.new f h s d = c ↔ c.mainFace = f ∧ c.sideFace = ⟨f.axis.nextWithHandedness h, s⟩ ∧ c.normalDirection = d := by
  revert f h s d c; decide +kernel

example : CenterWing.new U .neg .pos .pos ≠ CenterWing.new U .neg .pos .neg ∧
    (CenterWing.new U .neg .pos .neg).sideFace = R ∧ (CenterWing.new U .neg .pos .neg).normalDirection = .neg := by
  decide +kernel

/-- **C81** The constructors with a pseudo orientation make each piece exactly once as well, but the flag has no fixed meaning: for
`true` and `false` alike there are wings that point in either direction. -/
theorem C81_pseudo_orientation :
    (∀ w : Wing, ∃! p : Axis × Vec2 × Bool, Wing.newWithOrientation p.1 p.2.1 p.2.2 = w) ∧
    (∀ c : CenterWing, ∃! p : Face × Direction × Direction × Bool,
      CenterWing.newWithOrientation p.1 p.2.1 p.2.2.1 p.2.2.2 = c) ∧
    (∀ (o : Bool) (d : Direction), ∃ a v, (Wing.newWithOrientation a v o).normalDirection = d) ∧
    (∀ (a : Axis) (v : Vec2) (o : Bool), (Wing.newWithOrientation a v o).normalDirection =
      (Wing.newWithOrientation a v (!o)).normalDirection.flip) := by
  refine ⟨?_, ?_, by decide +kernel, by decide +kernel⟩
  · rintro ⟨⟨a, v, o⟩⟩
    refine ⟨(a, v, o), rfl, ?_⟩
    rintro ⟨a', v', o'⟩ h
    simp only [Wing.newWithOrientation, Wing.mk.injEq, Edge.mk.injEq] at h
    obtain ⟨rfl, rfl, rfl⟩ := h
    rfl
  · rintro ⟨⟨f, h, s⟩, o⟩
    refine ⟨(f, h, s, o), rfl, ?_⟩
    rintro ⟨f', h', s', o'⟩ e
    simp only [CenterWing.newWithOrientation, CenterWing.mk.injEq, CenterEdge.mk.injEq] at e
    obtain ⟨⟨rfl, rfl, rfl⟩, rfl⟩ := e
    rfl

/-- the flag is not the side on which the wing lies: with the same flag, one wing is on the positive side and one on the negative -/
example : (Wing.newWithOrientation .Z ⟨.pos, .pos⟩ true).normalDirection ≠ (Wing.newWithOrientation .Z ⟨.pos, .neg⟩ true).normalDirection := by
  decide

/-- **C81** Making a piece from turned faces is the same as turning the piece. For edges this concerns the place: whether the edge is well
oriented changes for quarter turns about X (C67). -/
theorem C81_rotated (a b : Face) (d : Direction) (r : AxisRotation) :
    (Edge.positionFromFaces (a.rotated r) (b.rotated r) = (Edge.ofFaces a b).map fun e => (rotated e r).position) ∧
    (∀ x, Axis.other a.axis b.axis = some x →
      Wing.tryFromFaces (a.rotated r) (b.rotated r) (Face.rotated ⟨x, d⟩ r).direction =
        (Wing.tryFromFaces a b d).map fun w => rotated w r) ∧
    CenterEdge.tryFromFaces (a.rotated r) (b.rotated r) = (CenterEdge.tryFromFaces a b).map fun c => rotated c r := by
  have h1 : ∀ (a b : Face) (r : AxisRotation),
    Edge.positionFromFaces (a.rotated r) (b.rotated r) = (Edge.ofFaces a b).map fun e => (rotated e r).position := by
    decide +kernel
  have h2 : ∀ (a b : Face) (r : AxisRotation) (d : Direction) (x : Axis), Axis.other a.axis b.axis = some x →
      Wing.tryFromFaces (a.rotated r) (b.rotated r) (Face.rotated ⟨x, d⟩ r).direction =
        (Wing.tryFromFaces a b d).map fun w => rotated w r := by decide +kernel
  have h3 : ∀ (a b : Face) (r : AxisRotation),
    CenterEdge.tryFromFaces (a.rotated r) (b.rotated r) = (CenterEdge.tryFromFaces a b).map fun c => rotated c r := by
    decide +kernel
  exact ⟨h1 a b r, h2 a b r d, h3 a b r⟩

/-- turning the wing between U and F on the right about the Y axis -/
example : (Wing.tryFromFaces U F .pos).map (fun w => rotated w (⟨.Y, .single⟩ : AxisRotation)) =
    Wing.tryFromFaces U L .pos ∧ Face.rotated R ⟨.Y, .single⟩ = F := by decide +kernel

/-- **C81** The slice coordinates of an edge's place are its slice position — unless its normal axis is Y, where `slice_coords` answers
in the other order. -/
theorem C81_slice_coords_partial (p : Edge.Pos) :
    (p.1 ≠ .Y → sliceCoords (Edge.coordinatesPos p) p.1 = (p.2.x.scalar, p.2.y.scalar)) ∧
    (p.1 = .Y → sliceCoords (Edge.coordinatesPos p) p.1 = (p.2.y.scalar, p.2.x.scalar)) := by
  obtain ⟨a, v⟩ := p
  cases a <;> simp [sliceCoords, Edge.coordinatesPos]

/-- an edge of the X slice -/
example : sliceCoords (Edge.coordinatesPos (.X, ⟨.neg, .pos⟩)) .X = (-1, 1) :=
  (C81_slice_coords_partial (.X, ⟨.neg, .pos⟩)).1 (by decide)

/-- **C81 is false for `slice_coords`**: the back right edge. -/
theorem C81_slice_coords_swapped : sliceCoords (Edge.coordinatesPos (.Y, ⟨.neg, .pos⟩)) .Y = (1, -1) ∧
    Edge.faces ⟨.Y, ⟨.neg, .pos⟩, true⟩ = (B, R) := by decide +kernel

/-! ## C82 -/

/-- **C82** Different pieces (faces, colours) have different debug texts. -/
theorem C82_debug_distinguishes :
    (∀ a b : Face, a.debug = b.debug → a = b) ∧
    (∀ a b : Color, a.debug = b.debug → a = b) ∧
    (∀ a b : Corner, a.debug = b.debug → a = b) ∧
    (∀ a b : Edge, a.debug = b.debug → a = b) ∧
    (∀ a b : Wing, a.debug = b.debug → a = b) ∧
    (∀ a b : CenterEdge, a.debug = b.debug → a = b) ∧
    (∀ a b : CenterWing, a.debug = b.debug → a = b) := by
  have hc : ∀ f g : Face, Color.debug ⟨f⟩ = Color.debug ⟨g⟩ → f = g := by decide +kernel
  refine ⟨by decide +kernel, fun ⟨f⟩ ⟨g⟩ h => by rw [hc f g h], by decide +kernel, by decide +kernel, by decide +kernel,
    by decide +kernel, by decide +kernel⟩

example : (⟨.Y, ⟨.neg, .pos⟩, true⟩ : Edge).debug ≠ (⟨.Y, ⟨.neg, .pos⟩, false⟩ : Edge).debug :=
  fun h => absurd (C82_debug_distinguishes.2.2.2.1 _ _ h) (by decide)

/-- **C82** So have center corners, if `nalgebra` prints different vectors differently. -/
theorem C82_center_corners (vector : Vec3 → List Char) (hv : Function.Injective vector) (a b : CenterCorner)
    (h : a.debug vector = b.debug vector) : a = b := by
  obtain ⟨p, x⟩ := a
  obtain ⟨q, y⟩ := b
  have hd : ∀ x y : Axis, x.debug = y.debug → x = y := by decide
  have hlen : ∀ x : Axis, x.debug.length = 1 := by decide
  unfold CenterCorner.debug at h
  generalize "CenterCorner { position: ".toList = s at h
  generalize ", axis: ".toList = t at h
  generalize " }".toList = u at h
  have h1 := List.append_cancel_right h
  obtain ⟨h2, h3⟩ := List.append_inj' h1 ((hlen x).trans (hlen y).symm)
  exact CenterCorner.mk.injEq .. |>.mpr ⟨hv (List.append_cancel_left (List.append_cancel_right h2)), hd x y h3⟩

/-- with the vectors printed as `nalgebra` does it -/
example : let vector : Vec3 → List Char := fun v =>
      "[[".toList ++ v.x.debug ++ ", ".toList ++ v.y.debug ++ ", ".toList ++ v.z.debug ++ "]]".toList
    Function.Injective vector ∧
    CenterCorner.debug vector ⟨⟨.pos, .neg, .pos⟩, .Y⟩ = "CenterCorner { position: [[Positive, Negative, Positive]], axis: Y }".toList := by
  refine ⟨fun a b => ?_, by decide +kernel⟩
  revert a b
  decide +kernel

/-- going through a text from the left: how many braces are open at the end, or `none` if one is closed that is not open -/
def openBraces : List Char → Nat → Option Nat
  | [], n => some n
  | c :: t, n =>
    if c = '{' then openBraces t (n + 1)
    else if c = '}' then
      match n with
      | 0 => none
      | n + 1 => openBraces t n
    else openBraces t n

theorem openBraces_append (s t : List Char) (n : Nat) : openBraces (s ++ t) n = (openBraces s n).bind (openBraces t) := by
  induction s generalizing n with
  | nil => rfl
  | cons c s ih =>
    simp only [List.cons_append, openBraces]
    split_ifs
    · exact ih _
    · cases n with
      | zero => rfl
      | succ n => exact ih n
    · exact ih n

/-- **C82** In the texts every brace that is opened is closed again and none is closed that is not open, for center corners if that is so of
vectors. The exception is the text of a corner, which leaves a brace open and ends in a parenthesis that was never opened. -/
theorem C82_braces_partial :
    (∀ f : Face, openBraces f.debug 0 = some 0) ∧
    (∀ f : Face, openBraces (Color.debug ⟨f⟩) 0 = some 0) ∧
    (∀ e : Edge, openBraces e.debug 0 = some 0) ∧
    (∀ w : Wing, openBraces w.debug 0 = some 0) ∧
    (∀ c : CenterEdge, openBraces c.debug 0 = some 0) ∧
    (∀ c : CenterWing, openBraces c.debug 0 = some 0) ∧
    (∀ (vector : Vec3 → List Char) (c : CenterCorner), (∀ n, openBraces (vector c.position) n = some n) →
      openBraces (c.debug vector) 0 = some 0) ∧
    (∀ c : Corner, openBraces c.debug 0 = some 1 ∧ c.debug.count '(' = 0 ∧ c.debug.count ')' = 1) := by
  refine ⟨by decide +kernel, by decide +kernel, by decide +kernel, by decide +kernel, by decide +kernel, by decide +kernel,
    fun vector c hv => ?_, by decide +kernel⟩
  have h1 : openBraces "CenterCorner { position: ".toList 0 = some 1 := by decide +kernel
  have h2 : openBraces ", axis: ".toList 1 = some 1 := by decide +kernel
  have h3 : ∀ x : Axis, openBraces x.debug 1 = some 1 := by decide +kernel
  have h4 : openBraces " }".toList 1 = some 0 := by decide +kernel
  unfold CenterCorner.debug
  simp only [openBraces_append, h1, hv, h2, h3, h4, Option.bind_some]

/-- some texts -/
example : (Corner.debug ⟨⟨.pos, .neg, .pos⟩, .Y⟩) = "Corner { faces: RDF, orientation_axis: Y)".toList ∧
    (Edge.debug ⟨.Z, ⟨.pos, .neg⟩, true⟩) = "Edge { faces: RD, oriented: true }".toList ∧
    (Wing.debug ⟨⟨.Z, ⟨.pos, .pos⟩, false⟩⟩) = "Wing { faces: RU, normal_direction: Positive }".toList ∧
    (CenterWing.debug (.new U .neg .pos .neg)) =
      "CenterWing { main_face: Face { U }, side_face: Face { R }, normal_direction: Negative, hypo_orient: true }".toList := by
  decide +kernel

end Barbarosa
