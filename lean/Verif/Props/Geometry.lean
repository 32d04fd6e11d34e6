import Verif.Lemmas.Moves
import Mathlib.Tactic.Ring
import Verif.Spec.Geometry

/-!
# C55, C56, C57: named algs, rotating the picture, geometry
-/

namespace Barbarosa

/-! ## The specification's rotations are rotations -/

theorem Z3.quarter_dot (a : Axis) (p q : Z3) : (quarter a p).dot (quarter a q) = p.dot q := by
  cases a <;> simp only [quarter, dot] <;> ring

theorem Z3.quarter_cross (a : Axis) (p q : Z3) : (quarter a p).cross (quarter a q) = quarter a (p.cross q) := by
  cases a <;> simp only [quarter, cross] <;> ext <;> simp only <;> ring

theorem Z3.quarter_four (a : Axis) (p : Z3) : (quarter a)^[4] p = p := by
  cases a <;> simp [quarter]

/-- Sanity of the specification: a quarter turn is a rigid motion (keeps scalar and vector products), fixes its axis,
turns the next axis to minus the following one (clockwise) and has order four. -/
theorem Z3.quarter_is_rotation (a : Axis) (p q : Z3) :
    (quarter a p).dot (quarter a q) = p.dot q ∧ (quarter a p).cross (quarter a q) = quarter a (p.cross q) ∧
    quarter a (unit a) = unit a ∧ quarter a (unit a.next) = (unit a.prev).neg ∧ (quarter a)^[4] p = p :=
  ⟨quarter_dot a p q, quarter_cross a p q, by cases a <;> decide, by cases a <;> decide, quarter_four a p⟩

/-! ## C57 -/

/-- **C57** `next_around` and `prev_around` are the geometric quarter turns of the face normals (including faces on the
axis, which stay). -/
theorem C57_around_is_quarter_turn (f : Face) (a : Axis) :
    (f.nextAround a).normal = Z3.quarter a f.normal ∧
    (f.prevAround a).normal = (Z3.quarter a)^[3] f.normal ∧
    (f.nextAround a).prevAround a = f ∧ (f.prevAround a).nextAround a = f ∧
    (fun g : Face => g.nextAround a)^[4] f = f ∧
    (f.axis ≠ a → f.nextAround a ≠ f ∧ (f.nextAround a).nextAround a = f.opposite) ∧
    f.opposite.normal = f.normal.neg := by
  revert f a; decide +kernel

/-- the front face goes up about X -/
example : Face.F.nextAround .X = Face.U ∧ Face.U.normal = Z3.quarter .X Face.F.normal :=
  ⟨rfl, (C57_around_is_quarter_turn Face.F .X).1⟩

/-- **C57** Rotating a face rotates its normal. -/
theorem C57_face_rotated (f : Face) (r : AxisRotation) : (rotated f r).normal = Z3.rot r f.normal := by
  revert f r; decide +kernel

/-- `x'` takes the upper face to the front -/
example : rotated Face.U (⟨.X, .inverse⟩ : AxisRotation) = Face.F ∧ Face.F.normal = Z3.rot ⟨.X, .inverse⟩ Face.U.normal :=
  ⟨rfl, C57_face_rotated Face.U ⟨.X, .inverse⟩⟩

/-- **C57** Rotating a vector of directions is the rotation of the point. -/
theorem C57_vector_rotated (v : Vec3) (r : AxisRotation) : (rotated v r).point = Z3.rot r v.point := by
  revert v r; decide +kernel

/-- `y` takes the corner right-up-front to left-up-front -/
example : Z3.rot ⟨.Y, .single⟩ ⟨1, 1, 1⟩ = ⟨-1, 1, 1⟩ := (C57_vector_rotated ⟨.pos, .pos, .pos⟩ ⟨.Y, .single⟩).symm

/-- **C57** Rotating an axis rotates its line: the rotated unit vector is plus or minus the unit vector of the new axis. -/
theorem C57_axis_rotated (a : Axis) (r : AxisRotation) :
    Z3.rot r (Z3.unit a) = Z3.unit (rotated a r) ∨ Z3.rot r (Z3.unit a) = (Z3.unit (rotated a r)).neg := by
  revert a r; decide +kernel

/-- both signs occur -/
example : Z3.rot ⟨.Z, .single⟩ (Z3.unit .Y) = Z3.unit .X ∧ Z3.rot ⟨.Z, .single⟩ (Z3.unit .X) = (Z3.unit .Y).neg := by decide

/-- **C57** The rotation of a face move (`AxisRotation::from(&AxisMove)`) is the clockwise turn of that face seen from
outside. -/
theorem C57_rotation_of_move (m : AxisMove) (p : Z3) : Z3.rot (AxisRotation.ofMove m) p = turnOf m p := by
  obtain ⟨⟨a, d⟩, x⟩ := m
  cases d <;> cases x <;> rfl

/-- `L` turns against `x` -/
example : AxisRotation.ofMove ⟨Face.L, .single⟩ = ⟨.X, .inverse⟩ := by decide

/-- **C57** The same for sequences of rotations of any length. -/
theorem C57_sequences (rs : List AxisRotation) :
    (∀ f : Face, (rs.foldl rotated f).normal = rs.foldl (fun p r => Z3.rot r p) f.normal) ∧
    (∀ v : Vec3, (rs.foldl rotated v).point = rs.foldl (fun p r => Z3.rot r p) v.point) := by
  constructor
  · intro f
    induction rs generalizing f with
    | nil => rfl
    | cons r rs ih => simp only [List.foldl_cons, ih, C57_face_rotated]
  · intro v
    induction rs generalizing v with
    | nil => rfl
    | cons r rs ih => simp only [List.foldl_cons, ih, C57_vector_rotated]

/-- `x y` takes the front to the upper face -/
example : ([⟨.X, .single⟩, ⟨.Y, .single⟩].foldl rotated Face.F).normal = Face.U.normal := by
  rw [(C57_sequences _).1]
  decide

/-- **C57** A face is determined by its normal, so the statements above determine the results completely. -/
theorem C57_normal_injective : Function.Injective Face.normal := by
  intro a b; revert a b; decide +kernel

example : Face.normal .R ≠ Face.normal .L := fun h => absurd (C57_normal_injective h) (by decide)

/-- **C57** `cross` is the vector product, and `None` exactly for parallel faces (same or opposite), for which the vector
product is zero. -/
theorem C57_cross_product (f g : Face) :
    (∀ h, Face.cross f g = some h ↔ f.normal.cross g.normal = h.normal) ∧
    (Face.cross f g = none ↔ f.normal.cross g.normal = ⟨0, 0, 0⟩) ∧
    (Face.cross f g = none ↔ f = g ∨ f = g.opposite) := by
  revert f g; decide +kernel

/-- right times up is front -/
example : Face.cross Face.R Face.U = some Face.F := ((C57_cross_product Face.R Face.U).1 Face.F).2 (by decide)

/-- **C57** `coords` is the normal; `contains_vector` tests on which side of the cube the corner is; `index` numbers the
faces in the order of `Face::iter`. -/
theorem C57_coords_contains_index (f : Face) (v : Vec3) :
    f.coords = (f.normal.x, f.normal.y, f.normal.z) ∧
    (f.containsVector v = true ↔ v.point.dot f.normal = 1) ∧
    Face.all[f.index]? = some f := by
  revert f v; decide +kernel

/-- the corner right-down-front is on D and not on U -/
example : Face.D.containsVector ⟨.pos, .neg, .pos⟩ = true ∧ ¬ Face.U.containsVector ⟨.pos, .neg, .pos⟩ = true :=
  ⟨(C57_coords_contains_index _ _).2.1.2 (by decide), fun h => absurd ((C57_coords_contains_index _ _).2.1.1 h) (by decide)⟩

/-- **C57** `next`, `prev`, `next_with_handedness`, `get_handedness`, `other` and `basis` describe the cyclic order
`X → Y → Z → X` of the axes. -/
theorem C57_axis_order (a b : Axis) (d : Direction) :
    (Z3.unit a).cross (Z3.unit a.next) = Z3.unit a.prev ∧ a.next.prev = a ∧ a.prev.next = a ∧
    a.basis = (a.next, a.prev) ∧
    (a.getHandedness b = some d ↔ a.nextWithHandedness d = b) ∧ (a.getHandedness b = none ↔ a = b) ∧
    (∀ c, a.other b = some c ↔ (a ≠ b ∧ a ≠ c ∧ b ≠ c)) ∧ (a.other b = none ↔ a = b) := by
  revert a b d; decide +kernel

example : rotated Face.F (⟨.X, .single⟩ : AxisRotation) = Face.U ∧ rotated Face.U (⟨.Y, .single⟩ : AxisRotation) = Face.U ∧
    Face.cross Face.R Face.U = some Face.F ∧ Face.cross Face.R Face.L = none ∧
    rotated (⟨.pos, .pos, .pos⟩ : Vec3) (⟨.Z, .inverse⟩ : AxisRotation) = ⟨.neg, .pos, .pos⟩ := by decide

/-! ## C56 -/

/-- rotate a wide move: the face is rotated, the depth stays -/
def rotWide {N : Nat} (m : WideAxisMove N) (r : AxisRotation) : WideAxisMove N := ⟨m.depth, rotated m.axisMove r⟩

theorem selMoved_rot {P : Type} [Rotatable P] {s s' : P → Bool} {m : AxisMove} {r : AxisRotation}
    (hs : ∀ p, s' (rotated p r) = s p)
    (hr : ∀ p : P, rotated (rotated p (AxisRotation.ofMove m)) r =
      rotated (rotated p r) (AxisRotation.ofMove (rotated m r)))
    (p : P) :
    rotated (selMoved s p (AxisRotation.ofMove m)) r =
      selMoved s' (rotated p r) (AxisRotation.ofMove (rotated m r)) := by
  unfold selMoved
  rw [hs]
  split
  · exact hr p
  · rfl

/-- every rotation is a repeated quarter turn -/
theorem rotated_iterate {P : Type} [Rotatable P] [LawfulRotatable P] (p : P) (a : Axis) (x : Amount) :
    rotated p (⟨a, x⟩ : AxisRotation) = (fun p => rotated p (⟨a, .single⟩ : AxisRotation))^[quarterTurns x] p := by
  have h1 : ∀ p : P, rotated (rotated p (⟨a, .single⟩ : AxisRotation)) (⟨a, .single⟩ : AxisRotation) =
    rotated p (⟨a, .double⟩ : AxisRotation) := fun p => LawfulRotatable.rot_add p a .single .single
  have h2 : ∀ p : P, rotated (rotated p (⟨a, .double⟩ : AxisRotation)) (⟨a, .single⟩ : AxisRotation) =
    rotated p (⟨a, .inverse⟩ : AxisRotation) := fun p => LawfulRotatable.rot_add p a .double .single
  cases x <;> simp [quarterTurns, h1, h2]

theorem rotated_ofMove_iterate {P : Type} [Rotatable P] [LawfulRotatable P] (p : P) (f : Face) (x : Amount) :
    rotated p (AxisRotation.ofMove ⟨f, x⟩) =
      (fun p => rotated p (AxisRotation.ofMove ⟨f, .single⟩))^[quarterTurns x] p := by
  have h : ∀ (y : Amount) (p : P), rotated (rotated p (AxisRotation.ofMove ⟨f, y⟩)) (AxisRotation.ofMove ⟨f, .single⟩) =
      match y.add .single with
      | none => p
      | some z => rotated p (AxisRotation.ofMove ⟨f, z⟩) := by
    intro y p
    have := LawfulRotatable.rot_add p f.axis (y.mul f.direction) (Amount.single.mul f.direction)
    simp only [AxisRotation.ofMove]
    rw [this, Amount.addMul]
    cases y.add .single <;> rfl
  have h1 := h .single
  have h2 := h .double
  simp only [Amount.add, Amount.toNat] at h1 h2
  cases x <;> simp [quarterTurns, h1, h2]

/-- It is enough to check conjugation for quarter turns. -/
theorem rot_rot_of_single {P : Type} [Rotatable P] [LawfulRotatable P]
    (h : ∀ (p : P) (f : Face) (a : Axis),
      rotated (rotated p (AxisRotation.ofMove ⟨f, .single⟩)) (⟨a, .single⟩ : AxisRotation) =
      rotated (rotated p (⟨a, .single⟩ : AxisRotation))
        (AxisRotation.ofMove ⟨rotated f (⟨a, .single⟩ : AxisRotation), .single⟩))
    (p : P) (m : AxisMove) (r : AxisRotation) :
    rotated (rotated p (AxisRotation.ofMove m)) r = rotated (rotated p r) (AxisRotation.ofMove (rotated m r)) := by
  obtain ⟨f, x⟩ := m
  obtain ⟨a, y⟩ := r
  -- any number of quarter turns of the face
  have h1 : ∀ (k : Nat) (f : Face) (p : P),
      rotated ((fun p => rotated p (AxisRotation.ofMove ⟨f, .single⟩))^[k] p) (⟨a, .single⟩ : AxisRotation) =
      (fun p => rotated p (AxisRotation.ofMove ⟨rotated f (⟨a, .single⟩ : AxisRotation), .single⟩))^[k]
        (rotated p (⟨a, .single⟩ : AxisRotation)) := by
    intro k f
    induction k with
    | zero => intro p; rfl
    | succ k ih => intro p; rw [Function.iterate_succ_apply, Function.iterate_succ_apply, ih, h]
  have h2 : ∀ (f : Face) (p : P),
      rotated (rotated p (AxisRotation.ofMove ⟨f, x⟩)) (⟨a, .single⟩ : AxisRotation) =
      rotated (rotated p (⟨a, .single⟩ : AxisRotation))
        (AxisRotation.ofMove ⟨rotated f (⟨a, .single⟩ : AxisRotation), x⟩) := by
    intro f p
    rw [rotated_ofMove_iterate, rotated_ofMove_iterate, h1]
  have h3 : ∀ (k : Nat) (f : Face) (p : P),
      (fun p => rotated p (⟨a, .single⟩ : AxisRotation))^[k] (rotated p (AxisRotation.ofMove ⟨f, x⟩)) =
      rotated ((fun p => rotated p (⟨a, .single⟩ : AxisRotation))^[k] p)
        (AxisRotation.ofMove ⟨(fun f => rotated f (⟨a, .single⟩ : AxisRotation))^[k] f, x⟩) := by
    intro k
    induction k with
    | zero => intro f p; rfl
    | succ k ih =>
      intro f p
      simp only [Function.iterate_succ_apply]
      rw [h2, ih]
  have h4 : rotated (⟨f, x⟩ : AxisMove) (⟨a, y⟩ : AxisRotation) = ⟨rotated f (⟨a, y⟩ : AxisRotation), x⟩ := rfl
  rw [h4, rotated_iterate p a y, rotated_iterate f a y, rotated_iterate (rotated p (AxisRotation.ofMove ⟨f, x⟩)) a y]
  exact h3 _ f p

/-- It is enough to check invariance of a selection for quarter turns. -/
theorem sel_rotated_of_single {P : Type} [Rotatable P] [LawfulRotatable P] (s : P → Face → Bool)
    (h : ∀ (p : P) (f : Face) (a : Axis),
      s (rotated p (⟨a, .single⟩ : AxisRotation)) (rotated f (⟨a, .single⟩ : AxisRotation)) = s p f)
    (p : P) (f : Face) (r : AxisRotation) : s (rotated p r) (rotated f r) = s p f := by
  obtain ⟨a, y⟩ := r
  have h1 : ∀ (k : Nat) (f : Face) (p : P), s ((fun p => rotated p (⟨a, .single⟩ : AxisRotation))^[k] p)
      ((fun f => rotated f (⟨a, .single⟩ : AxisRotation))^[k] f) = s p f := by
    intro k
    induction k with
    | zero => intro f p; rfl
    | succ k ih =>
      intro f p
      simp only [Function.iterate_succ_apply]
      rw [ih, h]
  rw [rotated_iterate p a y, rotated_iterate f a y]
  exact h1 _ f p

theorem corner_rot_rot (p : Corner) (m : AxisMove) (r : AxisRotation) :
    rotated (rotated p (AxisRotation.ofMove m)) r = rotated (rotated p r) (AxisRotation.ofMove (rotated m r)) :=
  rot_rot_of_single (by decide +kernel) p m r
theorem edge_rot_rot (p : Edge) (m : AxisMove) (r : AxisRotation) :
    rotated (rotated p (AxisRotation.ofMove m)) r = rotated (rotated p r) (AxisRotation.ofMove (rotated m r)) :=
  rot_rot_of_single (by decide +kernel) p m r
theorem wing_rot_rot (p : Wing) (m : AxisMove) (r : AxisRotation) :
    rotated (rotated p (AxisRotation.ofMove m)) r = rotated (rotated p r) (AxisRotation.ofMove (rotated m r)) :=
  rot_rot_of_single (by decide +kernel) p m r
theorem centerCorner_rot_rot (p : CenterCorner) (m : AxisMove) (r : AxisRotation) :
    rotated (rotated p (AxisRotation.ofMove m)) r = rotated (rotated p r) (AxisRotation.ofMove (rotated m r)) :=
  rot_rot_of_single (by decide +kernel) p m r
theorem centerEdge_rot_rot (p : CenterEdge) (m : AxisMove) (r : AxisRotation) :
    rotated (rotated p (AxisRotation.ofMove m)) r = rotated (rotated p r) (AxisRotation.ofMove (rotated m r)) :=
  rot_rot_of_single (by decide +kernel) p m r
theorem centerWing_rot_rot (p : CenterWing) (m : AxisMove) (r : AxisRotation) :
    rotated (rotated p (AxisRotation.ofMove m)) r = rotated (rotated p r) (AxisRotation.ofMove (rotated m r)) :=
  rot_rot_of_single (by decide +kernel) p m r

theorem corner_sel_rotated (c : Corner) (f : Face) (r : AxisRotation) :
    (rotated f r).containsVector (rotated c r).position = f.containsVector c.position :=
  sel_rotated_of_single (fun (c : Corner) f => f.containsVector c.position) (by decide +kernel) c f r
theorem edge_sel_rotated (c : Edge) (f : Face) (r : AxisRotation) :
    (rotated f r).containsEdge (rotated c r) = f.containsEdge c :=
  sel_rotated_of_single (fun (c : Edge) f => f.containsEdge c) (by decide +kernel) c f r
theorem wing_inB_rotated (w : Wing) (f : Face) (b : Bool) (r : AxisRotation) :
    (rotated w r).inB (rotated f r) b = w.inB f b :=
  sel_rotated_of_single (fun (w : Wing) f => w.inB f b) (by revert b; decide +kernel) w f r
theorem centerCorner_inB_rotated (w : CenterCorner) (f : Face) (b : Bool) (r : AxisRotation) :
    (rotated w r).inB (rotated f r) b = w.inB f b :=
  sel_rotated_of_single (fun (w : CenterCorner) f => w.inB f b) (by revert b; decide +kernel) w f r
theorem centerEdge_inB_rotated (w : CenterEdge) (f : Face) (b : Bool) (r : AxisRotation) :
    (rotated w r).inB (rotated f r) b = w.inB f b :=
  sel_rotated_of_single (fun (w : CenterEdge) f => w.inB f b) (by revert b; decide +kernel) w f r
theorem centerWing_inB_rotated (w : CenterWing) (f : Face) (b b' : Bool) (r : AxisRotation) :
    (rotated w r).inB (rotated f r) b b' = w.inB f b b' :=
  sel_rotated_of_single (fun (w : CenterWing) f => w.inB f b b') (by revert b b'; decide +kernel) w f r

theorem corner_rot_move (c : Corner) (m : AxisMove) (r : AxisRotation) :
    rotated (moved c m) r = moved (rotated c r) (rotated m r) := by
  exact selMoved_rot (P := Corner) (s := fun c => m.face.containsVector c.position)
    (s' := fun c => (rotated m.face r).containsVector c.position) (fun p => corner_sel_rotated p _ _) (fun p => corner_rot_rot p _ _) c

theorem edge_rot_move (e : Edge) (m : AxisMove) (r : AxisRotation) :
    rotated (moved e m) r = moved (rotated e r) (rotated m r) := by
  exact selMoved_rot (P := Edge) (s := fun c => m.face.containsEdge c)
    (s' := fun c => (rotated m.face r).containsEdge c) (fun p => edge_sel_rotated p _ _) (fun p => edge_rot_rot p _ _) e

/-- **C56** Corners: moving and then rotating is rotating and then applying the rotated move. -/
theorem C56_corner (c : Corner) (m : AxisMove) (r : AxisRotation) :
    rotated (moved c m) r = moved (rotated c r) (rotated m r) := corner_rot_move c m r

/-- `R` followed by `y` is `y` followed by `F` -/
example (c : Corner) : rotated (moved c (⟨Face.R, .single⟩ : AxisMove)) (⟨.Y, .single⟩ : AxisRotation) =
    moved (rotated c (⟨.Y, .single⟩ : AxisRotation)) (⟨Face.F, .single⟩ : AxisMove) := C56_corner c _ _

/-- **C56** Edges. -/
theorem C56_edge (e : Edge) (m : AxisMove) (r : AxisRotation) :
    rotated (moved e m) r = moved (rotated e r) (rotated m r) := edge_rot_move e m r

/-- the same for edges -/
example (e : Edge) : rotated (moved e (⟨Face.R, .single⟩ : AxisMove)) (⟨.Y, .single⟩ : AxisRotation) =
    moved (rotated e (⟨.Y, .single⟩ : AxisRotation)) (⟨Face.F, .single⟩ : AxisMove) := C56_edge e _ _

/-- **C56** Wings, centre corners, centre edges and centre wings, for any depths and wide moves. -/
theorem C56_depth_pieces {N : Nat} (nd td : Nat) (m : WideAxisMove N) (r : AxisRotation) :
    (∀ p : Wing, rotated (DepthPiece.moved nd td p m) r = DepthPiece.moved nd td (rotated p r) (rotWide m r)) ∧
    (∀ p : CenterCorner, rotated (DepthPiece.moved nd td p m) r = DepthPiece.moved nd td (rotated p r) (rotWide m r)) ∧
    (∀ p : CenterEdge, rotated (DepthPiece.moved nd td p m) r = DepthPiece.moved nd td (rotated p r) (rotWide m r)) ∧
    (∀ p : CenterWing, rotated (DepthPiece.moved nd td p m) r = DepthPiece.moved nd td (rotated p r) (rotWide m r)) := by
  refine ⟨fun p => ?_, fun p => ?_, fun p => ?_, fun p => ?_⟩
  · rw [DepthPiece.moved_eq, DepthPiece.moved_eq]
    refine selMoved_rot (P := Wing) ?_ (fun p => wing_rot_rot p _ _) p
    intro p
    rw [Wing.in_eq, Wing.in_eq]
    exact wing_inB_rotated _ _ _ _
  · rw [DepthPiece.moved_eq, DepthPiece.moved_eq]
    refine selMoved_rot (P := CenterCorner) ?_ (fun p => centerCorner_rot_rot p _ _) p
    intro p
    rw [CenterCorner.in_eq, CenterCorner.in_eq]
    exact centerCorner_inB_rotated _ _ _ _
  · rw [DepthPiece.moved_eq, DepthPiece.moved_eq]
    refine selMoved_rot (P := CenterEdge) ?_ (fun p => centerEdge_rot_rot p _ _) p
    intro p
    rw [CenterEdge.in_eq, CenterEdge.in_eq]
    exact centerEdge_inB_rotated _ _ _ _
  · rw [DepthPiece.moved_eq, DepthPiece.moved_eq]
    refine selMoved_rot (P := CenterWing) ?_ (fun p => centerWing_rot_rot p _ _) p
    intro p
    rw [CenterWing.in_eq, CenterWing.in_eq]
    exact centerWing_inB_rotated _ _ _ _ _

/-- and for the wings of a 6x6 -/
example (p : Wing) : rotated (DepthPiece.moved 1 0 p (⟨1, ⟨Face.R, .single⟩⟩ : WideAxisMove 2)) (⟨.Y, .single⟩ : AxisRotation) =
    DepthPiece.moved 1 0 (rotated p (⟨.Y, .single⟩ : AxisRotation)) (⟨1, ⟨Face.F, .single⟩⟩ : WideAxisMove 2) :=
  (C56_depth_pieces 1 0 ⟨1, ⟨Face.R, .single⟩⟩ ⟨.Y, .single⟩).1 p

/-- every piece of a 3x3 rotated as a whole -/
def Cube3.rotatedPieces (c : Cube3) (r : AxisRotation) : Cube3 :=
  ⟨fun i => rotated (c.edges i) r, fun i => rotated (c.corners i) r⟩

/-- **C56** Whole algs on the 3x3: rotating all pieces of the result is the result of the rotated alg on the rotated
pieces. -/
theorem C56_cube3_alg (c : Cube3) (alg : List AxisMove) (r : AxisRotation) :
    (movedAlg c alg).rotatedPieces r = movedAlg (c.rotatedPieces r) (rotated alg r) := by
  induction alg generalizing c with
  | nil => rfl
  | cons m l ih =>
    have : (moved c m).rotatedPieces r = moved (c.rotatedPieces r) (rotated m r) := by
      refine Cube3.ext (funext fun i => ?_) (funext fun i => ?_)
      · exact edge_rot_move _ _ _
      · exact corner_rot_move _ _ _
    show (movedAlg (moved c m) l).rotatedPieces r = movedAlg (moved (c.rotatedPieces r) (rotated m r)) (rotated l r)
    rw [← this]; exact ih _

/-- `R U` seen after `y` is `F U` -/
example (c : Cube3) : (movedAlg c [(⟨Face.R, .single⟩ : AxisMove), ⟨Face.U, .single⟩]).rotatedPieces ⟨.Y, .single⟩ =
    movedAlg (c.rotatedPieces ⟨.Y, .single⟩) [(⟨Face.F, .single⟩ : AxisMove), ⟨Face.U, .single⟩] :=
  C56_cube3_alg c [⟨Face.R, .single⟩, ⟨Face.U, .single⟩] ⟨.Y, .single⟩

/-- every piece of a 7x7 rotated as a whole -/
def Cube7.rotatedPieces (c : Cube7) (r : AxisRotation) : Cube7 :=
  ⟨fun i => rotated (c.corners i) r, fun i => rotated (c.edges i) r, fun i => rotated (c.wings1 i) r,
   fun i => rotated (c.wings2 i) r, fun i => rotated (c.centerCorners1 i) r, fun i => rotated (c.centerCorners2 i) r,
   fun i => rotated (c.centerWings i) r, fun i => rotated (c.centerEdges1 i) r, fun i => rotated (c.centerEdges2 i) r⟩

/-- **C56** Whole algs of wide moves on the 7x7, which contains every kind of piece. -/
theorem C56_cube7_alg (c : Cube7) (alg : List (WideAxisMove 2)) (r : AxisRotation) :
    (movedAlg c alg).rotatedPieces r = movedAlg (c.rotatedPieces r) (alg.map (rotWide · r)) := by
  induction alg generalizing c with
  | nil => rfl
  | cons m l ih =>
    have : (moved c m).rotatedPieces r = moved (c.rotatedPieces r) (rotWide m r) := by
      have h := fun nd td => C56_depth_pieces nd td m r
      refine Cube7.ext (funext fun i => ?_) (funext fun i => ?_) (funext fun i => ?_) (funext fun i => ?_)
        (funext fun i => ?_) (funext fun i => ?_) (funext fun i => ?_) (funext fun i => ?_) (funext fun i => ?_)
      · exact corner_rot_move _ _ _
      · exact edge_rot_move _ _ _
      · exact (h _ _).1 _
      · exact (h _ _).1 _
      · exact (h _ _).2.1 _
      · exact (h _ _).2.1 _
      · exact (h _ _).2.2.2 _
      · exact (h _ _).2.2.1 _
      · exact (h _ _).2.2.1 _
    show (movedAlg (moved c m) l).rotatedPieces r = movedAlg (moved (c.rotatedPieces r) (rotWide m r)) _
    rw [← this]; exact ih _

example : rotated (⟨Face.R, .single⟩ : AxisMove) (⟨.Y, .single⟩ : AxisRotation) = ⟨Face.F, .single⟩ ∧
    moved Cube3.SOLVED (⟨Face.R, .single⟩ : AxisMove) ≠ Cube3.SOLVED ∧
    Cube3.SOLVED.rotatedPieces ⟨.Y, .single⟩ ≠ Cube3.SOLVED := by decide +kernel

/-! ## C55 -/

theorem movedAlg_cube3 (c : Cube3) (alg : List AxisMove) :
    movedAlg c alg = ⟨fun i => movedAlg (c.edges i) alg, fun i => movedAlg (c.corners i) alg⟩ := by
  induction alg generalizing c with
  | nil => rfl
  | cons m l ih => exact ih (moved c m)

/-- An alg that fixes every state of one edge and of one corner fixes every state of the 3x3. -/
theorem cube3_fixed_of_pieces {alg : List AxisMove} (he : ∀ e : Edge, movedAlg e alg = e)
    (hc : ∀ c : Corner, movedAlg c alg = c) (c : Cube3) : movedAlg c alg = c := by
  rw [movedAlg_cube3]
  simp only [he, hc]

/-- `k` repetitions of an alg -/
def repeated (k : Nat) (alg : List AxisMove) : List AxisMove := (List.replicate k alg).flatten

/-- **C55** Six sexy moves, two T perms, three U perms, two J perms are the identity on every state of the 3x3, valid or
not. -/
theorem C55_orders (c : Cube3) :
    movedAlg c (repeated 6 Perms.SEXY_MOVE) = c ∧ movedAlg c (repeated 2 Perms.T) = c ∧
    movedAlg c (repeated 3 Perms.U) = c ∧ movedAlg c (repeated 2 Perms.J) = c :=
  ⟨cube3_fixed_of_pieces (by decide +kernel) (by decide +kernel) c,
   cube3_fixed_of_pieces (by decide +kernel) (by decide +kernel) c,
   cube3_fixed_of_pieces (by decide +kernel) (by decide +kernel) c,
   cube3_fixed_of_pieces (by decide +kernel) (by decide +kernel) c⟩

/-- on a cube that is not solved -/
example : movedAlg (moved Cube3.SOLVED (⟨Face.F, .single⟩ : AxisMove)) (repeated 2 Perms.T) = moved Cube3.SOLVED (⟨Face.F, .single⟩ : AxisMove) :=
  (C55_orders _).2.1

/-- **C55** and no smaller positive number of repetitions does, already on the solved cube: these are the exact orders. -/
theorem C55_no_smaller :
    (∀ k : Nat, k ∈ [1, 2, 3, 4, 5] → movedAlg Cube3.SOLVED (repeated k Perms.SEXY_MOVE) ≠ Cube3.SOLVED) ∧
    movedAlg Cube3.SOLVED (repeated 1 Perms.T) ≠ Cube3.SOLVED ∧
    (∀ k : Nat, k ∈ [1, 2] → movedAlg Cube3.SOLVED (repeated k Perms.U) ≠ Cube3.SOLVED) ∧
    movedAlg Cube3.SOLVED (repeated 1 Perms.J) ≠ Cube3.SOLVED := by
  decide +kernel

/-- A number of quarter-turn repetitions that restores *one* state does not restore every state: the claim is really
about all states. (Three T perms are not the identity.) -/
example : movedAlg Cube3.SOLVED (repeated 3 Perms.T) ≠ Cube3.SOLVED := by decide +kernel

end Barbarosa
