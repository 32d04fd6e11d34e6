import Verif.Props.Stickers
import Verif.Props.Mus
import Verif.Spec.Meaning

/-!
# What orientation means

C67: the fields and functions about orientation mean what their documentation says, in terms of stickers and turns in
space. C68: the corner table is a table of all states of the 2x2.
-/

namespace Barbarosa

open Equiv

/-! ## Corners -/

/-- **C67** A third of a turn is a rotation of space: it keeps the diagonal, scalar products and vector products with the
diagonal, and three of them are the identity. -/
theorem thirdTurn_rotation (d : Vec3) :
    ThirdTurn d.point d.point d.point ∧
    (∀ v w : Z3, ThirdTurn d.point v w → d.point.dot w = d.point.dot v ∧ w.dot w = v.dot v) ∧
    (∀ a b c e : Z3, ThirdTurn d.point a b → ThirdTurn d.point b c → ThirdTurn d.point c e → e = a) := by
  rcases d with ⟨_ | _, _ | _, _ | _⟩ <;>
  · refine ⟨by unfold ThirdTurn; decide, fun v w h => ?_, fun a b c e h1 h2 h3 => ?_⟩
    · obtain ⟨x, y, z⟩ := v
      obtain ⟨x', y', z'⟩ := w
      simp only [ThirdTurn, Z3.smul, Z3.add, Z3.neg, Z3.cross, Z3.dot, Vec3.point, Direction.sign, Z3.mk.injEq] at h ⊢
      obtain ⟨h1, h2, h3⟩ := h
      refine ⟨by omega, ?_⟩
      first | rw [show x' = y by omega] | rw [show x' = -y by omega] | rw [show x' = z by omega] | rw [show x' = -z by omega]
      first | rw [show y' = x by omega] | rw [show y' = -x by omega] | rw [show y' = z by omega] | rw [show y' = -z by omega]
      first | rw [show z' = x by omega] | rw [show z' = -x by omega] | rw [show z' = y by omega] | rw [show z' = -y by omega]
      ring
    · obtain ⟨x, y, z⟩ := a
      obtain ⟨x1, y1, z1⟩ := b
      obtain ⟨x2, y2, z2⟩ := c
      obtain ⟨x3, y3, z3⟩ := e
      simp only [ThirdTurn, Z3.smul, Z3.add, Z3.neg, Z3.cross, Z3.dot, Vec3.point, Direction.sign, Z3.mk.injEq] at h1 h2 h3 ⊢
      omega

/-- **C67** The documentation of `orientation_axis`: it is the axis of the sticker that belongs on the U-D axis. -/
theorem C67_corner_axis (c : Corner) (orig : Vec3) (f : Face) (col : Color) :
    (f, col) ∈ Corner.colors c orig → (col.face.axis = .Y ↔ f.axis = c.orientationAxis) := by
  rcases f with ⟨fa, fd⟩
  rcases col with ⟨⟨ca, cd⟩⟩
  revert c orig fa fd ca cd
  decide +kernel

/-- the corner right-up-front twisted once: its U sticker is on F -/
example : (Face.F, (⟨Face.U⟩ : Color)) ∈ Corner.colors (Corner.oriented ⟨.pos, .pos, .pos⟩).twist ⟨.pos, .pos, .pos⟩ ∧
    (Corner.oriented ⟨.pos, .pos, .pos⟩).twist.orientationAxis = .Z := by decide

/-- **C67** There is exactly one such sticker, and it is the one of the colour of the U or D face of the home. -/
theorem C67_corner_sticker (c : Corner) (orig : Vec3) (f : Face) :
    (f, ⟨⟨.Y, orig.y⟩⟩) ∈ Corner.colors c orig ↔ f = ⟨c.orientationAxis, c.position.at c.orientationAxis⟩ := by
  rcases f with ⟨fa, fd⟩
  revert c orig fa fd
  decide +kernel

/-- the corner of D, F and R after a twist: its D sticker is on R -/
example : (Face.R, (⟨Face.D⟩ : Color)) ∈ Corner.colors (Corner.mk ⟨.pos, .neg, .pos⟩ .X) ⟨.pos, .neg, .pos⟩ :=
  (C67_corner_sticker ⟨⟨.pos, .neg, .pos⟩, .X⟩ ⟨.pos, .neg, .pos⟩ Face.R).2 rfl

/-- **C67** `twist` turns the corner in its place by a third of a turn, counter-clockwise seen from outside: the sticker on a
face goes to the face that the turn carries it to. `next_axis` does the same to axes. -/
theorem C67_twist (c : Corner) :
    c.twist.position = c.position ∧
    (∀ (orig : Vec3) (f g : Face) (col : Color), (f, col) ∈ Corner.colors c orig → (g, col) ∈ Corner.colors c.twist orig →
      ThirdTurn c.position.point f.normal g.normal) ∧
    ∀ a : Axis, ThirdTurn c.position.point (Face.normal ⟨a, c.position.at a⟩)
      (Face.normal ⟨Corner.nextAxis c.position a, c.position.at (Corner.nextAxis c.position a)⟩) := by
  refine ⟨rfl, ?_, ?_⟩
  · intro orig f g col hf hg
    have key : ∀ (c : Corner) (orig : Vec3), ∀ p ∈ Corner.colors c orig, ∀ q ∈ Corner.colors c.twist orig, p.2 = q.2 →
        (q.1.normal.smul 2 = (p.1.normal.neg.add (c.position.point.cross p.1.normal)).add
          (c.position.point.smul (c.position.point.dot p.1.normal))) := by decide +kernel
    exact key c orig _ hf _ hg rfl
  · have key : ∀ (c : Corner) (a : Axis), (Face.normal ⟨Corner.nextAxis c.position a, c.position.at (Corner.nextAxis c.position a)⟩).smul 2 =
        ((Face.normal ⟨a, c.position.at a⟩).neg.add (c.position.point.cross (Face.normal ⟨a, c.position.at a⟩))).add
          (c.position.point.smul (c.position.point.dot (Face.normal ⟨a, c.position.at a⟩))) := by decide +kernel
    exact key c

/-- a corner in its place -/
example : (Corner.twist ⟨⟨.pos, .pos, .pos⟩, .Y⟩).position = ⟨.pos, .pos, .pos⟩ ∧
    (Corner.twist ⟨⟨.pos, .pos, .pos⟩, .Y⟩).orientationAxis ≠ .Y := ⟨(C67_twist _).1, by decide⟩

/-- **C67** The open question in the documentation of `orientation_index` ("i think"): it *is* the number of counter-clockwise
twists that lead from the oriented corner to this one, and no other number below three does. -/
theorem C67_orientation_index (c : Corner) (n : Nat) (hn : n < 3) :
    Corner.twist^[n] (Corner.oriented c.position) = c ↔ n = c.orientationIndex := by
  have key : ∀ (c : Corner) (n : Fin 3), Corner.twist^[n.val] (Corner.oriented c.position) = c ↔ n.val = c.orientationIndex := by
    decide +kernel
  exact key c ⟨n, hn⟩

/-- twice twisted -/
example : Corner.twist^[2] (Corner.oriented ⟨.pos, .neg, .pos⟩) = ⟨⟨.pos, .neg, .pos⟩, .Z⟩ :=
  (C67_orientation_index ⟨⟨.pos, .neg, .pos⟩, .Z⟩ 2 (by decide)).2 (by decide)

/-- **C67** `is_oriented` holds iff no twist is needed, and iff the sticker for the U-D axis is on it. -/
theorem C67_is_oriented_partial (c : Corner) :
    (c.isOriented = true ↔ c.orientationIndex = 0) ∧ (c.isOriented = true ↔ c.orientationAxis = .Y) := by
  revert c; decide +kernel

example : (Corner.mk ⟨.pos, .neg, .pos⟩ .Y).isOriented = true ∧ (Corner.mk ⟨.pos, .neg, .pos⟩ .X).isOriented ≠ true :=
  ⟨(C67_is_oriented_partial _).2.2 rfl, fun h => absurd ((C67_is_oriented_partial _).2.1 h) (by decide)⟩

/-- **C67** The documentation of `is_oriented` names the X axis; that is never right. -/
theorem C67_is_oriented_doc (c : Corner) : (c.isOriented = true ↔ c.orientationAxis = .X) ↔ c.orientationAxis = .Z := by
  revert c; decide +kernel

example : ¬ ((Corner.mk ⟨.pos, .neg, .pos⟩ .X).isOriented = true ↔ (Corner.mk ⟨.pos, .neg, .pos⟩ .X).orientationAxis = .X) :=
  fun h => absurd ((C67_is_oriented_doc _).1 h) (by decide)

/-- **C67** A turn changes the orientation axis of a corner iff the corner is on the face, the turn is by a quarter and the
axis is not the one of the turn. Hence the orientation of corners changes only under quarter turns of R, L, F and B, if
the corner is oriented. -/
theorem C67_corner_move (c : Corner) (m : AxisMove) :
    (moved c m).orientationAxis ≠ c.orientationAxis ↔
      m.face ∈ c.faces ∧ m.amount ≠ .double ∧ c.orientationAxis ≠ m.face.axis := by
  revert c m; decide +kernel

example : (Corner.mk ⟨.pos, .neg, .pos⟩ .X).orientationIndex = 1 ∧ (Corner.mk ⟨.pos, .neg, .pos⟩ .Z).orientationIndex = 2 ∧
    (Face.F, (⟨Face.U⟩ : Color)) ∈ Corner.colors (Corner.oriented ⟨.pos, .pos, .pos⟩).twist ⟨.pos, .pos, .pos⟩ := by
  decide

/-! ## Edges -/

/-- **C67** `orientation_face` is the face of U and D if the edge has one, otherwise the face of F and B. -/
theorem C67_orientation_face (e : Edge) (f g : Face) (h : [f, g].Perm [e.faces.1, e.faces.2]) :
    (IsOrientationFace f g ↔ f = Edge.orientationFace e.position) ∧
    (IsOrientationFace f g ↔ g = Edge.nonOrientationFace e.position) := by
  have key : ∀ e : Edge, ∀ p ∈ [(e.faces.1, e.faces.2), (e.faces.2, e.faces.1)],
      ((p.1.axis = .Y ∨ p.1.axis = .Z ∧ p.2.axis = .X) ↔ p.1 = Edge.orientationFace e.position) ∧
      ((p.1.axis = .Y ∨ p.1.axis = .Z ∧ p.2.axis = .X) ↔ p.2 = Edge.nonOrientationFace e.position) := by decide +kernel
  have hp : (f, g) ∈ [(e.faces.1, e.faces.2), (e.faces.2, e.faces.1)] := by
    have := List.perm_pair.1 h
    rcases this with ⟨rfl, rfl⟩ | ⟨rfl, rfl⟩ <;> simp
  exact key e _ hp

/-- the edge UR -/
example : Face.U = Edge.orientationFace (.Z, ⟨.pos, .pos⟩) :=
  (C67_orientation_face ⟨.Z, ⟨.pos, .pos⟩, true⟩ Face.U Face.R (by decide)).1.1 (by unfold IsOrientationFace; decide)

/-- **C67** An edge is oriented iff its orientation sticker (the one on the orientation face of its home when it is solved) is
on the orientation face of the place where it is. -/
theorem C67_edge_oriented (e : Edge) (orig : Edge.Pos) :
    e.oriented = true ↔ (Edge.orientationFace e.position, ⟨Edge.orientationFace orig⟩) ∈ Edge.colors e orig := by
  revert e orig; decide +kernel

example : (moved (⟨.Z, ⟨.pos, .pos⟩, true⟩ : Edge) (⟨Face.R, .single⟩ : AxisMove)).oriented = true ∧
    (moved (⟨.Z, ⟨.pos, .pos⟩, true⟩ : Edge) (⟨Face.U, .single⟩ : AxisMove)).oriented = true :=
  ⟨(C67_edge_oriented _ (.Z, ⟨.pos, .pos⟩)).2 (by decide), (C67_edge_oriented _ (.Z, ⟨.pos, .pos⟩)).2 (by decide)⟩

/-- **C67** A turn changes the orientation of an edge iff the edge is on the face and the turn is one of F, F', B, B'. -/
theorem C67_edge_move (e : Edge) (m : AxisMove) :
    (moved e m).oriented ≠ e.oriented ↔ (m.face = e.faces.1 ∨ m.face = e.faces.2) ∧ FlipsEdges m := by
  have key : ∀ (e : Edge) (m : AxisMove), (moved e m).oriented ≠ e.oriented ↔
      (m.face = e.faces.1 ∨ m.face = e.faces.2) ∧ ((m.face = Face.F ∨ m.face = Face.B) ∧ m.amount ≠ .double) := by
    decide +kernel
  exact key e m

/-- `F` flips the edge UF, `U` does not -/
example : (moved (⟨.X, ⟨.pos, .pos⟩, true⟩ : Edge) (⟨Face.F, .single⟩ : AxisMove)).oriented ≠ true ∧
    ¬ (moved (⟨.X, ⟨.pos, .pos⟩, true⟩ : Edge) (⟨Face.U, .single⟩ : AxisMove)).oriented ≠ true :=
  ⟨(C67_edge_move ⟨.X, ⟨.pos, .pos⟩, true⟩ _).2 (by decide), fun h => absurd ((C67_edge_move ⟨.X, ⟨.pos, .pos⟩, true⟩ _).1 h) (by decide)⟩

/-- **C67** On a valid cube exactly the four edges of the face change their orientation under F, F', B, B'; no other turn
changes the orientation of any edge. -/
theorem C67_four_flips (c : Cube3) (hc : c.valid) (m : AxisMove) :
    (Finset.univ.filter fun i => ((moved c m).edges i).oriented ≠ (c.edges i).oriented).card = if FlipsEdges m then 4 else 0 := by
  obtain ⟨hv, -⟩ := (valid_iff c).1 hc
  obtain ⟨σ, hσ⟩ := hv.arranged
  have e1 : ∀ i, (moved c m).edges i = moved (c.edges i) m := fun _ => rfl
  have e2 : ∀ i, ((c.edges i).faces) = (Edge.mk (Edge.REFERENCE_POSITIONS (σ i)).1 (Edge.REFERENCE_POSITIONS (σ i)).2 true).faces := by
    intro i
    have := hσ i
    rw [← show (Edge.mk (c.edges i).position.1 (c.edges i).position.2 true).faces = (c.edges i).faces from rfl]
    exact congrArg (fun p : Edge.Pos => (Edge.mk p.1 p.2 true).faces) this
  have e3 : (Finset.univ.filter fun i => ((moved c m).edges i).oriented ≠ (c.edges i).oriented) =
      (Finset.univ.filter fun j => (m.face = (Edge.mk (Edge.REFERENCE_POSITIONS j).1 (Edge.REFERENCE_POSITIONS j).2 true).faces.1 ∨
        m.face = (Edge.mk (Edge.REFERENCE_POSITIONS j).1 (Edge.REFERENCE_POSITIONS j).2 true).faces.2) ∧ FlipsEdges m).map
        σ.symm.toEmbedding := by
    ext i
    simp only [Finset.mem_filter, Finset.mem_univ, true_and, Finset.mem_map_equiv, Equiv.symm_symm]
    rw [e1, C67_edge_move, e2]
  rw [e3, Finset.card_map]
  clear e3 e1
  revert m
  decide +kernel

/-- `F` on a cube with a flipped edge -/
example : (Finset.univ.filter fun i => ((moved oneFlip (⟨Face.F, .single⟩ : AxisMove)).edges i).oriented ≠ (oneFlip.edges i).oriented).card = 4 :=
  C67_four_flips oneFlip (by unfold Cube3.valid; decide +kernel) ⟨Face.F, .single⟩

/-- **C67** Algs without F, F', B, B' keep the orientation of every edge, in every state. -/
theorem C67_no_flips (alg : List AxisMove) (h : ∀ m ∈ alg, ¬ FlipsEdges m) (c : Cube3) (i : Fin 12) :
    ((movedAlg c alg).edges i).oriented = (c.edges i).oriented := by
  induction alg generalizing c with
  | nil => rfl
  | cons m w ih =>
    show ((movedAlg (moved c m) w).edges i).oriented = _
    rw [ih (fun x hx => h x (List.mem_cons_of_mem _ hx))]
    by_contra hne
    exact h m (List.mem_cons_self) ((C67_edge_move (c.edges i) m).1 hne).2

example : ¬ FlipsEdges ⟨Face.R, .single⟩ ∧ ¬ FlipsEdges ⟨Face.F, .double⟩ ∧ FlipsEdges ⟨Face.B, .inverse⟩ ∧
    IsOrientationFace Face.U Face.F ∧ IsOrientationFace Face.B Face.L ∧ ¬ IsOrientationFace Face.R Face.F := by
  refine ⟨by decide, by decide, by decide, Or.inl rfl, Or.inr ⟨rfl, rfl⟩, ?_⟩
  rintro (h | ⟨h, -⟩) <;> cases h

/-! ## What one move does -/

/-- **C69** A move moves exactly four edges and four corners, on every valid cube. -/
theorem C69_four_pieces (c : Cube3) (hc : c.valid) (m : AxisMove) :
    (Finset.univ.filter fun i => ((moved c m).edges i).position ≠ (c.edges i).position).card = 4 ∧
    (Finset.univ.filter fun i => ((moved c m).corners i).position ≠ (c.corners i).position).card = 4 := by
  obtain ⟨h1, h2⟩ := (valid_iff c).1 hc
  obtain ⟨σ, hσ⟩ := h1.arranged
  obtain ⟨τ, hτ⟩ := h2.arranged
  constructor
  · have e : (Finset.univ.filter fun i => ((moved c m).edges i).position ≠ (c.edges i).position) =
        (Finset.univ.filter fun j => edgePosMoved (Edge.REFERENCE_POSITIONS j) m ≠ Edge.REFERENCE_POSITIONS j).map
          σ.symm.toEmbedding := by
      ext i
      simp only [Finset.mem_filter, Finset.mem_univ, true_and, Finset.mem_map_equiv, Equiv.symm_symm]
      rw [show (moved c m).edges i = moved (c.edges i) m from rfl, edge_pos_moved,
        show (c.edges i).position = Edge.REFERENCE_POSITIONS (σ i) from hσ i]
    rw [e, Finset.card_map]
    clear e
    revert m
    decide +kernel
  · have e : (Finset.univ.filter fun i => ((moved c m).corners i).position ≠ (c.corners i).position) =
        (Finset.univ.filter fun j => cornerPosMoved (Corner.REFERENCE_POSITIONS j) m ≠ Corner.REFERENCE_POSITIONS j).map
          τ.symm.toEmbedding := by
      ext i
      simp only [Finset.mem_filter, Finset.mem_univ, true_and, Finset.mem_map_equiv, Equiv.symm_symm]
      rw [show (moved c m).corners i = moved (c.corners i) m from rfl, corner_pos_moved,
        show (c.corners i).position = Corner.REFERENCE_POSITIONS (τ i) from hτ i]
    rw [e, Finset.card_map]
    clear e
    revert m
    decide +kernel

/-- four edges move -/
example : (Finset.univ.filter fun i => ((moved oneFlip (⟨Face.F, .double⟩ : AxisMove)).edges i).position ≠ (oneFlip.edges i).position).card = 4 :=
  (C69_four_pieces oneFlip (by unfold Cube3.valid; decide +kernel) ⟨Face.F, .double⟩).1

/-- **C69** A quarter turn permutes edges and corners by an odd permutation each, a half turn by an even one. -/
theorem C69_parity (c : Cube3) (m : AxisMove) :
    ∃ (ρ : Perm (Fin 12)) (π : Perm (Fin 8)),
      (∀ σ, c.edges.Arranged σ → (moved c m).edges.Arranged (ρ * σ)) ∧
      (∀ τ, c.corners.Arranged τ → (moved c m).corners.Arranged (π * τ)) ∧
      Perm.sign ρ = (if m.amount = .double then 1 else -1) ∧ Perm.sign π = (if m.amount = .double then 1 else -1) := by
  have he := fun (s : PieceSet Edge 12) (σ : Perm (Fin 12)) (f : Face) (h : s.Arranged σ) => arranged_edges_single h f
  have hk := fun (s : PieceSet Corner 8) (σ : Perm (Fin 8)) (f : Face) (h : s.Arranged σ) => arranged_corners_single h f
  obtain ⟨f, x⟩ := m
  cases x with
  | single =>
    exact ⟨edgeTurn f, cornerTurn f, fun σ h => he _ _ _ h, fun τ h => hk _ _ _ h, sign_edgeTurn f, sign_cornerTurn f⟩
  | double =>
    refine ⟨edgeTurn f * edgeTurn f, cornerTurn f * cornerTurn f, fun σ h => ?_, fun τ h => ?_, ?_, ?_⟩
    · rw [(cube3_quarters c f).1, mul_assoc]; exact he _ _ _ (he _ _ _ h)
    · rw [(cube3_quarters c f).1, mul_assoc]; exact hk _ _ _ (hk _ _ _ h)
    · rw [Perm.sign_mul, sign_edgeTurn]; rfl
    · rw [Perm.sign_mul, sign_cornerTurn]; rfl
  | inverse =>
    refine ⟨edgeTurn f * (edgeTurn f * edgeTurn f), cornerTurn f * (cornerTurn f * cornerTurn f), fun σ h => ?_, fun τ h => ?_, ?_, ?_⟩
    · rw [(cube3_quarters c f).2, mul_assoc, mul_assoc]; exact he _ _ _ (he _ _ _ (he _ _ _ h))
    · rw [(cube3_quarters c f).2, mul_assoc, mul_assoc]; exact hk _ _ _ (hk _ _ _ (hk _ _ _ h))
    · rw [Perm.sign_mul, Perm.sign_mul, sign_edgeTurn]; rfl
    · rw [Perm.sign_mul, Perm.sign_mul, sign_cornerTurn]; rfl

/-- a quarter turn is odd for the edges -/
example (c : Cube3) : ∃ ρ : Perm (Fin 12), (∀ σ, c.edges.Arranged σ → (moved c (⟨Face.R, .single⟩ : AxisMove)).edges.Arranged (ρ * σ)) ∧
    Perm.sign ρ = -1 := by
  obtain ⟨ρ, -, h, -, h', -⟩ := C69_parity c ⟨Face.R, .single⟩
  exact ⟨ρ, h, h'⟩

/-- bounds for the change of one orientation index: 1 up or 2 down, or 2 up and 1 down, or nothing -/
def indexBounds (m : AxisMove) (p : Vec3) : Int × Int :=
  if m.face.containsVector p = false ∨ m.amount = .double ∨ m.face.axis = .Y then (0, 0)
  else if ∃ c : Corner, c.position = p ∧ (moved c m).orientationIndex = c.orientationIndex + 2 then (1, 2) else (2, 1)

theorem indexBounds_table : ∀ (m : AxisMove) (c : Corner),
    ((moved c m).orientationIndex : Int) - c.orientationIndex ≤ (indexBounds m c.position).2 ∧
    -(indexBounds m c.position).1 ≤ ((moved c m).orientationIndex : Int) - c.orientationIndex := by decide +kernel

theorem indexBounds_sum (m : AxisMove) :
    (∑ i, (indexBounds m (Corner.REFERENCE_POSITIONS i)).1 ≤ 6 ∧ ∑ i, (indexBounds m (Corner.REFERENCE_POSITIONS i)).2 ≤ 6) := by
  revert m; decide +kernel

/-- **C69** A move changes the sum of the orientation indices by -6, -3, 0, 3 or 6 (the documentation only mentions 0 and 6); half turns and turns of U
and D change no index at all. -/
theorem C69_index_sum_partial (c : Cube3) (hc : c.valid) (m : AxisMove) :
    ((∑ i, ((moved c m).corners i).orientationIndex : Nat) : Int) - ((∑ i, (c.corners i).orientationIndex : Nat) : Int) ∈ ({-6, -3, 0, 3, 6} : Set Int) ∧
    (m.amount = .double ∨ m.face = Face.U ∨ m.face = Face.D →
      ∀ i, ((moved c m).corners i).orientationIndex = (c.corners i).orientationIndex) := by
  obtain ⟨h1, h2⟩ := (valid_iff c).1 hc
  obtain ⟨τ, hτ⟩ := h2.arranged
  have h3 := (C12_conserved c hc [m]).2.2
  have hb := indexBounds_sum m
  have hs : ∀ g : Vec3 → Int, ∑ i, g (c.corners i).position = ∑ i, g (Corner.REFERENCE_POSITIONS i) := fun g => Arranged.sum hτ g
  have hu : ∑ i, (((moved c m).corners i).orientationIndex - (c.corners i).orientationIndex : Int) ≤
      ∑ i, (indexBounds m (c.corners i).position).2 := Finset.sum_le_sum fun i _ => (indexBounds_table m (c.corners i)).1
  have hl : ∑ i, -(indexBounds m (c.corners i).position).1 ≤
      ∑ i, (((moved c m).corners i).orientationIndex - (c.corners i).orientationIndex : Int) :=
    Finset.sum_le_sum fun i _ => (indexBounds_table m (c.corners i)).2
  rw [hs fun p => (indexBounds m p).2] at hu
  rw [Finset.sum_neg_distrib, hs fun p => (indexBounds m p).1] at hl
  rw [Finset.sum_sub_distrib, ← Nat.cast_sum, ← Nat.cast_sum] at hu hl
  constructor
  · have h4 : (∑ i, ((moved c m).corners i).orientationIndex) % 3 = (∑ i, (c.corners i).orientationIndex) % 3 := h3
    simp only [Set.mem_insert_iff, Set.mem_singleton_iff]
    omega
  · intro hm i
    have key : ∀ (m : AxisMove) (c : Corner), m.amount = .double ∨ m.face = Face.U ∨ m.face = Face.D →
      (moved c m).orientationIndex = c.orientationIndex := by decide +kernel
    exact key m (c.corners i) hm

/-- `U` leaves the corners oriented as they are -/
example (i : Fin 8) : ((moved oneFlip (⟨Face.U, .single⟩ : AxisMove)).corners i).orientationIndex = (oneFlip.corners i).orientationIndex :=
  (C69_index_sum_partial oneFlip (by unfold Cube3.valid; decide +kernel) ⟨Face.U, .single⟩).2 (.inr (.inl rfl)) i

/-- **C69** "0 or 6" is right for the solved cube, and wrong in general: here are reachable cubes whose sum goes down by 6, up by 3 and
down by 3. -/
theorem C69_index_sum_doc :
    (∀ m : AxisMove, (∑ i, ((moved Cube3.SOLVED m).corners i).orientationIndex) = 0 ∨
      (∑ i, ((moved Cube3.SOLVED m).corners i).orientationIndex) = 6) ∧
    ∀ d ∈ ([-6, -3, 3] : List Int), ∃ (c : Cube3) (m : AxisMove), c.Reachable ∧
      ((∑ i, ((moved c m).corners i).orientationIndex : Nat) : Int) - ((∑ i, (c.corners i).orientationIndex : Nat) : Int) = d := by
  refine ⟨by decide +kernel, ?_⟩
  have r : ∀ w : List AxisMove, (movedAlg Cube3.SOLVED w).Reachable := fun w => ⟨w, rfl⟩
  intro d hd
  simp only [List.mem_cons, List.not_mem_nil, or_false] at hd
  rcases hd with rfl | rfl | rfl
  · exact ⟨_, ⟨Face.R, .inverse⟩, r [⟨Face.R, .single⟩], by decide +kernel⟩
  · exact ⟨_, ⟨Face.F, .inverse⟩, r [⟨Face.R, .single⟩, ⟨Face.F, .single⟩], by decide +kernel⟩
  · exact ⟨_, ⟨Face.F, .single⟩, r [⟨Face.R, .single⟩], by decide +kernel⟩

/-- **C69** The module documentation defines the orientation index as the number of counter-clockwise twists *to* the correct orientation. That number is
the index subtracted from three (modulo three), so it differs from the index for every corner that is not oriented. -/
theorem C69_index_doc (c : Corner) (n : Nat) (hn : n < 3) :
    (Corner.twist^[n] c = Corner.oriented c.position ↔ n = (3 - c.orientationIndex) % 3) ∧
    (c.orientationIndex = (3 - c.orientationIndex) % 3 ↔ c.isOriented = true) := by
  have key : ∀ (c : Corner) (n : Fin 3), (Corner.twist^[n.val] c = Corner.oriented c.position ↔ n.val = (3 - c.orientationIndex) % 3) ∧
    (c.orientationIndex = (3 - c.orientationIndex) % 3 ↔ c.isOriented = true) := by
    decide +kernel
  exact key c ⟨n, hn⟩

/-- a corner with index 1: one twist leads to it, two lead back -/
example : (Corner.oriented ⟨.pos, .neg, .pos⟩).twist.orientationIndex = 1 ∧
    Corner.twist^[2] (Corner.oriented ⟨.pos, .neg, .pos⟩).twist = Corner.oriented ⟨.pos, .neg, .pos⟩ ∧
    (movedAlg Cube3.SOLVED Perms.SEXY_MOVE).valid := by
  refine ⟨by decide, by decide, by unfold Cube3.valid; decide +kernel⟩

/-! ## The 2x2 -/

theorem lawful2_iff (c : Cube2) : c.Lawful ↔ CornersGood c.corners :=
  ⟨fun h => ⟨(arranged_iff _).1 h.arranged, h.twists⟩, fun h => ⟨(arranged_iff _).2 h.1, h.2⟩⟩

/-- **C68** The index of the corners is a bijection between the states of the 2x2 that can be reached and the entries of the
corner table: there are 88179840 of them. -/
theorem C68_number_of_states :
    Nat.card { c : Cube2 // c.Reachable } = 88179840 ∧
    ∀ i < 88179840, ∃! c : Cube2, c.Reachable ∧ Deindexable.index? (T := CornersMUS) c.corners = some i := by
  have un : ∀ i, i < 88179840 → ∃! c : Cube2, c.Reachable ∧ Deindexable.index? (T := CornersMUS) c.corners = some i := by
    intro i hi
    obtain ⟨s, -, g2, g3⟩ := corners_unindex (r := i) (by rw [total_corners]; exact hi)
    refine ⟨⟨s⟩, ⟨(C17_reachable_iff _).1.2 ((lawful2_iff _).2 g2), g3⟩, ?_⟩
    rintro ⟨d⟩ ⟨hd, hd'⟩
    obtain ⟨r, r1, _, r3⟩ := corners_index_good ((lawful2_iff _).1 ((C17_reachable_iff _).1.1 hd))
    obtain ⟨r', r1', _, r3'⟩ := corners_index_good g2
    rw [g3] at r1'
    rw [hd'] at r1
    cases r1; cases r1'
    rw [r3] at r3'
    exact congrArg Cube2.mk (Option.some.inj r3')
  refine ⟨?_, un⟩
  let F : Fin 88179840 → { c : Cube2 // c.Reachable } := fun i => ⟨(un i i.2).choose, (un i i.2).choose_spec.1.1⟩
  have hF : Function.Bijective F := by
    constructor
    · intro i j hij
      have h1 := (un i i.2).choose_spec.1.2
      have h2 := (un j j.2).choose_spec.1.2
      have h3 : (un i i.2).choose = (un j j.2).choose := congrArg Subtype.val hij
      rw [h3, h2] at h1
      exact Fin.ext (Option.some.inj h1).symm
    · rintro ⟨c, hc⟩
      obtain ⟨r, r1, r2, _⟩ := corners_index_good ((lawful2_iff _).1 ((C17_reachable_iff _).1.1 hc))
      rw [total_corners] at r2
      exact ⟨⟨r, r2⟩, Subtype.ext ((un r r2).choose_spec.2 c ⟨hc, r1⟩).symm⟩
  rw [← Nat.card_congr (Equiv.ofBijective F hF), Nat.card_eq_fintype_card, Fintype.card_fin]

theorem cube2_minTurns (a b : Cube2) (d : Nat) : MinTurns (T := CornersMUS) a.corners b.corners d → MinTurns a b d := by
  have key : ∀ (w : List AxisMove) (a : Cube2), (movedAlg a w).corners = movedAlg (C := CornersMUS) a.corners w := by
    intro w
    induction w with
    | nil => intro a; rfl
    | cons m w ih => intro a; exact ih (moved a m)
  rintro ⟨⟨w, h1, h2⟩, h3⟩
  exact ⟨⟨w, h1, Cube2.ext ((key w a).trans h2)⟩, fun w hw => h3 w ((key w a).symm.trans (congrArg Cube2.corners hw))⟩

/-- **C68** The corner table that is built is a table of optimal solutions of the 2x2: for every reachable state the entry at
its index is the least number of turns that solve it. -/
theorem C68_two_by_two_distances : ∃ t, buildTable? CornersMUS = some t ∧ t.length = 88179840 ∧
    ∀ c : Cube2, c.Reachable → ∃ i e, Deindexable.index? (T := CornersMUS) c.corners = some i ∧ t[i]? = some e ∧ e ≤ 11 ∧
      MinTurns c (Cube.SOLVED : Cube2) e := by
  obtain ⟨t, h1, h2, h3⟩ := corners_table
  refine ⟨t, h1, by rw [h2, total_corners], fun c hc => ?_⟩
  have hg := (lawful2_iff c).1 ((C17_reachable_iff c).1.1 hc)
  obtain ⟨r, r1, -, -⟩ := corners_index_good hg
  obtain ⟨e, k1, k2, k3⟩ := h3 c.corners r hg r1
  exact ⟨r, e, r1, k1, k2, cube2_minTurns c Cube.SOLVED e (k3.symm cornersMUS_undo)⟩

end Barbarosa
