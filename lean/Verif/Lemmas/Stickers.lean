import Verif.Lemmas.PieceSet
import Verif.Spec.Stickers

/-!
# Drawing: which facelet shows what
-/

namespace Barbarosa

open PieceSet

theorem Facelet.mem_all (s : Facelet) : s ∈ Facelet.all ↔ s.OnCube := by
  constructor
  · have : ∀ s ∈ Facelet.all, s.OnCube := by decide +kernel
    exact this s
  · intro h
    refine List.mem_filter.mpr ⟨?_, by simpa using h⟩
    obtain ⟨⟨x, y, z⟩, f⟩ := s
    obtain ⟨⟨x1, x2⟩, ⟨y1, y2⟩, ⟨z1, z2⟩, -⟩ := h
    simp only at x1 x2 y1 y2 z1 z2
    have hx : x = -1 ∨ x = 0 ∨ x = 1 := by omega
    have hy : y = -1 ∨ y = 0 ∨ y = 1 := by omega
    have hz : z = -1 ∨ z = 0 ∨ z = 1 := by omega
    have hf : f ∈ [Face.R, .U, .F, .L, .D, .B] := by revert f; decide
    simp only [List.mem_flatMap, List.mem_map]
    exact ⟨x, by simp [hx], y, by simp [hy], z, by simp [hz], f, hf, rfl⟩

/-- the triple that the code uses for a point -/
def Z3.triple (p : Z3) : Int × Int × Int := (p.x, p.y, p.z)

/-- square, row and column at which a facelet is drawn -/
def Facelet.cell (s : Facelet) : Option (Fin 6 × Fin 3 × Fin 3) :=
  (Square.indices 3 s.point.triple s.face).map fun ij => (⟨s.face.index, s.face.index_lt⟩, ij.1, ij.2)

theorem cell_isSome : ∀ s ∈ Facelet.all, s.cell.isSome := by decide +kernel

theorem cell_inj : ∀ s ∈ Facelet.all, ∀ t ∈ Facelet.all, s.cell = t.cell → s = t := by decide +kernel

theorem shows_eq (u : Unfolded 3) (s : Facelet) : u.shows s = s.cell.map fun k => u k.1 k.2.1 k.2.2 := by
  unfold Unfolded.shows Facelet.cell Square.at? Unfolded.square Z3.triple
  rw [Option.map_map]
  rfl

/-- one write -/
def drawSticker? (u : Unfolded 3) (w : Facelet × Color) : Option (Unfolded 3) := u.setAt? w.1.point.triple w.1.face w.2

theorem drawSticker?_spec (u : Unfolded 3) (s : Facelet) (hs : s.OnCube) (col : Color) :
    ∃ u', drawSticker? u (s, col) = some u' ∧ u'.shows s = some col ∧
      ∀ t : Facelet, t.OnCube → t ≠ s → u'.shows t = u.shows t := by
  have h1 := cell_isSome s (s.mem_all.mpr hs)
  rw [Option.isSome_iff_exists] at h1
  obtain ⟨k, hk⟩ := h1
  have hk' := hk
  unfold Facelet.cell at hk'
  rcases hi : Square.indices 3 s.point.triple s.face with _ | ij
  · simp [hi] at hk'
  · rw [hi] at hk'
    simp only [Option.map_some, Option.some.injEq] at hk'
    refine ⟨_, by unfold drawSticker? Unfolded.setAt?; rw [hi], ?_, ?_⟩
    · rw [shows_eq, hk]
      subst hk'
      simp
    · intro t ht hne
      rw [shows_eq, shows_eq]
      rcases hc : t.cell with _ | k'
      · rfl
      · have : k' ≠ k := by
          rintro rfl
          exact hne (cell_inj t (t.mem_all.mpr ht) s (s.mem_all.mpr hs) (hc.trans hk.symm))
        simp only [Option.map_some, Option.some.injEq]
        rw [if_neg]
        rintro ⟨a, b, c⟩
        apply this
        rw [← hk']
        exact Prod.ext a (Prod.ext b c)

theorem drawAll_spec (l : List (Facelet × Color)) (hl : ∀ w ∈ l, w.1.OnCube) (hn : (l.map Prod.fst).Nodup)
    (u : Unfolded 3) : ∃ u', l.foldlM drawSticker? u = some u' ∧ (∀ w ∈ l, u'.shows w.1 = some w.2) ∧
      ∀ t : Facelet, t.OnCube → t ∉ l.map Prod.fst → u'.shows t = u.shows t := by
  induction l generalizing u with
  | nil => exact ⟨u, rfl, by simp, fun _ _ _ => rfl⟩
  | cons w l ih =>
    obtain ⟨s, col⟩ := w
    obtain ⟨u1, h1, h2, h3⟩ := drawSticker?_spec u s (hl (s, col) (by simp)) col
    rw [List.map_cons, List.nodup_cons] at hn
    obtain ⟨u2, g1, g2, g3⟩ := ih (fun w hw => hl w (by simp [hw])) hn.2 u1
    refine ⟨u2, by simp [List.foldlM_cons, h1, g1], ?_, ?_⟩
    · intro w hw
      rcases List.mem_cons.mp hw with rfl | hw
      · rw [g3 s (hl (s, col) (by simp)) hn.1, h2]
      · exact g2 w hw
    · intro t ht hnt
      rw [List.map_cons, List.mem_cons, not_or] at hnt
      rw [g3 t ht hnt.2, h3 t ht hnt.1]

theorem drawPiece?_eq {P : Type} [Piece P] [Colored P] [Coordinates P] (u : Unfolded 3) (x : Piece.Position P × P) :
    u.drawPiece? x = (pieceStickers x).foldlM drawSticker? u := by
  unfold Unfolded.drawPiece? pieceStickers
  rw [List.foldlM_map]
  rfl

theorem populateWith?_eq {P : Type} {n : Nat} [PieceSetDescriptor P n] [Colored P] [Coordinates P] (u : Unfolded 3)
    (s : PieceSet P n) : u.populateWith? s = (s.iterWithPos.flatMap pieceStickers).foldlM drawSticker? u := by
  unfold Unfolded.populateWith?
  generalize s.iterWithPos = l
  induction l generalizing u with
  | nil => rfl
  | cons x l ih =>
    rw [List.foldlM_cons, List.flatMap_cons, List.foldlM_append, drawPiece?_eq]
    congr
    funext u'
    exact ih u'

theorem ofCube3?_eq (c : Cube3) : Unfolded.ofCube3? c = c.stickers.foldlM drawSticker? (Unfolded.default 3) := by
  unfold Unfolded.ofCube3? Cube3.stickers
  rw [List.foldlM_append, ← populateWith?_eq]
  cases (Unfolded.default 3).populateWith? c.corners with
  | none => rfl
  | some u => exact populateWith?_eq u c.edges

/-! ## The stickers of one piece -/

/-- faces of a corner in the cyclic order of `colors` -/
def Corner.cycle (p : Vec3) (a : Axis) : List Face :=
  let b := Corner.nextAxis p a
  let d := Corner.nextAxis p b
  [⟨a, p.at a⟩, ⟨b, p.at b⟩, ⟨d, p.at d⟩]

theorem corner_colors_eq (c : Corner) (o : Vec3) :
    c.colors o = (Corner.cycle c.position c.orientationAxis).zip ((Corner.cycle o .Y).map Color.mk) := rfl

/-- faces of an edge in the order of `colors` -/
def Edge.cycle (e : Edge) : List Face :=
  if !e.oriented then [Edge.nonOrientationFace e.position, Edge.orientationFace e.position]
  else [Edge.orientationFace e.position, Edge.nonOrientationFace e.position]

theorem edge_colors_eq (e : Edge) (o : Edge.Pos) :
    e.colors o = e.cycle.zip ((Edge.cycle ⟨o.1, o.2, true⟩).map Color.mk) := by
  rcases e with ⟨n, s, _ | _⟩ <;> rfl

/-- the cubelet of a corner -/
def cornerPoint (p : Vec3) : Z3 := let t := Corner.coordinatesPos p; ⟨t.1, t.2.1, t.2.2⟩
/-- the cubelet of an edge -/
def edgePoint (p : Edge.Pos) : Z3 := let t := Edge.coordinatesPos p; ⟨t.1, t.2.1, t.2.2⟩

theorem mem_corner_stickers (o : Vec3) (c : Corner) (s : Facelet) (col : Color) :
    (s, col) ∈ pieceStickers (P := Corner) (o, c) ↔ s.point = cornerPoint c.position ∧ (s.face, col) ∈ c.colors o := by
  unfold pieceStickers
  rw [List.mem_map]
  constructor
  · rintro ⟨⟨f, col'⟩, h, e⟩
    simp only [Prod.mk.injEq] at e
    obtain ⟨rfl, rfl⟩ := e
    exact ⟨rfl, h⟩
  · rintro ⟨h1, h2⟩
    refine ⟨(s.face, col), h2, ?_⟩
    cases s
    simp only at h1
    subst h1
    rfl

theorem mem_edge_stickers (o : Edge.Pos) (c : Edge) (s : Facelet) (col : Color) :
    (s, col) ∈ pieceStickers (P := Edge) (o, c) ↔ s.point = edgePoint c.position ∧ (s.face, col) ∈ c.colors o := by
  unfold pieceStickers
  rw [List.mem_map]
  constructor
  · rintro ⟨⟨f, col'⟩, h, e⟩
    simp only [Prod.mk.injEq] at e
    obtain ⟨rfl, rfl⟩ := e
    exact ⟨rfl, h⟩
  · rintro ⟨h1, h2⟩
    refine ⟨(s.face, col), h2, ?_⟩
    cases s
    simp only at h1
    subst h1
    rfl

theorem corner_sticker_ok : ∀ (p : Vec3) (a : Axis), (Corner.cycle p a).Nodup ∧
    ∀ f ∈ Corner.cycle p a, Facelet.OnCube ⟨cornerPoint p, f⟩ ∧ ¬ Facelet.IsCentre ⟨cornerPoint p, f⟩ := by decide +kernel

theorem edge_sticker_ok : ∀ e : Edge, (Edge.cycle e).Nodup ∧
    ∀ f ∈ Edge.cycle e, Facelet.OnCube ⟨edgePoint e.position, f⟩ ∧ ¬ Facelet.IsCentre ⟨edgePoint e.position, f⟩ := by
  decide +kernel

theorem cornerPoint_inj : ∀ p q : Vec3, cornerPoint p = cornerPoint q → p = q := by decide +kernel
theorem edgePoint_inj : ∀ p q : Edge.Pos, edgePoint p = edgePoint q → p = q := by decide +kernel
theorem cornerPoint_ne_edgePoint : ∀ (p : Vec3) (q : Edge.Pos), cornerPoint p ≠ edgePoint q := by decide +kernel

theorem corner_zip_fst (c : Corner) (o : Vec3) : (c.colors o).map Prod.fst = Corner.cycle c.position c.orientationAxis := rfl
theorem edge_zip_fst (c : Edge) (o : Edge.Pos) : (c.colors o).map Prod.fst = c.cycle := by
  rcases c with ⟨n, s, _ | _⟩ <;> rfl

theorem mem_stickers (c : Cube3) (s : Facelet) (col : Color) : (s, col) ∈ c.stickers ↔
    (∃ i, s.point = cornerPoint (c.corners i).position ∧ (s.face, col) ∈ (c.corners i).colors (Corner.REFERENCE_POSITIONS i)) ∨
    (∃ i, s.point = edgePoint (c.edges i).position ∧ (s.face, col) ∈ (c.edges i).colors (Edge.REFERENCE_POSITIONS i)) := by
  unfold Cube3.stickers
  rw [List.mem_append, iterWithPos_eq, iterWithPos_eq, List.mem_flatMap, List.mem_flatMap]
  constructor
  · rintro (⟨x, hx, h⟩ | ⟨x, hx, h⟩)
    · rw [List.mem_ofFn] at hx
      obtain ⟨i, rfl⟩ := hx
      exact Or.inl ⟨i, (mem_corner_stickers _ _ _ _).mp h⟩
    · rw [List.mem_ofFn] at hx
      obtain ⟨i, rfl⟩ := hx
      exact Or.inr ⟨i, (mem_edge_stickers _ _ _ _).mp h⟩
  · rintro (⟨i, h⟩ | ⟨i, h⟩)
    · exact Or.inl ⟨_, List.mem_ofFn.mpr ⟨i, rfl⟩, (mem_corner_stickers _ _ _ _).mpr h⟩
    · exact Or.inr ⟨_, List.mem_ofFn.mpr ⟨i, rfl⟩, (mem_edge_stickers _ _ _ _).mpr h⟩

theorem stickers_on_cube (c : Cube3) : ∀ w ∈ c.stickers, w.1.OnCube ∧ ¬ w.1.IsCentre := by
  rintro ⟨s, col⟩ h
  rcases (mem_stickers c s col).mp h with ⟨i, h1, h2⟩ | ⟨i, h1, h2⟩
  · have := (corner_sticker_ok (c.corners i).position (c.corners i).orientationAxis).2 s.face
      (by rw [← corner_zip_fst _ (Corner.REFERENCE_POSITIONS i)]; exact List.mem_map.mpr ⟨_, h2, rfl⟩)
    rw [← h1] at this
    exact this
  · have := (edge_sticker_ok (c.edges i)).2 s.face
      (by rw [← edge_zip_fst _ (Edge.REFERENCE_POSITIONS i)]; exact List.mem_map.mpr ⟨_, h2, rfl⟩)
    rw [← h1] at this
    exact this

theorem flatMap_keys {P : Type} {n : Nat} [PieceSetDescriptor P n] [Colored P] [Coordinates P] (s : PieceSet P n)
    (hs : s.Valid) (hinj : ∀ p q : Piece.Position P, Coordinates.coordinatesPos (P := P) p = Coordinates.coordinatesPos (P := P) q → p = q)
    (hnd : ∀ (p : P) o, ((Colored.colors p o).map Prod.fst).Nodup) :
    ((s.iterWithPos.flatMap pieceStickers).map Prod.fst).Nodup := by
  rw [List.map_flatMap, iterWithPos_eq, List.nodup_flatMap]
  constructor
  · intro x hx
    unfold pieceStickers
    rw [List.map_map]
    have := hnd x.2 x.1
    refine List.Nodup.of_map Facelet.face ?_
    rw [List.map_map]
    exact this
  · rw [List.pairwise_ofFn]
    intro i j hij
    rw [Function.onFun, List.disjoint_iff_ne]
    rintro a ha b hb rfl
    simp only [pieceStickers, List.map_map, List.mem_map, Function.comp] at ha hb
    obtain ⟨_, -, rfl⟩ := ha
    obtain ⟨_, -, e⟩ := hb
    simp only [Facelet.mk.injEq, Z3.mk.injEq] at e
    have := hs (hinj _ _ (Prod.ext e.1.1 (Prod.ext e.1.2.1 e.1.2.2)))
    exact absurd this (by omega)

theorem stickers_nodup (c : Cube3) (hc : c.corners.Valid) (he : c.edges.Valid) : (c.stickers.map Prod.fst).Nodup := by
  unfold Cube3.stickers
  rw [List.map_append, List.nodup_append]
  refine ⟨flatMap_keys _ hc ?_ ?_, flatMap_keys _ he ?_ ?_, ?_⟩
  · intro p q h
    exact cornerPoint_inj p q (by unfold cornerPoint; exact congrArg (fun t : Int × Int × Int => Z3.mk t.1 t.2.1 t.2.2) h)
  · intro p o
    exact (corner_sticker_ok p.position p.orientationAxis).1
  · intro p q h
    exact edgePoint_inj p q (by unfold edgePoint; exact congrArg (fun t : Int × Int × Int => Z3.mk t.1 t.2.1 t.2.2) h)
  · intro p o
    show ((Edge.colors p o).map Prod.fst).Nodup
    rw [edge_zip_fst]
    exact (edge_sticker_ok p).1
  · intro a ha b hb hab
    subst hab
    rw [List.mem_map] at ha hb
    obtain ⟨⟨s, col⟩, h1, rfl⟩ := ha
    obtain ⟨⟨t, col'⟩, h2, e⟩ := hb
    simp only at e
    subst e
    rw [iterWithPos_eq, List.mem_flatMap] at h1 h2
    obtain ⟨x, hx, h1⟩ := h1
    obtain ⟨y, hy, h2⟩ := h2
    have h1 := (mem_corner_stickers x.1 x.2 t col).mp h1
    have h2 := (mem_edge_stickers y.1 y.2 t col').mp h2
    exact cornerPoint_ne_edgePoint _ _ (h1.1.symm.trans h2.1)

theorem stickers_length (c : Cube3) : c.stickers.length = 48 := by
  have h1 : ∀ x : Vec3 × Corner, (pieceStickers (P := Corner) x).length = 3 := fun x => by
    unfold pieceStickers
    rw [List.length_map]
    rfl
  have h2 : ∀ x : Edge.Pos × Edge, (pieceStickers (P := Edge) x).length = 2 := fun x => by
    unfold pieceStickers
    rw [List.length_map]
    rfl
  unfold Cube3.stickers
  rw [List.length_append, List.length_flatMap, List.length_flatMap, iterWithPos_eq, iterWithPos_eq, List.map_ofFn,
    List.map_ofFn]
  have e1 : (List.length ∘ pieceStickers) ∘ (fun i => (PieceSetDescriptor.REFERENCE_POSITIONS (P := Corner) i, c.corners i)) = fun _ => 3 := by
    funext i; exact h1 _
  have e2 : (List.length ∘ pieceStickers) ∘ (fun i => (PieceSetDescriptor.REFERENCE_POSITIONS (P := Edge) i, c.edges i)) = fun _ => 2 := by
    funext i; exact h2 _
  rw [show ((fun a => (pieceStickers a).length) ∘ fun i => (PieceSetDescriptor.REFERENCE_POSITIONS (P := Corner) i, c.corners i)) = fun _ => 3 from e1,
    show ((fun a => (pieceStickers a).length) ∘ fun i => (PieceSetDescriptor.REFERENCE_POSITIONS (P := Edge) i, c.edges i)) = fun _ => 2 from e2]
  simp

theorem stickers_perm (c : Cube3) (hc : c.corners.Valid) (he : c.edges.Valid) :
    (c.stickers.map Prod.fst).Perm (Facelet.all.filter fun s => !decide s.IsCentre) := by
  have h1 := stickers_nodup c hc he
  have h2 : (c.stickers.map Prod.fst) ⊆ Facelet.all.filter fun s => !decide s.IsCentre := by
    intro s hs
    rw [List.mem_map] at hs
    obtain ⟨w, hw, rfl⟩ := hs
    have := stickers_on_cube c w hw
    exact List.mem_filter.mpr ⟨(Facelet.mem_all _).mpr this.1, by simp [this.2]⟩
  refine (List.subperm_of_subset h1 h2).perm_of_length_le ?_
  rw [List.length_map, stickers_length]
  decide +kernel

theorem default_shows : ∀ s ∈ Facelet.all, (Unfolded.default 3).shows s = some ⟨s.face⟩ := by decide +kernel

/-- the picture of a valid cube -/
theorem picture (c : Cube3) (hc : c.corners.Valid) (he : c.edges.Valid) :
    ∃ u, Unfolded.ofCube3? c = some u ∧ (∀ w ∈ c.stickers, u.shows w.1 = some w.2) ∧
      ∀ s : Facelet, s.OnCube → s.IsCentre → u.shows s = some ⟨s.face⟩ := by
  obtain ⟨u, h1, h2, h3⟩ := drawAll_spec c.stickers (fun w hw => (stickers_on_cube c w hw).1) (stickers_nodup c hc he)
    (Unfolded.default 3)
  refine ⟨u, by rw [ofCube3?_eq, h1], h2, fun s hs hcs => ?_⟩
  rw [h3 s hs, default_shows s (s.mem_all.mpr hs)]
  intro hm
  rw [List.mem_map] at hm
  obtain ⟨w, hw, rfl⟩ := hm
  exact (stickers_on_cube c w hw).2 hcs

theorem sticker_or_centre (c : Cube3) (hc : c.corners.Valid) (he : c.edges.Valid) (s : Facelet) (hs : s.OnCube) :
    s.IsCentre ∨ ∃ col, (s, col) ∈ c.stickers := by
  by_cases h : s.IsCentre
  · exact Or.inl h
  · right
    have : s ∈ c.stickers.map Prod.fst := (stickers_perm c hc he).mem_iff.mpr
      (List.mem_filter.mpr ⟨s.mem_all.mpr hs, by simp [h]⟩)
    rw [List.mem_map] at this
    obtain ⟨w, hw, rfl⟩ := this
    exact ⟨w.2, hw⟩

theorem cube3_shows (c : Cube3) (hc : c.corners.Valid) (he : c.edges.Valid) (s : Facelet) (col : Color)
    (h : (s, col) ∈ c.stickers) : c.shows s = some col := by
  obtain ⟨u, h1, h2, -⟩ := picture c hc he
  unfold Cube3.shows
  rw [h1, Option.bind_some]
  exact h2 (s, col) h

theorem cube3_shows_centre (c : Cube3) (hc : c.corners.Valid) (he : c.edges.Valid) (s : Facelet) (hs : s.OnCube)
    (h : s.IsCentre) : c.shows s = some ⟨s.face⟩ := by
  obtain ⟨u, h1, -, h3⟩ := picture c hc he
  unfold Cube3.shows
  rw [h1, Option.bind_some]
  exact h3 s hs h

/-! ## Turning -/

theorem turnFace_unique : ∀ (m : AxisMove) (f f' : Face), f'.normal = turnOf m f.normal → f' = f.rotated (AxisRotation.ofMove m) := by
  decide +kernel

theorem corner_contains_iff : ∀ (p : Vec3) (f : Face), f.containsVector p = true ↔ (cornerPoint p).dot f.normal = 1 := by
  decide +kernel
theorem edge_contains_iff : ∀ (p : Edge) (f : Face), f.containsEdge p = true ↔ (edgePoint p.position).dot f.normal = 1 := by
  decide +kernel

theorem corner_cycle_turn : ∀ (c : Corner) (m : AxisMove), m.face.containsVector c.position = true →
    cornerPoint (moved c m).position = turnOf m (cornerPoint c.position) ∧
    Corner.cycle (moved c m).position (moved c m).orientationAxis =
      (Corner.cycle c.position c.orientationAxis).map fun f => f.rotated (AxisRotation.ofMove m) := by decide +kernel

theorem edge_cycle_turn : ∀ (c : Edge) (m : AxisMove), m.face.containsEdge c = true →
    edgePoint (moved c m).position = turnOf m (edgePoint c.position) ∧
    Edge.cycle (moved c m) = c.cycle.map fun f => f.rotated (AxisRotation.ofMove m) := by decide +kernel

theorem corner_moved_out (c : Corner) (m : AxisMove) (h : ¬ m.face.containsVector c.position = true) : moved c m = c :=
  if_neg h
theorem edge_moved_out (c : Edge) (m : AxisMove) (h : ¬ m.face.containsEdge c = true) : moved c m = c :=
  if_neg h

theorem mem_zip_map {A B : Type} {f : A → A} {l : List A} {r : List B} {a : A} {b : B} (h : (a, b) ∈ l.zip r) :
    (f a, b) ∈ (l.map f).zip r := by
  rw [List.zip_map_left]
  exact List.mem_map.mpr ⟨(a, b), h, rfl⟩

theorem corner_carries (c : Corner) (m : AxisMove) (o : Vec3) (s s' : Facelet) (col : Color)
    (h1 : s.point = cornerPoint c.position) (h2 : (s.face, col) ∈ c.colors o) (h : Facelet.Carries m s s') :
    s'.point = cornerPoint (moved c m).position ∧ (s'.face, col) ∈ (moved c m).colors o := by
  by_cases hin : m.face.containsVector c.position = true
  · have hl : s.InLayer m := by
      unfold Facelet.InLayer
      rw [h1]
      exact (corner_contains_iff _ _).mp hin
    unfold Facelet.Carries at h
    rw [if_pos hl] at h
    obtain ⟨t1, t2⟩ := corner_cycle_turn c m hin
    refine ⟨by rw [h.1, h1, t1], ?_⟩
    rw [corner_colors_eq] at h2 ⊢
    rw [t2, turnFace_unique m s.face s'.face h.2]
    exact mem_zip_map h2
  · have hl : ¬ s.InLayer m := by
      unfold Facelet.InLayer
      rw [h1]
      exact fun e => hin ((corner_contains_iff _ _).mpr e)
    unfold Facelet.Carries at h
    rw [if_neg hl] at h
    subst h
    rw [corner_moved_out c m hin]
    exact ⟨h1, h2⟩

theorem edge_carries (c : Edge) (m : AxisMove) (o : Edge.Pos) (s s' : Facelet) (col : Color)
    (h1 : s.point = edgePoint c.position) (h2 : (s.face, col) ∈ c.colors o) (h : Facelet.Carries m s s') :
    s'.point = edgePoint (moved c m).position ∧ (s'.face, col) ∈ (moved c m).colors o := by
  by_cases hin : m.face.containsEdge c = true
  · have hl : s.InLayer m := by
      unfold Facelet.InLayer
      rw [h1]
      exact (edge_contains_iff _ _).mp hin
    unfold Facelet.Carries at h
    rw [if_pos hl] at h
    obtain ⟨t1, t2⟩ := edge_cycle_turn c m hin
    refine ⟨by rw [h.1, h1, t1], ?_⟩
    rw [edge_colors_eq] at h2 ⊢
    rw [t2, turnFace_unique m s.face s'.face h.2]
    exact mem_zip_map h2
  · have hl : ¬ s.InLayer m := by
      unfold Facelet.InLayer
      rw [h1]
      exact fun e => hin ((edge_contains_iff _ _).mpr e)
    unfold Facelet.Carries at h
    rw [if_neg hl] at h
    subst h
    rw [edge_moved_out c m hin]
    exact ⟨h1, h2⟩

theorem centre_carries : ∀ s ∈ Facelet.all, s.IsCentre → ∀ (m : AxisMove), s.InLayer m → ∀ f : Face,
    f.normal = turnOf m s.face.normal → f = s.face ∧ turnOf m s.point = s.point := by decide +kernel

theorem carries_onCube (m : AxisMove) (s s' : Facelet) (hs : s.OnCube) (h : Facelet.Carries m s s') : s'.OnCube := by
  have key : ∀ s ∈ Facelet.all, ∀ m : AxisMove, s.InLayer m →
      (⟨turnOf m s.point, s.face.rotated (AxisRotation.ofMove m)⟩ : Facelet).OnCube := by decide +kernel
  unfold Facelet.Carries at h
  by_cases hl : s.InLayer m
  · rw [if_pos hl] at h
    have := key s (s.mem_all.mpr hs) m hl
    rw [← turnFace_unique m s.face s'.face h.2, ← h.1] at this
    exact this
  · rw [if_neg hl] at h
    exact h ▸ hs

theorem sticker_carries (c : Cube3) (m : AxisMove) (s s' : Facelet) (col : Color) (h : (s, col) ∈ c.stickers)
    (hc : Facelet.Carries m s s') : (s', col) ∈ (moved c m).stickers := by
  rcases (mem_stickers c s col).mp h with ⟨i, h1, h2⟩ | ⟨i, h1, h2⟩
  · exact (mem_stickers _ _ _).mpr (Or.inl ⟨i, corner_carries _ m _ s s' col h1 h2 hc⟩)
  · exact (mem_stickers _ _ _).mpr (Or.inr ⟨i, edge_carries _ m _ s s' col h1 h2 hc⟩)

/-! ## A picture determines the cube -/

theorem corner_colors_inj : ∀ (p : Vec3) (a b : Axis) (o o' : Vec3),
    (∀ x ∈ Corner.colors ⟨p, a⟩ o, x ∈ Corner.colors ⟨p, b⟩ o') → a = b ∧ o = o' := by decide +kernel

theorem edge_colors_inj : ∀ (p : Edge.Pos) (a b : Bool) (o o' : Edge.Pos),
    (∀ x ∈ Edge.colors ⟨p.1, p.2, a⟩ o, x ∈ Edge.colors ⟨p.1, p.2, b⟩ o') → a = b ∧ o = o' := by decide +kernel

end Barbarosa
