import Verif.Lemmas.Moves

/-!
# Lemmas about piece sets
-/

namespace Barbarosa

/-! ## `find_duplicates` -/

theorem findDuplicatesGo_none {T : Type} [DecidableEq T] (v l : List T) :
    findDuplicatesGo v l = none ↔ l.Nodup ∧ ∀ x ∈ l, x ∉ v := by
  induction l generalizing v with
  | nil => simp [findDuplicatesGo]
  | cons x xs ih =>
    unfold findDuplicatesGo
    by_cases h : x ∈ v
    · simp [h]
    · simp only [List.contains_eq_mem, h, decide_false, Bool.false_eq_true, if_false, ih, List.nodup_cons,
        List.mem_cons, List.mem_append, List.not_mem_nil, or_false, not_or, forall_eq_or_imp, not_false_eq_true, true_and]
      constructor
      · rintro ⟨a, b⟩
        exact ⟨⟨fun hx => (b x hx).2 rfl, a⟩, fun y hy => (b y hy).1⟩
      · rintro ⟨⟨a, b⟩, c⟩
        exact ⟨b, fun y hy => ⟨c y hy, fun e => a (e ▸ hy)⟩⟩

theorem findDuplicates_none {T : Type} [DecidableEq T] (l : List T) : findDuplicates l = none ↔ l.Nodup := by
  simp [findDuplicates, findDuplicatesGo_none]

theorem findDuplicatesGo_some {T : Type} [DecidableEq T] (v l : List T) (x : T) (hv : v.Nodup)
    (h : findDuplicatesGo v l = some x) :
    ∃ pre post, l = pre ++ x :: post ∧ (v ++ pre).Nodup ∧ x ∈ v ++ pre := by
  induction l generalizing v with
  | nil => simp [findDuplicatesGo] at h
  | cons y ys ih =>
    unfold findDuplicatesGo at h
    by_cases hy : y ∈ v
    · simp only [List.contains_eq_mem, hy, decide_true, if_true, Option.some.injEq] at h
      subst h
      exact ⟨[], ys, rfl, by simpa using hv, by simpa using hy⟩
    · simp only [List.contains_eq_mem, hy, decide_false, Bool.false_eq_true, if_false] at h
      have hv' : (v ++ [y]).Nodup := by
        rw [List.nodup_append]
        exact ⟨hv, by simp, fun a ha b hb => by
          simp only [List.mem_singleton] at hb; subst hb; exact fun e => hy (e ▸ ha)⟩
      obtain ⟨pre, post, h1, h2, h3⟩ := ih (v ++ [y]) hv' h
      exact ⟨y :: pre, post, by simp [h1], by simpa using h2, by simpa using h3⟩

/-! ## Descriptors -/

/-- The constants of a piece type are as they should be: the reference positions list every position once, and the
solved pieces are the ones at the reference positions. -/
class LawfulDescriptor (P : Type) (n : outParam Nat) [PieceSetDescriptor P n] : Prop where
  ref_bij : Function.Bijective (PieceSetDescriptor.REFERENCE_POSITIONS (P := P))
  solved_pos : ∀ i, Piece.position (PieceSetDescriptor.SOLVED (P := P) i) = PieceSetDescriptor.REFERENCE_POSITIONS i

theorem bij_of_list {T : Type} {n : Nat} (f : Fin n → T) (inj : ∀ i j, f i = f j → i = j)
    (surj : ∀ t, ∃ i, f i = t) : Function.Bijective f := ⟨fun i j => inj i j, surj⟩

instance : LawfulDescriptor Corner 8 where
  ref_bij := bij_of_list Corner.REFERENCE_POSITIONS (by decide +kernel) (by decide +kernel)
  solved_pos _ := rfl

instance : LawfulDescriptor Edge 12 where
  ref_bij := bij_of_list Edge.REFERENCE_POSITIONS (by decide +kernel) (by decide +kernel)
  solved_pos _ := rfl

instance : LawfulDescriptor Wing 24 where
  ref_bij := bij_of_list Wing.SOLVED (by decide +kernel) (by decide +kernel)
  solved_pos _ := rfl

instance : LawfulDescriptor CenterCorner 24 where
  ref_bij := bij_of_list CenterCorner.SOLVED (by decide +kernel) (by decide +kernel)
  solved_pos _ := rfl

instance : LawfulDescriptor CenterEdge 24 where
  ref_bij := bij_of_list CenterEdge.SOLVED (by decide +kernel) (by decide +kernel)
  solved_pos _ := rfl

instance : LawfulDescriptor CenterWing 48 where
  ref_bij := bij_of_list CenterWing.SOLVED (by decide +kernel) (by decide +kernel)
  solved_pos _ := rfl

namespace PieceSet

variable {P : Type} {n : Nat}

/-- no two pieces share a position -/
def Valid [Piece P] (s : PieceSet P n) : Prop := Function.Injective fun i => Piece.position (s i)

theorem nodup_positions [Piece P] (s : PieceSet P n) : (s.toList.map Piece.position).Nodup ↔ s.Valid := by
  unfold toList Valid
  rw [List.map_ofFn, List.nodup_ofFn]
  rfl

theorem validate_eq_none [DecidableEq P] [PieceSetDescriptor P n] (s : PieceSet P n) :
    s.validate = none ↔ s.Valid := by
  rw [← nodup_positions, ← findDuplicates_none]
  unfold validate
  rcases h : findDuplicates (s.toList.map Piece.position) with _ | d
  · have h2 : findDuplicates s.toList = none := by
      rw [findDuplicates_none] at h ⊢
      exact List.Nodup.of_map _ h
    simp [h2]
  · simp

theorem iterWithPos_eq [PieceSetDescriptor P n] (s : PieceSet P n) :
    s.iterWithPos = List.ofFn fun i => (PieceSetDescriptor.REFERENCE_POSITIONS (P := P) i, s i) := by
  unfold iterWithPos toList
  apply List.ext_getElem <;> simp

theorem find?_ofFn {T : Type} (f : Fin n → T) (p : T → Bool) (i : Fin n) (hi : p (f i) = true)
    (hu : ∀ j, p (f j) = true → j = i) : (List.ofFn f).find? p = some (f i) := by
  rcases h : (List.ofFn f).find? p with _ | t
  · rw [List.find?_eq_none] at h
    exact absurd hi (h _ (by simp))
  · have h1 := List.find?_some h
    have h2 := List.mem_of_find?_eq_some h
    rw [List.mem_ofFn] at h2
    obtain ⟨j, rfl⟩ := h2
    rw [hu j h1]

theorem Valid.bijective [PieceSetDescriptor P n] [LawfulDescriptor P n] {s : PieceSet P n} (h : s.Valid) :
    Function.Bijective fun i => Piece.position (s i) := by
  refine ⟨h, fun q => ?_⟩
  have hb := LawfulDescriptor.ref_bij (P := P)
  let e := Equiv.ofBijective _ hb
  have hinj : Function.Injective fun i => e.symm (Piece.position (s i)) := e.symm.injective.comp h
  obtain ⟨i, hi⟩ := (Finite.injective_iff_surjective.mp hinj) (e.symm q)
  exact ⟨i, e.symm.injective hi⟩

theorem refIndex?_eq [PieceSetDescriptor P n] [LawfulDescriptor P n] (i : Fin n) :
    refIndex? P (PieceSetDescriptor.REFERENCE_POSITIONS (P := P) i) = some i := by
  unfold refIndex?
  have := find?_ofFn (id : Fin n → Fin n)
    (fun j => decide (PieceSetDescriptor.REFERENCE_POSITIONS (P := P) j = PieceSetDescriptor.REFERENCE_POSITIONS (P := P) i))
    i (by simp) (fun j hj => LawfulDescriptor.ref_bij.1 (by simpa using hj))
  rwa [List.ofFn_id] at this

theorem pieceOriginallyAt?_ref [PieceSetDescriptor P n] [LawfulDescriptor P n] (s : PieceSet P n) (i : Fin n) :
    s.pieceOriginallyAt? (PieceSetDescriptor.REFERENCE_POSITIONS (P := P) i) = some (s i) := by
  unfold pieceOriginallyAt?
  rw [iterWithPos_eq, find?_ofFn _ _ i (by simp) (fun j hj => LawfulDescriptor.ref_bij.1 (by simpa using hj))]
  rfl

theorem originalPositionOfPieceAt?_pos [PieceSetDescriptor P n] {s : PieceSet P n} (hs : s.Valid) (i : Fin n) :
    s.originalPositionOfPieceAt? (Piece.position (s i)) =
      some (PieceSetDescriptor.REFERENCE_POSITIONS (P := P) i) := by
  unfold originalPositionOfPieceAt?
  rw [iterWithPos_eq, find?_ofFn _ _ i (by simp) (fun j hj => hs (by simpa using hj))]
  rfl

theorem swapAt_apply (s : PieceSet P n) (i j k : Fin n) : s.swapAt i j k = s (Equiv.swap i j k) := by
  unfold swapAt
  by_cases h1 : k = j
  · subst h1
    simp
  · by_cases h2 : k = i
    · subst h2
      simp [h1]
    · rw [Function.update_of_ne h1, Function.update_of_ne h2, Equiv.swap_apply_of_ne_of_ne h2 h1]

theorem swap?_ref [PieceSetDescriptor P n] [LawfulDescriptor P n] (s : PieceSet P n) (i j : Fin n) :
    s.swap? (PieceSetDescriptor.REFERENCE_POSITIONS (P := P) i) (PieceSetDescriptor.REFERENCE_POSITIONS (P := P) j) =
      some (s.swapAt i j) := by
  unfold swap?
  rw [refIndex?_eq, refIndex?_eq]

theorem solved_valid [PieceSetDescriptor P n] [LawfulDescriptor P n] : (PieceSet.SOLVED P : PieceSet P n).Valid := by
  intro i j h
  simp only [PieceSet.SOLVED, LawfulDescriptor.solved_pos] at h
  exact LawfulDescriptor.ref_bij.1 h

theorem Valid.shuffle [Piece P] {s : PieceSet P n} (h : s.Valid) (σ : Equiv.Perm (Fin n)) : (s.shuffle σ).Valid :=
  fun _ _ e => σ.injective (h e)

theorem Valid.swapAt [Piece P] {s : PieceSet P n} (h : s.Valid) (i j : Fin n) : (s.swapAt i j).Valid := by
  intro a b e
  simp only [swapAt_apply] at e
  exact (Equiv.swap i j).injective (h e)

theorem Valid.of_pos [Piece P] {s t : PieceSet P n} (h : s.Valid)
    (e : ∀ i, Piece.position (t i) = Piece.position (s i)) : t.Valid := by
  intro i j hij
  simp only [e] at hij
  exact h hij

/-- A map of pieces that acts injectively on positions keeps validity. -/
theorem Valid.map [Piece P] {s : PieceSet P n} (h : s.Valid) (f : P → P)
    (hf : ∀ p q, Piece.position (f p) = Piece.position (f q) → Piece.position p = Piece.position q) :
    Valid (P := P) fun i => f (s i) :=
  fun _ _ e => h (hf _ _ e)

end PieceSet

/-! ## Moves act injectively on positions -/

/-- where a corner move takes a position -/
def cornerPosMoved (v : Vec3) (m : AxisMove) : Vec3 := (moved (⟨v, .Y⟩ : Corner) m).position

theorem corner_pos_moved (c : Corner) (m : AxisMove) : (moved c m).position = cornerPosMoved c.position m := by
  revert c m; decide +kernel

theorem cornerPos_undo (v : Vec3) (m : AxisMove) : cornerPosMoved (cornerPosMoved v m) (Move.inverse m) = v := by
  revert v m; decide +kernel

/-- where an edge move takes a position -/
def edgePosMoved (p : Edge.Pos) (m : AxisMove) : Edge.Pos := (moved (⟨p.1, p.2, true⟩ : Edge) m).position

theorem edge_pos_moved (c : Edge) (m : AxisMove) : (moved c m).position = edgePosMoved c.position m := by
  revert c m; decide +kernel

theorem edgePos_undo (v : Edge.Pos) (m : AxisMove) : edgePosMoved (edgePosMoved v m) (Move.inverse m) = v := by
  revert v m; decide +kernel

theorem corner_pos_inj (m : AxisMove) (p q : Corner)
    (h : Piece.position (moved p m) = Piece.position (moved q m)) : Piece.position p = Piece.position q := by
  have h' : (moved p m).position = (moved q m).position := h
  rw [corner_pos_moved, corner_pos_moved] at h'
  have := congrArg (cornerPosMoved · (Move.inverse m)) h'
  simp only [cornerPos_undo] at this
  exact this

theorem edge_pos_inj (m : AxisMove) (p q : Edge)
    (h : Piece.position (moved p m) = Piece.position (moved q m)) : Piece.position p = Piece.position q := by
  have h' : (moved p m).position = (moved q m).position := h
  rw [edge_pos_moved, edge_pos_moved] at h'
  have := congrArg (edgePosMoved · (Move.inverse m)) h'
  simp only [edgePos_undo] at this
  exact this

theorem depth_moved_inj {P : Type} [DepthPiece P] [Rotatable P] [LawfulRotatable P] [LawfulDepthPiece P] {M : Nat}
    (nd td : Nat) (m : WideAxisMove M) (p q : P) (h : DepthPiece.moved nd td p m = DepthPiece.moved nd td q m) :
    p = q := by
  have hl := depth_laws P M nd td
  obtain ⟨d, f, x⟩ := m
  have e : ∀ p : P, DepthPiece.moved nd td (DepthPiece.moved nd td p (⟨d, ⟨f, x⟩⟩ : WideAxisMove M))
      (⟨d, ⟨f, x.mul .neg⟩⟩ : WideAxisMove M) = p := by
    intro p
    have := hl.add p d f x (x.mul .neg)
    have hx : x.add (x.mul .neg) = none := by cases x <;> rfl
    simpa only [hx] using this
  rw [← e p, ← e q, h]

theorem PieceSet.Valid.moved_corner {s : PieceSet Corner 8} (h : s.Valid) (m : AxisMove) : (s.moved m).Valid :=
  h.map (fun p => Movable.moved p m) (corner_pos_inj m)

theorem PieceSet.Valid.moved_edge {s : PieceSet Edge 12} (h : s.Valid) (m : AxisMove) : (s.moved m).Valid :=
  h.map (fun p => Movable.moved p m) (edge_pos_inj m)

end Barbarosa
