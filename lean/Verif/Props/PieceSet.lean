import Verif.Lemmas.PieceSet
import Verif.Spec.PieceSet

/-!
# C08–C11: piece sets
-/

namespace Barbarosa

open PieceSet

/-! ## C08 -/

theorem swap?_valid {P : Type} {n : Nat} [PieceSetDescriptor P n] [LawfulDescriptor P n] {s : PieceSet P n}
    (h : s.Valid) (a b : Piece.Position P) : ∃ s', s.swap? a b = some s' ∧ s'.Valid := by
  obtain ⟨i, rfl⟩ := LawfulDescriptor.ref_bij.2 a
  obtain ⟨j, rfl⟩ := LawfulDescriptor.ref_bij.2 b
  exact ⟨_, swap?_ref s i j, h.swapAt i j⟩

theorem update_valid {P : Type} {n : Nat} [Piece P] {s : PieceSet P n} (h : s.Valid) (i : Fin n) (p : P)
    (hp : Piece.position p = Piece.position (s i)) : Valid (P := P) (Function.update s i p) := by
  refine h.of_pos fun j => ?_
  by_cases hj : j = i
  · subst hj; rw [Function.update_self]; exact hp
  · rw [Function.update_of_ne hj]

theorem runs_valid {P : Type} {n : Nat} [Piece P] {Op : Type} (run : PieceSet P n → Op → Option (PieceSet P n))
    (h : ∀ s : PieceSet P n, s.Valid → ∀ o, ∃ s', run s o = some s' ∧ s'.Valid) (ops : List Op) (s : PieceSet P n)
    (hs : s.Valid) : ∃ s', ops.foldlM run s = some s' ∧ s'.Valid := by
  induction ops generalizing s with
  | nil => exact ⟨s, rfl, hs⟩
  | cons o ops ih =>
    obtain ⟨s₁, h₁, v₁⟩ := h s hs o
    obtain ⟨s₂, h₂, v₂⟩ := ih s₁ v₁
    exact ⟨s₂, by simp [List.foldlM_cons, h₁, h₂], v₂⟩

/-- **C08** Corners: any sequence of turns, shuffles, swaps, twists and re-orientations of a set that passes `validate`
runs without panic and gives a set that passes `validate`. -/
theorem C08_corners (ops : List CornerOp) (s : PieceSet Corner 8) (hs : s.validate = none) :
    ∃ s', ops.foldlM CornerOp.run s = some s' ∧ s'.validate = none := by
  simp only [validate_eq_none] at hs ⊢
  refine runs_valid CornerOp.run (fun s hs o => ?_) ops s hs
  cases o with
  | move m => exact ⟨_, rfl, hs.moved_corner m⟩
  | shuffle σ => exact ⟨_, rfl, hs.shuffle σ⟩
  | swap a b => exact swap?_valid hs a b
  | twist i => exact ⟨_, rfl, update_valid hs i _ rfl⟩
  | orient i a => exact ⟨_, rfl, update_valid hs i _ rfl⟩

/-- a move, a swap and a twist on the corners after `F` -/
example : ∃ s', [CornerOp.move ⟨Face.R, .single⟩, .swap ⟨.pos, .pos, .pos⟩ ⟨.neg, .pos, .pos⟩, .twist 3].foldlM CornerOp.run
    ((PieceSet.SOLVED Corner).moved (⟨Face.F, .single⟩ : AxisMove)) = some s' ∧ s'.validate = none :=
  C08_corners _ _ (by decide +kernel)

/-- **C08** Edges. -/
theorem C08_edges (ops : List EdgeOp) (s : PieceSet Edge 12) (hs : s.validate = none) :
    ∃ s', ops.foldlM EdgeOp.run s = some s' ∧ s'.validate = none := by
  simp only [validate_eq_none] at hs ⊢
  refine runs_valid EdgeOp.run (fun s hs o => ?_) ops s hs
  cases o with
  | move m => exact ⟨_, rfl, hs.moved_edge m⟩
  | shuffle σ => exact ⟨_, rfl, hs.shuffle σ⟩
  | swap a b => exact swap?_valid hs a b
  | flip i => exact ⟨_, rfl, update_valid hs i _ rfl⟩
  | orient i a => exact ⟨_, rfl, update_valid hs i _ rfl⟩

example : ∃ s', [EdgeOp.move ⟨Face.R, .single⟩, .move ⟨Face.U, .double⟩].foldlM EdgeOp.run
    ((PieceSet.SOLVED Edge).moved (⟨Face.F, .single⟩ : AxisMove)) = some s' ∧ s'.validate = none :=
  C08_edges _ _ (by decide +kernel)

theorem depth_moved_valid {P : Type} {n : Nat} [PieceSetDescriptor P n] [DepthPiece P] [Rotatable P]
    [LawfulRotatable P] [LawfulDepthPiece P] (hP : Function.Injective (Piece.position (P := P))) {s : PieceSet P n}
    (h : s.Valid) {M : Nat} (nd td : Nat) (m : WideAxisMove M) : Valid (P := P) (DepthPieceSet.moved nd td s m) :=
  h.map (fun p => DepthPiece.moved nd td p m) fun p q e => by rw [depth_moved_inj nd td m p q (hP e)]

theorem depth_ops {P : Type} {n : Nat} [DecidableEq P] [PieceSetDescriptor P n] [LawfulDescriptor P n] [DepthPiece P]
    [Rotatable P] [LawfulRotatable P] [LawfulDepthPiece P] (hP : Function.Injective (Piece.position (P := P)))
    (ops : List (DepthOp P n)) (s : PieceSet P n) (hs : s.validate = none) :
    ∃ s', ops.foldlM DepthOp.run s = some s' ∧ s'.validate = none := by
  simp only [validate_eq_none] at hs ⊢
  refine runs_valid DepthOp.run (fun s hs o => ?_) ops s hs
  cases o with
  | move nd td M m => exact ⟨_, rfl, depth_moved_valid hP hs nd td m⟩
  | shuffle σ => exact ⟨_, rfl, hs.shuffle σ⟩
  | swap a b => exact swap?_valid hs a b

/-- **C08** Wings and all kinds of centres. -/
theorem C08_wings_and_centers :
    (∀ (ops : List (DepthOp Wing 24)) (s : PieceSet Wing 24), s.validate = none →
      ∃ s', ops.foldlM DepthOp.run s = some s' ∧ s'.validate = none) ∧
    (∀ (ops : List (DepthOp CenterCorner 24)) (s : PieceSet CenterCorner 24), s.validate = none →
      ∃ s', ops.foldlM DepthOp.run s = some s' ∧ s'.validate = none) ∧
    (∀ (ops : List (DepthOp CenterEdge 24)) (s : PieceSet CenterEdge 24), s.validate = none →
      ∃ s', ops.foldlM DepthOp.run s = some s' ∧ s'.validate = none) ∧
    (∀ (ops : List (DepthOp CenterWing 48)) (s : PieceSet CenterWing 48), s.validate = none →
      ∃ s', ops.foldlM DepthOp.run s = some s' ∧ s'.validate = none) :=
  ⟨depth_ops fun _ _ h => h, depth_ops fun _ _ h => h, depth_ops fun _ _ h => h, depth_ops fun _ _ h => h⟩

/-- two moves of different depths on the wings -/
example : ∃ s', ([.move 0 1 1 ⟨1, ⟨Face.R, .single⟩⟩, .move 0 1 1 ⟨0, ⟨Face.U, .double⟩⟩] : List (DepthOp Wing 24)).foldlM DepthOp.run
    (PieceSet.SOLVED Wing) = some s' ∧ s'.validate = none := C08_wings_and_centers.1 _ _ (by decide +kernel)

/-- all piece sets of the cube pass `validate` -/
def Cube2.valid (c : Cube2) : Prop := c.corners.validate = none
/-- all piece sets of the cube pass `validate` -/
def Cube3.valid (c : Cube3) : Prop := c.edges.validate = none ∧ c.corners.validate = none
/-- all piece sets of the cube pass `validate` -/
def Cube4.valid (c : Cube4) : Prop :=
  c.corners.validate = none ∧ c.wings.validate = none ∧ c.centers.validate = none
/-- all piece sets of the cube pass `validate` -/
def Cube5.valid (c : Cube5) : Prop :=
  c.corners.validate = none ∧ c.edges.validate = none ∧ c.cornerCenters.validate = none ∧ c.cornerEdges.validate = none
/-- all piece sets of the cube pass `validate` -/
def Cube6.valid (c : Cube6) : Prop :=
  c.corners.validate = none ∧ c.wings1.validate = none ∧ c.wings2.validate = none ∧
  c.centerCorners1.validate = none ∧ c.centerCorners2.validate = none ∧ c.centerWings.validate = none
/-- all piece sets of the cube pass `validate` -/
def Cube7.valid (c : Cube7) : Prop :=
  c.corners.validate = none ∧ c.edges.validate = none ∧ c.wings1.validate = none ∧ c.wings2.validate = none ∧
  c.centerCorners1.validate = none ∧ c.centerCorners2.validate = none ∧ c.centerWings.validate = none ∧
  c.centerEdges1.validate = none ∧ c.centerEdges2.validate = none

theorem movedAlg_induction {C M : Type} [Movable C M] (p : C → Prop) (h : ∀ (c : C) (m : M), p c → p (moved c m)) (c : C)
    (alg : List M) (hc : p c) : p (movedAlg c alg) := by
  induction alg generalizing c with
  | nil => exact hc
  | cons m l ih => exact ih _ (h c m hc)

/-- **C08** Whole cubes of every size stay valid under any sequence of (wide) moves; in particular everything reachable
from solved is valid. -/
theorem C08_cubes :
    (∀ (c : Cube2) (alg : List AxisMove), c.valid → (movedAlg c alg).valid) ∧
    (∀ (c : Cube3) (alg : List AxisMove), c.valid → (movedAlg c alg).valid) ∧
    (∀ (c : Cube4) (alg : List (WideAxisMove 1)), c.valid → (movedAlg c alg).valid) ∧
    (∀ (c : Cube5) (alg : List (WideAxisMove 1)), c.valid → (movedAlg c alg).valid) ∧
    (∀ (c : Cube6) (alg : List (WideAxisMove 2)), c.valid → (movedAlg c alg).valid) ∧
    (∀ (c : Cube7) (alg : List (WideAxisMove 2)), c.valid → (movedAlg c alg).valid) := by
  refine ⟨fun c alg => movedAlg_induction _ (fun c m h => ?_) c alg, fun c alg => movedAlg_induction _ (fun c m h => ?_) c alg,
    fun c alg => movedAlg_induction _ (fun c m h => ?_) c alg, fun c alg => movedAlg_induction _ (fun c m h => ?_) c alg,
    fun c alg => movedAlg_induction _ (fun c m h => ?_) c alg, fun c alg => movedAlg_induction _ (fun c m h => ?_) c alg⟩
  · simp only [Cube2.valid, validate_eq_none] at h ⊢
    exact h.moved_corner m
  · simp only [Cube3.valid, validate_eq_none] at h ⊢
    exact ⟨h.1.moved_edge m, h.2.moved_corner m⟩
  · simp only [Cube4.valid, validate_eq_none] at h ⊢
    exact ⟨h.1.moved_corner _, depth_moved_valid (fun _ _ h => h) h.2.1 _ _ m, depth_moved_valid (fun _ _ h => h) h.2.2 _ _ m⟩
  · simp only [Cube5.valid, validate_eq_none] at h ⊢
    exact ⟨h.1.moved_corner _, h.2.1.moved_edge _, depth_moved_valid (fun _ _ h => h) h.2.2.1 _ _ m,
      depth_moved_valid (fun _ _ h => h) h.2.2.2 _ _ m⟩
  · simp only [Cube6.valid, validate_eq_none] at h ⊢
    obtain ⟨h1, h2, h3, h4, h5, h6⟩ := h
    exact ⟨h1.moved_corner _, depth_moved_valid (fun _ _ h => h) h2 _ _ m, depth_moved_valid (fun _ _ h => h) h3 _ _ m,
      depth_moved_valid (fun _ _ h => h) h4 _ _ m, depth_moved_valid (fun _ _ h => h) h5 _ _ m,
      depth_moved_valid (fun _ _ h => h) h6 _ _ m⟩
  · simp only [Cube7.valid, validate_eq_none] at h ⊢
    obtain ⟨h1, h2, h3, h4, h5, h6, h7, h8, h9⟩ := h
    exact ⟨h1.moved_corner _, h2.moved_edge _, depth_moved_valid (fun _ _ h => h) h3 _ _ m,
      depth_moved_valid (fun _ _ h => h) h4 _ _ m, depth_moved_valid (fun _ _ h => h) h5 _ _ m,
      depth_moved_valid (fun _ _ h => h) h6 _ _ m, depth_moved_valid (fun _ _ h => h) h7 _ _ m,
      depth_moved_valid (fun _ _ h => h) h8 _ _ m, depth_moved_valid (fun _ _ h => h) h9 _ _ m⟩

/-- any alg on a solved 7x7 -/
example (alg : List (WideAxisMove 2)) : (movedAlg (Cube.SOLVED : Cube7) alg).valid :=
  C08_cubes.2.2.2.2.2 _ alg (by show Cube7.valid _; unfold Cube7.valid; decide +kernel)

/-- **C08** The solved cubes are valid, so the hypotheses above are met. -/
theorem C08_solved_valid : (Cube.SOLVED : Cube2).valid ∧ (Cube.SOLVED : Cube3).valid ∧ (Cube.SOLVED : Cube4).valid ∧
    (Cube.SOLVED : Cube5).valid ∧ (Cube.SOLVED : Cube6).valid ∧ (Cube.SOLVED : Cube7).valid := by
  simp only [Cube2.valid, Cube3.valid, Cube4.valid, Cube5.valid, Cube6.valid, Cube7.valid, validate_eq_none]
  exact ⟨solved_valid, ⟨solved_valid, solved_valid⟩, ⟨solved_valid, solved_valid, solved_valid⟩,
    ⟨solved_valid, solved_valid, solved_valid, solved_valid⟩,
    ⟨solved_valid, solved_valid, solved_valid, solved_valid, solved_valid, solved_valid⟩,
    ⟨solved_valid, solved_valid, solved_valid, solved_valid, solved_valid, solved_valid, solved_valid, solved_valid,
      solved_valid⟩⟩

/-- a set which does *not* pass `validate`, and a run of operations that really changes a valid one -/
example : (PieceSet.validate (fun _ => ⟨⟨.pos, .pos, .pos⟩, .Y⟩ : PieceSet Corner 8)).isSome ∧
    ([CornerOp.move ⟨Face.R, .single⟩, .swap ⟨.pos, .pos, .pos⟩ ⟨.neg, .pos, .pos⟩, .twist 3].foldlM CornerOp.run
      (PieceSet.SOLVED Corner)).isSome ∧
    ((PieceSet.SOLVED Corner).swap? (⟨.pos, .pos, .pos⟩ : Vec3) (⟨.neg, .pos, .pos⟩ : Vec3)) ≠ some (PieceSet.SOLVED Corner) := by
  decide +kernel

/-! ## C09 -/

/-- **C09** `PieceSet::new` accepts an array iff no two pieces share a position, and then returns the array. -/
theorem C09_new_accepts {P : Type} {n : Nat} [DecidableEq P] [PieceSetDescriptor P n] (pieces s : Fin n → P) :
    PieceSet.new pieces = .ok s ↔
      s = pieces ∧ ∀ i j, i ≠ j → Piece.position (pieces i) ≠ Piece.position (pieces j) := by
  have hv := validate_eq_none (n := n) pieces
  have hval : Valid (P := P) pieces ↔ ∀ i j, i ≠ j → Piece.position (pieces i) ≠ Piece.position (pieces j) :=
    ⟨fun h i j hij e => hij (h e), fun h i j e => by_contra fun hij => h i j hij e⟩
  rw [← hval, ← hv]
  unfold PieceSet.new
  rcases validate (n := n) pieces with _ | e
  · simp [eq_comm]
  · simp

/-- the edges after `R` -/
example : PieceSet.new ((PieceSet.SOLVED Edge).moved (⟨Face.R, .single⟩ : AxisMove)) = .ok ((PieceSet.SOLVED Edge).moved (⟨Face.R, .single⟩ : AxisMove)) :=
  (C09_new_accepts _ _).2 ⟨rfl, by decide +kernel⟩

/-- **C09** When the array is rejected the error is a duplicate position, it really occurs twice, and it is the earliest
one to repeat: everything before its second occurrence is duplicate free. -/
theorem C09_reported_duplicate {P : Type} {n : Nat} [DecidableEq P] [PieceSetDescriptor P n] (pieces : Fin n → P)
    (err : ValidationError P) (h : PieceSet.new pieces = .error err) :
    ∃ (pos : Piece.Position P) (i j : Fin n), err = .duplicatePosition pos ∧ i < j ∧
      Piece.position (pieces i) = pos ∧ Piece.position (pieces j) = pos ∧
      ∀ k l : Fin n, k < j → l < j → Piece.position (pieces k) = Piece.position (pieces l) → k = l := by
  unfold PieceSet.new validate at h
  rcases hd : findDuplicates (List.map Piece.position (toList (n := n) pieces)) with _ | pos
  · have h2 : findDuplicates (toList (n := n) pieces) = none := by
      rw [findDuplicates_none] at hd ⊢
      exact List.Nodup.of_map _ hd
    rw [hd, h2] at h
    cases h
  · rw [hd] at h
    have he : err = .duplicatePosition pos := by cases h; rfl
    obtain ⟨pre, post, h1, h2, h3⟩ := findDuplicatesGo_some [] _ pos List.nodup_nil hd
    simp only [List.nil_append] at h2 h3
    have hlen : pre.length < n := by
      have := congrArg List.length h1
      simp [toList] at this
      omega
    have hget : ∀ (k : Nat) (hk : k < n), (pre ++ pos :: post)[k]? = some (Piece.position (pieces ⟨k, hk⟩)) := by
      intro k hk
      rw [← h1]
      simp [toList, hk]
    obtain ⟨i, hi, hipos⟩ := List.getElem_of_mem h3
    have hi' : i < n := by omega
    refine ⟨pos, ⟨i, hi'⟩, ⟨pre.length, hlen⟩, he, hi, ?_, ?_, ?_⟩
    · have := hget i hi'
      rw [List.getElem?_append_left hi, List.getElem?_eq_getElem hi, hipos] at this
      exact (Option.some.inj this).symm
    · have := hget pre.length hlen
      simpa [eq_comm] using this
    · intro k l hk hl hkl
      have a := hget k.1 k.2
      have b := hget l.1 l.2
      have hk' : k.1 < pre.length := hk
      have hl' : l.1 < pre.length := hl
      rw [List.getElem?_append_left hk', List.getElem?_eq_getElem hk'] at a
      rw [List.getElem?_append_left hl', List.getElem?_eq_getElem hl'] at b
      have : pre[k.1] = pre[l.1] := by
        rw [Option.some.inj a, Option.some.inj b]; exact hkl
      exact Fin.ext ((List.Nodup.getElem_inj_iff h2).mp this)

/-- one rejected array: corner 2 repeats the place of corner 1 although the pieces differ -/
example : (match PieceSet.new (fun i => if i = 2 then ⟨⟨.pos, .pos, .neg⟩, .X⟩ else PieceSet.SOLVED Corner i) with
    | .error (.duplicatePosition p) => decide (p = (⟨.pos, .pos, .neg⟩ : Vec3))
    | _ => false) = true ∧
    (match PieceSet.new (PieceSet.SOLVED Corner) with | .ok _ => true | _ => false) = true := by decide +kernel

/-! ## C10 -/

/-- **C10** In a valid set, looking up by home and by place never panics and the two lookups are inverse to each other.
Stated for every piece type whose reference positions list every position once (all six do, see `C10_instances`). -/
theorem C10_lookups {P : Type} {n : Nat} [DecidableEq P] [PieceSetDescriptor P n] [LawfulDescriptor P n]
    (s : PieceSet P n) (hs : s.validate = none) :
    (∀ i, s.pieceOriginallyAt? (PieceSetDescriptor.REFERENCE_POSITIONS (P := P) i) = some (s i)) ∧
    (∀ p, ∃ piece, s.pieceOriginallyAt? p = some piece ∧
      s.originalPositionOfPieceAt? (Piece.position piece) = some p) ∧
    (∀ q, ∃ home, s.originalPositionOfPieceAt? q = some home ∧
      ∃ piece, s.pieceOriginallyAt? home = some piece ∧ Piece.position piece = q) := by
  rw [validate_eq_none] at hs
  refine ⟨pieceOriginallyAt?_ref s, fun p => ?_, fun q => ?_⟩
  · obtain ⟨i, rfl⟩ := LawfulDescriptor.ref_bij.2 p
    exact ⟨s i, pieceOriginallyAt?_ref s i, originalPositionOfPieceAt?_pos hs i⟩
  · obtain ⟨i, rfl⟩ := hs.bijective.2 q
    exact ⟨_, originalPositionOfPieceAt?_pos hs i, s i, pieceOriginallyAt?_ref s i, rfl⟩

/-- after R the piece from the upper right edge is found from its home, and its home from where it is -/
example : ∃ piece, ((PieceSet.SOLVED Edge).moved (⟨Face.R, .single⟩ : AxisMove)).pieceOriginallyAt? (.Z, ⟨.pos, .pos⟩) = some piece ∧
    ((PieceSet.SOLVED Edge).moved (⟨Face.R, .single⟩ : AxisMove)).originalPositionOfPieceAt? (Piece.position piece) = some (.Z, ⟨.pos, .pos⟩) :=
  (C10_lookups ((PieceSet.SOLVED Edge).moved (⟨Face.R, .single⟩ : AxisMove)) (by decide +kernel)).2.1 (.Z, ⟨.pos, .pos⟩)

/-- **C10** The hypothesis about the constants holds for all six piece types: reference positions are a bijection and the
solved pieces sit on them. -/
theorem C10_instances :
    Function.Bijective Corner.REFERENCE_POSITIONS ∧ Function.Bijective Edge.REFERENCE_POSITIONS ∧
    Function.Bijective Wing.SOLVED ∧ Function.Bijective CenterCorner.SOLVED ∧ Function.Bijective CenterEdge.SOLVED ∧
    Function.Bijective CenterWing.SOLVED :=
  ⟨LawfulDescriptor.ref_bij (P := Corner), LawfulDescriptor.ref_bij (P := Edge), LawfulDescriptor.ref_bij (P := Wing),
    LawfulDescriptor.ref_bij (P := CenterCorner), LawfulDescriptor.ref_bij (P := CenterEdge),
    LawfulDescriptor.ref_bij (P := CenterWing)⟩

/-- after `R` the corner from `URF` is at `URB`, and the lookups find that -/
example : let s := (PieceSet.SOLVED Corner).moved (⟨Face.R, .single⟩ : AxisMove)
    s.pieceOriginallyAt? (⟨.pos, .pos, .pos⟩ : Vec3) = some ⟨⟨.pos, .pos, .neg⟩, .Z⟩ ∧
    s.originalPositionOfPieceAt? (⟨.pos, .pos, .neg⟩ : Vec3) = some (⟨.pos, .pos, .pos⟩ : Vec3) ∧ s.validate.isNone := by decide +kernel

/-! ## C11 -/

/-- **C11** `swap(a, b)` never panics, exchanges the pieces whose homes are `a` and `b`, leaves every other piece as it
was, is undone by itself, and does nothing if `a = b`. -/
theorem C11_swap {P : Type} {n : Nat} [PieceSetDescriptor P n] [LawfulDescriptor P n] (s : PieceSet P n)
    (a b : Piece.Position P) :
    ∃ s', s.swap? a b = some s' ∧ s'.pieceOriginallyAt? a = s.pieceOriginallyAt? b ∧
      s'.pieceOriginallyAt? b = s.pieceOriginallyAt? a ∧
      (∀ p, p ≠ a → p ≠ b → s'.pieceOriginallyAt? p = s.pieceOriginallyAt? p) ∧
      s'.swap? a b = some s ∧ s'.swap? b a = some s ∧ (a = b → s' = s) := by
  obtain ⟨i, rfl⟩ := LawfulDescriptor.ref_bij.2 a
  obtain ⟨j, rfl⟩ := LawfulDescriptor.ref_bij.2 b
  have hb := LawfulDescriptor.ref_bij (P := P)
  refine ⟨_, swap?_ref s i j, ?_, ?_, ?_, ?_, ?_, ?_⟩
  · rw [pieceOriginallyAt?_ref, pieceOriginallyAt?_ref, swapAt_apply, Equiv.swap_apply_left]
  · rw [pieceOriginallyAt?_ref, pieceOriginallyAt?_ref, swapAt_apply, Equiv.swap_apply_right]
  · intro p ha hb'
    obtain ⟨k, rfl⟩ := hb.2 p
    rw [pieceOriginallyAt?_ref, pieceOriginallyAt?_ref, swapAt_apply,
      Equiv.swap_apply_of_ne_of_ne (fun e => ha (by rw [e])) (fun e => hb' (by rw [e]))]
  · rw [swap?_ref]
    congr 1
    funext k
    rw [swapAt_apply, swapAt_apply, Equiv.swap_apply_self]
  · rw [swap?_ref]
    congr 1
    funext k
    rw [swapAt_apply, swapAt_apply, Equiv.swap_comm j i, Equiv.swap_apply_self]
  · intro e
    have := hb.1 e
    subst this
    funext k
    rw [swapAt_apply, Equiv.swap_self]; rfl

example : ((PieceSet.SOLVED Edge).swap? ((.X, ⟨.pos, .pos⟩) : Edge.Pos) ((.Y, ⟨.neg, .neg⟩) : Edge.Pos)).map (· 0) =
    some ⟨.Y, ⟨.neg, .neg⟩, true⟩ := by decide +kernel

end Barbarosa
