import Verif.Spec.Reduction
import Verif.Props.BigCubes
import Verif.Props.Invariants
import Verif.Props.Heuristics

/-!
# C65, C66: big cubes and the small cubes inside them
-/

namespace Barbarosa

/-! ## One piece under a turn of the outermost layer -/

theorem wing_outer (N nd td : Nat) (w : Wing) (m : AxisMove) :
    DepthPiece.moved (nd + 1) td w (⟨0, m⟩ : WideAxisMove N) = ⟨w.correspondingEdge.moved m⟩ := by
  unfold DepthPiece.moved Edge.moved
  simp only [DepthPiece.isInWideMove]
  by_cases h : m.face.containsEdge w.correspondingEdge = true
  · simp only [h, if_true]; rfl
  · simp [h]

theorem centerCorner_outer (N nd td : Nat) (c : CenterCorner) (m : AxisMove) :
    (DepthPiece.moved (nd + 1) td c (⟨0, m⟩ : WideAxisMove N)).mainFace = c.mainFace := by
  have key : ∀ (c : CenterCorner) (m : AxisMove), c.axis = m.face.axis →
      (Rotatable.rotated c (AxisRotation.ofMove m)).mainFace = c.mainFace := by decide +kernel
  unfold DepthPiece.moved
  split
  · rename_i h
    refine key c m ?_
    by_contra hne
    revert h
    simp [DepthPiece.isInWideMove, WideAxisMove.face, hne]
  · rfl

theorem centerWing_outer (N nd td : Nat) (c : CenterWing) (m : AxisMove) :
    (DepthPiece.moved (nd + 1) (td + 1) c (⟨0, m⟩ : WideAxisMove N)).mainFace = c.mainFace := by
  have key : ∀ (c : CenterWing) (m : AxisMove), c.mainFace = m.face →
      (Rotatable.rotated c (AxisRotation.ofMove m)).mainFace = c.mainFace := by decide +kernel
  unfold DepthPiece.moved
  split
  · rename_i h
    refine key c m ?_
    by_contra hne
    revert h
    simp [DepthPiece.isInWideMove, WideAxisMove.face, hne]
  · rfl

theorem edges_move_alike : ∀ (m : AxisMove) (e e' : Edge), e.position = e'.position →
    (e.moved m).position = (e'.moved m).position ∧ ((e.moved m).oriented = (e'.moved m).oriented ↔ e.oriented = e'.oriented) := by
  decide +kernel

theorem follow_moved {N nd td : Nat} {w : PieceSet Wing 24} {e : PieceSet Edge 12} (h : FollowEdges w e) (m : AxisMove) :
    FollowEdges (DepthPieceSet.moved (nd + 1) td w (⟨0, m⟩ : WideAxisMove N)) (e.moved m) := by
  intro i j hij
  obtain ⟨h1, h2⟩ := h i j hij
  obtain ⟨k1, k2⟩ := edges_move_alike m _ _ h1
  unfold DepthPieceSet.moved
  rw [wing_outer]
  exact ⟨k1, k2.trans h2⟩

theorem follow_solved_iff {w : PieceSet Wing 24} {e : PieceSet Edge 12} (h : FollowEdges w e) :
    w = PieceSet.SOLVED Wing ↔ e = PieceSet.SOLVED Edge := by
  have ext : ∀ a b : Edge, a.position = b.position → a.oriented = b.oriented → a = b := by decide +kernel
  constructor
  · rintro rfl
    funext j
    have t : ∀ j, ∃ i, (PieceSet.SOLVED Wing i).correspondingEdge = PieceSet.SOLVED Edge j := by decide +kernel
    obtain ⟨i, hi⟩ := t j
    obtain ⟨h1, h2⟩ := h i j (by rw [hi])
    have ho : (PieceSet.SOLVED Wing i).correspondingEdge.oriented = true := by rw [hi]; rfl
    rw [← hi]
    exact (ext _ _ h1 (h2.2 ho)).symm
  · rintro rfl
    funext i
    have t : ∀ i, ∃ j, (PieceSet.SOLVED Wing i).correspondingEdge.position = (PieceSet.SOLVED Edge j).position := by decide +kernel
    obtain ⟨j, hj⟩ := t i
    obtain ⟨h1, h2⟩ := h i j hj
    have ho : (PieceSet.SOLVED Edge j).oriented = true := rfl
    rw [ho] at h2
    have : (w i).correspondingEdge = (PieceSet.SOLVED Wing i).correspondingEdge :=
      ext _ _ (h1.trans hj.symm) (Bool.eq_iff_iff.2 h2)
    have wext : ∀ a b : Wing, a.correspondingEdge = b.correspondingEdge → a = b := by rintro ⟨a⟩ ⟨b⟩ h; cases h; rfl
    exact wext _ _ this

/-! ## C65: the reduction method -/

instance (w : PieceSet Wing 24) (e : PieceSet Edge 12) : Decidable (FollowEdges w e) := by unfold FollowEdges; infer_instance

/-- **C65** 4x4: once the wings are paired and the centers are on their faces, turns of the outermost layer do to the 4x4 what
they do to the 3x3 it looks like. -/
theorem C65_cube4_follows {c : Cube4} {c3 : Cube3} (h : c.LooksLike c3) (alg : List AxisMove) :
    (movedAlg c (atDepth 1 0 alg)).LooksLike (movedAlg c3 alg) := by
  induction alg generalizing c c3 with
  | nil => exact h
  | cons m l ih =>
    exact ih ⟨congrArg (fun s : PieceSet Corner 8 => s.moved m) h.corners, follow_moved h.wings m,
      fun i => (centerCorner_outer 1 0 0 _ m).trans (h.centers i)⟩

/-- **C65** 6x6: the same. -/
theorem C65_cube6_follows {c : Cube6} {c3 : Cube3} (h : c.LooksLike c3) (alg : List AxisMove) :
    (movedAlg c (atDepth 2 0 alg)).LooksLike (movedAlg c3 alg) := by
  induction alg generalizing c c3 with
  | nil => exact h
  | cons m l ih =>
    exact ih ⟨congrArg (fun s : PieceSet Corner 8 => s.moved m) h.corners, follow_moved h.wings1 m, follow_moved h.wings2 m,
      fun i => (centerCorner_outer 2 0 0 _ m).trans (h.centerCorners1 i), fun i => (centerCorner_outer 2 1 0 _ m).trans (h.centerCorners2 i),
      fun i => (centerWing_outer 2 0 1 _ m).trans (h.centerWings i)⟩

/-- the sexy move on a solved 6x6 -/
example : (movedAlg (Cube.SOLVED : Cube6) (atDepth 2 0 Perms.SEXY_MOVE)).LooksLike (movedAlg Cube3.SOLVED Perms.SEXY_MOVE) :=
  C65_cube6_follows ⟨by decide +kernel, by decide +kernel, by decide +kernel, by decide +kernel, by decide +kernel, by decide +kernel⟩ _

/-- **C65** 5x5. Missing: center edges, for which the claim is false (`C65_center_edges_leave`). -/
theorem C65_cube5_follows_partial {c : Cube5} {c3 : Cube3} (h : c.LooksLikeButCenterEdges c3) (alg : List AxisMove) :
    (movedAlg c (atDepth 1 0 alg)).LooksLikeButCenterEdges (movedAlg c3 alg) := by
  induction alg generalizing c c3 with
  | nil => exact h
  | cons m l ih =>
    exact ih ⟨congrArg (fun s : PieceSet Corner 8 => s.moved m) h.corners, congrArg (fun s : PieceSet Edge 12 => s.moved m) h.edges,
      fun i => (centerCorner_outer 1 0 0 _ m).trans (h.cornerCenters i)⟩

/-- the sexy move on a solved 5x5 -/
example : (movedAlg (Cube.SOLVED : Cube5) (atDepth 1 0 Perms.SEXY_MOVE)).LooksLikeButCenterEdges (movedAlg Cube3.SOLVED Perms.SEXY_MOVE) :=
  C65_cube5_follows_partial ⟨by decide +kernel, by decide +kernel, by decide +kernel⟩ _

/-- **C65** 7x7. Missing: center edges, for which the claim is false (`C65_center_edges_leave`). -/
theorem C65_cube7_follows_partial {c : Cube7} {c3 : Cube3} (h : c.LooksLikeButCenterEdges c3) (alg : List AxisMove) :
    (movedAlg c (atDepth 2 0 alg)).LooksLikeButCenterEdges (movedAlg c3 alg) := by
  induction alg generalizing c c3 with
  | nil => exact h
  | cons m l ih =>
    exact ih ⟨congrArg (fun s : PieceSet Corner 8 => s.moved m) h.corners, congrArg (fun s : PieceSet Edge 12 => s.moved m) h.edges,
      follow_moved h.wings1 m, follow_moved h.wings2 m,
      fun i => (centerCorner_outer 2 0 0 _ m).trans (h.centerCorners1 i), fun i => (centerCorner_outer 2 1 0 _ m).trans (h.centerCorners2 i),
      fun i => (centerWing_outer 2 0 1 _ m).trans (h.centerWings i)⟩

/-- the sexy move on a solved 7x7 -/
example : (movedAlg (Cube.SOLVED : Cube7) (atDepth 2 0 Perms.SEXY_MOVE)).LooksLikeButCenterEdges (movedAlg Cube3.SOLVED Perms.SEXY_MOVE) :=
  C65_cube7_follows_partial ⟨by decide +kernel, by decide +kernel, by decide +kernel, by decide +kernel, by decide +kernel,
    by decide +kernel, by decide +kernel⟩ _

/-- **C65** is false for the 5x5 and the 7x7: one turn of the outermost layer takes center edges of the solved cube to other faces. -/
theorem C65_center_edges_leave :
    (∃ i, ((movedAlg (Cube.SOLVED : Cube5) (atDepth 1 0 [⟨Face.R, .single⟩])).cornerEdges i).mainFace ≠
      (PieceSet.SOLVED CenterEdge i).mainFace) ∧
    (∃ i, ((movedAlg (Cube.SOLVED : Cube7) (atDepth 2 0 [⟨Face.R, .single⟩])).centerEdges1 i).mainFace ≠
      (PieceSet.SOLVED CenterEdge i).mainFace) ∧
    (∃ i, ((movedAlg (Cube.SOLVED : Cube7) (atDepth 2 0 [⟨Face.R, .single⟩])).centerEdges2 i).mainFace ≠
      (PieceSet.SOLVED CenterEdge i).mainFace) := by decide +kernel

theorem looksLike4_uniform {c : Cube4} {c3 : Cube3} (h : c.LooksLike c3) : c.FacesUniform ↔ c3 = Cube3.SOLVED := by
  constructor
  · intro u
    exact Cube3.ext ((follow_solved_iff h.wings).1 u.wings) (h.corners.symm.trans u.corners)
  · rintro rfl
    exact ⟨h.corners, (follow_solved_iff h.wings).2 rfl, h.centers⟩

theorem looksLike6_uniform {c : Cube6} {c3 : Cube3} (h : c.LooksLike c3) : c.FacesUniform ↔ c3 = Cube3.SOLVED := by
  constructor
  · intro u
    exact Cube3.ext ((follow_solved_iff h.wings1).1 u.wings1) (h.corners.symm.trans u.corners)
  · rintro rfl
    exact ⟨h.corners, (follow_solved_iff h.wings1).2 rfl, (follow_solved_iff h.wings2).2 rfl, h.centerCorners1, h.centerCorners2,
      h.centerWings⟩

/-- **C65** Turns of the outermost layer solve a reduced 4x4 or 6x6 if and only if they solve the 3x3 it looks like, and then
`is_solved` says so. -/
theorem C65_solves (c3 : Cube3) (alg : List AxisMove) :
    (∀ c : Cube4, c.LooksLike c3 → ((movedAlg c (atDepth 1 0 alg)).FacesUniform ↔ movedAlg c3 alg = Cube3.SOLVED) ∧
      (movedAlg c3 alg = Cube3.SOLVED → Cube.isSolved (movedAlg c (atDepth 1 0 alg)) = true)) ∧
    (∀ c : Cube6, c.LooksLike c3 → ((movedAlg c (atDepth 2 0 alg)).FacesUniform ↔ movedAlg c3 alg = Cube3.SOLVED) ∧
      (movedAlg c3 alg = Cube3.SOLVED → Cube.isSolved (movedAlg c (atDepth 2 0 alg)) = true)) := by
  refine ⟨fun c h => ?_, fun c h => ?_⟩
  · have k := looksLike4_uniform (C65_cube4_follows h alg)
    exact ⟨k, fun e => (C19_partial.1 _).1 (k.2 e)⟩
  · have k := looksLike6_uniform (C65_cube6_follows h alg)
    exact ⟨k, fun e => (C19_partial.2.2.1 _).1 (k.2 e)⟩

/-- a 4x4 that looks like the 3x3 after the sexy move: five sexy moves more and every face has one colour -/
example (c : Cube4) (h : c.LooksLike (movedAlg Cube3.SOLVED Perms.SEXY_MOVE)) :
    (movedAlg c (atDepth 1 0 (List.replicate 5 Perms.SEXY_MOVE).flatten)).FacesUniform :=
  (((C65_solves _ _).1 c h).1).2 (by decide +kernel)

/-- **C65** In particular what the 3x3 solver returns, applied to the outermost layers, solves the reduced cube; whatever the heuristic
and the arithmetic. And if the 3x3 obeys its laws there is such an alg, of at most 45 moves. -/
theorem C65_solver (c3 : Cube3) :
    (∀ (K : Type) (ops : CostOps K) (h : Cube3 → K) (fuel : Nat) (alg : List AxisMove),
      Cube3.solveWithHeuristic? ops h fuel c3 = some (some alg) →
      (∀ c : Cube4, c.LooksLike c3 → (movedAlg c (atDepth 1 0 alg)).FacesUniform) ∧
      (∀ c : Cube6, c.LooksLike c3 → (movedAlg c (atDepth 2 0 alg)).FacesUniform)) ∧
    (c3.Lawful → ∃ alg : List AxisMove, alg.length ≤ 45 ∧
      (∀ c : Cube4, c.LooksLike c3 → (movedAlg c (atDepth 1 0 alg)).FacesUniform) ∧
      (∀ c : Cube6, c.LooksLike c3 → (movedAlg c (atDepth 2 0 alg)).FacesUniform)) := by
  constructor
  · intro K ops h fuel alg hs
    have hsol : Cube.isSolved (movedAlg c3 alg) = true :=
      (C26_solve_sound ops h Cube3.successors cube3_successors_true 200 fuel c3 Cube.isSolved).1 alg hs
    have e : movedAlg c3 alg = Cube3.SOLVED := by simpa [Cube.isSolved] using hsol
    exact ⟨fun c k => (((C65_solves c3 alg).1 c k).1).2 e, fun c k => (((C65_solves c3 alg).2 c k).1).2 e⟩
  · intro hl
    obtain ⟨alg, h1, h2⟩ := (C15_reachable_iff c3).2.2.2 hl
    exact ⟨alg, h1, fun c k => (((C65_solves c3 alg).1 c k).1).2 h2, fun c k => (((C65_solves c3 alg).2 c k).1).2 h2⟩

/-- any 6x6 that looks like the 3x3 after the sexy move -/
example : ∃ alg : List AxisMove, alg.length ≤ 45 ∧ ∀ c : Cube6, c.LooksLike (movedAlg Cube3.SOLVED Perms.SEXY_MOVE) →
    (movedAlg c (atDepth 2 0 alg)).FacesUniform := by
  obtain ⟨alg, h1, -, h2⟩ := (C65_solver (movedAlg Cube3.SOLVED Perms.SEXY_MOVE)).2 ((C15_reachable_iff _).1.1 ⟨_, rfl⟩)
  exact ⟨alg, h1, h2⟩

/-- A well known sequence that leaves the 4x4 reduced, with one pair of wings the wrong way round -/
def parity4 : List (WideAxisMove 1) :=
  [⟨1, ⟨.R, .single⟩⟩, ⟨0, ⟨.U, .double⟩⟩, ⟨1, ⟨.R, .single⟩⟩, ⟨0, ⟨.F, .double⟩⟩, ⟨1, ⟨.R, .single⟩⟩, ⟨0, ⟨.F, .double⟩⟩,
   ⟨1, ⟨.R, .inverse⟩⟩, ⟨0, ⟨.F, .double⟩⟩, ⟨1, ⟨.R, .single⟩⟩, ⟨0, ⟨.U, .double⟩⟩, ⟨1, ⟨.R, .inverse⟩⟩, ⟨0, ⟨.U, .double⟩⟩,
   ⟨1, ⟨.R, .single⟩⟩, ⟨0, ⟨.U, .double⟩⟩, ⟨1, ⟨.R, .inverse⟩⟩, ⟨0, ⟨.U, .double⟩⟩, ⟨1, ⟨.R, .inverse⟩⟩]

/-- what the 4x4 looks like after `parity4` -/
def parity3 : Cube3 :=
  ⟨Function.update (Cube3.SOLVED.edges.swapAt 4 5) 0 (Cube3.SOLVED.edges 0).flip, fun i =>
    if i = 0 then ⟨Corner.REFERENCE_POSITIONS 1, .Z⟩ else if i = 1 then ⟨Corner.REFERENCE_POSITIONS 0, .Z⟩ else Cube3.SOLVED.corners i⟩

/-- **C65** The lawfulness in `C65_solver` cannot be dropped: a reachable 4x4 can be reduced and look like a valid 3x3 that no turns of
the outermost layer solve. -/
theorem C65_parity : (movedAlg (Cube.SOLVED : Cube4) parity4).LooksLike parity3 ∧ parity3.valid ∧
    ∀ alg : List AxisMove, ¬ (movedAlg (movedAlg (Cube.SOLVED : Cube4) parity4) (atDepth 1 0 alg)).FacesUniform := by
  have h : (movedAlg (Cube.SOLVED : Cube4) parity4).LooksLike parity3 := ⟨by decide +kernel, by decide +kernel, by decide +kernel⟩
  refine ⟨h, by unfold Cube3.valid; decide +kernel, fun alg hu => ?_⟩
  have hs : parity3.Solvable := ⟨alg, (((C65_solves parity3 alg).1 _ h).1).1 hu⟩
  have := ((C15_reachable_iff _).2.1.1 hs).flips
  revert this
  decide +kernel

/-- the solved cubes look like the solved 3x3, and a scrambled one like a scrambled one -/
example : (Cube.SOLVED : Cube4).LooksLike Cube3.SOLVED ∧ (Cube.SOLVED : Cube6).LooksLike Cube3.SOLVED ∧
    (Cube.SOLVED : Cube5).LooksLikeButCenterEdges Cube3.SOLVED ∧ (Cube.SOLVED : Cube7).LooksLikeButCenterEdges Cube3.SOLVED ∧
    (movedAlg (Cube.SOLVED : Cube4) (atDepth 1 0 Perms.SEXY_MOVE)).LooksLike (movedAlg Cube3.SOLVED Perms.SEXY_MOVE) ∧
    ¬ (movedAlg (Cube.SOLVED : Cube4) (atDepth 1 0 Perms.SEXY_MOVE)).LooksLike Cube3.SOLVED := by
  refine ⟨⟨by decide +kernel, by decide +kernel, by decide +kernel⟩,
    ⟨by decide +kernel, by decide +kernel, by decide +kernel, by decide +kernel, by decide +kernel, by decide +kernel⟩,
    ⟨by decide +kernel, by decide +kernel, by decide +kernel⟩,
    ⟨by decide +kernel, by decide +kernel, by decide +kernel, by decide +kernel, by decide +kernel, by decide +kernel, by decide +kernel⟩,
    C65_cube4_follows ⟨by decide +kernel, by decide +kernel, by decide +kernel⟩ _, fun h => ?_⟩
  have := h.corners
  revert this
  decide +kernel

/-! ## C66: the small cube inside -/

/-- **C66** Wide moves of any depth move the corners like a 2x2 (4x4, 6x6), the corners and edges like a 3x3 (5x5, 7x7), and
so do plain moves. -/
theorem C66_core :
    (∀ (c : Cube4) (alg : List (WideAxisMove 1)), (movedAlg c alg).core = movedAlg c.core (alg.map (·.axisMove))) ∧
    (∀ (c : Cube5) (alg : List (WideAxisMove 1)), (movedAlg c alg).core = movedAlg c.core (alg.map (·.axisMove))) ∧
    (∀ (c : Cube6) (alg : List (WideAxisMove 2)), (movedAlg c alg).core = movedAlg c.core (alg.map (·.axisMove))) ∧
    (∀ (c : Cube7) (alg : List (WideAxisMove 2)), (movedAlg c alg).core = movedAlg c.core (alg.map (·.axisMove))) ∧
    (∀ (c : Cube4) (alg : List AxisMove), (movedAlg c alg).core = movedAlg c.core alg) ∧
    (∀ (c : Cube5) (alg : List AxisMove), (movedAlg c alg).core = movedAlg c.core alg) ∧
    (∀ (c : Cube6) (alg : List AxisMove), (movedAlg c alg).core = movedAlg c.core alg) ∧
    (∀ (c : Cube7) (alg : List AxisMove), (movedAlg c alg).core = movedAlg c.core alg) := by
  refine ⟨fun c alg => ?_, fun c alg => ?_, fun c alg => ?_, fun c alg => ?_, fun c alg => ?_, fun c alg => ?_, fun c alg => ?_,
    fun c alg => ?_⟩ <;>
  · induction alg generalizing c with
    | nil => rfl
    | cons m l ih => exact ih (moved c m)

/-- two layers of R on a 5x5 -/
example (c : Cube5) : (movedAlg c [(⟨1, ⟨Face.R, .single⟩⟩ : WideAxisMove 1)]).core = movedAlg c.core [(⟨Face.R, .single⟩ : AxisMove)] :=
  C66_core.2.1 c _

/-- A 2x2 that can be solved cannot be solved any more after one of its corners is twisted. -/
theorem cube2_twist {c : Cube2} (h : c.Reachable) (i : Fin 8) :
    ¬ (⟨Function.update c.corners i (c.corners i).twist⟩ : Cube2).Reachable ∧
    ¬ (⟨Function.update c.corners i (c.corners i).twist.twist⟩ : Cube2).Reachable := by
  have tw : ∀ c : Corner, cornerTrit c.twist = cornerTrit c + 1 := by decide +kernel
  have h5 := (twists_iff _).1 (((C17_reachable_iff c).1.1 h).twists)
  constructor <;> intro hs <;> have := (twists_iff _).1 (((C17_reachable_iff _).1.1 hs).twists) <;> simp only at this
  · rw [sum_update, h5, tw] at this
    simp at this
  · rw [sum_update, h5, tw, tw, add_assoc, add_sub_cancel_left] at this
    exact absurd this (by decide)

/-- **C66** So on no big cube can a corner be twisted alone by legal moves, whatever else the moves do to the other pieces. -/
theorem C66_no_single_twist (i : Fin 8) (t : Corner → Corner) (ht : t ∈ [Corner.twist, fun c => c.twist.twist]) :
    (∀ a b : List (WideAxisMove 1), (movedAlg (Cube.SOLVED : Cube4) b).corners ≠
      Function.update (movedAlg (Cube.SOLVED : Cube4) a).corners i (t ((movedAlg (Cube.SOLVED : Cube4) a).corners i))) ∧
    (∀ a b : List (WideAxisMove 1), (movedAlg (Cube.SOLVED : Cube5) b).corners ≠
      Function.update (movedAlg (Cube.SOLVED : Cube5) a).corners i (t ((movedAlg (Cube.SOLVED : Cube5) a).corners i))) ∧
    (∀ a b : List (WideAxisMove 2), (movedAlg (Cube.SOLVED : Cube6) b).corners ≠
      Function.update (movedAlg (Cube.SOLVED : Cube6) a).corners i (t ((movedAlg (Cube.SOLVED : Cube6) a).corners i))) ∧
    (∀ a b : List (WideAxisMove 2), (movedAlg (Cube.SOLVED : Cube7) b).corners ≠
      Function.update (movedAlg (Cube.SOLVED : Cube7) a).corners i (t ((movedAlg (Cube.SOLVED : Cube7) a).corners i))) := by
  have key : ∀ x y : PieceSet Corner 8, (⟨x⟩ : Cube2).Reachable → (⟨y⟩ : Cube2).Reachable → y ≠ Function.update x i (t (x i)) := by
    rintro x y hx hy rfl
    simp only [List.mem_cons, List.not_mem_nil, or_false] at ht
    rcases ht with rfl | rfl
    · exact (cube2_twist hx i).1 hy
    · exact (cube2_twist hx i).2 hy
  have r4 : ∀ a : List (WideAxisMove 1), (⟨(movedAlg (Cube.SOLVED : Cube4) a).corners⟩ : Cube2).Reachable :=
    fun a => ⟨_, (C66_core.1 Cube.SOLVED a).symm⟩
  have r6 : ∀ a : List (WideAxisMove 2), (⟨(movedAlg (Cube.SOLVED : Cube6) a).corners⟩ : Cube2).Reachable :=
    fun a => ⟨_, (C66_core.2.2.1 Cube.SOLVED a).symm⟩
  have r5 : ∀ a : List (WideAxisMove 1), (⟨(movedAlg (Cube.SOLVED : Cube5) a).corners⟩ : Cube2).Reachable := fun a =>
    ⟨_, (cube2_corners_alg Cube3.SOLVED _).trans (congrArg (fun c : Cube3 => (⟨c.corners⟩ : Cube2)) (C66_core.2.1 Cube.SOLVED a).symm)⟩
  have r7 : ∀ a : List (WideAxisMove 2), (⟨(movedAlg (Cube.SOLVED : Cube7) a).corners⟩ : Cube2).Reachable := fun a =>
    ⟨_, (cube2_corners_alg Cube3.SOLVED _).trans
      (congrArg (fun c : Cube3 => (⟨c.corners⟩ : Cube2)) (C66_core.2.2.2.1 Cube.SOLVED a).symm)⟩
  exact ⟨fun a b => key _ _ (r4 a) (r4 b), fun a b => key _ _ (r5 a) (r5 b), fun a b => key _ _ (r6 a) (r6 b),
    fun a b => key _ _ (r7 a) (r7 b)⟩

/-- no alg for a 4x4 twists the first corner alone -/
example (a : List (WideAxisMove 1)) : (movedAlg (Cube.SOLVED : Cube4) a).corners ≠
    Function.update (PieceSet.SOLVED Corner) 0 (PieceSet.SOLVED Corner 0).twist :=
  (C66_no_single_twist 0 Corner.twist (by simp)).1 [] a

/-- **C66** On the 5x5 and the 7x7 the corners and edges obey the laws of the 3x3, and every solvable 3x3 occurs. -/
theorem C66_odd (c3 : Cube3) :
    ((∃ a : List (WideAxisMove 1), (movedAlg (Cube.SOLVED : Cube5) a).core = c3) ↔ c3.Lawful) ∧
    ((∃ a : List (WideAxisMove 2), (movedAlg (Cube.SOLVED : Cube7) a).core = c3) ↔ c3.Lawful) := by
  rw [← (C15_reachable_iff c3).1]
  constructor <;> constructor
  · rintro ⟨a, rfl⟩; exact ⟨_, (C66_core.2.1 Cube.SOLVED a).symm⟩
  · rintro ⟨w, rfl⟩
    exact ⟨atDepth 1 0 w, by rw [C66_core.2.1]; unfold atDepth; rw [List.map_map]; exact congrArg _ (List.map_id w)⟩
  · rintro ⟨a, rfl⟩; exact ⟨_, (C66_core.2.2.2.1 Cube.SOLVED a).symm⟩
  · rintro ⟨w, rfl⟩
    exact ⟨atDepth 2 0 w, by rw [C66_core.2.2.2.1]; unfold atDepth; rw [List.map_map]; exact congrArg _ (List.map_id w)⟩

/-- **C66** On the 4x4 and the 6x6 the corners obey the laws of the 2x2, and every solvable 2x2 occurs. -/
theorem C66_even (c2 : Cube2) :
    ((∃ a : List (WideAxisMove 1), (movedAlg (Cube.SOLVED : Cube4) a).core = c2) ↔ c2.Lawful) ∧
    ((∃ a : List (WideAxisMove 2), (movedAlg (Cube.SOLVED : Cube6) a).core = c2) ↔ c2.Lawful) := by
  rw [← (C17_reachable_iff c2).1]
  constructor <;> constructor
  · rintro ⟨a, rfl⟩; exact ⟨_, (C66_core.1 Cube.SOLVED a).symm⟩
  · rintro ⟨w, rfl⟩
    exact ⟨atDepth 1 0 w, by rw [C66_core.1]; unfold atDepth; rw [List.map_map]; exact congrArg _ (List.map_id w)⟩
  · rintro ⟨a, rfl⟩; exact ⟨_, (C66_core.2.2.1 Cube.SOLVED a).symm⟩
  · rintro ⟨w, rfl⟩
    exact ⟨atDepth 2 0 w, by rw [C66_core.2.2.1]; unfold atDepth; rw [List.map_map]; exact congrArg _ (List.map_id w)⟩

/-- a 5x5 reached by moves of both depths, and the twist that cannot be reached -/
example : (movedAlg (Cube.SOLVED : Cube5) mixCenters5).core.Lawful ∧ movedAlg (Cube.SOLVED : Cube5) mixCenters5 ≠ Cube.SOLVED ∧
    Corner.twist ∈ [Corner.twist, fun c => c.twist.twist] :=
  ⟨(C66_odd _).1.1 ⟨_, rfl⟩, by decide +kernel, List.mem_cons_self⟩

end Barbarosa
