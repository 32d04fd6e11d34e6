import Verif.Props.Centre

/-!
# C117: every depth is needed on the big cubes

Wide moves turn the layers down to their depth (`cube_n/moves/wide.rs:27-34`, `cube_n/pieces/center/corner.rs:69-89`,
`cube_n/cube4/mod.rs:41-47`, `cube_n/cube5/mod.rs:39-46`, `cube_n/cube6/mod.rs:56-65`, `cube_n/cube7/mod.rs:67-79`).
-/

namespace Barbarosa

/-- what every allowed move keeps, every alg of allowed moves keeps -/
theorem kept_by_alg {C M : Type} [Movable C M] (ok : M → Prop) (Q : C → Prop) (h : ∀ c m, ok m → Q c → Q (moved c m)) :
    ∀ (a : List M) (c : C), (∀ m ∈ a, ok m) → Q c → Q (movedAlg c a)
  | [], _, _, hc => hc
  | m :: l, c, ha, hc => kept_by_alg ok Q h l (moved c m) (fun x hx => ha x (.tail _ hx)) (h c m (ha m (.head _)) hc)

/-- the place next to a corner on its face of reference -/
def Corner.beside (x : Corner) : CenterCorner := ⟨x.position, x.orientationAxis⟩

theorem beside_moved {N : Nat} (x : Corner) (m : WideAxisMove N) (h : m.depth ≠ 0) :
    (x.moved m.axisMove).beside = DepthPiece.moved 1 0 x.beside m := by
  obtain ⟨d, f, a⟩ := m
  have hd : 1 ≤ d := Nat.one_le_iff_ne_zero.2 h
  unfold DepthPiece.moved
  by_cases hx : x.position.at f.axis = f.direction
  · have h1 : DepthPiece.isInWideMove x.beside 1 0 (⟨d, ⟨f, a⟩⟩ : WideAxisMove N) = true := by
      simp only [DepthPiece.isInWideMove, Corner.beside, WideAxisMove.face, hx, hd, if_true]
    have h2 : f.containsVector x.position = true := by simp only [Face.containsVector, hx, beq_self_eq_true]
    rw [if_pos h1]
    simp only [Corner.moved, h2, if_true]
    rfl
  · have h1 : DepthPiece.isInWideMove x.beside 1 0 (⟨d, ⟨f, a⟩⟩ : WideAxisMove N) = false := by
      simp only [DepthPiece.isInWideMove, Corner.beside, WideAxisMove.face, hx, if_false]
    have h2 : f.containsVector x.position = false := by simp [Face.containsVector, hx]
    rw [if_neg (by rw [h1]; decide)]
    simp only [Corner.moved, h2]
    rfl

/-- two kinds of center corners move alike if no move ends between them -/
theorem alike {N : Nat} (x : CenterCorner) (m : WideAxisMove N) (h : m.depth ≠ 1) : DepthPiece.moved 1 0 x m = DepthPiece.moved 2 0 x m := by
  have e : DepthPiece.isInWideMove x 1 0 m = DepthPiece.isInWideMove x 2 0 m := by
    have : 1 ≤ m.depth ↔ 2 ≤ m.depth := by omega
    simp only [DepthPiece.isInWideMove, this]
  unfold DepthPiece.moved
  rw [e]

/-- the face a center corner is on -/
def CenterCorner.onFace (x : CenterCorner) : Face := ⟨x.axis, x.position.at x.axis⟩

theorem onFace_rotated : ∀ (x : CenterCorner) (f : Face) (a : Amount), x.axis = f.axis → x.position.at f.axis = f.direction →
    (rotated x (AxisRotation.ofMove ⟨f, a⟩)).onFace = x.onFace := by
  decide +kernel

/-- moves that do not reach a center corner leave it on its face -/
theorem onFace_moved {N nd : Nat} (x : CenterCorner) (m : WideAxisMove N) (h : m.depth < nd) : (DepthPiece.moved nd 0 x m).onFace = x.onFace := by
  obtain ⟨d, f, a⟩ := m
  have hd : ¬ nd ≤ d := Nat.not_le.2 h
  unfold DepthPiece.moved
  split
  · rename_i h1
    simp only [DepthPiece.isInWideMove, WideAxisMove.face, hd, if_false] at h1
    split at h1
    · rename_i h2
      by_cases h3 : x.axis = f.axis
      · exact onFace_rotated x f a h3 h2
      · exact absurd (if_neg h3 : (if x.axis = f.axis then true else false) = false) (fun h => Bool.noConfusion (h1.symm.trans h))
    · cases h1
  · rfl

/-- **C117** On the 4x4 everything can be reached with moves of some depths exactly if both depths are among them. -/
theorem C117_cube4 (D : Set Nat) :
    (∀ c : Cube4, c.Reachable → ∃ a : List (WideAxisMove 1), (∀ m ∈ a, m.WF ∧ m.depth ∈ D) ∧ movedAlg (Cube.SOLVED : Cube4) a = c) ↔
      0 ∈ D ∧ 1 ∈ D := by
  constructor
  · intro h
    refine ⟨by_contra fun hn => ?_, by_contra fun hn => ?_⟩
    · obtain ⟨a, ha, e⟩ := h (movedAlg (Cube.SOLVED : Cube4) [⟨0, ⟨.R, .single⟩⟩]) ⟨_, by decide, rfl⟩
      have := kept_by_alg (fun m : WideAxisMove 1 => m.depth ≠ 0) (fun c : Cube4 => ∀ i j, (PieceSet.SOLVED Corner i).beside =
        PieceSet.SOLVED CenterCorner j → (c.corners i).beside = c.centers j)
        (fun c m hm hc i j hij => by
          show ((c.corners i).moved m.axisMove).beside = DepthPiece.moved 1 0 (c.centers j) m
          rw [beside_moved _ _ hm, hc i j hij]) a Cube.SOLVED (fun m hm h0 => hn (h0 ▸ (ha m hm).2)) (fun _ _ h => h)
      rw [e] at this
      revert this
      decide +kernel
    · obtain ⟨a, ha, e⟩ := h (movedAlg (Cube.SOLVED : Cube4) [⟨1, ⟨.R, .single⟩⟩]) ⟨_, by decide, rfl⟩
      have := kept_by_alg (fun m : WideAxisMove 1 => m.depth < 1) (fun c : Cube4 => ∀ i, (c.centers i).onFace = (PieceSet.SOLVED CenterCorner i).onFace)
        (fun c m hm hc i => (onFace_moved _ _ hm).trans (hc i)) a Cube.SOLVED
        (fun m hm => lt_of_le_of_ne (ha m hm).1 fun h0 => hn (h0 ▸ (ha m hm).2)) (fun _ => rfl)
      rw [e] at this
      revert this
      decide +kernel
  · rintro ⟨h0, h1⟩ c ⟨a, ha, rfl⟩
    refine ⟨a, fun m hm => ⟨ha m hm, ?_⟩, rfl⟩
    have : m.depth ≤ 1 := ha m hm
    rcases (by omega : m.depth = 0 ∨ m.depth = 1) with e | e <;> rw [e] <;> assumption

/-- with one layer at a time something cannot be reached -/
example : ¬ ∀ c : Cube4, c.Reachable → ∃ a : List (WideAxisMove 1), (∀ m ∈ a, m.WF ∧ m.depth ∈ {d : Nat | d = 0}) ∧
    movedAlg (Cube.SOLVED : Cube4) a = c := fun h => by
  have := ((C117_cube4 _).1 h).2
  rw [Set.mem_ofPred_eq] at this
  exact absurd this (by decide)

/-- **C117** On the 5x5 everything can be reached with moves of some depths exactly if both depths are among them. -/
theorem C117_cube5 (D : Set Nat) :
    (∀ c : Cube5, c.Reachable → ∃ a : List (WideAxisMove 1), (∀ m ∈ a, m.WF ∧ m.depth ∈ D) ∧ movedAlg (Cube.SOLVED : Cube5) a = c) ↔
      0 ∈ D ∧ 1 ∈ D := by
  constructor
  · intro h
    refine ⟨by_contra fun hn => ?_, by_contra fun hn => ?_⟩
    · obtain ⟨a, ha, e⟩ := h (movedAlg (Cube.SOLVED : Cube5) [⟨0, ⟨.R, .single⟩⟩]) ⟨_, by decide, rfl⟩
      have := kept_by_alg (fun m : WideAxisMove 1 => m.depth ≠ 0) (fun c : Cube5 => ∀ i j, (PieceSet.SOLVED Corner i).beside =
        PieceSet.SOLVED CenterCorner j → (c.corners i).beside = c.cornerCenters j)
        (fun c m hm hc i j hij => by
          show ((c.corners i).moved m.axisMove).beside = DepthPiece.moved 1 0 (c.cornerCenters j) m
          rw [beside_moved _ _ hm, hc i j hij]) a Cube.SOLVED (fun m hm h0 => hn (h0 ▸ (ha m hm).2)) (fun _ _ h => h)
      rw [e] at this
      revert this
      decide +kernel
    · obtain ⟨a, ha, e⟩ := h (movedAlg (Cube.SOLVED : Cube5) [⟨1, ⟨.R, .single⟩⟩]) ⟨_, by decide, rfl⟩
      have := kept_by_alg (fun m : WideAxisMove 1 => m.depth < 1) (fun c : Cube5 => ∀ i, (c.cornerCenters i).onFace = (PieceSet.SOLVED CenterCorner i).onFace)
        (fun c m hm hc i => (onFace_moved _ _ hm).trans (hc i)) a Cube.SOLVED
        (fun m hm => lt_of_le_of_ne (ha m hm).1 fun h0 => hn (h0 ▸ (ha m hm).2)) (fun _ => rfl)
      rw [e] at this
      revert this
      decide +kernel
  · rintro ⟨h0, h1⟩ c ⟨a, ha, rfl⟩
    refine ⟨a, fun m hm => ⟨ha m hm, ?_⟩, rfl⟩
    have : m.depth ≤ 1 := ha m hm
    rcases (by omega : m.depth = 0 ∨ m.depth = 1) with e | e <;> rw [e] <;> assumption

/-- with one layer at a time something cannot be reached -/
example : ¬ ∀ c : Cube5, c.Reachable → ∃ a : List (WideAxisMove 1), (∀ m ∈ a, m.WF ∧ m.depth ∈ {d : Nat | d = 0}) ∧
    movedAlg (Cube.SOLVED : Cube5) a = c := fun h => by
  have := ((C117_cube5 _).1 h).2
  rw [Set.mem_ofPred_eq] at this
  exact absurd this (by decide)

/-- **C117** On the 6x6 everything can be reached with moves of some depths exactly if all three depths are among them. -/
theorem C117_cube6 (D : Set Nat) :
    (∀ c : Cube6, c.Reachable → ∃ a : List (WideAxisMove 2), (∀ m ∈ a, m.WF ∧ m.depth ∈ D) ∧ movedAlg (Cube.SOLVED : Cube6) a = c) ↔
      0 ∈ D ∧ 1 ∈ D ∧ 2 ∈ D := by
  constructor
  · intro h
    refine ⟨by_contra fun hn => ?_, by_contra fun hn => ?_, by_contra fun hn => ?_⟩
    · obtain ⟨a, ha, e⟩ := h (movedAlg (Cube.SOLVED : Cube6) [⟨0, ⟨.R, .single⟩⟩]) ⟨_, by decide, rfl⟩
      have := kept_by_alg (fun m : WideAxisMove 2 => m.depth ≠ 0) (fun c : Cube6 => ∀ i j, (PieceSet.SOLVED Corner i).beside =
        PieceSet.SOLVED CenterCorner j → (c.corners i).beside = c.centerCorners1 j)
        (fun c m hm hc i j hij => by
          show ((c.corners i).moved m.axisMove).beside = DepthPiece.moved 1 0 (c.centerCorners1 j) m
          rw [beside_moved _ _ hm, hc i j hij]) a Cube.SOLVED (fun m hm h0 => hn (h0 ▸ (ha m hm).2)) (fun _ _ h => h)
      rw [e] at this
      revert this
      decide +kernel
    · obtain ⟨a, ha, e⟩ := h (movedAlg (Cube.SOLVED : Cube6) [⟨1, ⟨.R, .single⟩⟩]) ⟨_, by decide, rfl⟩
      have := kept_by_alg (fun m : WideAxisMove 2 => m.depth ≠ 1) (fun c : Cube6 => ∀ i, c.centerCorners1 i = c.centerCorners2 i)
        (fun c m hm hc i => by
          show DepthPiece.moved 1 0 (c.centerCorners1 i) m = DepthPiece.moved 2 0 (c.centerCorners2 i) m
          rw [alike _ _ hm, hc i]) a Cube.SOLVED (fun m hm h0 => hn (h0 ▸ (ha m hm).2)) (fun _ => rfl)
      rw [e] at this
      revert this
      decide +kernel
    · obtain ⟨a, ha, e⟩ := h (movedAlg (Cube.SOLVED : Cube6) [⟨2, ⟨.R, .single⟩⟩]) ⟨_, by decide, rfl⟩
      have := kept_by_alg (fun m : WideAxisMove 2 => m.depth < 2)
        (fun c : Cube6 => ∀ i, (c.centerCorners2 i).onFace = (PieceSet.SOLVED CenterCorner i).onFace)
        (fun c m hm hc i => (onFace_moved _ _ hm).trans (hc i)) a Cube.SOLVED
        (fun m hm => lt_of_le_of_ne (ha m hm).1 fun h0 => hn (h0 ▸ (ha m hm).2)) (fun _ => rfl)
      rw [e] at this
      revert this
      decide +kernel
  · rintro ⟨h0, h1, h2⟩ c ⟨a, ha, rfl⟩
    refine ⟨a, fun m hm => ⟨ha m hm, ?_⟩, rfl⟩
    have : m.depth ≤ 2 := ha m hm
    rcases (by omega : m.depth = 0 ∨ m.depth = 1 ∨ m.depth = 2) with e | e | e <;> rw [e] <;> assumption

/-- with the outer layer and half of the cube alone something cannot be reached -/
example : ¬ ∀ c : Cube6, c.Reachable → ∃ a : List (WideAxisMove 2), (∀ m ∈ a, m.WF ∧ m.depth ∈ {d : Nat | d = 0 ∨ d = 2}) ∧
    movedAlg (Cube.SOLVED : Cube6) a = c := fun h => by
  have := ((C117_cube6 _).1 h).2.1
  rw [Set.mem_ofPred_eq] at this
  exact absurd this (by decide)

/-- **C117** On the 7x7 everything can be reached with moves of some depths exactly if all three depths are among them. -/
theorem C117_cube7 (D : Set Nat) :
    (∀ c : Cube7, c.Reachable → ∃ a : List (WideAxisMove 2), (∀ m ∈ a, m.WF ∧ m.depth ∈ D) ∧ movedAlg (Cube.SOLVED : Cube7) a = c) ↔
      0 ∈ D ∧ 1 ∈ D ∧ 2 ∈ D := by
  constructor
  · intro h
    refine ⟨by_contra fun hn => ?_, by_contra fun hn => ?_, by_contra fun hn => ?_⟩
    · obtain ⟨a, ha, e⟩ := h (movedAlg (Cube.SOLVED : Cube7) [⟨0, ⟨.R, .single⟩⟩]) ⟨_, by decide, rfl⟩
      have := kept_by_alg (fun m : WideAxisMove 2 => m.depth ≠ 0) (fun c : Cube7 => ∀ i j, (PieceSet.SOLVED Corner i).beside =
        PieceSet.SOLVED CenterCorner j → (c.corners i).beside = c.centerCorners1 j)
        (fun c m hm hc i j hij => by
          show ((c.corners i).moved m.axisMove).beside = DepthPiece.moved 1 0 (c.centerCorners1 j) m
          rw [beside_moved _ _ hm, hc i j hij]) a Cube.SOLVED (fun m hm h0 => hn (h0 ▸ (ha m hm).2)) (fun _ _ h => h)
      rw [e] at this
      revert this
      decide +kernel
    · obtain ⟨a, ha, e⟩ := h (movedAlg (Cube.SOLVED : Cube7) [⟨1, ⟨.R, .single⟩⟩]) ⟨_, by decide, rfl⟩
      have := kept_by_alg (fun m : WideAxisMove 2 => m.depth ≠ 1) (fun c : Cube7 => ∀ i, c.centerCorners1 i = c.centerCorners2 i)
        (fun c m hm hc i => by
          show DepthPiece.moved 1 0 (c.centerCorners1 i) m = DepthPiece.moved 2 0 (c.centerCorners2 i) m
          rw [alike _ _ hm, hc i]) a Cube.SOLVED (fun m hm h0 => hn (h0 ▸ (ha m hm).2)) (fun _ => rfl)
      rw [e] at this
      revert this
      decide +kernel
    · obtain ⟨a, ha, e⟩ := h (movedAlg (Cube.SOLVED : Cube7) [⟨2, ⟨.R, .single⟩⟩]) ⟨_, by decide, rfl⟩
      have := kept_by_alg (fun m : WideAxisMove 2 => m.depth < 2)
        (fun c : Cube7 => ∀ i, (c.centerCorners2 i).onFace = (PieceSet.SOLVED CenterCorner i).onFace)
        (fun c m hm hc i => (onFace_moved _ _ hm).trans (hc i)) a Cube.SOLVED
        (fun m hm => lt_of_le_of_ne (ha m hm).1 fun h0 => hn (h0 ▸ (ha m hm).2)) (fun _ => rfl)
      rw [e] at this
      revert this
      decide +kernel
  · rintro ⟨h0, h1, h2⟩ c ⟨a, ha, rfl⟩
    refine ⟨a, fun m hm => ⟨ha m hm, ?_⟩, rfl⟩
    have : m.depth ≤ 2 := ha m hm
    rcases (by omega : m.depth = 0 ∨ m.depth = 1 ∨ m.depth = 2) with e | e | e <;> rw [e] <;> assumption

/-- with the outer layer and half of the cube alone something cannot be reached -/
example : ¬ ∀ c : Cube7, c.Reachable → ∃ a : List (WideAxisMove 2), (∀ m ∈ a, m.WF ∧ m.depth ∈ {d : Nat | d = 0 ∨ d = 2}) ∧
    movedAlg (Cube.SOLVED : Cube7) a = c := fun h => by
  have := ((C117_cube7 _).1 h).2.1
  rw [Set.mem_ofPred_eq] at this
  exact absurd this (by decide)

/-- a plain move on a big cube is a wide move of the greatest depth -/
theorem plain_is_deep {C : Type} {W : Nat} [Movable C (WideAxisMove W)] (a : List AxisMove) : ∀ c : C,
    a.foldl (movedWidened W) c = movedAlg c (a.map fun m => (⟨W, m⟩ : WideAxisMove W)) := by
  induction a with
  | nil => exact fun _ => rfl
  | cons m l ih =>
    intro c
    have e : movedWidened W c m = moved c (⟨W, m⟩ : WideAxisMove W) := by
      rw [movedWidened_def]
    rw [List.foldl_cons, e, ih]
    rfl

/-- **C117** Plain moves alone do not reach everything on any of the big cubes: they always turn half of the cube. -/
theorem C117_plain :
    (∃ c : Cube4, c.Reachable ∧ ∀ a : List AxisMove, movedAlg (Cube.SOLVED : Cube4) a ≠ c) ∧
    (∃ c : Cube5, c.Reachable ∧ ∀ a : List AxisMove, movedAlg (Cube.SOLVED : Cube5) a ≠ c) ∧
    (∃ c : Cube6, c.Reachable ∧ ∀ a : List AxisMove, movedAlg (Cube.SOLVED : Cube6) a ≠ c) ∧
    ∃ c : Cube7, c.Reachable ∧ ∀ a : List AxisMove, movedAlg (Cube.SOLVED : Cube7) a ≠ c := by
  refine ⟨?_, ?_, ?_, ?_⟩ <;> by_contra hn <;> push Not at hn
  · have := ((C117_cube4 {d | d = 1}).1 fun c hc => by
      obtain ⟨a, ha⟩ := hn c hc
      exact ⟨a.map fun m => ⟨1, m⟩, by simp [WideAxisMove.WF], (plain_is_deep a _).symm.trans ha⟩).1
    rw [Set.mem_ofPred_eq] at this
    exact absurd this (by decide)
  · have := ((C117_cube5 {d | d = 1}).1 fun c hc => by
      obtain ⟨a, ha⟩ := hn c hc
      exact ⟨a.map fun m => ⟨1, m⟩, by simp [WideAxisMove.WF], (plain_is_deep a _).symm.trans ha⟩).1
    rw [Set.mem_ofPred_eq] at this
    exact absurd this (by decide)
  · have := ((C117_cube6 {d | d = 2}).1 fun c hc => by
      obtain ⟨a, ha⟩ := hn c hc
      exact ⟨a.map fun m => ⟨2, m⟩, by simp [WideAxisMove.WF], (plain_is_deep a _).symm.trans ha⟩).1
    rw [Set.mem_ofPred_eq] at this
    exact absurd this (by decide)
  · have := ((C117_cube7 {d | d = 2}).1 fun c hc => by
      obtain ⟨a, ha⟩ := hn c hc
      exact ⟨a.map fun m => ⟨2, m⟩, by simp [WideAxisMove.WF], (plain_is_deep a _).symm.trans ha⟩).1
    rw [Set.mem_ofPred_eq] at this
    exact absurd this (by decide)

/-- some alg of wide moves has no plain alg that does the same -/
example : ∃ b : List (WideAxisMove 1), ∀ a : List AxisMove, movedAlg (Cube.SOLVED : Cube4) a ≠ movedAlg (Cube.SOLVED : Cube4) b := by
  obtain ⟨_, ⟨b, -, rfl⟩, h⟩ := C117_plain.1
  exact ⟨b, h⟩

end Barbarosa
