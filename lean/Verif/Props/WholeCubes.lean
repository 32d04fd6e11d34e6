import Verif.Props.Geometry
import Verif.Props.Effects

/-!
# C56 and C84 for whole cubes of every size

`C56_cube3_alg` and `C56_cube7_alg` are about the 3x3 and the 7x7, `C84_pieces_independent` is about the 3x3. Here are the
same statements for the other cubes, for wide moves and for plain moves.
-/

namespace Barbarosa

/-! ## C56 -/

/-- every piece of a 2x2 rotated as a whole -/
def Cube2.rotatedPieces (c : Cube2) (r : AxisRotation) : Cube2 := ⟨fun i => rotated (c.corners i) r⟩

/-- every piece of a 4x4 rotated as a whole -/
def Cube4.rotatedPieces (c : Cube4) (r : AxisRotation) : Cube4 :=
  ⟨fun i => rotated (c.corners i) r, fun i => rotated (c.wings i) r, fun i => rotated (c.centers i) r⟩

/-- every piece of a 5x5 rotated as a whole -/
def Cube5.rotatedPieces (c : Cube5) (r : AxisRotation) : Cube5 :=
  ⟨fun i => rotated (c.corners i) r, fun i => rotated (c.edges i) r, fun i => rotated (c.cornerCenters i) r,
   fun i => rotated (c.cornerEdges i) r⟩

/-- every piece of a 6x6 rotated as a whole -/
def Cube6.rotatedPieces (c : Cube6) (r : AxisRotation) : Cube6 :=
  ⟨fun i => rotated (c.corners i) r, fun i => rotated (c.wings1 i) r, fun i => rotated (c.wings2 i) r,
   fun i => rotated (c.centerCorners1 i) r, fun i => rotated (c.centerCorners2 i) r, fun i => rotated (c.centerWings i) r⟩

/-- what holds for each move holds for algs -/
theorem movedAlg_commutes {C M : Type} [Movable C M] (R : C → C) (f : M → M) (h : ∀ c m, R (moved c m) = moved (R c) (f m))
    (c : C) (alg : List M) : R (movedAlg c alg) = movedAlg (R c) (alg.map f) := by
  induction alg generalizing c with
  | nil => rfl
  | cons m l ih =>
    show R (movedAlg (moved c m) l) = movedAlg (moved (R c) (f m)) (l.map f)
    rw [← h]; exact ih _

theorem cube2_rot_move (r : AxisRotation) (c : Cube2) (m : AxisMove) :
    (moved c m).rotatedPieces r = moved (c.rotatedPieces r) (rotated m r) :=
  Cube2.ext (funext fun _ => corner_rot_move _ _ _)

theorem cube4_rot_move (r : AxisRotation) (c : Cube4) (m : WideAxisMove 1) :
    (moved c m).rotatedPieces r = moved (c.rotatedPieces r) (rotWide m r) := by
  have h := fun nd td => C56_depth_pieces nd td m r
  exact Cube4.ext (funext fun _ => corner_rot_move _ _ _) (funext fun _ => (h _ _).1 _) (funext fun _ => (h _ _).2.1 _)

theorem cube5_rot_move (r : AxisRotation) (c : Cube5) (m : WideAxisMove 1) :
    (moved c m).rotatedPieces r = moved (c.rotatedPieces r) (rotWide m r) := by
  have h := fun nd td => C56_depth_pieces nd td m r
  exact Cube5.ext (funext fun _ => corner_rot_move _ _ _) (funext fun _ => edge_rot_move _ _ _)
    (funext fun _ => (h _ _).2.1 _) (funext fun _ => (h _ _).2.2.1 _)

theorem cube6_rot_move (r : AxisRotation) (c : Cube6) (m : WideAxisMove 2) :
    (moved c m).rotatedPieces r = moved (c.rotatedPieces r) (rotWide m r) := by
  have h := fun nd td => C56_depth_pieces nd td m r
  exact Cube6.ext (funext fun _ => corner_rot_move _ _ _) (funext fun _ => (h _ _).1 _) (funext fun _ => (h _ _).1 _)
    (funext fun _ => (h _ _).2.1 _) (funext fun _ => (h _ _).2.1 _) (funext fun _ => (h _ _).2.2.2 _)

theorem cube7_rot_move (r : AxisRotation) (c : Cube7) (m : WideAxisMove 2) :
    (moved c m).rotatedPieces r = moved (c.rotatedPieces r) (rotWide m r) := C56_cube7_alg c [m] r

theorem widened_rot_move {C : Type} {W : Nat} [Movable C (WideAxisMove W)] (R : C → C) (r : AxisRotation)
    (h : ∀ c (m : WideAxisMove W), R (moved c m) = moved (R c) (rotWide m r)) (c : C) (m : AxisMove) :
    R (movedWidened W c m) = movedWidened W (R c) (rotated m r) := by
  rw [movedWidened_def, movedWidened_def]; exact h c ⟨W, m⟩

/-- **C56** Algs of wide moves on the cubes of the other sizes: rotating all pieces of the result is the result of the
rotated alg on the rotated pieces. (The 2x2 has no wide moves. The 3x3 and the 7x7 are in `C56_cube3_alg` and
`C56_cube7_alg`.) -/
theorem C56_wide_algs (r : AxisRotation) :
    (∀ (c : Cube2) (alg : List AxisMove),
      (movedAlg c alg).rotatedPieces r = movedAlg (c.rotatedPieces r) (rotated alg r)) ∧
    (∀ (c : Cube4) (alg : List (WideAxisMove 1)),
      (movedAlg c alg).rotatedPieces r = movedAlg (c.rotatedPieces r) (alg.map (rotWide · r))) ∧
    (∀ (c : Cube5) (alg : List (WideAxisMove 1)),
      (movedAlg c alg).rotatedPieces r = movedAlg (c.rotatedPieces r) (alg.map (rotWide · r))) ∧
    (∀ (c : Cube6) (alg : List (WideAxisMove 2)),
      (movedAlg c alg).rotatedPieces r = movedAlg (c.rotatedPieces r) (alg.map (rotWide · r))) :=
  ⟨movedAlg_commutes (Cube2.rotatedPieces · r) (rotated · r) (cube2_rot_move r),
   movedAlg_commutes (Cube4.rotatedPieces · r) (rotWide · r) (cube4_rot_move r),
   movedAlg_commutes (Cube5.rotatedPieces · r) (rotWide · r) (cube5_rot_move r),
   movedAlg_commutes (Cube6.rotatedPieces · r) (rotWide · r) (cube6_rot_move r)⟩

/-- two layers of R, then the whole 6x6 about the vertical axis -/
example (c : Cube6) : (movedAlg c [(⟨1, ⟨Face.R, .single⟩⟩ : WideAxisMove 2)]).rotatedPieces ⟨.Y, .single⟩ =
    movedAlg (c.rotatedPieces ⟨.Y, .single⟩) [(⟨1, ⟨Face.F, .single⟩⟩ : WideAxisMove 2)] :=
  (C56_wide_algs ⟨.Y, .single⟩).2.2.2 c _

/-- **C56** Algs of plain moves on the big cubes. -/
theorem C56_plain_algs (r : AxisRotation) (alg : List AxisMove) :
    (∀ c : Cube4, (movedAlg c alg).rotatedPieces r = movedAlg (c.rotatedPieces r) (rotated alg r)) ∧
    (∀ c : Cube5, (movedAlg c alg).rotatedPieces r = movedAlg (c.rotatedPieces r) (rotated alg r)) ∧
    (∀ c : Cube6, (movedAlg c alg).rotatedPieces r = movedAlg (c.rotatedPieces r) (rotated alg r)) ∧
    (∀ c : Cube7, (movedAlg c alg).rotatedPieces r = movedAlg (c.rotatedPieces r) (rotated alg r)) := by
  have h4 : ∀ (c : Cube4) (m : AxisMove), (moved c m).rotatedPieces r = moved (c.rotatedPieces r) (rotated m r) :=
    widened_rot_move (Cube4.rotatedPieces · r) r (cube4_rot_move r)
  have h5 : ∀ (c : Cube5) (m : AxisMove), (moved c m).rotatedPieces r = moved (c.rotatedPieces r) (rotated m r) :=
    widened_rot_move (Cube5.rotatedPieces · r) r (cube5_rot_move r)
  have h6 : ∀ (c : Cube6) (m : AxisMove), (moved c m).rotatedPieces r = moved (c.rotatedPieces r) (rotated m r) :=
    widened_rot_move (Cube6.rotatedPieces · r) r (cube6_rot_move r)
  have h7 : ∀ (c : Cube7) (m : AxisMove), (moved c m).rotatedPieces r = moved (c.rotatedPieces r) (rotated m r) :=
    widened_rot_move (Cube7.rotatedPieces · r) r (cube7_rot_move r)
  exact ⟨fun c => movedAlg_commutes (Cube4.rotatedPieces · r) (rotated · r) h4 c alg,
    fun c => movedAlg_commutes (Cube5.rotatedPieces · r) (rotated · r) h5 c alg,
    fun c => movedAlg_commutes (Cube6.rotatedPieces · r) (rotated · r) h6 c alg,
    fun c => movedAlg_commutes (Cube7.rotatedPieces · r) (rotated · r) h7 c alg⟩

/-- Neither side is trivial: the two layers beside R, turned, and then the whole 4x4 turned about the vertical axis; and
the rotated alg (the two layers beside F) is needed, the alg itself gives another result. -/
example :
    let c := moved (Cube.SOLVED : Cube4) (⟨1, ⟨Face.R, .single⟩⟩ : WideAxisMove 1)
    let r : AxisRotation := ⟨.Y, .single⟩
    rotWide (⟨1, ⟨Face.R, .single⟩⟩ : WideAxisMove 1) r = ⟨1, ⟨Face.F, .single⟩⟩ ∧ c.rotatedPieces r ≠ c ∧
    c.rotatedPieces r ≠ moved ((Cube.SOLVED : Cube4).rotatedPieces r) (⟨1, ⟨Face.R, .single⟩⟩ : WideAxisMove 1) := by
  decide +kernel

/-! ## C84 -/

/-- **C84** Where a piece goes does not depend on the other pieces, on every cube: two pieces of the same kind that are
equal, in any two states and at any two places in the arrays, are equal after every alg of wide moves. -/
theorem C84_pieces_independent_wide :
    (∀ (a : List AxisMove) (c d : Cube2), ∀ i j, c.corners i = d.corners j →
      (movedAlg c a).corners i = (movedAlg d a).corners j) ∧
    (∀ (a : List (WideAxisMove 1)) (c d : Cube4),
      (∀ i j, c.corners i = d.corners j → (movedAlg c a).corners i = (movedAlg d a).corners j) ∧
      (∀ i j, c.wings i = d.wings j → (movedAlg c a).wings i = (movedAlg d a).wings j) ∧
      (∀ i j, c.centers i = d.centers j → (movedAlg c a).centers i = (movedAlg d a).centers j)) ∧
    (∀ (a : List (WideAxisMove 1)) (c d : Cube5),
      (∀ i j, c.corners i = d.corners j → (movedAlg c a).corners i = (movedAlg d a).corners j) ∧
      (∀ i j, c.edges i = d.edges j → (movedAlg c a).edges i = (movedAlg d a).edges j) ∧
      (∀ i j, c.cornerCenters i = d.cornerCenters j → (movedAlg c a).cornerCenters i = (movedAlg d a).cornerCenters j) ∧
      (∀ i j, c.cornerEdges i = d.cornerEdges j → (movedAlg c a).cornerEdges i = (movedAlg d a).cornerEdges j)) ∧
    (∀ (a : List (WideAxisMove 2)) (c d : Cube6),
      (∀ i j, c.corners i = d.corners j → (movedAlg c a).corners i = (movedAlg d a).corners j) ∧
      (∀ i j, c.wings1 i = d.wings1 j → (movedAlg c a).wings1 i = (movedAlg d a).wings1 j) ∧
      (∀ i j, c.wings2 i = d.wings2 j → (movedAlg c a).wings2 i = (movedAlg d a).wings2 j) ∧
      (∀ i j, c.centerCorners1 i = d.centerCorners1 j → (movedAlg c a).centerCorners1 i = (movedAlg d a).centerCorners1 j) ∧
      (∀ i j, c.centerCorners2 i = d.centerCorners2 j → (movedAlg c a).centerCorners2 i = (movedAlg d a).centerCorners2 j) ∧
      (∀ i j, c.centerWings i = d.centerWings j → (movedAlg c a).centerWings i = (movedAlg d a).centerWings j)) ∧
    (∀ (a : List (WideAxisMove 2)) (c d : Cube7),
      (∀ i j, c.corners i = d.corners j → (movedAlg c a).corners i = (movedAlg d a).corners j) ∧
      (∀ i j, c.edges i = d.edges j → (movedAlg c a).edges i = (movedAlg d a).edges j) ∧
      (∀ i j, c.wings1 i = d.wings1 j → (movedAlg c a).wings1 i = (movedAlg d a).wings1 j) ∧
      (∀ i j, c.wings2 i = d.wings2 j → (movedAlg c a).wings2 i = (movedAlg d a).wings2 j) ∧
      (∀ i j, c.centerCorners1 i = d.centerCorners1 j → (movedAlg c a).centerCorners1 i = (movedAlg d a).centerCorners1 j) ∧
      (∀ i j, c.centerCorners2 i = d.centerCorners2 j → (movedAlg c a).centerCorners2 i = (movedAlg d a).centerCorners2 j) ∧
      (∀ i j, c.centerWings i = d.centerWings j → (movedAlg c a).centerWings i = (movedAlg d a).centerWings j) ∧
      (∀ i j, c.centerEdges1 i = d.centerEdges1 j → (movedAlg c a).centerEdges1 i = (movedAlg d a).centerEdges1 j) ∧
      (∀ i j, c.centerEdges2 i = d.centerEdges2 j → (movedAlg c a).centerEdges2 i = (movedAlg d a).centerEdges2 j)) := by
  refine ⟨fun a c d => ?_, fun a c d => ?_, fun a c d => ?_, fun a c d => ?_, fun a c d => ?_⟩
  · obtain ⟨f, -, h⟩ := cube2_uniform.alg a
    have hc : movedAlg c a = _ := h c
    have hd : movedAlg d a = _ := h d
    rw [hc, hd]
    exact fun i j e => by simp only [e]
  · obtain ⟨f, w, t, -, h⟩ := cube4_uniform.alg a
    have hc : movedAlg c a = _ := h c
    have hd : movedAlg d a = _ := h d
    rw [hc, hd]
    exact ⟨fun i j e => by simp only [e], fun i j e => by simp only [e], fun i j e => by simp only [e]⟩
  · obtain ⟨f, w, t, u, -, -, h⟩ := cube5_uniform.alg a
    have hc : movedAlg c a = _ := h c
    have hd : movedAlg d a = _ := h d
    rw [hc, hd]
    exact ⟨fun i j e => by simp only [e], fun i j e => by simp only [e], fun i j e => by simp only [e],
      fun i j e => by simp only [e]⟩
  · obtain ⟨f, w, w2, t, t2, u, -, h⟩ := cube6_uniform.alg a
    have hc : movedAlg c a = _ := h c
    have hd : movedAlg d a = _ := h d
    rw [hc, hd]
    exact ⟨fun i j e => by simp only [e], fun i j e => by simp only [e], fun i j e => by simp only [e],
      fun i j e => by simp only [e], fun i j e => by simp only [e], fun i j e => by simp only [e]⟩
  · obtain ⟨f, e, w, w2, t, t2, v, u, u2, -, -, h⟩ := cube7_uniform.alg a
    have hc : movedAlg c a = _ := h c
    have hd : movedAlg d a = _ := h d
    rw [hc, hd]
    exact ⟨fun i j e => by simp only [e], fun i j e => by simp only [e], fun i j e => by simp only [e],
      fun i j e => by simp only [e], fun i j e => by simp only [e], fun i j e => by simp only [e],
      fun i j e => by simp only [e], fun i j e => by simp only [e], fun i j e => by simp only [e]⟩

/-- Two different states of the 4x4 with an equal wing (the one at place 0), which the alg does move. -/
example :
    let c := (Cube.SOLVED : Cube4)
    let d := moved c (⟨0, ⟨Face.L, .single⟩⟩ : WideAxisMove 1)
    let a := [(⟨1, ⟨Face.U, .single⟩⟩ : WideAxisMove 1)]
    c ≠ d ∧ ∃ i, c.wings i = d.wings i ∧ (movedAlg c a).wings i ≠ c.wings i := by decide +kernel

end Barbarosa
