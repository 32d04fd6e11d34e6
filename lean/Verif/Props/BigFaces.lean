import Verif.Props.Generators
import Verif.Props.Reduction
import Verif.Props.WholeCubes

/-!
# C116: which faces have to be turned on the larger cubes

With wide moves of the two halves of a cube (`cube_n/moves/wide.rs:25-32`) the whole cube is turned over.
The words defined here are only used in the proofs.
-/

namespace Barbarosa

/-- how far `h` has to be turned with `f` to come to `g` -/
def wayTo (f g h : Face) : Option Amount :=
  if h = g then none else [Amount.single, .double, .inverse].find? fun a => rotated h (AxisRotation.ofMove ⟨f, a⟩) = g

theorem wayTo_table : ∀ f g h : Face, g.axis ≠ f.axis → h.axis ≠ f.axis →
    (wayTo f g h = none → h = g) ∧ ∀ a, wayTo f g h = some a → rotated h (AxisRotation.ofMove ⟨f, a⟩) = g := by
  decide +kernel

/-- turn the half of the cube at a face, and the other half along with it -/
def bothHalves (N : Nat) (f : Face) (a : Amount) : List (WideAxisMove N) := [⟨N, ⟨f, a⟩⟩, ⟨N, ⟨f.opposite, a.mul .neg⟩⟩]

/-- the cube is turned over with the halves at `f` and the opposite face, `g` is turned with some depth, and back -/
def aroundWide (N : Nat) (f g : Face) (b : Amount) (d : Nat) : Option Amount → List (WideAxisMove N)
  | none => [⟨d, ⟨g, b⟩⟩]
  | some a => bothHalves N f a ++ [⟨d, ⟨g, b⟩⟩] ++ bothHalves N f (a.mul .neg)

theorem aroundWide_faces (N : Nat) (f g : Face) (b : Amount) (d : Nat) (hd : d ≤ N) (w : Option Amount) :
    (aroundWide N f g b d w).length ≤ 5 ∧ ∀ m ∈ aroundWide N f g b d w, m.WF ∧ (m.face = f ∨ m.face = f.opposite ∨ m.face = g) := by
  rcases w with _ | a <;> simp [aroundWide, bothHalves, WideAxisMove.WF, WideAxisMove.face, hd]

/-- rotations of whole cubes, made of turns of the two halves -/
structure TurnedOver (N : Nat) (C : Type) [Movable C (WideAxisMove N)] (R : C → AxisRotation → C) : Prop where
  halves : ∀ (c : C) (f : Face) (a : Amount), movedAlg c (bothHalves N f a) = R c (AxisRotation.ofMove ⟨f, a⟩)
  moves : ∀ (c : C) (m : WideAxisMove N) (r : AxisRotation), R (moved c m) r = moved (R c r) (rotWide m r)
  back : ∀ (c : C) (r : AxisRotation), R (R c r) r.inverse = c

theorem movedAlg_parts {C M : Type} [Movable C M] (c : C) (a b : List M) : movedAlg c (a ++ b) = movedAlg (movedAlg c a) b :=
  List.foldl_append

theorem around_wide {N : Nat} {C : Type} [Movable C (WideAxisMove N)] {R : C → AxisRotation → C} (t : TurnedOver N C R)
    (f g h : Face) (hg : g.axis ≠ f.axis) (hh : h.axis ≠ f.axis) (b : Amount) (d : Nat) (c : C) :
    movedAlg c (aroundWide N f g b d (wayTo f g h)) = moved c (⟨d, ⟨h, b⟩⟩ : WideAxisMove N) := by
  have hw := wayTo_table f g h hg hh
  obtain ⟨w, e⟩ : ∃ w, w = wayTo f g h := ⟨_, rfl⟩
  rw [← e] at hw ⊢
  rcases w with _ | a
  · have hw : h = g := hw.1 rfl
    subst hw; rfl
  · have hw : rotated h (AxisRotation.ofMove ⟨f, a⟩) = g := hw.2 a rfl
    have e1 : rotWide (⟨d, ⟨h, b⟩⟩ : WideAxisMove N) (AxisRotation.ofMove ⟨f, a⟩) = ⟨d, ⟨g, b⟩⟩ := by rw [← hw]; rfl
    have e2 : AxisRotation.ofMove ⟨f, a.mul .neg⟩ = (AxisRotation.ofMove ⟨f, a⟩).inverse :=
      (by decide +kernel : ∀ (f : Face) (a : Amount), AxisRotation.ofMove ⟨f, a.mul .neg⟩ = (AxisRotation.ofMove ⟨f, a⟩).inverse) f a
    show movedAlg c (bothHalves N f a ++ [⟨d, ⟨g, b⟩⟩] ++ bothHalves N f (a.mul .neg)) = _
    rw [movedAlg_parts, movedAlg_parts, t.halves, t.halves, e2, ← e1]
    show R (moved (R c _) (rotWide _ _)) _ = _
    rw [← t.moves, t.back]

/-- wide moves that can be replaced one by one -/
theorem replace_wide {N : Nat} {C : Type} [Movable C (WideAxisMove N)] (S : Set Face) (n : Nat)
    (h : ∀ m : WideAxisMove N, m.WF → ∃ w : List (WideAxisMove N), (∀ x ∈ w, x.WF ∧ x.face ∈ S) ∧ w.length ≤ n ∧ ∀ c : C, movedAlg c w = moved c m)
    (a : List (WideAxisMove N)) (ha : ∀ m ∈ a, m.WF) :
    ∃ b : List (WideAxisMove N), (∀ x ∈ b, x.WF ∧ x.face ∈ S) ∧ b.length ≤ n * a.length ∧ ∀ c : C, movedAlg c b = movedAlg c a := by
  induction a with
  | nil => exact ⟨[], by simp, by simp, fun _ => rfl⟩
  | cons m l ih =>
    obtain ⟨w, h1, hw, h2⟩ := h m (ha m (.head _))
    obtain ⟨b, h3, hb, h4⟩ := ih fun m' hm' => ha m' (.tail _ hm')
    refine ⟨w ++ b, fun x hx => (List.mem_append.1 hx).elim (h1 x) (h3 x), ?_, fun c => ?_⟩
    · rw [List.length_append, List.length_cons, Nat.mul_succ, Nat.add_comm]
      exact Nat.add_le_add hb hw
    rw [movedAlg_parts, h2, h4]
    rfl

theorem three_wide {N : Nat} {C : Type} [Movable C (WideAxisMove N)] {R : C → AxisRotation → C} (t : TurnedOver N C R)
    (f g : Face) (hax : g.axis ≠ f.axis) (a : List (WideAxisMove N)) (ha : ∀ m ∈ a, m.WF) :
    ∃ b : List (WideAxisMove N), (∀ m ∈ b, m.WF ∧ (m.face = f ∨ m.face = f.opposite ∨ m.face = g)) ∧ b.length ≤ 5 * a.length ∧
      ∀ c : C, movedAlg c b = movedAlg c a := by
  refine replace_wide {k | k = f ∨ k = f.opposite ∨ k = g} 5 (fun m wf => ?_) a ha
  by_cases hm : m.face.axis = f.axis
  · refine ⟨[m], fun x hx => ?_, Nat.le_add_left 1 4, fun _ => rfl⟩
    rw [List.mem_singleton.1 hx]
    rcases (by decide +kernel : ∀ f g : Face, g.axis = f.axis → g = f ∨ g = f.opposite) f m.face hm with e | e
    · exact ⟨wf, .inl e⟩
    · exact ⟨wf, .inr (.inl e)⟩
  · have := aroundWide_faces N f g m.amount m.depth wf (wayTo f g m.face)
    exact ⟨_, this.2, this.1, fun c => around_wide t f g m.face hax hm m.amount m.depth c⟩

theorem corner_over : ∀ (f : Face) (a : Amount) (x : Corner),
    (x.moved ⟨f, a⟩).moved ⟨f.opposite, a.mul .neg⟩ = rotated x (AxisRotation.ofMove ⟨f, a⟩) := by decide +kernel
theorem corner_back : ∀ (x : Corner) (r : AxisRotation), rotated (rotated x r) r.inverse = x := by decide +kernel
theorem wing_back : ∀ (x : Wing) (r : AxisRotation), rotated (rotated x r) r.inverse = x := by decide +kernel
theorem centerCorner_back : ∀ (x : CenterCorner) (r : AxisRotation), rotated (rotated x r) r.inverse = x := by decide +kernel
theorem centerWing_back : ∀ (x : CenterWing) (r : AxisRotation), rotated (rotated x r) r.inverse = x := by decide +kernel

/-- both halves turned the same way turn the piece -/
abbrev OverTable (N : Nat) (P : Type) [Rotatable P] (act : P → WideAxisMove N → P) : Prop :=
  ∀ (f : Face) (a : Amount) (x : P), act (act x ⟨N, ⟨f, a⟩⟩) ⟨N, ⟨f.opposite, a.mul .neg⟩⟩ = rotated x (AxisRotation.ofMove ⟨f, a⟩)

theorem over_wing4 : OverTable 1 Wing fun x m => DepthPiece.moved 1 0 x m := by decide +kernel
theorem over_center4 : OverTable 1 CenterCorner fun x m => DepthPiece.moved 1 0 x m := by decide +kernel
theorem over_wing6 : OverTable 2 Wing fun x m => DepthPiece.moved 1 0 x m := by decide +kernel
theorem over_wing6' : OverTable 2 Wing fun x m => DepthPiece.moved 2 0 x m := by decide +kernel
theorem over_corner6 : OverTable 2 CenterCorner fun x m => DepthPiece.moved 1 0 x m := by decide +kernel
theorem over_corner6' : OverTable 2 CenterCorner fun x m => DepthPiece.moved 2 0 x m := by decide +kernel
theorem over_centerWing6 : OverTable 2 CenterWing fun x m => DepthPiece.moved 1 2 x m := by decide +kernel

theorem over4 : TurnedOver 1 Cube4 Cube4.rotatedPieces where
  halves _ f a := Cube4.ext (funext fun _ => corner_over f a _) (funext fun _ => over_wing4 f a _) (funext fun _ => over_center4 f a _)
  moves c m r := cube4_rot_move r c m
  back _ r := Cube4.ext (funext fun _ => corner_back _ r) (funext fun _ => wing_back _ r) (funext fun _ => centerCorner_back _ r)

theorem over6 : TurnedOver 2 Cube6 Cube6.rotatedPieces where
  halves _ f a := Cube6.ext (funext fun _ => corner_over f a _) (funext fun _ => over_wing6 f a _) (funext fun _ => over_wing6' f a _)
    (funext fun _ => over_corner6 f a _) (funext fun _ => over_corner6' f a _) (funext fun _ => over_centerWing6 f a _)
  moves c m r := cube6_rot_move r c m
  back _ r := Cube6.ext (funext fun _ => corner_back _ r) (funext fun _ => wing_back _ r) (funext fun _ => wing_back _ r)
    (funext fun _ => centerCorner_back _ r) (funext fun _ => centerCorner_back _ r) (funext fun _ => centerWing_back _ r)

/-- **C116** On the 4x4 and the 6x6 the wide moves of two opposite faces and one of another axis do all that any alg does to any cube,
with at most five times as many moves. -/
theorem C116_three_wide (f g : Face) (hax : g.axis ≠ f.axis) :
    (∀ a : List (WideAxisMove 1), (∀ m ∈ a, m.WF) → ∃ b : List (WideAxisMove 1),
      (∀ m ∈ b, m.WF ∧ (m.face = f ∨ m.face = f.opposite ∨ m.face = g)) ∧ b.length ≤ 5 * a.length ∧ ∀ c : Cube4, movedAlg c b = movedAlg c a) ∧
    ∀ a : List (WideAxisMove 2), (∀ m ∈ a, m.WF) → ∃ b : List (WideAxisMove 2),
      (∀ m ∈ b, m.WF ∧ (m.face = f ∨ m.face = f.opposite ∨ m.face = g)) ∧ b.length ≤ 5 * a.length ∧ ∀ c : Cube6, movedAlg c b = movedAlg c a :=
  ⟨three_wide over4 f g hax, three_wide over6 f g hax⟩

/-- F and two layers of D on the 4x4 with R, L and U only -/
example : ∃ b : List (WideAxisMove 1), (∀ m ∈ b, m.WF ∧ (m.face = Face.R ∨ m.face = Face.R.opposite ∨ m.face = Face.U)) ∧ b.length ≤ 10 ∧
    ∀ c : Cube4, movedAlg c b = movedAlg c [(⟨0, ⟨Face.F, .single⟩⟩ : WideAxisMove 1), ⟨1, ⟨Face.D, .double⟩⟩] :=
  (C116_three_wide Face.R Face.U (by decide)).1 [⟨0, ⟨Face.F, .single⟩⟩, ⟨1, ⟨Face.D, .double⟩⟩] (by decide)

theorem core_faces {N : Nat} {C : Type} [Movable C (WideAxisMove N)] (core : C → Cube2) (s : C) (hs : core s = (Cube.SOLVED : Cube2))
    (hc : ∀ (c : C) (a : List (WideAxisMove N)), core (movedAlg c a) = movedAlg (core c) (a.map (·.axisMove))) (S : Set Face)
    (h : ∀ a : List (WideAxisMove N), (∀ m ∈ a, m.WF) → ∃ b : List (WideAxisMove N), (∀ m ∈ b, m.WF ∧ m.face ∈ S) ∧ movedAlg s b = movedAlg s a) :
    ∃ f ∈ S, f.opposite ∈ S ∧ ∃ g ∈ S, g.axis ≠ f.axis := by
  refine (C116_cube2 S).1 fun c hc' => ?_
  obtain ⟨a, rfl⟩ := hc'
  obtain ⟨b, h1, h2⟩ := h (a.map fun m => ⟨0, m⟩) (fun m hm => by
    obtain ⟨x, -, rfl⟩ := List.mem_map.1 hm
    exact Nat.zero_le _)
  refine ⟨b.map (·.axisMove), fun m hm => ?_, ?_⟩
  · obtain ⟨x, hx, rfl⟩ := List.mem_map.1 hm
    exact (h1 x hx).2
  · have := congrArg core h2
    rw [hc, hc, hs, List.map_map] at this
    rw [this]
    exact congrArg _ (List.map_id a)

theorem faces_wide {N : Nat} {C : Type} [Movable C (WideAxisMove N)] {R : C → AxisRotation → C} (t : TurnedOver N C R)
    (core : C → Cube2) (s : C) (hs : core s = (Cube.SOLVED : Cube2))
    (hc : ∀ (c : C) (a : List (WideAxisMove N)), core (movedAlg c a) = movedAlg (core c) (a.map (·.axisMove))) (S : Set Face) :
    (∀ c : C, (∃ a : List (WideAxisMove N), (∀ m ∈ a, m.WF) ∧ movedAlg s a = c) →
      ∃ a : List (WideAxisMove N), (∀ m ∈ a, m.WF ∧ m.face ∈ S) ∧ movedAlg s a = c) ↔
      ∃ f ∈ S, f.opposite ∈ S ∧ ∃ g ∈ S, g.axis ≠ f.axis := by
  refine ⟨fun h => core_faces core s hs hc S fun a ha => h _ ⟨a, ha, rfl⟩, ?_⟩
  rintro ⟨f, hf, ho, g, hg, hax⟩ c ⟨a, ha, rfl⟩
  obtain ⟨b, h1, -, h2⟩ := three_wide t f g hax a ha
  refine ⟨b, fun m hm => ⟨(h1 m hm).1, ?_⟩, h2 _⟩
  rcases (h1 m hm).2 with e | e | e
  · exact e ▸ hf
  · exact e ▸ ho
  · exact e ▸ hg

/-- **C116** On the 4x4 and on the 6x6 the wide moves of some faces are enough to reach everything exactly if two opposite faces and one
of another axis are among them. -/
theorem C116_even (S : Set Face) :
    ((∀ c : Cube4, c.Reachable → ∃ a : List (WideAxisMove 1), (∀ m ∈ a, m.WF ∧ m.face ∈ S) ∧ movedAlg (Cube.SOLVED : Cube4) a = c) ↔
      ∃ f ∈ S, f.opposite ∈ S ∧ ∃ g ∈ S, g.axis ≠ f.axis) ∧
    ((∀ c : Cube6, c.Reachable → ∃ a : List (WideAxisMove 2), (∀ m ∈ a, m.WF ∧ m.face ∈ S) ∧ movedAlg (Cube.SOLVED : Cube6) a = c) ↔
      ∃ f ∈ S, f.opposite ∈ S ∧ ∃ g ∈ S, g.axis ≠ f.axis) :=
  ⟨faces_wide over4 Cube4.core Cube.SOLVED rfl C66_core.1 S, faces_wide over6 Cube6.core Cube.SOLVED rfl C66_core.2.2.1 S⟩

/-- on the 4x4 the faces R, L and U are enough, on the 6x6 the faces R, U and F are not -/
example : (∃ a : List (WideAxisMove 1), (∀ m ∈ a, m.WF ∧ m.face ∈ ({Face.R, Face.L, Face.U} : Set Face)) ∧
      movedAlg (Cube.SOLVED : Cube4) a = movedAlg (Cube.SOLVED : Cube4) [(⟨1, ⟨Face.F, .single⟩⟩ : WideAxisMove 1)]) ∧
    ¬ ∀ c : Cube6, c.Reachable → ∃ a : List (WideAxisMove 2), (∀ m ∈ a, m.WF ∧ m.face ∈ {f : Face | f = Face.R ∨ f = Face.U ∨ f = Face.F}) ∧
      movedAlg (Cube.SOLVED : Cube6) a = c := by
  refine ⟨(C116_even {Face.R, Face.L, Face.U}).1.2 ⟨Face.R, by simp, by simp [show Face.R.opposite = Face.L from by decide], Face.U, by simp, by decide⟩ _
    ⟨[⟨1, ⟨Face.F, .single⟩⟩], by decide, rfl⟩, fun h => ?_⟩
  obtain ⟨f, h1, h2, -⟩ := (C116_even _).2.1 h
  revert f
  simp only [Set.mem_ofPred_eq]
  decide +kernel

/-! ## 5x5 and 7x7 -/

/-- two faces of the two other axes -/
def besides (f : Face) : Face × Face :=
  match f.axis with
  | .X => (Face.U, Face.F)
  | .Y => (Face.R, Face.F)
  | .Z => (Face.R, Face.U)

/-- a turn of `f` without `f`: everything but the middle layers is turned over, the opposite face is turned, and back -/
def withoutWide (N : Nat) (f : Face) (a : Amount) (d : Nat) : List (WideAxisMove N) :=
  bothHalves N (besides f).1 .single ++ bothHalves N (besides f).2 .double ++ bothHalves N (besides f).1 .single ++ [⟨d, ⟨f.opposite, a⟩⟩] ++
    bothHalves N (besides f).1 .inverse ++ bothHalves N (besides f).2 .double ++ bothHalves N (besides f).1 .inverse

theorem withoutWide_faces (N : Nat) (f : Face) (a : Amount) (d : Nat) (hd : d ≤ N) :
    (withoutWide N f a d).length ≤ 13 ∧ ∀ m ∈ withoutWide N f a d, m.WF ∧ m.face ≠ f := by
  have : ∀ f : Face, (besides f).1 ≠ f ∧ (besides f).1.opposite ≠ f ∧ (besides f).2 ≠ f ∧ (besides f).2.opposite ≠ f ∧ f.opposite ≠ f := by
    decide +kernel
  simp [withoutWide, bothHalves, WideAxisMove.WF, WideAxisMove.face, hd, this f]

/-- the words do to a piece what the turn does -/
abbrev WithoutTable (N : Nat) (P : Type) (act : P → WideAxisMove N → P) : Prop :=
  ∀ (f : Face) (a : Amount) (d : Fin (N + 1)) (x : P), (withoutWide N f a d.val).foldl act x = act x ⟨d.val, ⟨f, a⟩⟩

theorem besides_over : ∀ (f : Face), rotated (rotated (rotated f (AxisRotation.ofMove ⟨(besides f).1, .single⟩))
    (AxisRotation.ofMove ⟨(besides f).2, .double⟩)) (AxisRotation.ofMove ⟨(besides f).1, .single⟩) = f.opposite := by decide +kernel

theorem ofMove_back : ∀ f : Face, AxisRotation.ofMove ⟨f, .inverse⟩ = (AxisRotation.ofMove ⟨f, .single⟩).inverse ∧
    AxisRotation.ofMove ⟨f, .double⟩ = (AxisRotation.ofMove ⟨f, .double⟩).inverse := by decide +kernel

/-- pieces outside of the middle layers are turned over with the cube -/
theorem without_outside {N : Nat} {P : Type} [Rotatable P] {act : P → WideAxisMove N → P} (over : OverTable N P act)
    (comm : ∀ (x : P) (m : WideAxisMove N) (r : AxisRotation), rotated (act x m) r = act (rotated x r) (rotWide m r))
    (back : ∀ (x : P) (r : AxisRotation), rotated (rotated x r) r.inverse = x) : WithoutTable N P act := by
  intro f a d x
  have e : rotWide (rotWide (rotWide (⟨d.val, ⟨f, a⟩⟩ : WideAxisMove N) (AxisRotation.ofMove ⟨(besides f).1, .single⟩))
      (AxisRotation.ofMove ⟨(besides f).2, .double⟩)) (AxisRotation.ofMove ⟨(besides f).1, .single⟩) = ⟨d.val, ⟨f.opposite, a⟩⟩ := by
    rw [← besides_over f]; rfl
  simp only [withoutWide, bothHalves, List.foldl_append, List.foldl_cons, List.foldl_nil]
  rw [over, over, over, over, over, over, ← e, ← comm, ← comm, ← comm, (ofMove_back _).1, back]
  nth_rewrite 2 [(ofMove_back _).2]
  rw [back, back]

theorem without_corner5 : WithoutTable 1 Corner fun x m => x.moved m.axisMove :=
  without_outside (fun f a x => corner_over f a x) (fun _ _ _ => corner_rot_move _ _ _) corner_back
theorem without_edge5 : WithoutTable 1 Edge fun x m => x.moved m.axisMove := by decide +kernel
theorem without_centerCorner5 : WithoutTable 1 CenterCorner fun x m => DepthPiece.moved 1 0 x m :=
  without_outside over_center4 (fun _ m r => (C56_depth_pieces 1 0 m r).2.1 _) centerCorner_back
theorem without_centerEdge5 : WithoutTable 1 CenterEdge fun x m => DepthPiece.moved 1 0 x m := by decide +kernel
theorem without_corner7 : WithoutTable 2 Corner fun x m => x.moved m.axisMove :=
  without_outside (fun f a x => corner_over f a x) (fun _ _ _ => corner_rot_move _ _ _) corner_back
theorem without_edge7 : WithoutTable 2 Edge fun x m => x.moved m.axisMove := by decide +kernel
theorem without_wing7 : WithoutTable 2 Wing fun x m => DepthPiece.moved 1 0 x m :=
  without_outside over_wing6 (fun _ m r => (C56_depth_pieces 1 0 m r).1 _) wing_back
theorem without_wing7' : WithoutTable 2 Wing fun x m => DepthPiece.moved 2 0 x m :=
  without_outside over_wing6' (fun _ m r => (C56_depth_pieces 2 0 m r).1 _) wing_back
theorem without_centerCorner7 : WithoutTable 2 CenterCorner fun x m => DepthPiece.moved 1 0 x m :=
  without_outside over_corner6 (fun _ m r => (C56_depth_pieces 1 0 m r).2.1 _) centerCorner_back
theorem without_centerCorner7' : WithoutTable 2 CenterCorner fun x m => DepthPiece.moved 2 0 x m :=
  without_outside over_corner6' (fun _ m r => (C56_depth_pieces 2 0 m r).2.1 _) centerCorner_back
theorem without_centerWing7 : WithoutTable 2 CenterWing fun x m => DepthPiece.moved 1 2 x m :=
  without_outside over_centerWing6 (fun _ m r => (C56_depth_pieces 1 2 m r).2.2.2 _) centerWing_back
theorem without_centerEdge7 : WithoutTable 2 CenterEdge fun x m => DepthPiece.moved 1 0 x m := by decide +kernel
theorem without_centerEdge7' : WithoutTable 2 CenterEdge fun x m => DepthPiece.moved 2 0 x m := by decide +kernel

theorem one_piece {C M P : Type} [Movable C M] (π : C → P) (act : P → M → P) (h : ∀ c m, π (moved c m) = act (π c) m) (w : List M) :
    ∀ c : C, π (movedAlg c w) = w.foldl act (π c) := by
  induction w with
  | nil => exact fun _ => rfl
  | cons m l ih =>
    intro c
    rw [List.foldl_cons, ← h]
    exact ih (moved c m)

theorem without_cube5 (f : Face) (a : Amount) (d : Fin 2) (c : Cube5) :
    movedAlg c (withoutWide 1 f a d.val) = moved c (⟨d.val, ⟨f, a⟩⟩ : WideAxisMove 1) :=
  Cube5.ext
    (funext fun i => (one_piece (fun c : Cube5 => c.corners i) _ (fun _ _ => rfl) _ c).trans (without_corner5 f a d (c.corners i)))
    (funext fun i => (one_piece (fun c : Cube5 => c.edges i) _ (fun _ _ => rfl) _ c).trans (without_edge5 f a d (c.edges i)))
    (funext fun i => (one_piece (fun c : Cube5 => c.cornerCenters i) _ (fun _ _ => rfl) _ c).trans (without_centerCorner5 f a d (c.cornerCenters i)))
    (funext fun i => (one_piece (fun c : Cube5 => c.cornerEdges i) _ (fun _ _ => rfl) _ c).trans (without_centerEdge5 f a d (c.cornerEdges i)))

theorem without_cube7 (f : Face) (a : Amount) (d : Fin 3) (c : Cube7) :
    movedAlg c (withoutWide 2 f a d.val) = moved c (⟨d.val, ⟨f, a⟩⟩ : WideAxisMove 2) :=
  Cube7.ext
    (funext fun i => (one_piece (fun c : Cube7 => c.corners i) _ (fun _ _ => rfl) _ c).trans (without_corner7 f a d (c.corners i)))
    (funext fun i => (one_piece (fun c : Cube7 => c.edges i) _ (fun _ _ => rfl) _ c).trans (without_edge7 f a d (c.edges i)))
    (funext fun i => (one_piece (fun c : Cube7 => c.wings1 i) _ (fun _ _ => rfl) _ c).trans (without_wing7 f a d (c.wings1 i)))
    (funext fun i => (one_piece (fun c : Cube7 => c.wings2 i) _ (fun _ _ => rfl) _ c).trans (without_wing7' f a d (c.wings2 i)))
    (funext fun i => (one_piece (fun c : Cube7 => c.centerCorners1 i) _ (fun _ _ => rfl) _ c).trans (without_centerCorner7 f a d (c.centerCorners1 i)))
    (funext fun i => (one_piece (fun c : Cube7 => c.centerCorners2 i) _ (fun _ _ => rfl) _ c).trans (without_centerCorner7' f a d (c.centerCorners2 i)))
    (funext fun i => (one_piece (fun c : Cube7 => c.centerWings i) _ (fun _ _ => rfl) _ c).trans (without_centerWing7 f a d (c.centerWings i)))
    (funext fun i => (one_piece (fun c : Cube7 => c.centerEdges1 i) _ (fun _ _ => rfl) _ c).trans (without_centerEdge7 f a d (c.centerEdges1 i)))
    (funext fun i => (one_piece (fun c : Cube7 => c.centerEdges2 i) _ (fun _ _ => rfl) _ c).trans (without_centerEdge7' f a d (c.centerEdges2 i)))

theorem avoid_wide {N : Nat} {C : Type} [Movable C (WideAxisMove N)]
    (t : ∀ (f : Face) (a : Amount) (d : Fin (N + 1)) (c : C), movedAlg c (withoutWide N f a d.val) = moved c (⟨d.val, ⟨f, a⟩⟩ : WideAxisMove N))
    (f : Face) (a : List (WideAxisMove N)) (ha : ∀ m ∈ a, m.WF) :
    ∃ b : List (WideAxisMove N), (∀ m ∈ b, m.WF ∧ m.face ≠ f) ∧ b.length ≤ 13 * a.length ∧ ∀ c : C, movedAlg c b = movedAlg c a := by
  refine replace_wide {k | k ≠ f} 13 (fun m wf => ?_) a ha
  by_cases hm : m.face = f
  · have := withoutWide_faces N f m.amount m.depth wf
    refine ⟨withoutWide N f m.amount m.depth, this.2, this.1, fun c => ?_⟩
    rw [t f m.amount ⟨m.depth, Nat.lt_succ_of_le wf⟩ c, ← hm]
    rfl
  · exact ⟨[m], fun x hx => by rw [List.mem_singleton.1 hx]; exact ⟨wf, hm⟩, Nat.le_add_left 1 12, fun _ => rfl⟩

/-- **C116** On the 5x5 and the 7x7 any one face can be avoided, as on the 3x3 (`C116_avoid`): every alg of wide moves has one that does the
same to every cube without turning any layers at the face. -/
theorem C116_avoid_wide (f : Face) :
    (∀ a : List (WideAxisMove 1), (∀ m ∈ a, m.WF) → ∃ b : List (WideAxisMove 1), (∀ m ∈ b, m.WF ∧ m.face ≠ f) ∧
      b.length ≤ 13 * a.length ∧ ∀ c : Cube5, movedAlg c b = movedAlg c a) ∧
    ∀ a : List (WideAxisMove 2), (∀ m ∈ a, m.WF) → ∃ b : List (WideAxisMove 2), (∀ m ∈ b, m.WF ∧ m.face ≠ f) ∧
      b.length ≤ 13 * a.length ∧ ∀ c : Cube7, movedAlg c b = movedAlg c a :=
  ⟨avoid_wide without_cube5 f, avoid_wide without_cube7 f⟩

/-- two layers of U on the 7x7 without turning any layers at U -/
example : ∃ b : List (WideAxisMove 2), (∀ m ∈ b, m.WF ∧ m.face ≠ Face.U) ∧ b.length ≤ 13 ∧
    ∀ c : Cube7, movedAlg c b = movedAlg c [(⟨1, ⟨Face.U, .single⟩⟩ : WideAxisMove 2)] :=
  (C116_avoid_wide Face.U).2 [⟨1, ⟨Face.U, .single⟩⟩] (by decide)

theorem core_faces3 {N : Nat} {C : Type} [Movable C (WideAxisMove N)] (core : C → Cube3) (s : C) (hs : core s = Cube3.SOLVED)
    (hc : ∀ (c : C) (a : List (WideAxisMove N)), core (movedAlg c a) = movedAlg (core c) (a.map (·.axisMove))) (S : Set Face)
    (h : ∀ a : List (WideAxisMove N), (∀ m ∈ a, m.WF) → ∃ b : List (WideAxisMove N), (∀ m ∈ b, m.WF ∧ m.face ∈ S) ∧ movedAlg s b = movedAlg s a) :
    ∃ f, ∀ g, g ≠ f → g ∈ S := by
  refine (C116_cube3 S).1 fun c hc' => ?_
  obtain ⟨a, rfl⟩ := hc'
  obtain ⟨b, h1, h2⟩ := h (a.map fun m => ⟨0, m⟩) (fun m hm => by
    obtain ⟨x, -, rfl⟩ := List.mem_map.1 hm
    exact Nat.zero_le _)
  refine ⟨b.map (·.axisMove), fun m hm => ?_, ?_⟩
  · obtain ⟨x, hx, rfl⟩ := List.mem_map.1 hm
    exact (h1 x hx).2
  · have := congrArg core h2
    rw [hc, hc, hs, List.map_map] at this
    rw [this]
    exact congrArg _ (List.map_id a)

/-- **C116** On the 5x5 and on the 7x7 the wide moves of some faces are enough to reach everything exactly if at most one face is left out. -/
theorem C116_odd (S : Set Face) :
    ((∀ c : Cube5, c.Reachable → ∃ a : List (WideAxisMove 1), (∀ m ∈ a, m.WF ∧ m.face ∈ S) ∧ movedAlg (Cube.SOLVED : Cube5) a = c) ↔
      ∃ f, ∀ g, g ≠ f → g ∈ S) ∧
    ((∀ c : Cube7, c.Reachable → ∃ a : List (WideAxisMove 2), (∀ m ∈ a, m.WF ∧ m.face ∈ S) ∧ movedAlg (Cube.SOLVED : Cube7) a = c) ↔
      ∃ f, ∀ g, g ≠ f → g ∈ S) := by
  refine ⟨⟨fun h => core_faces3 Cube5.core Cube.SOLVED rfl C66_core.2.1 S fun a ha => h _ ⟨a, ha, rfl⟩, ?_⟩,
    fun h => core_faces3 Cube7.core Cube.SOLVED rfl C66_core.2.2.2.1 S fun a ha => h _ ⟨a, ha, rfl⟩, ?_⟩ <;>
  rintro ⟨f, hf⟩ c ⟨a, ha, rfl⟩
  · obtain ⟨b, h1, -, h2⟩ := (C116_avoid_wide f).1 a ha
    exact ⟨b, fun m hm => ⟨(h1 m hm).1, hf _ (h1 m hm).2⟩, h2 _⟩
  · obtain ⟨b, h1, -, h2⟩ := (C116_avoid_wide f).2 a ha
    exact ⟨b, fun m hm => ⟨(h1 m hm).1, hf _ (h1 m hm).2⟩, h2 _⟩

/-- on the 5x5 all faces but U are enough, on the 7x7 all faces but R and B are not -/
example : (∃ a : List (WideAxisMove 1), (∀ m ∈ a, m.WF ∧ m.face ∈ {f : Face | f ≠ Face.U}) ∧
      movedAlg (Cube.SOLVED : Cube5) a = movedAlg (Cube.SOLVED : Cube5) [(⟨1, ⟨Face.U, .single⟩⟩ : WideAxisMove 1)]) ∧
    ¬ ∀ c : Cube7, c.Reachable → ∃ a : List (WideAxisMove 2), (∀ m ∈ a, m.WF ∧ m.face ∈ {f : Face | f ≠ Face.R ∧ f ≠ Face.B}) ∧
      movedAlg (Cube.SOLVED : Cube7) a = c := by
  refine ⟨(C116_odd {f | f ≠ Face.U}).1.2 ⟨Face.U, fun g hg => hg⟩ _ ⟨[⟨1, ⟨Face.U, .single⟩⟩], by decide, rfl⟩, fun h => ?_⟩
  obtain ⟨f, hf⟩ := (C116_odd _).2.1 h
  by_cases h1 : Face.R = f
  · exact (hf Face.B (h1 ▸ by decide)).2 rfl
  · exact (hf Face.R h1).1 rfl

end Barbarosa
