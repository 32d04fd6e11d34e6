import Verif.Lemmas.Pieces

/-!
# Lemmas about moves: how moves of one piece compose, and the lift to cubes
-/

namespace Barbarosa

/-! ## Selecting a piece and rotating it -/

/-- Rotate the piece if it is selected. Every move of every piece has this form. -/
def selMoved {P : Type} [Rotatable P] (sel : P → Bool) (p : P) (r : AxisRotation) : P :=
  if sel p then rotated p r else p

theorem selMoved_add {P : Type} [Rotatable P] [LawfulRotatable P] {sel : P → Bool} {a : Axis}
    (hsel : ∀ p x, sel (rotated p ⟨a, x⟩) = sel p) (p : P) (x y : Amount) :
    selMoved sel (selMoved sel p ⟨a, x⟩) ⟨a, y⟩ = match x.add y with
      | none => p
      | some z => selMoved sel p ⟨a, z⟩ := by
  unfold selMoved
  by_cases h : sel p = true
  · simp only [h, if_true, hsel]
    exact LawfulRotatable.rot_add p a x y
  · simp only [h]
    cases x.add y <;> simp [h]

theorem rot_comm {P : Type} [Rotatable P] [LawfulRotatable P] (p : P) (a : Axis) (x y : Amount) :
    rotated (rotated p ⟨a, x⟩) ⟨a, y⟩ = rotated (rotated p ⟨a, y⟩) ⟨a, x⟩ := by
  rw [LawfulRotatable.rot_add, LawfulRotatable.rot_add]
  have : x.add y = y.add x := by revert x y; decide
  rw [this]

theorem selMoved_comm {P : Type} [Rotatable P] [LawfulRotatable P] {s₁ s₂ : P → Bool} {a : Axis}
    (h₁ : ∀ p x, s₁ (rotated p ⟨a, x⟩) = s₁ p) (h₂ : ∀ p x, s₂ (rotated p ⟨a, x⟩) = s₂ p)
    (p : P) (x y : Amount) :
    selMoved s₂ (selMoved s₁ p ⟨a, x⟩) ⟨a, y⟩ = selMoved s₁ (selMoved s₂ p ⟨a, y⟩) ⟨a, x⟩ := by
  unfold selMoved
  by_cases c₁ : s₁ p = true <;> by_cases c₂ : s₂ p = true <;> simp [c₁, c₂, h₁, h₂, rot_comm p a x y]

/-! ## Which pieces a move selects does not change by turning about its axis -/

theorem Corner.sel_rot (f : Face) (c : Corner) (x : Amount) :
    f.containsVector (rotated c (⟨f.axis, x⟩ : AxisRotation)).position = f.containsVector c.position := by
  revert f c x; decide +kernel

theorem Edge.sel_rot (f : Face) (e : Edge) (x : Amount) :
    f.containsEdge (rotated e (⟨f.axis, x⟩ : AxisRotation)) = f.containsEdge e := by
  revert f e x; decide +kernel

/-- The selection of a depth piece is invariant under rotations about the axis of the move. -/
class LawfulDepthPiece (P : Type) [Rotatable P] [DepthPiece P] : Prop where
  sel_rot : ∀ {M : Nat} (p : P) (nd td : Nat) (m : WideAxisMove M) (x : Amount),
    DepthPiece.isInWideMove (rotated p (⟨m.face.axis, x⟩ : AxisRotation)) nd td m =
      DepthPiece.isInWideMove p nd td m
  sel_amount : ∀ {M : Nat} (p : P) (nd td d : Nat) (f : Face) (x y : Amount),
    DepthPiece.isInWideMove p nd td (⟨d, ⟨f, x⟩⟩ : WideAxisMove M) =
      DepthPiece.isInWideMove p nd td (⟨d, ⟨f, y⟩⟩ : WideAxisMove M)

/-- selection of a wing, with the depth comparison as a parameter -/
def Wing.inB (w : Wing) (f : Face) (b : Bool) : Bool :=
  f.containsEdge w.correspondingEdge ||
    (decide (w.correspondingEdge.normalAxis = f.axis) && b && decide (f.direction = w.normalDirection))

theorem Wing.in_eq {M : Nat} (w : Wing) (nd td : Nat) (m : WideAxisMove M) :
    DepthPiece.isInWideMove w nd td m = w.inB m.face (decide (nd ≤ m.depth)) := by
  unfold Wing.inB
  show (if _ then _ else _) = _
  by_cases h1 : m.face.containsEdge w.correspondingEdge = true
  · have : m.axisMove.face.containsEdge w.correspondingEdge = true := h1
    simp [h1, this]
  · have : ¬ m.axisMove.face.containsEdge w.correspondingEdge = true := h1
    simp only [h1, this]
    by_cases h2 : w.correspondingEdge.normalAxis = m.face.axis <;> by_cases h3 : nd ≤ m.depth <;>
      by_cases h4 : m.face.direction = w.normalDirection <;> simp [h2, h3, h4]

theorem Wing.inB_rot (w : Wing) (f : Face) (b : Bool) (x : Amount) :
    (rotated w (⟨f.axis, x⟩ : AxisRotation)).inB f b = w.inB f b := by
  revert w f b x; decide +kernel

instance : LawfulDepthPiece Wing where
  sel_rot p nd td m x := by
    rw [Wing.in_eq, Wing.in_eq]; exact Wing.inB_rot _ _ _ _
  sel_amount p nd td d f x y := by rw [Wing.in_eq, Wing.in_eq]; rfl

/-- selection of a center corner, with the depth comparison as a parameter -/
def CenterCorner.inB (c : CenterCorner) (f : Face) (b : Bool) : Bool :=
  decide (c.position.at f.axis = f.direction) && (b || decide (c.axis = f.axis))

theorem CenterCorner.in_eq {M : Nat} (c : CenterCorner) (nd td : Nat) (m : WideAxisMove M) :
    DepthPiece.isInWideMove c nd td m = c.inB m.face (decide (nd ≤ m.depth)) := by
  unfold CenterCorner.inB
  show (if _ then _ else _) = _
  by_cases h1 : c.position.at m.face.axis = m.face.direction <;> by_cases h2 : nd ≤ m.depth <;>
    by_cases h3 : c.axis = m.face.axis <;> simp [h1, h2, h3]

theorem CenterCorner.inB_rot (c : CenterCorner) (f : Face) (b : Bool) (x : Amount) :
    (rotated c (⟨f.axis, x⟩ : AxisRotation)).inB f b = c.inB f b := by
  revert c f b x; decide +kernel

instance : LawfulDepthPiece CenterCorner where
  sel_rot p nd td m x := by
    rw [CenterCorner.in_eq, CenterCorner.in_eq]; exact CenterCorner.inB_rot _ _ _ _
  sel_amount p nd td d f x y := by rw [CenterCorner.in_eq, CenterCorner.in_eq]; rfl

/-- selection of a center edge, with the depth comparison as a parameter -/
def CenterEdge.inB (c : CenterEdge) (f : Face) (b : Bool) : Bool :=
  decide (f = c.mainFace) || (decide (f = c.sideFace) && b)

theorem CenterEdge.in_eq {M : Nat} (c : CenterEdge) (nd td : Nat) (m : WideAxisMove M) :
    DepthPiece.isInWideMove c nd td m = c.inB m.face (decide (nd ≤ M)) := by
  unfold CenterEdge.inB
  show (if _ then _ else _) = _
  by_cases h1 : m.face = c.mainFace <;> by_cases h2 : nd ≤ M <;>
    by_cases h3 : m.face = c.sideFace <;> simp [h1, h2, h3]

theorem CenterEdge.inB_rot (c : CenterEdge) (f : Face) (b : Bool) (x : Amount) :
    (rotated c (⟨f.axis, x⟩ : AxisRotation)).inB f b = c.inB f b := by
  revert c f b x; decide +kernel

instance : LawfulDepthPiece CenterEdge where
  sel_rot p nd td m x := by
    rw [CenterEdge.in_eq, CenterEdge.in_eq]; exact CenterEdge.inB_rot _ _ _ _
  sel_amount p nd td d f x y := by rw [CenterEdge.in_eq, CenterEdge.in_eq]; rfl

/-- selection of a center wing, with the two depth comparisons as parameters -/
def CenterWing.inB (c : CenterWing) (f : Face) (b₁ b₂ : Bool) : Bool :=
  if c.mainFace = f then true
  else if c.sideFace = f then b₁
  else if c.mainFace.axis = f.axis ∨ c.sideFace.axis = f.axis then false
  else decide (c.normalDirection = f.direction) && b₂

theorem CenterWing.in_eq {M : Nat} (c : CenterWing) (nd td : Nat) (m : WideAxisMove M) :
    DepthPiece.isInWideMove c nd td m = c.inB m.face (decide (nd ≤ m.depth)) (decide (td ≤ m.depth)) := by
  unfold CenterWing.inB
  show (if _ then _ else _) = _
  by_cases h : c.normalDirection = m.face.direction <;> by_cases h' : td ≤ m.depth <;> simp [h, h']

theorem CenterWing.inB_rot (c : CenterWing) (f : Face) (b₁ b₂ : Bool) (x : Amount) :
    (rotated c (⟨f.axis, x⟩ : AxisRotation)).inB f b₁ b₂ = c.inB f b₁ b₂ := by
  revert c f b₁ b₂ x; decide +kernel

instance : LawfulDepthPiece CenterWing where
  sel_rot p nd td m x := by
    rw [CenterWing.in_eq, CenterWing.in_eq]; exact CenterWing.inB_rot _ _ _ _ _
  sel_amount p nd td d f x y := by rw [CenterWing.in_eq, CenterWing.in_eq]; rfl

/-! ## Moves of one piece as `selMoved` -/

theorem Corner.moved_eq (c : Corner) (m : AxisMove) :
    moved c m = selMoved (fun c => m.face.containsVector c.position) c (AxisRotation.ofMove m) := rfl

theorem Edge.moved_eq (e : Edge) (m : AxisMove) :
    moved e m = selMoved (fun e => m.face.containsEdge e) e (AxisRotation.ofMove m) := rfl

theorem DepthPiece.moved_eq {P : Type} [DepthPiece P] [Rotatable P] {M : Nat} (nd td : Nat) (p : P)
    (m : WideAxisMove M) :
    DepthPiece.moved nd td p m =
      selMoved (fun p => DepthPiece.isInWideMove p nd td m) p (AxisRotation.ofMove m.axisMove) := rfl

/-! ## The generic laws of something that can be moved by face turns -/

/-- `a` then `b` quarter turns as a partial amount -/
theorem Amount.addMul (x y : Amount) (d : Direction) : (x.mul d).add (y.mul d) = (x.add y).map (·.mul d) := by
  revert x y d; decide

/-- The laws of face turns, for something moved by a family of moves `mk k f x` (face `f`, amount `x`, and further
parameters `k`, e.g. the depth) -/
structure TurnLaws {C K : Type} (act : C → K → Face → Amount → C) : Prop where
  add : ∀ (c : C) (k : K) (f : Face) (x y : Amount),
    act (act c k f x) k f y = match x.add y with
      | none => c
      | some z => act c k f z
  comm : ∀ (c : C) (k k' : K) (a : Axis) (d d' : Direction) (x y : Amount),
    act (act c k ⟨a, d⟩ x) k' ⟨a, d'⟩ y = act (act c k' ⟨a, d'⟩ y) k ⟨a, d⟩ x

theorem TurnLaws.of_sel {P K : Type} [Rotatable P] [LawfulRotatable P] (sel : K → Face → P → Bool)
    (hsel : ∀ k f p x, sel k f (rotated p (⟨f.axis, x⟩ : AxisRotation)) = sel k f p) :
    TurnLaws (fun (p : P) k f x => selMoved (sel k f) p (AxisRotation.ofMove ⟨f, x⟩)) where
  add p k f x y := by
    have h := selMoved_add (sel := sel k f) (a := f.axis) (hsel k f) p (x.mul f.direction) (y.mul f.direction)
    simp only [AxisRotation.ofMove]
    rw [h, Amount.addMul]
    cases x.add y <;> rfl
  comm p k k' a d d' x y :=
    selMoved_comm (a := a) (hsel k ⟨a, d⟩) (hsel k' ⟨a, d'⟩) p (x.mul d) (y.mul d')

theorem TurnLaws.pi {ι P K : Type} {act : P → K → Face → Amount → P} (h : TurnLaws act) :
    TurnLaws (fun (s : ι → P) k f x => fun i => act (s i) k f x) where
  add s k f x y := by
    funext i
    have := h.add (s i) k f x y
    rw [this]
    cases x.add y <;> rfl
  comm s k k' a d d' x y := by funext i; exact h.comm (s i) k k' a d d' x y

theorem corner_laws : TurnLaws (fun (c : Corner) (_ : Unit) f x => moved c (⟨f, x⟩ : AxisMove)) :=
  TurnLaws.of_sel (fun _ f c => f.containsVector c.position) (fun _ f p x => Corner.sel_rot f p x)

theorem edge_laws : TurnLaws (fun (c : Edge) (_ : Unit) f x => moved c (⟨f, x⟩ : AxisMove)) :=
  TurnLaws.of_sel (fun _ f c => f.containsEdge c) (fun _ f p x => Edge.sel_rot f p x)

/-- `K = ℕ` is the depth of the wide move -/
theorem depth_laws (P : Type) [DepthPiece P] [Rotatable P] [LawfulRotatable P] [LawfulDepthPiece P] (M nd td : Nat) :
    TurnLaws (fun (p : P) (d : Nat) f x => DepthPiece.moved nd td p (⟨d, ⟨f, x⟩⟩ : WideAxisMove M)) := by
  have h := TurnLaws.of_sel (P := P)
    (fun (d : Nat) f p => DepthPiece.isInWideMove p nd td (⟨d, ⟨f, .single⟩⟩ : WideAxisMove M))
    (fun d f p x => LawfulDepthPiece.sel_rot p nd td (⟨d, ⟨f, .single⟩⟩ : WideAxisMove M) x)
  have e : (fun (p : P) (d : Nat) f x => DepthPiece.moved nd td p (⟨d, ⟨f, x⟩⟩ : WideAxisMove M)) =
      fun (p : P) (d : Nat) f x =>
        selMoved (fun p => DepthPiece.isInWideMove p nd td (⟨d, ⟨f, .single⟩⟩ : WideAxisMove M)) p
          (AxisRotation.ofMove ⟨f, x⟩) := by
    funext p d f x
    rw [DepthPiece.moved_eq]
    have h2 := LawfulDepthPiece.sel_amount (M := M) p nd td d f x .single
    simp only [selMoved, h2]
  rw [e]; exact h

/-! ## Lifting to cubes -/

theorem TurnLaws.prod {C D K : Type} {f : C → K → Face → Amount → C} {g : D → K → Face → Amount → D}
    (hf : TurnLaws f) (hg : TurnLaws g) :
    TurnLaws (fun (c : C × D) k a x => (f c.1 k a x, g c.2 k a x)) where
  add c k a x y := by
    simp only [hf.add, hg.add]
    cases x.add y <;> rfl
  comm c k k' a d d' x y := by
    simp only [hf.comm c.1 k k' a d d' x y, hg.comm c.2 k k' a d d' x y]

theorem TurnLaws.comap {C K K' : Type} {f : C → K → Face → Amount → C} (h : TurnLaws f) (g : K' → K) :
    TurnLaws (fun c k a x => f c (g k) a x) where
  add c k a x y := h.add c (g k) a x y
  comm c k k' a d d' x y := h.comm c (g k) (g k') a d d' x y

theorem TurnLaws.of_injective {C D K : Type} {f : C → K → Face → Amount → C} {g : D → K → Face → Amount → D}
    (hg : TurnLaws g) (i : C → D) (hi : Function.Injective i) (hc : ∀ c k a x, i (f c k a x) = g (i c) k a x) :
    TurnLaws f where
  add c k a x y := by
    apply hi
    rw [hc, hc, hg.add]
    cases x.add y with
    | none => rfl
    | some z => exact (hc c k a z).symm
  comm c k k' a d d' x y := by
    apply hi
    rw [hc, hc, hc, hc]
    exact hg.comm _ k k' a d d' x y

/-- how a cube is turned by wide moves of maximum depth `N`: the parameter is the depth -/
abbrev wideAct (C : Type) (N : Nat) [Movable C (WideAxisMove N)] (c : C) (d : Nat) (f : Face) (x : Amount) : C :=
  moved c (⟨d, ⟨f, x⟩⟩ : WideAxisMove N)

/-- how a cube is turned by face moves -/
abbrev axisAct (C : Type) [Movable C AxisMove] (c : C) (_ : Unit) (f : Face) (x : Amount) : C :=
  moved c (⟨f, x⟩ : AxisMove)

abbrev cornersU : TurnLaws (fun (s : Fin 8 → Corner) (_ : Unit) f x => fun i => moved (s i) (⟨f, x⟩ : AxisMove)) :=
  corner_laws.pi
abbrev edgesU : TurnLaws (fun (s : Fin 12 → Edge) (_ : Unit) f x => fun i => moved (s i) (⟨f, x⟩ : AxisMove)) :=
  edge_laws.pi
abbrev cornersN : TurnLaws (fun (s : Fin 8 → Corner) (_ : Nat) f x => fun i => moved (s i) (⟨f, x⟩ : AxisMove)) :=
  cornersU.comap (fun _ => ())
abbrev edgesN : TurnLaws (fun (s : Fin 12 → Edge) (_ : Nat) f x => fun i => moved (s i) (⟨f, x⟩ : AxisMove)) :=
  edgesU.comap (fun _ => ())
abbrev depthN (P : Type) [DepthPiece P] [Rotatable P] [LawfulRotatable P] [LawfulDepthPiece P] (n M nd td : Nat) :
    TurnLaws (fun (s : Fin n → P) (d : Nat) f x =>
      fun i => DepthPiece.moved nd td (s i) (⟨d, ⟨f, x⟩⟩ : WideAxisMove M)) :=
  (depth_laws P M nd td).pi

theorem cube2_laws : TurnLaws (axisAct Cube2) :=
  cornersU.of_injective (fun c => c.corners) (fun ⟨_⟩ ⟨_⟩ h => by cases h; rfl) (fun _ _ _ _ => rfl)

theorem cube3_laws : TurnLaws (axisAct Cube3) :=
  (edgesU.prod cornersU).of_injective (fun c => (c.edges, c.corners))
    (fun ⟨_, _⟩ ⟨_, _⟩ h => by cases h; rfl) (fun _ _ _ _ => rfl)

theorem cube4_laws : TurnLaws (wideAct Cube4 1) :=
  (cornersN.prod ((depthN Wing 24 1 1 0).prod (depthN CenterCorner 24 1 1 0))).of_injective
    (fun c => (c.corners, c.wings, c.centers))
    (fun ⟨_, _, _⟩ ⟨_, _, _⟩ h => by cases h; rfl) (fun _ _ _ _ => rfl)

theorem cube5_laws : TurnLaws (wideAct Cube5 1) :=
  (cornersN.prod (edgesN.prod ((depthN CenterCorner 24 1 1 0).prod (depthN CenterEdge 24 1 1 0)))).of_injective
    (fun c => (c.corners, c.edges, c.cornerCenters, c.cornerEdges))
    (fun ⟨_, _, _, _⟩ ⟨_, _, _, _⟩ h => by cases h; rfl) (fun _ _ _ _ => rfl)

theorem cube6_laws : TurnLaws (wideAct Cube6 2) :=
  (cornersN.prod ((depthN Wing 24 2 1 0).prod ((depthN Wing 24 2 2 0).prod ((depthN CenterCorner 24 2 1 0).prod
    ((depthN CenterCorner 24 2 2 0).prod (depthN CenterWing 48 2 1 2)))))).of_injective
    (fun c => (c.corners, c.wings1, c.wings2, c.centerCorners1, c.centerCorners2, c.centerWings))
    (fun ⟨_, _, _, _, _, _⟩ ⟨_, _, _, _, _, _⟩ h => by cases h; rfl) (fun _ _ _ _ => rfl)

theorem cube7_laws : TurnLaws (wideAct Cube7 2) :=
  (cornersN.prod (edgesN.prod ((depthN Wing 24 2 1 0).prod ((depthN Wing 24 2 2 0).prod
    ((depthN CenterCorner 24 2 1 0).prod ((depthN CenterCorner 24 2 2 0).prod ((depthN CenterWing 48 2 1 2).prod
      ((depthN CenterEdge 24 2 1 0).prod (depthN CenterEdge 24 2 2 0))))))))).of_injective
    (fun c => (c.corners, c.edges, c.wings1, c.wings2, c.centerCorners1, c.centerCorners2, c.centerWings,
      c.centerEdges1, c.centerEdges2))
    (fun ⟨_, _, _, _, _, _, _, _, _⟩ ⟨_, _, _, _, _, _, _, _, _⟩ h => by cases h; rfl) (fun _ _ _ _ => rfl)

/-- face moves of a big cube (always widened to the maximum) obey the laws if the wide moves do -/
theorem widened_laws {C : Type} (W : Nat) [Movable C (WideAxisMove W)] (h : TurnLaws (wideAct C W)) :
    TurnLaws (fun (c : C) (_ : Unit) f x => movedWidened W c (⟨f, x⟩ : AxisMove)) := by
  have e : (fun (c : C) (_ : Unit) f x => movedWidened W c (⟨f, x⟩ : AxisMove)) =
      fun (c : C) (k : Unit) f x => wideAct C W c ((fun _ => W) k) f x := by
    funext c _ f x; exact movedWidened_def W c _
  rw [e]; exact h.comap _

theorem cube4_axis_laws : TurnLaws (axisAct Cube4) := widened_laws 1 cube4_laws
theorem cube5_axis_laws : TurnLaws (axisAct Cube5) := widened_laws 1 cube5_laws
theorem cube6_axis_laws : TurnLaws (axisAct Cube6) := widened_laws 2 cube6_laws
theorem cube7_axis_laws : TurnLaws (axisAct Cube7) := widened_laws 2 cube7_laws
theorem cube6_wide1_laws : TurnLaws (wideAct Cube6 1) := cube6_laws
theorem cube7_wide1_laws : TurnLaws (wideAct Cube7 1) := cube7_laws

end Barbarosa
