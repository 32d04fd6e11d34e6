import Verif.Model.Messages
import Verif.Props.Algs
import Verif.Props.Constructors

/-!
# C109: error messages tell what is wrong
-/

namespace Barbarosa

/-- a text that can be read from the left: where one value ends is certain, and which it is -/
def Readable {T : Type} (f : T → List Char) : Prop :=
  ∀ x y r s, f x ++ r = f y ++ s → x = y ∧ r = s

theorem Readable.of_prefix {T : Type} {f : T → List Char} (h : ∀ x y, f x <+: f y → x = y) : Readable f := by
  intro x y r s e
  have hxy : x = y := by
    rcases List.prefix_or_prefix_of_prefix (⟨r, rfl⟩ : f x <+: f x ++ r) (e ▸ ⟨s, rfl⟩ : f y <+: f x ++ r) with h1 | h1
    · exact h x y h1
    · exact (h y x h1).symm
  subst hxy
  exact ⟨rfl, List.append_cancel_left e⟩

theorem Readable.injective {T : Type} {f : T → List Char} (h : Readable f) : Function.Injective f :=
  fun x y e => (h x y [] [] (by rw [e])).1

theorem corner_readable : Readable Corner.debug := .of_prefix (by decide +kernel)
theorem edge_readable : Readable Edge.debug := .of_prefix (by decide +kernel)
theorem wing_readable : Readable Wing.debug := .of_prefix (by decide +kernel)
theorem centerEdge_readable : Readable CenterEdge.debug := .of_prefix (by decide +kernel)
theorem centerWing_readable : Readable CenterWing.debug := .of_prefix (by decide +kernel)

theorem centerCorner_readable {vector : Vec3 → List Char} (hv : Readable vector) :
    Readable (CenterCorner.debug vector) := by
  rintro ⟨p, x⟩ ⟨q, y⟩ r s e
  have hd : Readable Axis.debug := .of_prefix (by decide +kernel)
  unfold CenterCorner.debug at e
  generalize "CenterCorner { position: ".toList = s1 at e
  generalize ", axis: ".toList = s2 at e
  generalize " }".toList = s3 at e
  simp only [List.append_assoc] at e
  have he := hv _ _ _ _ (List.append_cancel_left e)
  clear e
  obtain ⟨rfl, e⟩ := he
  have he := hd _ _ _ _ (List.append_cancel_left e)
  clear e
  obtain ⟨rfl, e⟩ := he
  exact ⟨rfl, List.append_cancel_left e⟩

/-- arrays of the same size are readable -/
theorem array_readable {T : Type} {f : T → List Char} (hf : Readable f) (l m : List T) (hl : l.length = m.length)
    (r s : List Char) (e : arrayDebug f l ++ r = arrayDebug f m ++ s) : l = m ∧ r = s := by
  have key : ∀ (sep : List Char) (l m : List T), l.length = m.length → ∀ r s : List Char,
      List.intercalate sep (l.map f) ++ r = List.intercalate sep (m.map f) ++ s → l = m ∧ r = s := by
    intro sep l
    induction l with
    | nil => intro m hm r s e; cases m with
      | nil => exact ⟨rfl, by simpa using e⟩
      | cons _ _ => simp at hm
    | cons a l ih =>
      intro m hm r s e
      cases m with
      | nil => simp at hm
      | cons b m =>
        cases l with
        | nil =>
          cases m with
          | nil =>
            simp only [List.map_cons, List.map_nil, List.intercalate_singleton] at e
            obtain ⟨rfl, h⟩ := hf _ _ _ _ e
            exact ⟨rfl, h⟩
          | cons _ _ => simp at hm
        | cons a' l =>
          cases m with
          | nil => simp at hm
          | cons b' m =>
            simp only [List.map_cons, List.intercalate_cons_cons, List.append_assoc] at e
            obtain ⟨rfl, h⟩ := hf _ _ _ _ e
            have h2 := ih (b' :: m) (by simpa using hm) r s (by simpa only [List.map_cons] using List.append_cancel_left h)
            rw [h2.1]
            exact ⟨rfl, h2.2⟩
  simp only [arrayDebug, List.append_assoc] at e
  obtain ⟨h1, h2⟩ := key _ _ _ hl _ _ (List.append_cancel_left e)
  exact ⟨h1, List.append_cancel_left h2⟩

theorem pieceSet_readable {P : Type} {n : Nat} {f : P → List Char} (hf : Readable f) :
    Readable (PieceSet.debug f : PieceSet P n → List Char) := by
  intro x y r s e
  simp only [PieceSet.debug, structDebug, List.map_cons, List.map_nil, List.intercalate_singleton, List.append_assoc] at e
  obtain ⟨h1, h2⟩ := array_readable hf _ _ (by simp [PieceSet.toList]) _ _
    (List.append_cancel_left (List.append_cancel_left (List.append_cancel_left (List.append_cancel_left e))))
  exact ⟨List.ofFn_injective h1, List.append_cancel_left h2⟩

theorem depthPieceSet_readable {P : Type} {n : Nat} {f : P → List Char} (hf : Readable f) :
    Readable (DepthPieceSet.debug f : PieceSet P n → List Char) := by
  intro x y r s e
  simp only [DepthPieceSet.debug, structDebug, List.map_cons, List.map_nil, List.intercalate_singleton,
    List.append_assoc] at e
  obtain ⟨h1, h2⟩ := pieceSet_readable hf _ _ _ _
    (List.append_cancel_left (List.append_cancel_left (List.append_cancel_left (List.append_cancel_left e))))
  exact ⟨h1, List.append_cancel_left h2⟩

section
variable {vector : Vec3 → List Char} (hv : Readable vector)

theorem cube2_readable : Readable Cube2.debug := by
  rintro ⟨a⟩ ⟨b⟩ r s e
  simp only [Cube2.debug, structDebug, List.map_cons, List.map_nil, List.intercalate_singleton,
    List.append_assoc, List.append_cancel_left_eq] at e
  have he := pieceSet_readable corner_readable _ _ _ _ e
  clear e
  obtain ⟨rfl, e⟩ := he
  exact ⟨rfl, List.append_cancel_left e⟩

theorem cube3_readable : Readable Cube3.debug := by
  rintro ⟨a1, a2⟩ ⟨b1, b2⟩ r s e
  simp only [Cube3.debug, structDebug, List.map_cons, List.map_nil, List.intercalate_singleton,
    List.intercalate_cons_cons, List.append_assoc, List.append_cancel_left_eq] at e
  have he := pieceSet_readable edge_readable _ _ _ _ e
  clear e
  obtain ⟨rfl, e⟩ := he
  simp only [List.append_cancel_left_eq] at e
  have he := pieceSet_readable corner_readable _ _ _ _ e
  clear e
  obtain ⟨rfl, e⟩ := he
  exact ⟨rfl, List.append_cancel_left e⟩

include hv

theorem cube4_readable : Readable (Cube4.debug vector) := by
  rintro ⟨a1, a2, a3⟩ ⟨b1, b2, b3⟩ r s e
  simp only [Cube4.debug, structDebug, List.map_cons, List.map_nil, List.intercalate_singleton,
    List.intercalate_cons_cons, List.append_assoc, List.append_cancel_left_eq] at e
  have he := pieceSet_readable corner_readable _ _ _ _ e
  clear e
  obtain ⟨rfl, e⟩ := he
  simp only [List.append_cancel_left_eq] at e
  have he := depthPieceSet_readable wing_readable _ _ _ _ e
  clear e
  obtain ⟨rfl, e⟩ := he
  simp only [List.append_cancel_left_eq] at e
  have he := depthPieceSet_readable (centerCorner_readable hv) _ _ _ _ e
  clear e
  obtain ⟨rfl, e⟩ := he
  exact ⟨rfl, List.append_cancel_left e⟩

theorem cube5_readable : Readable (Cube5.debug vector) := by
  rintro ⟨a1, a2, a3, a4⟩ ⟨b1, b2, b3, b4⟩ r s e
  simp only [Cube5.debug, structDebug, List.map_cons, List.map_nil, List.intercalate_singleton,
    List.intercalate_cons_cons, List.append_assoc, List.append_cancel_left_eq] at e
  have he := pieceSet_readable corner_readable _ _ _ _ e
  clear e
  obtain ⟨rfl, e⟩ := he
  simp only [List.append_cancel_left_eq] at e
  have he := pieceSet_readable edge_readable _ _ _ _ e
  clear e
  obtain ⟨rfl, e⟩ := he
  simp only [List.append_cancel_left_eq] at e
  have he := depthPieceSet_readable (centerCorner_readable hv) _ _ _ _ e
  clear e
  obtain ⟨rfl, e⟩ := he
  simp only [List.append_cancel_left_eq] at e
  have he := depthPieceSet_readable centerEdge_readable _ _ _ _ e
  clear e
  obtain ⟨rfl, e⟩ := he
  exact ⟨rfl, List.append_cancel_left e⟩

theorem cube6_readable : Readable (Cube6.debug vector) := by
  rintro ⟨a1, a2, a3, a4, a5, a6⟩ ⟨b1, b2, b3, b4, b5, b6⟩ r s e
  simp only [Cube6.debug, structDebug, List.map_cons, List.map_nil, List.intercalate_singleton,
    List.intercalate_cons_cons, List.append_assoc, List.append_cancel_left_eq] at e
  have he := pieceSet_readable corner_readable _ _ _ _ e
  clear e
  obtain ⟨rfl, e⟩ := he
  simp only [List.append_cancel_left_eq] at e
  have he := depthPieceSet_readable wing_readable _ _ _ _ e
  clear e
  obtain ⟨rfl, e⟩ := he
  simp only [List.append_cancel_left_eq] at e
  have he := depthPieceSet_readable wing_readable _ _ _ _ e
  clear e
  obtain ⟨rfl, e⟩ := he
  simp only [List.append_cancel_left_eq] at e
  have he := depthPieceSet_readable (centerCorner_readable hv) _ _ _ _ e
  clear e
  obtain ⟨rfl, e⟩ := he
  simp only [List.append_cancel_left_eq] at e
  have he := depthPieceSet_readable (centerCorner_readable hv) _ _ _ _ e
  clear e
  obtain ⟨rfl, e⟩ := he
  simp only [List.append_cancel_left_eq] at e
  have he := depthPieceSet_readable centerWing_readable _ _ _ _ e
  clear e
  obtain ⟨rfl, e⟩ := he
  exact ⟨rfl, List.append_cancel_left e⟩

theorem cube7_readable : Readable (Cube7.debug vector) := by
  rintro ⟨a1, a2, a3, a4, a5, a6, a7, a8, a9⟩ ⟨b1, b2, b3, b4, b5, b6, b7, b8, b9⟩ r s e
  simp only [Cube7.debug, structDebug, List.map_cons, List.map_nil, List.intercalate_singleton,
    List.intercalate_cons_cons, List.append_assoc, List.append_cancel_left_eq] at e
  have he := pieceSet_readable corner_readable _ _ _ _ e
  clear e
  obtain ⟨rfl, e⟩ := he
  simp only [List.append_cancel_left_eq] at e
  have he := pieceSet_readable edge_readable _ _ _ _ e
  clear e
  obtain ⟨rfl, e⟩ := he
  simp only [List.append_cancel_left_eq] at e
  have he := depthPieceSet_readable wing_readable _ _ _ _ e
  clear e
  obtain ⟨rfl, e⟩ := he
  simp only [List.append_cancel_left_eq] at e
  have he := depthPieceSet_readable wing_readable _ _ _ _ e
  clear e
  obtain ⟨rfl, e⟩ := he
  simp only [List.append_cancel_left_eq] at e
  have he := depthPieceSet_readable (centerCorner_readable hv) _ _ _ _ e
  clear e
  obtain ⟨rfl, e⟩ := he
  simp only [List.append_cancel_left_eq] at e
  have he := depthPieceSet_readable (centerCorner_readable hv) _ _ _ _ e
  clear e
  obtain ⟨rfl, e⟩ := he
  simp only [List.append_cancel_left_eq] at e
  have he := depthPieceSet_readable centerWing_readable _ _ _ _ e
  clear e
  obtain ⟨rfl, e⟩ := he
  simp only [List.append_cancel_left_eq] at e
  have he := depthPieceSet_readable centerEdge_readable _ _ _ _ e
  clear e
  obtain ⟨rfl, e⟩ := he
  simp only [List.append_cancel_left_eq] at e
  have he := depthPieceSet_readable centerEdge_readable _ _ _ _ e
  clear e
  obtain ⟨rfl, e⟩ := he
  exact ⟨rfl, List.append_cancel_left e⟩

end

/-- how `nalgebra` prints a vector of three (no part of `/repo`: one value of the parameter) -/
def nalgebraVector (v : Vec3) : List Char :=
  "[[".toList ++ v.x.debug ++ ", ".toList ++ v.y.debug ++ ", ".toList ++ v.z.debug ++ "]]".toList

/-- how `nalgebra` prints a vector of two (no part of `/repo`: one value of the parameter) -/
def nalgebraVector2 (v : Vec2) : List Char :=
  "[[".toList ++ v.x.debug ++ ", ".toList ++ v.y.debug ++ "]]".toList

theorem nalgebra_readable : Readable nalgebraVector ∧ Readable nalgebraVector2 :=
  ⟨.of_prefix (by decide +kernel), .of_prefix (by decide +kernel)⟩

/-- **C109** Different states of a cube of any size have different debug texts, valid or not, if no vector's text is the
beginning of another's. -/
theorem C109_debug_distinguishes (vector : Vec3 → List Char) (hv : ∀ v w, vector v <+: vector w → v = w) :
    (∀ a b : Cube2, a.debug = b.debug → a = b) ∧
    (∀ a b : Cube3, a.debug = b.debug → a = b) ∧
    (∀ a b : Cube4, a.debug vector = b.debug vector → a = b) ∧
    (∀ a b : Cube5, a.debug vector = b.debug vector → a = b) ∧
    (∀ a b : Cube6, a.debug vector = b.debug vector → a = b) ∧
    (∀ a b : Cube7, a.debug vector = b.debug vector → a = b) := by
  have hr : Readable vector := .of_prefix hv
  exact ⟨fun _ _ h => cube2_readable.injective h, fun _ _ h => cube3_readable.injective h,
    fun _ _ h => (cube4_readable hr).injective h, fun _ _ h => (cube5_readable hr).injective h,
    fun _ _ h => (cube6_readable hr).injective h, fun _ _ h => (cube7_readable hr).injective h⟩

/-- one turn shows in the text -/
example : (moved Cube3.SOLVED (⟨Face.R, .double⟩ : AxisMove)).debug ≠ Cube3.SOLVED.debug := fun h =>
  absurd ((C109_debug_distinguishes nalgebraVector (by decide +kernel)).2.1 _ _ h) (by decide +kernel)

/-- the whole text of a solved 2x2 (with the parentheses of C82), and of a set with depths -/
example : Cube2.debug Cube.SOLVED =
      "Cube2 { corners: ".toList ++ "PieceSet { pieces: [".toList ++
        "Corner { faces: RUF, orientation_axis: Y), ".toList ++ "Corner { faces: LUF, orientation_axis: Y), ".toList ++
        "Corner { faces: RDF, orientation_axis: Y), ".toList ++ "Corner { faces: LDF, orientation_axis: Y), ".toList ++
        "Corner { faces: RUB, orientation_axis: Y), ".toList ++ "Corner { faces: LUB, orientation_axis: Y), ".toList ++
        "Corner { faces: RDB, orientation_axis: Y), ".toList ++ "Corner { faces: LDB, orientation_axis: Y)".toList ++
        "] } }".toList ∧
    DepthPieceSet.debug (n := 2) Wing.debug (fun i => if i = 0 then ⟨⟨.X, ⟨.pos, .neg⟩, true⟩⟩ else ⟨⟨.Z, ⟨.pos, .neg⟩, false⟩⟩) =
      "DepthPieceSet { set: ".toList ++ "PieceSet { pieces: [".toList ++
        "Wing { faces: UB, normal_direction: Negative }, ".toList ++
        "Wing { faces: RD, normal_direction: Negative }".toList ++ "] } }".toList := by
  decide +kernel

theorem notConnected_injective {T : Type} {f : T → List Char} (hf : Readable f) (e e' : T × T)
    (h : notConnectedMessage f e = notConnectedMessage f e') : e = e' := by
  unfold notConnectedMessage at h
  generalize "There is no move connecting ".toList = s1 at h
  generalize " and ".toList = s2 at h
  simp only [List.append_assoc, List.append_cancel_left_eq] at h
  obtain ⟨h1, h2⟩ := hf _ _ _ _ h
  exact Prod.ext h1 (hf.injective (List.append_cancel_left h2))

/-- the message of `try_from_states` for the states `l` is the one about `a` and `b` exactly if these are the first two
consecutive states that no move connects -/
theorem message_iff {T : Type} [Movable T AxisMove] [DecidableEq T] {f : T → List Char} (hf : Readable f) (l : List T)
    (a b : T) :
    (∃ e, tryFromStates AxisMove l = .error e ∧ notConnectedMessage f e = notConnectedMessage f (a, b)) ↔
      ∃ pre post, l = pre ++ a :: b :: post ∧ (∀ m : AxisMove, moved a m ≠ b) ∧
        (pre ++ [a]).IsChain fun c d => ∃ m : AxisMove, moved c m = d := by
  rw [← C39_first_unconnected]
  constructor
  · rintro ⟨e, h, he⟩
    rw [notConnected_injective hf _ _ he] at h
    exact h
  · exact fun h => ⟨_, h, rfl⟩

/-- **C109** The message of `try_from_states` for a 2x2 or 3x3 names two states; it names `a` and `b` exactly if these are the
first two consecutive ones that no move connects. -/
theorem C109_not_connected :
    (∀ (l : List Cube2) (a b : Cube2),
      (∃ e, tryFromStates AxisMove l = .error e ∧ notConnectedMessage Cube2.debug e =
          "There is no move connecting ".toList ++ a.debug ++ " and ".toList ++ b.debug) ↔
        ∃ pre post, l = pre ++ a :: b :: post ∧ (∀ m : AxisMove, moved a m ≠ b) ∧
          (pre ++ [a]).IsChain fun c d => ∃ m : AxisMove, moved c m = d) ∧
    (∀ (l : List Cube3) (a b : Cube3),
      (∃ e, tryFromStates AxisMove l = .error e ∧ notConnectedMessage Cube3.debug e =
          "There is no move connecting ".toList ++ a.debug ++ " and ".toList ++ b.debug) ↔
        ∃ pre post, l = pre ++ a :: b :: post ∧ (∀ m : AxisMove, moved a m ≠ b) ∧
          (pre ++ [a]).IsChain fun c d => ∃ m : AxisMove, moved c m = d) :=
  ⟨fun l a b => message_iff cube2_readable l a b, fun l a b => message_iff cube3_readable l a b⟩

/-- **C109** So does the message for the bigger cubes, if no vector's text is the beginning of another's. -/
theorem C109_not_connected_big (vector : Vec3 → List Char) (hv : ∀ v w, vector v <+: vector w → v = w) :
    (∀ (l : List Cube4) (a b : Cube4),
      (∃ e, tryFromStates AxisMove l = .error e ∧ notConnectedMessage (Cube4.debug vector) e =
          "There is no move connecting ".toList ++ a.debug vector ++ " and ".toList ++ b.debug vector) ↔
        ∃ pre post, l = pre ++ a :: b :: post ∧ (∀ m : AxisMove, moved a m ≠ b) ∧
          (pre ++ [a]).IsChain fun c d => ∃ m : AxisMove, moved c m = d) ∧
    (∀ (l : List Cube5) (a b : Cube5),
      (∃ e, tryFromStates AxisMove l = .error e ∧ notConnectedMessage (Cube5.debug vector) e =
          "There is no move connecting ".toList ++ a.debug vector ++ " and ".toList ++ b.debug vector) ↔
        ∃ pre post, l = pre ++ a :: b :: post ∧ (∀ m : AxisMove, moved a m ≠ b) ∧
          (pre ++ [a]).IsChain fun c d => ∃ m : AxisMove, moved c m = d) ∧
    (∀ (l : List Cube6) (a b : Cube6),
      (∃ e, tryFromStates AxisMove l = .error e ∧ notConnectedMessage (Cube6.debug vector) e =
          "There is no move connecting ".toList ++ a.debug vector ++ " and ".toList ++ b.debug vector) ↔
        ∃ pre post, l = pre ++ a :: b :: post ∧ (∀ m : AxisMove, moved a m ≠ b) ∧
          (pre ++ [a]).IsChain fun c d => ∃ m : AxisMove, moved c m = d) ∧
    (∀ (l : List Cube7) (a b : Cube7),
      (∃ e, tryFromStates AxisMove l = .error e ∧ notConnectedMessage (Cube7.debug vector) e =
          "There is no move connecting ".toList ++ a.debug vector ++ " and ".toList ++ b.debug vector) ↔
        ∃ pre post, l = pre ++ a :: b :: post ∧ (∀ m : AxisMove, moved a m ≠ b) ∧
          (pre ++ [a]).IsChain fun c d => ∃ m : AxisMove, moved c m = d) := by
  have hr : Readable vector := .of_prefix hv
  exact ⟨fun l a b => message_iff (cube4_readable hr) l a b, fun l a b => message_iff (cube5_readable hr) l a b,
    fun l a b => message_iff (cube6_readable hr) l a b, fun l a b => message_iff (cube7_readable hr) l a b⟩

/-- the hypothesis holds for `nalgebra` -/
example : ∀ v w, nalgebraVector v <+: nalgebraVector w → v = w := by decide +kernel

/-- two moves at once after a connected pair -/
example : ∃ e, tryFromStates AxisMove [Cube3.SOLVED, moved Cube3.SOLVED (⟨Face.R, .single⟩ : AxisMove),
        moved (moved (moved Cube3.SOLVED (⟨Face.R, .single⟩ : AxisMove)) (⟨Face.U, .single⟩ : AxisMove)) (⟨Face.R, .single⟩ : AxisMove)] = .error e ∧
      notConnectedMessage Cube3.debug e = "There is no move connecting ".toList ++
        (moved Cube3.SOLVED (⟨Face.R, .single⟩ : AxisMove)).debug ++ " and ".toList ++
        (moved (moved (moved Cube3.SOLVED (⟨Face.R, .single⟩ : AxisMove)) (⟨Face.U, .single⟩ : AxisMove)) (⟨Face.R, .single⟩ : AxisMove)).debug :=
  (C109_not_connected.2 _ _ _).2 ⟨[Cube3.SOLVED], [], rfl, by decide +kernel, .cons_cons ⟨_, rfl⟩ (.singleton _)⟩

/-- **C109** If `PieceSet::new` refuses pieces, its message is `Duplicate position (..)` with the text of a place in which two
pieces are, the first to be taken again. -/
theorem C109_duplicate {P : Type} {n : Nat} [DecidableEq P] [PieceSetDescriptor P n]
    (position : Piece.Position P → List Char) (piece : P → List Char) (pieces : Fin n → P)
    (err : ValidationError P) (h : PieceSet.new pieces = .error err) :
    ∃ (pos : Piece.Position P) (i j : Fin n),
      err.message position piece = "Duplicate position (".toList ++ position pos ++ ")".toList ∧ i < j ∧
      Piece.position (pieces i) = pos ∧ Piece.position (pieces j) = pos ∧
      ∀ k l : Fin n, k < j → l < j → Piece.position (pieces k) = Piece.position (pieces l) → k = l := by
  obtain ⟨pos, i, j, rfl, hp⟩ := C09_reported_duplicate pieces err h
  exact ⟨pos, i, j, rfl, hp⟩

/-- a corner of the solved cube put on top of another -/
example (err) (h : PieceSet.new (Function.update (PieceSet.SOLVED Corner) 5 ⟨⟨.pos, .pos, .neg⟩, .X⟩) = .error err) :
    err.message (fun _ => ['?']) Corner.debug = "Duplicate position (?)".toList := by
  obtain ⟨_, _, _, h, -⟩ := C109_duplicate (fun _ => ['?']) Corner.debug _ err h
  exact h

/-- **C109** Which place that is can be told from the message, for each kind of pieces: whenever the text after
`Duplicate position (` is the text of a place, it is the place reported. The places of wings and centers are the pieces themselves. -/
theorem C109_place_in_message (vector : Vec3 → List Char) (vector2 : Vec2 → List Char) (hv : Function.Injective vector)
    (hv2 : Function.Injective vector2) :
    (∀ p q : Piece.Position Corner, (ValidationError.duplicatePosition p : ValidationError Corner).message vector Corner.debug =
      "Duplicate position (".toList ++ vector q ++ ")".toList → p = q) ∧
    (∀ p q : Piece.Position Edge, (ValidationError.duplicatePosition p : ValidationError Edge).message
        (Edge.positionDebug vector2) Edge.debug =
      "Duplicate position (".toList ++ Edge.positionDebug vector2 q ++ ")".toList → p = q) ∧
    (∀ p q : Piece.Position Wing, (ValidationError.duplicatePosition p : ValidationError Wing).message Wing.debug Wing.debug =
      "Duplicate position (".toList ++ Wing.debug q ++ ")".toList → p = q) ∧
    (∀ p q : Piece.Position CenterCorner, (ValidationError.duplicatePosition p : ValidationError CenterCorner).message
        (CenterCorner.debug vector) (CenterCorner.debug vector) =
      "Duplicate position (".toList ++ CenterCorner.debug vector q ++ ")".toList → p = q) ∧
    (∀ p q : Piece.Position CenterEdge, (ValidationError.duplicatePosition p : ValidationError CenterEdge).message
        CenterEdge.debug CenterEdge.debug =
      "Duplicate position (".toList ++ CenterEdge.debug q ++ ")".toList → p = q) ∧
    (∀ p q : Piece.Position CenterWing, (ValidationError.duplicatePosition p : ValidationError CenterWing).message
        CenterWing.debug CenterWing.debug =
      "Duplicate position (".toList ++ CenterWing.debug q ++ ")".toList → p = q) := by
  have key : ∀ {T : Type} (f : T → List Char), Function.Injective f → ∀ (a b : List Char) (p q : T),
      a ++ f p ++ b = a ++ f q ++ b → p = q :=
    fun f hf a b p q h => hf (List.append_cancel_left (List.append_cancel_right h))
  have hd : Readable Axis.debug := .of_prefix (by decide +kernel)
  have he : Function.Injective (Edge.positionDebug vector2) := by
    rintro ⟨x, v⟩ ⟨y, w⟩ h
    simp only [Edge.positionDebug, List.append_assoc, List.append_cancel_left_eq] at h
    obtain ⟨rfl, h'⟩ := hd _ _ _ _ h
    rw [hv2 (List.append_cancel_right (List.append_cancel_left h'))]
  exact ⟨fun p q h => key vector hv _ _ p q h, fun p q h => key _ he _ _ p q h,
    fun p q h => key _ wing_readable.injective _ _ p q h,
    fun p q h => key (CenterCorner.debug vector) (fun a b e => C82_center_corners vector hv a b e) _ _ p q h,
    fun p q h => key _ centerEdge_readable.injective _ _ p q h,
    fun p q h => key _ centerWing_readable.injective _ _ p q h⟩

/-- `nalgebra` prints different vectors differently -/
example : Function.Injective nalgebraVector ∧ Function.Injective nalgebraVector2 :=
  ⟨nalgebra_readable.1.injective, nalgebra_readable.2.injective⟩

/-- two corners at one place: the message -/
example : let s : Fin 8 → Corner := Function.update (PieceSet.SOLVED Corner) 5 ⟨⟨.pos, .pos, .neg⟩, .X⟩
    (PieceSet.new s = .error (.duplicatePosition ⟨.pos, .pos, .neg⟩) : Prop) ∧
      (ValidationError.duplicatePosition ⟨.pos, .pos, .neg⟩ : ValidationError Corner).message nalgebraVector Corner.debug =
        "Duplicate position ([[Positive, Positive, Negative]])".toList := by
  exact ⟨by rfl, by decide +kernel⟩

end Barbarosa
