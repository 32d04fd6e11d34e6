import Verif.Spec.LooksSolved
import Verif.Props.Stickers
import Verif.Props.Meaning

/-!
# C79: cubes that look solved
-/

namespace Barbarosa

/-- the corner that belongs to a slot, in a solved cube -/
def homeCorner (i : Fin 8) : Corner := PieceSet.SOLVED Corner i

/-- a corner turned round several times -/
def Corner.turnedAll (s : Corner) (w : List AxisRotation) : Corner := w.foldl rotated s

/-- one way of turning the cube for each of its 24 orientations -/
def wholeTurns : List (List AxisRotation) :=
  [[], [⟨.X, .single⟩], [⟨.X, .double⟩], [⟨.X, .inverse⟩], [⟨.Z, .single⟩], [⟨.Z, .inverse⟩]].flatMap fun a =>
    [[], [⟨.Y, .single⟩], [⟨.Y, .double⟩], [⟨.Y, .inverse⟩]].map fun b => b ++ a

/-- the colours of a corner of slot `i` in state `s` agree with one colour per face -/
def Agrees (g : Face → Color) (i : Fin 8) (s : Corner) : Prop :=
  ∀ x ∈ Corner.colors s (Corner.REFERENCE_POSITIONS i), g x.1 = x.2

theorem stickers_corner (c : Cube2) (s : Facelet × Color) :
    s ∈ c.stickers ↔ ∃ i, ∃ x ∈ Corner.colors (c.corners i) (Corner.REFERENCE_POSITIONS i),
      s = (⟨⟨(Corner.coordinatesPos (c.corners i).position).1, (Corner.coordinatesPos (c.corners i).position).2.1,
        (Corner.coordinatesPos (c.corners i).position).2.2⟩, x.1⟩, x.2) := by
  unfold Cube2.stickers
  rw [List.mem_flatMap]
  constructor
  · rintro ⟨y, hy, hs⟩
    rw [PieceSet.iterWithPos_eq, List.mem_ofFn] at hy
    obtain ⟨i, rfl⟩ := hy
    obtain ⟨x, hx, rfl⟩ := List.mem_map.1 hs
    exact ⟨i, x, hx, rfl⟩
  · rintro ⟨i, x, hx, rfl⟩
    refine ⟨(Corner.REFERENCE_POSITIONS i, c.corners i), ?_, List.mem_map.2 ⟨x, hx, rfl⟩⟩
    rw [PieceSet.iterWithPos_eq, List.mem_ofFn]
    exact ⟨i, rfl⟩

theorem looksSolved_iff (c : Cube2) : c.LooksSolved ↔ ∃ g : Face → Color, ∀ i, Agrees g i (c.corners i) := by
  constructor
  · intro h
    choose g hg using h
    refine ⟨g, fun i x hx => ?_⟩
    exact (hg x.1 _ ((stickers_corner c _).2 ⟨i, x, hx, rfl⟩) rfl).symm
  · rintro ⟨g, hg⟩ f
    refine ⟨g f, fun s hs hf => ?_⟩
    obtain ⟨i, x, hx, rfl⟩ := (stickers_corner c s).1 hs
    rw [← hf]
    exact (hg i x hx).symm

/-- all states of a corner -/
def cornerList : List Corner := [Vec3.mk .pos .pos .pos, ⟨.pos, .pos, .neg⟩, ⟨.pos, .neg, .pos⟩, ⟨.pos, .neg, .neg⟩,
  ⟨.neg, .pos, .pos⟩, ⟨.neg, .pos, .neg⟩, ⟨.neg, .neg, .pos⟩, ⟨.neg, .neg, .neg⟩].flatMap fun p =>
    [Axis.X, .Y, .Z].map fun a => ⟨p, a⟩

theorem mem_cornerList (s : Corner) : s ∈ cornerList := by
  revert s; decide +kernel

/-- the colours of the corner of slot `i` in state `s` do not contradict what is known of the faces -/
def agreesWith (known : List (Face × Color)) (i : Fin 8) (s : Corner) : Bool :=
  (Corner.colors s (Corner.REFERENCE_POSITIONS i)).all fun x => known.all fun y => (x.1 != y.1) || (x.2 == y.2)

theorem agreesWith_of {g : Face → Color} {known : List (Face × Color)} (hk : ∀ y ∈ known, g y.1 = y.2) {i : Fin 8} {s : Corner}
    (h : Agrees g i s) : agreesWith known i s = true := by
  unfold agreesWith
  rw [List.all_eq_true]
  intro x hx
  rw [List.all_eq_true]
  intro y hy
  have h1 := h x hx
  have h2 := hk y hy
  by_cases e : x.1 = y.1
  · rw [e, h2] at h1
    simp [h1]
  · simp [e]

/-- Two opposite corners settle the colours of all faces: then some corner fits nowhere, or the cube is turned round. -/
def checkPair (a b : Corner) : Bool :=
  let known := Corner.colors a (Corner.REFERENCE_POSITIONS 0) ++ Corner.colors b (Corner.REFERENCE_POSITIONS 7)
  !agreesWith known 7 b || (List.finRange 8).any (fun i => cornerList.all fun s => !agreesWith known i s) ||
  wholeTurns.any fun w =>
    (List.finRange 8).all fun i => cornerList.all fun s => !agreesWith known i s || s == (homeCorner i).turnedAll w

theorem checkPair_all : (cornerList.all fun a => cornerList.all fun b => checkPair a b) = true := by decide +kernel

theorem turnedAll_corners (w : List AxisRotation) (c : Cube2) (i : Fin 8) :
    (w.foldl Cube2.turned c).corners i = (c.corners i).turnedAll w := by
  induction w generalizing c with
  | nil => rfl
  | cons r w ih => exact ih (c.turned r)

/-- the colours of the faces of a solved cube that has been turned round -/
def turnedColors (w : List AxisRotation) (f : Face) : Color :=
  (((List.finRange 8).flatMap fun i => Corner.colors ((homeCorner i).turnedAll w) (Corner.REFERENCE_POSITIONS i)).find?
    fun x => x.1 == f).elim ⟨f⟩ (·.2)

theorem turnedColors_agree : ∀ w ∈ wholeTurns, ∀ i : Fin 8,
    ∀ x ∈ Corner.colors ((homeCorner i).turnedAll w) (Corner.REFERENCE_POSITIONS i), turnedColors w x.1 = x.2 := by
  decide +kernel

/-- **C79** The faces of a 2x2 show one colour each exactly if it is the solved cube turned round in the hand, in one of 24
ways. (Nothing is assumed of the cube, not even that it is valid.) -/
theorem C79_looks_solved (c : Cube2) :
    c.LooksSolved ↔ ∃ w ∈ wholeTurns, c = w.foldl Cube2.turned (Cube.SOLVED : Cube2) := by
  rw [looksSolved_iff]
  constructor
  · rintro ⟨g, hg⟩
    have hp := List.all_eq_true.1 (List.all_eq_true.1 checkPair_all _ (mem_cornerList (c.corners 0))) _
      (mem_cornerList (c.corners 7))
    unfold checkPair at hp
    simp only [Bool.or_eq_true] at hp
    set known := Corner.colors (c.corners 0) (Corner.REFERENCE_POSITIONS 0) ++
      Corner.colors (c.corners 7) (Corner.REFERENCE_POSITIONS 7) with hknown
    have hk : ∀ y ∈ known, g y.1 = y.2 := by
      intro y hy
      rcases List.mem_append.1 hy with hy | hy
      · exact hg 0 y hy
      · exact hg 7 y hy
    have ha : ∀ i, agreesWith known i (c.corners i) = true := fun i => agreesWith_of hk (hg i)
    rcases hp with (hp | hp) | hp
    · rw [ha 7] at hp; cases hp
    · obtain ⟨i, -, hi⟩ := List.any_eq_true.1 hp
      have := List.all_eq_true.1 hi _ (mem_cornerList (c.corners i))
      rw [ha i] at this; cases this
    · obtain ⟨w, hw, hall⟩ := List.any_eq_true.1 hp
      refine ⟨w, hw, Cube2.ext (funext fun i => ?_)⟩
      have := List.all_eq_true.1 (List.all_eq_true.1 hall i (List.mem_finRange i)) _ (mem_cornerList (c.corners i))
      rw [ha i] at this
      rw [turnedAll_corners]
      have e : c.corners i = (homeCorner i).turnedAll w := by simpa using this
      exact e
  · rintro ⟨w, hw, rfl⟩
    refine ⟨turnedColors w, fun i x hx => ?_⟩
    rw [turnedAll_corners] at hx
    exact turnedColors_agree w hw i x hx

/-- a 2x2 turned round looks solved -/
example : ((Cube.SOLVED : Cube2).turned ⟨.Y, .single⟩).LooksSolved :=
  (C79_looks_solved _).2 ⟨[⟨.Y, .single⟩], by decide, rfl⟩

/-- **C79** Turning a 2x2 round in the hand is turning two opposite faces together, so all these states can be reached. -/
theorem C79_turned_moves (c : Cube2) (r : AxisRotation) :
    c.turned r = movedAlg c [(⟨⟨r.axis, .pos⟩, r.amount⟩ : AxisMove), ⟨⟨r.axis, .neg⟩, r.amount.mul .neg⟩] := by
  have key : ∀ (s : Corner) (r : AxisRotation),
      rotated s r = moved (moved s (⟨⟨r.axis, .pos⟩, r.amount⟩ : AxisMove)) (⟨⟨r.axis, .neg⟩, r.amount.mul .neg⟩ : AxisMove) := by
    decide +kernel
  exact Cube2.ext (funext fun i => key _ _)

/-- `y` is `U D'` on any 2x2 -/
example (c : Cube2) : c.turned ⟨.Y, .single⟩ = movedAlg c [(⟨.U, .single⟩ : AxisMove), ⟨.D, .inverse⟩] := C79_turned_moves c ⟨.Y, .single⟩

theorem turned_reachable (c : Cube2) (hc : c.Reachable) (w : List AxisRotation) : (w.foldl Cube2.turned c).Reachable := by
  induction w generalizing c with
  | nil => exact hc
  | cons r w ih =>
    refine ih _ ?_
    obtain ⟨alg, rfl⟩ := hc
    rw [C79_turned_moves]
    exact ⟨alg ++ _, by unfold movedAlg; rw [List.foldl_append]⟩

/-- **C79** A 2x2 that looks solved can be reached, and there are exactly 24 of them. -/
theorem C79_number : (∀ c : Cube2, c.LooksSolved → c.Reachable) ∧ Nat.card { c : Cube2 // c.LooksSolved } = 24 := by
  constructor
  · intro c hc
    obtain ⟨w, -, rfl⟩ := (C79_looks_solved c).1 hc
    exact turned_reachable _ ⟨[], rfl⟩ w
  · have hn : (wholeTurns.map fun w => w.foldl Cube2.turned (Cube.SOLVED : Cube2)).Nodup := by decide +kernel
    have e : ∀ c : Cube2, c ∈ (wholeTurns.map fun w => w.foldl Cube2.turned (Cube.SOLVED : Cube2)).toFinset ↔ c.LooksSolved := by
      intro c
      rw [List.mem_toFinset, List.mem_map, C79_looks_solved]
      exact ⟨fun ⟨w, h1, h2⟩ => ⟨w, h1, h2.symm⟩, fun ⟨w, h1, h2⟩ => ⟨w, h1, h2.symm⟩⟩
    rw [Nat.subtype_card _ e, List.toFinset_card_of_nodup hn]
    decide

/-- **C79** `is_solved` accepts one of the 24 and rejects the others: after `R L'` every face of the 2x2 shows one colour, but
it is not reported as solved. -/
theorem C79_rejects : ∃ alg : List AxisMove,
    (movedAlg (Cube.SOLVED : Cube2) alg).LooksSolved ∧ Cube.isSolved (movedAlg (Cube.SOLVED : Cube2) alg) = false := by
  refine ⟨[⟨.R, .single⟩, ⟨.L, .inverse⟩], (C79_looks_solved _).2 ⟨[⟨.X, .single⟩], by decide, ?_⟩, by decide +kernel⟩
  exact (C79_turned_moves _ ⟨.X, .single⟩).symm

/-- **C79** What holds: a 2x2 reported as solved looks solved. (Missing: the converse, see `C79_rejects`.) -/
theorem C79_cube2_partial (c : Cube2) (h : Cube.isSolved c = true) : c.LooksSolved := by
  have : c = (Cube.SOLVED : Cube2) := of_decide_eq_true h
  exact (C79_looks_solved c).2 ⟨[], by decide, this⟩

/-- four times `R` -/
example : (movedAlg (Cube.SOLVED : Cube2) (List.replicate 4 (⟨.R, .single⟩ : AxisMove))).LooksSolved :=
  C79_cube2_partial _ (by decide +kernel)

/-- **C79** On the 3x3 the centres settle the matter: a valid cube is reported as solved exactly if every face shows only one
colour. -/
theorem C79_cube3 (c : Cube3) (hc : c.valid) : Cube.isSolved c = true ↔ c.LooksSolved := by
  rw [C18_facelets c hc]
  constructor
  · intro h f
    exact ⟨⟨f⟩, fun s hs e => e ▸ h s hs⟩
  · intro h s hs
    obtain ⟨col, hcol⟩ := h s.face
    obtain ⟨u, hu, -, -, hcen⟩ := C51_drawing c hc
    have on : ∀ f : Face, (⟨f.normal, f⟩ : Facelet).OnCube := by decide
    have h1 := hcol ⟨s.face.normal, s.face⟩ (on _) rfl
    have h2 := hcen ⟨s.face.normal, s.face⟩ (on _) rfl
    unfold Cube3.shows at h1
    rw [hu, Option.bind_some, h2] at h1
    rw [hcol s hs rfl, ← h1]

-- both sides are false after one move, and true of the solved cube
example : ¬ (moved Cube3.SOLVED (⟨.R, .single⟩ : AxisMove)).LooksSolved ∧ Cube3.SOLVED.LooksSolved := by
  refine ⟨fun h => ?_, (C79_cube3 _ C08_solved_valid.2.1).1 (by decide +kernel)⟩
  rw [← C79_cube3 _ (by unfold Cube3.valid; decide +kernel)] at h
  revert h
  decide +kernel

/-! ### How many 2x2 positions are really different -/

theorem turn_unique : ∀ s : Corner, ∀ i : Fin 8, (wholeTurns.filter fun w => s.turnedAll w == homeCorner i).length = 1 := by
  decide +kernel

/-- **C79** Every 2x2 can be turned round in exactly one of the 24 ways so that a given corner is in place. -/
theorem C79_hold (c : Cube2) (i : Fin 8) : ∃! w, w ∈ wholeTurns ∧ (w.foldl Cube2.turned c).corners i = homeCorner i := by
  have h := turn_unique (c.corners i) i
  obtain ⟨w, hw⟩ := List.length_eq_one_iff.1 h
  have key : ∀ v, (v ∈ wholeTurns ∧ (v.foldl Cube2.turned c).corners i = homeCorner i) ↔ v = w := by
    intro v
    rw [turnedAll_corners, ← List.mem_singleton (a := v) (b := w), ← hw, List.mem_filter, beq_iff_eq]
  exact ⟨w, (key w).2 rfl, fun v hv => (key v).1 hv⟩

/-- the first corner of a scrambled 2x2 -/
example : ∃ w ∈ wholeTurns, (w.foldl Cube2.turned (movedAlg (Cube.SOLVED : Cube2) Perms.SEXY_MOVE)).corners 0 = homeCorner 0 := by
  obtain ⟨w, ⟨h1, h2⟩, -⟩ := C79_hold (movedAlg (Cube.SOLVED : Cube2) Perms.SEXY_MOVE) 0
  exact ⟨w, h1, h2⟩

theorem turned_back (r : AxisRotation) (c : Cube2) : (c.turned r).turned r.inverse = c ∧ (c.turned r.inverse).turned r = c := by
  have key : ∀ (s : Corner) (r : AxisRotation), rotated (rotated s r) r.inverse = s ∧ rotated (rotated s r.inverse) r = s := by
    decide +kernel
  exact ⟨Cube2.ext (funext fun i => (key _ r).1), Cube2.ext (funext fun i => (key _ r).2)⟩

theorem turnedAll_injective (w : List AxisRotation) {c d : Cube2} (h : w.foldl Cube2.turned c = w.foldl Cube2.turned d) : c = d := by
  induction w generalizing c d with
  | nil => exact h
  | cons r w ih =>
    have := ih h
    rw [← (turned_back r c).1, ← (turned_back r d).1, this]

theorem turnedAll_surjective (w : List AxisRotation) (d : Cube2) (hd : d.Reachable) :
    ∃ c : Cube2, c.Reachable ∧ w.foldl Cube2.turned c = d := by
  induction w with
  | nil => exact ⟨d, hd, rfl⟩
  | cons r w ih =>
    obtain ⟨c, h1, h2⟩ := ih
    exact ⟨c.turned r.inverse, turned_reachable c h1 [r.inverse], by rw [List.foldl_cons, (turned_back r c).2, h2]⟩

/-- **C79** Not counting how the cube is held, the 2x2 has 3674160 positions, although the code distinguishes 24 times as
many. -/
theorem C79_positions : Nat.card { c : Cube2 // c.Reachable ∧ c.corners 0 = homeCorner 0 } = 3674160 := by
  let f : { c : Cube2 // c.Reachable } → { w // w ∈ wholeTurns } × { c : Cube2 // c.Reachable ∧ c.corners 0 = homeCorner 0 } :=
    fun c => (⟨(C79_hold c.1 0).choose, (C79_hold c.1 0).choose_spec.1.1⟩,
      ⟨(C79_hold c.1 0).choose.foldl Cube2.turned c.1, turned_reachable c.1 c.2 _, (C79_hold c.1 0).choose_spec.1.2⟩)
  have hf : Function.Bijective f := by
    constructor
    · intro c d h
      have h1 : (C79_hold c.1 0).choose = (C79_hold d.1 0).choose := congrArg (fun x => x.1.1) h
      have h2 : (C79_hold c.1 0).choose.foldl Cube2.turned c.1 = (C79_hold d.1 0).choose.foldl Cube2.turned d.1 :=
        congrArg (fun x => x.2.1) h
      rw [← h1] at h2
      exact Subtype.ext (turnedAll_injective _ h2)
    · rintro ⟨⟨w, hw⟩, ⟨d, hd, hh⟩⟩
      obtain ⟨c, h1, rfl⟩ := turnedAll_surjective w d hd
      have e : (C79_hold c 0).choose = w := ((C79_hold c 0).choose_spec.2 w ⟨hw, hh⟩).symm
      refine ⟨⟨c, h1⟩, Prod.ext (Subtype.ext e) (Subtype.ext ?_)⟩
      show (C79_hold c 0).choose.foldl Cube2.turned c = _
      rw [e]
  have h24 : Nat.card { w // w ∈ wholeTurns } = 24 := by
    have hn : wholeTurns.Nodup := by decide +kernel
    rw [Nat.subtype_card wholeTurns.toFinset (fun w => List.mem_toFinset), List.toFinset_card_of_nodup hn]
    decide
  have h := Nat.card_congr (Equiv.ofBijective f hf)
  rw [Nat.card_prod, C68_number_of_states.1, h24] at h
  omega

end Barbarosa
