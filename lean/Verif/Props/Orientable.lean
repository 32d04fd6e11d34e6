import Verif.Lemmas.Orientable
import Verif.Props.BigCubes
import Verif.Props.Parser

/-!
# C45–C50, C61: cubes held in an orientation and extended moves
-/

namespace Barbarosa

/-! ## C47: orientations -/

/-- **C47** There are 24 orientations, told apart by where R and U are. -/
theorem C47_count : Fintype.card Orientation = 24 ∧
    ∀ o o' : Orientation, o.rFace = o'.rFace → o.uFace = o'.uFace → o = o' := by decide +kernel

/-- **C47** `try_from` accepts exactly the perpendicular pairs and yields the orientation with these faces. -/
theorem C47_try_from (r u : Face) :
    ((Orientation.tryFrom r u).isSome ↔ r.normal.dot u.normal = 0) ∧
    ∀ o, Orientation.tryFrom r u = some o ↔ o.rFace = r ∧ o.uFace = u := by revert r u; decide +kernel

/-- R and U fit, R and L do not -/
example : (Orientation.tryFrom Face.R Face.U).isSome ∧ ¬ (Orientation.tryFrom Face.R Face.L).isSome :=
  ⟨(C47_try_from _ _).1.2 (by decide), fun h => absurd ((C47_try_from _ _).1.1 h) (by decide)⟩

/-- **C47** Rotating never panics, and it rotates every point of the cube in space (so also the faces R and U). -/
theorem C47_rotate (o : Orientation) (r : AxisRotation) :
    ∃ o', o.rotate? r = some o' ∧ ∀ p, o'.place p = Z3.rot r (o.place p) := by
  obtain ⟨o', h⟩ := rotate_isSome o r
  exact ⟨o', h, place_rotate h⟩

/-- U on top, held in any way: after `x` it is at the back -/
example : ∃ o, Orientation.default.rotate? ⟨.X, .single⟩ = some o ∧ o.place Face.U.normal = Face.B.normal := by
  obtain ⟨o, h1, h2⟩ := C47_rotate Orientation.default ⟨.X, .single⟩
  exact ⟨o, h1, (h2 _).trans (by decide)⟩

/-- **C47** After any sequence of rotations `r_face` and `u_face` are where the composed rotation carries R and U. -/
theorem C47_sequence (rs : List AxisRotation) :
    ∃ o, rs.foldlM Orientation.rotate? Orientation.default = some o ∧
      o.rFace.normal = Z3.rotAll rs Face.R.normal ∧ o.uFace.normal = Z3.rotAll rs Face.U.normal ∧
      ∀ p, o.place p = Z3.rotAll rs p := by
  have key : ∀ (rs : List AxisRotation) (o : Orientation), ∃ o', rs.foldlM Orientation.rotate? o = some o' ∧
      ∀ p, o'.place p = Z3.rotAll rs (o.place p) := by
    intro rs
    induction rs with
    | nil => exact fun o => ⟨o, rfl, fun _ => rfl⟩
    | cons r rs ih =>
      intro o
      obtain ⟨o₁, h₁, hp₁⟩ := C47_rotate o r
      obtain ⟨o₂, h₂, hp₂⟩ := ih o₁
      refine ⟨o₂, ?_, fun p => ?_⟩
      · rw [List.foldlM_cons, h₁]; exact h₂
      · rw [hp₂, hp₁]; rfl
  obtain ⟨o, h, hp⟩ := key rs Orientation.default
  have hid : ∀ p, Orientation.default.place p = p :=
    fun p => (linear_place _).congr linear_id (by decide) (by decide) (by decide) p
  have hr : ∀ o : Orientation, o.rFace.normal = o.place Face.R.normal ∧ o.uFace.normal = o.place Face.U.normal := by
    decide +kernel
  refine ⟨o, h, ?_, ?_, fun p => by rw [hp, hid]⟩
  · rw [(hr o).1, hp, hid]
  · rw [(hr o).2, hp, hid]

/-- `x y` -/
example : ∃ o, [⟨.X, .single⟩, ⟨.Y, .single⟩].foldlM Orientation.rotate? Orientation.default = some o ∧ o.rFace.normal = Face.F.normal := by
  obtain ⟨o, h1, h2, -⟩ := C47_sequence [⟨.X, .single⟩, ⟨.Y, .single⟩]
  exact ⟨o, h1, h2.trans (by decide)⟩

/-- **C47** Every orientation is reached by rotating the default one. -/
theorem C47_all_reached (o : Orientation) :
    ∃ rs : List AxisRotation, rs.length ≤ 2 ∧ rs.foldlM Orientation.rotate? Orientation.default = some o := by
  have h : ∀ o : Orientation, ∃ r s : AxisRotation, [].foldlM Orientation.rotate? Orientation.default = some o ∨
      [r].foldlM Orientation.rotate? Orientation.default = some o ∨
      [r, s].foldlM Orientation.rotate? Orientation.default = some o := by decide +kernel
  obtain ⟨r, s, h | h | h⟩ := h o
  · exact ⟨_, by simp, h⟩
  · exact ⟨_, by simp, h⟩
  · exact ⟨_, by simp, h⟩

example : ∃ rs : List AxisRotation, rs.length ≤ 2 ∧ rs.foldlM Orientation.rotate? Orientation.default = some ⟨Face.D, .neg, .pos⟩ :=
  C47_all_reached _

/-- **C47** Rotating and rotating back restores the orientation. -/
theorem C47_undo (o : Orientation) (r : AxisRotation) :
    (do let o' ← o.rotate? r; o'.rotate? r.inverse) = some o ∧ ∀ p, Z3.rot r.inverse (Z3.rot r p) = p := by
  obtain ⟨o', h⟩ := rotate_isSome o r
  refine ⟨by rw [h]; exact rotate_undo h, fun p => ?_⟩
  have ht : ∀ r : AxisRotation, Z3.rot r.inverse (Z3.rot r ⟨1, 0, 0⟩) = ⟨1, 0, 0⟩ ∧
      Z3.rot r.inverse (Z3.rot r ⟨0, 1, 0⟩) = ⟨0, 1, 0⟩ ∧ Z3.rot r.inverse (Z3.rot r ⟨0, 0, 1⟩) = ⟨0, 0, 1⟩ := by decide +kernel
  obtain ⟨h1, h2, h3⟩ := ht r
  exact ((linear_rot _).comp (linear_rot r)).congr linear_id h1 h2 h3 p

/-- `x2 y'` puts R at the back and U at the bottom -/
example : [(⟨.X, .double⟩ : AxisRotation), ⟨.Y, .inverse⟩].foldlM Orientation.rotate? Orientation.default =
    Orientation.tryFrom Face.B Face.D ∧ Orientation.tryFrom Face.B Face.D ≠ none ∧ Orientation.tryFrom Face.B Face.F = none := by
  decide +kernel

/-- Sanity of `Sees`: whoever holds a valid cube sees exactly one colour at each of the 54 places. -/
theorem C47_sees_one_colour (c : Orientable Cube3) (hc : c.baseCube.valid) (s : Facelet) (hs : s.OnCube) :
    ∃! col, c.Sees s col := by
  obtain ⟨t, ht⟩ := seenAt_exists c.orientation s
  have hon := (seenAt_onCube ht).mp hs
  obtain ⟨col, e, -⟩ := C05_alg [] c.baseCube hc t t hon rfl
  refine ⟨col, ⟨t, hon, ht, e⟩, ?_⟩
  rintro col' ⟨t', -, ht', e'⟩
  rw [seenAt_unique ht' ht, e] at e'
  exact (Option.some.inj e').symm

/-- a scrambled cube that is held otherwise -/
example : ∃ col, Orientable.Sees ⟨movedAlg Cube3.SOLVED Perms.SEXY_MOVE, ⟨Face.F, .pos, .neg⟩⟩ ⟨⟨1, 1, 1⟩, Face.F⟩ col :=
  (C47_sees_one_colour ⟨_, _⟩ (C08_cubes.2.1 _ _ C08_solved_valid.2.1) _ (by decide)).exists

/-- **C47** Seen by the holder, a rotation carries the whole picture round. -/
theorem C47_picture (c : Orientable Cube3) (r : AxisRotation) :
    ∃ c', c.apply? (.rotation r) = some c' ∧ c'.baseCube = c.baseCube ∧
      ∀ s s' col, Facelet.CarriesRotation r s s' → (c.Sees s col ↔ c'.Sees s' col) := by
  obtain ⟨o', h⟩ := rotate_isSome c.orientation r
  refine ⟨⟨c.baseCube, o'⟩, ?_, rfl, ?_⟩
  · show (c.orientation.rotate? r).bind _ = _
    rw [h]; rfl
  · intro s s' col hcar
    have key : ∀ t, Facelet.SeenAt c.orientation t s ↔ Facelet.SeenAt o' t s' := by
      intro t
      unfold Facelet.SeenAt
      rw [hcar.1, hcar.2, place_rotate h, place_rotate h]
      have hinj : ∀ p q, Z3.rot r p = Z3.rot r q → p = q := fun p q hpq => by
        rw [← (C47_undo o' r).2 p, hpq, (C47_undo o' r).2]
      exact ⟨fun ⟨a, b⟩ => ⟨by rw [a], by rw [b]⟩, fun ⟨a, b⟩ => ⟨hinj _ _ a, hinj _ _ b⟩⟩
    constructor
    · rintro ⟨t, h1, h2, h3⟩; exact ⟨t, h1, (key t).mp h2, h3⟩
    · rintro ⟨t, h1, h2, h3⟩; exact ⟨t, h1, (key t).mpr h2, h3⟩

example : Facelet.CarriesRotation ⟨.Y, .single⟩ ⟨⟨1, 1, 1⟩, Face.F⟩ ⟨⟨-1, 1, 1⟩, Face.L⟩ := by decide

/-! ## C48: the list of rotations -/

/-- the six orientations (given by the places of R and U) for which `rotations` leads somewhere else -/
def misledOrientations : List (Face × Face) :=
  [(.R, .D), (.U, .B), (.F, .R), (.L, .F), (.D, .F), (.B, .R)]

/-- **C48** `rotations` never panics and lists at most two rotations; for 18 of the 24 orientations they lead to it. Missing: the
six `misledOrientations`, for which the claim is false. -/
theorem C48_rotations_partial (o : Orientation) :
    ∃ rs, o.rotations? = some rs ∧ rs.length ≤ 2 ∧
      (rs.foldlM Orientation.rotate? Orientation.default = some o ↔ (o.rFace, o.uFace) ∉ misledOrientations) := by
  revert o; decide +kernel

/-- for the default way of holding the rotations lead there -/
example : ∃ rs, Orientation.default.rotations? = some rs ∧ rs.foldlM Orientation.rotate? Orientation.default = some Orientation.default := by
  obtain ⟨rs, h1, -, h2⟩ := C48_rotations_partial Orientation.default
  exact ⟨rs, h1, h2.2 (by decide)⟩

/-- **C48** is false: after `x2` the list is `z2`, which puts R to the left. -/
theorem C48_misled :
    ∃ o rs, Orientation.default.rotate? ⟨.X, .double⟩ = some o ∧ o.rotations? = some rs ∧
      rs.foldlM Orientation.rotate? Orientation.default ≠ some o :=
  ⟨⟨Face.R, .pos, .neg⟩, [⟨.Z, .double⟩], by decide +kernel⟩

/-- both kinds of orientations exist -/
example : (Orientation.default.rFace, Orientation.default.uFace) ∉ misledOrientations ∧
    ∃ o : Orientation, (o.rFace, o.uFace) ∈ misledOrientations := by decide +kernel

/-! ## C49: face moves -/

/-- the eight orientations (given by the places of R and U) in which face moves turn the face that is seen -/
def faithfulOrientations : List (Face × Face) :=
  [(.R, .U), (.U, .R), (.F, .D), (.L, .U), (.L, .D), (.L, .B), (.D, .L), (.B, .D)]

theorem faithful_kernel₁ : ∀ o : Orientation, ∀ rs ∈ o.rotations?.toList, (o.rFace, o.uFace) ∈ faithfulOrientations →
    ∀ f f' : Face, o.place f'.normal = f.normal → rs.foldl Face.rotated f = f' := by decide +kernel

theorem faithful_kernel₂ : ∀ o : Orientation, ∀ rs ∈ o.rotations?.toList, (o.rFace, o.uFace) ∉ faithfulOrientations →
    ∃ f f' : Face, o.place f'.normal = f.normal ∧ rs.foldl Face.rotated f ≠ f' := by decide +kernel

theorem faithful_kernel₃ : ∀ o : Orientation, ∀ rs ∈ o.rotations?.toList, (o.rFace, o.uFace) ∉ misledOrientations →
    ∀ f : Face, (rs.foldl Face.rotated f).normal = o.place f.normal := by decide +kernel

theorem faithful_table (o : Orientation) : ∃ rs, o.rotations? = some rs ∧
    ((o.rFace, o.uFace) ∈ faithfulOrientations → ∀ f f' : Face, o.place f'.normal = f.normal →
      rs.foldl Face.rotated f = f') ∧
    ((o.rFace, o.uFace) ∉ faithfulOrientations → ∃ f f' : Face, o.place f'.normal = f.normal ∧
      rs.foldl Face.rotated f ≠ f') ∧
    ((o.rFace, o.uFace) ∉ misledOrientations → ∀ f : Face, (rs.foldl Face.rotated f).normal = o.place f.normal) := by
  obtain ⟨rs, e, -⟩ := C48_rotations_partial o
  have hm : rs ∈ o.rotations?.toList := by rw [e]; exact List.mem_singleton.mpr rfl
  exact ⟨rs, e, faithful_kernel₁ o rs hm, faithful_kernel₂ o rs hm, faithful_kernel₃ o rs hm⟩

theorem foldl_rotated (rs : List AxisRotation) (m : AxisMove) :
    rs.foldl AxisMove.rotated m = ⟨rs.foldl Face.rotated m.face, m.amount⟩ := by
  induction rs generalizing m with
  | nil => rfl
  | cons r rs ih => rw [List.foldl_cons, ih]; rfl

theorem moved?_eq {C : Type} [Movable C AxisMove] (c : C) (o : Orientation) (rs : List AxisRotation)
    (h : o.rotations? = some rs) (m : AxisMove) :
    Orientable.moved? ⟨c, o⟩ m = some ⟨moved c (⟨rs.foldl Face.rotated m.face, m.amount⟩ : AxisMove), o⟩ := by
  unfold Orientable.moved?
  simp only [h, foldl_rotated]

/-- different quarter turns of the solved 3x3 give different cubes -/
theorem solved_moved_inj : ∀ f f' : Face, moved Cube3.SOLVED (⟨f, .single⟩ : AxisMove) = moved Cube3.SOLVED (⟨f', .single⟩ : AxisMove) →
    f = f' := by decide +kernel

/-- **C49** For every kind of cube a face move never panics, keeps the orientation, and in the eight `faithfulOrientations` turns
exactly the face that is held in that place. Missing: the other 16 orientations, for which the claim is false
(`C49_faithful_only`). -/
theorem C49_turns_seen_face_partial (s : HeldSys) (c : s.C) (o : Orientation) (m : AxisMove) :
    ∃ m' : AxisMove, Orientable.apply? ⟨c, o⟩ (.regular m) = some ⟨moved c m', o⟩ ∧ m'.amount = m.amount ∧
      ((o.rFace, o.uFace) ∈ faithfulOrientations → o.place m'.face.normal = m.face.normal) := by
  obtain ⟨rs, h, h1, -, -⟩ := faithful_table o
  refine ⟨⟨rs.foldl Face.rotated m.face, m.amount⟩, moved?_eq c o rs h m, rfl, fun hf => ?_⟩
  obtain ⟨g, hg⟩ := place_face_surj o m.face
  rw [h1 hf m.face g hg, hg]

/-- after `y2`, `R` turns the face that is then on the right: L of the cube as it was -/
example (c : Cube4) : ∃ o m', Orientation.default.rotate? ⟨.Y, .double⟩ = some o ∧
    Orientable.apply? ⟨c, o⟩ (.regular ⟨Face.R, .single⟩) = some ⟨moved c (m' : AxisMove), o⟩ ∧ o.place m'.face.normal = Face.R.normal := by
  obtain ⟨m', h1, -, h2⟩ := C49_turns_seen_face_partial ⟨Cube4⟩ c ⟨Face.L, .pos, .pos⟩ ⟨Face.R, .single⟩
  exact ⟨⟨Face.L, .pos, .pos⟩, m', by decide, h1, h2 (by decide)⟩

/-- **C49** What happens instead: except in the six `misledOrientations`, the face that is turned is where the orientation carries
the named face, not the face that it carries there. -/
theorem C49_turns_image (s : HeldSys) (c : s.C) (o : Orientation) (ho : (o.rFace, o.uFace) ∉ misledOrientations) (m m' : AxisMove)
    (ha : m'.amount = m.amount) (hn : m'.face.normal = o.place m.face.normal) :
    Orientable.apply? ⟨c, o⟩ (.regular m) = some ⟨moved c m', o⟩ := by
  obtain ⟨rs, h, -, -, h3⟩ := faithful_table o
  have : m' = ⟨rs.foldl Face.rotated m.face, m.amount⟩ := by
    obtain ⟨f', x⟩ := m'
    cases ha
    cases normal_inj _ _ (hn.trans (h3 ho m.face).symm)
    rfl
  rw [this]
  exact moved?_eq c o rs h m

/-- after `y2`, again -/
example (c : Cube5) : Orientable.apply? ⟨c, ⟨Face.L, .pos, .pos⟩⟩ (.regular ⟨Face.R, .single⟩) =
    some ⟨moved c (⟨Face.L, .single⟩ : AxisMove), ⟨Face.L, .pos, .pos⟩⟩ :=
  C49_turns_image ⟨Cube5⟩ c _ (by decide) _ _ rfl (by decide)

/-- **C49** is false in all other orientations: on the solved 3x3 some face move turns a face that is not in that place. -/
theorem C49_faithful_only (o : Orientation) :
    (∀ m m' : AxisMove, m'.amount = m.amount → o.place m'.face.normal = m.face.normal →
      Orientable.apply? ⟨Cube3.SOLVED, o⟩ (.regular m) = some ⟨moved Cube3.SOLVED m', o⟩) ↔
    (o.rFace, o.uFace) ∈ faithfulOrientations := by
  obtain ⟨rs, h, h1, h2, -⟩ := faithful_table o
  constructor
  · intro hall
    by_contra hn
    obtain ⟨f, f', hp, hne⟩ := h2 hn
    have := hall ⟨f, .single⟩ ⟨f', .single⟩ rfl hp
    rw [show Orientable.apply? ⟨Cube3.SOLVED, o⟩ (.regular ⟨f, .single⟩) = _ from moved?_eq Cube3.SOLVED o rs h _] at this
    injection this with this
    injection this with this
    exact hne (solved_moved_inj _ _ this)
  · intro hf m m' ha hn
    have : m' = ⟨rs.foldl Face.rotated m.face, m.amount⟩ := by
      cases m'
      cases ha
      rw [h1 hf m.face _ hn]
    rw [this]
    exact moved?_eq Cube3.SOLVED o rs h m

/-- the default is one of them -/
example : (Orientation.default.rFace, Orientation.default.uFace) ∈ faithfulOrientations ∧
    (Face.F, Face.U) ∉ faithfulOrientations := by decide

/-- **C49** in particular: after `y`, the move `R` turns F although B is on the right. -/
theorem C49_after_y : ∃ c, (Orientable.new Cube3.SOLVED).apply? (.rotation ⟨.Y, .single⟩) = some c ∧
    c.orientation.place Face.B.normal = Face.R.normal ∧
    c.apply? (.regular ⟨Face.R, .single⟩) = some { c with baseCube := moved Cube3.SOLVED (⟨Face.F, .single⟩ : AxisMove) } ∧
    c.apply? (.regular ⟨Face.R, .single⟩) ≠ some { c with baseCube := moved Cube3.SOLVED (⟨Face.B, .single⟩ : AxisMove) } := by
  decide +kernel

/-- **C49** sticker by sticker on the 3x3: in the faithful orientations the holder sees what a turn of that face should do.
Missing: the other 16 orientations. -/
theorem C49_picture_partial (c : Orientable Cube3) (hc : c.baseCube.valid)
    (ho : (c.orientation.rFace, c.orientation.uFace) ∈ faithfulOrientations) (m : AxisMove) :
    ∃ c', c.apply? (.regular m) = some c' ∧
      ∀ s s', s.OnCube → Facelet.Carries m s s' → ∃ col, c.Sees s col ∧ c'.Sees s' col := by
  obtain ⟨m', h, ha, hn⟩ := C49_turns_seen_face_partial ⟨Cube3⟩ c.baseCube c.orientation m
  refine ⟨_, h, fun s s' hs hcar => ?_⟩
  obtain ⟨t, ht⟩ := seenAt_exists c.orientation s
  obtain ⟨t', ht'⟩ := seenAt_exists c.orientation s'
  have hcar' := (carries_conj ha (hn ho) ht ht').mpr hcar
  have hon := (seenAt_onCube ht).mp hs
  obtain ⟨col, e1, e2⟩ := C05_move c.baseCube hc m' t t' hon hcar'
  exact ⟨col, ⟨t, hon, ht, e1⟩, ⟨t', carries_onCube m' t t' hon hcar', ht', e2⟩⟩

/-- after `y2` the move `R` carries the sticker seen at the front right to the top right -/
example : ∃ o, Orientation.default.rotate? ⟨.Y, .double⟩ = some o ∧ (o.rFace, o.uFace) ∈ faithfulOrientations ∧
    Facelet.Carries ⟨Face.R, .single⟩ ⟨⟨1, 0, 1⟩, Face.F⟩ ⟨⟨1, 1, 0⟩, Face.U⟩ := by decide +kernel

/-! ## C45: wide moves -/

theorem rotate_bind {β : Type} (o : Orientation) (r : AxisRotation) (f : Orientation → Option β) :
    ∃ o', o.rotate? r = some o' ∧ (o.rotate? r).bind f = f o' := by
  obtain ⟨o', h⟩ := rotate_isSome o r
  exact ⟨o', h, by rw [h]; rfl⟩

section
variable {C : Type} [Cube C] [Movable C AxisMove] [Movable C (WideAxisMove (maxDepth C))]

theorem apply_wide_beyond (c : Orientable C) (m : WideAxisMove U32_MAX) (h : Cube.N C < m.depth) :
    c.apply? (.wide m) = c.apply? (.rotation (AxisRotation.ofMove m.axisMove)) := by
  unfold Orientable.apply?
  simp only [if_pos h]

theorem apply_wide_shallow (c : Orientable C) (m : WideAxisMove U32_MAX) (h : 2 * m.depth < Cube.N C) :
    c.apply? (.wide m) = if m.depth ≤ maxDepth C then
      some ⟨moved c.baseCube (⟨m.depth, m.axisMove⟩ : WideAxisMove (maxDepth C)), c.orientation⟩ else none := by
  have h1 : ¬ Cube.N C < m.depth := by omega
  have h2 : m.depth < Cube.N C - m.depth := by omega
  unfold Orientable.apply?
  simp only [if_neg h1, if_pos h2, WideAxisMove.setMaxDepth, bind, Option.bind, pure]
  by_cases h3 : m.depth ≤ maxDepth C
  · rw [if_neg (by omega), if_pos h3]
  · rw [if_pos (by omega), if_neg h3]

theorem apply_wide_deep (c : Orientable C) (m : WideAxisMove U32_MAX) (hN : Cube.N C ≤ U32_MAX) (h : Cube.N C ≤ 2 * m.depth)
    (h' : m.depth ≤ Cube.N C) : ∃ o', c.orientation.rotate? (AxisRotation.ofMove m.axisMove) = some o' ∧
    c.apply? (.wide m) = if Cube.N C - m.depth ≤ maxDepth C then
      some ⟨moved c.baseCube (⟨Cube.N C - m.depth, ⟨m.face.opposite, m.amount⟩⟩ : WideAxisMove (maxDepth C)), o'⟩ else none := by
  obtain ⟨o', ho⟩ := rotate_isSome c.orientation (AxisRotation.ofMove m.axisMove)
  refine ⟨o', ho, ?_⟩
  have h1 : ¬ Cube.N C < m.depth := by omega
  have h2 : ¬ m.depth < Cube.N C - m.depth := by omega
  have h4 : ¬ Cube.N C - m.depth > U32_MAX := by omega
  unfold Orientable.apply?
  simp only [if_neg h1, if_neg h2, ho, oppositeWide?, AxisMove.widen, WideAxisMove.new, if_neg h4, WideAxisMove.setMaxDepth,
    bind, Option.bind, pure]
  by_cases h3 : Cube.N C - m.depth ≤ maxDepth C
  · rw [if_neg (by omega), if_pos h3]
  · rw [if_pos (by omega), if_neg h3]

end

/-- the sizes of the cubes -/
theorem held_size : ∀ s ∈ heldSystems, 2 ≤ Cube.N s.C ∧ Cube.N s.C ≤ 7 := by
  simp only [heldSystems, List.forall_mem_cons, List.not_mem_nil, false_imp_iff, implies_true, and_true]
  decide

theorem u32_big : 7 ≤ U32_MAX := by unfold U32_MAX; omega

/-- **C45** is false: a wide move panics exactly if its depth is half the size of the cube, rounded down or up. For every cube in every
orientation. -/
theorem C45_panics_exactly (s : HeldSys) (hs : s ∈ heldSystems) (c : Orientable s.C) (m : WideAxisMove U32_MAX) :
    c.apply? (.wide m) = none ↔ m.depth = Cube.N s.C / 2 ∨ m.depth = (Cube.N s.C + 1) / 2 := by
  obtain ⟨h2, h7⟩ := held_size s hs
  have hu := u32_big
  have hM : maxDepth s.C = Cube.N s.C / 2 - 1 := rfl
  by_cases hb : Cube.N s.C < m.depth
  · rw [apply_wide_beyond c m hb]
    obtain ⟨o', ho⟩ := rotate_isSome c.orientation (AxisRotation.ofMove m.axisMove)
    have : c.apply? (.rotation (AxisRotation.ofMove m.axisMove)) = some ⟨c.baseCube, o'⟩ := by
      show (c.orientation.rotate? _).bind _ = _
      rw [ho]; rfl
    rw [this]
    constructor
    · intro h; cases h
    · omega
  · by_cases hs' : 2 * m.depth < Cube.N s.C
    · rw [apply_wide_shallow c m hs']
      by_cases h3 : m.depth ≤ maxDepth s.C
      · rw [if_pos h3]
        constructor
        · intro h; cases h
        · omega
      · rw [if_neg h3]
        constructor
        · intro _; omega
        · intro _; rfl
    · obtain ⟨o', -, h⟩ := apply_wide_deep c m (by omega) (by omega) (by omega)
      rw [h]
      by_cases h3 : Cube.N s.C - m.depth ≤ maxDepth s.C
      · rw [if_pos h3]
        constructor
        · intro h; cases h
        · omega
      · rw [if_neg h3]
        constructor
        · intro _; omega
        · intro _; rfl

/-- `Rw` on a 3x3 and on a 2x2, but not on a 4x4 -/
example (c : Orientable Cube3) (d : Orientable Cube4) : c.apply? (.wide ⟨1, ⟨Face.R, .single⟩⟩) = none ∧
    d.apply? (.wide ⟨1, ⟨Face.R, .single⟩⟩) ≠ none :=
  ⟨(C45_panics_exactly ⟨Cube3⟩ (by simp [heldSystems]) c _).2 (by decide),
    fun h => absurd ((C45_panics_exactly ⟨Cube4⟩ (by simp [heldSystems]) d _).1 h) (by decide)⟩

/-- **C45** in particular: `Rw` (depth 1, as parsed) panics on the 2x2 and the 3x3. -/
theorem C45_Rw_panics :
    Parsable.parse (T := ExtendedAxisMove) asciiNumber ['R', 'w'] = .ok (.wide ⟨1, ⟨Face.R, .single⟩⟩) ∧
    (∀ c : Orientable Cube3, c.apply? (.wide ⟨1, ⟨Face.R, .single⟩⟩) = none) ∧
    ∀ c : Orientable Cube2, c.apply? (.wide ⟨1, ⟨Face.R, .single⟩⟩) = none :=
  ⟨by decide +kernel, fun c => (C45_panics_exactly ⟨Cube3⟩ (by simp [heldSystems]) c _).mpr (by decide),
    fun c => (C45_panics_exactly ⟨Cube2⟩ (by simp [heldSystems]) c _).mpr (by decide)⟩

/-- **C45** Moves deeper than the cube never panic and are exactly the rotation of the whole cube; moves of depth less than half the size
never panic, keep the orientation, and turn the named face of the cube to that depth. Missing: depths half the size (panic,
`C45_panics_exactly`), between half the size and the size (`C45_deep_off_by_two`), and cubes that are not in the default orientation
(`C45_ignores_orientation`). -/
theorem C45_wide_partial (s : HeldSys) (c : Orientable s.C) (m : WideAxisMove U32_MAX) :
    (Cube.N s.C < m.depth → ∃ c', c.apply? (.wide m) = some c' ∧ c'.baseCube = c.baseCube ∧
      ∀ p, c'.orientation.place p = turnOf m.axisMove (c.orientation.place p)) ∧
    (m.depth < Cube.N s.C / 2 → c.apply? (.wide m) =
      some ⟨moved c.baseCube (⟨m.depth, m.axisMove⟩ : WideAxisMove (maxDepth s.C)), c.orientation⟩) := by
  have hM : maxDepth s.C = Cube.N s.C / 2 - 1 := rfl
  constructor
  · intro h
    obtain ⟨o', ho⟩ := rotate_isSome c.orientation (AxisRotation.ofMove m.axisMove)
    refine ⟨⟨c.baseCube, o'⟩, ?_, rfl, fun p => ?_⟩
    · rw [apply_wide_beyond c m h]
      show (c.orientation.rotate? _).bind _ = _
      rw [ho]; rfl
    · rw [← C57_rotation_of_move]
      exact place_rotate ho p
  · intro h
    rw [apply_wide_shallow c m (by omega), if_pos (by omega)]

/-- `Rw` on a 6x6 -/
example (c : Orientable Cube6) : c.apply? (.wide ⟨1, ⟨Face.R, .single⟩⟩) =
    some ⟨moved c.baseCube (⟨1, ⟨Face.R, .single⟩⟩ : WideAxisMove (maxDepth Cube6)), c.orientation⟩ :=
  (C45_wide_partial ⟨Cube6⟩ c ⟨1, ⟨Face.R, .single⟩⟩).2 (by decide)

/-- **C45** is false for depths from half the size to the size: the code turns the opposite layers to depth `N - d` and rotates the cube. -/
theorem C45_deep (s : HeldSys) (hs : s ∈ heldSystems) (c : Orientable s.C) (m : WideAxisMove U32_MAX)
    (h : (Cube.N s.C + 1) / 2 < m.depth) (h' : m.depth ≤ Cube.N s.C) :
    ∃ c', c.apply? (.wide m) = some c' ∧
      c'.baseCube = moved c.baseCube (⟨Cube.N s.C - m.depth, ⟨m.face.opposite, m.amount⟩⟩ : WideAxisMove (maxDepth s.C)) ∧
      ∀ p, c'.orientation.place p = turnOf m.axisMove (c.orientation.place p) := by
  obtain ⟨h2, h7⟩ := held_size s hs
  have hu := u32_big
  have hM : maxDepth s.C = Cube.N s.C / 2 - 1 := rfl
  obtain ⟨o', ho, e⟩ := apply_wide_deep c m (by omega) (by omega) (by omega)
  refine ⟨_, e.trans (if_pos (by omega)), rfl, fun p => ?_⟩
  rw [← C57_rotation_of_move]
  exact place_rotate ho p

/-- `5Rw` on a 6x6 -/
example (c : Orientable Cube6) : ∃ c', c.apply? (.wide ⟨5, ⟨Face.R, .single⟩⟩) = some c' ∧
    c'.baseCube = moved c.baseCube (⟨1, ⟨Face.L, .single⟩⟩ : WideAxisMove (maxDepth Cube6)) := by
  obtain ⟨c', h1, h2, -⟩ := C45_deep ⟨Cube6⟩ (by simp [heldSystems]) c ⟨5, ⟨Face.R, .single⟩⟩ (by decide) (by decide)
  exact ⟨c', h1, h2⟩

theorem turn_opposite (m : AxisMove) (p : Z3) : turnOf m (turnOf ⟨m.face.opposite, m.amount⟩ p) = p := by
  have h : ∀ m : AxisMove, turnOf m (turnOf ⟨m.face.opposite, m.amount⟩ ⟨1, 0, 0⟩) = ⟨1, 0, 0⟩ ∧
      turnOf m (turnOf ⟨m.face.opposite, m.amount⟩ ⟨0, 1, 0⟩) = ⟨0, 1, 0⟩ ∧
      turnOf m (turnOf ⟨m.face.opposite, m.amount⟩ ⟨0, 0, 1⟩) = ⟨0, 0, 1⟩ := by decide +kernel
  obtain ⟨h1, h2, h3⟩ := h m
  exact ((linear_turnOf m).comp (linear_turnOf _)).congr linear_id h1 h2 h3 p

theorem normal_opposite_dot (f : Face) (p : Z3) : p.dot f.opposite.normal = -(p.dot f.normal) := by
  obtain ⟨a, d⟩ := f
  cases a <;> cases d <;> simp [Face.opposite, Direction.flip, Face.normal, Z3.dot, Z3.unit, Z3.neg]

/-- **C45** and what `C45_deep` amounts to in space: turning the opposite layers to depth `N - d` and then rotating the cube leaves each
cubie where turning `d - 1` layers would put it. A move of depth `d` is meant to turn `d + 1` layers (`wideTurn N d`). -/
theorem C45_deep_off_by_two (N d : Nat) (hd : 2 ≤ d) (hN : d ≤ N) (m : AxisMove) (p : Z3)
    (hp : (p.dot m.face.normal - (N - 1)) % 2 = 0) :
    turnOf m (wideTurn N (N - d) ⟨m.face.opposite, m.amount⟩ p) = wideTurn N (d - 2) m p := by
  have hiff : InLayers N (d - 2) m.face p ↔ ¬ InLayers N (N - d) m.face.opposite p := by
    unfold InLayers
    rw [normal_opposite_dot]
    omega
  unfold wideTurn
  by_cases h : InLayers N (N - d) m.face.opposite p
  · rw [if_pos h, if_neg (fun h' => hiff.mp h' h), turn_opposite]
  · rw [if_neg h, if_pos (hiff.mpr h)]

/-- a wing of a 6x6 in `5Rw`: what is turned is three layers less two -/
example : turnOf ⟨Face.R, .single⟩ (wideTurn 6 1 ⟨Face.L, .single⟩ ⟨-1, 5, 5⟩) = wideTurn 6 3 ⟨Face.R, .single⟩ ⟨-1, 5, 5⟩ :=
  C45_deep_off_by_two 6 5 (by decide) (by decide) ⟨Face.R, .single⟩ _ (by decide)

/-- **C45** Seen on the 3x3 (depth 3, `3Rw` as parsed): instead of a rotation of the whole cube, also L is turned. -/
theorem C45_3Rw : Parsable.parse (T := ExtendedAxisMove) asciiNumber ['3', 'R', 'w'] = .ok (.wide ⟨3, ⟨Face.R, .single⟩⟩) ∧
    ∃ c', (Orientable.new Cube3.SOLVED).apply? (.wide ⟨3, ⟨Face.R, .single⟩⟩) = some c' ∧
      c'.baseCube = moved Cube3.SOLVED (⟨Face.L, .single⟩ : AxisMove) ∧ c'.baseCube ≠ Cube3.SOLVED := by
  refine ⟨by decide +kernel, ⟨moved Cube3.SOLVED (⟨Face.L, .single⟩ : AxisMove), ⟨Face.R, .neg, .neg⟩⟩, ?_⟩
  decide +kernel

/-- **C45** is false in rotated orientations: a wide move turns the face seen (here at depth 0 on the 3x3) only if the orientation leaves that
face in its place. -/
theorem C45_ignores_orientation (o : Orientation) (m : AxisMove) :
    (∀ m' : AxisMove, m'.amount = m.amount → o.place m'.face.normal = m.face.normal →
      Orientable.apply? ⟨Cube3.SOLVED, o⟩ (.wide ⟨0, m⟩) = some ⟨moved Cube3.SOLVED m', o⟩) ↔ o.place m.face.normal = m.face.normal := by
  have e : Orientable.apply? ⟨Cube3.SOLVED, o⟩ (.wide ⟨0, m⟩) = some ⟨moved Cube3.SOLVED m, o⟩ :=
    (C45_wide_partial ⟨Cube3⟩ ⟨Cube3.SOLVED, o⟩ ⟨0, m⟩).2 (show 0 < 3 / 2 by decide)
  have inj : ∀ m m' : AxisMove, m.amount = m'.amount → moved Cube3.SOLVED m = moved Cube3.SOLVED m' → m = m' := by decide +kernel
  rw [e]
  constructor
  · intro h
    obtain ⟨g, hg⟩ := place_face_surj o m.face
    have := h ⟨g, m.amount⟩ rfl hg
    injection this with this
    injection this with this
    have := inj m ⟨g, m.amount⟩ rfl this
    rw [this]
    exact hg.trans (by rw [this])
  · intro h m' ha hn
    cases m'
    cases ha
    cases normal_inj _ _ (place_inj (hn.trans h.symm))
    rfl

/-- a depth 1 move on the 5x5 is fine, depths 2 and 3 panic, depth 4 turns three layers of the nine-coordinate line instead of five -/
example : (1 < Cube.N Cube5 / 2) ∧ (2 = Cube.N Cube5 / 2) ∧ (3 = (Cube.N Cube5 + 1) / 2) ∧
    wideTurn 5 4 ⟨Face.R, .single⟩ ⟨-2, 4, 4⟩ ≠ turnOf ⟨Face.R, .single⟩ (wideTurn 5 1 ⟨Face.L, .single⟩ ⟨-2, 4, 4⟩) := by decide

/-! ## C46: slice moves -/

/-- how deep the sides of a slice move are turned -/
def sliceDepth (C : Type) [Cube C] (isWide : Bool) : Nat := if isWide then maxDepth C else 0

theorem apply_slice {C : Type} [Cube C] [Movable C AxisMove] [Movable C (WideAxisMove (maxDepth C))] (c : Orientable C)
    (rot : AxisRotation) (w : Bool) : ∃ o', c.orientation.rotate? rot = some o' ∧
    c.apply? (.slice rot w) = some ⟨moved (moved c.baseCube
      (⟨sliceDepth C w, ⟨⟨rot.axis, .pos⟩, rot.amount.mul .neg⟩⟩ : WideAxisMove (maxDepth C)))
      (⟨sliceDepth C w, ⟨⟨rot.axis, .neg⟩, rot.amount.mul .neg⟩⟩ : WideAxisMove (maxDepth C)), o'⟩ := by
  obtain ⟨o', ho⟩ := rotate_isSome c.orientation rot
  refine ⟨o', ho, ?_⟩
  have ht : ∀ (b : C) (d : Direction), sliceTurn? rot w b d =
      some (moved b (⟨sliceDepth C w, ⟨⟨rot.axis, d⟩, rot.amount.mul .neg⟩⟩ : WideAxisMove (maxDepth C))) := by
    intro b d
    unfold sliceTurn?
    cases w
    · simp [WideAxisMove.new, sliceDepth]
    · simp [WideAxisMove.new, sliceDepth, maxDepth]
  unfold Orientable.apply?
  simp only [List.foldlM_cons, List.foldlM_nil, ht, ho, bind, Option.bind, pure]

/-- **C46** For every cube, orientation and slice move: no panic; the orientation is rotated, and both sides (of the cube itself, to the
same depth) are turned. Rotation and turn cancel on the positive side; on the negative side they do so exactly for half turns. Missing: quarter
turns, for which the claim is false. -/
theorem C46_sides_partial (s : HeldSys) (c : Orientable s.C) (rot : AxisRotation) (w : Bool) :
    ∃ (d : Nat) (m₁ m₂ : AxisMove) (c' : Orientable s.C), c.apply? (.slice rot w) = some c' ∧
      c'.baseCube = moved (moved c.baseCube (⟨d, m₁⟩ : WideAxisMove (maxDepth s.C))) (⟨d, m₂⟩ : WideAxisMove (maxDepth s.C)) ∧
      (∀ p, c'.orientation.place p = Z3.rot rot (c.orientation.place p)) ∧
      m₁.face = ⟨rot.axis, .pos⟩ ∧ m₂.face = ⟨rot.axis, .neg⟩ ∧ d = (if w then Cube.N s.C / 2 - 1 else 0) ∧
      (∀ p, Z3.rot rot (turnOf m₁ p) = p) ∧ ((∀ p, Z3.rot rot (turnOf m₂ p) = p) ↔ rot.amount = .double) := by
  obtain ⟨o', ho, h⟩ := apply_slice c rot w
  have t1 : ∀ rot : AxisRotation, Z3.rot rot (turnOf ⟨⟨rot.axis, .pos⟩, rot.amount.mul .neg⟩ ⟨1, 0, 0⟩) = ⟨1, 0, 0⟩ ∧
      Z3.rot rot (turnOf ⟨⟨rot.axis, .pos⟩, rot.amount.mul .neg⟩ ⟨0, 1, 0⟩) = ⟨0, 1, 0⟩ ∧
      Z3.rot rot (turnOf ⟨⟨rot.axis, .pos⟩, rot.amount.mul .neg⟩ ⟨0, 0, 1⟩) = ⟨0, 0, 1⟩ := by decide +kernel
  have t2 : ∀ rot : AxisRotation, (Z3.rot rot (turnOf ⟨⟨rot.axis, .neg⟩, rot.amount.mul .neg⟩ ⟨1, 0, 0⟩) = ⟨1, 0, 0⟩ ∧
      Z3.rot rot (turnOf ⟨⟨rot.axis, .neg⟩, rot.amount.mul .neg⟩ ⟨0, 1, 0⟩) = ⟨0, 1, 0⟩ ∧
      Z3.rot rot (turnOf ⟨⟨rot.axis, .neg⟩, rot.amount.mul .neg⟩ ⟨0, 0, 1⟩) = ⟨0, 0, 1⟩) ↔ rot.amount = .double := by decide +kernel
  refine ⟨_, _, _, _, h, rfl, fun p => place_rotate ho p, rfl, rfl, rfl, ?_, ?_⟩
  · obtain ⟨h1, h2, h3⟩ := t1 rot
    exact ((linear_rot rot).comp (linear_turnOf _)).congr linear_id h1 h2 h3
  · rw [← t2 rot]
    constructor
    · exact fun h => ⟨h _, h _, h _⟩
    · rintro ⟨h1, h2, h3⟩
      exact ((linear_rot rot).comp (linear_turnOf _)).congr linear_id h1 h2 h3

/-- `M2` on a 5x5 -/
example (c : Orientable Cube5) : ∃ c', c.apply? (.slice ⟨.X, .double⟩ false) = some c' := by
  obtain ⟨_, _, _, c', h, _⟩ := C46_sides_partial ⟨Cube5⟩ c ⟨.X, .double⟩ false
  exact ⟨c', h⟩

/-- the axis of the rotation is where it is on an unrotated cube (possibly upside down) -/
def Orientation.KeepsAxis (o : Orientation) (a : Axis) : Prop :=
  o.place (Z3.unit a) = Z3.unit a ∨ o.place (Z3.unit a) = (Z3.unit a).neg

instance (o : Orientation) (a : Axis) : Decidable (o.KeepsAxis a) := by unfold Orientation.KeepsAxis; infer_instance

theorem keepsAxis_coord : ∀ (a : Axis) (o : Orientation) (p : Z3), o.KeepsAxis a →
    (o.place p).coord a = p.coord a ∨ (o.place p).coord a = -p.coord a := by
  intro a o p h
  have hc : ∀ q : Z3, q.coord a = q.dot (Z3.unit a) := by
    intro q; cases a <;> simp [Z3.coord, Z3.dot, Z3.unit]
  have hn : ∀ q r : Z3, q.dot r.neg = -(q.dot r) := by intro q r; simp only [Z3.dot, Z3.neg]; ring
  rcases h with h | h
  · left; rw [hc, ← h, place_dot, ← hc]
  · right
    have : Z3.unit a = o.place (Z3.unit a).neg := by
      have : (Z3.unit a).neg = (Z3.unit a).smul (-1) := by cases a <;> rfl
      rw [this, (linear_place o).map_smul, h]; cases a <;> rfl
    rw [hc, this, place_dot, hn, ← hc]

theorem half_turn_table : ∀ (a : Axis) (o : Orientation), o.KeepsAxis a →
    Z3.rot ⟨a, .double⟩ (o.place (Z3.rot ⟨a, .double⟩ ⟨1, 0, 0⟩)) = o.place ⟨1, 0, 0⟩ ∧
    Z3.rot ⟨a, .double⟩ (o.place (Z3.rot ⟨a, .double⟩ ⟨0, 1, 0⟩)) = o.place ⟨0, 1, 0⟩ ∧
    Z3.rot ⟨a, .double⟩ (o.place (Z3.rot ⟨a, .double⟩ ⟨0, 0, 1⟩)) = o.place ⟨0, 0, 1⟩ := by decide +kernel

theorem half_turn_conj {a : Axis} {o : Orientation} (h : o.KeepsAxis a) (p : Z3) :
    Z3.rot ⟨a, .double⟩ (o.place (Z3.rot ⟨a, .double⟩ p)) = o.place p := by
  obtain ⟨h1, h2, h3⟩ := half_turn_table a o h
  exact ((linear_rot _).comp ((linear_place o).comp (linear_rot _))).congr (linear_place o) h1 h2 h3 p

theorem coord_normal (a : Axis) (d : Direction) (p : Z3) : p.dot (Face.normal ⟨a, d⟩) = d.sign * p.coord a := by
  cases a <;> cases d <;> simp [Face.normal, Z3.dot, Z3.unit, Z3.neg, Z3.coord, Direction.sign]

/-- one side of a half turn slice, on the surface of the 3x3 -/
theorem carries_half (a : Axis) (d : Direction) (t : Facelet) :
    (t.point.coord a ≠ d.sign → Facelet.Carries ⟨⟨a, d⟩, .double⟩ t t) ∧
    (t.point.coord a = d.sign → ∀ t' : Facelet, t'.point = Z3.rot ⟨a, .double⟩ t.point →
      t'.face.normal = Z3.rot ⟨a, .double⟩ t.face.normal → Facelet.Carries ⟨⟨a, d⟩, .double⟩ t t') := by
  have hl : t.InLayer ⟨⟨a, d⟩, .double⟩ ↔ t.point.coord a = d.sign := by
    unfold Facelet.InLayer
    rw [coord_normal]
    cases d <;> simp only [Direction.sign] <;> omega
  have ht : ∀ p, turnOf ⟨⟨a, d⟩, .double⟩ p = Z3.rot ⟨a, .double⟩ p := by
    intro p; rw [← C57_rotation_of_move]; cases d <;> rfl
  unfold Facelet.Carries
  constructor
  · intro h; rw [if_neg (mt hl.mp h)]
  · intro h t' h1 h2
    rw [if_pos (hl.mpr h), ht, ht]
    exact ⟨h1, h2⟩

theorem onCube_coord (t : Facelet) (h : t.OnCube) (a : Axis) : t.point.coord a = 0 ∨ t.point.coord a = 1 ∨ t.point.coord a = -1 := by
  obtain ⟨⟨h1, h2⟩, ⟨h3, h4⟩, ⟨h5, h6⟩, -⟩ := h
  cases a <;> simp only [Z3.coord] <;> omega

theorem rot_face_image : ∀ (r : AxisRotation) (f : Face), ∃ g : Face, g.normal = Z3.rot r f.normal := by decide +kernel

theorem rot_double_coord (a : Axis) (p : Z3) : (Z3.rot ⟨a, .double⟩ p).coord a = p.coord a := by
  cases a <;> simp [Z3.rot, quarterTurns, Z3.quarter, Z3.coord]

/-- where a half turn slice carries the facelets of the cube itself -/
theorem half_slice_base (c : Cube3) (hc : c.valid) (a : Axis) (t : Facelet) (ht : t.OnCube) :
    ∃ t' : Facelet, t'.OnCube ∧
      (t.point.coord a = 0 → t' = t) ∧
      (t.point.coord a ≠ 0 → t'.point = Z3.rot ⟨a, .double⟩ t.point ∧ t'.face.normal = Z3.rot ⟨a, .double⟩ t.face.normal) ∧
      ∃ col, c.shows t = some col ∧
        (moved (moved c (⟨⟨a, .pos⟩, .double⟩ : AxisMove)) (⟨⟨a, .neg⟩, .double⟩ : AxisMove)).shows t' = some col := by
  have fin : ∀ t' : Facelet, CarriesAlg [⟨⟨a, .pos⟩, .double⟩, ⟨⟨a, .neg⟩, .double⟩] t t' → t'.OnCube ∧ ∃ col, c.shows t = some col ∧
      (moved (moved c (⟨⟨a, .pos⟩, .double⟩ : AxisMove)) (⟨⟨a, .neg⟩, .double⟩ : AxisMove)).shows t' = some col := by
    intro t' h
    have e := C05_alg _ c hc t t' ht h
    rw [show movedAlg c [(⟨⟨a, .pos⟩, .double⟩ : AxisMove), ⟨⟨a, .neg⟩, .double⟩] =
      moved (moved c (⟨⟨a, .pos⟩, .double⟩ : AxisMove)) (⟨⟨a, .neg⟩, .double⟩ : AxisMove) from rfl] at e
    refine ⟨?_, e⟩
    obtain ⟨u, h1, v, h2, rfl⟩ := h
    exact carries_onCube _ _ _ (carries_onCube _ _ _ ht h1) h2
  rcases onCube_coord t ht a with h | h | h
  · obtain ⟨h1, h2⟩ := fin t ⟨t, (carries_half a .pos t).1 (by rw [h]; decide), t, (carries_half a .neg t).1 (by rw [h]; decide), rfl⟩
    exact ⟨t, h1, fun _ => rfl, fun h' => absurd h h', h2⟩
  · obtain ⟨g, hg⟩ := rot_face_image ⟨a, .double⟩ t.face
    let t' : Facelet := ⟨Z3.rot ⟨a, .double⟩ t.point, g⟩
    have hco : t'.point.coord a = 1 := by rw [show t'.point = _ from rfl, rot_double_coord, h]
    obtain ⟨h1, h2⟩ := fin t' ⟨t', (carries_half a .pos t).2 h t' rfl hg, t', (carries_half a .neg t').1 (by rw [hco]; decide), rfl⟩
    exact ⟨t', h1, fun h' => by omega, fun _ => ⟨rfl, hg⟩, h2⟩
  · obtain ⟨g, hg⟩ := rot_face_image ⟨a, .double⟩ t.face
    let t' : Facelet := ⟨Z3.rot ⟨a, .double⟩ t.point, g⟩
    obtain ⟨h1, h2⟩ := fin t' ⟨t, (carries_half a .pos t).1 (by rw [h]; decide), t', (carries_half a .neg t).2 h t' rfl hg, rfl⟩
    exact ⟨t', h1, fun h' => by omega, fun _ => ⟨rfl, hg⟩, h2⟩

/-- **C46** Seen by the holder of a 3x3: half turn slices do what they should if the axis is in place. Missing: everything else, for
which it is false (`C46_only_half_turns`). -/
theorem C46_picture_partial (c : Orientable Cube3) (hc : c.baseCube.valid) (a : Axis) (ho : c.orientation.KeepsAxis a) (w : Bool) :
    ∃ c', c.apply? (.slice ⟨a, .double⟩ w) = some c' ∧
      ∀ s s', s.OnCube → Facelet.CarriesSlice ⟨a, .double⟩ s s' → ∃ col, c.Sees s col ∧ c'.Sees s' col := by
  obtain ⟨o', ho', h⟩ := apply_slice c ⟨a, .double⟩ w
  refine ⟨_, h, fun s s' hs hcar => ?_⟩
  obtain ⟨t, ht⟩ := seenAt_exists c.orientation s
  have hon := (seenAt_onCube ht).mp hs
  obtain ⟨t', hon', hz, hnz, col, e1, e2⟩ := half_slice_base c.baseCube hc a t hon
  have hcoord : s.point.coord a = 0 ↔ t.point.coord a = 0 := by
    rw [ht.1]
    rcases keepsAxis_coord a c.orientation t.point ho with h | h <;> omega
  refine ⟨col, ⟨t, hon, ht, e1⟩, ⟨t', hon', ?_, e2⟩⟩
  show s'.point = o'.place t'.point ∧ s'.face.normal = o'.place t'.face.normal
  rw [place_rotate ho', place_rotate ho']
  unfold Facelet.CarriesSlice at hcar
  by_cases h0 : t.point.coord a = 0
  · rw [if_pos (hcoord.mpr h0)] at hcar
    rw [hz h0, ← ht.1, ← ht.2]
    exact hcar
  · rw [if_neg (mt hcoord.mp h0)] at hcar
    obtain ⟨h1, h2⟩ := hnz h0
    rw [hcar, h1, h2, half_turn_conj ho, half_turn_conj ho]
    exact ht

/-- `M2` on a scrambled cube -/
example : ∃ c', Orientable.apply? ⟨movedAlg Cube3.SOLVED Perms.SEXY_MOVE, Orientation.default⟩ (.slice ⟨.X, .double⟩ false) = some c' ∧
    ∀ s s', s.OnCube → Facelet.CarriesSlice ⟨.X, .double⟩ s s' →
      ∃ col, Orientable.Sees ⟨movedAlg Cube3.SOLVED Perms.SEXY_MOVE, Orientation.default⟩ s col ∧ c'.Sees s' col :=
  C46_picture_partial _ (C08_cubes.2.1 _ _ C08_solved_valid.2.1) .X (by unfold Orientation.KeepsAxis; decide) false

/-! The converse, by a table over the 24 orientations and nine rotations: a place where the picture of the solved cube goes wrong. -/

/-- the face with a given normal -/
def faceOf (p : Z3) : Face :=
  if p = Face.R.normal then .R else if p = Face.U.normal then .U else if p = Face.F.normal then .F
  else if p = Face.L.normal then .L else if p = Face.D.normal then .D else .B

/-- a facelet moved by a map of space -/
def Facelet.image (f : Z3 → Z3) (t : Facelet) : Facelet := ⟨f t.point, faceOf (f t.face.normal)⟩

/-- a facelet moved by a turn -/
def Facelet.turned (m : AxisMove) (t : Facelet) : Facelet := if t.InLayer m then t.image (turnOf m) else t

/-- what goes wrong for facelet `t`: it is seen at `s`, and should be seen at `s'` after the move, but `t'` with the colour of `t₀` is -/
def sliceWrong (o : Orientation) (rot : AxisRotation) (t : Facelet) : Bool :=
  let m₁ : AxisMove := ⟨⟨rot.axis, .pos⟩, rot.amount.mul .neg⟩
  let m₂ : AxisMove := ⟨⟨rot.axis, .neg⟩, rot.amount.mul .neg⟩
  let s := t.image o.place
  let s' := if s.point.coord rot.axis = 0 then s.image (Z3.rot rot) else s
  let t' := s'.image fun p => o.unplace (Z3.rot rot.inverse p)
  let t₁ := t'.turned (Move.inverse m₂)
  let t₀ := t₁.turned (Move.inverse m₁)
  decide (Facelet.SeenAt o t s ∧ Facelet.CarriesSlice rot s s' ∧
    (s'.point = Z3.rot rot (o.place t'.point) ∧ s'.face.normal = Z3.rot rot (o.place t'.face.normal)) ∧
    Facelet.Carries m₁ t₀ t₁ ∧ Facelet.Carries m₂ t₁ t' ∧ t₀.OnCube ∧ t₀.face ≠ t.face)

theorem slice_table : ∀ (o : Orientation) (rot : AxisRotation), ¬ (rot.amount = .double ∧ o.KeepsAxis rot.axis) →
    (Facelet.all.any fun t => sliceWrong o rot t) = true := by decide +kernel

/-- **C46** is false for all other slice moves: whenever the amount is a quarter turn or the axis is not in place, the holder of a solved
3x3 sees a wrong colour somewhere after the move. -/
theorem C46_only_half_turns (o : Orientation) (rot : AxisRotation) (w : Bool) :
    (∃ c', Orientable.apply? ⟨Cube3.SOLVED, o⟩ (.slice rot w) = some c' ∧
      ∀ s s', s.OnCube → Facelet.CarriesSlice rot s s' → ∃ col, Orientable.Sees ⟨Cube3.SOLVED, o⟩ s col ∧ c'.Sees s' col) ↔
    rot.amount = .double ∧ o.KeepsAxis rot.axis := by
  have hv : Cube3.SOLVED.valid := C08_solved_valid.2.1
  constructor
  · rintro ⟨c', h, hall⟩
    by_contra hn
    obtain ⟨t, ht, hw⟩ := List.any_eq_true.mp (slice_table o rot hn)
    obtain ⟨o', ho', h'⟩ := apply_slice (⟨Cube3.SOLVED, o⟩ : Orientable Cube3) rot w
    cases h.symm.trans h'
    simp only [sliceWrong, decide_eq_true_eq] at hw
    obtain ⟨hs, hcar, hs', hc1, hc2, hon0, hne⟩ := hw
    have hton := (Facelet.mem_all t).mp ht
    obtain ⟨col, ⟨u, hu, hsu, eu⟩, ⟨u', hu', hsu', eu'⟩⟩ := hall _ _ ((seenAt_onCube hs).mpr hton) hcar
    have e1 := seenAt_unique hsu hs
    have e2 := seenAt_unique hsu' (t' := _) (show Facelet.SeenAt o' _ _ by
      unfold Facelet.SeenAt
      rw [place_rotate ho', place_rotate ho']
      exact hs')
    subst e1
    rw [e2] at eu'
    obtain ⟨col', f1, f2⟩ := C05_move Cube3.SOLVED hv _ _ _ hon0 hc1
    obtain ⟨col'', g1, g2⟩ := C05_move (moved Cube3.SOLVED (⟨⟨rot.axis, .pos⟩, rot.amount.mul .neg⟩ : AxisMove))
      (C08_cubes.2.1 _ [_] hv) _ _ _ (carries_onCube _ _ _ hon0 hc1) hc2
    have hsol := (C18_facelets Cube3.SOLVED hv).mp (by decide)
    rw [hsol _ hon0] at f1
    rw [hsol _ hton] at eu
    rw [f2] at g1
    cases g2.symm.trans eu'
    apply hne
    have := f1.trans (g1.trans eu.symm)
    injection this with this
    injection this
  · rintro ⟨ha, hk⟩
    obtain ⟨a, x⟩ := rot
    cases ha
    exact C46_picture_partial ⟨Cube3.SOLVED, o⟩ hv a hk w

/-- `M2` is right on a cube held in the default way, `M` is not -/
example : ¬ ∃ c', Orientable.apply? ⟨Cube3.SOLVED, Orientation.default⟩ (.slice ⟨.X, .single⟩ false) = some c' ∧
      ∀ s s', s.OnCube → Facelet.CarriesSlice ⟨.X, .single⟩ s s' →
        ∃ col, Orientable.Sees ⟨Cube3.SOLVED, Orientation.default⟩ s col ∧ c'.Sees s' col :=
  fun h => absurd ((C46_only_half_turns _ _ _).1 h).1 (by decide)

/-- **C46** in particular: `M` (that is `x'` with both sides turned) turns the left side twice instead of leaving it. -/
theorem C46_M : Parsable.parse (T := ExtendedAxisMove) asciiNumber ['M'] = .ok (.slice ⟨.X, .inverse⟩ false) ∧
    ∃ c', (Orientable.new Cube3.SOLVED).apply? (.slice ⟨.X, .inverse⟩ false) = some c' ∧
      c'.baseCube = movedAlg Cube3.SOLVED [(⟨Face.R, .single⟩ : AxisMove), ⟨Face.L, .single⟩] ∧
      c'.baseCube ≠ movedAlg Cube3.SOLVED [(⟨Face.R, .single⟩ : AxisMove), ⟨Face.L, .inverse⟩] := by
  refine ⟨by decide +kernel, ⟨movedAlg Cube3.SOLVED [(⟨Face.R, .single⟩ : AxisMove), ⟨Face.L, .single⟩], ⟨Face.R, .neg, .pos⟩⟩, ?_⟩
  decide +kernel

/-- the axis is in place after `y2` for every axis, after `y` for one -/
example : (∃ o, Orientation.default.rotate? ⟨.Y, .double⟩ = some o ∧ ∀ a, o.KeepsAxis a) ∧
    ∃ o, Orientation.default.rotate? ⟨.Y, .single⟩ = some o ∧ ∀ a, o.KeepsAxis a ↔ a = .Y := by decide +kernel

/-! ## C50: undoing -/

theorem wide0_laws {C : Type} [Cube C] [Movable C AxisMove] (h : TurnLaws (axisAct C)) : TurnLaws (wideAct C 0) :=
  h.comap fun _ => ()

theorem rotated_inverse (rs : List AxisRotation) (m : AxisMove) :
    rs.foldl AxisMove.rotated (Move.inverse m) = Move.inverse (rs.foldl AxisMove.rotated m) := by
  rw [foldl_rotated, foldl_rotated]; rfl

theorem ofMove_inverse : ∀ m : AxisMove, AxisRotation.ofMove (Move.inverse m) = (AxisRotation.ofMove m).inverse := by decide

theorem mul_neg_neg : ∀ x : Amount, (x.mul .neg).mul .neg = x := by decide

theorem extended_undo {C : Type} [Cube C] [Movable C AxisMove] [Movable C (WideAxisMove (maxDepth C))] (hN : Cube.N C ≤ U32_MAX)
    (h : TurnLaws (axisAct C)) (hw : TurnLaws (wideAct C (maxDepth C))) (c c' : Orientable C) (m : ExtendedAxisMove)
    (e : c.apply? m = some c') : c'.apply? (Move.inverse m) = some c := by
  obtain ⟨b, o⟩ := c
  cases m with
  | regular m =>
    obtain ⟨rs, hr, -⟩ := C48_rotations_partial o
    replace e : Orientable.moved? ⟨b, o⟩ m = some c' := e
    show Orientable.moved? c' (Move.inverse m) = some ⟨b, o⟩
    rw [moved?_eq b o rs hr] at e
    cases e
    rw [moved?_eq _ o rs hr]
    exact congrArg some (congrArg (Orientable.mk · o) (axis_undo h b ⟨_, _⟩))
  | rotation r =>
    obtain ⟨o', ho⟩ := rotate_isSome o r
    have e1 : Orientable.apply? (⟨b, o⟩ : Orientable C) (.rotation r) = some ⟨b, o'⟩ := by
      show (o.rotate? r).bind _ = _; rw [ho]; rfl
    cases e.symm.trans e1
    show (o'.rotate? r.inverse).bind _ = _
    rw [rotate_undo ho]; rfl
  | wide m =>
    by_cases hb : Cube.N C < m.depth
    · obtain ⟨o', ho⟩ := rotate_isSome o (AxisRotation.ofMove m.axisMove)
      have e1 : Orientable.apply? (⟨b, o⟩ : Orientable C) (.wide m) = some ⟨b, o'⟩ := by
        rw [apply_wide_beyond _ m hb]
        show (o.rotate? _).bind _ = _; rw [ho]; rfl
      cases e.symm.trans e1
      show Orientable.apply? _ (.wide (Move.inverse m)) = _
      rw [apply_wide_beyond _ (Move.inverse m) hb]
      show (o'.rotate? (AxisRotation.ofMove (Move.inverse m.axisMove))).bind _ = _
      rw [ofMove_inverse, rotate_undo ho]; rfl
    · show c'.apply? (.wide (Move.inverse m)) = _
      by_cases hs : 2 * m.depth < Cube.N C
      · rw [apply_wide_shallow _ m hs] at e
        by_cases hd : m.depth ≤ maxDepth C
        · rw [if_pos hd] at e
          cases e
          rw [apply_wide_shallow _ (Move.inverse m) hs]
          rw [if_pos (show (Move.inverse m).depth ≤ maxDepth C from hd)]
          exact congrArg some (congrArg (Orientable.mk · o) (wide_undo hw b ⟨_, _⟩))
        · rw [if_neg hd] at e; cases e
      · obtain ⟨o', ho, h1⟩ := apply_wide_deep (⟨b, o⟩ : Orientable C) m hN (by omega) (by omega)
        rw [h1] at e
        by_cases hd : Cube.N C - m.depth ≤ maxDepth C
        · rw [if_pos hd] at e
          cases e
          obtain ⟨o'', ho'', h2⟩ := apply_wide_deep (⟨moved b (⟨Cube.N C - m.depth, ⟨m.face.opposite, m.amount⟩⟩ :
            WideAxisMove (maxDepth C)), o'⟩ : Orientable C) (Move.inverse m) hN (show Cube.N C ≤ 2 * m.depth by omega)
            (show m.depth ≤ Cube.N C by omega)
          rw [h2, if_pos (show Cube.N C - (Move.inverse m).depth ≤ maxDepth C from hd)]
          have : o'' = o := by
            replace ho'' : o'.rotate? (AxisRotation.ofMove (Move.inverse m.axisMove)) = some o'' := ho''
            rw [ofMove_inverse, rotate_undo ho] at ho''
            exact (Option.some.inj ho'').symm
          rw [this]
          exact congrArg some (congrArg (Orientable.mk · o) (wide_undo hw b
            (⟨Cube.N C - m.depth, ⟨m.face.opposite, m.amount⟩⟩ : WideAxisMove (maxDepth C))))
        · rw [if_neg hd] at e; cases e
  | slice rot w =>
    obtain ⟨o', ho, h1⟩ := apply_slice (⟨b, o⟩ : Orientable C) rot w
    rw [h1] at e
    cases e
    show Orientable.apply? _ (.slice rot.inverse w) = _
    obtain ⟨o'', ho'', h2⟩ := apply_slice (⟨moved (moved b
      (⟨sliceDepth C w, ⟨⟨rot.axis, .pos⟩, rot.amount.mul .neg⟩⟩ : WideAxisMove (maxDepth C)))
      (⟨sliceDepth C w, ⟨⟨rot.axis, .neg⟩, rot.amount.mul .neg⟩⟩ : WideAxisMove (maxDepth C)), o'⟩ : Orientable C) rot.inverse w
    rw [h2]
    have : o'' = o := by
      replace ho'' : o'.rotate? rot.inverse = some o'' := ho''
      rw [rotate_undo ho] at ho''
      exact (Option.some.inj ho'').symm
    rw [this]
    refine congrArg some (congrArg (Orientable.mk · o) ?_)
    show wideAct C (maxDepth C) (wideAct C (maxDepth C) (wideAct C (maxDepth C) (wideAct C (maxDepth C) b (sliceDepth C w)
      ⟨rot.axis, .pos⟩ (rot.amount.mul .neg)) (sliceDepth C w) ⟨rot.axis, .neg⟩ (rot.amount.mul .neg)) (sliceDepth C w)
      ⟨rot.axis, .pos⟩ ((rot.amount.mul .neg).mul .neg)) (sliceDepth C w) ⟨rot.axis, .neg⟩ ((rot.amount.mul .neg).mul .neg) = b
    rw [hw.comm _ _ _ rot.axis .neg .pos, hw.undo, hw.undo]

/-- **C50** On every cube and in every orientation: if an extended move does not panic, its inverse does not panic afterwards and restores
cube and orientation. -/
theorem C50_undo : ∀ s ∈ heldSystems, ∀ (c c' : Orientable s.C) (m : ExtendedAxisMove), c.apply? m = some c' →
    c'.apply? (Move.inverse m) = some c := by
  have hu := u32_big
  have big : ∀ s ∈ heldSystems, Cube.N s.C ≤ U32_MAX := fun s hs => by have := held_size s hs; omega
  intro s hs
  have hN := big s hs
  revert s
  simp only [heldSystems, List.forall_mem_cons, List.not_mem_nil, false_imp_iff, implies_true, and_true]
  exact ⟨fun hN => extended_undo hN cube2_laws (wide0_laws cube2_laws), fun hN => extended_undo hN cube3_laws (wide0_laws cube3_laws),
    fun hN => extended_undo hN cube4_axis_laws cube4_laws, fun hN => extended_undo hN cube5_axis_laws cube5_laws,
    fun hN => extended_undo hN cube6_axis_laws cube6_laws, fun hN => extended_undo hN cube7_axis_laws cube7_laws⟩

/-- a slice move of a 5x5 and its inverse -/
example (c c' : Orientable Cube5) (h : c.apply? (.slice ⟨.X, .single⟩ true) = some c') : c'.apply? (.slice ⟨.X, .inverse⟩ true) = some c :=
  C50_undo ⟨Cube5⟩ (by simp [heldSystems]) c c' _ h

/-- **C50** Also for algs of every length (`Alg::reversed`). -/
theorem C50_undo_alg (s : HeldSys) (hs : s ∈ heldSystems) (alg : List ExtendedAxisMove) (c c' : Orientable s.C)
    (h : c.applyAlg? alg = some c') : c'.applyAlg? (reversed alg) = some c := by
  induction alg generalizing c with
  | nil => cases h; rfl
  | cons m l ih =>
    unfold Orientable.applyAlg? at h
    rw [List.foldlM_cons] at h
    cases e : c.apply? m with
    | none => rw [e] at h; cases h
    | some c₁ =>
      rw [e] at h
      have h1 := ih c₁ h
      have : reversed (m :: l) = reversed l ++ [Move.inverse m] := by simp [reversed]
      unfold Orientable.applyAlg? at h1 ⊢
      rw [this, List.foldlM_append, h1]
      show (c₁.apply? (Move.inverse m)).bind _ = _
      rw [C50_undo s hs c c₁ m e]; rfl

/-- the hypothesis is met by an alg with a rotation, a slice, a face turn and a deep wide move -/
example : ((Orientable.new (Cube.SOLVED : Cube4)).applyAlg?
    [.rotation ⟨.Y, .single⟩, .slice ⟨.X, .inverse⟩ true, .regular ⟨Face.R, .single⟩, .wide ⟨3, ⟨Face.U, .inverse⟩⟩]).isSome = true := by
  decide +kernel

/-! ## C61: solved in the hand -/

/-- **C61** `is_solved` of a cube in an orientation holds exactly for the solved cube in the default orientation. -/
theorem C61_is_solved_partial {C : Type} [Cube C] [DecidableEq C] (c : Orientable C) :
    c.isSolved = true ↔ c.baseCube = Cube.SOLVED ∧ c.orientation.rFace = Face.R ∧ c.orientation.uFace = Face.U := by
  have ho : ∀ o : Orientation, o = Orientation.default ↔ o.rFace = Face.R ∧ o.uFace = Face.U := by decide +kernel
  unfold Orientable.isSolved
  rw [decide_eq_true_iff, Orientable.ext_iff, ← ho]
  rfl

/-- a solved cube held with another face up is not solved -/
example : ¬ (⟨Cube3.SOLVED, ⟨Face.R, .neg, .pos⟩⟩ : Orientable Cube3).isSolved = true :=
  fun h => absurd ((C61_is_solved_partial _).1 h).2.2 (by decide)

/-- **C61** is false: turning a solved cube round (by any rotation) makes `is_solved` false, although the 3x3 still shows one colour on each
face. -/
theorem C61_rotated_unsolved (r : AxisRotation) :
    ∃ c, (Orientable.new Cube3.SOLVED).apply? (.rotation r) = some c ∧ c.isSolved = false ∧
      ∀ s s' col col', s.OnCube → s'.OnCube → s.face = s'.face → c.Sees s col → c.Sees s' col' → col = col' := by
  have ht : ∀ r : AxisRotation, ∃ o, Orientation.default.rotate? r = some o ∧ o ≠ Orientation.default := by decide +kernel
  obtain ⟨o, ho, hne⟩ := ht r
  refine ⟨⟨Cube3.SOLVED, o⟩, ?_, ?_, ?_⟩
  · show (Orientation.default.rotate? r).bind _ = _
    rw [ho]; rfl
  · unfold Orientable.isSolved
    rw [decide_eq_false_iff_not]
    intro h
    exact hne (congrArg Orientable.orientation h)
  · rintro s s' col col' - - hf ⟨t, ht, hst, e⟩ ⟨t', ht', hst', e'⟩
    have hsol := (C18_facelets Cube3.SOLVED C08_solved_valid.2.1).mp (by decide)
    rw [hsol _ ht] at e
    rw [hsol _ ht'] at e'
    have : t.face = t'.face := normal_inj _ _ (place_inj (by rw [← hst.2, ← hst'.2, hf]))
    rw [this] at e
    exact Option.some.inj (e.symm.trans e')

example : (Orientable.SOLVED Cube3).isSolved = true := by decide +kernel

end Barbarosa
