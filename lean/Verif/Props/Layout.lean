import Verif.Props.Stickers
import Mathlib.Tactic.Ring
import Mathlib.Tactic.Linarith

/-!
# Where the squares of the net are printed

The text that `Display` writes, as a grid: which cell is in which line and column. `cube_n/visualization/unfolded/mod.rs:130-145`
documents the net, `196-243` prints it.
-/

namespace Barbarosa

/-! ## Specification -/

/-- The lines of a text, what comes after the last line feed included -/
def tokLines : List Tok → List (List Tok)
  | [] => [[]]
  | .newline :: ts => [] :: tokLines ts
  | t :: ts =>
    match tokLines ts with
    | [] => [[t]]
    | l :: ls => (t :: l) :: ls

/-- What is printed in line `r`, column `c` (both from 0; a column is two characters wide) -/
def printedAt (ts : List Tok) (r c : Nat) : Option Tok :=
  match (tokLines ts)[r]? with
  | none => none
  | some l => l[c]?

/-- Row and column of a face in the net that is printed:
```text
  U
L F R
  D
  B
``` -/
def netPlace : Face → Nat × Nat
  | ⟨.Y, .pos⟩ => (0, 1)
  | ⟨.X, .neg⟩ => (1, 0)
  | ⟨.Z, .pos⟩ => (1, 1)
  | ⟨.X, .pos⟩ => (1, 2)
  | ⟨.Y, .neg⟩ => (2, 1)
  | ⟨.Z, .neg⟩ => (3, 1)

/-- The net in the documentation, `cube_n/visualization/unfolded/mod.rs:134-139`, has `R F L` in its second line -/
def documentedPlace : Face → Nat × Nat
  | ⟨.Y, .pos⟩ => (0, 1)
  | ⟨.X, .pos⟩ => (1, 0)
  | ⟨.Z, .pos⟩ => (1, 1)
  | ⟨.X, .neg⟩ => (1, 2)
  | ⟨.Y, .neg⟩ => (2, 1)
  | ⟨.Z, .neg⟩ => (3, 1)

/-- Line and column where a facelet of a 3x3 is printed, from its coordinates: like the paper net of a cube, with F in front and
every other square folded away from it (B is hinged at D, so it is upside down) -/
def netCell (s : Facelet) : Int × Int :=
  match s.face with
  | ⟨.Y, .pos⟩ => (s.point.z + 1, 4 + (s.point.x + 1))
  | ⟨.Z, .pos⟩ => (4 + (1 - s.point.y), 4 + (s.point.x + 1))
  | ⟨.Y, .neg⟩ => (8 + (1 - s.point.z), 4 + (s.point.x + 1))
  | ⟨.Z, .neg⟩ => (12 + (s.point.y + 1), 4 + (s.point.x + 1))
  | ⟨.X, .neg⟩ => (4 + (1 - s.point.y), s.point.z + 1)
  | ⟨.X, .pos⟩ => (4 + (1 - s.point.y), 8 + (1 - s.point.z))

/-- The picture is printed in the places given: squares of side `N` with one empty line or column between them, each with its
first row on top and its first column on the left, and no other coloured cells -/
def PrintedBy {N : Nat} (u : Unfolded N) (place : Face → Nat × Nat) : Prop :=
  ∀ (r c : Nat) (col : Color), printedAt u.write r c = some (.cell col) ↔
    ∃ (f : Face) (i j : Fin N), r = (place f).1 * (N + 1) + i ∧ c = (place f).2 * (N + 1) + j ∧ u.square f i j = col

/-! ## Lines -/

theorem tokLines_ne_nil (ts : List Tok) : tokLines ts ≠ [] := by
  cases ts with
  | nil => simp [tokLines]
  | cons t ts => cases t <;> simp only [tokLines] <;> first | exact List.cons_ne_nil _ _ | (split <;> exact List.cons_ne_nil _ _)

theorem tokLines_append (l rest : List Tok) (h : Tok.newline ∉ l) :
    tokLines (l ++ .newline :: rest) = l :: tokLines rest := by
  induction l with
  | nil => rfl
  | cons t l ih =>
    rw [List.mem_cons, not_or] at h
    cases t with
    | newline => exact absurd rfl h.1
    | cell c => simp only [List.cons_append, tokLines, ih h.2]
    | gap => simp only [List.cons_append, tokLines, ih h.2]

theorem tokLines_flatMap {α : Type} (xs : List α) (g : α → List Tok) (h : ∀ x, Tok.newline ∉ g x) (rest : List Tok) :
    tokLines (xs.flatMap (fun x => g x ++ [.newline]) ++ rest) = xs.map g ++ tokLines rest := by
  induction xs with
  | nil => rfl
  | cons x xs ih =>
    simp only [List.flatMap_cons, List.append_assoc, List.map_cons, List.cons_append, List.nil_append]
    rw [tokLines_append _ _ (h x), ih]

/-- One line of a square with blanks in front -/
def padLine {N : Nat} (s : Square N) (i : Fin N) : List Tok := List.replicate (N + 1) .gap ++ s.rowToks i

/-- One line of the middle of the net -/
def midLine {N : Nat} (u : Unfolded N) (i : Fin N) : List Tok :=
  (u.square .L).rowToks i ++ [.gap] ++ (u.square .F).rowToks i ++ [.gap] ++ (u.square .R).rowToks i

theorem newline_not_row {N : Nat} (s : Square N) (i : Fin N) : Tok.newline ∉ s.rowToks i := by
  simp [Square.rowToks]

theorem newline_not_pad {N : Nat} (s : Square N) (i : Fin N) : Tok.newline ∉ padLine s i := by
  simp [padLine, newline_not_row, List.mem_replicate]

theorem newline_not_mid {N : Nat} (u : Unfolded N) (i : Fin N) : Tok.newline ∉ midLine u i := by
  simp [midLine, newline_not_row]

theorem tokLines_write {N : Nat} (u : Unfolded N) :
    tokLines u.write =
      (List.finRange N).map (padLine (u.square .U)) ++ [] :: ((List.finRange N).map (midLine u) ++
        [] :: ((List.finRange N).map (padLine (u.square .D)) ++ [] :: ((List.finRange N).map (padLine (u.square .B)) ++
          [[], []]))) := by
  have hw : u.write =
      (List.finRange N).flatMap (fun i => padLine (u.square .U) i ++ [.newline]) ++ (.newline ::
        ((List.finRange N).flatMap (fun i => midLine u i ++ [.newline]) ++ (.newline ::
          ((List.finRange N).flatMap (fun i => padLine (u.square .D) i ++ [.newline]) ++ (.newline ::
            ((List.finRange N).flatMap (fun i => padLine (u.square .B) i ++ [.newline]) ++ [.newline])))))) := by
    simp [Unfolded.write, Square.write, padLine, midLine]
  rw [hw, tokLines_flatMap _ _ (newline_not_pad _)]
  show _ ++ [] :: tokLines _ = _
  rw [tokLines_flatMap _ _ (newline_not_mid _)]
  show _ ++ [] :: (_ ++ [] :: tokLines _) = _
  rw [tokLines_flatMap _ _ (newline_not_pad _)]
  show _ ++ [] :: (_ ++ [] :: (_ ++ [] :: tokLines _)) = _
  rw [tokLines_flatMap _ _ (newline_not_pad _)]
  rfl

/-- Looking up line `r`, column `c` in a list of lines -/
def inLines (ls : List (List Tok)) (r c : Nat) : Option Tok :=
  match ls[r]? with
  | none => none
  | some l => l[c]?

theorem printedAt_eq (ts : List Tok) (r c : Nat) : printedAt ts r c = inLines (tokLines ts) r c := rfl

theorem inLines_block {N : Nat} (g : Fin N → List Tok) (rest : List (List Tok)) (r c : Nat) (t : Tok) :
    inLines ((List.finRange N).map g ++ [] :: rest) r c = some t ↔
      (∃ i : Fin N, r = i ∧ (g i)[c]? = some t) ∨ ∃ r', r = (N + 1) + r' ∧ inLines rest r' c = some t := by
  unfold inLines
  rcases Nat.lt_trichotomy r N with h | h | h
  · have : ((List.finRange N).map g ++ [] :: rest)[r]? = some (g ⟨r, h⟩) := by
      rw [List.getElem?_append_left (by simpa using h), List.getElem?_map,
        List.getElem?_eq_getElem (by simpa using h)]
      simp
    rw [this]
    constructor
    · exact fun e => Or.inl ⟨⟨r, h⟩, rfl, e⟩
    · rintro (⟨i, rfl, e⟩ | ⟨r', e, -⟩)
      · exact e
      · omega
  · subst h
    have : ((List.finRange r).map g ++ [] :: rest)[r]? = some [] := by
      rw [List.getElem?_append_right (by simp)]
      simp
    rw [this]
    constructor
    · intro e
      simp at e
    · rintro (⟨i, e, -⟩ | ⟨r', e, -⟩)
      · exact absurd i.isLt (by omega)
      · omega
  · obtain ⟨k, rfl⟩ : ∃ k, r = (N + 1) + k := ⟨r - (N + 1), by omega⟩
    have : ((List.finRange N).map g ++ [] :: rest)[N + 1 + k]? = rest[k]? := by
      rw [List.getElem?_append_right (by simp; omega)]
      have : N + 1 + k - ((List.finRange N).map g).length = k + 1 := by simp; omega
      rw [this, List.getElem?_cons_succ]
    rw [this]
    constructor
    · exact fun e => Or.inr ⟨k, rfl, e⟩
    · rintro (⟨i, e, -⟩ | ⟨r', e, e'⟩)
      · exact absurd i.isLt (by omega)
      · obtain rfl : k = r' := by omega
        exact e'

theorem rowToks_cell {N : Nat} (s : Square N) (i : Fin N) (c : Nat) (col : Color) :
    (s.rowToks i)[c]? = some (.cell col) ↔ ∃ j : Fin N, c = j ∧ s i j = col := by
  unfold Square.rowToks
  rw [List.getElem?_map, Option.map_eq_some_iff]
  constructor
  · rintro ⟨j, hj, e⟩
    rw [List.getElem?_eq_some_iff] at hj
    obtain ⟨h, e'⟩ := hj
    refine ⟨j, ?_, Tok.cell.inj e⟩
    rw [← e']
    simp
  · rintro ⟨j, rfl, rfl⟩
    exact ⟨j, by rw [List.getElem?_eq_some_iff]; exact ⟨by simp, by simp⟩, rfl⟩

theorem rowToks_gap {N : Nat} (s : Square N) (i : Fin N) (rest : List Tok) (c : Nat) (col : Color) :
    (s.rowToks i ++ .gap :: rest)[c]? = some (.cell col) ↔
      (∃ j : Fin N, c = j ∧ s i j = col) ∨ ∃ c', c = (N + 1) + c' ∧ rest[c']? = some (.cell col) := by
  have hl : (s.rowToks i).length = N := by simp [Square.rowToks]
  rcases Nat.lt_trichotomy c N with h | h | h
  · rw [List.getElem?_append_left (by omega), rowToks_cell]
    constructor
    · exact Or.inl
    · rintro (e | ⟨c', e, -⟩)
      · exact e
      · omega
  · rw [List.getElem?_append_right (by omega), hl, h, Nat.sub_self, List.getElem?_cons_zero]
    constructor
    · intro e
      exact absurd (Option.some.inj e) (by simp)
    · rintro (⟨j, e, -⟩ | ⟨c', e, -⟩)
      · exact absurd j.isLt (by omega)
      · omega
  · obtain ⟨k, rfl⟩ : ∃ k, c = (N + 1) + k := ⟨c - (N + 1), by omega⟩
    rw [List.getElem?_append_right (by omega), hl, show N + 1 + k - N = k + 1 by omega, List.getElem?_cons_succ]
    constructor
    · exact fun e => Or.inr ⟨k, rfl, e⟩
    · rintro (⟨j, e, -⟩ | ⟨c', e, e'⟩)
      · exact absurd j.isLt (by omega)
      · obtain rfl : k = c' := by omega
        exact e'

theorem padLine_cell {N : Nat} (s : Square N) (i : Fin N) (c : Nat) (col : Color) :
    (padLine s i)[c]? = some (.cell col) ↔ ∃ j : Fin N, c = (N + 1) + j ∧ s i j = col := by
  unfold padLine
  rcases Nat.lt_or_ge c (N + 1) with h | h
  · rw [List.getElem?_append_left (by simpa using h), List.getElem?_replicate, if_pos h]
    constructor
    · intro e
      exact absurd (Option.some.inj e) (by simp)
    · rintro ⟨j, e, -⟩
      omega
  · obtain ⟨k, rfl⟩ : ∃ k, c = (N + 1) + k := ⟨c - (N + 1), by omega⟩
    rw [List.getElem?_append_right (by simp), List.length_replicate, Nat.add_sub_cancel_left, rowToks_cell]
    constructor
    · rintro ⟨j, rfl, e⟩
      exact ⟨j, rfl, e⟩
    · rintro ⟨j, e, e'⟩
      exact ⟨j, by omega, e'⟩

theorem midLine_cell {N : Nat} (u : Unfolded N) (i : Fin N) (c : Nat) (col : Color) :
    (midLine u i)[c]? = some (.cell col) ↔
      (∃ j : Fin N, c = j ∧ u.square .L i j = col) ∨ (∃ j : Fin N, c = (N + 1) + j ∧ u.square .F i j = col) ∨
        ∃ j : Fin N, c = 2 * (N + 1) + j ∧ u.square .R i j = col := by
  have : midLine u i = (u.square .L).rowToks i ++ .gap :: ((u.square .F).rowToks i ++ .gap :: (u.square .R).rowToks i) := by
    simp [midLine]
  rw [this, rowToks_gap]
  constructor
  · rintro (h | ⟨c', rfl, h⟩)
    · exact Or.inl h
    · rw [rowToks_gap] at h
      rcases h with ⟨j, rfl, e⟩ | ⟨c', rfl, h⟩
      · exact Or.inr (Or.inl ⟨j, rfl, e⟩)
      · rw [rowToks_cell] at h
        obtain ⟨j, rfl, e⟩ := h
        exact Or.inr (Or.inr ⟨j, by omega, e⟩)
  · rintro (h | ⟨j, rfl, e⟩ | ⟨j, rfl, e⟩)
    · exact Or.inl h
    · exact Or.inr ⟨j, rfl, by rw [rowToks_gap]; exact Or.inl ⟨j, rfl, e⟩⟩
    · refine Or.inr ⟨(N + 1) + j, by omega, ?_⟩
      rw [rowToks_gap]
      exact Or.inr ⟨j, rfl, by rw [rowToks_cell]; exact ⟨j, rfl, e⟩⟩

/-! ## Theorems -/

/-- **C97** On pictures of every size the six squares are printed in the net `U` above `L F R` above `D` above `B`: the cells of
the text are exactly the squares' cells, each square upright, with one empty line or column between neighbouring squares. -/
theorem C97_layout {N : Nat} (u : Unfolded N) : PrintedBy u netPlace := by
  intro r c col
  rw [printedAt_eq, tokLines_write, inLines_block]
  constructor
  · rintro (⟨i, rfl, h⟩ | ⟨r, rfl, h⟩)
    · obtain ⟨j, rfl, e⟩ := (padLine_cell _ _ _ _).mp h
      exact ⟨.U, i, j, by simp [netPlace, Face.U], by simp [netPlace, Face.U], e⟩
    rw [inLines_block] at h
    rcases h with ⟨i, rfl, h⟩ | ⟨r, rfl, h⟩
    · rcases (midLine_cell _ _ _ _).mp h with ⟨j, rfl, e⟩ | ⟨j, rfl, e⟩ | ⟨j, rfl, e⟩
      · exact ⟨.L, i, j, by simp [netPlace, Face.L], by simp [netPlace, Face.L], e⟩
      · exact ⟨.F, i, j, by simp [netPlace, Face.F], by simp [netPlace, Face.F], e⟩
      · exact ⟨.R, i, j, by simp [netPlace, Face.R], by simp [netPlace, Face.R], e⟩
    rw [inLines_block] at h
    rcases h with ⟨i, rfl, h⟩ | ⟨r, rfl, h⟩
    · obtain ⟨j, rfl, e⟩ := (padLine_cell _ _ _ _).mp h
      exact ⟨.D, i, j, by simp [netPlace, Face.D]; omega, by simp [netPlace, Face.D], e⟩
    have h' := (inLines_block (padLine (u.square .B)) [[]] r c (.cell col)).mp h
    clear h
    rcases h' with ⟨i, rfl, h⟩ | ⟨r, rfl, h⟩
    · obtain ⟨j, rfl, e⟩ := (padLine_cell _ _ _ _).mp h
      exact ⟨.B, i, j, by simp [netPlace, Face.B]; omega, by simp [netPlace, Face.B], e⟩
    · exfalso
      rcases r with _ | r <;> simp [inLines] at h
  · rintro ⟨⟨a, d⟩, i, j, hr, hc, e⟩
    have hB : ∀ r', inLines ((List.finRange N).map (padLine (u.square .B)) ++ [[], []]) r' c = some (.cell col) ↔ _ :=
      fun r' => inLines_block (padLine (u.square .B)) [[]] r' c (.cell col)
    rcases a <;> rcases d <;> simp only [netPlace] at hr hc
    · exact Or.inr ⟨i, by omega, (inLines_block ..).mpr (Or.inl ⟨i, rfl, (midLine_cell ..).mpr
        (Or.inr (Or.inr ⟨j, by omega, e⟩))⟩)⟩
    · exact Or.inr ⟨i, by omega, (inLines_block ..).mpr (Or.inl ⟨i, rfl, (midLine_cell ..).mpr (Or.inl ⟨j, by omega, e⟩)⟩)⟩
    · exact Or.inl ⟨i, by omega, (padLine_cell ..).mpr ⟨j, by omega, e⟩⟩
    · exact Or.inr ⟨(N + 1) + i, by omega, (inLines_block ..).mpr (Or.inr ⟨i, rfl, (inLines_block ..).mpr
        (Or.inl ⟨i, rfl, (padLine_cell ..).mpr ⟨j, by omega, e⟩⟩)⟩)⟩
    · exact Or.inr ⟨i, by omega, (inLines_block ..).mpr (Or.inl ⟨i, rfl, (midLine_cell ..).mpr
        (Or.inr (Or.inl ⟨j, by omega, e⟩))⟩)⟩
    · exact Or.inr ⟨(N + 1) + ((N + 1) + i), by omega, (inLines_block ..).mpr (Or.inr ⟨(N + 1) + i, rfl, (inLines_block ..).mpr
        (Or.inr ⟨i, rfl, (hB _).mpr (Or.inl ⟨i, rfl, (padLine_cell ..).mpr ⟨j, by omega, e⟩⟩)⟩)⟩)⟩

example (u : Unfolded 7) : PrintedBy u netPlace := C97_layout u

/-- **C97** The text has `4 * (N + 1)` lines, each ended by a line feed. -/
theorem C97_lines {N : Nat} (u : Unfolded N) :
    (tokLines u.write).length = 4 * (N + 1) + 1 ∧ (tokLines u.write).getLast? = some [] := by
  rw [tokLines_write]
  constructor
  · simp only [List.length_append, List.length_cons, List.length_map, List.length_finRange, List.length_nil]
    omega
  · have : ∀ (a b c d : List (List Tok)), (a ++ [] :: (b ++ [] :: (c ++ [] :: (d ++ [[], []])))).getLast? = some [] := by
      intro a b c d
      rw [show a ++ [] :: (b ++ [] :: (c ++ [] :: (d ++ [[], []]))) =
        (a ++ [] :: (b ++ [] :: (c ++ [] :: (d ++ [[]])))) ++ [[]] by simp, List.getLast?_concat]
    exact this _ _ _ _

/-- a 3x3 is 16 lines and an empty one -/
example (u : Unfolded 3) : (tokLines u.write).length = 17 := (C97_lines u).1

theorem shows_index {N : Nat} {u : Unfolded N} {s : Facelet} {col : Color} (h : u.shows s = some col) :
    ∃ i j : Fin N, Square.indices N (s.point.x, s.point.y, s.point.z) s.face = some (i, j) ∧ u.square s.face i j = col := by
  unfold Unfolded.shows Square.at? at h
  rw [Option.map_eq_some_iff] at h
  obtain ⟨⟨i, j⟩, h, e⟩ := h
  exact ⟨i, j, h, e⟩

theorem netCell_index : ∀ s ∈ Facelet.all, ∀ i j : Fin 3,
    Square.indices 3 (s.point.x, s.point.y, s.point.z) s.face = some (i, j) →
    netCell s = ((((netPlace s.face).1 * (3 + 1) + i.val : Nat) : Int), (((netPlace s.face).2 * (3 + 1) + j.val : Nat) : Int)) := by
  decide +kernel

theorem net_tokens {u : Unfolded 3} {s : Facelet} (hs : s.OnCube) {col : Color} (h : u.shows s = some col) :
    ∃ r k : Nat, netCell s = ((r : Int), (k : Int)) ∧ printedAt u.write r k = some (.cell col) := by
  obtain ⟨i, j, h1, h2⟩ := shows_index h
  exact ⟨_, _, netCell_index s ((Facelet.mem_all s).mpr hs) i j h1, (C97_layout u _ _ _).mpr ⟨s.face, i, j, rfl, rfl, h2⟩⟩

/-- **C97** What `Display` prints for a valid 3x3: the colour that a facelet shows is in the line and column of the paper net. -/
theorem C97_display (c : Cube3) (hc : c.valid) :
    ∃ t, c.display? = some t ∧ ∀ s : Facelet, s.OnCube →
      ∃ (r k : Nat) (col : Color), netCell s = ((r : Int), (k : Int)) ∧ c.shows s = some col ∧
        printedAt t r k = some (.cell col) := by
  obtain ⟨u, h, -⟩ := C51_drawing c hc
  refine ⟨u.write, by unfold Cube3.display?; rw [h]; rfl, fun s hs => ?_⟩
  obtain ⟨col, e, -⟩ := C05_alg [] c hc s s hs rfl
  have e' : u.shows s = some col := by
    unfold Cube3.shows at e
    rw [h] at e
    exact e
  obtain ⟨r, k, e1, e2⟩ := net_tokens hs e'
  exact ⟨r, k, col, e1, e, e2⟩

/-- every sticker of the cube after `R` is printed -/
example : ∃ t, (moved Cube3.SOLVED (⟨.R, .single⟩ : AxisMove)).display? = some t ∧ ∃ col, printedAt t 1 6 = some (.cell col) := by
  obtain ⟨t, ht, h⟩ := C97_display _ (C08_cubes.2.1 Cube3.SOLVED [⟨.R, .single⟩] C08_solved_valid.2.1)
  obtain ⟨r, k, col, h1, -, h2⟩ := h ⟨⟨1, 1, 0⟩, .U⟩ (by decide)
  obtain ⟨rfl, rfl⟩ : r = 1 ∧ k = 6 := by
    have : netCell ⟨⟨1, 1, 0⟩, .U⟩ = (1, 6) := by decide
    rw [this] at h1
    simp only [Prod.mk.injEq] at h1
    omega
  exact ⟨t, ht, col, h2⟩

/-- **C97** The printed net is that of a cube: different facelets are printed in different cells; cells that touch inside a square
are facelets of one face one step apart; cells with one empty line or column between them are the two facelets at a fold, on the
same cubelet. -/
theorem C97_net : (∀ s t : Facelet, s.OnCube → t.OnCube → netCell s = netCell t → s = t) ∧
    (∀ s t : Facelet, s.OnCube → t.OnCube →
      netCell t = ((netCell s).1 + 1, (netCell s).2) ∨ netCell t = ((netCell s).1, (netCell s).2 + 1) →
      s.face = t.face ∧ (t.point.x - s.point.x) ^ 2 + (t.point.y - s.point.y) ^ 2 + (t.point.z - s.point.z) ^ 2 = 1) ∧
    (∀ s t : Facelet, s.OnCube → t.OnCube → s.face ≠ t.face →
      netCell t = ((netCell s).1 + 2, (netCell s).2) ∨ netCell t = ((netCell s).1, (netCell s).2 + 2) →
      s.point = t.point) := by
  have h : (∀ s ∈ Facelet.all, ∀ t ∈ Facelet.all, netCell s = netCell t → s = t) ∧
    (∀ s ∈ Facelet.all, ∀ t ∈ Facelet.all,
      netCell t = ((netCell s).1 + 1, (netCell s).2) ∨ netCell t = ((netCell s).1, (netCell s).2 + 1) →
      s.face = t.face ∧ (t.point.x - s.point.x) ^ 2 + (t.point.y - s.point.y) ^ 2 + (t.point.z - s.point.z) ^ 2 = 1) ∧
    (∀ s ∈ Facelet.all, ∀ t ∈ Facelet.all, s.face ≠ t.face →
      netCell t = ((netCell s).1 + 2, (netCell s).2) ∨ netCell t = ((netCell s).1, (netCell s).2 + 2) →
      s.point = t.point) := by decide +kernel
  simp only [Facelet.mem_all] at h
  exact ⟨fun s t hs ht => h.1 s hs t ht, fun s t hs ht => h.2.1 s hs t ht, fun s t hs ht => h.2.2 s hs t ht⟩

/-- the net is connected where it should be: the square above the front face's upper row belongs to the upper face, on the same edge -/
example : (⟨⟨0, 1, 1⟩, .U⟩ : Facelet).point = (⟨⟨0, 1, 1⟩, .F⟩ : Facelet).point :=
  C97_net.2.2 ⟨⟨0, 1, 1⟩, .U⟩ ⟨⟨0, 1, 1⟩, .F⟩ (by decide) (by decide) (by decide) (Or.inl (by decide))

/-- **C97** The documented net has R on the left and L on the right. No valid 3x3 is printed like that, and neither is, for any size
from 1 on, the picture that `Unfolded::default` gives. -/
theorem C97_not_as_documented :
    (∀ N : Nat, 0 < N → ¬ PrintedBy (Unfolded.default N) documentedPlace) ∧
    ∀ (c : Cube3) (u : Unfolded 3), c.valid → Unfolded.ofCube3? c = some u → ¬ PrintedBy u documentedPlace := by
  have key : ∀ (N : Nat) (u : Unfolded N) (i : Fin N), u.square .R i i = ⟨.R⟩ → u.square .L i i = ⟨.L⟩ →
      ¬ PrintedBy u documentedPlace := by
    intro N u i hR hL h
    have h1 := (h (N + 1 + i) i ⟨.R⟩).mpr
      ⟨.R, i, i, by simp [documentedPlace, Face.R], by simp [documentedPlace, Face.R], hR⟩
    have h2 := (C97_layout u (N + 1 + i) i ⟨.L⟩).mpr
      ⟨.L, i, i, by simp [netPlace, Face.L], by simp [netPlace, Face.L], hL⟩
    rw [h1] at h2
    exact absurd (Tok.cell.inj (Option.some.inj h2)) (by decide)
  refine ⟨fun N hN => key N _ ⟨0, hN⟩ rfl rfl, fun c u hc hu => ?_⟩
  obtain ⟨v, h, -, -, hcen⟩ := C51_drawing c hc
  obtain rfl : u = v := Option.some.inj (hu.symm.trans h)
  refine key 3 u 1 ?_ ?_
  · obtain ⟨i, j, h1, h2⟩ := shows_index (hcen ⟨⟨1, 0, 0⟩, .R⟩ (by decide) (by decide))
    rw [show Square.indices 3 _ _ = some (1, 1) by decide +kernel] at h1
    obtain ⟨rfl, rfl⟩ := Prod.mk.inj (Option.some.inj h1)
    exact h2
  · obtain ⟨i, j, h1, h2⟩ := shows_index (hcen ⟨⟨-1, 0, 0⟩, .L⟩ (by decide) (by decide))
    rw [show Square.indices 3 _ _ = some (1, 1) by decide +kernel] at h1
    obtain ⟨rfl, rfl⟩ := Prod.mk.inj (Option.some.inj h1)
    exact h2

/-- Hypotheses met: after `R`, the front right column of U shows green, in column 6 of the first three lines. -/
example : ∃ c : Cube3, c.valid ∧ c = moved Cube3.SOLVED (⟨.R, .single⟩ : AxisMove) ∧
    Facelet.OnCube ⟨⟨1, 1, 0⟩, .U⟩ ∧ netCell ⟨⟨1, 1, 0⟩, .U⟩ = (1, 6) ∧
    (c.display?.bind fun t => printedAt t 1 6) = some (.cell ⟨.F⟩) :=
  ⟨_, C08_cubes.2.1 Cube3.SOLVED [⟨.R, .single⟩] C08_solved_valid.2.1, rfl, by decide, by decide, by decide +kernel⟩

/-- Two facelets at the fold between U and F -/
example : Facelet.OnCube ⟨⟨0, 1, 1⟩, .U⟩ ∧ Facelet.OnCube ⟨⟨0, 1, 1⟩, .F⟩ ∧
    netCell ⟨⟨0, 1, 1⟩, .F⟩ = ((netCell ⟨⟨0, 1, 1⟩, .U⟩).1 + 2, (netCell ⟨⟨0, 1, 1⟩, .U⟩).2) := by decide

end Barbarosa
