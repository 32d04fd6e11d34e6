import Verif.Lemmas.ParserExtended
import Verif.Props.Algs

/-!
# C41–C44, C59, C60: printing and parsing
-/

namespace Barbarosa

open Amount Face

/-- The decimal digits as `NUMBER` (used in the examples; the real class has more characters in it). -/
def asciiNumber (c : Char) : Bool := '0' ≤ c && c ≤ '9'

theorem asciiNumber_class : NumberClass asciiNumber := by
  refine ⟨?_, ?_, ?_⟩
  · intro c h0 h9; simp [asciiNumber, h0, h9]
  · intro c h0 h9
    have h0' : 65 ≤ c.toNat := h0
    by_contra hc
    simp only [asciiNumber, Bool.not_eq_false, Bool.and_eq_true, decide_eq_true_eq] at hc
    have h1 : c.toNat ≤ 57 := hc.2
    omega
  · intro c h0 h9
    have h0' : 97 ≤ c.toNat := h0
    by_contra hc
    simp only [asciiNumber, Bool.not_eq_false, Bool.and_eq_true, decide_eq_true_eq] at hc
    have h1 : c.toNat ≤ 57 := hc.2
    omega

/-! ## C41 -/

theorem face_display (f : Face) : ∃ c, (c, f) ∈ faceLetters ∧ f.display = [c] := by
  rcases f with ⟨_ | _ | _, _ | _⟩ <;> simp [faceLetters, Face.display, Face.R, Face.L, Face.U, Face.D, Face.F]

theorem amount_display (x : Amount) : (x.display, x) ∈ amountMarks := by
  cases x <;> simp [Amount.display, amountMarks]

/-- **C41** What is printed for a move is its spelling. -/
theorem C41_display_spells (m : AxisMove) : Spells m.display m := by
  obtain ⟨c, hc, hd⟩ := face_display m.face
  exact ⟨c, m.amount.display, hc, amount_display m.amount, by rw [AxisMove.display, hd]; rfl⟩

/-- **C41** Parsing what was printed gives the value back: amounts, faces and moves. -/
theorem C41_round_trip (num : Char → Bool) :
    (∀ x : Amount, (parse num x.display : Outcome Amount) = .ok x) ∧
    (∀ f : Face, (parse num f.display : Outcome Face) = .ok f) ∧
    (∀ m : AxisMove, (parse num m.display : Outcome AxisMove) = .ok m) := by
  refine ⟨fun x => ?_, fun f => ?_, fun m => ?_⟩
  · rcases amount_parse num x.display with ⟨y, hy, hp⟩ | ⟨hno, _⟩
    · rw [hp, amountMarks_unique hy (amount_display x)]
    · exact absurd (amount_display x) (hno x)
  · obtain ⟨c, hc, hd⟩ := face_display f
    rcases face_parse num f.display with ⟨c', g, he, hg, hp⟩ | ⟨hno, _⟩
    · rw [hd] at he
      obtain ⟨rfl, _⟩ := List.cons.inj he
      rw [hp, faceLetters_unique hg hc]
    · exact absurd hc (hno c f hd)
  · rcases axisMove_parse num m.display with ⟨m', hm, hp⟩ | ⟨hno, _⟩
    · rw [hp, spells_unique hm (C41_display_spells m)]
    · exact absurd (C41_display_spells m) (hno m)

example : AxisMove.display ⟨Face.R, .inverse⟩ = ['R', '\''] ∧
    (parse asciiNumber ['R', '\''] : Outcome AxisMove) = .ok ⟨Face.R, .inverse⟩ := by decide

theorem spells_no_white {s m} (h : Spells s m) : s ≠ [] ∧ ∀ c ∈ s, ¬ White c := by
  obtain ⟨c, a, hc, ha, rfl⟩ := h
  refine ⟨by simp, ?_⟩
  simp only [faceLetters, List.mem_cons, Prod.mk.injEq, List.not_mem_nil, or_false] at hc
  simp only [amountMarks, List.mem_cons, Prod.mk.injEq, List.not_mem_nil, or_false] at ha
  have h1 : ¬ White c := by
    rcases hc with ⟨rfl, _⟩ | ⟨rfl, _⟩ | ⟨rfl, _⟩ | ⟨rfl, _⟩ | ⟨rfl, _⟩ | ⟨rfl, _⟩ <;> (unfold White; decide)
  have h2 : ∀ d ∈ a, ¬ White d := by
    rcases ha with ⟨rfl, _⟩ | ⟨rfl, _⟩ | ⟨rfl, _⟩
    · simp
    · simp only [List.mem_singleton, forall_eq]; unfold White; decide
    · simp only [List.mem_singleton, forall_eq]; unfold White; decide
  simp only [List.mem_cons, forall_eq_or_imp]
  exact ⟨h1, h2⟩

/-- Words joined by single spaces are a layout of the words. -/
theorem layout_join {ws : List (List Char)} (h : ∀ w ∈ ws, w ≠ [] ∧ ∀ c ∈ w, ¬ White c) :
    Layout ws (joinWith [' '] ws) ∧ Layout ws (' ' :: joinWith [' '] ws) := by
  have hsp : White ' ' := by unfold White; decide
  have key : ∀ {ws t}, Layout ws t → Layout ws (' ' :: t) := by
    intro ws t hl
    cases hl with
    | blank hb => exact .blank (by simp only [List.mem_cons, forall_eq_or_imp]; exact ⟨hsp, hb⟩)
    | @word lead w rest ws h1 h2 h3 h4 h5 =>
      exact .word (lead := ' ' :: lead) (by simp only [List.mem_cons, forall_eq_or_imp]; exact ⟨hsp, h1⟩) h2 h3 h4 h5
  induction ws with
  | nil => exact ⟨.blank (by simp [joinWith]), key (.blank (by simp [joinWith]))⟩
  | cons w ws ih =>
    obtain ⟨hw1, hw2⟩ := h w (by simp)
    have ih' := ih (fun v hv => h v (by simp [hv]))
    have hl : Layout (w :: ws) (joinWith [' '] (w :: ws)) := by
      cases ws with
      | nil => 
        have := Layout.word (lead := []) (w := w) (rest := []) (by simp) hw1 hw2 (Or.inl rfl) (.blank (by simp))
        simpa [joinWith] using this
      | cons v ws =>
        have := Layout.word (lead := []) (w := w) (rest := ' ' :: joinWith [' '] (v :: ws)) (by simp) hw1 hw2
          (Or.inr ⟨' ', _, rfl, hsp⟩) ih'.2
        simpa [joinWith] using this
    exact ⟨hl, key hl⟩

/-- **C41** An alg is read back from its moves written with any white space between and around them. -/
theorem C41_alg_layout (num : Char → Bool) (alg : List AxisMove) (text : List Char)
    (h : Layout (alg.map AxisMove.display) text) : (parse num text : Outcome (List AxisMove)) = .ok alg := by
  show collectOutcomes _ (splitWhitespace text) = _
  rw [split_of_layout h, collect_ok]
  clear h
  induction alg with
  | nil => exact .nil
  | cons m alg ih => exact .cons ((C41_round_trip num).2.2 m) ih

/-- with tabs, line breaks and spaces -/
example (num : Char → Bool) : (parse num "\t R  U\n R' U' ".toList : Outcome (List AxisMove)) = .ok Perms.SEXY_MOVE :=
  C41_alg_layout num Perms.SEXY_MOVE _ (by
    have : Perms.SEXY_MOVE.map AxisMove.display = splitWhitespace "\t R  U\n R' U' ".toList := by decide
    rw [this]
    exact layout_of_split _)

/-- **C41** Parsing a printed alg gives it back. -/
theorem C41_alg (num : Char → Bool) (alg : List AxisMove) :
    (parse num (algDisplay AxisMove.display alg) : Outcome (List AxisMove)) = .ok alg := by
  refine C41_alg_layout num alg _ (layout_join ?_).1
  intro w hw
  obtain ⟨m, _, rfl⟩ := List.mem_map.1 hw
  exact spells_no_white (C41_display_spells m)

example (num : Char → Bool) : (parse num (algDisplay AxisMove.display Perms.T) : Outcome (List AxisMove)) = .ok Perms.T := C41_alg num _

/-- **C41** The printed form of a combined move, or of an alg of combined moves, reads as the alg of its face moves. -/
theorem C41_combined (num : Char → Bool) (alg : List NonRedundantAxisMove) :
    (parse num (algDisplay NonRedundantAxisMove.display alg) : Outcome (List AxisMove)) =
      .ok (alg.flatMap NonRedundantAxisMove.moves) := by
  have hne : ∀ m : NonRedundantAxisMove, m.moves ≠ [] := by intro m; cases m <;> simp [NonRedundantAxisMove.moves]
  have hjoin : ∀ l : List (List (List Char)), (∀ ws ∈ l, ws ≠ []) →
      joinWith [' '] (l.map (joinWith [' '])) = joinWith [' '] l.flatten := by
    intro l hl
    have hcons : ∀ (w v : List Char) ws, joinWith [' '] (w :: v :: ws) = w ++ [' '] ++ joinWith [' '] (v :: ws) :=
      fun _ _ _ => rfl
    have happ : ∀ a b : List (List Char), a ≠ [] → b ≠ [] →
        joinWith [' '] (a ++ b) = joinWith [' '] a ++ [' '] ++ joinWith [' '] b := by
      intro a b ha hb
      induction a with
      | nil => exact absurd rfl ha
      | cons w a ih =>
        cases a with
        | nil =>
          cases b with
          | nil => exact absurd rfl hb
          | cons v b => rfl
        | cons u a =>
          have := ih (by simp)
          rw [List.cons_append, List.cons_append, hcons, ← List.cons_append, this, hcons]
          simp
    induction l with
    | nil => rfl
    | cons a l ih =>
      have ih' := ih (fun ws h => hl ws (by simp [h]))
      cases l with
      | nil => simp [joinWith]
      | cons b l =>
        have hb : (b :: l).flatten ≠ [] := by
          have := hl b (by simp)
          simp [this]
        rw [List.map_cons, List.map_cons, hcons, ← List.map_cons, ih', List.flatten_cons (l := a), happ a _ (hl a (by simp)) hb]
  have : algDisplay NonRedundantAxisMove.display alg = algDisplay AxisMove.display (alg.flatMap NonRedundantAxisMove.moves) := by
    unfold algDisplay NonRedundantAxisMove.display
    have h := hjoin (alg.map fun m => m.moves.map AxisMove.display) (by
      intro ws hws
      obtain ⟨m, _, rfl⟩ := List.mem_map.1 hws
      simp [hne m])
    rw [List.map_map] at h
    rw [List.map_flatMap, List.flatMap_def]
    exact h
  rw [this]
  exact C41_alg num _

example : algDisplay AxisMove.display Perms.SEXY_MOVE = "R U R' U'".toList ∧
    Layout (Perms.SEXY_MOVE.map AxisMove.display) "\t R  U\n R' U' ".toList := by
  refine ⟨by decide, ?_⟩
  have : Perms.SEXY_MOVE.map AxisMove.display = splitWhitespace "\t R  U\n R' U' ".toList := by decide
  rw [this]
  exact layout_of_split _

/-! ## C42 -/

/-- **C42** A text parses as an amount, a face or a move exactly if it is the spelling of that value; everything else is
refused with an error (no panic). -/
theorem C42_exact (num : Char → Bool) (s : List Char) :
    (∀ x, (parse num s : Outcome Amount) = .ok x ↔ (s, x) ∈ amountMarks) ∧
    (∀ f, (parse num s : Outcome Face) = .ok f ↔ ∃ c, s = [c] ∧ (c, f) ∈ faceLetters) ∧
    (∀ m, (parse num s : Outcome AxisMove) = .ok m ↔ Spells s m) ∧
    (∀ r, (parse num s : Outcome AxisRotation) = .ok r ↔ SpellsRotation s r) ∧
    (parse num s : Outcome Amount) ≠ .panic ∧ (parse num s : Outcome Face) ≠ .panic ∧
    (parse num s : Outcome AxisMove) ≠ .panic ∧ (parse num s : Outcome AxisRotation) ≠ .panic := by
  refine ⟨fun x => ?_, fun f => ?_, fun m => ?_, fun r => ?_, ?_, ?_, ?_, ?_⟩
  · rcases amount_parse num s with ⟨y, hy, hp⟩ | ⟨hno, hp⟩
    · rw [hp]
      exact ⟨fun h => by cases h; exact hy, fun h => by rw [amountMarks_unique h hy]⟩
    · rw [hp]
      exact ⟨fun h => by simp at h, fun h => absurd h (hno x)⟩
  · rcases face_parse num s with ⟨c, g, he, hg, hp⟩ | ⟨hno, hp⟩
    · rw [hp]
      refine ⟨fun h => by cases h; exact ⟨c, he, hg⟩, ?_⟩
      rintro ⟨c', he', hf⟩
      rw [he] at he'
      obtain ⟨rfl, _⟩ := List.cons.inj he'
      rw [faceLetters_unique hf hg]
    · rw [hp]
      exact ⟨fun h => by simp at h, fun ⟨c, he, hf⟩ => absurd hf (hno c f he)⟩
  · rcases axisMove_parse num s with ⟨m', hm, hp⟩ | ⟨hno, hp⟩
    · rw [hp]
      exact ⟨fun h => by cases h; exact hm, fun h => by rw [spells_unique h hm]⟩
    · rw [hp]
      exact ⟨fun h => by simp at h, fun h => absurd h (hno m)⟩
  · rcases rotation_parse num s with ⟨m', hm, hp⟩ | ⟨hno, hp⟩
    · rw [hp]
      exact ⟨fun h => by cases h; exact hm, fun h => by rw [spellsRotation_unique h hm]⟩
    · rw [hp]
      exact ⟨fun h => by simp at h, fun h => absurd h (hno r)⟩
  · rcases amount_parse num s with ⟨y, _, hp⟩ | ⟨_, hp⟩ <;> rw [hp] <;> simp
  · rcases face_parse num s with ⟨_, y, _, _, hp⟩ | ⟨_, hp⟩ <;> rw [hp] <;> simp
  · rcases axisMove_parse num s with ⟨y, _, hp⟩ | ⟨_, hp⟩ <;> rw [hp] <;> simp
  · rcases rotation_parse num s with ⟨y, _, hp⟩ | ⟨_, hp⟩ <;> rw [hp] <;> simp

/-- a rotation, and a move that is no rotation -/
example (num : Char → Bool) : (parse num ['U', '2'] : Outcome AxisMove) = .ok ⟨Face.U, .double⟩ ∧
    ¬ (parse num ['U', '2'] : Outcome Amount) = .ok .double :=
  ⟨((C42_exact num _).2.2.1 _).2 (C41_display_spells ⟨Face.U, .double⟩), fun h => absurd (((C42_exact num _).1 _).1 h) (by decide)⟩

/-- **C42** There are exactly 18 spellings, one for each move. -/
theorem C42_one_spelling (m : AxisMove) : ∃! s, Spells s m := by
  refine ⟨m.display, C41_display_spells m, ?_⟩
  intro s hs
  have hu : ∀ {c d f}, (c, f) ∈ faceLetters → (d, f) ∈ faceLetters → c = d := by
    intro c d f h h'
    simp only [faceLetters, List.mem_cons, Prod.mk.injEq, List.not_mem_nil, or_false] at h h'
    rcases h with ⟨rfl, rfl⟩ | ⟨rfl, rfl⟩ | ⟨rfl, rfl⟩ | ⟨rfl, rfl⟩ | ⟨rfl, rfl⟩ | ⟨rfl, rfl⟩ <;> simp at h' <;> exact h'.symm
  have ha : ∀ {a b x}, (a, x) ∈ amountMarks → (b, x) ∈ amountMarks → a = b := by
    intro a b x h h'
    simp only [amountMarks, List.mem_cons, Prod.mk.injEq, List.not_mem_nil, or_false] at h h'
    rcases h with ⟨rfl, rfl⟩ | ⟨rfl, rfl⟩ | ⟨rfl, rfl⟩ <;> simp at h' <;> exact h'.symm
  obtain ⟨c, a, hc, hx, rfl⟩ := hs
  obtain ⟨c', a', hc', hx', he⟩ := C41_display_spells m
  rw [he, hu hc hc', ha hx hx']

example : ¬ Spells ['R', '3'] ⟨Face.R, .inverse⟩ := fun h => by
  have := (C42_one_spelling ⟨Face.R, .inverse⟩).unique h (C41_display_spells _)
  revert this; decide

/-- **C42** An alg is read exactly from the texts that are its spelled moves in order, separated by white space; every other text is
refused as a whole, without a panic. -/
theorem C42_alg (num : Char → Bool) (text : List Char) :
    (∀ alg, (parse num text : Outcome (List AxisMove)) = .ok alg ↔
      ∃ words, Layout words text ∧ List.Forall₂ Spells words alg) ∧
    (parse num text : Outcome (List AxisMove)) ≠ .panic := by
  constructor
  · intro alg
    show collectOutcomes _ (splitWhitespace text) = _ ↔ _
    rw [collect_ok]
    have hiff : ∀ w (m : AxisMove), (parse num w : Outcome AxisMove) = .ok m ↔ Spells w m :=
      fun w m => (C42_exact num w).2.2.1 m
    simp only [hiff]
    constructor
    · exact fun h => ⟨_, layout_of_split text, h⟩
    · rintro ⟨words, hl, h⟩
      rwa [split_of_layout hl]
  · exact collect_no_panic (fun w => (C42_exact num w).2.2.2.2.2.2.1) _

/-- `R U'` is two words, `RU'` is none -/
example : (parse asciiNumber "R U'".toList : Outcome (List AxisMove)) = .ok [⟨R, single⟩, ⟨U, inverse⟩] ∧
    (parse asciiNumber "RU'".toList : Outcome (List AxisMove)) = .err .pest := by decide +kernel

/-- **C42** The words of a text are determined by it, so "the words of the text" makes sense. -/
theorem C42_words_unique (text : List Char) : ∃! words, Layout words text :=
  ⟨splitWhitespace text, layout_of_split text, fun _ h => (split_of_layout h).symm⟩

example : (parse asciiNumber "R U3".toList : Outcome (List AxisMove)) = .err .pest ∧
    (parse asciiNumber "R2'".toList : Outcome AxisMove) = .err .pest ∧
    (parse asciiNumber "R2 U".toList : Outcome (List AxisMove)) = .ok [⟨Face.R, .double⟩, ⟨Face.U, .single⟩] := by decide

/-! ## C43 -/

theorem wide_parse_of_spells {num} (hn : NumberClass num) {N s d m} (h : SpellsWide s d m) :
    (parse num s : Outcome (WideAxisMove N)) = if d ≤ N then .ok ⟨d, m⟩ else .err (.uknown d N) := by
  rcases wideMove_parse hn N s with ⟨d', m', h', hp⟩ | ⟨hno, _⟩
  · obtain ⟨rfl, rfl⟩ := spellsWide_unique h h'
    exact hp
  · exact absurd h (hno d m)

/-- **C43** (the part that holds) Printing a wide move of depth 0 or 1 and parsing the text gives the move back, whatever the maximum
depth. Missing: depth 2 and more, where the claim is false (`C43_not_round_trip`, `C43_printed_form`). -/
theorem C43_round_trip_partial (num : Char → Bool) (hn : NumberClass num) (N : Nat) (m : WideAxisMove N) (hwf : m.WF)
    (hd : m.depth ≤ 1) : ∃ s, m.display? = some s ∧ (parse num s : Outcome (WideAxisMove N)) = .ok m := by
  obtain ⟨d, mv⟩ := m
  have hwf' : d ≤ N := hwf
  have hd' : d ≤ 1 := hd
  have : d = 0 ∨ d = 1 := by omega
  rcases this with rfl | rfl
  · refine ⟨_, rfl, ?_⟩
    rw [wide_parse_of_spells hn (Or.inl ⟨rfl, C41_display_spells mv⟩), if_pos hwf']
  · refine ⟨_, rfl, ?_⟩
    obtain ⟨c, hc, hf⟩ := face_display mv.face
    rw [wide_parse_of_spells hn (d := 1) (m := mv)
      (Or.inr ⟨[], [c, 'w'], mv.amount.display, Or.inl ⟨rfl, rfl⟩, Or.inl ⟨c, hc, rfl⟩, amount_display _, by simp [hf]⟩),
      if_pos hwf']

/-- `Uw2` with at most three layers -/
example : ∃ s, (⟨1, ⟨Face.U, .double⟩⟩ : WideAxisMove 2).display? = some s ∧
    (parse asciiNumber s : Outcome (WideAxisMove 2)) = .ok ⟨1, ⟨Face.U, .double⟩⟩ :=
  C43_round_trip_partial asciiNumber asciiNumber_class 2 _ (by decide) (by decide)

/-- **C43** What is printed for depth 2 to 8 reads as the next depth, or is refused if that is beyond the maximum: the printed number
counts layers, the parsed number counts extra layers. -/
theorem C43_printed_form (num : Char → Bool) (hn : NumberClass num) (N : Nat) (m : WideAxisMove N) (h2 : 2 ≤ m.depth)
    (h8 : m.depth ≤ 8) :
    ∃ s, m.display? = some s ∧
      (parse num s : Outcome (WideAxisMove N)) =
        if m.depth + 1 ≤ N then .ok ⟨m.depth + 1, m.axisMove⟩ else .err (.uknown (m.depth + 1) N) := by
  obtain ⟨d, mv⟩ := m
  simp only at h2 h8
  obtain ⟨c, hc, hf⟩ := face_display mv.face
  have hdig : ∃ ch, Nat.toDigits 10 (d + 1) = [ch] ∧ (ch, d + 1) ∈ digitValues := by
    have : d = 2 ∨ d = 3 ∨ d = 4 ∨ d = 5 ∨ d = 6 ∨ d = 7 ∨ d = 8 := by omega
    rcases this with rfl | rfl | rfl | rfl | rfl | rfl | rfl
    · exact ⟨'3', by decide, by decide⟩
    · exact ⟨'4', by decide, by decide⟩
    · exact ⟨'5', by decide, by decide⟩
    · exact ⟨'6', by decide, by decide⟩
    · exact ⟨'7', by decide, by decide⟩
    · exact ⟨'8', by decide, by decide⟩
    · exact ⟨'9', by decide, by decide⟩
  obtain ⟨ch, hch, hval⟩ := hdig
  have hu : d + 1 ≤ U32_MAX := by unfold U32_MAX; omega
  refine ⟨[ch] ++ [c, 'w'] ++ mv.amount.display, ?_, ?_⟩
  · have : ∃ e, d = e + 2 := ⟨d - 2, by omega⟩
    obtain ⟨e, rfl⟩ := this
    simp only [WideAxisMove.display?, if_pos hu, hch, hf]
    simp
  · exact wide_parse_of_spells hn (d := d + 1) (m := mv)
      (Or.inr ⟨[ch], [c, 'w'], mv.amount.display, Or.inr ⟨ch, d + 1, hval, rfl, by omega⟩, Or.inl ⟨c, hc, rfl⟩,
        amount_display _, rfl⟩)

/-- depth 2 of at most 3 is read as 3, depth 3 is refused -/
example : (∃ s, (⟨2, ⟨Face.U, .double⟩⟩ : WideAxisMove 3).display? = some s ∧
      (parse asciiNumber s : Outcome (WideAxisMove 3)) = .ok ⟨3, ⟨Face.U, .double⟩⟩) ∧
    ∃ s, (⟨3, ⟨Face.U, .double⟩⟩ : WideAxisMove 3).display? = some s ∧ (parse asciiNumber s : Outcome (WideAxisMove 3)) = .err (.uknown 4 3) :=
  ⟨C43_printed_form asciiNumber asciiNumber_class 3 ⟨2, ⟨Face.U, .double⟩⟩ (by decide) (by decide),
    C43_printed_form asciiNumber asciiNumber_class 3 ⟨3, ⟨Face.U, .double⟩⟩ (by decide) (by decide)⟩

/-- **C43** is false: the turn of the three outer layers on the right prints as `3Rw`, and that text parses as a turn of four layers. -/
theorem C43_not_round_trip : ∃ (m : WideAxisMove 3) (s : List Char), m.WF ∧ m.display? = some s ∧
    (parse asciiNumber s : Outcome (WideAxisMove 3)) = .ok ⟨3, m.axisMove⟩ ∧ m.depth = 2 :=
  ⟨⟨2, ⟨Face.R, .single⟩⟩, ['3', 'R', 'w'], by unfold WideAxisMove.WF; decide, by decide, by decide, rfl⟩

/-- **C43** No wide move of depth 2 or more is given back by parsing its printed form. -/
theorem C43_never_deeper (num : Char → Bool) (hn : NumberClass num) (N : Nat) (m : WideAxisMove N) (h2 : 2 ≤ m.depth)
    (s : List Char) (hs : m.display? = some s) : (parse num s : Outcome (WideAxisMove N)) ≠ .ok m := by
  obtain ⟨d, mv⟩ := m
  simp only at h2
  intro hp
  rcases wideMove_parse hn N s with ⟨d', m', h', hp'⟩ | ⟨_, e, hp'⟩
  · rw [hp'] at hp
    split at hp
    · obtain ⟨rfl, rfl⟩ : d' = d ∧ m' = mv := by simpa using hp
      -- the text spells depth `d`, so begins with the digit of `d`; but it begins with the digits of `d + 1`
      obtain ⟨e, rfl⟩ : ∃ e, d' = e + 2 := ⟨d' - 2, by omega⟩
      simp only [WideAxisMove.display?] at hs
      split at hs
      · simp only [Option.some.injEq] at hs
        obtain ⟨c, hc, hf⟩ := face_display m'.face
        rcases h' with ⟨h0, _⟩ | ⟨pre, body, a, hpre, hb, ha, he⟩
        · omega
        · rcases hpre with ⟨_, h1⟩ | ⟨ch, k, hk, rfl, hkd⟩
          · omega
          · have hk' : k = e + 2 := by omega
            subst hk'
            have hlt : e + 2 + 1 ≤ 10 := by
              simp only [digitValues, List.mem_cons, Prod.mk.injEq, List.not_mem_nil, or_false] at hk
              omega
            rcases Nat.lt_or_ge (e + 2 + 1) 10 with hlt' | hge
            · obtain ⟨s', hs', hp2⟩ := C43_printed_form num hn N ⟨e + 2, m'⟩ (by simp) (by simp; omega)
              have hs2 : some s = some s' := by
                rw [← hs', ← hs]
                simp only [WideAxisMove.display?]
                rw [if_pos (by assumption)]
              cases hs2
              rw [hp2] at hp'
              split at hp' <;> simp at hp'
            · have he7 : e = 7 := by omega
              subst he7
              have h10 : Nat.toDigits 10 (7 + 2 + 1) = ['1', '0'] := by decide
              rw [h10, hf] at hs
              rw [← hs] at he
              simp only [List.cons_append, List.nil_append, List.cons.injEq] at he
              obtain ⟨rfl, _⟩ := he
              revert hk
              decide
      · simp at hs
    · simp at hp
  · rw [hp'] at hp
    simp at hp

/-- depth 50 -/
example (s : List Char) (hs : (⟨50, ⟨Face.U, .double⟩⟩ : WideAxisMove 60).display? = some s) :
    (parse asciiNumber s : Outcome (WideAxisMove 60)) ≠ .ok ⟨50, ⟨Face.U, .double⟩⟩ :=
  C43_never_deeper asciiNumber asciiNumber_class 60 _ (by decide) s hs

/-- **C43** The deepest possible move cannot be printed at all: adding one to its depth overflows. All others can. -/
theorem C43_overflow (N d : Nat) (hd : d ≤ 4294967295) (m : AxisMove) :
    (⟨d, m⟩ : WideAxisMove N).display? = none ↔ d = 4294967295 := by
  have hu : U32_MAX = 4294967295 := rfl
  match d with
  | 0 => simp [WideAxisMove.display?]
  | 1 => simp [WideAxisMove.display?]
  | d + 2 =>
    simp only [WideAxisMove.display?, hu]
    split_ifs with h
    · simp; omega
    · simp; omega

example : (⟨1, ⟨Face.U, .double⟩⟩ : WideAxisMove 2).display? = some ['U', 'w', '2'] ∧
    (parse asciiNumber ['U', 'w', '2'] : Outcome (WideAxisMove 2)) = .ok ⟨1, ⟨Face.U, .double⟩⟩ := by decide

/-! ## C59 -/

/-- **C59** A text parses as a wide move exactly if it is a spelling of it and the depth is within the maximum; a well-spelled move
that is too deep is refused; the parser never panics. -/
theorem C59_wide_exact (num : Char → Bool) (hn : NumberClass num) (N : Nat) (s : List Char) :
    (∀ w, (parse num s : Outcome (WideAxisMove N)) = .ok w ↔ SpellsWide s w.depth w.axisMove ∧ w.depth ≤ N) ∧
    (∀ d m, SpellsWide s d m → N < d → (parse num s : Outcome (WideAxisMove N)) = .err (.uknown d N)) ∧
    (parse num s : Outcome (WideAxisMove N)) ≠ .panic := by
  refine ⟨fun w => ?_, fun d m h hd => ?_, ?_⟩
  · rcases wideMove_parse hn N s with ⟨d, m, h, hp⟩ | ⟨hno, e, hp⟩
    · rw [hp]
      constructor
      · intro he
        split at he
        · cases he; exact ⟨h, by assumption⟩
        · simp at he
      · rintro ⟨h', hd⟩
        obtain ⟨rfl, rfl⟩ := spellsWide_unique h h'
        rw [if_pos hd]
    · rw [hp]
      exact ⟨fun h => by simp at h, fun h => absurd h.1 (hno _ _)⟩
  · rw [wide_parse_of_spells hn h, if_neg (by omega)]
  · rcases wideMove_parse hn N s with ⟨d, m, h, hp⟩ | ⟨hno, e, hp⟩
    · rw [hp]; split <;> simp
    · rw [hp]; simp

example : SpellsWide "2r'".toList 2 ⟨⟨.X, .pos⟩, .inverse⟩ ∧
    (parse asciiNumber "2r'".toList : Outcome (WideAxisMove 2)) = .ok ⟨2, ⟨⟨.X, .pos⟩, .inverse⟩⟩ ∧
    (parse asciiNumber "3Rw".toList : Outcome (WideAxisMove 2)) = .err (.uknown 3 2) :=
  ⟨Or.inr ⟨['2'], ['r'], ['\''], Or.inr ⟨'2', 2, by decide, rfl, rfl⟩, Or.inr ⟨'r', by decide, rfl⟩, by decide, by decide⟩,
    by decide, by decide⟩

/-- **C59** Algs of wide moves: read exactly from the spelled moves in order, all within the maximum depth. -/
theorem C59_wide_alg (num : Char → Bool) (hn : NumberClass num) (N : Nat) (text : List Char) :
    (∀ alg, (parse num text : Outcome (List (WideAxisMove N))) = .ok alg ↔
      ∃ words, Layout words text ∧
        List.Forall₂ (fun s (w : WideAxisMove N) => SpellsWide s w.depth w.axisMove ∧ w.depth ≤ N) words alg) ∧
    (parse num text : Outcome (List (WideAxisMove N))) ≠ .panic := by
  constructor
  · intro alg
    show collectOutcomes _ (splitWhitespace text) = _ ↔ _
    rw [collect_ok]
    have hiff : ∀ w (m : WideAxisMove N), (parse num w : Outcome (WideAxisMove N)) = .ok m ↔
        SpellsWide w m.depth m.axisMove ∧ m.depth ≤ N := fun w m => (C59_wide_exact num hn N w).1 m
    simp only [hiff]
    constructor
    · exact fun h => ⟨_, layout_of_split text, h⟩
    · rintro ⟨words, hl, h⟩
      rwa [split_of_layout hl]
  · exact collect_no_panic (fun w => (C59_wide_exact num hn N w).2.2) _

/-- what a 5x5 takes as an alg of wide moves -/
example : ∃ words, Layout words "R 2Uw' f2".toList ∧ List.Forall₂ (fun s (w : WideAxisMove 2) => SpellsWide s w.depth w.axisMove ∧ w.depth ≤ 2) words
    [⟨0, ⟨Face.R, .single⟩⟩, ⟨2, ⟨Face.U, .inverse⟩⟩, ⟨1, ⟨Face.F, .double⟩⟩] :=
  ((C59_wide_alg asciiNumber asciiNumber_class 2 _).1 _).1 (by decide)

/-! ## C44 -/

/-- Everything that can be obtained through the constructors and setters of `WideAxisMove`: the setters are applied to
moves obtained before, possibly with another maximum. -/
inductive Obtainable : (N : Nat) → WideAxisMove N → Prop
  | new {N f x d w} : WideAxisMove.new N f x d = some w → Obtainable N w
  | setDepth {N w} (d : Nat) : Obtainable N w → Obtainable N (w.setDepth d).2
  | setMaxDepth {N M w} {w' : WideAxisMove M} : Obtainable N w → w.setMaxDepth M = some w' → Obtainable M w'
  | widen {N m d w} : AxisMove.widen m N d = some w → Obtainable N w
  | inverse {N w} : Obtainable N w → Obtainable N (Move.inverse w)
  | sample {N f x d w} : WideAxisMove.sample? N f x d = some w → Obtainable N w
  | algWiden {N alg d l w} : Barbarosa.algWiden alg N d = some l → w ∈ l → Obtainable N w
  | parse {N num s w} : NumberClass num → (Barbarosa.parse num s : Outcome (WideAxisMove N)) = .ok w → Obtainable N w
  | parseAlg {N num s l w} : NumberClass num → (Barbarosa.parse num s : Outcome (List (WideAxisMove N))) = .ok l → w ∈ l →
      Obtainable N w

theorem new_some {N d : Nat} {f : Face} {x : Amount} {w : WideAxisMove N} (h : WideAxisMove.new N f x d = some w) :
    d ≤ N ∧ w = ⟨d, ⟨f, x⟩⟩ := by
  unfold WideAxisMove.new at h
  split at h
  · cases h
  · exact ⟨by omega, by simpa using h.symm⟩

/-- **C44** No sequence of operations gives a move deeper than its maximum. -/
theorem C44_depth_le (N : Nat) (w : WideAxisMove N) (h : Obtainable N w) : w.depth ≤ N := by
  induction h with
  | parse hn h => exact (((C59_wide_exact _ hn _ _).1 _).1 h).2
  | @parseAlg N num s l w hn h hw =>
    obtain ⟨words, hl, hf⟩ := ((C59_wide_alg _ hn _ _).1 _).1 h
    clear h hl
    induction hf with
    | nil => cases hw
    | cons h _ ih =>
      rcases List.mem_cons.1 hw with rfl | hw
      · exact h.2
      · exact ih hw
  | new h => obtain ⟨h1, rfl⟩ := new_some h; exact h1
  | @setDepth N w d _ ih =>
    unfold WideAxisMove.setDepth
    split
    · exact ih
    · show d ≤ N; omega
  | @setMaxDepth N M w w' _ h ih =>
    unfold WideAxisMove.setMaxDepth at h
    split at h
    · cases h
    · simp only [Option.some.injEq] at h
      subst h
      show w.depth ≤ M
      omega
  | widen h => obtain ⟨h1, rfl⟩ := new_some h; exact h1
  | inverse _ ih => exact ih
  | sample h => obtain ⟨h1, rfl⟩ := new_some h; exact h1
  | @algWiden N alg d l w h hw =>
    induction alg generalizing l with
    | nil =>
      simp only [algWiden, List.mapM_nil, pure, Option.some.injEq] at h
      subst h; cases hw
    | cons m alg ih =>
      simp only [algWiden, List.mapM_cons, bind, pure, Option.bind_eq_some_iff, Option.some.injEq] at h
      obtain ⟨w0, h0, l0, h1, rfl⟩ := h
      rcases List.mem_cons.1 hw with rfl | hw
      · obtain ⟨h2, rfl⟩ := new_some h0; exact h2
      · exact ih h1 hw

/-- a move that was read -/
example : (⟨2, ⟨U, inverse⟩⟩ : WideAxisMove 2).depth ≤ 2 :=
  C44_depth_le 2 _ (.parse (num := asciiNumber) (s := "2Uw'".toList) asciiNumber_class (by decide +kernel))

/-- **C44** The operations fail exactly when the requested depth exceeds the maximum, and otherwise return the move asked
for; `set_depth` leaves the move alone when it fails; `set_max_depth` changes nothing else. -/
theorem C44_fail_exactly (N M : Nat) (f : Face) (x : Amount) (d : Nat) (w : WideAxisMove N) :
    (WideAxisMove.new N f x d = none ↔ N < d) ∧
    (d ≤ N → WideAxisMove.new N f x d = some ⟨d, ⟨f, x⟩⟩) ∧
    (AxisMove.widen ⟨f, x⟩ N d = none ↔ N < d) ∧
    (d ≤ N → AxisMove.widen ⟨f, x⟩ N d = some ⟨d, ⟨f, x⟩⟩) ∧
    ((w.setDepth d).1 = .error () ↔ N < d) ∧
    (N < d → (w.setDepth d).2 = w) ∧
    (d ≤ N → (w.setDepth d).2 = ⟨d, w.axisMove⟩) ∧
    (w.setMaxDepth M = none ↔ M < w.depth) ∧
    (w.depth ≤ M → w.setMaxDepth M = some ⟨w.depth, w.axisMove⟩) := by
  have hnew : WideAxisMove.new N f x d = if d > N then none else some ⟨d, ⟨f, x⟩⟩ := rfl
  refine ⟨?_, ?_, ?_, ?_, ?_, ?_, ?_, ?_, ?_⟩
  · rw [hnew]; split <;> simp <;> omega
  · intro h; rw [hnew, if_neg (by omega)]
  · show WideAxisMove.new N f x d = none ↔ _
    rw [hnew]; split <;> simp <;> omega
  · intro h
    show WideAxisMove.new N f x d = _
    rw [hnew, if_neg (by omega)]
  · unfold WideAxisMove.setDepth; split <;> simp <;> omega
  · intro h; unfold WideAxisMove.setDepth; rw [if_pos h]
  · intro h; unfold WideAxisMove.setDepth; rw [if_neg (by omega)]
  · unfold WideAxisMove.setMaxDepth; split <;> simp <;> omega
  · intro h; unfold WideAxisMove.setMaxDepth; rw [if_neg (by omega)]

/-- two layers more than one is too deep where one is the most -/
example : WideAxisMove.new 1 Face.R .single 2 = none ∧ WideAxisMove.new 2 Face.R .single 2 = some ⟨2, ⟨Face.R, .single⟩⟩ :=
  ⟨(C44_fail_exactly 1 0 Face.R .single 2 ⟨0, ⟨Face.R, .single⟩⟩).1.2 (by decide),
    (C44_fail_exactly 2 0 Face.R .single 2 ⟨0, ⟨Face.R, .single⟩⟩).2.1 (by decide)⟩

/-- **C44** Widening an alg fails exactly when the alg is not empty and the depth exceeds the maximum; otherwise each move
is widened to that depth. -/
theorem C44_alg_widen (N d : Nat) (alg : List AxisMove) :
    (d ≤ N → algWiden alg N d = some (alg.map fun m => ⟨d, m⟩)) ∧
    (algWiden alg N d = none ↔ alg ≠ [] ∧ N < d) := by
  have h1 : d ≤ N → algWiden alg N d = some (alg.map fun m => ⟨d, m⟩) := by
    intro h
    induction alg with
    | nil => rfl
    | cons m alg ih =>
      have hw : AxisMove.widen m N d = some ⟨d, m⟩ := (C44_fail_exactly N N m.face m.amount d ⟨0, m⟩).2.1 h
      simp only [algWiden, List.mapM_cons] at ih ⊢
      rw [hw, ih]
      rfl
  refine ⟨h1, ?_⟩
  constructor
  · intro h
    refine ⟨?_, ?_⟩
    · rintro rfl; cases h
    · by_contra hc
      rw [h1 (by omega)] at h
      cases h
  · rintro ⟨hne, hd⟩
    cases alg with
    | nil => exact absurd rfl hne
    | cons m alg =>
      have hw : AxisMove.widen m N d = none := (C44_fail_exactly N N m.face m.amount d ⟨0, m⟩).1.2 hd
      simp only [algWiden, List.mapM_cons]
      rw [hw]
      rfl

/-- the sexy move, two layers deep -/
example : (algWiden Perms.SEXY_MOVE 2 1).isSome ∧ algWiden Perms.SEXY_MOVE 2 3 = none ∧ algWiden [] 2 3 = some [] :=
  ⟨by rw [(C44_alg_widen 2 1 _).1 (by decide)]; rfl, (C44_alg_widen 2 3 _).2.2 (by decide), rfl⟩

/-- **C44** Sampling (depth drawn from `0..=N`) never panics. -/
theorem C44_sample_no_panic (N : Nat) (f : Face) (x : Amount) (d : Nat) (h : d ≤ N) :
    WideAxisMove.sample? N f x d = some ⟨d, ⟨f, x⟩⟩ :=
  (C44_fail_exactly N N f x d ⟨0, ⟨f, x⟩⟩).2.1 h

/-- a move obtained through three operations -/
example : Obtainable 1 (⟨1, ⟨R, inverse⟩⟩ : WideAxisMove 1) := by
  have h1 : Obtainable 2 (⟨2, ⟨R, single⟩⟩ : WideAxisMove 2) := .widen (m := ⟨R, single⟩) (d := 2) rfl
  have h2 := Obtainable.setDepth 1 h1
  have h3 : Obtainable 1 (⟨1, ⟨R, single⟩⟩ : WideAxisMove 1) := .setMaxDepth h2 rfl
  exact .inverse h3

/-! ## C60 -/

/-- **C60** A text parses as an extended move exactly if it is a spelling of it: face turns, rotations, wide turns and slices, with `M`
and `E` turning against their axis; every other text is refused without a panic. -/
theorem C60_extended_exact (num : Char → Bool) (hn : NumberClass num) (s : List Char) :
    (∀ m, (parse num s : Outcome ExtendedAxisMove) = .ok m ↔ SpellsExtended s m) ∧
    (parse num s : Outcome ExtendedAxisMove) ≠ .panic := by
  rcases extended_parse hn s with ⟨m', h, hp⟩ | ⟨hno, e, hp⟩
  · refine ⟨fun m => ?_, by rw [hp]; simp⟩
    rw [hp]
    exact ⟨fun he => by cases he; exact h, fun h' => by rw [spellsExtended_unique h h']⟩
  · refine ⟨fun m => ?_, by rw [hp]; simp⟩
    rw [hp]
    exact ⟨fun he => by simp at he, fun h' => absurd h' (hno m)⟩

example : SpellsExtended ['M', '2'] (.slice ⟨.X, .double⟩ false) ∧ SpellsExtended ['y', '\''] (.rotation ⟨.Y, .inverse⟩) :=
  ⟨((C60_extended_exact asciiNumber asciiNumber_class _).1 _).1 (by decide), ((C60_extended_exact asciiNumber asciiNumber_class _).1 _).1 (by decide)⟩

/-- **C60** Extended algs are read exactly from the spelled moves in order; one bad word and the whole text is refused. -/
theorem C60_extended_alg (num : Char → Bool) (hn : NumberClass num) (text : List Char) :
    (∀ alg, (parse num text : Outcome (List ExtendedAxisMove)) = .ok alg ↔
      ∃ words, Layout words text ∧ List.Forall₂ SpellsExtended words alg) ∧
    (parse num text : Outcome (List ExtendedAxisMove)) ≠ .panic := by
  constructor
  · intro alg
    show collectOutcomes _ (splitWhitespace text) = _ ↔ _
    rw [collect_ok]
    have hiff : ∀ w (m : ExtendedAxisMove), (parse num w : Outcome ExtendedAxisMove) = .ok m ↔ SpellsExtended w m :=
      fun w m => (C60_extended_exact num hn w).1 m
    simp only [hiff]
    constructor
    · exact fun h => ⟨_, layout_of_split text, h⟩
    · rintro ⟨words, hl, h⟩
      rwa [split_of_layout hl]
  · exact collect_no_panic (fun w => (C60_extended_exact num hn w).2) _

example : (parse asciiNumber "x M' Rw2 3u E2 s D".toList : Outcome (List ExtendedAxisMove)) =
    .ok [.rotation ⟨.X, .single⟩, .slice ⟨.X, .single⟩ false, .wide ⟨1, ⟨Face.R, .double⟩⟩, .wide ⟨3, ⟨Face.U, .single⟩⟩,
      .slice ⟨.Y, .double⟩ false, .slice ⟨.Z, .single⟩ true, .regular ⟨Face.D, .single⟩] := by decide

end Barbarosa
