import Verif.Props.Parser
import Verif.Props.ProgressText

/-!
# C104: what the errors of parsing say
-/

namespace Barbarosa

/-! ## Specification -/

/-- Why a text is refused as a wide move of depth at most `N`: well spelled but too deep, a number that is no decimal digit, or
not in the notation at all. -/
inductive WideRefusal (num : Char → Bool) (N : Nat) (s : List Char) : ParseError → Prop
  | deep {d m} : SpellsWide s d m → N < d → WideRefusal num N s (.uknown d N)
  | number : ForeignNumber num s → WideRefusal num N s (.numParse .invalidDigit)
  | other : (∀ d m, ¬ SpellsWide s d m) → ¬ ForeignNumber num s → WideRefusal num N s .pest

/-- Why a text is refused as an extended move. -/
inductive ExtendedRefusal (num : Char → Bool) (s : List Char) : ParseError → Prop
  | number : ForeignNumber num s → ExtendedRefusal num s (.numParse .invalidDigit)
  | other : (∀ m, ¬ SpellsExtended s m) → ¬ ForeignNumber num s → ExtendedRefusal num s .pest

/-! ## Single texts -/

theorem spellsWide_not_foreign {num : Char → Bool} (hn : NumberClass num) {s d m} (h : SpellsWide s d m) :
    ¬ ForeignNumber num s := by
  rintro ⟨c, body, a, f, x, hnum, hk, _, _, rfl⟩
  obtain ⟨c', t, he, hc⟩ := spellsWide_head h
  obtain ⟨rfl, _⟩ := List.cons.inj he
  rcases hc with hc | hc | ⟨k, hk'⟩
  · rw [num_upper hn hc] at hnum; cases hnum
  · rw [num_lower hn hc] at hnum; cases hnum
  · exact hk k hk'

/-- **C104** Exactly which error is returned for a text that is no wide move: `Uknown` with the depth written and the maximum if the
text is well spelled but too deep, `NumParseError` if the number in front is no decimal digit, an error of the grammar otherwise.
`Unreachable` and `UnexpectedEndOfTokens` never occur. -/
theorem C104_wide (num : Char → Bool) (hn : NumberClass num) (N : Nat) (s : List Char) (e : ParseError) :
    (parse num s : Outcome (WideAxisMove N)) = .err e ↔ WideRefusal num N s e := by
  rcases wideMove_parse_cases hn N s with ⟨d, m, hs, hp⟩ | ⟨hno, hf, hp⟩ | ⟨hno, hf, hp⟩
  · rw [hp]
    by_cases hd : d ≤ N
    · rw [if_pos hd]
      refine ⟨fun h => (by cases h), ?_⟩
      rintro (⟨h, hlt⟩ | h | ⟨h, _⟩)
      · have := (spellsWide_unique hs h).1
        omega
      · exact absurd h (spellsWide_not_foreign hn hs)
      · exact absurd hs (h _ _)
    · rw [if_neg hd]
      constructor
      · intro h
        cases h
        exact .deep hs (by omega)
      · rintro (⟨h, hlt⟩ | h | ⟨h, _⟩)
        · rw [(spellsWide_unique hs h).1]
        · exact absurd h (spellsWide_not_foreign hn hs)
        · exact absurd hs (h _ _)
  · rw [hp]
    constructor
    · intro h
      cases h
      exact .number hf
    · rintro (⟨h, _⟩ | h | ⟨_, h⟩)
      · exact absurd h (hno _ _)
      · rfl
      · exact absurd hf h
  · rw [hp]
    constructor
    · intro h
      cases h
      exact .other hno hf
    · rintro (⟨h, _⟩ | h | ⟨_, h⟩)
      · exact absurd h (hno _ _)
      · exact absurd h hf
      · rfl

/-- the decimal digits and `½` -/
def halfNumber (c : Char) : Bool := asciiNumber c || c == '½'

/-- one text for each error: too deep, a number that is no digit, a move with something behind it -/
example : (parse halfNumber "3Uw'".toList : Outcome (WideAxisMove 2)) = .err (.uknown 3 2) ∧
    (parse halfNumber "½Uw'".toList : Outcome (WideAxisMove 2)) = .err (.numParse .invalidDigit) ∧
    (parse halfNumber "12Uw".toList : Outcome (WideAxisMove 2)) = .err .pest ∧
    (parse halfNumber "Uw'x".toList : Outcome (WideAxisMove 2)) = .err .pest := by decide

/-- the class of numbers with `½` in it is one the theorems speak about -/
theorem halfNumber_class : NumberClass halfNumber := by
  have h := asciiNumber_class
  refine ⟨fun c h0 h9 => by simp [halfNumber, h.digit c h0 h9], fun c h0 h9 => ?_, fun c h0 h9 => ?_⟩
  · have h9' : c.toNat ≤ 90 := h9
    have hne : c ≠ '½' := by rintro rfl; revert h9'; decide
    simp [halfNumber, h.upper c h0 h9, hne]
  · have h9' : c.toNat ≤ 122 := h9
    have hne : c ≠ '½' := by rintro rfl; revert h9'; decide
    simp [halfNumber, h.lower c h0 h9, hne]

example : WideRefusal halfNumber 2 "½Uw'".toList (.numParse .invalidDigit) :=
  .number ⟨'½', ['U', 'w'], ['\''], Face.U, .inverse, by decide, by simp [digitValues], Or.inl ⟨'U', by decide, rfl⟩, by decide,
    by decide⟩

/-- **C104** Exactly which error is returned for a text that is no extended move. A depth is never too great. -/
theorem C104_extended (num : Char → Bool) (hn : NumberClass num) (s : List Char) (e : ParseError) :
    (parse num s : Outcome ExtendedAxisMove) = .err e ↔ ExtendedRefusal num s e := by
  rcases extended_parse_cases hn s with ⟨m, hs, hp⟩ | ⟨hno, hf, hp⟩ | ⟨hno, hf, hp⟩
  · have hnf : ¬ ForeignNumber num s := by
      cases m with
      | regular m => exact spellsWide_not_foreign hn (Or.inl ⟨rfl, hs⟩)
      | wide w => exact spellsWide_not_foreign hn hs.2
      | rotation r =>
        obtain ⟨c, a, hc, _, rfl⟩ := hs
        rintro ⟨c', _, _, _, _, hnum, _, _, _, he⟩
        obtain ⟨rfl, _⟩ := List.cons.inj he
        rw [(num_axisChar hn (axis_axisChar hc)).1] at hnum; cases hnum
      | slice r w =>
        obtain ⟨c, _, _, a, hc, _, _, rfl⟩ := hs
        rintro ⟨c', _, _, _, _, hnum, _, _, _, he⟩
        obtain ⟨rfl, _⟩ := List.cons.inj he
        rw [(num_sliceChar hn (slice_sliceChar hc)).1] at hnum; cases hnum
    rw [hp]
    refine ⟨fun h => (by cases h), ?_⟩
    rintro (h | ⟨h, _⟩)
    · exact absurd h hnf
    · exact absurd hs (h _)
  · rw [hp]
    constructor
    · intro h
      cases h
      exact .number hf
    · rintro (_ | ⟨_, h⟩)
      · rfl
      · exact absurd hf h
  · rw [hp]
    constructor
    · intro h
      cases h
      exact .other hno hf
    · rintro (h | _)
      · exact absurd h hf
      · rfl

/-- a rotation with a wrong mark, a wide move with a number that is no digit -/
example : (parse halfNumber "x3".toList : Outcome ExtendedAxisMove) = .err .pest ∧
    (parse halfNumber "½u".toList : Outcome ExtendedAxisMove) = .err (.numParse .invalidDigit) := by decide

/-- **C104** Amounts, faces, moves, rotations: a text that is refused is refused by the grammar. -/
theorem C104_plain (num : Char → Bool) (s : List Char) (e : ParseError) :
    ((parse num s : Outcome Amount) = .err e ↔ e = .pest ∧ ∀ x, (s, x) ∉ amountMarks) ∧
    ((parse num s : Outcome Face) = .err e ↔ e = .pest ∧ ∀ c f, s = [c] → (c, f) ∉ faceLetters) ∧
    ((parse num s : Outcome AxisMove) = .err e ↔ e = .pest ∧ ∀ m, ¬ Spells s m) ∧
    ((parse num s : Outcome AxisRotation) = .err e ↔ e = .pest ∧ ∀ r, ¬ SpellsRotation s r) := by
  refine ⟨?_, ?_, ?_, ?_⟩
  · rcases amount_parse num s with ⟨x, hx, hp⟩ | ⟨hno, hp⟩
    · rw [hp]; exact ⟨fun h => (by cases h), fun h => absurd hx (h.2 x)⟩
    · rw [hp]; exact ⟨fun h => (by cases h; exact ⟨rfl, hno⟩), fun h => by rw [h.1]⟩
  · rcases face_parse num s with ⟨c, f, hs, hx, hp⟩ | ⟨hno, hp⟩
    · rw [hp]; exact ⟨fun h => (by cases h), fun h => absurd hx (h.2 c f hs)⟩
    · rw [hp]; exact ⟨fun h => (by cases h; exact ⟨rfl, hno⟩), fun h => by rw [h.1]⟩
  · rcases axisMove_parse num s with ⟨x, hx, hp⟩ | ⟨hno, hp⟩
    · rw [hp]; exact ⟨fun h => (by cases h), fun h => absurd hx (h.2 x)⟩
    · rw [hp]; exact ⟨fun h => (by cases h; exact ⟨rfl, hno⟩), fun h => by rw [h.1]⟩
  · rcases rotation_parse num s with ⟨x, hx, hp⟩ | ⟨hno, hp⟩
    · rw [hp]; exact ⟨fun h => (by cases h), fun h => absurd hx (h.2 x)⟩
    · rw [hp]; exact ⟨fun h => (by cases h; exact ⟨rfl, hno⟩), fun h => by rw [h.1]⟩

/-- a wide move is no move of one layer -/
example : (parse asciiNumber "Rw".toList : Outcome AxisMove) = .err .pest ∧ (parse asciiNumber "y'2".toList : Outcome AxisRotation) = .err .pest := by
  decide

/-! ## Axes and numbers -/

/-- **C104** An axis is read from its letter alone; everything else is refused by the grammar. -/
theorem C104_axis (num : Char → Bool) (s : List Char) :
    (∀ a, (parse num s : Outcome Axis) = .ok a ↔ ∃ c, s = [c] ∧ (c, a) ∈ axisLetters) ∧
    (∀ e, (parse num s : Outcome Axis) = .err e ↔ e = .pest ∧ ∀ c a, s = [c] → (c, a) ∉ axisLetters) ∧
    (parse num s : Outcome Axis) ≠ .panic := by
  have key : (∃ c a, s = [c] ∧ (c, a) ∈ axisLetters ∧ (parse num s : Outcome Axis) = .ok a) ∨
      ((∀ c a, s = [c] → (c, a) ∉ axisLetters) ∧ (parse num s : Outcome Axis) = .err .pest) := by
    cases s with
    | nil => exact Or.inr ⟨by simp, parseWith_none (run_axis num [])⟩
    | cons c t =>
      have hr := run_axis num (c :: t)
      by_cases h : c ∈ axisChars
      · simp only [h, if_true] at hr
        have hp : (parse num (c :: t) : Outcome Axis) = _ := parseWith_one (f := Axis.fromPest) hr
        rw [hp]
        cases t with
        | nil =>
          obtain ⟨f, hf⟩ := axisChar_axis h
          refine Or.inl ⟨c, f, rfl, hf, ?_⟩
          rw [if_pos rfl]
          exact axis_fromPest hf _ _
        | cons d t => exact Or.inr ⟨by simp, if_neg (by simp)⟩
      · simp only [h, if_false] at hr
        refine Or.inr ⟨fun c' f hc hf => h ?_, parseWith_none hr⟩
        obtain ⟨rfl, rfl⟩ := List.cons.inj hc
        exact axis_axisChar hf
  rcases key with ⟨c, a, hs, ha, hp⟩ | ⟨hno, hp⟩
  · rw [hp]
    refine ⟨fun b => ⟨fun h => (by cases h; exact ⟨c, hs, ha⟩), ?_⟩, fun e => ⟨fun h => (by cases h), fun h => absurd ha (h.2 c a hs)⟩,
      by simp⟩
    rintro ⟨c', hs', hb⟩
    rw [hs] at hs'
    obtain ⟨rfl, _⟩ := List.cons.inj hs'
    rw [axisLetters_unique ha hb]
  · rw [hp]
    exact ⟨fun b => ⟨fun h => (by cases h), fun ⟨c, hs, h⟩ => absurd h (hno c b hs)⟩,
      fun e => ⟨fun h => (by cases h; exact ⟨rfl, hno⟩), fun h => by rw [h.1]⟩, by simp⟩

example : (parse asciiNumber "y".toList : Outcome Axis) = .ok .Y ∧ (parse asciiNumber "Y".toList : Outcome Axis) = .err .pest := by decide

/-- **C104** Which texts `u32::parse` of the crate reads: the empty text as 0 and single decimal digits. A single number of another
kind is refused as a number, every other text by the grammar. -/
theorem C104_u32 (num : Char → Bool) (hn : NumberClass num) (s : List Char) :
    (∀ n, (parse num s : Outcome Nat) = .ok n ↔ (s = [] ∧ n = 0) ∨ ∃ c, s = [c] ∧ (c, n) ∈ digitValues) ∧
    (∀ e, (parse num s : Outcome Nat) = .err e ↔
      (e = .numParse .invalidDigit ∧ ∃ c, s = [c] ∧ num c = true ∧ ∀ k, (c, k) ∉ digitValues) ∨
      (e = .pest ∧ s ≠ [] ∧ ∀ c, s = [c] → num c = false)) ∧
    (parse num s : Outcome Nat) ≠ .panic := by
  have hp : (parse num s : Outcome Nat) = _ := parseWith_one (rule := .depth) (f := depthFromPest) (run_depth num s)
  rw [hp]
  cases s with
  | nil =>
    simp only [splitNum, if_true, depthFromPest, Pair.text]
    refine ⟨fun n => ⟨fun h => (by cases h; simp), ?_⟩, fun e => ⟨fun h => (by cases h), ?_⟩, by simp⟩
    · rintro (⟨_, rfl⟩ | ⟨c, h, _⟩)
      · rfl
      · cases h
    · rintro (⟨_, c, h, _⟩ | ⟨_, h, _⟩)
      · cases h
      · exact absurd rfl h
  | cons c t =>
    by_cases hc : num c = true
    · simp only [splitNum, hc, if_true]
      cases t with
      | nil =>
        rw [if_pos rfl]
        simp only [depthFromPest, Pair.text, reduceCtorEq, if_false]
        rcases parseU32_single c with ⟨k, hk, he⟩ | ⟨hk, he⟩
        · rw [he]
          refine ⟨fun n => ⟨fun h => (by cases h; exact Or.inr ⟨c, rfl, hk⟩), ?_⟩, fun e => ⟨fun h => (by cases h), ?_⟩, by simp⟩
          · rintro (⟨h, _⟩ | ⟨c', h, hn'⟩)
            · cases h
            · obtain ⟨rfl, _⟩ := List.cons.inj h
              rw [digitValues_unique hk hn']
          · rintro (⟨_, c', h, _, hno⟩ | ⟨_, _, h⟩)
            · obtain ⟨rfl, _⟩ := List.cons.inj h
              exact absurd hk (hno k)
            · rw [h c rfl] at hc; cases hc
        · rw [he]
          refine ⟨fun n => ⟨fun h => (by cases h), ?_⟩, fun e => ⟨fun h => ?_, ?_⟩, by simp⟩
          · rintro (⟨h, _⟩ | ⟨c', h, hn'⟩)
            · cases h
            · obtain ⟨rfl, _⟩ := List.cons.inj h
              exact absurd hn' (hk n)
          · cases h
            exact Or.inl ⟨rfl, c, rfl, hc, hk⟩
          · rintro (⟨rfl, _⟩ | ⟨_, _, h⟩)
            · rfl
            · rw [h c rfl] at hc; cases hc
      | cons d t =>
        rw [if_neg (by simp)]
        refine ⟨fun n => ⟨fun h => (by cases h), ?_⟩, fun e => ⟨fun h => ?_, ?_⟩, by simp⟩
        · rintro (⟨h, _⟩ | ⟨c', h, hn'⟩) <;> cases h
        · cases h
          exact Or.inr ⟨rfl, by simp, fun _ h => by cases h⟩
        · rintro (⟨_, c', h, _⟩ | ⟨rfl, _⟩)
          · cases h
          · rfl
    · simp only [splitNum, hc, if_false, Bool.false_eq_true]
      rw [if_neg (by simp)]
      refine ⟨fun n => ⟨fun h => (by cases h), ?_⟩, fun e => ⟨fun h => ?_, ?_⟩, by simp⟩
      · rintro (⟨h, _⟩ | ⟨c', h, hn'⟩)
        · cases h
        · obtain ⟨rfl, _⟩ := List.cons.inj h
          exact absurd (num_digit hn hn') hc
      · cases h
        refine Or.inr ⟨rfl, by simp, fun c' h => ?_⟩
        obtain ⟨rfl, _⟩ := List.cons.inj h
        simpa using hc
      · rintro (⟨_, c', h, hc', _⟩ | ⟨rfl, _⟩)
        · obtain ⟨rfl, _⟩ := List.cons.inj h
          exact absurd hc' hc
        · rfl

example : (parse halfNumber "7".toList : Outcome Nat) = .ok 7 ∧ (parse halfNumber "½".toList : Outcome Nat) = .err (.numParse .invalidDigit) ∧
    (parse halfNumber "12".toList : Outcome Nat) = .err .pest := by
  refine ⟨((C104_u32 halfNumber halfNumber_class _).1 7).2 (Or.inr ⟨'7', rfl, by decide⟩),
    ((C104_u32 halfNumber halfNumber_class _).2.1 _).2 (Or.inl ⟨rfl, '½', rfl, by decide, by simp [digitValues]⟩),
    ((C104_u32 halfNumber halfNumber_class _).2.1 _).2 (Or.inr ⟨rfl, by decide, fun c h => ?_⟩)⟩
  cases h

/-- **C104** The documentation of `Parsable` says that a type with `FromStr` gets the trait from it. For `u32` the two differ: `12` is
refused by the one and read by the other, the empty text the other way round. -/
theorem C104_u32_not_from_str (num : Char → Bool) (hn : NumberClass num) :
    (parse num "12".toList : Outcome Nat) = .err .pest ∧ parseU32 "12".toList = .ok 12 ∧
    (parse num [] : Outcome Nat) = .ok 0 ∧ parseU32 [] = .error .empty := by
  refine ⟨((C104_u32 num hn _).2.1 _).2 (Or.inr ⟨rfl, by decide, ?_⟩), by decide, ((C104_u32 num hn _).1 _).2 (Or.inl ⟨rfl, rfl⟩),
    by decide⟩
  intro c h
  have h2 : (2 : Nat) = 1 := congrArg List.length h
  omega

example : (parse halfNumber "7".toList : Outcome Nat) = .ok 7 ∧ (parse halfNumber "½".toList : Outcome Nat) = .err (.numParse .invalidDigit) := by
  decide

/-! ## Algs -/

theorem collect_err {T : Type} {f : List Char → Outcome T} {ws : List (List Char)} {e : ParseError} :
    collectOutcomes f ws = .err e ↔
      ∃ pre w post, ws = pre ++ w :: post ∧ (∀ p ∈ pre, ∃ m, f p = .ok m) ∧ f w = .err e := by
  induction ws with
  | nil =>
    refine ⟨fun h => (by cases h), ?_⟩
    rintro ⟨pre, w, post, h, _⟩
    simp at h
  | cons w ws ih =>
    simp only [collectOutcomes]
    cases hf : f w with
    | err e' =>
      simp only [bind_err, Outcome.err.injEq]
      constructor
      · rintro rfl
        exact ⟨[], w, ws, rfl, by simp, hf⟩
      · rintro ⟨pre, w', post, h, hpre, he⟩
        cases pre with
        | nil =>
          obtain ⟨rfl, _⟩ := List.cons.inj h
          rw [hf] at he
          injection he
        | cons p pre =>
          obtain ⟨rfl, _⟩ := List.cons.inj h
          obtain ⟨m, hm⟩ := hpre w (by simp)
          rw [hf] at hm
          cases hm
    | panic =>
      simp only [bind_panic, reduceCtorEq, false_iff]
      rintro ⟨pre, w', post, h, hpre, he⟩
      cases pre with
      | nil =>
        obtain ⟨rfl, _⟩ := List.cons.inj h
        rw [hf] at he
        cases he
      | cons p pre =>
        obtain ⟨rfl, _⟩ := List.cons.inj h
        obtain ⟨m, hm⟩ := hpre w (by simp)
        rw [hf] at hm
        cases hm
    | ok m =>
      have e1 : ((Outcome.ok m >>= fun m => collectOutcomes f ws >>= fun ms => pure (m :: ms)) = .err e) ↔
          collectOutcomes f ws = .err e := by
        rw [bind_ok]
        cases collectOutcomes f ws <;> simp
      rw [e1, ih]
      constructor
      · rintro ⟨pre, w', post, rfl, hpre, he⟩
        refine ⟨w :: pre, w', post, rfl, ?_, he⟩
        intro p hp
        rcases List.mem_cons.1 hp with rfl | hp
        · exact ⟨m, hf⟩
        · exact hpre p hp
      · rintro ⟨pre, w', post, h, hpre, he⟩
        cases pre with
        | nil =>
          obtain ⟨rfl, _⟩ := List.cons.inj h
          rw [hf] at he
          cases he
        | cons p pre =>
          exact ⟨pre, w', post, (List.cons.inj h).2, fun q hq => hpre q (List.mem_cons_of_mem _ hq), he⟩

/-- **C104** An alg that is refused is refused with the error of its first bad word; whatever comes behind has no influence. -/
theorem C104_alg {M : Type} [Parsable M] (num : Char → Bool) (text : List Char) (words : List (List Char)) (hl : Layout words text)
    (e : ParseError) :
    (parse num text : Outcome (List M)) = .err e ↔
      ∃ pre w post, words = pre ++ w :: post ∧ (∀ p ∈ pre, ∃ m : M, parse num p = .ok m) ∧ (parse num w : Outcome M) = .err e := by
  show collectOutcomes _ (splitWhitespace text) = _ ↔ _
  rw [split_of_layout hl]
  exact collect_err

/-- the second of three words is not a move: its error is the one returned, whatever comes after it -/
example : (parse asciiNumber "R Q' 3".toList : Outcome (List AxisMove)) = .err .pest :=
  (C104_alg asciiNumber "R Q' 3".toList ["R".toList, "Q'".toList, "3".toList]
    (layout_of_split "R Q' 3".toList) .pest).2 ⟨["R".toList], "Q'".toList, ["3".toList], rfl, by simp; exact ⟨⟨Face.R, .single⟩, by decide⟩, by decide⟩

/-- **C104** Algs of moves, of wide moves and of extended moves, without reference to how a single move is parsed. -/
theorem C104_algs (num : Char → Bool) (hn : NumberClass num) (N : Nat) (text : List Char) (words : List (List Char))
    (hl : Layout words text) (e : ParseError) :
    ((parse num text : Outcome (List AxisMove)) = .err e ↔ e = .pest ∧ ∃ w ∈ words, ∀ m, ¬ Spells w m) ∧
    ((parse num text : Outcome (List (WideAxisMove N))) = .err e ↔
      ∃ pre w post, words = pre ++ w :: post ∧ (∀ p ∈ pre, ∃ d m, SpellsWide p d m ∧ d ≤ N) ∧ WideRefusal num N w e) ∧
    ((parse num text : Outcome (List ExtendedAxisMove)) = .err e ↔
      ∃ pre w post, words = pre ++ w :: post ∧ (∀ p ∈ pre, ∃ m, SpellsExtended p m) ∧ ExtendedRefusal num w e) := by
  refine ⟨?_, ?_, ?_⟩
  · constructor
    · intro h
      obtain ⟨pre, w, post, rfl, _, he⟩ := (C104_alg num text words hl e).1 h
      obtain ⟨rfl, hno⟩ := (C104_plain num w e).2.2.1.1 he
      exact ⟨rfl, w, by simp, hno⟩
    · rintro ⟨rfl, w, hw, hno⟩
      rcases hp : (parse num text : Outcome (List AxisMove)) with alg | e | _
      · exfalso
        obtain ⟨words', hl', hf⟩ := ((C42_alg num text).1 alg).1 hp
        obtain rfl : words = words' := (split_of_layout hl).symm.trans (split_of_layout hl')
        clear hl hl' hp
        induction hf with
        | nil => cases hw
        | cons h _ ih =>
          rcases List.mem_cons.1 hw with rfl | hw
          · exact hno _ h
          · exact ih hw
      · obtain ⟨pre, w', post, _, _, he⟩ := (C104_alg num text words hl e).1 hp
        rw [((C104_plain num w' e).2.2.1.1 he).1]
      · exact absurd hp (C42_alg num text).2
  · rw [C104_alg num text words hl e]
    have hok : ∀ p, (∃ m : WideAxisMove N, parse num p = .ok m) ↔ ∃ d m, SpellsWide p d m ∧ d ≤ N := by
      intro p
      constructor
      · rintro ⟨w, hw⟩
        obtain ⟨h1, h2⟩ := ((C59_wide_exact num hn N p).1 w).1 hw
        exact ⟨_, _, h1, h2⟩
      · rintro ⟨d, m, h1, h2⟩
        exact ⟨⟨d, m⟩, ((C59_wide_exact num hn N p).1 ⟨d, m⟩).2 ⟨h1, h2⟩⟩
    simp only [hok, C104_wide num hn]
  · rw [C104_alg num text words hl e]
    simp only [(C60_extended_exact num hn _).1, C104_extended num hn]

/-- the first bad word decides, not the second -/
example : (parse halfNumber "R 3Uw ½Fw z".toList : Outcome (List (WideAxisMove 2))) = .err (.uknown 3 2) ∧
    (parse halfNumber "R ½Fw 3Uw z".toList : Outcome (List (WideAxisMove 2))) = .err (.numParse .invalidDigit) ∧
    (parse halfNumber "R z ½Fw 3Uw".toList : Outcome (List (WideAxisMove 2))) = .err .pest ∧
    (parse halfNumber "R z ½f 3Uw".toList : Outcome (List ExtendedAxisMove)) = .err (.numParse .invalidDigit) := by decide

/-! ## Messages -/

theorem uknown_message (pestText : List Char) (g m : Nat) : ParseError.message pestText (.uknown g m) =
    "Statically uknown error: ".toList ++ ("Exceded maximum depth (given: ".toList ++ Nat.toDigits 10 g ++ ", max: ".toList ++
      Nat.toDigits 10 m ++ [')']) := by
  unfold ParseError.message excededDepthMessage
  rfl

theorem uknown_message_inj {x y z : List Char} {d N d' N' : Nat}
    (h : x ++ (y ++ Nat.toDigits 10 d ++ (',' :: z) ++ Nat.toDigits 10 N ++ [')']) =
      x ++ (y ++ Nat.toDigits 10 d' ++ (',' :: z) ++ Nat.toDigits 10 N' ++ [')'])) : d' = d ∧ N' = N := by
  simp only [List.append_assoc, List.append_cancel_left_eq, List.cons_append] at h
  obtain ⟨h1, h2⟩ := append_sep_inj (not_mem_digits (by decide)) (not_mem_digits (by decide)) h
  rw [List.append_cancel_left_eq] at h2
  exact ⟨(digits_inj h1).symm, (digits_inj (append_sep_inj (not_mem_digits (by decide)) (not_mem_digits (by decide)) h2).1).symm⟩

/-- **C104** What the message of a wide move that is too deep says, word for word: the depth that is written in front of the letter
(1 if there is none) and the maximum. Whoever reads the message knows both numbers. -/
theorem C104_deep_message (num : Char → Bool) (hn : NumberClass num) (N : Nat) (s : List Char) (d : Nat) (m : AxisMove)
    (hs : SpellsWide s d m) (hd : N < d) (pestText : List Char) :
    (∃ e, (parse num s : Outcome (WideAxisMove N)) = .err e ∧
      e.message pestText = "Statically uknown error: ".toList ++ ("Exceded maximum depth (given: ".toList ++ Nat.toDigits 10 d ++
        ", max: ".toList ++ Nat.toDigits 10 N ++ [')'])) ∧
    ∀ d' N', ParseError.message pestText (.uknown d N) = ParseError.message pestText (.uknown d' N') → d' = d ∧ N' = N := by
  constructor
  · exact ⟨.uknown d N, (C104_wide num hn N s _).2 (.deep hs hd), uknown_message _ _ _⟩
  · intro d' N' h
    have e : ", max: ".toList = ',' :: " max: ".toList := by decide
    rw [uknown_message, uknown_message, e] at h
    exact uknown_message_inj h

/-- the message for three layers more where two are the most -/
example : (parse asciiNumber "3Uw'".toList : Outcome (WideAxisMove 2)) = .err (.uknown 3 2) ∧
    ParseError.message [] (.uknown 3 2) = "Statically uknown error: Exceded maximum depth (given: 3, max: 2)".toList := by
  decide +kernel

/-- **C104** What the message of a number that is no decimal digit says, word for word. -/
theorem C104_number_message (num : Char → Bool) (hn : NumberClass num) (N : Nat) (s : List Char) (hs : ForeignNumber num s)
    (pestText : List Char) :
    (∃ e, (parse num s : Outcome (WideAxisMove N)) = .err e ∧
      e.message pestText = "Error while parsing number: ".toList ++ "invalid digit found in string".toList) ∧
    (∃ e, (parse num s : Outcome ExtendedAxisMove) = .err e ∧
      e.message pestText = "Error while parsing number: ".toList ++ "invalid digit found in string".toList) :=
  ⟨⟨_, (C104_wide num hn N s _).2 (.number hs), by unfold ParseError.message IntErrorKind.message; rfl⟩,
    ⟨_, (C104_extended num hn s _).2 (.number hs), by unfold ParseError.message IntErrorKind.message; rfl⟩⟩

example : (parse halfNumber "½r".toList : Outcome ExtendedAxisMove) = .err (.numParse .invalidDigit) ∧
    ParseError.message [] (.numParse .invalidDigit) = "Error while parsing number: invalid digit found in string".toList := by
  decide +kernel

/-- **C104** A printed wide move that is read back with the wrong depth is refused, when it is, with a message that names the wrong
depth: the deepest move of a cube is said to be one deeper than it is. -/
theorem C104_printed_then_refused (num : Char → Bool) (hn : NumberClass num) (N : Nat) (h2 : 2 ≤ N) (h8 : N ≤ 8) (m : AxisMove) :
    ∃ s, (⟨N, m⟩ : WideAxisMove N).display? = some s ∧ (parse num s : Outcome (WideAxisMove N)) = .err (.uknown (N + 1) N) := by
  obtain ⟨s, h, hp⟩ := C43_printed_form num hn N ⟨N, m⟩ h2 h8
  refine ⟨s, h, ?_⟩
  rw [hp, if_neg (by simp)]

example : ∃ s, (⟨2, ⟨Face.R, .single⟩⟩ : WideAxisMove 2).display? = some s ∧
    (parse asciiNumber s : Outcome (WideAxisMove 2)) = .err (.uknown 3 2) :=
  C104_printed_then_refused asciiNumber asciiNumber_class 2 (by decide) (by decide) _

end Barbarosa
