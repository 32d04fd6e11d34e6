import Mathlib.Data.List.Forall2
import Verif.Lemmas.Parser

/-!
# Lemmas about the parser: rotations, slices, extended moves, algs
-/

namespace Barbarosa

theorem axisLetters_unique {c f g} (h : (c, f) ∈ axisLetters) (h' : (c, g) ∈ axisLetters) : f = g := by
  simp only [axisLetters, List.mem_cons, Prod.mk.injEq, List.not_mem_nil, or_false] at h h'
  rcases h with ⟨rfl, rfl⟩ | ⟨rfl, rfl⟩ | ⟨rfl, rfl⟩ <;> simp at h' <;> exact h'.symm

/-- The letters of the axes in the grammar. -/
def axisChars : List Char := ['x', 'y', 'z']
/-- The letters of the slices in the grammar. -/
def sliceChars : List Char := ['M', 'E', 'S', 'm', 'e', 's']

theorem axisChar_axis {c} (h : c ∈ axisChars) : ∃ a, (c, a) ∈ axisLetters := by
  simp only [axisChars, List.mem_cons, List.not_mem_nil, or_false] at h
  rcases h with rfl | rfl | rfl <;> simp [axisLetters]

theorem axis_axisChar {c a} (h : (c, a) ∈ axisLetters) : c ∈ axisChars := by
  simp only [axisLetters, List.mem_cons, Prod.mk.injEq, List.not_mem_nil, or_false] at h
  rcases h with ⟨rfl, rfl⟩ | ⟨rfl, rfl⟩ | ⟨rfl, rfl⟩ <;> simp [axisChars]

theorem axis_fromPest {c a} (h : (c, a) ∈ axisLetters) (r : Rule) (ps : List Pair) :
    Axis.fromPest (.mk r [c] ps) = .ok a := by
  simp only [axisLetters, List.mem_cons, Prod.mk.injEq, List.not_mem_nil, or_false] at h
  rcases h with ⟨rfl, rfl⟩ | ⟨rfl, rfl⟩ | ⟨rfl, rfl⟩ <;> simp [Axis.fromPest, Pair.text]

theorem run_axis (num : Char → Bool) (s : List Char) :
    Grammar.axis.run num s =
      match s with
      | [] => none
      | c :: t => if c ∈ axisChars then some ⟨[.mk .axis [c] []], [c], t⟩ else none := by
  simp only [Grammar.axis, Peg.run, run_letters]
  cases s with
  | nil => rfl
  | cons c t =>
    simp only [show (c ∈ 'x' :: ['y', 'z']) = (c ∈ axisChars) from rfl]
    by_cases h : c ∈ axisChars
    · simp only [h, if_true]
    · simp only [h, if_false]

theorem run_rotation (num : Char → Bool) (s : List Char) :
    Grammar.rotation.run num s =
      match s with
      | [] => none
      | c :: t =>
        if c ∈ axisChars then
          some ⟨[.mk .rotation (c :: (splitMark t).1) [.mk .axis [c] [], .mk .amount (splitMark t).1 []]],
            c :: (splitMark t).1, (splitMark t).2⟩
        else none := by
  simp only [Grammar.rotation, Peg.run, run_axis]
  cases s with
  | nil => rfl
  | cons c t =>
    by_cases h : c ∈ axisChars
    · simp [h, run_amount]
    · simp [h]

theorem rotation_fromPest {c t r} (h : (c, r.axis) ∈ axisLetters) (ht : (t, r.amount) ∈ amountMarks) (k : Rule) (text) :
    AxisRotation.fromPest (.mk k text [.mk .axis [c] [], .mk .amount t []]) = .ok r := by
  simp [AxisRotation.fromPest, Pair.inner, nextPair, axis_fromPest h, amount_fromPest ht]

theorem rotation_parse (num : Char → Bool) (s : List Char) :
    (∃ r, SpellsRotation s r ∧ (parse num s : Outcome AxisRotation) = .ok r) ∨
      ((∀ r, ¬ SpellsRotation s r) ∧ (parse num s : Outcome AxisRotation) = .err .pest) := by
  cases s with
  | nil => exact Or.inr ⟨by rintro m ⟨c, a, _, _, h⟩; simp at h, parseWith_none (run_rotation num [])⟩
  | cons c t =>
    have hr := run_rotation num (c :: t)
    by_cases h : c ∈ axisChars
    · simp only [h, if_true] at hr
      have hp : (parse num (c :: t) : Outcome AxisRotation) = _ := parseWith_one (f := AxisRotation.fromPest) hr
      rw [hp]
      by_cases hs : (splitMark t).1.length = t.length
      · obtain ⟨x, hx⟩ := (splitMark_full t).1 hs
        obtain ⟨f, hf⟩ := axisChar_axis h
        refine Or.inl ⟨⟨f, x⟩, ⟨c, t, hf, hx, rfl⟩, ?_⟩
        rw [if_pos (by simp [hs]), splitMark_mark hx]
        exact rotation_fromPest (r := ⟨f, x⟩) hf hx _ _
      · refine Or.inr ⟨?_, if_neg (by simp [hs])⟩
        rintro m ⟨c', a, hc, ha, he⟩
        obtain ⟨rfl, rfl⟩ := List.cons.inj he
        exact hs ((splitMark_full _).2 ⟨_, ha⟩)
    · simp only [h, if_false] at hr
      refine Or.inr ⟨?_, parseWith_none hr⟩
      rintro m ⟨c', a, hc, ha, he⟩
      obtain ⟨rfl, rfl⟩ := List.cons.inj he
      exact h (axis_axisChar hc)

/-! ## Slices -/

theorem sliceChar_slice {c} (h : c ∈ sliceChars) : ∃ a w d, (c, a, w, d) ∈ sliceLetters := by
  simp only [sliceChars, List.mem_cons, List.not_mem_nil, or_false] at h
  rcases h with rfl | rfl | rfl | rfl | rfl | rfl <;> simp [sliceLetters]

theorem slice_sliceChar {c a w d} (h : (c, a, w, d) ∈ sliceLetters) : c ∈ sliceChars := by
  simp only [sliceLetters, List.mem_cons, Prod.mk.injEq, List.not_mem_nil, or_false] at h
  rcases h with ⟨rfl, _⟩ | ⟨rfl, _⟩ | ⟨rfl, _⟩ | ⟨rfl, _⟩ | ⟨rfl, _⟩ | ⟨rfl, _⟩ <;> simp [sliceChars]

/-- The rule of a slice letter. -/
def sliceRule (c : Char) : Rule := if c ∈ ['M', 'E', 'S'] then .slice else .sliceSmall

theorem run_sliceMove (num : Char → Bool) (s : List Char) :
    Grammar.sliceMove.run num s =
      match s with
      | [] => none
      | c :: t =>
        if c ∈ sliceChars then
          some ⟨[.mk .sliceMove (c :: (splitMark t).1) [.mk (sliceRule c) [c] [], .mk .amount (splitMark t).1 []]],
            c :: (splitMark t).1, (splitMark t).2⟩
        else none := by
  simp only [Grammar.sliceMove, Grammar.slice, Grammar.sliceSmall, Peg.run, run_letters]
  cases s with
  | nil => rfl
  | cons c t =>
    have hsplit : c ∈ sliceChars ↔ c ∈ 'M' :: ['E', 'S'] ∨ c ∈ 'm' :: ['e', 's'] := by
      simp [sliceChars, or_assoc]
    by_cases h : c ∈ 'M' :: ['E', 'S']
    · have h' : c ∈ sliceChars := hsplit.2 (Or.inl h)
      simp only [h, h', if_true, sliceRule]
      simp [run_amount]
    · by_cases h2 : c ∈ 'm' :: ['e', 's']
      · have h' : c ∈ sliceChars := hsplit.2 (Or.inr h2)
        simp only [h, h2, h', if_true, if_false, sliceRule]
        simp [run_amount]
      · have h' : c ∉ sliceChars := fun hc => (hsplit.1 hc).elim h h2
        simp only [h, h2, h', if_false]

theorem slice_fromPest {c a w d t x} (h : (c, a, w, d) ∈ sliceLetters) (ht : (t, x) ∈ amountMarks) (k k' : Rule) (text) :
    parseSliceMove (.mk k text [.mk k' [c] [], .mk .amount t []]) = .ok (⟨a, against d x⟩, w) := by
  simp only [sliceLetters, List.mem_cons, Prod.mk.injEq, List.not_mem_nil, or_false] at h
  rcases h with ⟨rfl, rfl, rfl, rfl⟩ | ⟨rfl, rfl, rfl, rfl⟩ | ⟨rfl, rfl, rfl, rfl⟩ | ⟨rfl, rfl, rfl, rfl⟩ |
    ⟨rfl, rfl, rfl, rfl⟩ | ⟨rfl, rfl, rfl, rfl⟩ <;>
    (simp [parseSliceMove, Pair.inner, nextPair, parseSlice, Pair.text, amount_fromPest ht]; cases x <;> rfl)

/-! ## Extended moves -/

/-- A match of a rule makes one pair, with the matched text. -/
theorem run_rule_shape {num : Char → Bool} {k : Rule} {a : Peg} {s : List Char} {m : Matched}
    (h : (Peg.rule k a).run num s = some m) : ∃ ps, m = ⟨[.mk k m.text ps], m.text, m.rest⟩ := by
  simp only [Peg.run] at h
  cases ha : a.run num s with
  | none => rw [ha] at h; simp at h
  | some n =>
    rw [ha] at h
    simp only [Option.some.injEq] at h
    subst h
    exact ⟨n.pairs, rfl⟩

theorem wide_run_none {num : Char → Bool} {c : Char} {t : List Char} (hn : num c = false) (hl : c ∉ lowers) (hu : c ∉ uppers) :
    Grammar.wideMove.run num (c :: t) = none := by
  simp [Grammar.wideMove, Peg.run, run_depth, splitNum, hn, run_wideFace, run_face, hl, hu]

theorem wide_run_upper {num : Char → Bool} {c : Char} {t : List Char} (hu : c ∈ uppers) :
    Grammar.wideMove.run num (c :: t) ≠ none := by
  simp only [Grammar.wideMove, Peg.run, run_depth, run_face, hu, if_true, run_amount]
  cases Grammar.wideFace.run num (splitNum num (c :: t)).2 <;> simp

theorem extended_of_wide {num : Char → Bool} {s : List Char} (h1 : Grammar.rotation.run num s = none)
    (h2 : Grammar.sliceMove.run num s = none) :
    (parse num s : Outcome ExtendedAxisMove) = (do
      let m ← (parse num s : Outcome (WideAxisMove U32_MAX))
      match m.depth with
      | 0 => return .regular m.axisMove
      | _ => return .wide m) := by
  cases hw : Grammar.wideMove.run num s with
  | none =>
    have ha : Grammar.axisMove.run num s = none := by
      rw [run_axisMove]
      cases s with
      | nil => rfl
      | cons c t =>
        by_cases hu : c ∈ uppers
        · exact absurd hw (wide_run_upper hu)
        · simp [hu]
    have he : (parse num s : Outcome ExtendedAxisMove) = .err .pest := by
      refine parseWith_none ?_
      simp only [Grammar.ofRule, Grammar.extendedMove, Peg.run, hw, ha, h1, h2]
    have hp : (parse num s : Outcome (WideAxisMove U32_MAX)) = .err .pest := parseWith_none hw
    rw [he, hp]
    rfl
  | some m =>
    obtain ⟨ps, hm⟩ := run_rule_shape hw
    have hr : (Grammar.ofRule .extendedMove).run num s =
        some ⟨[.mk .extendedMove m.text [.mk .wideMove m.text ps]], m.text, m.rest⟩ := by
      simp only [Grammar.ofRule, Grammar.extendedMove, Peg.run]
      rw [hw]
      simp only
      rw [hm]
    have he : (parse num s : Outcome ExtendedAxisMove) = _ := parseWith_one hr
    have hp : (parse num s : Outcome (WideAxisMove U32_MAX)) = _ := parseWith_one (rule := .wideMove) (hw.trans (congrArg some hm))
    rw [he, hp]
    by_cases hl : m.text.length = s.length
    · rw [if_pos hl, if_pos hl]
      simp only [ExtendedAxisMove.fromPest, Pair.inner, nextPair, bind_ok, Pair.rule]
      cases WideAxisMove.fromPest num U32_MAX (Pair.mk Rule.wideMove m.text ps) with
      | ok w => simp only [bind_ok]; cases hd : w.depth <;> rfl
      | err e => rfl
      | panic => rfl
    · rw [if_neg hl, if_neg hl]
      rfl

theorem num_axisChar {num} (hn : NumberClass num) {c} (h : c ∈ axisChars) :
    num c = false ∧ c ∉ lowers ∧ c ∉ uppers ∧ c ∉ sliceChars := by
  simp only [axisChars, List.mem_cons, List.not_mem_nil, or_false] at h
  rcases h with rfl | rfl | rfl <;>
    exact ⟨hn.lower _ (by decide) (by decide), by decide, by decide, by decide⟩

theorem num_sliceChar {num} (hn : NumberClass num) {c} (h : c ∈ sliceChars) :
    num c = false ∧ c ∉ lowers ∧ c ∉ uppers ∧ c ∉ axisChars := by
  simp only [sliceChars, List.mem_cons, List.not_mem_nil, or_false] at h
  rcases h with rfl | rfl | rfl | rfl | rfl | rfl <;>
    first
    | exact ⟨hn.lower _ (by decide) (by decide), by decide, by decide, by decide⟩
    | exact ⟨hn.upper _ (by decide) (by decide), by decide, by decide, by decide⟩

/-- The first letter of a spelling of a face or wide turn. -/
theorem spellsWide_head {s d m} (h : SpellsWide s d m) :
    ∃ c t, s = c :: t ∧ (c ∈ uppers ∨ c ∈ lowers ∨ ∃ k, (c, k) ∈ digitValues) := by
  rcases h with ⟨_, c, a, hc, _, rfl⟩ | ⟨pre, body, a, hpre, hb, _, rfl⟩
  · exact ⟨c, a, rfl, Or.inl (face_upper hc)⟩
  · rcases hpre with ⟨rfl, _⟩ | ⟨c, k, hk, rfl, _⟩
    · rcases hb with ⟨c, hc, rfl⟩ | ⟨c, hc, rfl⟩
      · exact ⟨c, _, rfl, Or.inl (face_upper hc)⟩
      · exact ⟨c, _, rfl, Or.inr (Or.inl (face_lower hc))⟩
    · exact ⟨c, _, rfl, Or.inr (Or.inr ⟨k, hk⟩)⟩

theorem spellsWide_of_extended {s w} (h : SpellsExtended s (.wide w)) : SpellsWide s w.depth w.axisMove := h.2

theorem extended_parse_cases {num : Char → Bool} (hn : NumberClass num) (s : List Char) :
    (∃ m, SpellsExtended s m ∧ (parse num s : Outcome ExtendedAxisMove) = .ok m) ∨
      ((∀ m, ¬ SpellsExtended s m) ∧ ForeignNumber num s ∧
        (parse num s : Outcome ExtendedAxisMove) = .err (.numParse .invalidDigit)) ∨
      ((∀ m, ¬ SpellsExtended s m) ∧ ¬ ForeignNumber num s ∧ (parse num s : Outcome ExtendedAxisMove) = .err .pest) := by
  -- a spelling of a face or wide turn does not begin with an axis or slice letter
  have hdis : ∀ {d m c t}, SpellsWide s d m → s = c :: t → c ∉ axisChars ∧ c ∉ sliceChars := by
    intro d m c t hs hc
    obtain ⟨c', t', hc', hk⟩ := spellsWide_head hs
    rw [hc] at hc'
    obtain ⟨rfl, _⟩ := List.cons.inj hc'
    constructor
    · intro h
      obtain ⟨h1, h2, h3, _⟩ := num_axisChar hn h
      rcases hk with hk | hk | ⟨k, hk⟩
      · exact h3 hk
      · exact h2 hk
      · rw [num_digit hn hk] at h1; cases h1
    · intro h
      obtain ⟨h1, h2, h3, _⟩ := num_sliceChar hn h
      rcases hk with hk | hk | ⟨k, hk⟩
      · exact h3 hk
      · exact h2 hk
      · rw [num_digit hn hk] at h1; cases h1
  have hchar : ∀ {c t}, s = c :: t → c ∈ axisChars ∨ c ∈ sliceChars → ∀ m, SpellsExtended s m →
      (∃ r, m = .rotation r) ∨ (∃ r w, m = .slice r w) := by
    intro c t hc h m hm
    cases m with
    | regular m => exact absurd h (not_or.2 (hdis (Or.inl ⟨rfl, hm⟩) hc))
    | rotation r => exact Or.inl ⟨r, rfl⟩
    | wide w => exact absurd h (not_or.2 (hdis hm.2 hc))
    | slice r w => exact Or.inr ⟨r, w, rfl⟩
  rcases Classical.em (∃ c t, s = c :: t ∧ (c ∈ axisChars ∨ c ∈ sliceChars)) with ⟨c, t, hs, hc⟩ | hnone
  · have honly := hchar hs hc
    subst hs
    rcases hc with hc | hc
    · -- a rotation
      obtain ⟨hnum, hl, hu, hsl⟩ := num_axisChar hn hc
      have hrun := run_rotation num (c :: t)
      simp only [hc, if_true] at hrun
      have hr : (Grammar.ofRule .extendedMove).run num (c :: t) = some ⟨[.mk .extendedMove (c :: (splitMark t).1)
          [.mk .rotation (c :: (splitMark t).1) [.mk .axis [c] [], .mk .amount (splitMark t).1 []]]],
          c :: (splitMark t).1, (splitMark t).2⟩ := by
        simp [Grammar.ofRule, Grammar.extendedMove, Peg.run, wide_run_none hnum hl hu, run_axisMove, hu, hrun]
      have hp : (parse num (c :: t) : Outcome ExtendedAxisMove) = _ := parseWith_one hr
      rw [hp]
      by_cases hfull : (splitMark t).1.length = t.length
      · obtain ⟨x, hx⟩ := (splitMark_full t).1 hfull
        obtain ⟨a, ha⟩ := axisChar_axis hc
        refine Or.inl ⟨.rotation ⟨a, x⟩, ⟨c, t, ha, hx, rfl⟩, ?_⟩
        rw [if_pos (by simp [hfull]), splitMark_mark hx]
        simp [ExtendedAxisMove.fromPest, Pair.inner, nextPair, Pair.rule, rotation_fromPest (r := ⟨a, x⟩) ha hx]
      · rw [if_neg (by simp [hfull])]
        refine Or.inr (Or.inr ⟨?_, ?_, rfl⟩)
        swap
        · rintro ⟨c', _, _, _, _, hnum', _, _, _, he⟩
          obtain ⟨rfl, _⟩ := List.cons.inj he
          rw [hnum] at hnum'; cases hnum'
        intro m hm
        rcases honly m hm with ⟨r, rfl⟩ | ⟨r, w, rfl⟩
        · obtain ⟨c', a, _, ha, he⟩ := hm
          obtain ⟨rfl, rfl⟩ := List.cons.inj he
          exact hfull ((splitMark_full _).2 ⟨_, ha⟩)
        · obtain ⟨c', _, x, a, hcs, _, ha, he⟩ := hm
          obtain ⟨rfl, rfl⟩ := List.cons.inj he
          exact hsl (slice_sliceChar hcs)
    · -- a slice
      obtain ⟨hnum, hl, hu, hax⟩ := num_sliceChar hn hc
      have hrun := run_sliceMove num (c :: t)
      simp only [hc, if_true] at hrun
      have hr : (Grammar.ofRule .extendedMove).run num (c :: t) = some ⟨[.mk .extendedMove (c :: (splitMark t).1)
          [.mk .sliceMove (c :: (splitMark t).1) [.mk (sliceRule c) [c] [], .mk .amount (splitMark t).1 []]]],
          c :: (splitMark t).1, (splitMark t).2⟩ := by
        simp [Grammar.ofRule, Grammar.extendedMove, Peg.run, wide_run_none hnum hl hu, run_axisMove, hu, run_rotation, hax,
          hrun]
      have hp : (parse num (c :: t) : Outcome ExtendedAxisMove) = _ := parseWith_one hr
      rw [hp]
      by_cases hfull : (splitMark t).1.length = t.length
      · obtain ⟨x, hx⟩ := (splitMark_full t).1 hfull
        obtain ⟨a, w, d, ha⟩ := sliceChar_slice hc
        refine Or.inl ⟨.slice ⟨a, against d x⟩ w, ⟨c, d, x, t, ha, rfl, hx, rfl⟩, ?_⟩
        rw [if_pos (by simp [hfull]), splitMark_mark hx]
        simp [ExtendedAxisMove.fromPest, Pair.inner, nextPair, Pair.rule, slice_fromPest ha hx]
      · rw [if_neg (by simp [hfull])]
        refine Or.inr (Or.inr ⟨?_, ?_, rfl⟩)
        swap
        · rintro ⟨c', _, _, _, _, hnum', _, _, _, he⟩
          obtain ⟨rfl, _⟩ := List.cons.inj he
          rw [hnum] at hnum'; cases hnum'
        intro m hm
        rcases honly m hm with ⟨r, rfl⟩ | ⟨r, w, rfl⟩
        · obtain ⟨c', a, hc', ha, he⟩ := hm
          obtain ⟨rfl, rfl⟩ := List.cons.inj he
          exact hax (axis_axisChar hc')
        · obtain ⟨c', _, x, a, hcs, _, ha, he⟩ := hm
          obtain ⟨rfl, rfl⟩ := List.cons.inj he
          exact hfull ((splitMark_full _).2 ⟨_, ha⟩)
  · -- a face or wide turn
    have hh : ∀ c t, s = c :: t → c ∉ axisChars ∧ c ∉ sliceChars := by
      intro c t hs
      exact ⟨fun h => hnone ⟨c, t, hs, Or.inl h⟩, fun h => hnone ⟨c, t, hs, Or.inr h⟩⟩
    have h1 : Grammar.rotation.run num s = none := by
      rw [run_rotation]
      cases s with
      | nil => rfl
      | cons c t => simp [(hh c t rfl).1]
    have h2 : Grammar.sliceMove.run num s = none := by
      rw [run_sliceMove]
      cases s with
      | nil => rfl
      | cons c t => simp [(hh c t rfl).2]
    rw [extended_of_wide h1 h2]
    have hnone' : (∀ d m, ¬ SpellsWide s d m) → ∀ m, ¬ SpellsExtended s m := by
      intro hno m hm
      cases m with
      | regular m => exact hno 0 m (Or.inl ⟨rfl, hm⟩)
      | rotation r =>
        obtain ⟨c, a, hc, _, he⟩ := hm
        exact (hh c a he).1 (axis_axisChar hc)
      | wide w => exact hno _ _ hm.2
      | slice r w =>
        obtain ⟨c, _, _, a, hc, _, _, he⟩ := hm
        exact (hh c a he).2 (slice_sliceChar hc)
    rcases wideMove_parse_cases hn U32_MAX s with ⟨d, m, hs, hp⟩ | ⟨hno, hf, hp⟩ | ⟨hno, hf, hp⟩
    · have hd : d ≤ U32_MAX := by
        rcases hs with ⟨rfl, _⟩ | ⟨pre, body, a, hpre, _⟩
        · exact Nat.zero_le _
        · rcases hpre with ⟨_, rfl⟩ | ⟨c, k, hk, _, rfl⟩
          · decide
          · simp only [digitValues, List.mem_cons, Prod.mk.injEq, List.not_mem_nil, or_false] at hk
            rcases hk with ⟨_, rfl⟩ | ⟨_, rfl⟩ | ⟨_, rfl⟩ | ⟨_, rfl⟩ | ⟨_, rfl⟩ | ⟨_, rfl⟩ | ⟨_, rfl⟩ | ⟨_, rfl⟩ | ⟨_, rfl⟩ |
              ⟨_, rfl⟩ <;> decide
      rw [hp, if_pos hd]
      simp only [bind_ok]
      cases d with
      | zero =>
        refine Or.inl ⟨.regular m, ?_, rfl⟩
        rcases hs with ⟨_, hs⟩ | ⟨pre, body, a, hpre, _⟩
        · exact hs
        · rcases hpre with ⟨_, h⟩ | ⟨c, k, hk, _, h⟩ <;> omega
      | succ d => exact Or.inl ⟨.wide ⟨d + 1, m⟩, ⟨Nat.succ_pos d, hs⟩, rfl⟩
    · rw [hp]
      exact Or.inr (Or.inl ⟨hnone' hno, hf, rfl⟩)
    · rw [hp]
      exact Or.inr (Or.inr ⟨hnone' hno, hf, rfl⟩)

theorem extended_parse {num : Char → Bool} (hn : NumberClass num) (s : List Char) :
    (∃ m, SpellsExtended s m ∧ (parse num s : Outcome ExtendedAxisMove) = .ok m) ∨
      ((∀ m, ¬ SpellsExtended s m) ∧ ∃ e, (parse num s : Outcome ExtendedAxisMove) = .err e) := by
  rcases extended_parse_cases hn s with h | ⟨h, _, he⟩ | ⟨h, _, he⟩
  · exact Or.inl h
  · exact Or.inr ⟨h, _, he⟩
  · exact Or.inr ⟨h, _, he⟩

theorem sliceLetters_unique {c a w d a' w' d'} (h : (c, a, w, d) ∈ sliceLetters) (h' : (c, a', w', d') ∈ sliceLetters) :
    a = a' ∧ w = w' ∧ d = d' := by
  simp only [sliceLetters, List.mem_cons, Prod.mk.injEq, List.not_mem_nil, or_false] at h h'
  rcases h with ⟨rfl, rfl, rfl, rfl⟩ | ⟨rfl, rfl, rfl, rfl⟩ | ⟨rfl, rfl, rfl, rfl⟩ | ⟨rfl, rfl, rfl, rfl⟩ |
    ⟨rfl, rfl, rfl, rfl⟩ | ⟨rfl, rfl, rfl, rfl⟩ <;> simp at h' <;> exact ⟨h'.1.symm, h'.2.1.symm, h'.2.2.symm⟩

theorem spellsRotation_unique {s r r'} (h : SpellsRotation s r) (h' : SpellsRotation s r') : r = r' := by
  obtain ⟨c, a, hc, ha, rfl⟩ := h
  obtain ⟨c', a', hc', ha', he⟩ := h'
  obtain ⟨rfl, rfl⟩ := List.cons.inj he
  have h1 := axisLetters_unique hc hc'
  have h2 := amountMarks_unique ha ha'
  cases r; cases r'; simp_all

/-- A text spells at most one extended move. -/
theorem spellsExtended_unique {s m m'} (h : SpellsExtended s m) (h' : SpellsExtended s m') : m = m' := by
  have hn : NumberClass (fun c => '0' ≤ c && c ≤ '9') := by
    refine ⟨?_, ?_, ?_⟩
    · intro c h0 h9; simp [h0, h9]
    · intro c h0 h9
      have h0' : 65 ≤ c.toNat := h0
      by_contra hc
      simp only [Bool.not_eq_false, Bool.and_eq_true, decide_eq_true_eq] at hc
      have h1 : c.toNat ≤ 57 := hc.2
      omega
    · intro c h0 h9
      have h0' : 97 ≤ c.toNat := h0
      by_contra hc
      simp only [Bool.not_eq_false, Bool.and_eq_true, decide_eq_true_eq] at hc
      have h1 : c.toNat ≤ 57 := hc.2
      omega
  have hw : ∀ {m d}, SpellsWide s d m → ∀ c t, s = c :: t → c ∉ axisChars ∧ c ∉ sliceChars := by
    intro m d hs c t hc
    obtain ⟨c', t', hc', hk⟩ := spellsWide_head hs
    rw [hc] at hc'
    obtain ⟨rfl, _⟩ := List.cons.inj hc'
    constructor
    · intro h
      obtain ⟨h1, h2, h3, _⟩ := num_axisChar hn h
      rcases hk with hk | hk | ⟨k, hk⟩
      · exact h3 hk
      · exact h2 hk
      · rw [num_digit hn hk] at h1; cases h1
    · intro h
      obtain ⟨h1, h2, h3, _⟩ := num_sliceChar hn h
      rcases hk with hk | hk | ⟨k, hk⟩
      · exact h3 hk
      · exact h2 hk
      · rw [num_digit hn hk] at h1; cases h1
  cases m with
  | regular m =>
    have h1 : SpellsWide s 0 m := Or.inl ⟨rfl, h⟩
    cases m' with
    | regular m' => rw [spells_unique h h']
    | rotation r =>
      obtain ⟨c, a, hc, _, he⟩ := h'
      exact absurd (axis_axisChar hc) (hw h1 c a he).1
    | wide w =>
      have := (spellsWide_unique h1 h'.2).1
      have h2 : 1 ≤ w.depth := h'.1
      omega
    | slice r w =>
      obtain ⟨c, _, _, a, hc, _, _, he⟩ := h'
      exact absurd (slice_sliceChar hc) (hw h1 c a he).2
  | rotation r =>
    obtain ⟨c, a, hc, ha, he⟩ := h
    cases m' with
    | regular m' => exact absurd (axis_axisChar hc) (hw (d := 0) (Or.inl ⟨rfl, h'⟩) c a he).1
    | rotation r' => rw [spellsRotation_unique ⟨c, a, hc, ha, he⟩ h']
    | wide w => exact absurd (axis_axisChar hc) (hw h'.2 c a he).1
    | slice r' w =>
      obtain ⟨c', _, _, a', hc', _, _, he'⟩ := h'
      rw [he] at he'
      obtain ⟨rfl, _⟩ := List.cons.inj he'
      exact absurd (slice_sliceChar hc') (num_axisChar hn (axis_axisChar hc)).2.2.2
  | wide w =>
    cases m' with
    | regular m' =>
      have := (spellsWide_unique (d' := 0) h.2 (Or.inl ⟨rfl, h'⟩)).1
      have h2 : 1 ≤ w.depth := h.1
      omega
    | rotation r =>
      obtain ⟨c, a, hc, _, he⟩ := h'
      exact absurd (axis_axisChar hc) (hw h.2 c a he).1
    | wide w' =>
      obtain ⟨h1, h2⟩ := spellsWide_unique h.2 h'.2
      cases w; cases w'; simp_all
    | slice r w' =>
      obtain ⟨c, _, _, a, hc, _, _, he⟩ := h'
      exact absurd (slice_sliceChar hc) (hw h.2 c a he).2
  | slice r w =>
    obtain ⟨c, d, x, a, hc, hx, ha, he⟩ := h
    cases m' with
    | regular m' => exact absurd (slice_sliceChar hc) (hw (d := 0) (Or.inl ⟨rfl, h'⟩) c a he).2
    | rotation r' =>
      obtain ⟨c', a', hc', _, he'⟩ := h'
      rw [he] at he'
      obtain ⟨rfl, _⟩ := List.cons.inj he'
      exact absurd (slice_sliceChar hc) (num_axisChar hn (axis_axisChar hc')).2.2.2
    | wide w' => exact absurd (slice_sliceChar hc) (hw h'.2 c a he).2
    | slice r' w' =>
      obtain ⟨c', d', x', a', hc', hx', ha', he'⟩ := h'
      rw [he] at he'
      obtain ⟨rfl, rfl⟩ := List.cons.inj he'
      obtain ⟨h1, h2, h3⟩ := sliceLetters_unique hc hc'
      have h4 := amountMarks_unique ha ha'
      subst h3 h4
      cases r; cases r'; simp_all

/-! ## Algs -/

theorem isWhitespace_iff (c : Char) : isWhitespace c = true ↔ White c := by
  unfold isWhitespace White whitePoints
  generalize c.toNat = n
  simp only [Bool.or_eq_true, Bool.and_eq_true, decide_eq_true_eq, beq_iff_eq, List.mem_cons, List.not_mem_nil, or_false]
  omega

theorem splitAtP_ne_nil (p : Char → Bool) (s : List Char) : splitAtP p s ≠ [] := by
  cases s with
  | nil => simp [splitAtP]
  | cons c s =>
    unfold splitAtP
    split
    · simp
    · split <;> simp

theorem splitWhitespace_white {c : Char} (h : White c) (s : List Char) :
    splitWhitespace (c :: s) = splitWhitespace s := by
  simp [splitWhitespace, splitAtP, (isWhitespace_iff c).2 h]

theorem splitWhitespace_lead {lead : List Char} (h : ∀ c ∈ lead, White c) (s : List Char) :
    splitWhitespace (lead ++ s) = splitWhitespace s := by
  induction lead with
  | nil => rfl
  | cons c lead ih =>
    rw [List.cons_append, splitWhitespace_white (h c (by simp)), ih (fun d hd => h d (by simp [hd]))]

theorem splitAtP_word {p : Char → Bool} {w rest : List Char} (h : ∀ c ∈ w, p c = false)
    (hr : rest = [] ∨ ∃ c r, rest = c :: r ∧ p c = true) :
    splitAtP p (w ++ rest) = w :: (match rest with
      | [] => []
      | _ :: r => splitAtP p r) := by
  induction w with
  | nil =>
    rcases hr with rfl | ⟨c, r, rfl, hc⟩
    · rfl
    · simp [splitAtP, hc]
  | cons c w ih =>
    have hc := h c (by simp)
    rw [List.cons_append]
    simp only [splitAtP, hc, Bool.false_eq_true, if_false]
    rw [ih (fun d hd => h d (by simp [hd]))]

theorem splitWhitespace_word {w rest : List Char} (hw : w ≠ []) (h : ∀ c ∈ w, ¬ White c)
    (hr : rest = [] ∨ ∃ c r, rest = c :: r ∧ White c) :
    splitWhitespace (w ++ rest) = w :: splitWhitespace rest := by
  have h' : ∀ c ∈ w, isWhitespace c = false := by
    intro c hc
    rw [← Bool.not_eq_true, isWhitespace_iff]
    exact h c hc
  have hr' : rest = [] ∨ ∃ c r, rest = c :: r ∧ isWhitespace c = true :=
    hr.imp id (fun ⟨c, r, h1, h2⟩ => ⟨c, r, h1, (isWhitespace_iff c).2 h2⟩)
  unfold splitWhitespace
  rw [splitAtP_word h' hr']
  rcases hr' with rfl | ⟨c, r, rfl, hc⟩
  · simp [hw, splitAtP]
  · simp [hw, splitAtP, hc]

/-- Splitting at white space finds the words of the layout. -/
theorem split_of_layout {ws t} (h : Layout ws t) : splitWhitespace t = ws := by
  induction h with
  | @blank t h =>
    have := splitWhitespace_lead h []
    rw [List.append_nil] at this
    rw [this]
    rfl
  | @word lead w rest ws hl hw hnw hr _ ih =>
    rw [List.append_assoc, splitWhitespace_lead hl, splitWhitespace_word hw hnw hr, ih]

/-- Every text is a layout of the words that splitting finds. -/
theorem layout_of_split (t : List Char) : Layout (splitWhitespace t) t := by
  induction hn : t.length using Nat.strong_induction_on generalizing t with
  | _ n ih =>
    cases t with
    | nil => exact .blank (by simp)
    | cons c s =>
      by_cases hc : White c
      · rw [splitWhitespace_white hc]
        have h := ih s.length (by rw [← hn]; simp) s rfl
        generalize splitWhitespace s = ws at h
        cases h with
        | blank h => exact .blank (by simp only [List.mem_cons, forall_eq_or_imp]; exact ⟨hc, h⟩)
        | @word lead w rest ws hl hw hnw hr hlay =>
          exact .word (lead := c :: lead) (by simp only [List.mem_cons, forall_eq_or_imp]; exact ⟨hc, hl⟩) hw hnw hr hlay
      · -- take the longest word
        have hd : ∀ u : List Char, ∃ w rest, u = w ++ rest ∧ (∀ c ∈ w, ¬ White c) ∧
            (rest = [] ∨ ∃ c r, rest = c :: r ∧ White c) := by
          intro u
          induction u with
          | nil => exact ⟨[], [], rfl, by simp, Or.inl rfl⟩
          | cons d u ih =>
            by_cases hd : White d
            · exact ⟨[], d :: u, rfl, by simp, Or.inr ⟨d, u, rfl, hd⟩⟩
            · obtain ⟨w, rest, he, h1, h2⟩ := ih
              exact ⟨d :: w, rest, by rw [he]; rfl,
                by simp only [List.mem_cons, forall_eq_or_imp]; exact ⟨hd, h1⟩, h2⟩
        obtain ⟨w, rest, he, h1, h2⟩ := hd s
        have hw : ∀ d ∈ c :: w, ¬ White d := by
          simp only [List.mem_cons, forall_eq_or_imp]; exact ⟨hc, h1⟩
        have hs : c :: s = (c :: w) ++ rest := by rw [he]; rfl
        rw [hs, splitWhitespace_word (by simp) hw h2]
        have hl : rest.length < n := by
          rw [← hn, he]; simp; omega
        exact .word (lead := []) (by simp) (by simp) hw h2 (ih rest.length hl rest rfl)

theorem collect_ok {T : Type} {f : List Char → Outcome T} {ws : List (List Char)} {ms : List T} :
    collectOutcomes f ws = .ok ms ↔ List.Forall₂ (fun w m => f w = .ok m) ws ms := by
  induction ws generalizing ms with
  | nil =>
    simp only [collectOutcomes, Outcome.ok.injEq, List.forall₂_nil_left_iff]
    exact eq_comm
  | cons w ws ih =>
    simp only [collectOutcomes]
    cases hf : f w with
    | err e => simp [List.forall₂_cons_left_iff, hf]
    | panic => simp [List.forall₂_cons_left_iff, hf]
    | ok m =>
      cases hc : collectOutcomes f ws with
      | err e =>
        simp only [bind_ok, bind_err, reduceCtorEq, false_iff]
        rintro h
        obtain ⟨m', ms', h1, h2, rfl⟩ := List.forall₂_cons_left_iff.1 h
        rw [ih.2 h2] at hc
        cases hc
      | panic =>
        simp only [bind_ok, bind_panic, reduceCtorEq, false_iff]
        rintro h
        obtain ⟨m', ms', h1, h2, rfl⟩ := List.forall₂_cons_left_iff.1 h
        rw [ih.2 h2] at hc
        cases hc
      | ok ms' =>
        simp only [bind_ok, pure_eq_ok, Outcome.ok.injEq]
        constructor
        · rintro rfl
          exact .cons hf (ih.1 hc)
        · intro h
          obtain ⟨m', ms'', h1, h2, rfl⟩ := List.forall₂_cons_left_iff.1 h
          rw [hf] at h1
          rw [ih.2 h2] at hc
          cases h1; cases hc; rfl

theorem collect_no_panic {T : Type} {f : List Char → Outcome T} (h : ∀ w, f w ≠ .panic) (ws : List (List Char)) :
    collectOutcomes f ws ≠ .panic := by
  induction ws with
  | nil => simp [collectOutcomes]
  | cons w ws ih =>
    simp only [collectOutcomes]
    cases hf : f w with
    | err e => simp
    | panic => exact absurd hf (h w)
    | ok m =>
      cases hc : collectOutcomes f ws with
      | err e => simp
      | panic => exact absurd hc ih
      | ok ms => simp

end Barbarosa
