import Verif.Model.Terminal
import Verif.Props.Layout
import Verif.Props.FloatPicture
import Verif.Props.ProgressText

/-!
# C112: what a terminal shows when a cube is printed
-/

namespace Barbarosa

open Fl

/-! ## Specification: a terminal -/

/-- A character on the screen with the colour behind it (`none`: the usual background) -/
abbrev ScreenCell := Char × Option Rgb

/-- What the terminal expects next: text, the rest of an escape sequence, or the parameters of a control sequence (`ESC [`), of which some
are complete and the last one may get more digits -/
inductive TermMode
  | text
  | esc
  | csi (complete : List Nat) (last : Nat)
  deriving DecidableEq

/-- A terminal: the background for the next characters, the lines that are complete and the current one -/
structure Terminal where
  mode : TermMode
  background : Option Rgb
  lines : List (List ScreenCell)
  current : List ScreenCell
  deriving DecidableEq

/-- What `ESC [ .. m` does to the background (ECMA-48 and ISO 8613-6): `0` resets it, `48;2;r;g;b` sets it; other numbers are about other
things. -/
def selectGraphic (background : Option Rgb) : List Nat → Option Rgb
  | [0] => none
  | [48, 2, r, g, b] => some ⟨r, g, b⟩
  | _ => background

/-- The terminal receives a character. -/
def Terminal.step (t : Terminal) (c : Char) : Terminal :=
  match t.mode with
  | .text =>
    if c = Char.ofNat 27 then { t with mode := .esc }
    else if c = '\n' then { t with lines := t.lines ++ [t.current], current := [] }
    else { t with current := t.current ++ [(c, t.background)] }
  | .esc => if c = '[' then { t with mode := .csi [] 0 } else { t with mode := .text }
  | .csi complete last =>
    if c.isDigit then { t with mode := .csi complete (10 * last + (c.toNat - '0'.toNat)) }
    else if c = ';' then { t with mode := .csi (complete ++ [last]) 0 }
    else if c = 'm' then { t with mode := .text, background := selectGraphic t.background (complete ++ [last]) }
    else { t with mode := .text }

/-- The terminal receives a text. -/
def Terminal.run (t : Terminal) (s : List Char) : Terminal := s.foldl Terminal.step t

/-- An empty terminal -/
def Terminal.empty : Terminal := ⟨.text, none, [], []⟩

/-- The lines that are on an empty terminal after it has received the text -/
def screen (s : List Char) : List (List ScreenCell) :=
  (Terminal.empty.run s).lines ++ [(Terminal.empty.run s).current]

/-- What is on the screen in line `r`, column `k`, both from 0 -/
def onScreen (s : List Char) (r k : Nat) : Option ScreenCell :=
  match (screen s)[r]? with
  | none => none
  | some l => l[k]?

/-- The colours of the six faces can be told apart when they are printed. -/
def Colorscheme.Distinct (scheme : Colorscheme Srgb) : Prop :=
  ∀ f g : Face, (scheme.get f).toRgb = (scheme.get g).toRgb → f = g

/-! ## Receiving the characters of a token -/

theorem run_append (t : Terminal) (a b : List Char) : t.run (a ++ b) = (t.run a).run b := List.foldl_append

theorem run_cons (t : Terminal) (c : Char) (s : List Char) : t.run (c :: s) = (t.step c).run s := rfl

theorem run_digits (bg : Option Rgb) (ls : List (List ScreenCell)) (cur : List ScreenCell) (done : List Nat) (l : List Char)
    (h : ∀ c ∈ l, c.isDigit = true) (n : Nat) :
    Terminal.run ⟨.csi done n, bg, ls, cur⟩ l = ⟨.csi done (Nat.ofDigitChars 10 l n), bg, ls, cur⟩ := by
  induction l generalizing n with
  | nil => simp [Terminal.run]
  | cons c l ih =>
    rw [run_cons]
    have hs : Terminal.step ⟨.csi done n, bg, ls, cur⟩ c = ⟨.csi done (10 * n + (c.toNat - '0'.toNat)), bg, ls, cur⟩ := by
      simp [Terminal.step, h c (by simp)]
    rw [hs, ih fun d hd => h d (by simp [hd])]
    simp [Nat.ofDigitChars_cons]

theorem run_number (bg : Option Rgb) (ls : List (List ScreenCell)) (cur : List ScreenCell) (done : List Nat) (n : Nat) :
    Terminal.run ⟨.csi done 0, bg, ls, cur⟩ (Nat.toDigits 10 n) = ⟨.csi done n, bg, ls, cur⟩ := by
  rw [run_digits _ _ _ _ _ fun c hc => digit_of_mem hc, Nat.ofDigitChars_toDigits (by decide) (by decide)]

theorem step_semicolon (bg : Option Rgb) (ls : List (List ScreenCell)) (cur : List ScreenCell) (done : List Nat) (n : Nat) :
    Terminal.step ⟨.csi done n, bg, ls, cur⟩ ';' = ⟨.csi (done ++ [n]) 0, bg, ls, cur⟩ := rfl

theorem run_setBackground (noColor : Bool) (c : Rgb) (ls : List (List ScreenCell)) (cur : List ScreenCell) :
    Terminal.run ⟨.text, none, ls, cur⟩ (setBackground noColor c) =
      ⟨.text, if noColor then none else some c, ls, cur⟩ := by
  cases noColor
  · have : setBackground false c = [ESC, '[', '4', '8', ';', '2', ';'] ++ (Nat.toDigits 10 c.r ++ (';' :: (Nat.toDigits 10 c.g ++
        (';' :: (Nat.toDigits 10 c.b ++ ['m']))))) := by simp [setBackground]
    rw [this, run_append]
    have h1 : Terminal.run ⟨.text, none, ls, cur⟩ [ESC, '[', '4', '8', ';', '2', ';'] = ⟨.csi [48, 2] 0, none, ls, cur⟩ := rfl
    rw [h1, run_append, run_number, run_cons, step_semicolon, run_append, run_number, run_cons, step_semicolon, run_append,
      run_number]
    rfl
  · rfl

/-- The characters that are visible for a token -/
def Tok.cells (noColor : Bool) (scheme : Colorscheme Srgb) : Tok → List ScreenCell
  | .cell c =>
    let bg := if noColor then none else some (scheme.get c.face).toRgb
    [(' ', bg), (' ', bg)]
  | .gap => [(' ', none), (' ', none)]
  | .newline => []

theorem run_cell (noColor : Bool) (scheme : Colorscheme Srgb) (c : Color) (ls : List (List ScreenCell)) (cur : List ScreenCell) :
    Terminal.run ⟨.text, none, ls, cur⟩ (c.write noColor scheme) =
      ⟨.text, none, ls, cur ++ Tok.cells noColor scheme (.cell c)⟩ := by
  unfold Color.write
  rw [run_append, run_append, run_setBackground]
  have h : ∀ bg : Option Rgb, Terminal.run (Terminal.run ⟨.text, bg, ls, cur⟩ [' ', ' ']) resetColor =
      ⟨.text, none, ls, cur ++ [(' ', bg), (' ', bg)]⟩ := by
    intro bg
    have h1 : Terminal.run ⟨.text, bg, ls, cur⟩ [' ', ' '] = ⟨.text, bg, ls, cur ++ [(' ', bg)] ++ [(' ', bg)]⟩ := rfl
    rw [h1]
    have h2 : ∀ cur, Terminal.run ⟨.text, bg, ls, cur⟩ resetColor = ⟨.text, none, ls, cur⟩ := fun _ => rfl
    rw [h2]
    simp
  exact h _

theorem tokLines_cons_other (t : Tok) (ts : List Tok) (ht : t ≠ .newline) :
    ∃ l ls, tokLines ts = l :: ls ∧ tokLines (t :: ts) = (t :: l) :: ls := by
  obtain ⟨l, ls, h⟩ := List.exists_cons_of_ne_nil (tokLines_ne_nil ts)
  refine ⟨l, ls, h, ?_⟩
  cases t with
  | newline => exact absurd rfl ht
  | cell c => simp only [tokLines, h]
  | gap => simp only [tokLines, h]

/-- what the terminal is like after the characters of the tokens -/
theorem run_toks (noColor : Bool) (scheme : Colorscheme Srgb) (ts : List Tok) (ls : List (List ScreenCell)) (cur : List ScreenCell) :
    ∃ ls' cur', Terminal.run ⟨.text, none, ls, cur⟩ (ts.flatMap (Tok.write noColor scheme)) = ⟨.text, none, ls', cur'⟩ ∧
      ∀ l m, tokLines ts = l :: m →
        ls' ++ [cur'] = ls ++ (cur ++ l.flatMap (Tok.cells noColor scheme)) :: m.map (List.flatMap (Tok.cells noColor scheme)) := by
  induction ts generalizing ls cur with
  | nil =>
    refine ⟨ls, cur, rfl, fun l m h => ?_⟩
    simp only [tokLines, List.cons.injEq, List.nil_eq] at h
    simp [h.1, h.2]
  | cons t ts ih =>
    rw [List.flatMap_cons]
    by_cases ht : t = .newline
    · subst ht
      obtain ⟨ls', cur', h1, h2⟩ := ih (ls ++ [cur]) []
      refine ⟨ls', cur', by rw [run_append]; exact h1, fun l m h => ?_⟩
      simp only [tokLines, List.cons.injEq] at h
      obtain ⟨l', m', h'⟩ := List.exists_cons_of_ne_nil (tokLines_ne_nil ts)
      rw [h2 _ _ h', ← h.1, ← h.2, h']
      simp
    · obtain ⟨l0, m0, h0, h0'⟩ := tokLines_cons_other t ts ht
      obtain ⟨ls', cur', h1, h2⟩ := ih ls (cur ++ Tok.cells noColor scheme t)
      refine ⟨ls', cur', ?_, fun l m h => ?_⟩
      · rw [run_append]
        have : Terminal.run ⟨.text, none, ls, cur⟩ (Tok.write noColor scheme t) =
            ⟨.text, none, ls, cur ++ Tok.cells noColor scheme t⟩ := by
          cases t with
          | newline => exact absurd rfl ht
          | cell c => exact run_cell noColor scheme c ls cur
          | gap =>
            show Terminal.mk .text none ls (cur ++ [(' ', none)] ++ [(' ', none)]) = _
            simp [Tok.cells]
        rw [this]
        exact h1
      · rw [h0', List.cons.injEq] at h
        rw [h2 _ _ h0, ← h.1, ← h.2]
        simp

theorem screen_text {N : Nat} (noColor : Bool) (scheme : Colorscheme Srgb) (u : Unfolded N) :
    screen (u.text noColor scheme) = (tokLines u.write).map (List.flatMap (Tok.cells noColor scheme)) := by
  obtain ⟨ls', cur', h1, h2⟩ := run_toks noColor scheme u.write [] []
  obtain ⟨l, m, h⟩ := List.exists_cons_of_ne_nil (tokLines_ne_nil u.write)
  have := h2 l m h
  unfold screen Unfolded.text Terminal.empty
  rw [h1, h]
  simpa using this

theorem newline_notin_tokLines (ts : List Tok) : ∀ l ∈ tokLines ts, Tok.newline ∉ l := by
  induction ts with
  | nil => simp [tokLines]
  | cons t ts ih =>
    by_cases ht : t = .newline
    · subst ht
      intro l hl
      simp only [tokLines, List.mem_cons] at hl
      rcases hl with rfl | hl
      · simp
      · exact ih l hl
    · obtain ⟨l0, m0, h0, h0'⟩ := tokLines_cons_other t ts ht
      intro l hl
      rw [h0', List.mem_cons] at hl
      rw [h0] at ih
      rcases hl with rfl | hl
      · simp only [List.mem_cons, not_or]
        exact ⟨fun e => ht e.symm, ih l0 (by simp)⟩
      · exact ih l (by simp [hl])

/-- A line of tokens is twice as wide on the screen. -/
theorem flatMap_cells (noColor : Bool) (scheme : Colorscheme Srgb) (l : List Tok) (h : Tok.newline ∉ l) (k : Nat) :
    (l.flatMap (Tok.cells noColor scheme))[k]? =
      (l[k / 2]?).bind fun t => (Tok.cells noColor scheme t)[0]? := by
  induction l generalizing k with
  | nil => simp
  | cons t l ih =>
    rw [List.mem_cons, not_or] at h
    have ht : ∃ x, Tok.cells noColor scheme t = [x, x] := by
      cases t with
      | newline => exact absurd rfl h.1
      | cell c => exact ⟨_, rfl⟩
      | gap => exact ⟨_, rfl⟩
    obtain ⟨x, hx⟩ := ht
    rw [List.flatMap_cons, hx]
    match k with
    | 0 => simp [hx]
    | 1 => simp [hx]
    | k + 2 =>
      rw [show (k + 2) / 2 = k / 2 + 1 by omega, List.getElem?_cons_succ, ← ih h.2]
      rfl

theorem onScreen_text {N : Nat} (noColor : Bool) (scheme : Colorscheme Srgb) (u : Unfolded N) (r k : Nat) :
    onScreen (u.text noColor scheme) r k =
      (printedAt u.write r (k / 2)).bind fun t => (Tok.cells noColor scheme t)[0]? := by
  unfold onScreen printedAt
  rw [screen_text, List.getElem?_map]
  cases h : (tokLines u.write)[r]? with
  | none => rfl
  | some l =>
    simp only [Option.map_some]
    exact flatMap_cells noColor scheme l (newline_notin_tokLines _ l (List.mem_of_getElem? h)) k

/-! ## What is on the screen -/

/-- **C112** Printing a picture of any size with any colour scheme: on the screen there are exactly the squares of the net `U` above `L F R`
above `D` above `B`, each facelet one line high and two columns wide and in the colour that the scheme has for it. -/
theorem C112_screen {N : Nat} (scheme : Colorscheme Srgb) (u : Unfolded N) (r k : Nat) (col : Rgb) :
    (∃ ch, onScreen (u.text false scheme) r k = some (ch, some col)) ↔
      ∃ (f : Face) (i j : Fin N), r = (netPlace f).1 * (N + 1) + i ∧ k / 2 = (netPlace f).2 * (N + 1) + j ∧
        (scheme.get (u.square f i j).face).toRgb = col := by
  rw [onScreen_text]
  constructor
  · rintro ⟨ch, h⟩
    rw [Option.bind_eq_some_iff] at h
    obtain ⟨t, h1, h2⟩ := h
    cases t with
    | newline => simp [Tok.cells] at h2
    | gap => simp [Tok.cells] at h2
    | cell c =>
      obtain ⟨f, i, j, e1, e2, e3⟩ := (C97_layout u r (k / 2) c).mp h1
      refine ⟨f, i, j, e1, e2, ?_⟩
      rw [e3]
      simpa [Tok.cells] using (Prod.mk.inj (Option.some.inj h2)).2
  · rintro ⟨f, i, j, e1, e2, e3⟩
    rw [(C97_layout u r (k / 2) _).mpr ⟨f, i, j, e1, e2, rfl⟩]
    exact ⟨' ', by simp [Tok.cells, e3]⟩

/-- a picture of one facelet per face: R is in line 2, columns 8 and 9, and column 6 is a gap -/
example : onScreen ((Unfolded.default 1).text false .default) 2 8 = some (' ', some ⟨134, 52, 52⟩) ∧
    onScreen ((Unfolded.default 1).text false .default) 2 9 = some (' ', some ⟨134, 52, 52⟩) ∧
    onScreen ((Unfolded.default 1).text false .default) 2 6 = some (' ', none) ∧
    ((Unfolded.default 1).text false .default).take 25 =
      "    \x1b[48;2;255;255;255m  ".toList := by decide +kernel

/-- **C112** Nothing but blanks is visible, the text is `4 (N + 1)` lines high and at most `6 N + 4` columns wide, and afterwards the terminal is at the beginning of a line
and has its usual background again: the picture of one cube has no influence on what is printed next. -/
theorem C112_tidy {N : Nat} (noColor : Bool) (scheme : Colorscheme Srgb) (u : Unfolded N) :
    (∀ l ∈ screen (u.text noColor scheme), (∀ x ∈ l, x.1 = ' ') ∧ l.length ≤ 6 * N + 4) ∧
    (screen (u.text noColor scheme)).length = 4 * (N + 1) + 1 ∧
    ∃ ls, Terminal.empty.run (u.text noColor scheme) = ⟨.text, none, ls, []⟩ := by
  refine ⟨?_, ?_, ?_⟩
  · intro l hl
    rw [screen_text, List.mem_map] at hl
    obtain ⟨w, hw, rfl⟩ := hl
    constructor
    · intro x hx
      rw [List.mem_flatMap] at hx
      obtain ⟨t, -, ht⟩ := hx
      cases t <;> simp [Tok.cells] at ht <;> simp [ht]
    · have h1 : (w.flatMap (Tok.cells noColor scheme)).length ≤ 2 * w.length := by
        clear hw
        induction w with
        | nil => simp
        | cons t w ih =>
          rw [List.flatMap_cons, List.length_append, List.length_cons]
          have : (Tok.cells noColor scheme t).length ≤ 2 := by cases t <;> simp [Tok.cells]
          omega
      have h2 : w.length ≤ 3 * N + 2 := by
        rw [tokLines_write] at hw
        simp only [List.mem_append, List.mem_cons, List.mem_map, List.mem_finRange, true_and, List.not_mem_nil, or_false] at hw
        have hp : ∀ (s : Square N) (i : Fin N), (padLine s i).length ≤ 3 * N + 2 := by
          intro s i
          simp [padLine, Square.rowToks]
          omega
        have hm : ∀ i : Fin N, (midLine u i).length ≤ 3 * N + 2 := by
          intro i
          simp [midLine, Square.rowToks]
          omega
        rcases hw with ⟨i, rfl⟩ | rfl | ⟨i, rfl⟩ | rfl | ⟨i, rfl⟩ | rfl | ⟨i, rfl⟩ | rfl | rfl
        all_goals first | exact hp _ _ | exact hm _ | simp
      omega
  · rw [screen_text, List.length_map]
    exact (C97_lines u).1
  · obtain ⟨ls', cur', h1, h2⟩ := run_toks noColor scheme u.write [] []
    obtain ⟨l, m, h⟩ := List.exists_cons_of_ne_nil (tokLines_ne_nil u.write)
    have h3 := h2 l m h
    have h4 := (C97_lines u).2
    refine ⟨ls', ?_⟩
    have h5 : (ls' ++ [cur']).getLast? = some [] := by
      have : ls' ++ [cur'] = (tokLines u.write).map (List.flatMap (Tok.cells noColor scheme)) := by
        rw [h3, h]; simp
      rw [this, List.getLast?_map, h4]
      rfl
    rw [List.getLast?_concat] at h5
    unfold Terminal.empty Unfolded.text
    rw [h1, Option.some.inj h5]

/-- 8 lines for the smallest picture; the widest has 10 columns -/
example : (screen ((Unfolded.default 1).text false .default)).map List.length = [6, 0, 10, 0, 6, 0, 6, 0, 0] := by decide +kernel

theorem text_congr {N : Nat} (nc nc' : Bool) (scheme scheme' : Colorscheme Srgb) (u v : Unfolded N)
    (h : ∀ (f : Face) (i j : Fin N), (u.square f i j).write nc scheme = (v.square f i j).write nc' scheme') :
    u.text nc scheme = v.text nc' scheme' := by
  have hrow : ∀ (f : Face) (i : Fin N), ((u.square f).rowToks i).flatMap (Tok.write nc scheme) =
      ((v.square f).rowToks i).flatMap (Tok.write nc' scheme') := by
    intro f i
    simp only [Square.rowToks, List.flatMap_map]
    congr 1
    funext j
    exact h f i j
  have hrep : ∀ n, (List.replicate n Tok.gap).flatMap (Tok.write nc scheme) =
      (List.replicate n Tok.gap).flatMap (Tok.write nc' scheme') := by
    intro n
    induction n with
    | zero => rfl
    | succ n ih => rw [List.replicate_succ, List.flatMap_cons, List.flatMap_cons, ih]; rfl
  have hsq : ∀ (f : Face) (n : Nat), ((u.square f).write n).flatMap (Tok.write nc scheme) =
      ((v.square f).write n).flatMap (Tok.write nc' scheme') := by
    intro f n
    simp only [Square.write, List.flatMap_assoc, List.flatMap_append]
    congr 1
    funext i
    rw [hrep, hrow f]
    rfl
  have hgap : List.flatMap (Tok.write nc scheme) [Tok.gap] = List.flatMap (Tok.write nc' scheme') [Tok.gap] := rfl
  have hnl : List.flatMap (Tok.write nc scheme) [Tok.newline] = List.flatMap (Tok.write nc' scheme') [Tok.newline] := rfl
  unfold Unfolded.text Unfolded.write
  simp only [List.flatMap_append, List.flatMap_assoc, hsq, hrow, hgap, hnl]

/-- **C112** With `NO_COLOR` set the text is the same for all pictures of one size, and it shows nothing at all. -/
theorem C112_no_color {N : Nat} (scheme scheme' : Colorscheme Srgb) (u v : Unfolded N) :
    u.text true scheme = v.text true scheme' ∧ ∀ r k x, onScreen (u.text true scheme) r k = some x → x = (' ', none) := by
  constructor
  · exact text_congr _ _ _ _ _ _ fun _ _ _ => rfl
  · intro r k x h
    rw [onScreen_text, Option.bind_eq_some_iff] at h
    obtain ⟨t, -, ht⟩ := h
    cases t <;> simp [Tok.cells] at ht <;> exact ht.symm

example : (Unfolded.default 1).text true .default = Unfolded.text true .default (fun _ => Square.new 1 ⟨.F⟩) :=
  (C112_no_color _ _ _ _).1

example : (Unfolded.default 1).text false .default ≠ Unfolded.text false .default (fun _ => Square.new 1 ⟨.F⟩) := by decide +kernel

/-! ## Which pictures can be told apart -/

/-- **C112** With colours that are different when printed, different pictures (of any size) give different texts, and even different
screens. -/
theorem C112_pictures {N : Nat} (scheme : Colorscheme Srgb) (hs : scheme.Distinct) (u v : Unfolded N)
    (h : screen (u.text false scheme) = screen (v.text false scheme)) : u = v := by
  have hsq : ∀ (f : Face) (i j : Fin N), u.square f i j = v.square f i j := by
    intro f i j
    have hk : (2 * ((netPlace f).2 * (N + 1) + j.val)) / 2 = (netPlace f).2 * (N + 1) + j.val := by omega
    have e1 : onScreen (u.text false scheme) ((netPlace f).1 * (N + 1) + i) (2 * ((netPlace f).2 * (N + 1) + j)) =
        some (' ', some (scheme.get (u.square f i j).face).toRgb) := by
      rw [onScreen_text, hk, (C97_layout u _ _ _).mpr ⟨f, i, j, rfl, rfl, rfl⟩]
      rfl
    have e2 : onScreen (v.text false scheme) ((netPlace f).1 * (N + 1) + i) (2 * ((netPlace f).2 * (N + 1) + j)) =
        some (' ', some (scheme.get (v.square f i j).face).toRgb) := by
      rw [onScreen_text, hk, (C97_layout v _ _ _).mpr ⟨f, i, j, rfl, rfl, rfl⟩]
      rfl
    unfold onScreen at e1 e2
    rw [h, e2] at e1
    have := hs _ _ (Option.some.inj (Prod.mk.inj (Option.some.inj e1)).2)
    have hc : ∀ a b : Color, b.face = a.face → a = b := by rintro ⟨a⟩ ⟨b⟩ rfl; rfl
    exact hc _ _ this
  funext k i j
  have : ∃ f : Face, (⟨f.index, f.index_lt⟩ : Fin 6) = k := by revert k; decide
  obtain ⟨f, rfl⟩ := this
  exact hsq f i j

/-- a scheme of six greys, 0, 40, .., 200 -/
def greys : Colorscheme Srgb :=
  .new fun i => let x := (ofInt binary32 (40 * i.val : Nat)).div (lit binary32 255); ⟨x, x, x⟩

theorem greys_distinct : greys.Distinct := by
  rintro ⟨a, d⟩ ⟨b, e⟩
  revert a d b e
  decide +kernel

/-- pictures of size 5 in greys -/
example : screen ((Unfolded.default 5).text false greys) ≠ screen (Unfolded.text (N := 5) false greys (fun _ => Square.new 5 ⟨.F⟩)) := fun h =>
  absurd (congrFun (congrFun (congrFun (C112_pictures greys greys_distinct _ _ h) 0) 0) 0) (by decide)

/-! ## Components of colours -/

theorem byteOf_nonpos {x : F32} {v : ℚ} (hx : x.Is v) (hv : v ≤ 0) : byteOf x = 0 := by
  obtain ⟨zs, h⟩ := Is.mul hx (lit_is32 255 (q := 255) (by norm_num) (by norm_num))
  unfold byteOf
  rw [h]
  rcases hv.eq_or_lt with rfl | hv
  · have : round binary32 zs (0 * 255) = .fin zs 0 := by
      unfold Fl.round
      simp only [zero_mul, if_true, abs_zero, Square.roundMag32_zero]
      norm_num [binary32]
    rw [this]
    cases zs <;> simp [toInt]
  · have h0 : v * 255 < 0 := by linarith
    have hn : 0 ≤ roundMag binary32 |v * 255| := roundMag_nonneg _ (abs_nonneg _)
    unfold Fl.round
    simp only [h0.ne, if_false, h0, decide_true]
    split
    · have : 0 ≤ ⌊roundMag binary32 |v * 255|⌋ := Int.floor_nonneg.2 hn
      simp only [toInt, if_true]
      omega
    · rfl

theorem byteOf_pos {x : F32} {v : ℚ} (hx : x.Is v) (hv : 0 < v) : (byteOf x : ℤ) = min 255 ⌊roundMag binary32 (v * 255)⌋ := by
  obtain ⟨zs, h⟩ := Is.mul hx (lit_is32 255 (q := 255) (by norm_num) (by norm_num))
  unfold byteOf
  rw [h]
  have h0 : 0 < v * 255 := by linarith
  have hn : 0 ≤ roundMag binary32 (v * 255) := roundMag_nonneg _ h0.le
  have hf : 0 ≤ ⌊roundMag binary32 (v * 255)⌋ := Int.floor_nonneg.2 hn
  unfold Fl.round
  simp only [h0.ne', if_false, not_lt.2 h0.le, decide_false, abs_of_pos h0]
  split
  · simp only [toInt, Bool.false_eq_true, if_false]
    omega
  · rename_i hbig
    have : (255 : ℤ) ≤ ⌊roundMag binary32 (v * 255)⌋ := by
      rw [Int.le_floor]
      refine le_trans ?_ (not_lt.1 hbig)
      norm_num [binary32]
    simp only [toInt]
    omega

theorem representable_byte (n : ℤ) (h0 : 0 ≤ n) (h : n ≤ 255) : Representable binary32 n := by
  refine ⟨n, 0, by simp, ?_, by decide, by decide⟩
  rw [abs_of_nonneg h0]
  have : (255 : ℤ) < 2 ^ binary32.prec := by decide
  omega

/-- rounding does not go below an integer -/
theorem le_roundMag_byte {y : ℚ} (hy : 0 < y) {n : ℤ} (h0 : 0 ≤ n) (h : n ≤ 255) (hn : (n : ℚ) ≤ y) : (n : ℚ) ≤ roundMag binary32 y := by
  have := roundMag_nearest (fmt := binary32) (by decide) hy (representable_byte n h0 h)
  rw [abs_of_nonneg (by linarith : (0 : ℚ) ≤ y - n), abs_le] at this
  linarith [this.2]

theorem roundMag32_near {y : ℚ} (hy : 0 < y) (h : y ≤ 255) : |y - roundMag binary32 y| ≤ 1 / 2 ^ 16 := by
  obtain ⟨s, m, e, -, hm⟩ := round32_error (q := y) (by rw [abs_of_pos hy]; linarith [show (255 : ℚ) < 2 ^ 127 by norm_num]) false
  unfold Fl.round at e
  simp only [hy.ne', if_false, not_lt.2 hy.le, decide_false, abs_of_pos hy] at e
  split at e
  · simp only [fin.injEq] at e
    rw [← e.1, ← e.2] at hm
    simp only [Fl.val, Bool.false_eq_true, if_false] at hm
    rw [abs_of_pos hy] at hm
    rw [abs_sub_comm]
    have h1 : y / 2 ^ 24 ≤ 255 / 2 ^ 24 := by gcongr
    refine hm.trans ?_
    norm_num at h1 ⊢
    linarith
  · cases e

theorem roundMag32_mono {a b : ℚ} (ha : 0 < a) (hab : a ≤ b) (hb : b ≤ 255) : roundMag binary32 a ≤ roundMag binary32 b := by
  by_contra hlt
  push Not at hlt
  have hb0 : 0 < b := by linarith
  have rep : ∀ y : ℚ, 0 < y → y ≤ 255 → Representable binary32 (roundMag binary32 y) := by
    intro y hy h
    refine roundMag_representable (by decide) (by decide) hy ?_
    have := (abs_le.1 (roundMag32_near hy h)).1
    have h2 : (256 : ℚ) < 2 ^ (binary32.emax + 1) := by norm_num [binary32]
    norm_num at this
    linarith
  have h1 := roundMag_nearest (fmt := binary32) (by decide) ha (rep b hb0 hb)
  have h2 := roundMag_nearest (fmt := binary32) (by decide) hb0 (rep a ha (hab.trans hb))
  have h1' : a ≥ (roundMag binary32 a + roundMag binary32 b) / 2 := by
    by_contra hc
    push Not at hc
    rw [abs_le] at h1
    rcases abs_cases (a - roundMag binary32 b) with ⟨e, _⟩ | ⟨e, _⟩ <;> linarith [h1.1, h1.2]
  have h2' : b ≤ (roundMag binary32 a + roundMag binary32 b) / 2 := by
    by_contra hc
    push Not at hc
    rw [abs_le] at h2
    rcases abs_cases (b - roundMag binary32 a) with ⟨e, _⟩ | ⟨e, _⟩ <;> linarith [h2.1, h2.2]
  have : a = b := by linarith
  subst this
  exact lt_irrefl _ hlt

/-- **C112** The bytes that are printed for a component of a colour. They never leave the range; a component that is no number or not positive gives 0, one
from 1 on gives 255; between, it is 255 times the component without its fraction, except that less than `1 / 65536` may be missing to an
integer; a larger component never gives a smaller byte; and a colour that was given by bytes, divided by 255, is printed with the same bytes. -/
theorem C112_bytes :
    (∀ x : F32, byteOf x ≤ 255) ∧ byteOf .nan = 0 ∧ byteOf (.inf true) = 0 ∧ byteOf (.inf false) = 255 ∧
    (∀ (x : F32) (v : ℚ), x.Is v → (v ≤ 0 → byteOf x = 0) ∧ (1 ≤ v → byteOf x = 255) ∧
      (0 ≤ v → v ≤ 1 → ⌊255 * v⌋ ≤ byteOf x ∧ byteOf x ≤ ⌊255 * v + 1 / 2 ^ 16⌋)) ∧
    (∀ (x y : F32) (v w : ℚ), x.Is v → y.Is w → v ≤ w → byteOf x ≤ byteOf y) ∧
    ∀ n : Nat, n ≤ 255 → byteOf ((ofInt binary32 n).div (lit binary32 255)) = n := by
  have hle : ∀ x : F32, byteOf x ≤ 255 := by
    intro x
    unfold byteOf
    cases x.mul (lit binary32 255) with
    | nan => simp [toInt]
    | inf s => cases s <;> simp [toInt]
    | fin s m => simp only [toInt]; omega
  have hone : ∀ (x : F32) (v : ℚ), x.Is v → 1 ≤ v → byteOf x = 255 := by
    intro x v hx hv
    have h1 := byteOf_pos hx (by linarith)
    have h2 := le_roundMag_byte (y := v * 255) (by linarith) (n := 255) (by norm_num) (by norm_num) (by norm_num; linarith)
    have h3 : (255 : ℤ) ≤ ⌊roundMag binary32 (v * 255)⌋ := by rw [Int.le_floor]; exact h2
    omega
  refine ⟨hle, by decide +kernel, by decide +kernel, by decide +kernel,
    fun x v hx => ⟨byteOf_nonpos hx, hone x v hx, fun h0 h1 => ?_⟩, fun x y v w hx hy hvw => ?_, ?_⟩
  · rcases h0.eq_or_lt with rfl | h0
    · rw [byteOf_nonpos hx le_rfl]
      norm_num
    · have h2 := byteOf_pos hx h0
      have hy : 0 < v * 255 := by linarith
      have hy2 : v * 255 ≤ 255 := by linarith
      have hn : ⌊255 * v⌋ ≤ 255 := by
        have : (⌊255 * v⌋ : ℚ) ≤ 255 := (Int.floor_le _).trans (by linarith)
        exact_mod_cast this
      have hl := le_roundMag_byte hy (n := ⌊255 * v⌋) (Int.floor_nonneg.2 (by linarith)) hn (by rw [mul_comm v]; exact Int.floor_le _)
      have hl' := Int.le_floor.2 hl
      have hu : ⌊roundMag binary32 (v * 255)⌋ ≤ ⌊255 * v + 1 / 2 ^ 16⌋ := by
        apply Int.floor_le_floor
        have := (abs_le.1 (roundMag32_near hy hy2)).1
        linarith
      omega
  · rcases le_or_gt v 0 with h | h
    · rw [byteOf_nonpos hx h]; exact Nat.zero_le _
    · rcases le_or_gt 1 w with h' | h'
      · rw [hone y w hy h']; exact hle x
      · have h2 := byteOf_pos hx h
        have h3 := byteOf_pos hy (by linarith)
        have := Int.floor_le_floor (roundMag32_mono (a := v * 255) (b := w * 255) (by linarith) (by linarith) (by linarith))
        omega
  · intro n hn
    have : ∀ m : Fin 256, byteOf ((ofInt binary32 (m.val : ℤ)).div (lit binary32 255)) = m.val := by decide +kernel
    exact this ⟨n, by omega⟩

/-- the components of the default scheme are truncated: 0.768 is printed as 195 although `255 * 0.768 = 195.84`; 2.5 and -0.5 are cut off -/
example : byteOf (lit binary32 (768 / 1000)) = 195 ∧ byteOf (lit binary32 (5 / 2)) = 255 ∧ byteOf (lit binary32 (-1 / 2)) = 0 ∧
    byteOf ((ofInt binary32 135).div (lit binary32 255)) = 135 := by decide +kernel

/-! ## Which cubes can be told apart -/

/-- Six half turns that exchange the edges UF and UB, and RF and RB -/
def twoSwaps : List AxisMove :=
  [⟨.R, .double⟩, ⟨.U, .double⟩, ⟨.R, .double⟩, ⟨.U, .double⟩, ⟨.R, .double⟩, ⟨.U, .double⟩]

/-- An alg that is not noticed if the two colours are the same: it exchanges two pairs of edges. For F and B it is `twoSwaps`, for F and U a conjugate
of it, for others a rotation of these. -/
def unnoticed (f g : Face) : List AxisMove :=
  let forFU : List AxisMove := [⟨.U, .double⟩, ⟨.R, .single⟩, ⟨.F, .double⟩, ⟨.U, .inverse⟩, ⟨.R, .double⟩, ⟨.U, .double⟩, ⟨.R, .double⟩,
    ⟨.U, .double⟩, ⟨.R, .double⟩, ⟨.U, .inverse⟩, ⟨.F, .double⟩, ⟨.R, .inverse⟩, ⟨.U, .double⟩]
  let turns : List (List AxisRotation) :=
    [] :: (Axis.all.flatMap fun a => Amount.all.map fun x => [⟨a, x⟩]) ++
      (Axis.all.flatMap fun a => Amount.all.flatMap fun x => Axis.all.flatMap fun b => Amount.all.map fun y => [⟨a, x⟩, ⟨b, y⟩])
  let start := if g = f.opposite then (Face.B, twoSwaps) else (Face.U, forFU)
  ((turns.find? fun w => w.foldl Face.rotated .F = f ∧ w.foldl Face.rotated start.1 = g).getD []).foldl algRotated start.2

/-- The two pictures differ at most in that one of the two colours is in the place of the other. -/
def AlmostSame (f g : Face) : Option (Unfolded 3) → Option (Unfolded 3) → Prop
  | some u, some v => ∀ k i j, u k i j = v k i j ∨ ((u k i j = ⟨f⟩ ∨ u k i j = ⟨g⟩) ∧ (v k i j = ⟨f⟩ ∨ v k i j = ⟨g⟩))
  | _, _ => False

instance (f g : Face) (u v : Option (Unfolded 3)) : Decidable (AlmostSame f g u v) := by
  unfold AlmostSame
  split <;> infer_instance

theorem unnoticed_spec : ∀ f g : Face, f ≠ g → movedAlg Cube3.SOLVED (unnoticed f g) ≠ Cube3.SOLVED ∧
    AlmostSame f g (Unfolded.ofCube3? (movedAlg Cube3.SOLVED (unnoticed f g))) (Unfolded.ofCube3? Cube3.SOLVED) := by
  rintro ⟨a, d⟩ ⟨b, e⟩
  revert a d b e
  decide +kernel

/-- **C112** Two valid 3x3 cubes with the same text are equal if the six colours of the scheme are different as bytes, which is so in the default scheme. If two
of them are the same, then not even all states that can be reached by moves have different texts. -/
theorem C112_told_apart (scheme : Colorscheme Srgb) :
    (scheme.Distinct → ∀ c d : Cube3, c.valid → d.valid → c.text? false scheme = d.text? false scheme → c = d) ∧
    ((∀ c d : Cube3, c.Reachable → d.Reachable → c.text? false scheme = d.text? false scheme → c = d) → scheme.Distinct) ∧
    Colorscheme.default.Distinct := by
  refine ⟨fun hs c d hc hd h => ?_, fun h f g hfg => ?_, ?_⟩
  · obtain ⟨u, h1, -⟩ := C51_drawing c hc
    obtain ⟨v, h2, -⟩ := C51_drawing d hd
    unfold Cube3.text? at h
    rw [h1, h2] at h
    have := C112_pictures scheme hs u v (congrArg screen (Option.some.inj h))
    apply C51_picture_injective c d hc hd
    intro s _
    unfold Cube3.shows
    rw [h1, h2, this]
  · by_contra hne
    obtain ⟨h1, h2⟩ := unnoticed_spec f g hne
    refine h1 (h _ _ ⟨_, rfl⟩ ⟨[], rfl⟩ ?_)
    unfold Cube3.text?
    unfold AlmostSame at h2
    split at h2
    · rename_i u v e1 e2
      rw [e1, e2]
      simp only [Option.map_some, Option.some.injEq]
      apply text_congr
      intro k i j
      have key : ∀ a b : Color, a = b ∨ ((a = ⟨f⟩ ∨ a = ⟨g⟩) ∧ (b = ⟨f⟩ ∨ b = ⟨g⟩)) → a.write false scheme = b.write false scheme := by
        rintro a b (rfl | ⟨rfl | rfl, rfl | rfl⟩)
        · rfl
        · rfl
        all_goals (unfold Color.write; simp only [hfg])
      exact key _ _ (h2 _ _ _)
    · exact h2.elim
  · rintro ⟨a, d⟩ ⟨b, e⟩
    revert a d b e
    decide +kernel

/-- the T permutation is seen in greys; with one colour for F and B the alg (R2 U2)3 is not seen -/
example : (movedAlg Cube3.SOLVED Perms.T).text? false greys ≠ Cube3.SOLVED.text? false greys := fun h =>
  absurd ((C112_told_apart greys).1 greys_distinct _ _ (C08_cubes.2.1 Cube3.SOLVED Perms.T C08_solved_valid.2.1) C08_solved_valid.2.1 h)
    (by decide +kernel)

example : unnoticed .F .B = twoSwaps ∧ ∃ scheme : Colorscheme Srgb, ¬ scheme.Distinct ∧ (scheme.get .F).toRgb = (scheme.get .B).toRgb :=
  ⟨by decide +kernel, ⟨fun _ => ⟨lit binary32 0, lit binary32 0, lit binary32 0⟩⟩, fun h => absurd (h .F .B rfl) (by decide), rfl⟩

/-- **C112** The bytes of the default scheme, and that `Display` of a cube is `write` with it: the colour of each facelet is on the screen in both columns of its place in
the paper net. -/
theorem C112_display (c : Cube3) (hc : c.valid) :
    ∃ t, c.text? false .default = some t ∧ ∀ s : Facelet, s.OnCube →
      ∃ (r k : Nat) (col : Color), netCell s = ((r : Int), (k : Int)) ∧ c.shows s = some col ∧
        onScreen t r (2 * k) = some (' ', some ⟨col.rgb.1, col.rgb.2.1, col.rgb.2.2⟩) ∧
        onScreen t r (2 * k + 1) = some (' ', some ⟨col.rgb.1, col.rgb.2.1, col.rgb.2.2⟩) := by
  obtain ⟨u, h, -⟩ := C51_drawing c hc
  refine ⟨u.text false .default, by unfold Cube3.text?; rw [h]; rfl, fun s hs => ?_⟩
  obtain ⟨t, ht, hp⟩ := C97_display c hc
  obtain ⟨r, k, col, e1, e2, e3⟩ := hp s hs
  have hw : t = u.write := by
    unfold Cube3.display? at ht
    rw [h] at ht
    exact (Option.some.inj ht).symm
  subst hw
  have hcol : (Colorscheme.default.get col.face).toRgb = ⟨col.rgb.1, col.rgb.2.1, col.rgb.2.2⟩ := by
    have : ∀ f : Face, (Colorscheme.default.get f).toRgb = ⟨(Color.mk f).rgb.1, (Color.mk f).rgb.2.1, (Color.mk f).rgb.2.2⟩ := by
      rintro ⟨a, d⟩
      revert a d
      decide +kernel
    exact this col.face
  refine ⟨r, k, col, e1, e2, ?_, ?_⟩
  · rw [onScreen_text, show 2 * k / 2 = k by omega, e3]
    simp [Tok.cells, hcol]
  · rw [onScreen_text, show (2 * k + 1) / 2 = k by omega, e3]
    simp [Tok.cells, hcol]

/-- after the T permutation the facelet of UF on F is still green: line 4, columns 10 and 11 -/
example : ((movedAlg Cube3.SOLVED Perms.T).text? false .default).map (fun t => [onScreen t 4 10, onScreen t 4 11, onScreen t 4 7, onScreen t 3 9]) =
    some [some (' ', some ⟨52, 149, 57⟩), some (' ', some ⟨52, 149, 57⟩), some (' ', none), none] := by
  decide +kernel

/-! ## Colour schemes and squares by face -/

/-- **C112** A scheme made of six colours in the order R, U, F, L, D, B has each for its face, and `iter` of a picture gives every face once, with its own
square. -/
theorem C112_by_face :
    (∀ (C : Type) (r u f l d b : C), let s := Colorscheme.new ![r, u, f, l, d, b]
      s.get .R = r ∧ s.get .U = u ∧ s.get .F = f ∧ s.get .L = l ∧ s.get .D = d ∧ s.get .B = b) ∧
    ∀ (N : Nat) (p : Unfolded N), (∀ f s, (f, s) ∈ p.iter ↔ p.square f = s) ∧ (p.iter.map Prod.fst).Nodup ∧ p.iter.length = 6 := by
  refine ⟨fun C r u f l d b => ⟨rfl, rfl, rfl, rfl, rfl, rfl⟩, fun N p => ?_⟩
  have h : p.iter = [(.R, p.square .R), (.U, p.square .U), (.F, p.square .F), (.L, p.square .L), (.D, p.square .D), (.B, p.square .B)] := by
    simp only [Unfolded.iter, Face.all, List.ofFn_succ, List.ofFn_zero]
    rfl
  rw [h]
  refine ⟨fun f s => ?_, ?_, rfl⟩
  · constructor
    · intro hm
      simp only [List.mem_cons, Prod.mk.injEq, List.not_mem_nil, or_false] at hm
      rcases hm with ⟨rfl, rfl⟩ | ⟨rfl, rfl⟩ | ⟨rfl, rfl⟩ | ⟨rfl, rfl⟩ | ⟨rfl, rfl⟩ | ⟨rfl, rfl⟩ <;> rfl
    · rintro rfl
      rcases f with ⟨_ | _ | _, _ | _⟩ <;> simp [Face.R, Face.U, Face.F, Face.L, Face.D, Face.B]
  · simp only [List.map_cons, List.map_nil]
    decide

/-- the example in the order of the documentation, and the squares of the picture of a solved cube -/
example : (Colorscheme.new ![1, 2, 3, 4, 5, 6]).get .L = 4 ∧ ((Unfolded.default 2).iter.map fun x => (x.1, x.2 1 0)) =
    [(.R, ⟨.R⟩), (.U, ⟨.U⟩), (.F, ⟨.F⟩), (.L, ⟨.L⟩), (.D, ⟨.D⟩), (.B, ⟨.B⟩)] := by decide

end Barbarosa
