import Verif.Model.Playground
import Verif.Props.Orientable
import Verif.Props.Stickers

/-!
# C54: sessions in the playground
-/

namespace Barbarosa

/-- The line is an alg in the notation of extended moves. -/
def Says (s : List Char) (alg : List ExtendedAxisMove) : Prop := ∃ words, Layout words s ∧ List.Forall₂ SpellsExtended words alg

/-- What the input says altogether: lines that say something, one after the other; anything else says nothing. -/
inductive SaysAll : List Input → List ExtendedAxisMove → Prop
  | nil : SaysAll [] []
  | failed {is alg} : SaysAll is alg → SaysAll (.failed :: is) alg
  | bad {s is alg} : (∀ a, ¬ Says s a) → SaysAll is alg → SaysAll (.line s :: is) alg
  | good {s a is alg} : Says s a → SaysAll is alg → SaysAll (.line s :: is) (a ++ alg)

/-- A wide move that the 3x3 cannot do (see C45): two layers, with or without a number in front -/
def ExtendedAxisMove.Deadly : ExtendedAxisMove → Prop
  | .wide m => m.depth = 1 ∨ m.depth = 2
  | _ => False

theorem deadly_exactly (c : Orientable Cube3) (m : ExtendedAxisMove) : c.apply? m = none ↔ m.Deadly := by
  cases m with
  | wide m => exact C45_panics_exactly ⟨Cube3⟩ (by simp [heldSystems]) c m
  | regular m =>
    obtain ⟨m', h, -⟩ := C49_turns_seen_face_partial ⟨Cube3⟩ c.baseCube c.orientation m
    have h' : c.apply? (.regular m) = _ := h
    simp [h', ExtendedAxisMove.Deadly]
  | rotation r =>
    obtain ⟨c', h, -⟩ := C47_picture c r
    simp [h, ExtendedAxisMove.Deadly]
  | slice rot w =>
    obtain ⟨o', -, h⟩ := apply_slice c rot w
    simp [h, ExtendedAxisMove.Deadly]

theorem deadly_alg (alg : List ExtendedAxisMove) : ∀ c : Orientable Cube3, c.applyAlg? alg = none ↔ ∃ m ∈ alg, m.Deadly := by
  unfold Orientable.applyAlg?
  induction alg with
  | nil => intro c; simp
  | cons m alg ih =>
    intro c
    rw [List.foldlM_cons]
    cases h : c.apply? m with
    | none =>
      have := (deadly_exactly c m).1 h
      exact ⟨fun _ => ⟨m, by simp, this⟩, fun _ => rfl⟩
    | some c' =>
      have hm : ¬ m.Deadly := fun hd => by rw [(deadly_exactly c m).2 hd] at h; cases h
      show List.foldlM _ c' alg = none ↔ _
      rw [ih c']
      simp [hm]

theorem applyAlg_append (c : Orientable Cube3) (a b : List ExtendedAxisMove) :
    c.applyAlg? (a ++ b) = (c.applyAlg? a).bind fun c' => c'.applyAlg? b := by
  unfold Orientable.applyAlg?
  rw [List.foldlM_append]
  rfl

/-- Whatever extended moves do, the cube itself is turned by some face turns. -/
theorem apply_by_turns (c c' : Orientable Cube3) (m : ExtendedAxisMove) (h : c.apply? m = some c') :
    ∃ alg : List AxisMove, c'.baseCube = movedAlg c.baseCube alg := by
  cases m with
  | regular m =>
    obtain ⟨m', h', -⟩ := C49_turns_seen_face_partial ⟨Cube3⟩ c.baseCube c.orientation m
    have h'' : c.apply? (.regular m) = _ := h'
    rw [h''] at h
    cases h
    exact ⟨[m'], rfl⟩
  | rotation r =>
    obtain ⟨c₁, h', hb, -⟩ := C47_picture c r
    rw [h'] at h
    cases h
    exact ⟨[], hb⟩
  | slice rot w =>
    obtain ⟨o', -, h'⟩ := apply_slice c rot w
    rw [h'] at h
    cases h
    exact ⟨[⟨⟨rot.axis, .pos⟩, rot.amount.mul .neg⟩, ⟨⟨rot.axis, .neg⟩, rot.amount.mul .neg⟩], rfl⟩
  | wide m =>
    by_cases h1 : Cube.N Cube3 < m.depth
    · rw [apply_wide_beyond c m h1] at h
      obtain ⟨c₁, h', hb, -⟩ := C47_picture c (AxisRotation.ofMove m.axisMove)
      rw [h'] at h
      cases h
      exact ⟨[], hb⟩
    · by_cases h2 : 2 * m.depth < Cube.N Cube3
      · rw [apply_wide_shallow c m h2] at h
        split at h
        · cases h
          exact ⟨[m.axisMove], rfl⟩
        · cases h
      · obtain ⟨o', -, h'⟩ := apply_wide_deep c m (by decide) (by omega) (by omega)
        rw [h'] at h
        split at h
        · cases h
          exact ⟨[⟨m.face.opposite, m.amount⟩], rfl⟩
        · cases h

theorem applyAlg_by_turns (alg : List ExtendedAxisMove) : ∀ c c' : Orientable Cube3, c.applyAlg? alg = some c' →
    ∃ turns : List AxisMove, c'.baseCube = movedAlg c.baseCube turns := by
  unfold Orientable.applyAlg?
  induction alg with
  | nil => intro c c' h; cases h; exact ⟨[], rfl⟩
  | cons m alg ih =>
    intro c c' h
    rw [List.foldlM_cons] at h
    cases h1 : c.apply? m with
    | none => rw [h1] at h; cases h
    | some c₁ =>
      rw [h1] at h
      obtain ⟨t1, e1⟩ := apply_by_turns c c₁ m h1
      obtain ⟨t2, e2⟩ := ih c₁ c' h
      refine ⟨t1 ++ t2, ?_⟩
      rw [e2, e1, movedAlg, movedAlg, movedAlg, List.foldl_append]

/-- **C54** A line that is not an alg, or cannot be read, leaves the cube exactly as it was; an error is shown. -/
theorem C54_bad_line (num : Char → Bool) (hn : NumberClass num) (c : Orientable Cube3) :
    (∀ s, (∀ alg, ¬ Says s alg) → playgroundRound? num c (.line s) = some (c, .error)) ∧
    playgroundRound? num c .failed = some (c, .error) := by
  refine ⟨fun s hs => ?_, rfl⟩
  obtain ⟨h1, h2⟩ := C60_extended_alg num hn s
  unfold playgroundRound?
  cases h : (parse num s : Outcome (List ExtendedAxisMove)) with
  | panic => exact absurd h h2
  | err e => simp only [h]
  | ok alg => exact absurd ((h1 alg).1 h) (hs alg)

/-- a failed read -/
example (c : Orientable Cube3) : playgroundRound? asciiNumber c .failed = some (c, .error) := (C54_bad_line asciiNumber asciiNumber_class c).2

/-- **C54** Lines that are algs apply all their moves in order and show the new cube. Missing: lines with a move that turns exactly two
layers; see `C54_dies_exactly`. -/
theorem C54_good_line_partial (num : Char → Bool) (hn : NumberClass num) (c : Orientable Cube3) (hc : c.baseCube.valid) (s : List Char)
    (alg : List ExtendedAxisMove) (hs : Says s alg) (hd : ∀ m ∈ alg, ¬ m.Deadly) :
    ∃ c' t, c.applyAlg? alg = some c' ∧ c'.baseCube.valid ∧ c'.baseCube.display? = some t ∧
      playgroundRound? num c (.line s) = some (c', .drawing t) := by
  obtain ⟨h1, -⟩ := C60_extended_alg num hn s
  have hp := (h1 alg).2 hs
  cases ha : c.applyAlg? alg with
  | none =>
    obtain ⟨m, hm, hmd⟩ := (deadly_alg alg c).1 ha
    exact absurd hmd (hd m hm)
  | some c' =>
    obtain ⟨turns, e⟩ := applyAlg_by_turns alg c c' ha
    have hv : c'.baseCube.valid := by rw [e]; exact C08_cubes.2.1 _ turns hc
    obtain ⟨t, ht⟩ := C51_display_injective.1 _ hv
    refine ⟨c', t, rfl, hv, ht, ?_⟩
    unfold playgroundRound?
    simp only [hp, ha, ht]

/-- `R y U'` on a solved cube -/
example : ∃ c' t, playgroundRound? asciiNumber (Orientable.new Cube3.SOLVED) (.line "R y U'".toList) = some (c', .drawing t) := by
  have hs : Says "R y U'".toList [.regular ⟨Face.R, .single⟩, .rotation ⟨.Y, .single⟩, .regular ⟨Face.U, .inverse⟩] :=
    ((C60_extended_alg asciiNumber asciiNumber_class _).1 _).1 (by decide +kernel)
  obtain ⟨c', t, -, -, -, h⟩ := C54_good_line_partial asciiNumber asciiNumber_class (Orientable.new Cube3.SOLVED) C08_solved_valid.2.1 _ _ hs
    (by simp [ExtendedAxisMove.Deadly])
  exact ⟨c', t, h⟩

/-- **C54** What ends the program: the end of the input, or a well-formed line with a move of exactly two layers, such as `Rw`. Nothing else;
in particular no bad line, and no drawing, from any valid cube. -/
theorem C54_dies_exactly (num : Char → Bool) (hn : NumberClass num) (c : Orientable Cube3) (hc : c.baseCube.valid) (i : Input) :
    playgroundRound? num c i = none ↔ i = .eof ∨ ∃ s alg, i = .line s ∧ Says s alg ∧ ∃ m ∈ alg, m.Deadly := by
  cases i with
  | eof => exact ⟨fun _ => Or.inl rfl, fun _ => rfl⟩
  | failed => simp [playgroundRound?]
  | line s =>
    constructor
    · intro h
      right
      by_cases hs : ∃ alg, Says s alg
      · obtain ⟨alg, hs⟩ := hs
        refine ⟨s, alg, rfl, hs, ?_⟩
        by_contra hd
        obtain ⟨c', t, -, -, -, h'⟩ := C54_good_line_partial num hn c hc s alg hs (fun m hm hmd => hd ⟨m, hm, hmd⟩)
        rw [h'] at h
        cases h
      · rw [(C54_bad_line num hn c).1 s (fun alg ha => hs ⟨alg, ha⟩)] at h
        cases h
    · rintro (h | ⟨s', alg, h, hs, hd⟩)
      · cases h
      · cases h
        have hp := ((C60_extended_alg num hn s).1 alg).2 hs
        unfold playgroundRound?
        simp only [hp, (deadly_alg alg c).2 hd]

/-- the end of the input, and a failed read -/
example : playgroundRound? asciiNumber (Orientable.new Cube3.SOLVED) .eof = none ∧
    playgroundRound? asciiNumber (Orientable.new Cube3.SOLVED) .failed ≠ none :=
  ⟨(C54_dies_exactly asciiNumber asciiNumber_class _ C08_solved_valid.2.1 _).2 (.inl rfl), fun h => by
    rcases (C54_dies_exactly asciiNumber asciiNumber_class _ C08_solved_valid.2.1 _).1 h with h | ⟨_, _, h, _⟩ <;> cases h⟩

/-- **C54** is false: after `Rw` there is no playground any more. -/
theorem C54_Rw_ends (c : Orientable Cube3) : playgroundRound? asciiNumber c (.line ['R', 'w']) = none := by
  have hp : (parse asciiNumber ['R', 'w'] : Outcome (List ExtendedAxisMove)) = .ok [.wide ⟨1, ⟨Face.R, .single⟩⟩] := by decide +kernel
  unfold playgroundRound?
  simp only [hp, (deadly_alg [.wide ⟨1, ⟨Face.R, .single⟩⟩] c).2 ⟨_, List.mem_singleton.2 rfl, Or.inl rfl⟩]

example : playground? asciiNumber [.line ['R', ' ', 'U'], .line ['R', 'w'], .line ['U']] = none := by decide +kernel

theorem says_all_exists (is : List Input) (h : Input.eof ∉ is) : ∃ alg, SaysAll is alg := by
  induction is with
  | nil => exact ⟨_, .nil⟩
  | cons i is ih =>
    obtain ⟨alg, ha⟩ := ih (fun h' => h (List.mem_cons_of_mem _ h'))
    cases i with
    | eof => exact absurd (List.mem_cons_self) h
    | failed => exact ⟨_, .failed ha⟩
    | line s =>
      by_cases hs : ∃ a, Says s a
      · obtain ⟨a, hs⟩ := hs
        exact ⟨_, .good hs ha⟩
      · exact ⟨_, .bad (fun a h' => hs ⟨a, h'⟩) ha⟩

theorem loop_session (num : Char → Bool) (hn : NumberClass num) {is : List Input} {alg : List ExtendedAxisMove} (h : SaysAll is alg) :
    ∀ c : Orientable Cube3, c.baseCube.valid →
      ((∃ m ∈ alg, m.Deadly) → playgroundLoop? num c is = none) ∧
      ((∀ m ∈ alg, ¬ m.Deadly) → ∃ c' ss, c.applyAlg? alg = some c' ∧ playgroundLoop? num c is = some (c', ss) ∧
        ss.length = is.length ∧ c'.baseCube.valid) := by
  induction h with
  | nil => exact fun c hc => ⟨fun ⟨m, hm, _⟩ => (by cases hm), fun _ => ⟨c, [], rfl, rfl, rfl, hc⟩⟩
  | @failed is alg _ ih =>
    intro c hc
    obtain ⟨i1, i2⟩ := ih c hc
    refine ⟨fun hd => ?_, fun hd => ?_⟩
    · simp only [playgroundLoop?, (C54_bad_line num hn c).2, i1 hd]
    · obtain ⟨c', ss, e1, e2, e3, e4⟩ := i2 hd
      exact ⟨c', .error :: ss, e1, by simp only [playgroundLoop?, (C54_bad_line num hn c).2, e2], by simp [e3], e4⟩
  | @bad s is alg hs _ ih =>
    intro c hc
    obtain ⟨i1, i2⟩ := ih c hc
    have hr := (C54_bad_line num hn c).1 s hs
    refine ⟨fun hd => ?_, fun hd => ?_⟩
    · simp only [playgroundLoop?, hr, i1 hd]
    · obtain ⟨c', ss, e1, e2, e3, e4⟩ := i2 hd
      exact ⟨c', .error :: ss, e1, by simp only [playgroundLoop?, hr, e2], by simp [e3], e4⟩
  | @good s a is alg hs _ ih =>
    intro c hc
    by_cases hda : ∃ m ∈ a, m.Deadly
    · have hr := (C54_dies_exactly num hn c hc (.line s)).2 (Or.inr ⟨s, a, rfl, hs, hda⟩)
      refine ⟨fun _ => by simp only [playgroundLoop?, hr], fun hd => ?_⟩
      obtain ⟨m, hm, hmd⟩ := hda
      exact absurd hmd (hd m (List.mem_append_left _ hm))
    · obtain ⟨c₁, t, e1, hv, -, hr⟩ := C54_good_line_partial num hn c hc s a hs (fun m hm hmd => hda ⟨m, hm, hmd⟩)
      obtain ⟨i1, i2⟩ := ih c₁ hv
      refine ⟨fun hd => ?_, fun hd => ?_⟩
      · obtain ⟨m, hm, hmd⟩ := hd
        rcases List.mem_append.1 hm with hm | hm
        · exact absurd ⟨m, hm, hmd⟩ hda
        · simp only [playgroundLoop?, hr, i1 ⟨m, hm, hmd⟩]
      · obtain ⟨c', ss, f1, f2, f3, f4⟩ := i2 (fun m hm => hd m (List.mem_append_right _ hm))
        refine ⟨c', .drawing t :: ss, ?_, by simp only [playgroundLoop?, hr, f2], by simp [f3], f4⟩
        rw [applyAlg_append, e1]
        exact f1

/-- **C54** A whole session: as long as the input does not end, it says one alg (bad lines say nothing). If there is a two-layer move in it the
program has died. Otherwise the cube is the solved cube with that alg applied, there was one answer to every line
(after the first drawing), and the cube itself is the solved cube after some face turns. -/
theorem C54_session (num : Char → Bool) (hn : NumberClass num) (is : List Input) (h : Input.eof ∉ is) :
    ∃ alg, SaysAll is alg ∧ ((∃ m ∈ alg, m.Deadly) ↔ playground? num is = none) ∧
      ∀ c ss, playground? num is = some (c, ss) → (Orientable.new Cube3.SOLVED).applyAlg? alg = some c ∧
        ss.length = is.length + 1 ∧ ∃ turns : List AxisMove, c.baseCube = movedAlg Cube3.SOLVED turns := by
  obtain ⟨alg, ha⟩ := says_all_exists is h
  have hv : (Orientable.new Cube3.SOLVED).baseCube.valid := C08_solved_valid.2.1
  obtain ⟨h1, h2⟩ := loop_session num hn ha (Orientable.new Cube3.SOLVED) hv
  obtain ⟨t, ht⟩ := C51_display_injective.1 _ hv
  refine ⟨alg, ha, ?_, ?_⟩
  · constructor
    · intro hd
      unfold playground?
      simp only [ht, h1 hd]
    · intro hp
      by_contra hd
      obtain ⟨c', ss, -, e, -⟩ := h2 (fun m hm hmd => hd ⟨m, hm, hmd⟩)
      unfold playground? at hp
      simp only [ht, e] at hp
      cases hp
  · intro c ss hp
    by_cases hd : ∃ m ∈ alg, m.Deadly
    · unfold playground? at hp
      simp only [ht, h1 hd] at hp
      cases hp
    · obtain ⟨c', ss', e1, e, e3, -⟩ := h2 (fun m hm hmd => hd ⟨m, hm, hmd⟩)
      unfold playground? at hp
      simp only [ht, e] at hp
      cases hp
      obtain ⟨turns, et⟩ := applyAlg_by_turns alg _ _ e1
      exact ⟨e1, by simp [e3], turns, et⟩

example : ∃ alg, SaysAll [.line ['R', ' ', 'U'], .line ['Q'], .failed, .line ['R', 'w']] alg ∧ ∃ m ∈ alg, m.Deadly := by
  obtain ⟨alg, h1, h2, -⟩ := C54_session asciiNumber asciiNumber_class [.line ['R', ' ', 'U'], .line ['Q'], .failed, .line ['R', 'w']] (by simp)
  exact ⟨alg, h1, h2.2 (by decide +kernel)⟩

/-- **C54** What the session says is determined by the input. -/
theorem C54_says_unique (is : List Input) (a b : List ExtendedAxisMove) (ha : SaysAll is a) (hb : SaysAll is b) : a = b := by
  have uniq : ∀ s a b, Says s a → Says s b → a = b := by
    intro s a b ha hb
    have h1 := ((C60_extended_alg asciiNumber asciiNumber_class s).1 a).2 ha
    have h2 := ((C60_extended_alg asciiNumber asciiNumber_class s).1 b).2 hb
    rw [h1] at h2
    cases h2
    rfl
  induction ha generalizing b with
  | nil => cases hb; rfl
  | failed _ ih => cases hb with | failed h => exact ih _ h
  | bad hs _ ih =>
    cases hb with
    | bad _ h => exact ih _ h
    | good h _ => exact absurd h (hs _)
  | good hs _ ih =>
    cases hb with
    | bad h _ => exact absurd hs (h _)
    | good h h' => rw [uniq _ _ _ hs h, ih _ h']

/-- a good line, two bad ones and another good one -/
example : ∃ c ss, playground? asciiNumber [.line ['R', ' ', 'U'], .line ['Q'], .failed, .line ['M', '2']] = some (c, ss) ∧
    ss.map (fun | .error => true | .drawing _ => false) = [false, false, true, true, false] := by
  refine ⟨_, _, rfl, ?_⟩
  decide +kernel

end Barbarosa
