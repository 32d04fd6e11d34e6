import Verif.Props.Convert
import Verif.Props.Float
import Verif.Props.Playground
import Verif.Props.Terminal
import Verif.Props.Trace

/-!
# C113: from a scramble typed in to a solution printed

The parts of the library put together, as `benches/solving/mod.rs:21-36` and `main.rs:26-58` do.
-/

namespace Barbarosa

/-! ## Texts one after the other -/

theorem layout_lead {lead : List Char} (hl : ∀ c ∈ lead, White c) {ws t} (h : Layout ws t) : Layout ws (lead ++ t) := by
  cases h with
  | blank hb =>
    exact .blank fun c hc => (List.mem_append.1 hc).elim (hl c) (hb c)
  | @word lead' w rest ws h1 h2 h3 h4 h5 =>
    have e : lead ++ (lead' ++ w ++ rest) = (lead ++ lead') ++ w ++ rest := by simp only [List.append_assoc]
    rw [e]
    exact .word (fun c hc => (List.mem_append.1 hc).elim (hl c) (h1 c)) h2 h3 h4 h5

theorem layout_append {c : Char} (hc : White c) {ws t} (h : Layout ws t) {vs s} (h' : Layout vs s) :
    Layout (ws ++ vs) (t ++ c :: s) := by
  have hs : Layout vs (c :: s) := layout_lead (lead := [c]) (by simpa using hc) h'
  induction h with
  | blank hb => exact layout_lead hb hs
  | @word lead w rest ws h1 h2 h3 h4 h5 ih =>
    rw [List.append_assoc (lead ++ w)]
    refine .word h1 h2 h3 (Or.inr ?_) ih
    rcases h4 with rfl | ⟨d, r, rfl, hd⟩
    · exact ⟨c, s, rfl, hc⟩
    · exact ⟨d, r ++ c :: s, rfl, hd⟩

/-- **C113** Two texts with white space between them are read as the first alg followed by the second. -/
theorem C113_texts_join (num : Char → Bool) (t s : List Char) (c : Char) (hc : White c) (a b : List AxisMove)
    (ha : (parse num t : Outcome (List AxisMove)) = .ok a) (hb : (parse num s : Outcome (List AxisMove)) = .ok b) :
    (parse num (t ++ c :: s) : Outcome (List AxisMove)) = .ok (a ++ b) := by
  obtain ⟨ws, h1, h2⟩ := ((C42_alg num t).1 a).1 ha
  obtain ⟨vs, h3, h4⟩ := ((C42_alg num s).1 b).1 hb
  exact ((C42_alg num _).1 _).2 ⟨ws ++ vs, layout_append hc h1 h3, List.rel_append h2 h4⟩

/-- the sexy move after itself, on the next line -/
example : (parse asciiNumber (algDisplay AxisMove.display Perms.SEXY_MOVE ++ '\n' :: algDisplay AxisMove.display Perms.T) :
    Outcome (List AxisMove)) = .ok (Perms.SEXY_MOVE ++ Perms.T) :=
  C113_texts_join asciiNumber _ _ '\n' (by unfold White; decide) _ _ (C41_alg _ _) (C41_alg _ _)

/-- without white space between them two texts may be one word, and not a move -/
example : (parse asciiNumber ['R'] : Outcome (List AxisMove)) = .ok [⟨Face.R, .single⟩] ∧
    (parse asciiNumber (['R'] ++ ['R']) : Outcome (List AxisMove)) = .err .pest := by decide +kernel

/-! ## Solving a scramble -/

theorem movedAlg_reversed (alg : List AxisMove) (c : Cube3) : movedAlg (movedAlg c alg) (reversed alg) = c :=
  (C02_alg_then_reversed ⟨Cube3, AxisMove⟩ (by simp [moveSystems]) alg c).1

/-- plain moves are extended moves, spelled the same -/
theorem parse_plain {num : Char → Bool} (hn : NumberClass num) {text : List Char} {alg : List AxisMove}
    (ht : (parse num text : Outcome (List AxisMove)) = .ok alg) :
    (parse num text : Outcome (List ExtendedAxisMove)) = .ok (alg.map ExtendedAxisMove.regular) := by
  obtain ⟨ws, h1, h2⟩ := ((C42_alg num text).1 alg).1 ht
  refine ((C60_extended_alg num hn text).1 _).2 ⟨ws, h1, ?_⟩
  rw [List.forall₂_map_right_iff]
  exact h2

/-- … and on a cube that has not been turned round they turn the faces of it -/
theorem applyAlg_plain (alg : List AxisMove) (c : Cube3) :
    (Orientable.new c).applyAlg? (alg.map ExtendedAxisMove.regular) = some (Orientable.new (movedAlg c alg)) := by
  induction alg generalizing c with
  | nil => rfl
  | cons m alg ih =>
    have h : (Orientable.new c).apply? (.regular m) = some (Orientable.new (moved c m)) := C94_axis_move_default ⟨Cube3⟩ c m
    unfold Orientable.applyAlg? at ih ⊢
    rw [List.map_cons, List.foldlM_cons, h]
    exact ih (moved c m)

/-- the finished tables are such a cache -/
theorem goodCache_self (edges corners : List Nat) : GoodCache edges corners ⟨edges, corners⟩ :=
  ⟨⟨⟨Nat.le_refl _, fun _ _ h => Or.inr h⟩, rfl⟩, ⟨Nat.le_refl _, fun _ _ h => Or.inr h⟩, rfl⟩

/-- **C113** What a user who types a scramble gets. The text is read as an alg with one move for every word. The solver with the MUS
heuristic, in `f32`, with the tables as generated or any cache from the disk that C62 lets through, comes to an end with a solution. It is
no longer than the text has words, no alg is shorter, and the cube is solved after it (the three assertions of the benchmark). Typed in behind
the scramble, the printed solution leads back: the text of the two is read as the scramble followed by the solution, and the cube after it
is printed like a solved one. -/
theorem C113_solve_typed {edges corners : List Nat} (he : buildTable? HalfEdgesMUS = some edges)
    (hk : buildTable? CornersMUS = some corners) {cache : Cache} (g : GoodCache edges corners cache) (num : Char → Bool)
    (text : List Char) (alg : List AxisMove) (ht : (parse num text : Outcome (List AxisMove)) = .ok alg) :
    ∃ sol : List AxisMove,
      Returns (fun fuel => Cube3.solveWithHeuristicP? f32Ops (mus32? cache) fuel (movedAlg Cube3.SOLVED alg)) (some sol) ∧
      Cube.isSolved (movedAlg (movedAlg Cube3.SOLVED alg) sol) = true ∧
      (∀ words, Layout words text → sol.length ≤ words.length) ∧
      (∀ alg' : List AxisMove, Cube.isSolved (movedAlg (movedAlg Cube3.SOLVED alg) alg') = true → sol.length ≤ alg'.length) ∧
      (parse num (text ++ ' ' :: algDisplay AxisMove.display sol) : Outcome (List AxisMove)) = .ok (alg ++ sol) ∧
      ∀ noColor scheme, (movedAlg Cube3.SOLVED (alg ++ sol)).text? noColor scheme = Cube3.SOLVED.text? noColor scheme := by
  have hv : (movedAlg Cube3.SOLVED alg).valid := C08_cubes.2.1 Cube3.SOLVED alg C08_solved_valid.2.1
  obtain ⟨r, h1, h2, h3⟩ := C98_solve_mus he hk g (movedAlg Cube3.SOLVED alg) hv
  obtain ⟨sol, rfl⟩ := Option.isSome_iff_exists.1 (h2.2 ⟨alg, rfl⟩)
  obtain ⟨h4, h5⟩ := h3 sol rfl
  have hi : ∀ c : Cube3, Cube.isSolved c = true ↔ c = Cube3.SOLVED := fun c => decide_eq_true_iff
  refine ⟨sol, h1, (hi _).2 h4, fun words hw => ?_, fun alg' h' => h5 alg' ((hi _).1 h'), ?_, fun noColor scheme => ?_⟩
  · obtain ⟨ws, hl, hf⟩ := ((C42_alg num text).1 alg).1 ht
    have e : ws = words := (C42_words_unique text).unique hl hw
    rw [← e, hf.length_eq]
    have hb := h5 (reversed alg) (movedAlg_reversed alg Cube3.SOLVED)
    rwa [(C02_reversed_append alg []).2] at hb
  · exact C113_texts_join num _ _ ' ' (by unfold White; decide) _ _ ht (C41_alg num sol)
  · have e : movedAlg Cube3.SOLVED (alg ++ sol) = Cube3.SOLVED := (List.foldl_append ..).trans h4
    rw [e]

/-- `R U R' U'` typed with the generated tables: the solver needs at most four moves -/
example : ∃ (cache : Cache) (sol : List AxisMove), Returns (fun fuel => Cube3.solveWithHeuristicP? f32Ops (mus32? cache) fuel
      (movedAlg Cube3.SOLVED Perms.SEXY_MOVE)) (some sol) ∧ sol.length ≤ 4 := by
  obtain ⟨corners, hk, -⟩ := C24_corners
  obtain ⟨edges, he, -⟩ := C24_edges
  have ht : (parse asciiNumber "R U R' U'".toList : Outcome (List AxisMove)) = .ok Perms.SEXY_MOVE := by decide +kernel
  have hw : Layout [['R'], ['U'], ['R', '\''], ['U', '\'']] "R U R' U'".toList := by
    have := layout_of_split "R U R' U'".toList
    rwa [show splitWhitespace "R U R' U'".toList = [['R'], ['U'], ['R', '\''], ['U', '\'']] from by decide +kernel] at this
  obtain ⟨sol, h1, -, h2, -⟩ := C113_solve_typed he hk (goodCache_self edges corners) asciiNumber _ _ ht
  exact ⟨⟨edges, corners⟩, sol, h1, h2 _ hw⟩

/-- **C113** Typed into the playground, scramble and solution on a line each: nothing dies, the scrambled cube is drawn after the first line and
the drawing after the second is the one from the beginning. -/
theorem C113_playground {edges corners : List Nat} (he : buildTable? HalfEdgesMUS = some edges)
    (hk : buildTable? CornersMUS = some corners) {cache : Cache} (g : GoodCache edges corners cache) (num : Char → Bool)
    (hn : NumberClass num) (text : List Char) (alg : List AxisMove) (ht : (parse num text : Outcome (List AxisMove)) = .ok alg) :
    ∃ (sol : List AxisMove) (start scrambled : List Tok),
      Returns (fun fuel => Cube3.solveWithHeuristicP? f32Ops (mus32? cache) fuel (movedAlg Cube3.SOLVED alg)) (some sol) ∧
      Cube3.SOLVED.display? = some start ∧ (movedAlg Cube3.SOLVED alg).display? = some scrambled ∧
      playground? num [.line text, .line (algDisplay AxisMove.display sol)] =
        some (Orientable.new Cube3.SOLVED, [.drawing start, .drawing scrambled, .drawing start]) := by
  obtain ⟨sol, h1, h2, -⟩ := C113_solve_typed he hk g num text alg ht
  have hv : (movedAlg Cube3.SOLVED alg).valid := C08_cubes.2.1 Cube3.SOLVED alg C08_solved_valid.2.1
  have h4 : movedAlg (movedAlg Cube3.SOLVED alg) sol = Cube3.SOLVED := decide_eq_true_iff.1 h2
  obtain ⟨start, hs⟩ := C51_display_injective.1 Cube3.SOLVED C08_solved_valid.2.1
  obtain ⟨scrambled, hs'⟩ := C51_display_injective.1 _ hv
  refine ⟨sol, start, scrambled, h1, hs, hs', ?_⟩
  have p1 := parse_plain hn ht
  have p2 := parse_plain hn (C41_alg num sol)
  have e1 := applyAlg_plain alg Cube3.SOLVED
  have e2 := applyAlg_plain sol (movedAlg Cube3.SOLVED alg)
  rw [h4] at e2
  have r1 : playgroundRound? num (Orientable.new Cube3.SOLVED) (.line text) =
      some (Orientable.new (movedAlg Cube3.SOLVED alg), .drawing scrambled) := by
    unfold playgroundRound?
    simp only [p1, e1, show (Orientable.new (movedAlg Cube3.SOLVED alg)).baseCube = movedAlg Cube3.SOLVED alg from rfl, hs']
  have r2 : playgroundRound? num (Orientable.new (movedAlg Cube3.SOLVED alg)) (.line (algDisplay AxisMove.display sol)) =
      some (Orientable.new Cube3.SOLVED, .drawing start) := by
    unfold playgroundRound?
    simp only [p2, e2, show (Orientable.new Cube3.SOLVED).baseCube = Cube3.SOLVED from rfl, hs]
  unfold playground?
  simp only [show (Orientable.new Cube3.SOLVED).baseCube = Cube3.SOLVED from rfl, hs, playgroundLoop?, r1, r2]

/-- the T permutation, typed with two blanks in front -/
example : ∃ (sol : List AxisMove) (ss : List Shown), ss.length = 3 ∧
    playground? asciiNumber [.line (' ' :: ' ' :: algDisplay AxisMove.display Perms.T), .line (algDisplay AxisMove.display sol)] =
      some (Orientable.new Cube3.SOLVED, ss) := by
  obtain ⟨corners, hk, -⟩ := C24_corners
  obtain ⟨edges, he, -⟩ := C24_edges
  have hsp : White ' ' := by unfold White; decide
  have ht : (parse asciiNumber (' ' :: ' ' :: algDisplay AxisMove.display Perms.T) : Outcome (List AxisMove)) = .ok Perms.T :=
    C113_texts_join asciiNumber [] _ ' ' hsp [] _ rfl (C113_texts_join asciiNumber [] _ ' ' hsp [] _ rfl (C41_alg _ _))
  obtain ⟨sol, a, b, -, -, -, h⟩ := C113_playground he hk (goodCache_self edges corners) asciiNumber asciiNumber_class _ _ ht
  exact ⟨sol, _, rfl, h⟩

/-! ## The first cross on the way -/

theorem solved_cross (f : Face) : countCrossPieces Cube3.SOLVED f = 4 := by revert f; decide +kernel

/-- **C113** `solve_cross` on the scrambled cube never needs more moves than the whole cube: for every face and every solution of the cube
(in particular the one of `C113_solve_typed`, and undoing the scramble) the cross is found, in at most as many moves. -/
theorem C113_cross (num : Char → Bool) (text : List Char) (alg : List AxisMove)
    (ht : (parse num text : Outcome (List AxisMove)) = .ok alg) (f : Face) :
    ∃ (cross : List AxisMove) (d : Cube3), Returns (fun fuel => solveCross? fuel (movedAlg Cube3.SOLVED alg) f) (some (cross, d)) ∧
      movedAlg (movedAlg Cube3.SOLVED alg) cross = d ∧ d.CrossSolved f ∧
      (∀ sol : List AxisMove, Cube.isSolved (movedAlg (movedAlg Cube3.SOLVED alg) sol) = true → cross.length ≤ sol.length) ∧
      (∀ words, Layout words text → cross.length ≤ words.length) := by
  have hv : (movedAlg Cube3.SOLVED alg).valid := C08_cubes.2.1 Cube3.SOLVED alg C08_solved_valid.2.1
  obtain ⟨cross, d, h1, h2, h3, h4, -⟩ := C31_solve_cross _ hv f
  have hs : Cube3.SOLVED.CrossSolved f := (C32_count _ f).2.2.1 (solved_cross f)
  have key : ∀ sol : List AxisMove, movedAlg (movedAlg Cube3.SOLVED alg) sol = Cube3.SOLVED → cross.length ≤ sol.length :=
    fun sol h => h4 sol (by rw [h]; exact hs)
  refine ⟨cross, d, h1, h2, h3, fun sol h => key sol (decide_eq_true_iff.1 h), fun words hw => ?_⟩
  obtain ⟨ws, hl, hf⟩ := ((C42_alg num text).1 alg).1 ht
  have e : ws = words := (C42_words_unique text).unique hl hw
  rw [← e, hf.length_eq]
  have hb := key (reversed alg) (movedAlg_reversed alg Cube3.SOLVED)
  rwa [(C02_reversed_append alg []).2] at hb

/-- `R` is undone: the cross of the white face takes at most one move -/
example : ∃ (cross : List AxisMove) (d : Cube3), Returns (fun fuel => solveCross? fuel (movedAlg Cube3.SOLVED [(⟨Face.R, .single⟩ : AxisMove)])
    Face.U) (some (cross, d)) ∧ cross.length ≤ 1 := by
  obtain ⟨cross, d, h1, -, -, -, h2⟩ := C113_cross asciiNumber ['R'] [⟨Face.R, .single⟩] (by decide +kernel) Face.U
  refine ⟨cross, d, h1, h2 [['R']] ?_⟩
  have := layout_of_split ['R']
  rwa [show splitWhitespace ['R'] = [['R']] from by decide +kernel] at this

/-! ## The work of `solve_cross` -/

/-- **C87** `solve_cross` on a valid cube: it finds its answer, the calls of the heuristic on the way can be counted, and if `n`
moves are enough for the cross they are at most `1 + (n + 1) * (1 + 18 * (1 + 17 + ... + 17 ^ n))`. Eight moves are always
enough, so there are never more than 1200702249532 calls. -/
theorem C87_cross_calls (c : Cube3) (hc : c.valid) (f : Face) :
    (∃ (cross : List AxisMove) (d : Cube3) (F : Nat), ∀ fuel, F ≤ fuel → ∃ t,
      searchT? exactOps (fun c => worseCrossHeuristic c f) Cube3.successors 200 fuel c (fun c => countCrossPieces c f == 4) =
        some (some (cross, d), t) ∧ solveCross? fuel c f = some (some (cross, d)) ∧ d.CrossSolved f) ∧
    ∀ fuel r t, searchT? exactOps (fun c => worseCrossHeuristic c f) Cube3.successors 200 fuel c
        (fun c => countCrossPieces c f == 4) = some (r, t) →
      (∀ alg : List AxisMove, (movedAlg c alg).CrossSolved f →
        t.length ≤ 1 + (alg.length + 1) * (1 + 18 * ∑ k ∈ Finset.range (alg.length + 1), 17 ^ k)) ∧
      t.length ≤ 1200702249532 := by
  have hz : ∀ c, ∃ k : Nat, worseCrossHeuristic c f = k := fun c => by
    obtain ⟨h0, -, ⟨z, hz⟩, -⟩ := worseCross_props c f
    rw [hz] at h0 ⊢
    obtain ⟨k, rfl⟩ := Int.eq_ofNat_of_zero_le (by exact_mod_cast h0 : (0 : ℤ) ≤ z)
    exact ⟨k, by simp⟩
  refine ⟨?_, fun fuel r t hs => ?_⟩
  · obtain ⟨cross, d, ⟨F, hF⟩, -, h3, -⟩ := C31_solve_cross c hc f
    refine ⟨cross, d, F, fun fuel hf => ?_⟩
    have e := hF fuel hf
    have e' := (C87_same_search exactOps (fun c => worseCrossHeuristic c f) Cube3.successors 200 fuel c
      (fun c => countCrossPieces c f == 4)).trans e
    obtain ⟨⟨r, t⟩, h1, rfl⟩ := Option.map_eq_some_iff.1 e'
    exact ⟨t, h1, e, h3⟩
  · have key := C87_cube3_calls (fun c => worseCrossHeuristic c f) hz (fun c => countCrossPieces c f == 4)
      (fun c => (worseCross_props c f).2.2.2) 200 fuel c r t hs
    refine ⟨fun alg h => key alg (beq_iff_eq.2 ((C32_count _ f).2.2.2 h)), ?_⟩
    obtain ⟨w, hw, ht⟩ := cross_exists c ((valid_iff c).1 hc).1 f
    refine (key w ht).trans ?_
    have : ∀ n ≤ 8, 1 + (n + 1) * (1 + 18 * ∑ k ∈ Finset.range (n + 1), 17 ^ k) ≤ 1200702249532 := by decide +kernel
    exact this _ hw

/-- after `R` the cross of `U` is one move away: at most 651 calls -/
example (fuel : Nat) (r t) (hs : searchT? exactOps (fun c => worseCrossHeuristic c Face.U) Cube3.successors 200 fuel
    (movedAlg Cube3.SOLVED [(⟨Face.R, .single⟩ : AxisMove)]) (fun c => countCrossPieces c Face.U == 4) = some (r, t)) :
    t.length ≤ 651 :=
  ((C87_cross_calls _ (C08_cubes.2.1 Cube3.SOLVED [(⟨Face.R, .single⟩ : AxisMove)] C08_solved_valid.2.1) Face.U).2 fuel r t
    hs).1 [⟨Face.R, .inverse⟩] ((C32_count _ Face.U).2.2.1 (by decide +kernel))

end Barbarosa
