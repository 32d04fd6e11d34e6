import Verif.Lemmas.Reduced
import Verif.Lemmas.PieceSet
import Verif.Props.PieceSet

/-!
# C34–C40: algs
-/

namespace Barbarosa

open Amount Face

/-! ## C34 -/

/-- **C34** The loop of `normalized` always ends: no alg needs more than `3 * length` iterations, and more fuel
gives the same answer. -/
theorem C34_terminates (alg : List AxisMove) (fuel : Nat) (h : 3 * alg.length ≤ fuel) :
    normalized? fuel alg = some (normalized alg) := by
  obtain ⟨s, -, -, -, h4⟩ := normalized_final alg
  exact h4 fuel h

/-- seven moves, at most 21 iterations -/
example : normalized? 21 [⟨R, single⟩, ⟨L, double⟩, ⟨R, single⟩, ⟨U, single⟩, ⟨U, inverse⟩, ⟨L, double⟩, ⟨F, single⟩] =
    some [⟨R, double⟩, ⟨F, single⟩] := by
  rw [C34_terminates _ 21 (by decide)]
  decide +kernel

/-- **C34** `normalized` does not change the effect of an alg, on any state (valid or not) of any cube. -/
theorem C34_effect : ∀ s ∈ axisSystems, ∀ (alg : List AxisMove) (c : s.C),
    movedAlg c (normalized alg) = movedAlg c alg := by
  intro s hs alg c
  have hl := axisSystems_laws s hs
  obtain ⟨t, h1, -, h3, -⟩ := normalized_final alg
  obtain ⟨h5, h6⟩ := normLoop_effect hl _ _ _ h1 c
  rw [h3, offload_effect hl]
  have e1 : (⟨alg.reverse, none, []⟩ : NormState).word = alg := by simp [NormState.word, optMoves]
  have e2 : t.word = optMoves t.held ++ t.out := by simp [NormState.word, h6]
  rw [← e2, h5, e1]

/-- on a 5x5, which is widened first -/
example (c : Cube5) : movedAlg c [(⟨R, double⟩ : AxisMove)] = movedAlg c [(⟨R, single⟩ : AxisMove), ⟨U, single⟩, ⟨U, inverse⟩, ⟨R, single⟩] := by
  have h := C34_effect ⟨Cube5⟩ (by simp [axisSystems]) [⟨R, single⟩, ⟨U, single⟩, ⟨U, inverse⟩, ⟨R, single⟩] c
  rwa [show normalized [⟨R, single⟩, ⟨U, single⟩, ⟨U, inverse⟩, ⟨R, single⟩] = [⟨R, double⟩] from by decide +kernel] at h

/-- **C34** The result is never longer than the input. -/
theorem C34_length (alg : List AxisMove) : (normalized alg).length ≤ alg.length := normalized_length alg

/-- an alg that `normalized` really rewrites, on a cube where it has an effect -/
example : normalized [⟨R, single⟩, ⟨L, double⟩, ⟨R, single⟩, ⟨U, single⟩, ⟨U, inverse⟩, ⟨L, double⟩, ⟨F, single⟩] =
      [⟨R, double⟩, ⟨F, single⟩] ∧
    movedAlg Cube3.SOLVED [(⟨R, double⟩ : AxisMove), ⟨F, single⟩] ≠ Cube3.SOLVED := by decide +kernel

/-- the loop needs fuel: with too little it is still running -/
example : normalized? 2 [⟨R, single⟩, ⟨L, double⟩, ⟨R, single⟩] = none := by decide +kernel

/-! ## C35 -/

/-- **C35 is false**: the output of `normalized` can contain two consecutive moves of the same face. -/
theorem C35_not_reduced :
    normalized [⟨R, single⟩, ⟨F, single⟩, ⟨F, inverse⟩, ⟨R, single⟩, ⟨L, single⟩] =
      [⟨L, single⟩, ⟨R, single⟩, ⟨R, single⟩] ∧
    ∃ alg, ¬ Reduced (normalized alg) := by
  have h : normalized [⟨R, single⟩, ⟨F, single⟩, ⟨F, inverse⟩, ⟨R, single⟩, ⟨L, single⟩] =
      [⟨L, single⟩, ⟨R, single⟩, ⟨R, single⟩] := by decide +kernel
  refine ⟨h, [⟨R, single⟩, ⟨F, single⟩, ⟨F, inverse⟩, ⟨R, single⟩, ⟨L, single⟩], fun hr => ?_⟩
  rw [h] at hr
  obtain ⟨k, hk, h1, h2, -⟩ := hr 1 2 (by decide) (by decide) rfl
  omega

/-- **C35 is false**: normalising twice can give something else than normalising once. -/
theorem C35_not_idempotent : ∃ alg, normalized (normalized alg) ≠ normalized alg :=
  ⟨[⟨R, single⟩, ⟨F, single⟩, ⟨F, inverse⟩, ⟨R, single⟩, ⟨L, single⟩], by decide +kernel⟩

/-- **C35** (part) If the alg does not use two opposite faces, or if `normalized` saved at most one move, then the output
has no redundancy and normalising again changes nothing. Missing for the full claim: the other algs, for which it is false
(`C35_not_reduced`). -/
theorem C35_reduced_partial (alg : List AxisMove)
    (h : OneFacePerAxis alg ∨ alg.length ≤ (normalized alg).length + 1) :
    Reduced (normalized alg) ∧ normalized (normalized alg) = normalized alg := by
  have ho : Ordered .neg (normalized alg) := by
    rcases h with h | h
    · exact normalized_ordered_one alg h
    · exact normalized_ordered alg h
  exact ⟨ho.reduced, normalized_of_ordered ho⟩

/-- the first hypothesis, for an alg in which something has to be removed -/
example : Reduced (normalized [⟨R, single⟩, ⟨U, single⟩, ⟨U, inverse⟩, ⟨R, single⟩]) :=
  (C35_reduced_partial _ (.inl (by unfold OneFacePerAxis; decide +kernel))).1

/-- **C35** (part) The fixed points of `normalized` are exactly the algs in which neighbouring moves of one axis are a
negative face followed by the opposite positive face; these have no redundancy. -/
theorem C35_fixed_points_partial (alg : List AxisMove) :
    (normalized alg = alg ↔ Ordered .neg alg) ∧ (normalized alg = alg → Reduced alg) := by
  have h : normalized alg = alg ↔ Ordered .neg alg := by
    refine ⟨fun h => ?_, normalized_of_ordered⟩
    have := normalized_ordered alg (by rw [h]; omega)
    rwa [h] at this
  exact ⟨h, fun e => (h.1 e).reduced⟩

/-- `L R` stays, `R L` does not -/
example : normalized [⟨L, single⟩, ⟨R, single⟩] = [⟨L, single⟩, ⟨R, single⟩] ∧
    normalized [⟨R, single⟩, ⟨L, single⟩] ≠ [⟨R, single⟩, ⟨L, single⟩] :=
  ⟨(C35_fixed_points_partial _).1.2 (by unfold Ordered; decide),
    fun h => absurd ((C35_fixed_points_partial _).1.1 h) (by unfold Ordered; decide)⟩

/-- **C35** (part) Normalising `⌈length / 2⌉` times always removes all redundancy. -/
theorem C35_iterate_partial (alg : List AxisMove) (k : Nat) (h : alg.length ≤ 2 * k) :
    Reduced (normalized^[k] alg) ∧ normalized (normalized^[k] alg) = normalized^[k] alg :=
  ⟨(normalized_iterate k alg h).reduced, normalized_of_ordered (normalized_iterate k alg h)⟩

/-- the alg for which once is not enough -/
example : Reduced (normalized^[3] [⟨R, single⟩, ⟨F, single⟩, ⟨F, inverse⟩, ⟨R, single⟩, ⟨L, single⟩]) :=
  (C35_iterate_partial _ 3 (by decide)).1

/-- algs with redundancy that meet either hypothesis of `C35_reduced_partial` -/
example : OneFacePerAxis [⟨R, single⟩, ⟨U, single⟩, ⟨U, inverse⟩, ⟨R, single⟩] ∧
    normalized [⟨R, single⟩, ⟨U, single⟩, ⟨U, inverse⟩, ⟨R, single⟩] = [⟨R, double⟩] ∧
    normalized [⟨R, single⟩, ⟨L, single⟩, ⟨R, single⟩, ⟨U, single⟩] = [⟨L, single⟩, ⟨R, double⟩, ⟨U, single⟩] := by
  refine ⟨?_, by decide +kernel, by decide +kernel⟩
  unfold OneFacePerAxis
  decide +kernel

/-! ## C36 -/

theorem mem_ofAxis (a : Axis) (n : NonRedundantAxisMove) : n ∈ NonRedundantAxisMove.ofAxis a ↔ n.axis = a := by
  revert a n; decide +kernel

theorem mem_givenLastAxis (a : Axis) (n : NonRedundantAxisMove) :
    n ∈ NonRedundantAxisMove.givenLastAxis a ↔ n.axis ≠ a := by
  revert a n; decide +kernel

theorem mem_all (n : NonRedundantAxisMove) : n ∈ NonRedundantAxisMove.all := by
  revert n; decide +kernel

theorem mem_randomCandidates (moves : List AxisMove) (n : NonRedundantAxisMove) :
    n ∈ randomCandidates moves ↔ ∀ m ∈ moves.getLast?, n.axis ≠ m.face.axis := by
  unfold randomCandidates
  rcases moves.getLast? with _ | m
  · simp [mem_all]
  · simp [mem_givenLastAxis]

theorem pushUpTo_single (n : Nat) (l : List AxisMove) (m : AxisMove) : pushUpTo n l [m] = l ++ [m] := by
  simp [pushUpTo]

theorem pushUpTo_double (n : Nat) (l : List AxisMove) (p q : AxisMove) :
    pushUpTo n l [p, q] = if l.length + 1 = n then l ++ [p] else l ++ [p, q] := by
  simp [pushUpTo]

theorem randomRun_iff (n : Nat) (alg : List AxisMove) :
    RandomRun n alg ↔ alg.length ≤ n ∧ Ordered .pos alg := by
  constructor
  · intro h
    induction h with
    | start => exact ⟨Nat.zero_le _, List.IsChain.nil⟩
    | @step a b h s ih =>
      obtain ⟨cond, mem⟩ := s
      rename_i ch
      rw [mem_randomCandidates] at mem
      have one : ∀ m : AxisMove, m.face.axis = ch.axis → Ordered .pos (a ++ [m]) := by
        intro m hm
        refine List.isChain_append.2 ⟨ih.2, List.isChain_singleton _, fun x hx y hy e => ?_⟩
        simp only [List.head?_cons, Option.mem_def, Option.some.injEq] at hy
        subst hy
        exact absurd (hm.symm.trans e.symm) (mem x hx)
      cases ch with
      | single m =>
        show (pushUpTo n a [m]).length ≤ n ∧ _
        simp only [NonRedundantAxisMove.moves, pushUpTo_single]
        exact ⟨by simp; omega, one m rfl⟩
      | double ax p q =>
        simp only [NonRedundantAxisMove.moves, pushUpTo_double]
        split
        · exact ⟨by simp; omega, one _ rfl⟩
        · refine ⟨by simp; omega, ?_⟩
          rw [show a ++ [(⟨⟨ax, .pos⟩, p⟩ : AxisMove), ⟨⟨ax, .neg⟩, q⟩] = (a ++ [⟨⟨ax, .pos⟩, p⟩]) ++ [⟨⟨ax, .neg⟩, q⟩] by simp]
          refine List.isChain_append.2 ⟨one _ rfl, List.isChain_singleton _, fun x hx y hy e => ?_⟩
          simp at hx hy
          subst hx hy
          exact ⟨rfl, rfl⟩
  · rintro ⟨hl, ho⟩
    induction hk : alg.length using Nat.strong_induction_on generalizing alg with
    | _ k ih =>
      rcases List.eq_nil_or_concat alg with rfl | ⟨l, m, rfl⟩
      · exact .start
      · rw [List.concat_eq_append] at *
        simp only [List.length_append, List.length_singleton] at hl hk
        have hol : Ordered .pos l := (List.isChain_append.1 ho).1
        by_cases hax : ∀ x ∈ l.getLast?, m.face.axis ≠ x.face.axis
        · have := RandomRun.step (ih l.length (by omega) l (by omega) hol rfl)
            (RandomStep.step (chosen := .single m) (by omega) ((mem_randomCandidates l _).2 hax))
          simpa [NonRedundantAxisMove.moves, pushUpTo_single] using this
        · push Not at hax
          obtain ⟨x, hx, he⟩ := hax
          rcases List.eq_nil_or_concat l with rfl | ⟨l', y, rfl⟩
          · cases hx
          · rw [List.concat_eq_append] at *
            simp only [List.getLast?_append, List.getLast?_singleton, Option.some_or, Option.mem_def,
              Option.some.injEq] at hx
            subst hx
            simp only [List.length_append, List.length_singleton] at hl hk
            obtain ⟨hy, hm⟩ : y.face.direction = .pos ∧ m.face.direction = .neg :=
              (List.isChain_append.1 ho).2.2 y (by simp) m rfl he.symm
            have hol' : Ordered .pos l' := (List.isChain_append.1 hol).1
            have hax' : ∀ z ∈ l'.getLast?, y.face.axis ≠ z.face.axis := by
              intro z hz e
              have := (List.isChain_append.1 hol).2.2 z hz y rfl e.symm
              rw [hy] at this
              exact absurd this.2 (by decide)
            have := RandomRun.step (ih l'.length (by omega) l' (by omega) hol' rfl)
              (RandomStep.step (chosen := .double y.face.axis y.amount m.amount) (by omega)
                ((mem_randomCandidates l' _).2 hax'))
            simp only [NonRedundantAxisMove.moves, pushUpTo_double] at this
            rw [if_neg (by omega)] at this
            obtain ⟨⟨ya, yd⟩, yx⟩ := y
            obtain ⟨⟨ma, md⟩, mx⟩ := m
            simp only at hy hm he
            subst hy hm he
            simpa using this

/-- **C36** What `random_with_rng(n)` can return: exactly the algs of length `n` in which neighbouring moves of one axis are a
positive face followed by the opposite negative one. -/
theorem C36_random_alg (n : Nat) (alg : List AxisMove) : RandomAlg n alg ↔ alg.length = n ∧ Ordered .pos alg := by
  rw [RandomAlg, randomRun_iff]
  constructor
  · rintro ⟨⟨h1, h2⟩, h3⟩; exact ⟨by omega, h2⟩
  · rintro ⟨h1, h2⟩; exact ⟨⟨by omega, h2⟩, by omega⟩

/-- the order of two moves of one axis decides -/
example : RandomAlg 2 [⟨R, single⟩, ⟨L, single⟩] ∧ ¬ RandomAlg 2 [⟨L, single⟩, ⟨R, single⟩] :=
  ⟨(C36_random_alg _ _).2 (by unfold Ordered; decide), fun h => absurd ((C36_random_alg _ _).1 h) (by unfold Ordered; decide)⟩

/-- **C36** A random alg has the requested length, has no redundancy, never turns a face twice in a row and never has
three consecutive moves on one axis. -/
theorem C36_no_redundancy (n : Nat) (alg : List AxisMove) (h : RandomAlg n alg) :
    alg.length = n ∧ Reduced alg ∧
    (∀ (i : Nat) (_ : i + 1 < alg.length), (alg[i]).face ≠ (alg[i + 1]).face) ∧
    (∀ (i : Nat) (_ : i + 2 < alg.length),
      ¬ ((alg[i]).face.axis = (alg[i + 1]).face.axis ∧ (alg[i + 1]).face.axis = (alg[i + 2]).face.axis)) := by
  obtain ⟨h1, h2⟩ := (C36_random_alg n alg).1 h
  refine ⟨h1, h2.reduced, fun i hi e => ?_, fun i hi e => ?_⟩
  · have := (List.isChain_iff_getElem.1 h2) i hi (by rw [e])
    rw [e] at this
    exact absurd (this.1.symm.trans this.2) (by decide)
  · have a := (List.isChain_iff_getElem.1 h2) i (by omega) e.1
    have b := (List.isChain_iff_getElem.1 h2) (i + 1) (by omega) e.2
    exact absurd (b.1.symm.trans a.2) (by decide)

/-- an alg that can be drawn -/
example : Reduced [⟨R, single⟩, ⟨L, double⟩, ⟨U, inverse⟩] :=
  (C36_no_redundancy 3 _ ((C36_random_alg _ _).2 (by unfold Ordered; decide))).2.1

/-- **C36** The loop cannot get stuck: `choose` always has a candidate (so its `expect` never panics), and each
iteration makes the alg longer without overshooting, so it ends after at most `n` iterations. -/
theorem C36_progress (n : Nat) (moves : List AxisMove) (h : moves.length < n) :
    randomCandidates moves ≠ [] ∧
    (∃ next, RandomStep n moves next) ∧
    ∀ next, RandomStep n moves next → moves.length < next.length ∧ next.length ≤ n := by
  have hne : ∃ c, c ∈ randomCandidates moves := by
    simp only [mem_randomCandidates]
    rcases moves.getLast? with _ | m
    · exact ⟨.single ⟨R, single⟩, by simp⟩
    · refine ⟨.single ⟨⟨m.face.axis.basis.1, .pos⟩, single⟩, fun x hx => ?_⟩
      simp only [Option.mem_def, Option.some.injEq] at hx
      subst hx
      simp only [NonRedundantAxisMove.axis]
      cases m.face.axis <;> decide
  obtain ⟨c, hc⟩ := hne
  refine ⟨fun e => by simp [e] at hc, ⟨_, .step h hc⟩, ?_⟩
  rintro _ ⟨-, -⟩
  rename_i ch
  cases ch with
  | single m =>
    simp only [NonRedundantAxisMove.moves, pushUpTo_single, List.length_append, List.length_singleton]
    omega
  | double a p q =>
    simp only [NonRedundantAxisMove.moves, pushUpTo_double]
    split <;> simp <;> omega

/-- with one move of three drawn, the next step can add one or two -/
example : ∃ next, RandomStep 3 [⟨R, single⟩] next ∧ 1 < next.length ∧ next.length ≤ 3 := by
  obtain ⟨_, ⟨next, h⟩, h'⟩ := C36_progress 3 [⟨R, single⟩] (by decide)
  exact ⟨next, h, h' next h⟩

/-- **C36** `random_unnormalized` gives exactly `n` moves, and move `i` is the `i`-th draw. -/
theorem C36_unnormalized {M : Type} (n : Nat) (draw : Nat → M) :
    (randomUnnormalized n draw).length = n ∧ ∀ i, i < n → (randomUnnormalized n draw)[i]? = some (draw i) := by
  constructor
  · simp [randomUnnormalized]
  · intro i hi; simp [randomUnnormalized, hi]

/-- a random alg of length 3 with two moves on one axis, and one that can never be drawn -/
example : RandomAlg 3 [⟨R, single⟩, ⟨L, double⟩, ⟨U, inverse⟩] ∧ ¬ RandomAlg 2 [⟨L, single⟩, ⟨R, single⟩] := by
  simp only [C36_random_alg, Ordered]
  decide +kernel

/-! ## C37 -/

/-- **C37** `AxisMove::all` lists every move once; the array it is built in is filled completely, slot by slot, without
writing out of range. -/
theorem C37_axis_moves : AxisMove.all.Nodup ∧ (∀ m, m ∈ AxisMove.all) ∧ AxisMove.all.length = 18 ∧
    AxisMove.allSlots? = some (AxisMove.all.map some) := by decide +kernel

example : (⟨B, .inverse⟩ : AxisMove) ∈ AxisMove.all := C37_axis_moves.2.1 _

/-- **C37** `of_axis` lists the 15 combined turns of an axis once each, `given_last_axis` the 30 of the other two axes, `all`
the 45 of all axes. -/
theorem C37_combined_moves :
    (∀ a, (NonRedundantAxisMove.ofAxis a).Nodup ∧ (NonRedundantAxisMove.ofAxis a).length = 15 ∧
      ∀ n, n ∈ NonRedundantAxisMove.ofAxis a ↔ n.axis = a) ∧
    (∀ a, (NonRedundantAxisMove.givenLastAxis a).Nodup ∧ (NonRedundantAxisMove.givenLastAxis a).length = 30 ∧
      ∀ n, n ∈ NonRedundantAxisMove.givenLastAxis a ↔ n.axis ≠ a) ∧
    NonRedundantAxisMove.all.Nodup ∧ NonRedundantAxisMove.all.length = 45 ∧
      ∀ n, n ∈ NonRedundantAxisMove.all := by
  refine ⟨fun a => ⟨?_, ?_, mem_ofAxis a⟩, fun a => ⟨?_, ?_, mem_givenLastAxis a⟩, ?_, ?_, mem_all⟩
  · revert a; decide +kernel
  · revert a; decide +kernel
  · revert a; decide +kernel
  · revert a; decide +kernel
  · decide +kernel
  · decide +kernel

/-- `R2 L` is listed for the X axis and not after an X move -/
example : NonRedundantAxisMove.double .X .double .single ∈ NonRedundantAxisMove.ofAxis .X ∧
    NonRedundantAxisMove.double .X .double .single ∉ NonRedundantAxisMove.givenLastAxis .X := by decide

/-- **C37** The combined turns of an axis are the *non-trivial* ones and they are pairwise different as turns: on a solved 3x3
they give 46 different states together with doing nothing. -/
theorem C37_combined_moves_distinct (m n : NonRedundantAxisMove) :
    movedAlg Cube3.SOLVED m.moves ≠ Cube3.SOLVED ∧
    (movedAlg Cube3.SOLVED m.moves = movedAlg Cube3.SOLVED n.moves → m = n) := by
  have key : ∀ m : NonRedundantAxisMove, movedAlg Cube3.SOLVED m.moves ≠ Cube3.SOLVED := by decide +kernel
  have key2 : (NonRedundantAxisMove.all.map fun m => (List.ofFn (movedAlg Cube3.SOLVED m.moves).corners)).Nodup := by
    decide +kernel
  refine ⟨key m, fun h => ?_⟩
  exact List.inj_on_of_nodup_map key2 (mem_all m) (mem_all n) (by rw [h])

/-- `R2 L` and `R2 L'` are different turns -/
example : movedAlg Cube3.SOLVED (NonRedundantAxisMove.double .X .double .single).moves ≠
    movedAlg Cube3.SOLVED (NonRedundantAxisMove.double .X .double .inverse).moves :=
  fun h => absurd ((C37_combined_moves_distinct _ _).2 h) (by decide)

/-! ## C38 -/

/-- **C38** Unless the answer is `NotAdded`, the combined move left by `absorve` has the effect of the old one followed by the new
move, and also of the new move followed by the old one, on every state of every cube. -/
theorem C38_effect : ∀ s ∈ axisSystems, ∀ (nr : Option NonRedundantAxisMove) (m : AxisMove),
    (absorve nr m).2 ≠ .notAdded → ∀ c : s.C,
      movedAlg c (optMoves (absorve nr m).1) = movedAlg c (optMoves nr ++ [m]) ∧
      movedAlg c (optMoves (absorve nr m).1) = movedAlg c (m :: optMoves nr) := by
  intro s hs nr m hn c
  have hl := axisSystems_laws s hs
  exact ⟨absorve_after hl nr m hn c, absorve_before hl nr m hn c⟩

/-- `R2 L` takes in an `R` and becomes `R' L`, on any 7x7 -/
example (c : Cube7) : movedAlg c [(⟨R, inverse⟩ : AxisMove), ⟨L, single⟩] =
    movedAlg c [(⟨R, double⟩ : AxisMove), ⟨L, single⟩, ⟨R, single⟩] :=
  (C38_effect ⟨Cube7⟩ (by simp [axisSystems]) (some (.double .X .double .single)) ⟨R, single⟩ (by decide) c).1

/-- number of quarter turns (0 to 3) that an optional combined move gives to a face -/
def turnsOf (nr : Option NonRedundantAxisMove) (f : Face) : Nat :=
  ((optMoves nr).map fun m => if m.face = f then quarterTurns m.amount else 0).sum

/-- **C38** What the answers mean. `NotAdded`: there is a combined move and it is on another axis (it stays as it was).
`Added`: same axis, this face was not turned so far. `Collapsed`: this face was turned and is now not turned any more.
`Absorved`: this face was turned and still is, or there was no combined move at all. -/
theorem C38_answers (nr : Option NonRedundantAxisMove) (m : AxisMove) :
    ((absorve nr m).2 = .notAdded ↔ ∃ n, nr = some n ∧ n.axis ≠ m.face.axis) ∧
    ((absorve nr m).2 = .notAdded → (absorve nr m).1 = nr) ∧
    ((absorve nr m).2 = .added ↔ (∃ n, nr = some n ∧ n.axis = m.face.axis) ∧ turnsOf nr m.face = 0) ∧
    ((absorve nr m).2 = .collapsed ↔
      turnsOf nr m.face ≠ 0 ∧ (turnsOf nr m.face + quarterTurns m.amount) % 4 = 0) ∧
    ((absorve nr m).2 = .absorved ↔ nr = none ∨
      (turnsOf nr m.face ≠ 0 ∧ (turnsOf nr m.face + quarterTurns m.amount) % 4 ≠ 0)) ∧
    ((absorve nr m).2 ≠ .notAdded → ∀ f, turnsOf (absorve nr m).1 f =
      (turnsOf nr f + if m.face = f then quarterTurns m.amount else 0) % 4) := by
  rcases nr with _ | n
  · refine ⟨by simp [absorve], by simp [absorve], by simp [absorve], ?_, by simp [absorve], ?_⟩
    · revert m; decide +kernel
    · revert m; decide +kernel
  · simp only [Option.some.injEq, exists_eq_left', reduceCtorEq, false_or]
    revert n m; decide +kernel

/-- the documented examples: `R2 + R => R'`, `L + R2 => R2 L`, `R + R' => nothing`, `R` with `U` stays -/
example : absorve (some (.single ⟨R, double⟩)) ⟨R, single⟩ = (some (.single ⟨R, inverse⟩), .absorved) ∧
    absorve (some (.single ⟨L, single⟩)) ⟨R, double⟩ = (some (.double .X double single), .added) ∧
    absorve (some (.single ⟨R, single⟩)) ⟨R, inverse⟩ = (none, .collapsed) ∧
    absorve (some (.single ⟨R, single⟩)) ⟨U, single⟩ = (some (.single ⟨R, single⟩), .notAdded) := by decide +kernel

/-! ## C39 -/

theorem connect_some {M T : Type} [MoveIter M] [Movable T M] [DecidableEq T] {a b : T} {m : M}
    (h : connect M a b = some m) : moved a m = b := by
  simpa using List.find?_some h

/-- **C39** `connect` returns a move that takes `a` to `b`, and `None` only if there is none; for every cube. -/
theorem C39_connect {T : Type} [Movable T AxisMove] [DecidableEq T] (a b : T) :
    (∀ m, connect AxisMove a b = some m → moved a m = b) ∧
    (connect AxisMove a b = none ↔ ∀ m : AxisMove, moved a m ≠ b) := by
  refine ⟨fun m => connect_some, ?_⟩
  rw [connect, List.find?_eq_none]
  constructor
  · intro h m; simpa using h m (C37_axis_moves.2.1 m)
  · intro h m _; simpa using h m

/-- two states with a move between them and two without -/
example : connect AxisMove Cube3.SOLVED (moved Cube3.SOLVED (⟨R, inverse⟩ : AxisMove)) = some ⟨R, inverse⟩ ∧
    connect AxisMove Cube3.SOLVED Cube3.SOLVED = none := by decide +kernel

theorem cornerPosMoved_inj (m m' : AxisMove) (h : ∀ v, cornerPosMoved v m = cornerPosMoved v m') : m = m' := by
  have key : ∀ m m', (∀ v, cornerPosMoved v m = cornerPosMoved v m') → m = m' := by decide +kernel
  exact key m m' h

theorem corners_move_unique {s : PieceSet Corner 8} (hs : s.Valid) (m m' : AxisMove) (h : s.moved m = s.moved m') :
    m = m' := by
  refine cornerPosMoved_inj m m' fun v => ?_
  obtain ⟨i, rfl⟩ := hs.bijective.2 v
  have := congrArg (fun t : PieceSet Corner 8 => (t i).position) h
  simp only [PieceSet.moved] at this
  erw [corner_pos_moved, corner_pos_moved] at this
  exact this

/-- **C39** On valid cubes of every size different moves lead to different states, so `connect` recovers *the* move. -/
theorem C39_connect_unique (m : AxisMove) :
    (∀ c : Cube2, c.valid → connect AxisMove c (moved c m) = some m) ∧
    (∀ c : Cube3, c.valid → connect AxisMove c (moved c m) = some m) ∧
    (∀ c : Cube4, c.valid → connect AxisMove c (moved c m) = some m) ∧
    (∀ c : Cube5, c.valid → connect AxisMove c (moved c m) = some m) ∧
    (∀ c : Cube6, c.valid → connect AxisMove c (moved c m) = some m) ∧
    (∀ c : Cube7, c.valid → connect AxisMove c (moved c m) = some m) := by
  have key : ∀ {T : Type} [Movable T AxisMove] [DecidableEq T] (c : T),
      (∀ m' : AxisMove, moved c m' = moved c m → m' = m) → connect AxisMove c (moved c m) = some m := by
    intro T _ _ c h
    rcases hc : connect AxisMove c (moved c m) with _ | m'
    · exact absurd rfl ((C39_connect c (moved c m)).2.1 hc m)
    · rw [h m' (connect_some hc)]
  have hv : ∀ s : PieceSet Corner 8, s.validate = none → ∀ m', s.moved m' = s.moved m → m' = m :=
    fun s hs m' h => corners_move_unique ((PieceSet.validate_eq_none s).1 hs) m' m h
  have cmax : ∀ (f : Face) (x : Amount) (W : Nat), AxisMove.widen ⟨f, x⟩ W W = some ⟨W, ⟨f, x⟩⟩ := by
    intro f x W; simp [AxisMove.widen, WideAxisMove.new]
  refine ⟨fun c hc => key c fun m' h => hv _ hc m' ?_, fun c hc => key c fun m' h => hv _ hc.2 m' ?_,
    fun c hc => key c fun m' h => hv _ hc.1 m' ?_, fun c hc => key c fun m' h => hv _ hc.1 m' ?_,
    fun c hc => key c fun m' h => hv _ hc.1 m' ?_, fun c hc => key c fun m' h => hv _ hc.1 m' ?_⟩
  · exact congrArg Cube2.corners h
  · exact congrArg Cube3.corners h
  · obtain ⟨f, x⟩ := m; obtain ⟨f', x'⟩ := m'
    have := congrArg Cube4.corners h
    simpa only [moved, movedWidened, cmax] using this
  · obtain ⟨f, x⟩ := m; obtain ⟨f', x'⟩ := m'
    have := congrArg Cube5.corners h
    simpa only [moved, movedWidened, cmax] using this
  · obtain ⟨f, x⟩ := m; obtain ⟨f', x'⟩ := m'
    have := congrArg Cube6.corners h
    simpa only [moved, movedWidened, cmax] using this
  · obtain ⟨f, x⟩ := m; obtain ⟨f', x'⟩ := m'
    have := congrArg Cube7.corners h
    simpa only [moved, movedWidened, cmax] using this

/-- on a solved 6x6 -/
example : connect AxisMove (Cube.SOLVED : Cube6) (moved (Cube.SOLVED : Cube6) (⟨D, double⟩ : AxisMove)) = some ⟨D, double⟩ :=
  (C39_connect_unique ⟨D, double⟩).2.2.2.2.1 _ C08_solved_valid.2.2.2.2.1

/-- the states met while applying an alg, starting with the first one -/
def states {T M : Type} [Movable T M] (c : T) : List M → List T
  | [] => [c]
  | m :: l => c :: states (moved c m) l

theorem states_cons {T M : Type} [Movable T M] (c : T) (l : List M) : ∃ t, states c l = c :: t := by
  cases l <;> exact ⟨_, rfl⟩

theorem tryFromStates_cons2 {M T : Type} [MoveIter M] [Movable T M] [DecidableEq T] (a b : T) (l : List T) :
    tryFromStates M (a :: b :: l) = match connect M a b with
      | none => .error (a, b)
      | some m => (tryFromStates M (b :: l)).map (m :: ·) := by
  simp only [tryFromStates, windows2, List.mapM_cons]
  rcases connect M a b with _ | m
  · rfl
  · simp only [bind, pure, Except.bind]
    split <;> simp_all [Except.map, Except.pure]

/-- **C39** `try_from_states` succeeds exactly if every two consecutive states are connected by a move. -/
theorem C39_try_from_states_succeeds {T : Type} [Movable T AxisMove] [DecidableEq T] (l : List T) :
    (∃ alg, tryFromStates AxisMove l = .ok alg) ↔ l.IsChain fun a b => ∃ m : AxisMove, moved a m = b := by
  induction l with
  | nil => exact ⟨fun _ => .nil, fun _ => ⟨[], rfl⟩⟩
  | cons a l ih =>
    cases l with
    | nil => exact ⟨fun _ => .singleton a, fun _ => ⟨[], rfl⟩⟩
    | cons b l =>
      rw [tryFromStates_cons2, List.isChain_cons_cons, ← ih]
      rcases hc : connect AxisMove a b with _ | m
      · simp only [reduceCtorEq, exists_false, false_iff, not_and]
        rintro ⟨m, hm⟩
        exact absurd hm ((C39_connect a b).2.1 hc m)
      · refine ⟨fun ⟨alg, h⟩ => ⟨⟨m, connect_some hc⟩, ?_⟩, fun ⟨_, alg, h⟩ => ⟨m :: alg, ?_⟩⟩
        · simp only at h
          rcases ht : tryFromStates AxisMove (b :: l) with e | alg'
          · rw [ht] at h; cases h
          · exact ⟨alg', rfl⟩
        · simp only [h]; rfl

/-- two moves recovered; a repeated state is not connected to itself -/
example : tryFromStates AxisMove [Cube3.SOLVED, moved Cube3.SOLVED (⟨R, single⟩ : AxisMove)] = .ok [⟨R, single⟩] ∧
    tryFromStates AxisMove [Cube3.SOLVED, Cube3.SOLVED] = .error (Cube3.SOLVED, Cube3.SOLVED) := by decide +kernel

/-- **C39** When `try_from_states` fails, the error names the first two consecutive states that no move connects. -/
theorem C39_first_unconnected {T : Type} [Movable T AxisMove] [DecidableEq T] (l : List T) (a b : T) :
    tryFromStates AxisMove l = .error (a, b) ↔
      ∃ pre post, l = pre ++ a :: b :: post ∧ (∀ m : AxisMove, moved a m ≠ b) ∧
        (pre ++ [a]).IsChain fun c d => ∃ m : AxisMove, moved c m = d := by
  induction l with
  | nil =>
    refine ⟨fun h => (by cases h), ?_⟩
    rintro ⟨pre, post, h, _⟩
    simp at h
  | cons x l ih =>
    cases l with
    | nil =>
      refine ⟨fun h => (by cases h), ?_⟩
      rintro ⟨pre, post, h, _⟩
      have := congrArg List.length h
      simp only [List.length_cons, List.length_append, List.length_nil] at this
      omega
    | cons y l =>
      rw [tryFromStates_cons2]
      rcases hc : connect AxisMove x y with _ | m
      · simp only [Except.error.injEq, Prod.mk.injEq]
        constructor
        · rintro ⟨rfl, rfl⟩
          exact ⟨[], l, rfl, (C39_connect x y).2.1 hc, .singleton x⟩
        · rintro ⟨pre, post, h, _, hch⟩
          cases pre with
          | nil =>
            simp only [List.nil_append, List.cons.injEq] at h
            exact ⟨h.1, h.2.1⟩
          | cons p pre =>
            exfalso
            simp only [List.cons_append, List.cons.injEq] at h
            obtain ⟨rfl, h⟩ := h
            cases pre with
            | nil =>
              simp only [List.nil_append, List.cons.injEq] at h
              obtain ⟨rfl, _⟩ := h
              simp only [List.cons_append, List.nil_append, List.isChain_cons_cons] at hch
              obtain ⟨m, hm⟩ := hch.1
              exact (C39_connect x y).2.1 hc m hm
            | cons q pre =>
              simp only [List.cons_append, List.cons.injEq] at h
              obtain ⟨rfl, _⟩ := h
              simp only [List.cons_append, List.isChain_cons_cons] at hch
              obtain ⟨m, hm⟩ := hch.1
              exact (C39_connect x y).2.1 hc m hm
      · have hm : ∃ m : AxisMove, moved x m = y := ⟨m, connect_some hc⟩
        have e : Except.map (m :: ·) (tryFromStates AxisMove (y :: l)) = .error (a, b) ↔
            tryFromStates AxisMove (y :: l) = .error (a, b) := by
          rcases tryFromStates AxisMove (y :: l) with e | alg
          · simp [Except.map]
          · simp [Except.map]
        simp only [e, ih]
        constructor
        · rintro ⟨pre, post, h, hno, hch⟩
          refine ⟨x :: pre, post, by rw [h]; rfl, hno, ?_⟩
          cases pre with
          | nil =>
            simp only [List.nil_append, List.cons.injEq] at h
            obtain ⟨rfl, _⟩ := h
            simp only [List.cons_append, List.nil_append, List.isChain_cons_cons]
            exact ⟨hm, .singleton _⟩
          | cons q pre =>
            simp only [List.cons_append, List.cons.injEq] at h
            obtain ⟨rfl, _⟩ := h
            simp only [List.cons_append, List.isChain_cons_cons] at hch ⊢
            exact ⟨hm, hch⟩
        · rintro ⟨pre, post, h, hno, hch⟩
          cases pre with
          | nil =>
            exfalso
            simp only [List.nil_append, List.cons.injEq] at h
            obtain ⟨rfl, rfl, _⟩ := h
            exact hno m (connect_some hc)
          | cons q pre =>
            simp only [List.cons_append, List.cons.injEq] at h
            exact ⟨pre, post, h.2, hno, by
              cases pre with
              | nil => exact .singleton _
              | cons r pre =>
                simp only [List.cons_append, List.isChain_cons_cons] at hch
                exact hch.2⟩

/-- the second and the third state are not connected -/
example : tryFromStates AxisMove [Cube3.SOLVED, moved Cube3.SOLVED (⟨R, single⟩ : AxisMove), moved Cube3.SOLVED (⟨U, double⟩ : AxisMove)] =
    .error (moved Cube3.SOLVED (⟨R, single⟩ : AxisMove), moved Cube3.SOLVED (⟨U, double⟩ : AxisMove)) := by decide +kernel

/-- **C39** The alg returned by `try_from_states` replays the states. -/
theorem C39_try_from_states_replays {T : Type} [Movable T AxisMove] [DecidableEq T] (c : T) (l : List T)
    (alg : List AxisMove) (h : tryFromStates AxisMove (c :: l) = .ok alg) : states c alg = c :: l := by
  induction l generalizing c alg with
  | nil =>
    have : ([] : List AxisMove) = alg := by injection h
    subst this; rfl
  | cons b l ih =>
    rw [tryFromStates_cons2] at h
    rcases hc : connect AxisMove c b with _ | m
    · rw [hc] at h; cases h
    · rw [hc] at h
      rcases ht : tryFromStates AxisMove (b :: l) with e | alg'
      · rw [ht] at h; cases h
      · rw [ht] at h
        have : m :: alg' = alg := by injection h
        subst this
        have := ih b alg' ht
        rw [states, connect_some hc, this]

/-- the hypothesis holds for three states -/
example : tryFromStates AxisMove [Cube3.SOLVED, moved Cube3.SOLVED (⟨R, single⟩ : AxisMove),
    moved (moved Cube3.SOLVED (⟨R, single⟩ : AxisMove)) (⟨U, double⟩ : AxisMove)] = .ok [⟨R, single⟩, ⟨U, double⟩] := by
  decide +kernel

/-- **C39** Recording the states of a valid 3x3 while applying an alg, and calling `try_from_states`, gives the alg back. -/
theorem C39_round_trip (c : Cube3) (hc : c.valid) (alg : List AxisMove) :
    tryFromStates AxisMove (states c alg) = .ok alg := by
  induction alg generalizing c with
  | nil => rfl
  | cons m l ih =>
    have hv : (moved c m).valid := C08_cubes.2.1 c [m] hc
    obtain ⟨t, ht⟩ := states_cons (moved c m) l
    rw [states, ht, tryFromStates_cons2, (C39_connect_unique m).2.1 c hc, ← ht, ih _ hv]
    rfl

/-- three states of a valid 3x3; and two states that are not connected -/
example : (Cube.SOLVED : Cube3).valid ∧
    tryFromStates AxisMove (states Cube3.SOLVED [(⟨R, single⟩ : AxisMove), ⟨U, double⟩]) = .ok [⟨R, single⟩, ⟨U, double⟩] ∧
    connect AxisMove Cube3.SOLVED (movedAlg Cube3.SOLVED [(⟨R, single⟩ : AxisMove), ⟨U, double⟩]) = none :=
  ⟨C08_solved_valid.2.1, by decide +kernel, by decide +kernel⟩

/-! ## C40 -/

/-- the quarter turns of one move -/
def quarters (m : AxisMove) : List QuarterAxisMove :=
  match m.amount with
  | .single => [⟨m.face, .pos⟩]
  | .inverse => [⟨m.face, .neg⟩]
  | .double => [⟨m.face, .pos⟩, ⟨m.face, .pos⟩]

theorem algToQuarter_eq (alg : List AxisMove) : algToQuarter alg = alg.flatMap quarters := by
  have e : algToQuarter alg = alg.foldl (fun out m => out ++ quarters m) [] := by
    unfold algToQuarter
    congr 1
    funext out m
    obtain ⟨f, x⟩ := m
    cases x <;> simp [quarters]
  have acc : ∀ (l : List AxisMove) (o : List QuarterAxisMove),
      l.foldl (fun out m => out ++ quarters m) o = o ++ l.flatMap quarters := by
    intro l
    induction l with
    | nil => simp
    | cons m l ih => intro o; simp [ih]
  rw [e, acc]; rfl

theorem algToQuarter_cons (m : AxisMove) (alg : List AxisMove) :
    algToQuarter (m :: alg) = algToQuarter [m] ++ algToQuarter alg := by
  simp [algToQuarter_eq]

/-- **C40** Converting an alg to quarter turns does not change its effect, on any state of any cube. -/
theorem C40_effect : ∀ s ∈ axisSystems, ∀ (alg : List AxisMove) (c : s.C),
    movedAlg c (algToQuarter alg) = movedAlg c alg := by
  intro s hs alg
  have hl := axisSystems_laws s hs
  induction alg with
  | nil => intro c; rfl
  | cons m l ih =>
    intro c
    rw [algToQuarter_cons]
    have e : movedAlg c (algToQuarter [m] ++ algToQuarter l) =
        movedAlg (movedAlg c (algToQuarter [m])) (algToQuarter l) := by simp [movedAlg]
    rw [e, ih]
    have : movedAlg c (algToQuarter [m]) = moved c m := by
      obtain ⟨f, x⟩ := m
      cases x
      · rfl
      · exact laws_add hl c f .single .single
      · rfl
    rw [this]
    rfl

/-- `R2` on any 4x4 is two quarter turns -/
example (c : Cube4) : movedAlg c [(⟨R, .pos⟩ : QuarterAxisMove), ⟨R, .pos⟩] = movedAlg c [(⟨R, double⟩ : AxisMove)] :=
  C40_effect ⟨Cube4⟩ (by simp [axisSystems]) [⟨R, double⟩] c

/-- **C40** The quarter-turn alg has one move per single or inverse turn and two per double turn, hence at most twice as many
moves. -/
theorem C40_length (alg : List AxisMove) :
    (algToQuarter alg).length = alg.length + alg.countP (fun m => m.amount = .double) ∧
    (algToQuarter alg).length ≤ 2 * alg.length := by
  have h : (algToQuarter alg).length = alg.length + alg.countP (fun m => m.amount = .double) := by
    induction alg with
    | nil => rfl
    | cons m l ih =>
      rw [algToQuarter_cons, List.length_append, ih, List.countP_cons, List.length_cons]
      obtain ⟨f, x⟩ := m
      cases x <;> simp [algToQuarter] <;> omega
  refine ⟨h, ?_⟩
  have := List.countP_le_length (p := fun m : AxisMove => decide (m.amount = .double)) (l := alg)
  omega

example : algToQuarter [⟨R, double⟩, ⟨U, inverse⟩] = [⟨R, .pos⟩, ⟨R, .pos⟩, ⟨U, .neg⟩] ∧
    movedAlg Cube3.SOLVED (algToQuarter [⟨R, double⟩, ⟨U, inverse⟩]) ≠ Cube3.SOLVED := by decide +kernel

end Barbarosa
