import Verif.Model.RandomAlg
import Verif.Props.Lower
import Mathlib.Algebra.Order.Field.Rat
import Mathlib.Tactic.FieldSimp
import Mathlib.Algebra.BigOperators.Field

/-!
# C77: how likely each random alg is
-/

namespace Barbarosa

open Face Amount

/-- the number of runs of moves on one axis -/
def axisRuns : List AxisMove → Nat
  | [] => 0
  | [_] => 1
  | a :: b :: l => (if a.face.axis = b.face.axis then 0 else 1) + axisRuns (b :: l)

/-- the last move turns a positive face (R, U or F) -/
def EndsPositive (alg : List AxisMove) : Prop := ∃ m ∈ alg.getLast?, m.face.direction = .pos

instance (alg : List AxisMove) : Decidable (EndsPositive alg) :=
  match h : alg.getLast? with
  | none => isFalse (by rintro ⟨m, hm, -⟩; rw [h] at hm; cases hm)
  | some m => if hd : m.face.direction = .pos then isTrue ⟨m, h, hd⟩
    else isFalse (by rintro ⟨x, hx, e⟩; rw [h] at hx; cases hx; exact hd e)

theorem prob_done {n : Nat} {r moves : List AxisMove} (h : ¬ moves.length < n) (fuel : Nat) :
    randomProb n r fuel moves = if moves = r then 1 else 0 := by
  cases fuel <;> simp [randomProb, h]

theorem push_extends (n : Nat) (moves : List AxisMove) (ch : NonRedundantAxisMove) :
    ∃ m t, ch.moves = m :: t ∧ ∃ u, pushUpTo n moves ch.moves = moves ++ m :: u := by
  cases ch with
  | single m => exact ⟨m, [], rfl, [], by simp [NonRedundantAxisMove.moves, pushUpTo]⟩
  | double a p q =>
    refine ⟨_, _, rfl, ?_⟩
    simp only [NonRedundantAxisMove.moves, pushUpTo_double]
    split
    · exact ⟨[], rfl⟩
    · exact ⟨_, rfl⟩

/-- moves once pushed stay -/
theorem prob_zero {n : Nat} {r : List AxisMove} : ∀ (fuel : Nat) (moves : List AxisMove), ¬ moves <+: r →
    randomProb n r fuel moves = 0 := by
  intro fuel
  induction fuel with
  | zero =>
    intro moves h
    have : moves ≠ r := fun e => h (e ▸ List.prefix_rfl)
    simp [randomProb, this]
  | succ fuel ih =>
    intro moves h
    have : moves ≠ r := fun e => h (e ▸ List.prefix_rfl)
    simp only [randomProb, this, if_false]
    split
    · rw [List.map_congr_left (g := fun _ => (0 : ℚ))]
      · simp
      · intro ch _
        obtain ⟨m, t, -, u, hu⟩ := push_extends n moves ch
        rw [hu]
        exact ih _ fun hp => h ((List.prefix_append _ _).trans hp)
    · rfl

theorem sum_filter {α : Type} (l : List α) (p : α → Bool) (f : α → ℚ) (h : ∀ x ∈ l, p x = false → f x = 0) :
    (l.map f).sum = ((l.filter p).map f).sum := by
  induction l with
  | nil => rfl
  | cons a l ih =>
    have ih := ih fun x hx => h x (List.mem_cons_of_mem _ hx)
    by_cases hp : p a = true
    · simp [hp, ih]
    · simp [hp, ih, h a (by simp) (by simpa using hp)]

/-- the candidates that begin with a given move -/
def beginning (m : AxisMove) : List NonRedundantAxisMove :=
  .single m :: if m.face.direction = .pos then Amount.all.map fun q => .double m.face.axis m.amount q else []

theorem beginning_eq (m : AxisMove) :
    NonRedundantAxisMove.all.filter (fun ch => decide (ch.moves.head? = some m)) = beginning m ∧
    ∀ a, (NonRedundantAxisMove.givenLastAxis a).filter (fun ch => decide (ch.moves.head? = some m)) =
      if m.face.axis = a then [] else beginning m := by
  revert m
  decide +kernel

/-- how many candidates there are -/
def candidateCount (moves : List AxisMove) : ℚ := if moves = [] then 45 else 30

theorem candidates_length (moves : List AxisMove) : ((randomCandidates moves).length : ℚ) = candidateCount moves := by
  unfold randomCandidates candidateCount
  rcases h : moves.getLast? with _ | m
  · rw [List.getLast?_eq_none_iff.1 h]
    simp only [if_true]
    rw [C37_combined_moves.2.2.2.1]
    norm_num
  · have : moves ≠ [] := by rintro rfl; cases h
    simp only [this, if_false]
    rw [(C37_combined_moves.2.1 m.face.axis).2.1]
    norm_num

theorem prefix_next {pre u suf : List AxisMove} {x m : AxisMove} (h : (pre ++ x :: u) <+: (pre ++ m :: suf)) : x = m := by
  rw [List.prefix_append_right_inj] at h
  exact (List.cons_prefix_cons.1 h).1

/-- one iteration, when the next move of the result is `m` -/
theorem prob_step {n : Nat} (pre suf : List AxisMove) (m : AxisMove) (hl : pre.length < n) (fuel : Nat) :
    randomProb n (pre ++ m :: suf) (fuel + 1) pre =
      (((if ∃ x ∈ pre.getLast?, m.face.axis = x.face.axis then [] else beginning m).map fun ch =>
        randomProb n (pre ++ m :: suf) fuel (pushUpTo n pre ch.moves)).sum) / candidateCount pre := by
  rw [randomProb, if_pos hl, candidates_length,
    sum_filter _ (fun ch => decide (ch.moves.head? = some m)) _ (fun ch _ hch => ?_)]
  · congr 3
    unfold randomCandidates
    rcases h : pre.getLast? with _ | x
    · simpa using (beginning_eq m).1
    · simpa using (beginning_eq m).2 x.face.axis
  · obtain ⟨x, t, hx, u, hu⟩ := push_extends n pre ch
    rw [hu]
    apply prob_zero
    intro hp
    rw [hx, prefix_next hp] at hch
    simp at hch

theorem axisRuns_pos : ∀ {l : List AxisMove}, l ≠ [] → 0 < axisRuns l
  | [], h => absurd rfl h
  | [_], _ => Nat.one_pos
  | _ :: b :: l, _ => by have := axisRuns_pos (l := b :: l) (by simp); simp only [axisRuns]; omega

theorem endsPositive_cons (a b : AxisMove) (l : List AxisMove) : EndsPositive (a :: b :: l) ↔ EndsPositive (b :: l) := by
  simp [EndsPositive, List.getLast?_cons_cons]

theorem endsPositive_single (a : AxisMove) : EndsPositive [a] ↔ a.face.direction = .pos := by simp [EndsPositive]

theorem candidateCount_append (pre : List AxisMove) (m : AxisMove) (t : List AxisMove) : candidateCount (pre ++ m :: t) = 30 := by
  simp [candidateCount]

/-- the formula, for the rest of the alg -/
theorem prob_formula {n : Nat} : ∀ (k : Nat) (pre suf : List AxisMove) (fuel : Nat), suf.length = k → k ≤ fuel →
    (pre ++ suf).length = n → Ordered .pos (pre ++ suf) →
    (∀ x ∈ pre.getLast?, ∀ m ∈ suf.head?, m.face.axis ≠ x.face.axis) → suf ≠ [] →
    randomProb n (pre ++ suf) fuel pre =
      (if EndsPositive suf then 4 else 1) / (candidateCount pre * 30 ^ (axisRuns suf - 1)) := by
  intro k
  induction k using Nat.strong_induction_on with
  | _ k ih =>
    intro pre suf fuel hk hf hn ho hax hne
    rcases suf with _ | ⟨m, t⟩
    · exact absurd rfl hne
    obtain ⟨f, rfl⟩ : ∃ f, fuel = f + 1 := ⟨fuel - 1, by simp at hk; omega⟩
    simp only [List.length_append, List.length_cons] at hn hk
    have hno : ¬ ∃ x ∈ pre.getLast?, m.face.axis = x.face.axis := by
      rintro ⟨x, hx, e⟩
      exact hax x hx m rfl e
    rw [prob_step pre t m (by omega), if_neg hno]
    have hK : candidateCount pre ≠ 0 := by unfold candidateCount; split <;> norm_num
    have hmpos : m.face.direction = .pos → (⟨⟨m.face.axis, .pos⟩, m.amount⟩ : AxisMove) = m := by
      obtain ⟨⟨a, d⟩, x⟩ := m
      rintro rfl
      rfl
    rcases t with _ | ⟨m2, t⟩
    · have h1 : ∀ ch ∈ beginning m, randomProb n (pre ++ [m]) f (pushUpTo n pre ch.moves) = 1 := by
        have hd : randomProb n (pre ++ [m]) f (pre ++ [m]) = 1 := by
          rw [prob_done (by simp; simp at hn; omega), if_pos rfl]
        intro ch hch
        unfold beginning at hch
        rcases List.mem_cons.1 hch with rfl | hch
        · simpa [NonRedundantAxisMove.moves, pushUpTo] using hd
        · split at hch
          · rename_i hp
            obtain ⟨q, -, rfl⟩ := List.mem_map.1 hch
            simp only [NonRedundantAxisMove.moves, pushUpTo_double]
            rw [if_pos (by simpa using hn), hmpos hp]
            exact hd
          · cases hch
      rw [List.map_congr_left h1]
      simp only [endsPositive_single, axisRuns]
      by_cases hp : m.face.direction = .pos
      · simp [beginning, hp, Amount.all]
        norm_num
      · simp [beginning, hp]
    · have hchain := (List.isChain_append.1 ho).2.1
      obtain ⟨hmm2, hchain2⟩ := List.isChain_cons_cons.1 hchain
      simp only [List.length_cons] at hn hk
      have hpush1 : pushUpTo n pre [m] = pre ++ [m] := pushUpTo_single n pre m
      have hpush2 : ∀ p q, pushUpTo n pre [p, q] = pre ++ [p, q] := by
        intro p q
        rw [pushUpTo_double, if_neg (by omega)]
      have e1 : pre ++ m :: m2 :: t = (pre ++ [m]) ++ m2 :: t := by simp
      by_cases hax2 : m.face.axis = m2.face.axis
      · -- the two moves were drawn together
        obtain ⟨hmp, hm2n⟩ := hmm2 hax2
        have hm2 : (⟨⟨m.face.axis, .neg⟩, m2.amount⟩ : AxisMove) = m2 := by
          obtain ⟨⟨a, d⟩, x⟩ := m2
          simp only [Direction.flip] at hm2n hax2 ⊢
          subst hm2n
          rw [hax2]
        have z1 : randomProb n (pre ++ m :: m2 :: t) f (pre ++ [m]) = 0 := by
          obtain ⟨f', rfl⟩ : ∃ f', f = f' + 1 := ⟨f - 1, by omega⟩
          rw [e1, prob_step (pre ++ [m]) t m2 (by simp; omega), if_pos ⟨m, by simp, hax2.symm⟩]
          simp
        have z2 : ∀ q, q ≠ m2.amount →
            randomProb n (pre ++ m :: m2 :: t) f (pre ++ [m, ⟨⟨m.face.axis, .neg⟩, q⟩]) = 0 := by
          intro q hq
          apply prob_zero
          intro hp
          rw [List.prefix_append_right_inj] at hp
          have h2 := (List.cons_prefix_cons.1 (List.cons_prefix_cons.1 hp).2).1
          apply hq
          rw [← h2]
        have z3 : randomProb n (pre ++ m :: m2 :: t) f (pre ++ [m, m2]) =
            (if EndsPositive (m :: m2 :: t) then 4 else 1) / 30 ^ (axisRuns (m :: m2 :: t) - 1) := by
          rcases t with _ | ⟨m3, t⟩
          · have : ¬ m2.face.direction = .pos := by rw [hm2n]; decide
            rw [prob_done (by simp; simp at hn; omega), if_pos rfl]
            simp [endsPositive_cons, endsPositive_single, this, axisRuns, hax2]
          · have hm3 : m2.face.axis ≠ m3.face.axis := by
              intro e
              have := (List.isChain_cons_cons.1 hchain2).1 e
              rw [hm2n] at this
              exact absurd this.1 (by decide)
            have e2 : pre ++ m :: m2 :: m3 :: t = (pre ++ [m, m2]) ++ m3 :: t := by simp
            rw [e2, ih (m3 :: t).length (by simp at hk ⊢; omega) (pre ++ [m, m2]) (m3 :: t) f rfl (by simp at hk ⊢; omega)
              (by simp at hn ⊢; omega) (by rw [← e2]; exact ho) (by
                intro x hx y hy
                simp at hx hy
                subst hx hy
                exact fun e => hm3 e.symm) (by simp)]
            have hr := axisRuns_pos (l := m3 :: t) (by simp)
            have e3 : axisRuns (m :: m2 :: m3 :: t) - 1 = (axisRuns (m3 :: t) - 1) + 1 := by
              simp only [axisRuns, hax2, hm3, if_true, if_false]
              omega
            rw [e3, pow_succ, candidateCount_append]
            simp only [endsPositive_cons]
            congr 1
            ring
        have hsum : ((beginning m).map fun ch => randomProb n (pre ++ m :: m2 :: t) f (pushUpTo n pre ch.moves)).sum =
            randomProb n (pre ++ m :: m2 :: t) f (pre ++ [m, m2]) := by
          simp only [beginning, if_pos hmp, Amount.all, List.map_cons, List.map_nil, List.sum_cons, List.sum_nil,
            NonRedundantAxisMove.moves, hpush1, hpush2, z1, hmpos hmp]
          rw [← hm2]
          have hq : m2.amount = .single ∨ m2.amount = .double ∨ m2.amount = .inverse := by cases m2.amount <;> simp
          rw [hm2]
          rcases hq with hq | hq | hq <;> rw [hq] at hm2 z2
          · rw [hm2, z2 .double (by decide), z2 .inverse (by decide)]; ring
          · rw [hm2, z2 .single (by decide), z2 .inverse (by decide)]; ring
          · rw [hm2, z2 .single (by decide), z2 .double (by decide)]; ring
        rw [hsum, z3]
        field_simp
      · -- the move was drawn alone
        have z1 : randomProb n (pre ++ m :: m2 :: t) f (pre ++ [m]) =
            (if EndsPositive (m :: m2 :: t) then 4 else 1) / 30 ^ (axisRuns (m :: m2 :: t) - 1) := by
          rw [e1, ih (m2 :: t).length (by simp; omega) (pre ++ [m]) (m2 :: t) f rfl (by simp; omega)
            (by simp; omega) (by rw [← e1]; exact ho) (by
              intro x hx y hy
              simp at hx hy
              subst hx hy
              exact fun e => hax2 e.symm) (by simp)]
          have hr := axisRuns_pos (l := m2 :: t) (by simp)
          have e3 : axisRuns (m :: m2 :: t) - 1 = (axisRuns (m2 :: t) - 1) + 1 := by
            simp only [axisRuns, hax2, if_false]
            omega
          rw [e3, pow_succ, candidateCount_append]
          simp only [endsPositive_cons]
          congr 1
          ring
        have z2 : ∀ q, randomProb n (pre ++ m :: m2 :: t) f (pre ++ [m, ⟨⟨m.face.axis, .neg⟩, q⟩]) = 0 := by
          intro q
          apply prob_zero
          intro hp
          rw [List.prefix_append_right_inj] at hp
          have h2 := (List.cons_prefix_cons.1 (List.cons_prefix_cons.1 hp).2).1
          apply hax2
          rw [← h2]
        have hsum : ((beginning m).map fun ch => randomProb n (pre ++ m :: m2 :: t) f (pushUpTo n pre ch.moves)).sum =
            randomProb n (pre ++ m :: m2 :: t) f (pre ++ [m]) := by
          by_cases hp : m.face.direction = .pos
          · simp [beginning, hp, Amount.all, NonRedundantAxisMove.moves, hpush1, hpush2, hmpos hp, z2]
          · simp [beginning, hp, NonRedundantAxisMove.moves, hpush1]
        rw [hsum, z1]
        field_simp

/-- only algs that the loop can return have a probability other than 0 -/
theorem prob_possible {n : Nat} {r : List AxisMove} : ∀ (fuel : Nat) (moves : List AxisMove), RandomRun n moves →
    randomProb n r fuel moves ≠ 0 → RandomAlg n r := by
  intro fuel
  induction fuel with
  | zero =>
    intro moves hm h
    simp only [randomProb] at h
    split at h
    · exact absurd rfl h
    · rename_i hl
      split at h
      · rename_i e
        exact e ▸ ⟨hm, hl⟩
      · exact absurd rfl h
  | succ fuel ih =>
    intro moves hm h
    simp only [randomProb] at h
    split at h
    · rename_i hl
      by_contra hr
      apply h
      rw [List.map_congr_left (g := fun _ => (0 : ℚ))]
      · simp
      · intro ch hch
        by_contra h0
        exact hr (ih _ (hm.step (.step hl hch)) h0)
    · rename_i hl
      split at h
      · rename_i e
        exact e ▸ ⟨hm, hl⟩
      · exact absurd rfl h

/-- **C77** With a truly random generator, `Alg::random(n)` returns a given alg (of `n ≥ 1` moves that it can return at all) with
probability `w / (45 · 30 ^ (r - 1))`: here `r` is the number of runs of moves on one axis, and `w` is 4 if the last move
turns a positive face (R, U or F), otherwise 1. Other algs have probability 0. -/
theorem C77_probability (n : Nat) (alg : List AxisMove) :
    (RandomAlg n alg → 0 < n →
      randomAlgProb n alg = (if EndsPositive alg then 4 else 1) / (45 * 30 ^ (axisRuns alg - 1))) ∧
    (¬ RandomAlg n alg → randomAlgProb n alg = 0) := by
  constructor
  · intro h h0
    obtain ⟨hl, ho⟩ := (C36_random_alg n alg).1 h
    have := prob_formula (n := n) n [] alg n hl le_rfl hl ho (by intro x hx; cases hx) (by rintro rfl; simp at hl; omega)
    simpa [candidateCount, randomAlgProb] using this
  · intro h
    by_contra h0
    exact h (prob_possible n [] .start h0)

-- `R L` has one run on one axis, `R U` has two
example : randomAlgProb 2 [⟨R, single⟩, ⟨L, single⟩] = 1 / 45 ∧ randomAlgProb 2 [⟨R, single⟩, ⟨U, single⟩] = 4 / (45 * 30) ∧
    randomAlgProb 2 [⟨L, single⟩, ⟨R, single⟩] = 0 := by
  refine ⟨?_, ?_, ?_⟩
  · rw [(C77_probability 2 _).1 ((C36_random_alg _ _).2 ⟨rfl, by unfold Ordered; decide⟩) (by decide)]
    rw [if_neg (by decide)]
    norm_num [axisRuns, R, L]
  · rw [(C77_probability 2 _).1 ((C36_random_alg _ _).2 ⟨rfl, by unfold Ordered; decide⟩) (by decide)]
    rw [if_pos (by decide)]
    have : Axis.X ≠ Axis.Y := by decide
    norm_num [axisRuns, R, U, this]
  · refine (C77_probability 2 _).2 fun h => ?_
    have := ((C36_random_alg _ _).1 h).2
    unfold Ordered at this
    revert this
    decide

theorem prob_total {n : Nat} : ∀ (fuel : Nat) (moves : List AxisMove), RandomRun n moves → n ≤ moves.length + fuel →
    ∑ r ∈ (orderedAlgs .pos n).toFinset, randomProb n r fuel moves = 1 := by
  intro fuel
  have done : ∀ moves, RandomRun n moves → ¬ moves.length < n → ∀ fuel,
      ∑ r ∈ (orderedAlgs .pos n).toFinset, randomProb n r fuel moves = 1 := by
    intro moves hm hl fuel
    simp only [prob_done hl]
    rw [Finset.sum_ite_eq, if_pos]
    rw [List.mem_toFinset, mem_orderedAlgs]
    exact (C36_random_alg n moves).1 ⟨hm, hl⟩
  induction fuel with
  | zero =>
    intro moves hm hl
    exact done moves hm (by omega) 0
  | succ fuel ih =>
    intro moves hm hl
    by_cases hlt : moves.length < n
    · simp only [randomProb, hlt, if_true]
      have hK : ((randomCandidates moves).length : ℚ) ≠ 0 := by
        rw [candidates_length]
        unfold candidateCount
        split <;> norm_num
      rw [← Finset.sum_div, div_eq_one_iff_eq hK]
      have hs : ∀ l : List NonRedundantAxisMove, (∀ ch ∈ l, ch ∈ randomCandidates moves) →
          ∑ r ∈ (orderedAlgs .pos n).toFinset,
            (l.map fun ch => randomProb n r fuel (pushUpTo n moves ch.moves)).sum = (l.length : ℚ) := by
        intro l
        induction l with
        | nil => simp
        | cons ch l ihl =>
          intro h
          simp only [List.map_cons, List.sum_cons, Finset.sum_add_distrib, List.length_cons, Nat.cast_add, Nat.cast_one]
          rw [ihl fun c hc => h c (List.mem_cons_of_mem _ hc), ih _ (hm.step (.step hlt (h ch (by simp)))) ?_]
          · ring
          · obtain ⟨m, t, -, u, hu⟩ := push_extends n moves ch
            rw [hu]
            simp only [List.length_append, List.length_cons]
            omega
      exact hs _ fun _ h => h
    · exact done moves hm hlt _

/-- **C77** The probabilities of the algs that can be returned add up to one. -/
theorem C77_total (n : Nat) (algs : Finset (List AxisMove)) (h : ∀ alg, alg ∈ algs ↔ RandomAlg n alg) :
    ∑ alg ∈ algs, randomAlgProb n alg = 1 := by
  have e : algs = (orderedAlgs .pos n).toFinset := by
    ext alg
    rw [h, List.mem_toFinset, mem_orderedAlgs, C36_random_alg]
  rw [e]
  exact prob_total n [] .start (by simp)

-- there is such a set for every length
example (n : Nat) : ∃ algs : Finset (List AxisMove), ∀ alg, alg ∈ algs ↔ RandomAlg n alg :=
  ⟨(orderedAlgs .pos n).toFinset, fun alg => by rw [List.mem_toFinset, mem_orderedAlgs, C36_random_alg]⟩

/-- a move after moves alternating between `F` and `U` -/
def alternating (x : AxisMove) : Nat → List AxisMove
  | 0 => [x]
  | k + 1 => ⟨if k % 2 = 0 then F else U, single⟩ :: alternating x k

theorem alternating_facts (x : AxisMove) (hx : x.face.axis = .X) (k : Nat) :
    (alternating x k).length = k + 1 ∧ Ordered .pos (alternating x k) ∧ axisRuns (alternating x k) = k + 1 ∧
      (EndsPositive (alternating x k) ↔ x.face.direction = .pos) ∧
      ∀ m ∈ (alternating x k).head?, m.face.axis ≠ (if k % 2 = 0 then F else U : Face).axis := by
  induction k with
  | zero =>
    refine ⟨rfl, .singleton _, rfl, endsPositive_single x, ?_⟩
    intro m hm
    cases hm
    rw [hx]
    decide
  | succ k ih =>
    obtain ⟨h1, h2, h3, h4, h5⟩ := ih
    rcases e : alternating x k with _ | ⟨b, l⟩
    · rw [e] at h1; simp at h1
    · rw [e] at h1 h2 h3 h4 h5
      have hb := h5 b rfl
      simp only [alternating, e]
      refine ⟨by simp at h1 ⊢; omega, List.isChain_cons_cons.2 ⟨fun h => absurd h.symm hb, h2⟩, ?_, ?_, ?_⟩
      · simp only [axisRuns, if_neg (Ne.symm hb)] at h3 ⊢
        omega
      · rw [endsPositive_cons, h4]
      · intro m hm
        cases hm
        rcases Nat.mod_two_eq_zero_or_one k with hk | hk
        · have : (k + 1) % 2 = 1 := by omega
          simp only [hk, this]
          decide
        · have : (k + 1) % 2 = 0 := by omega
          simp only [hk, this]
          decide

/-- **C77** The results are not equally likely: for every length there are two of them, one four times as likely as the
other. -/
theorem C77_not_uniform (n : Nat) (h : 0 < n) : ∃ a b, RandomAlg n a ∧ RandomAlg n b ∧ 0 < randomAlgProb n b ∧
    randomAlgProb n a = 4 * randomAlgProb n b := by
  obtain ⟨k, rfl⟩ : ∃ k, n = k + 1 := ⟨n - 1, by omega⟩
  obtain ⟨a1, a2, a3, a4, -⟩ := alternating_facts ⟨R, single⟩ rfl k
  obtain ⟨b1, b2, b3, b4, -⟩ := alternating_facts ⟨L, single⟩ rfl k
  have ha := (C36_random_alg _ _).2 ⟨a1, a2⟩
  have hb := (C36_random_alg _ _).2 ⟨b1, b2⟩
  have pa := (C77_probability _ _).1 ha h
  have pb := (C77_probability _ _).1 hb h
  rw [if_pos (a4.2 rfl), a3] at pa
  rw [if_neg (fun h => absurd (b4.1 h) (by decide)), b3] at pb
  refine ⟨_, _, ha, hb, ?_, ?_⟩
  · rw [pb]; positivity
  · rw [pa, pb]; ring

/-- for algs of two moves -/
example : ∃ a b, RandomAlg 2 a ∧ RandomAlg 2 b ∧ 0 < randomAlgProb 2 b ∧ randomAlgProb 2 a = 4 * randomAlgProb 2 b :=
  C77_not_uniform 2 (by decide)

/-- **C77** Also two algs that both end with a positive face can differ: of the algs of length `n ≥ 2`, `R L …` is thirty
times as likely as one that goes on with another axis. -/
theorem C77_pairs_likelier (n : Nat) (alg : List AxisMove) (m p q : AxisMove) (hm : RandomAlg n (m :: p :: alg))
    (hq : RandomAlg n (m :: q :: alg)) (hp : p.face.axis = m.face.axis) (hqa : q.face.axis ≠ m.face.axis)
    (hr : ∀ x ∈ alg.head?, x.face.axis ≠ p.face.axis ∧ x.face.axis ≠ q.face.axis) (hne : alg ≠ []) :
    randomAlgProb n (m :: p :: alg) = 30 * randomAlgProb n (m :: q :: alg) := by
  have h0 : 0 < n := by have := ((C36_random_alg _ _).1 hm).1; simp at this; omega
  rw [(C77_probability _ _).1 hm h0, (C77_probability _ _).1 hq h0]
  rcases alg with _ | ⟨x, l⟩
  · exact absurd rfl hne
  obtain ⟨hx1, hx2⟩ := hr x rfl
  simp only [endsPositive_cons, axisRuns, if_pos hp.symm, if_neg (Ne.symm hqa), if_neg (Ne.symm hx1), if_neg (Ne.symm hx2)]
  have e : 1 + (1 + axisRuns (x :: l)) - 1 = (0 + (1 + axisRuns (x :: l)) - 1) + 1 := by omega
  rw [e, pow_succ]
  field_simp

-- `R L F` and `R U F`
example : randomAlgProb 3 [⟨R, single⟩, ⟨L, single⟩, ⟨F, single⟩] = 30 * randomAlgProb 3 [⟨R, single⟩, ⟨U, single⟩, ⟨F, single⟩] :=
  C77_pairs_likelier 3 [⟨F, single⟩] ⟨R, single⟩ ⟨L, single⟩ ⟨U, single⟩
    ((C36_random_alg _ _).2 ⟨rfl, by unfold Ordered; decide⟩) ((C36_random_alg _ _).2 ⟨rfl, by unfold Ordered; decide⟩)
    (by decide) (by decide) (by intro x hx; cases hx; decide) (by decide)

end Barbarosa
