import Verif.Props.Algs
import Verif.Props.Invariants
import Verif.Props.Heuristics
import Verif.Props.Meaning
import Verif.Props.Reach
import Mathlib.Data.Set.Card

/-!
# C74, C75: counting algs, and how many moves are needed at least
-/

namespace Barbarosa

open Face Amount

/-! ## C74: the number of random algs -/

/-- may `b` follow `a` in an ordered alg -/
def mayFollow (d : Direction) (a b : AxisMove) : Bool :=
  decide (a.face.axis = b.face.axis → a.face.direction = d ∧ b.face.direction = d.flip)

/-- the ordered algs with `n + 1` moves that start with `m` -/
def orderedFrom (d : Direction) : Nat → AxisMove → List (List AxisMove)
  | 0, m => [[m]]
  | n + 1, m => (AxisMove.all.filter (mayFollow d m)).flatMap fun b => (orderedFrom d n b).map (m :: ·)

/-- the ordered algs with `n` moves -/
def orderedAlgs (d : Direction) : Nat → List (List AxisMove)
  | 0 => [[]]
  | n + 1 => AxisMove.all.flatMap (orderedFrom d n)

theorem mem_orderedFrom (d : Direction) : ∀ (n : Nat) (m : AxisMove) (l : List AxisMove),
    l ∈ orderedFrom d n m ↔ l.head? = some m ∧ l.length = n + 1 ∧ Ordered d l := by
  intro n
  induction n with
  | zero =>
    intro m l
    simp only [orderedFrom, List.mem_singleton]
    constructor
    · rintro rfl; exact ⟨rfl, rfl, List.isChain_singleton _⟩
    · rintro ⟨h1, h2, -⟩
      obtain ⟨a, rfl⟩ := List.length_eq_one_iff.1 h2
      simpa using h1
  | succ n ih =>
    intro m l
    simp only [orderedFrom, List.mem_flatMap, List.mem_filter, List.mem_map]
    constructor
    · rintro ⟨b, ⟨-, hb⟩, t, ht, rfl⟩
      obtain ⟨h1, h2, h3⟩ := (ih b t).1 ht
      refine ⟨rfl, by simp [h2], ?_⟩
      rcases t with _ | ⟨b', t⟩
      · simp at h1
      · simp only [List.head?_cons, Option.some.injEq] at h1
        subst h1
        exact List.IsChain.cons_cons (of_decide_eq_true hb) h3
    · rintro ⟨h1, h2, h3⟩
      rcases l with _ | ⟨a, _ | ⟨b, t⟩⟩
      · simp at h1
      · simp at h2
      · simp only [List.head?_cons, Option.some.injEq] at h1
        subst h1
        obtain ⟨h4, h5⟩ := List.isChain_cons_cons.1 h3
        exact ⟨b, ⟨C37_axis_moves.2.1 b, decide_eq_true h4⟩, b :: t, (ih b _).2 ⟨rfl, by simpa using h2, h5⟩, rfl⟩

theorem mem_orderedAlgs (d : Direction) (n : Nat) (l : List AxisMove) :
    l ∈ orderedAlgs d n ↔ l.length = n ∧ Ordered d l := by
  rcases n with _ | n
  · simp only [orderedAlgs, List.mem_singleton, List.length_eq_zero_iff]
    exact ⟨fun h => ⟨h, h ▸ List.IsChain.nil⟩, fun h => h.1⟩
  · simp only [orderedAlgs, List.mem_flatMap, mem_orderedFrom]
    constructor
    · rintro ⟨m, -, -, h⟩; exact h
    · rintro ⟨h1, h2⟩
      rcases l with _ | ⟨a, t⟩
      · simp at h1
      · exact ⟨a, C37_axis_moves.2.1 a, rfl, h1, h2⟩

theorem orderedFrom_disjoint (d : Direction) (n : Nat) {a b : AxisMove} (h : a ≠ b) :
    (orderedFrom d n a).Disjoint (orderedFrom d n b) := by
  intro l ha hb
  have h1 := ((mem_orderedFrom d n a l).1 ha).1
  have h2 := ((mem_orderedFrom d n b l).1 hb).1
  rw [h1, Option.some.injEq] at h2
  exact h h2

theorem orderedFrom_nodup (d : Direction) : ∀ (n : Nat) (m : AxisMove), (orderedFrom d n m).Nodup := by
  intro n
  induction n with
  | zero => intro m; simp [orderedFrom]
  | succ n ih =>
    intro m
    rw [orderedFrom, List.nodup_flatMap]
    refine ⟨fun b _ => (ih b).map fun x y h => (List.cons.inj h).2, ?_⟩
    refine (C37_axis_moves.1.filter _).imp fun {a b} hab => ?_
    intro l ha hb
    obtain ⟨x, hx, rfl⟩ := List.mem_map.1 ha
    obtain ⟨y, hy, e⟩ := List.mem_map.1 hb
    rw [(List.cons.inj e).2] at hy
    exact orderedFrom_disjoint d n hab hx hy

theorem orderedAlgs_nodup (d : Direction) (n : Nat) : (orderedAlgs d n).Nodup := by
  rcases n with _ | n
  · simp [orderedAlgs]
  · rw [orderedAlgs, List.nodup_flatMap]
    exact ⟨fun b _ => orderedFrom_nodup d n b, C37_axis_moves.1.imp fun {a b} hab => orderedFrom_disjoint d n hab⟩

/-- how many ordered algs with `n + 1` moves start with a given move: one of direction `d`, one of the other direction -/
def fromCounts : Nat → Nat × Nat
  | 0 => (1, 1)
  | n + 1 => (6 * (fromCounts n).1 + 9 * (fromCounts n).2, 6 * (fromCounts n).1 + 6 * (fromCounts n).2)

theorem sum_two_values (d : Direction) (p q : Nat) (l : List AxisMove) :
    (l.map fun b => if b.face.direction = d then p else q).sum =
      l.countP (fun b => decide (b.face.direction = d)) * p + l.countP (fun b => !decide (b.face.direction = d)) * q := by
  induction l with
  | nil => simp
  | cons b l ih =>
    by_cases h : b.face.direction = d
    · simp [h, ih]; ring
    · simp [h, ih]; ring

theorem orderedFrom_length (d : Direction) : ∀ (n : Nat) (m : AxisMove),
    (orderedFrom d n m).length = if m.face.direction = d then (fromCounts n).1 else (fromCounts n).2 := by
  intro n
  induction n with
  | zero => intro m; simp [orderedFrom, fromCounts]
  | succ n ih =>
    intro m
    have hc : (AxisMove.all.filter (mayFollow d m)).countP (fun b => decide (b.face.direction = d)) = 6 ∧
        (AxisMove.all.filter (mayFollow d m)).countP (fun b => !decide (b.face.direction = d)) =
          if m.face.direction = d then 9 else 6 := by
      clear ih
      revert d m
      decide +kernel
    rw [orderedFrom, List.length_flatMap]
    simp only [List.length_map, ih]
    rw [sum_two_values, hc.1, hc.2, fromCounts]
    split <;> ring

theorem orderedAlgs_length (d : Direction) :
    (orderedAlgs d 0).length = 1 ∧ ∀ n, (orderedAlgs d (n + 1)).length = 9 * ((fromCounts n).1 + (fromCounts n).2) := by
  refine ⟨rfl, fun n => ?_⟩
  have hc : AxisMove.all.countP (fun b => decide (b.face.direction = d)) = 9 ∧
      AxisMove.all.countP (fun b => !decide (b.face.direction = d)) = 9 := by revert d; decide +kernel
  rw [orderedAlgs, List.length_flatMap]
  simp only [orderedFrom_length]
  rw [sum_two_values, hc.1, hc.2]
  ring

/-- the number of algs with `n` moves and without redundancy: the recurrence -/
theorem orderedAlgs_recurrence (d : Direction) :
    (orderedAlgs d 0).length = 1 ∧ (orderedAlgs d 1).length = 18 ∧ (orderedAlgs d 2).length = 243 ∧
    ∀ n, (orderedAlgs d (n + 3)).length = 12 * (orderedAlgs d (n + 2)).length + 18 * (orderedAlgs d (n + 1)).length := by
  obtain ⟨h0, h⟩ := orderedAlgs_length d
  refine ⟨h0, by rw [h]; rfl, by rw [h]; rfl, fun n => ?_⟩
  rw [h, h, h]
  simp only [fromCounts]
  ring

theorem card_ordered (d : Direction) (n : Nat) :
    Nat.card { alg : List AxisMove // alg.length = n ∧ Ordered d alg } = (orderedAlgs d n).length := by
  have h : ∀ x, x ∈ (orderedAlgs d n).toFinset ↔ (x.length = n ∧ Ordered d x) := by
    intro x; rw [List.mem_toFinset, mem_orderedAlgs]
  rw [← List.toFinset_card_of_nodup (orderedAlgs_nodup d n)]
  exact Nat.subtype_card _ h

/-- **C74** How many different algs `Alg::random` can return: 1 of length 0, 18 of length 1, 243 of length 2, and then
`12 · (one shorter) + 18 · (two shorter)`. -/
theorem C74_random_count :
    Nat.card { alg // RandomAlg 0 alg } = 1 ∧ Nat.card { alg // RandomAlg 1 alg } = 18 ∧
    Nat.card { alg // RandomAlg 2 alg } = 243 ∧
    ∀ n, Nat.card { alg // RandomAlg (n + 3) alg } =
      12 * Nat.card { alg // RandomAlg (n + 2) alg } + 18 * Nat.card { alg // RandomAlg (n + 1) alg } := by
  have e : ∀ n, Nat.card { alg // RandomAlg n alg } = (orderedAlgs .pos n).length := by
    intro n
    rw [← card_ordered]
    exact Nat.card_congr (Equiv.subtypeEquivRight fun alg => C36_random_alg n alg)
  simp only [e]
  exact orderedAlgs_recurrence .pos

/-- **C74** `normalized` leaves exactly as many algs of each length unchanged: every fixed point corresponds to one alg that
`Alg::random` can return. -/
theorem C74_normal_forms (n : Nat) :
    Nat.card { alg : List AxisMove // alg.length = n ∧ normalized alg = alg } = Nat.card { alg // RandomAlg n alg } := by
  have e1 : Nat.card { alg // RandomAlg n alg } = (orderedAlgs .pos n).length := by
    rw [← card_ordered]
    exact Nat.card_congr (Equiv.subtypeEquivRight fun alg => C36_random_alg n alg)
  have e2 : Nat.card { alg : List AxisMove // alg.length = n ∧ normalized alg = alg } = (orderedAlgs .neg n).length := by
    rw [← card_ordered]
    exact Nat.card_congr (Equiv.subtypeEquivRight fun alg => by rw [(C35_fixed_points_partial alg).1])
  rw [e1, e2]
  rcases n with _ | n
  · rfl
  · rw [(orderedAlgs_length _).2, (orderedAlgs_length _).2]

/-- the number of random algs of length 5 -/
example : Nat.card { alg // RandomAlg 5 alg } = 577368 := by
  obtain ⟨-, h1, h2, h⟩ := C74_random_count
  have h3 := h 0
  have h4 := h 1
  have h5 := h 2
  simp only [Nat.zero_add, Nat.reduceAdd] at h3 h4 h5
  rw [h5, h4, h3, h2, h1]

/-! ## C75: lower bounds -/

/-- the ordered algs with at most `n` moves -/
def shortAlgs (n : Nat) : List (List AxisMove) := (List.range (n + 1)).flatMap (orderedAlgs .neg)

theorem mem_shortAlgs (n : Nat) (l : List AxisMove) : l ∈ shortAlgs n ↔ l.length ≤ n ∧ Ordered .neg l := by
  simp only [shortAlgs, List.mem_flatMap, List.mem_range, mem_orderedAlgs]
  constructor
  · rintro ⟨k, h1, rfl, h2⟩; exact ⟨by omega, h2⟩
  · rintro ⟨h1, h2⟩; exact ⟨_, by omega, rfl, h2⟩

theorem shortAlgs_length (n : Nat) : (shortAlgs n).length = ((List.range (n + 1)).map fun k => (orderedAlgs .neg k).length).sum := by
  rw [shortAlgs, List.length_flatMap]

/-- the numbers of ordered algs, computed from the recurrence -/
def algCount : Nat → Nat
  | 0 => 1
  | n + 1 => 9 * ((fromCounts n).1 + (fromCounts n).2)

theorem shortAlgs_count (n : Nat) : (shortAlgs n).length = ((List.range (n + 1)).map algCount).sum := by
  rw [shortAlgs_length]
  congr 1
  apply List.map_congr_left
  intro k _
  rcases k with _ | k
  · rfl
  · exact (orderedAlgs_length _).2 k

theorem length_iterate : ∀ (k : Nat) (alg : List AxisMove), (normalized^[k] alg).length ≤ alg.length
  | 0, _ => le_rfl
  | k + 1, alg => (length_iterate k (normalized alg)).trans (C34_length alg)

theorem effect_iterate : ∀ s ∈ axisSystems, ∀ (k : Nat) (alg : List AxisMove) (c : s.C),
    movedAlg c (normalized^[k] alg) = movedAlg c alg := by
  intro s hs k
  induction k with
  | zero => intro alg c; rfl
  | succ k ih => intro alg c; rw [Function.iterate_succ_apply, ih, C34_effect s hs]

/-- every alg has the effect of an ordered one that is not longer -/
theorem exists_short (s : AxisSys) (hs : s ∈ axisSystems) (n : Nat) (alg : List AxisMove) (h : alg.length ≤ n) :
    ∃ w ∈ shortAlgs n, ∀ c : s.C, movedAlg c w = movedAlg c alg :=
  ⟨normalized^[alg.length] alg, (mem_shortAlgs n _).2 ⟨(length_iterate _ _).trans h, normalized_iterate _ _ (by omega)⟩,
    effect_iterate s hs _ alg⟩

/-- there are at most as many states as algs -/
theorem pigeonhole {C W : Type} (P : C → Prop) (f : W → C) (l : List W) (hP : Nat.card { c // P c } ≠ 0) :
    Nat.card { c // P c } ≤ Nat.card { c // P c ∧ ∀ w ∈ l, f w ≠ c } + l.length := by
  classical
  have hf : Finite { c // P c } := (Nat.card_ne_zero.1 hP).2
  have hfin : { c | P c }.Finite := hf
  have h1 : { c | P c } ⊆ { c | P c ∧ ∀ w ∈ l, f w ≠ c } ∪ ((l.map f).toFinset : Set C) := by
    intro c hc
    by_cases h : ∀ w ∈ l, f w ≠ c
    · exact Or.inl ⟨hc, h⟩
    · push Not at h
      obtain ⟨w, hw, e⟩ := h
      right
      simp only [List.coe_toFinset, Set.mem_ofPred_eq, List.mem_map]
      exact ⟨w, hw, e⟩
  have h2 := Set.ncard_le_ncard h1 ((hfin.subset fun c hc => hc.1).union (Finset.finite_toSet _))
  have h3 := h2.trans (Set.ncard_union_le _ _)
  rw [Set.ncard_coe_finset] at h3
  have h4 : (l.map f).toFinset.card ≤ l.length := by
    simpa using List.toFinset_card_le (l.map f)
  exact h3.trans (Nat.add_le_add_left h4 _)

/-- all but at most as many states as there are short algs need more than `n` moves -/
theorem far_states {C : Type} [Movable C AxisMove] (s0 : C)
    (hr : ∀ (alg : List AxisMove) (c : C), movedAlg (movedAlg c alg) (reversed alg) = c)
    (hw : ∀ (k : Nat) (alg : List AxisMove) (c : C), movedAlg c (normalized^[k] alg) = movedAlg c alg)
    (P : C → Prop) (hP : Nat.card { c // P c } ≠ 0) (n : Nat) :
    Nat.card { c // P c } ≤
      Nat.card { c // P c ∧ ∀ alg : List AxisMove, movedAlg c alg = s0 → n < alg.length } + ((List.range (n + 1)).map algCount).sum := by
  have h := pigeonhole P (fun w => movedAlg s0 w) (shortAlgs n) hP
  have he : Nat.card { c // P c ∧ ∀ w ∈ shortAlgs n, movedAlg s0 w ≠ c } =
      Nat.card { c // P c ∧ ∀ alg : List AxisMove, movedAlg c alg = s0 → n < alg.length } := by
    refine Nat.card_congr (Equiv.subtypeEquivRight fun c => and_congr_right fun _ => ?_)
    constructor
    · intro ha alg e
      by_contra hl
      have e' := hr alg c
      rw [e] at e'
      refine ha (normalized^[(reversed alg).length] (reversed alg)) ((mem_shortAlgs n _).2 ⟨?_, normalized_iterate _ _ (by omega)⟩) ?_
      · refine (length_iterate _ _).trans ?_
        rw [(C02_reversed_append alg []).2]
        omega
      · rw [hw]
        exact e'
    · intro ha w hw' e
      have := ha (reversed w) (by rw [← e]; exact hr w _)
      rw [(C02_reversed_append w []).2] at this
      have := ((mem_shortAlgs n w).1 hw').1
      omega
  rwa [he, shortAlgs_count] at h

/-- **C75** More than half of the reachable states of the 3x3 cannot be solved in fewer than 18 moves. -/
theorem C75_eighteen :
    Nat.card { c : Cube3 // c.Reachable } <
      2 * Nat.card { c : Cube3 // c.Reachable ∧ ∀ alg : List AxisMove, movedAlg c alg = Cube3.SOLVED → 18 ≤ alg.length } := by
  have h := far_states Cube3.SOLVED
    (fun alg c => (C02_alg_then_reversed ⟨Cube3, AxisMove⟩ (by simp [moveSystems]) alg c).1)
    (effect_iterate ⟨Cube3⟩ (by simp [axisSystems])) (fun c => c.Reachable) (by rw [C16_number_of_states]; decide) 17
  have hc : ((List.range (17 + 1)).map algCount).sum = 19973266111335481264 := by decide +kernel
  rw [hc] at h
  rw [C16_number_of_states] at h ⊢
  change _ ≤ Nat.card { c : Cube3 // c.Reachable ∧ ∀ alg : List AxisMove, movedAlg c alg = Cube3.SOLVED → 18 ≤ alg.length } + _ at h
  omega

/-- **C75** More than nine tenths of the reachable states of the 2x2 need at least 7 moves. -/
theorem C75_cube2 :
    9 * Nat.card { c : Cube2 // c.Reachable } <
      10 * Nat.card { c : Cube2 // c.Reachable ∧ ∀ alg : List AxisMove, movedAlg c alg = Cube.SOLVED → 7 ≤ alg.length } := by
  have h := far_states (Cube.SOLVED : Cube2)
    (fun alg c => (C02_alg_then_reversed ⟨Cube2, AxisMove⟩ (by simp [moveSystems]) alg c).1)
    (effect_iterate ⟨Cube2⟩ (by simp [axisSystems])) (fun c => c.Reachable)
    (by rw [C68_number_of_states.1]; decide) 6
  have hc : ((List.range (6 + 1)).map algCount).sum = 8331112 := by decide +kernel
  rw [hc] at h
  rw [C68_number_of_states.1] at h ⊢
  change _ ≤ Nat.card { c : Cube2 // c.Reachable ∧ ∀ alg : List AxisMove, movedAlg c alg = Cube.SOLVED → 7 ≤ alg.length } + _ at h
  omega

/-- **C75** Random algs with at most 17 moves give fewer than half of the reachable states. -/
theorem C75_random :
    2 * Nat.card { c : Cube3 // ∃ n ≤ 17, ∃ alg, RandomAlg n alg ∧ movedAlg Cube3.SOLVED alg = c } <
      Nat.card { c : Cube3 // c.Reachable } := by
  classical
  have h : { c : Cube3 | ∃ n ≤ 17, ∃ alg, RandomAlg n alg ∧ movedAlg Cube3.SOLVED alg = c } ⊆
      (((shortAlgs 17).map fun w => movedAlg Cube3.SOLVED w).toFinset : Set Cube3) := by
    rintro c ⟨n, hn, alg, ha, rfl⟩
    obtain ⟨w, w1, w2⟩ := exists_short ⟨Cube3⟩ (by simp [axisSystems]) 17 alg (by rw [((C36_random_alg n alg).1 ha).1]; exact hn)
    simp only [List.coe_toFinset, Set.mem_ofPred_eq, List.mem_map]
    exact ⟨w, w1, w2 _⟩
  have h2 := Set.ncard_le_ncard h (Finset.finite_toSet _)
  rw [Set.ncard_coe_finset] at h2
  have h3 := h2.trans (List.toFinset_card_le _)
  rw [List.length_map, shortAlgs_count] at h3
  have hc : ((List.range (17 + 1)).map algCount).sum = 19973266111335481264 := by decide +kernel
  rw [hc] at h3
  change Nat.card { c : Cube3 // ∃ n ≤ 17, ∃ alg, RandomAlg n alg ∧ movedAlg Cube3.SOLVED alg = c } ≤ _ at h3
  rw [C16_number_of_states]
  omega

theorem cube3_walk_alg {c : Cube3} {steps : List (Cube3 × AxisMove)} (hw : IsWalk Cube3.successors c steps) :
    movedAlg c (steps.map (·.2)) = walkEnd c steps := walk_moved cube3_successors_true hw

/-- **C75** Without a heuristic and with a limit below 18, `search` returns `None` for more than half of the reachable cubes. -/
theorem C75_search (maxDepth : Int) (hd : maxDepth < 18) :
    Nat.card { c : Cube3 // c.Reachable } < 2 * Nat.card { c : Cube3 // c.Reachable ∧
      Returns (fun fuel => search? exactOps zeroHeuristic Cube3.successors maxDepth fuel c Cube.isSolved) none } := by
  refine C75_eighteen.trans_le (Nat.mul_le_mul_left 2 ?_)
  have hfin : { c : Cube3 | c.Reachable }.Finite :=
    (Nat.card_ne_zero.1 (by rw [C16_number_of_states]; decide : Nat.card { c : Cube3 // c.Reachable } ≠ 0)).2
  refine Set.ncard_le_ncard (s := { c : Cube3 | c.Reachable ∧ ∀ alg : List AxisMove, movedAlg c alg = Cube3.SOLVED → 18 ≤ alg.length })
    (t := { c : Cube3 | c.Reachable ∧
      Returns (fun fuel => search? exactOps zeroHeuristic Cube3.successors maxDepth fuel c Cube.isSolved) none }) ?_
    (hfin.subset fun c hc => hc.1)
  rintro c ⟨hc, hl⟩
  refine ⟨hc, ?_⟩
  obtain ⟨r, hr⟩ := C28_terminates_nonneg zeroHeuristic (fun _ => le_rfl) Cube3.successors maxDepth c Cube.isSolved
  rcases r with _ | ⟨alg, e⟩
  · exact hr
  · exfalso
    obtain ⟨steps, h1, h2, h3⟩ := (C28_integer zeroHeuristic Cube3.successors Cube.isSolved (fun _ => le_rfl)
      (fun _ _ _ _ => by simp [zeroHeuristic]) (fun _ => ⟨0, by simp [zeroHeuristic]⟩) maxDepth c).1 ⟨alg, e, hr⟩
    have := hl (steps.map (·.2)) ((cube3_walk_alg h1).trans (decide_eq_true_iff.1 h2))
    rw [List.length_map] at this
    have h4 : (steps.length : ℚ) ≤ maxDepth := by simpa [zeroHeuristic] using h3
    have h5 : (steps.length : ℤ) ≤ maxDepth := by exact_mod_cast h4
    omega

/-- with the limit 10 more than half of the cubes are given up -/
example : ∃ c : Cube3, c.Reachable ∧
    Returns (fun fuel => search? exactOps zeroHeuristic Cube3.successors 10 fuel c Cube.isSolved) none := by
  have h := C75_search 10 (by decide)
  by_contra hn
  push Not at hn
  have : IsEmpty { c : Cube3 // c.Reachable ∧
      Returns (fun fuel => search? exactOps zeroHeuristic Cube3.successors 10 fuel c Cube.isSolved) none } := ⟨fun c => hn c.1 c.2.1 c.2.2⟩
  rw [Nat.card_of_isEmpty (α := { c : Cube3 // c.Reachable ∧
      Returns (fun fuel => search? exactOps zeroHeuristic Cube3.successors 10 fuel c Cube.isSolved) none })] at h
  omega

/-! ### The big cubes -/

/-- all words over an alphabet -/
def wordsOf {M : Type} (S : List M) : Nat → List (List M)
  | 0 => [[]]
  | n + 1 => S.flatMap fun m => (wordsOf S n).map (m :: ·)

theorem wordsOf_length {M : Type} (S : List M) : ∀ n, (wordsOf S n).length = S.length ^ n
  | 0 => rfl
  | n + 1 => by
    rw [wordsOf, List.length_flatMap]
    simp only [List.length_map, wordsOf_length S n, List.map_const', List.sum_replicate, smul_eq_mul]
    ring

theorem mem_wordsOf {M : Type} (S : List M) : ∀ (n : Nat) (l : List M), l.length = n → (∀ m ∈ l, m ∈ S) → l ∈ wordsOf S n
  | 0, l, h, _ => by simp [wordsOf, List.length_eq_zero_iff.1 h]
  | n + 1, [], h, _ => by simp at h
  | n + 1, a :: l, h, hm => by
    simp only [wordsOf, List.mem_flatMap, List.mem_map]
    exact ⟨a, hm a (by simp), l, mem_wordsOf S n l (by simpa using h) (fun m hx => hm m (List.mem_cons_of_mem _ hx)), rfl⟩

/-- the moves of a cube with `2 (N + 1)` or `2 (N + 1) + 1` layers -/
def wideMoves (N : Nat) : List (WideAxisMove N) :=
  (List.range (N + 1)).flatMap fun d => AxisMove.all.map fun m => ⟨d, m⟩

theorem mem_wideMoves {N : Nat} (m : WideAxisMove N) (h : m.WF) : m ∈ wideMoves N := by
  simp only [wideMoves, List.mem_flatMap, List.mem_range, List.mem_map]
  exact ⟨m.depth, by unfold WideAxisMove.WF at h; omega, m.axisMove, C37_axis_moves.2.1 _, rfl⟩

theorem far_states_wide {C : Type} {N : Nat} [Movable C (WideAxisMove N)] (s0 : C) (P : C → Prop)
    (hP : Nat.card { c // P c } ≠ 0) (n : Nat) :
    Nat.card { c // P c } ≤
      Nat.card { c // P c ∧ ∀ alg : List (WideAxisMove N), (∀ m ∈ alg, m.WF) → movedAlg s0 alg = c → n < alg.length } +
        ((List.range (n + 1)).map fun k => (wideMoves N).length ^ k).sum := by
  have h := pigeonhole P (fun w => movedAlg s0 w) ((List.range (n + 1)).flatMap (wordsOf (wideMoves N))) hP
  rw [List.length_flatMap] at h
  simp only [wordsOf_length] at h
  refine h.trans (Nat.add_le_add_right ?_ _)
  have hfin : { c | P c }.Finite := (Nat.card_ne_zero.1 hP).2
  refine Set.ncard_le_ncard (s := { c | P c ∧ ∀ w ∈ (List.range (n + 1)).flatMap (wordsOf (wideMoves N)), movedAlg s0 w ≠ c })
    (t := { c | P c ∧ ∀ alg : List (WideAxisMove N), (∀ m ∈ alg, m.WF) → movedAlg s0 alg = c → n < alg.length }) ?_
    (hfin.subset fun c hc => hc.1)
  rintro c ⟨hc, hw⟩
  refine ⟨hc, fun alg ha e => ?_⟩
  by_contra hl
  exact hw alg (List.mem_flatMap.2 ⟨alg.length, List.mem_range.2 (by omega),
    mem_wordsOf _ _ _ rfl fun m hm => mem_wideMoves m (ha m hm)⟩) e

/-- **C75** More than four fifths of the reachable states of the 4x4 cannot be obtained from the solved one with fewer than 36
moves, however many layers each of them turns. -/
theorem C75_cube4 :
    4 * Nat.card { c : Cube4 // c.Reachable } < 5 * Nat.card { c : Cube4 // c.Reachable ∧
      ∀ alg : List (WideAxisMove 1), (∀ m ∈ alg, m.WF) → movedAlg (Cube.SOLVED : Cube4) alg = c → 36 ≤ alg.length } := by
  have h := far_states_wide (N := 1) (Cube.SOLVED : Cube4) (fun c => c.Reachable) (by rw [C71_cube4_number]; decide +kernel) 35
  have hc : 5 * ((List.range (35 + 1)).map fun k => (wideMoves 1).length ^ k).sum <
      88179840 * (Nat.factorial 24 * (Nat.factorial 24 / 2)) := by decide +kernel
  rw [← C71_cube4_number] at hc
  change _ ≤ Nat.card { c : Cube4 // c.Reachable ∧
      ∀ alg : List (WideAxisMove 1), (∀ m ∈ alg, m.WF) → movedAlg (Cube.SOLVED : Cube4) alg = c → 36 ≤ alg.length } + _ at h
  omega

/-- **C75** More than nine tenths of the reachable states of the 5x5 cannot be obtained with fewer than 28 moves. -/
theorem C75_cube5 :
    9 * Nat.card { c : Cube5 // c.Reachable } < 10 * Nat.card { c : Cube5 // c.Reachable ∧
      ∀ alg : List (WideAxisMove 1), (∀ m ∈ alg, m.WF) → movedAlg (Cube.SOLVED : Cube5) alg = c → 28 ≤ alg.length } := by
  have h := far_states_wide (N := 1) (Cube.SOLVED : Cube5) (fun c => c.Reachable) (by rw [C72_cube5_number_partial]; decide +kernel) 27
  have hc : 10 * ((List.range (27 + 1)).map fun k => (wideMoves 1).length ^ k).sum <
      43252003274489856000 * (Nat.factorial 24 / 2) := by decide +kernel
  rw [← C72_cube5_number_partial] at hc
  change _ ≤ Nat.card { c : Cube5 // c.Reachable ∧
      ∀ alg : List (WideAxisMove 1), (∀ m ∈ alg, m.WF) → movedAlg (Cube.SOLVED : Cube5) alg = c → 28 ≤ alg.length } + _ at h
  omega

/-- **C75** More than two thirds of the reachable states of the 6x6 cannot be obtained with fewer than 87 moves. -/
theorem C75_cube6 :
    2 * Nat.card { c : Cube6 // c.Reachable } < 3 * Nat.card { c : Cube6 // c.Reachable ∧
      ∀ alg : List (WideAxisMove 2), (∀ m ∈ alg, m.WF) → movedAlg (Cube.SOLVED : Cube6) alg = c → 87 ≤ alg.length } := by
  have h := far_states_wide (N := 2) (Cube.SOLVED : Cube6) (fun c => c.Reachable) (by rw [C71_cube6_number]; decide +kernel) 86
  have hc : 3 * ((List.range (86 + 1)).map fun k => (wideMoves 2).length ^ k).sum <
      88179840 * (Nat.factorial 24 ^ 2 * (Nat.factorial 24 / 2) ^ 4) := by decide +kernel
  rw [← C71_cube6_number] at hc
  change _ ≤ Nat.card { c : Cube6 // c.Reachable ∧
      ∀ alg : List (WideAxisMove 2), (∀ m ∈ alg, m.WF) → movedAlg (Cube.SOLVED : Cube6) alg = c → 87 ≤ alg.length } + _ at h
  omega

/-- **C75** More than nine tenths of the reachable states of the 7x7 cannot be obtained with fewer than 93 moves. -/
theorem C75_cube7 :
    9 * Nat.card { c : Cube7 // c.Reachable } < 10 * Nat.card { c : Cube7 // c.Reachable ∧
      ∀ alg : List (WideAxisMove 2), (∀ m ∈ alg, m.WF) → movedAlg (Cube.SOLVED : Cube7) alg = c → 93 ≤ alg.length } := by
  have h := far_states_wide (N := 2) (Cube.SOLVED : Cube7) (fun c => c.Reachable) (by rw [C72_cube7_number_partial]; decide +kernel) 92
  have hc : 10 * ((List.range (92 + 1)).map fun k => (wideMoves 2).length ^ k).sum <
      43252003274489856000 * (Nat.factorial 24 ^ 2 * (Nat.factorial 24 / 2) ^ 4) := by decide +kernel
  rw [← C72_cube7_number_partial] at hc
  change _ ≤ Nat.card { c : Cube7 // c.Reachable ∧
      ∀ alg : List (WideAxisMove 2), (∀ m ∈ alg, m.WF) → movedAlg (Cube.SOLVED : Cube7) alg = c → 93 ≤ alg.length } + _ at h
  omega

/-- The bounds concern real states: these states need exactly 0 and 1 moves, so the sets counted above are not everything. -/
example : ∃ c : Cube4, c.Reachable ∧ c ≠ Cube.SOLVED ∧ movedAlg (Cube.SOLVED : Cube4) [(⟨1, ⟨R, single⟩⟩ : WideAxisMove 1)] = c :=
  ⟨_, ⟨[⟨1, ⟨R, single⟩⟩], by simp [WideAxisMove.WF], rfl⟩, by decide +kernel, rfl⟩

end Barbarosa
