import Verif.Lemmas.Changing
import Verif.Props.Disk
import Verif.Props.Manhattan
import Verif.Props.Trace

/-!
# C95, C96: solving with the cache from the disk, and with heuristics whose answers change
-/

namespace Barbarosa

/-! ## C95 -/

/-- Tables of the right size in which every entry is the right one or zero (see C62) -/
def GoodCache (edges corners : List Nat) (cache : Cache) : Prop :=
  (Patchy edges cache.edges ∧ cache.edges.length = edges.length) ∧ Patchy corners cache.corners ∧
    cache.corners.length = corners.length

/-- exact arithmetic is a special case -/
def exactFloat (q : Nat) (R : ℚ) : FloatLike exactOps q R where
  val := id
  ok _ := True
  zero_ok := trivial
  zero_val := rfl
  one_ok := trivial
  one_val := rfl
  add_ok _ _ _ _ _ _ _ _ _ := ⟨trivial, rfl⟩
  lt_val _ _ _ _ := rfl

section
variable {edges corners : List Nat} (he : buildTable? HalfEdgesMUS = some edges) (hk : buildTable? CornersMUS = some corners)

include he hk in
/-- what such a cache answers: something on every valid cube, and nowhere more than the finished tables -/
theorem goodCache_get {cache : Cache} (g : GoodCache edges corners cache) (c : Cube3) (hc : c.valid) :
    ∃ m n, cache.get? c = some m ∧ Cache.get? ⟨edges, corners⟩ c = some n ∧ m ≤ n := by
  obtain ⟨⟨e1, e2⟩, k1, k2⟩ := g
  obtain ⟨_, n, _, _, _, _, hn⟩ := C20_lookup ⟨edges, corners⟩ (edges_length he) (corners_length hk) c hc
  suffices ∃ m : Nat, cache.get? c = some m ∧ m ≤ n by
    obtain ⟨m, h1, h2⟩ := this
    exact ⟨m, n, h1, hn, h2⟩
  unfold Cache.get? at hn ⊢
  cases hidx : c.indices? with
  | none => rw [hidx] at hn; cases hn
  | some j =>
    rw [hidx] at hn
    simp only at hn ⊢
    cases hk' : corners[j.corners]? with
    | none => simp [hk'] at hn
    | some a =>
      cases h0 : edges[j.edges0]? with
      | none => simp [hk', h0] at hn
      | some b =>
        cases h1 : edges[j.edges1]? with
        | none => simp [hk', h0, h1] at hn
        | some b' =>
          simp only [hk', h0, h1] at hn
          cases hn
          obtain ⟨u, hu, hu'⟩ := patchy_le k1 k2 hk'
          obtain ⟨v, hv, hv'⟩ := patchy_le e1 e2 h0
          obtain ⟨v', hv1, hv2⟩ := patchy_le e1 e2 h1
          rw [hu, hv, hv1]
          exact ⟨_, rfl, by exact_mod_cast max_le_max hu' (max_le_max hv' hv2)⟩

include he hk in
/-- it never overestimates -/
theorem goodCache_le {cache : Cache} (g : GoodCache edges corners cache) {c : Cube3} {m : Nat} (hm : cache.get? c = some m)
    (alg : List AxisMove) (h : movedAlg c alg = Cube3.SOLVED) : (m : ℚ) ≤ alg.length := by
  have hv : c.valid := by
    obtain ⟨a, rfl⟩ := (C15_reachable_iff c).1.2 ((C15_reachable_iff c).2.1.1 ⟨alg, h⟩)
    exact C08_cubes.2.1 _ _ C08_solved_valid.2.1
  obtain ⟨m', n, h1, h2, h3⟩ := goodCache_get he hk g c hv
  obtain ⟨x, hx, -, hle⟩ := (C25_admissible he hk c alg h).1
  unfold mus? at hx
  rw [h2] at hx
  cases hx
  rw [hm] at h1
  cases h1
  exact le_trans (Nat.cast_le.2 h3) hle

include he hk in
/-- entries are at most 15 -/
theorem goodCache_small {cache : Cache} (g : GoodCache edges corners cache) {c : Cube3} {m : Nat} (hm : cache.get? c = some m) :
    m ≤ 15 := by
  obtain ⟨⟨e1, -⟩, k1, -⟩ := g
  have small : ∀ {T : List Nat}, (∀ (i : Nat) e, T[i]? = some e → e ≤ 15) → ∀ {t : List Nat}, Patchy T t →
      ∀ (i : Nat) e, t[i]? = some e → e ≤ 15 := by
    intro T hT t hp i e hi
    rcases hp.2 i e hi with rfl | h
    · omega
    · exact hT i e h
  have he' : ∀ (i : Nat) e, edges[i]? = some e → e ≤ 15 := by
    obtain ⟨t, h1, -, h2⟩ := C24_edges
    rw [he] at h1
    cases h1
    exact fun i e hi => (h2 i e hi).1
  have hk' : ∀ (i : Nat) e, corners[i]? = some e → e ≤ 15 := by
    obtain ⟨t, h1, -, -, h2⟩ := C24_corners
    rw [hk] at h1
    cases h1
    exact fun i e hi => ((h2 i e hi).1).trans (by decide)
  unfold Cache.get? at hm
  cases hidx : c.indices? with
  | none => rw [hidx] at hm; cases hm
  | some j =>
    rw [hidx] at hm
    simp only at hm
    cases h2 : cache.corners[j.corners]? with
    | none => simp [h2] at hm
    | some a =>
      cases h0 : cache.edges[j.edges0]? with
      | none => simp [h2, h0] at hm
      | some b =>
        cases h1 : cache.edges[j.edges1]? with
        | none => simp [h2, h0, h1] at hm
        | some b' =>
          simp only [h2, h0, h1] at hm
          cases hm
          have a1 := small hk' k1 _ _ h2
          have a2 := small he' e1 _ _ h0
          have a3 := small he' e1 _ _ h1
          omega

end

/-- more fuel does not change the answer -/
theorem solveP_mono {C M K : Type} [DecidableEq C] (ops : CostOps K) (h : C → Option K) (succ : C → List (C × M))
    (maxDepth : Int) (isSolved : C → Bool) (cube : C) {n m : Nat} {r} (hle : n ≤ m)
    (hs : solveP? ops h succ maxDepth n isSolved cube = some r) : solveP? ops h succ maxDepth m isSolved cube = some r := by
  have impl : ∀ (b : K) (n m : Nat), n ≤ m → ∀ (cost : K) (path : List C) (me : K) r,
      searchImplP ops h succ isSolved b n cost path me = some r → searchImplP ops h succ isSolved b m cost path me = some r := by
    intro b n
    induction n with
    | zero => intro _ _ _ _ _ _ hs; cases hs
    | succ n ih =>
      intro m hle cost path me r hs
      obtain ⟨f, rfl⟩ : ∃ f, m = f + 1 := ⟨m - 1, by omega⟩
      cases path with
      | nil => cases hs
      | cons c p =>
        unfold searchImplP at hs ⊢
        cases he : h c with
        | none => rw [he] at hs; cases hs
        | some x =>
          rw [he] at hs
          simp only at hs ⊢
          split
          · rename_i h1; rw [if_pos h1] at hs; exact hs
          · rename_i h1
            rw [if_neg h1] at hs
            split
            · rename_i h2; rw [if_pos h2] at hs; exact hs
            · rename_i h2
              rw [if_neg h2] at hs
              exact searchFor_mono (fun p me r hr => ih f (by omega) _ p me r hr) _ _ _ _ hs
  have loop : ∀ (k : Nat) (b : K) r, searchLoopP ops h succ isSolved n cube k b = some r →
      searchLoopP ops h succ isSolved m cube k b = some r := by
    intro k
    induction k with
    | zero => intro _ _ hs; exact hs
    | succ k ih =>
      intro b r hs
      unfold searchLoopP at hs ⊢
      rcases hi : searchImplP ops h succ isSolved b n ops.zero [cube] (ops.add b ops.one) with _ | ⟨_ | sol, path, me⟩
      · rw [hi] at hs; cases hs
      · rw [hi] at hs
        rw [impl b _ _ hle _ _ _ _ hi]
        exact ih _ _ hs
      · rw [hi] at hs
        rw [impl b _ _ hle _ _ _ _ hi]
        exact hs
  unfold solveP? searchP? at hs ⊢
  cases he : h cube with
  | none => rw [he] at hs; cases hs
  | some x =>
    rw [he] at hs
    simp only at hs ⊢
    cases hl : searchLoopP ops h succ isSolved n cube (maxDepth + 1).toNat x with
    | none => rw [hl] at hs; cases hs
    | some y => rw [loop _ _ _ hl]; rw [hl] at hs; exact hs

section
variable {edges corners : List Nat} (he : buildTable? HalfEdgesMUS = some edges) (hk : buildTable? CornersMUS = some corners)

include he hk in
/-- **C95** Solving with any cache that any process obtains from the disk, in any arithmetic that is exact on small numbers (`toF` is
the conversion of `u8` to `f32`): on every valid cube the search ends and does not panic; it returns a shortest solution if the cube
can be reached and `None` otherwise. -/
theorem C95_good_cache {K : Type} {ops : CostOps K} {q : Nat} {R : ℚ} (fl : FloatLike ops q R) (hR : 503 ≤ R) (toF : Nat → K)
    (hok : ∀ n : Nat, n ≤ 255 → fl.ok (toF n) ∧ fl.val (toF n) = n) {cache : Cache} (g : GoodCache edges corners cache) (c : Cube3)
    (hc : c.valid) :
    ∃ r, Returns (fun fuel => Cube3.solveWithHeuristicP? ops (fun c => (cache.get? c).map toF) fuel c) r ∧
      (r.isSome ↔ c.Reachable) ∧ ∀ alg, r = some alg → movedAlg c alg = Cube3.SOLVED ∧
        ∀ alg' : List AxisMove, movedAlg c alg' = Cube3.SOLVED → alg.length ≤ alg'.length := by
  let h : Cube3 → K := fun c => toF ((cache.get? c).getD 0)
  have hsmall : ∀ c, (cache.get? c).getD 0 ≤ 15 := by
    intro c
    cases e : cache.get? c with
    | none => simp
    | some m => simpa using goodCache_small he hk g e
  have hval : ∀ c, fl.ok (h c) ∧ fl.val (h c) = ((cache.get? c).getD 0 : Nat) := fun c =>
    hok _ ((hsmall c).trans (by omega))
  have eq : ∀ fuel, Cube3.solveWithHeuristicP? ops (fun c => (cache.get? c).map toF) fuel c =
      Cube3.solveWithHeuristic? ops h fuel c := by
    intro fuel
    unfold Cube3.solveWithHeuristicP? Cube3.solveWithHeuristic? solveP? solve?
    have := C87_no_panic ops (fun c => (cache.get? c).map toF) h Cube3.successors 200 fuel c Cube.isSolved ?_
    · rw [this]
      rcases search? ops h Cube3.successors 200 fuel c Cube.isSolved with _ | _ | ⟨_, _⟩ <;> rfl
    intro steps hw
    rw [← cube3_alg_of_walk hw]
    obtain ⟨m, n, h1, -, -⟩ := goodCache_get he hk g _ (C08_cubes.2.1 c (steps.map (·.2)) hc)
    simp only [h, h1, Option.map_some, Option.getD_some]
  simp only [eq]
  obtain ⟨a1, a2⟩ := C29_floats fl h 16 (fun c => (hval c).1) (fun c => by rw [(hval c).2]; positivity)
    (fun c => ⟨((cache.get? c).getD 0 : Nat), by rw [(hval c).2]; exact (Int.cast_natCast _).symm⟩)
    (fun c => by rw [(hval c).2]; exact (Nat.cast_le.2 (hsmall c)).trans (by norm_num)) (by linarith) (fun c alg ha => by
      rw [(hval c).2]
      cases e : cache.get? c with
      | none => simp
      | some m => exact goodCache_le he hk g e alg ha) c
  by_cases hr : c.Reachable
  · obtain ⟨alg, h1, h2, h3⟩ := a1 hr
    refine ⟨some alg, h1, by simpa using hr, ?_⟩
    rintro _ ⟨⟩
    exact ⟨h2, h3⟩
  · exact ⟨none, a2 hr, by simpa using hr, by simp⟩

include he hk in
/-- the tables themselves, exact arithmetic, and the cube after `R` -/
example : ∃ r, Returns (fun fuel => Cube3.solveWithHeuristicP? exactOps (fun c => ((⟨edges, corners⟩ : Cache).get? c).map fun n : Nat => (n : ℚ))
      fuel (moved Cube3.SOLVED (⟨Face.R, .single⟩ : AxisMove))) r ∧ r.isSome := by
  obtain ⟨r, h1, h2, -⟩ := C95_good_cache he hk (exactFloat 1 503) le_rfl (fun n => (n : ℚ)) (fun n _ => ⟨trivial, rfl⟩)
    (cache := ⟨edges, corners⟩) ⟨⟨⟨le_rfl, fun _ _ h => .inr h⟩, rfl⟩, ⟨le_rfl, fun _ _ h => .inr h⟩, rfl⟩ (moved Cube3.SOLVED (⟨Face.R, .single⟩ : AxisMove))
    (by unfold Cube3.valid; decide +kernel)
  exact ⟨r, h1, h2.2 ((C15_reachable_iff _).1.2 ((C15_reachable_iff _).2.1.1 ⟨[⟨Face.R, .inverse⟩], by decide +kernel⟩))⟩

include he hk in
/-- **C95** From the disk to the solution. Any number of processes read, build and write the tables at the same time, each of which may
fail or be killed at any moment, starting from any files whose bytes are right or zero. If a process obtains a cache, then solving with
it is never wrong: on every valid cube it ends and does not panic, it returns a shortest solution if the cube can be reached and
`None` otherwise. -/
theorem C95_disk_to_solution {w w' : World} (hw : w.Fresh) (h : w.Leads w')
    (hd : ∀ f c, w.disk.file f = some c → Patchy (tables edges corners f) c) (i : Nat) (cache : Cache)
    (hi : w'.procs i = .returned (.ok cache)) (c : Cube3) (hc : c.valid) :
    ∃ r, Returns (fun fuel => Cube3.solveWithHeuristicP? exactOps (mus? cache) fuel c) r ∧
      (r.isSome ↔ c.Reachable) ∧ ∀ alg, r = some alg → movedAlg c alg = Cube3.SOLVED ∧
        ∀ alg' : List AxisMove, movedAlg c alg' = Cube3.SOLVED → alg.length ≤ alg'.length := by
  have g : GoodCache edges corners cache := (patchy_ok he hk hw h hd).2 i cache hi
  have := C95_good_cache he hk (exactFloat 1 503) le_rfl (fun n => (n : ℚ)) (fun n _ => ⟨trivial, rfl⟩) g c hc
  have e : mus? cache = fun c => (cache.get? c).map fun n : Nat => (n : ℚ) := by
    funext c
    unfold mus?
    cases cache.get? c <;> rfl
  rw [e]
  exact this

include he hk in
/-- the hypotheses: the run of `C62_race`, after which the process 2 holds a table that is nearly all zeros, and the cube after `R` -/
example : ∃ cache : Cache, cache.edges ≠ edges ∧
    ∃ r, Returns (fun fuel => Cube3.solveWithHeuristicP? exactOps (mus? cache) fuel (moved Cube3.SOLVED (⟨Face.R, .single⟩ : AxisMove))) r ∧
      r.isSome := by
  obtain ⟨w, w', hw, hd, h, -, cache, hi, -, hne, -⟩ := C62_race he hk
  obtain ⟨r, h1, h2, -⟩ := C95_disk_to_solution he hk hw h (fun f c hf => by rw [hd] at hf; cases hf) 2 cache hi
    (moved Cube3.SOLVED (⟨Face.R, .single⟩ : AxisMove)) (by unfold Cube3.valid; decide +kernel)
  exact ⟨cache, hne, r, h1,
    h2.2 ((C15_reachable_iff _).1.2 ((C15_reachable_iff _).2.1.1 ⟨[⟨Face.R, .inverse⟩], by decide +kernel⟩))⟩

include he hk in
/-- **C95** So two processes, whatever became of their caches, find solutions of the same length. -/
theorem C95_same_length {w w' : World} (hw : w.Fresh) (h : w.Leads w')
    (hd : ∀ f c, w.disk.file f = some c → Patchy (tables edges corners f) c) (i j : Nat) (cache cache' : Cache)
    (hi : w'.procs i = .returned (.ok cache)) (hj : w'.procs j = .returned (.ok cache')) (c : Cube3) (hc : c.valid)
    (fuel fuel' : Nat) (r r' : Option (List AxisMove))
    (hr : Cube3.solveWithHeuristicP? exactOps (mus? cache) fuel c = some r)
    (hr' : Cube3.solveWithHeuristicP? exactOps (mus? cache') fuel' c = some r') : r.map List.length = r'.map List.length := by
  obtain ⟨x, ⟨F, hF⟩, x1, x2⟩ := C95_disk_to_solution he hk hw h hd i cache hi c hc
  obtain ⟨y, ⟨G, hG⟩, y1, y2⟩ := C95_disk_to_solution he hk hw h hd j cache' hj c hc
  obtain rfl : r = x := by
    have := solveP_mono _ _ _ _ _ _ (le_max_left fuel F) hr
    exact Option.some.inj (this.symm.trans (hF _ (le_max_right _ _)))
  obtain rfl : r' = y := by
    have := solveP_mono _ _ _ _ _ _ (le_max_left fuel' G) hr'
    exact Option.some.inj (this.symm.trans (hG _ (le_max_right _ _)))
  rcases r with _ | a <;> rcases r' with _ | b
  · rfl
  · exact absurd (x1.2 (y1.1 rfl)) (by simp)
  · exact absurd (y1.2 (x1.1 rfl)) (by simp)
  · obtain ⟨p1, p2⟩ := x2 a rfl
    obtain ⟨q1, q2⟩ := y2 b rfl
    simp only [Option.map_some, Option.some.injEq]
    exact le_antisymm (p2 b q1) (q2 a p1)

end

/-- the hypotheses: a world in which nothing runs and nothing is on the disk, and a valid cube that is not solved -/
example : ∃ w : World, w.Fresh ∧ (∀ f, w.disk.file f = none) ∧
    (moved Cube3.SOLVED (⟨Face.R, .single⟩ : AxisMove)).valid :=
  ⟨⟨none, fun _ => .killed⟩, fun _ => rfl, fun _ => rfl, by unfold Cube3.valid; decide +kernel⟩

/-! ## C96 -/

section
variable {C M K : Type} [DecidableEq C]

/-- **C96** A heuristic whose answers do not change: the search is the one of C87 (and of C26–C29 if no call panics). -/
theorem C96_constant (ops : CostOps K) (h : C → Option K) (succ : C → List (C × M)) (maxDepth : Int) (fuel : Nat) (cube : C)
    (isTarget : C → Bool) :
    searchV? ops (fun _ => h) succ maxDepth fuel cube isTarget = searchP? ops h succ maxDepth fuel cube isTarget := by
  have loop : ∀ (rec : List C → K → Nat → Option ((Option (List M) × List C × K) × Nat))
      (rec' : List C → K → Option (Option (List M) × List C × K)), (∀ p me n, (rec p me n).map (·.1) = rec' p me) →
      ∀ l p me n, (searchForV rec l p me n).map (·.1) = searchFor rec' l p me := by
    intro rec rec' hr l
    induction l with
    | nil => intro p me n; rfl
    | cons s l ih =>
      obtain ⟨s, m⟩ := s
      intro p me n
      unfold searchForV searchFor
      split
      · exact ih _ _ _
      · rw [← hr _ _ n]
        rcases rec (s :: p) me n with _ | ⟨⟨_ | sol, path1, me1⟩, n1⟩
        · rfl
        · exact ih _ _ _
        · rfl
  have impl : ∀ (b : K) (fuel : Nat) (cost : K) (p : List C) (me : K) (n : Nat),
      (searchImplV ops (fun _ => h) succ isTarget b fuel cost p me n).map (·.1) =
        searchImplP ops h succ isTarget b fuel cost p me := by
    intro b fuel
    induction fuel with
    | zero => intro _ _ _ _; rfl
    | succ fuel ih =>
      intro cost p me n
      cases p with
      | nil => rfl
      | cons c p =>
        unfold searchImplV searchImplP
        cases h c with
        | none => rfl
        | some x =>
          simp only
          split
          · rfl
          · split
            · rfl
            · exact loop _ _ (ih _) _ _ _ _
  have outer : ∀ (k : Nat) (b : K) (n : Nat), searchLoopV ops (fun _ => h) succ isTarget fuel cube k b n =
      searchLoopP ops h succ isTarget fuel cube k b := by
    intro k
    induction k with
    | zero => intro _ _; rfl
    | succ k ih =>
      intro b n
      unfold searchLoopV searchLoopP
      rw [← impl _ _ _ _ _ n]
      rcases searchImplV ops (fun _ => h) succ isTarget b fuel ops.zero [cube] (ops.add b ops.one) n with
        _ | ⟨⟨_ | sol, path, me⟩, n'⟩
      · rfl
      · exact ih _ _
      · rfl
  unfold searchV? searchP?
  simp only
  cases h cube with
  | none => rfl
  | some x => exact outer _ _ _

/-- a heuristic that panics everywhere -/
example : searchV? exactOps (fun _ _ => none) Cube3.successors 200 5 Cube3.SOLVED Cube.isSolved = none := by
  rw [C96_constant exactOps (fun _ : Cube3 => none)]
  decide +kernel

/-- **C96** Whatever the heuristic answers at whatever moment, and in whatever arithmetic: an alg that is returned leads to a target. -/
theorem C96_sound [Movable C M] (ops : CostOps K) (h : Nat → C → Option K) (succ : C → List (C × M)) (ht : TrueSuccessors succ)
    (maxDepth : Int) (fuel : Nat) (cube : C) (isTarget : C → Bool) (alg : List M) (e : C)
    (hs : searchV? ops h succ maxDepth fuel cube isTarget = some (some (alg, e))) :
    movedAlg cube alg = e ∧ isTarget e = true := by
  unfold searchV? at hs
  cases hx : h 0 cube with
  | none => rw [hx] at hs; cases hs
  | some x =>
    rw [hx] at hs
    obtain ⟨steps, h1, rfl, rfl, h4⟩ := searchLoopV_sound ops h succ isTarget fuel cube _ _ _ _ _ hs
    exact ⟨walk_moved ht h1, h4⟩

/-- the successors of the 3x3 meet the hypothesis -/
example (h : Nat → Cube3 → Option ℚ) (alg : List AxisMove) (e : Cube3)
    (hs : searchV? exactOps h Cube3.successors 200 9 (moved Cube3.SOLVED (⟨Face.R, .single⟩ : AxisMove)) Cube.isSolved = some (some (alg, e))) :
    movedAlg (moved Cube3.SOLVED (⟨Face.R, .single⟩ : AxisMove)) alg = e ∧ Cube.isSolved e = true :=
  C96_sound exactOps h Cube3.successors cube3_successors_true 200 9 _ Cube.isSolved alg e hs

/-- **C96** The search ends on a puzzle with finitely many states if no call panics on a state that can be reached from the start,
whatever the answers are. -/
theorem C96_terminates [Fintype C] (ops : CostOps K) (h : Nat → C → Option K) (succ : C → List (C × M)) (maxDepth : Int)
    (cube : C) (isTarget : C → Bool)
    (hh : ∀ n steps, IsWalk succ cube steps → (h n (walkEnd cube steps)).isSome) :
    ∃ r, Returns (fun fuel => searchV? ops h succ maxDepth fuel cube isTarget) r := by
  obtain ⟨x, hx⟩ := Option.isSome_iff_exists.1 (hh 0 [] trivial)
  have hx : h 0 cube = some x := hx
  have tot := searchLoopV_total ops (h := h) (succ := succ) (isTarget := isTarget) (fuel := Fintype.card C + 1) (cube := cube)
    (fun b me n => searchImplV_total_finite ops h succ isTarget b
      (S := fun c => ∃ steps, IsWalk succ cube steps ∧ walkEnd cube steps = c)
      (fun c hc s hs => by
        obtain ⟨st, w, rfl⟩ := hc
        exact ⟨st ++ [s], isWalk_append.2 ⟨w, hs, trivial⟩, by rw [walkEnd_append]; rfl⟩)
      (fun n c hc => by obtain ⟨st, w, rfl⟩ := hc; exact hh n st w) _ _ _ _ _ _ ⟨[], trivial, rfl⟩ (by simp) (by simp))
    (maxDepth + 1).toNat x 1
  obtain ⟨r, hr⟩ := Option.isSome_iff_exists.1 tot
  refine ⟨r, Fintype.card C + 1, fun fuel hle => ?_⟩
  unfold searchV?
  rw [hx]
  exact searchLoopV_mono ops h succ isTarget cube hle _ _ _ _ hr

/-- a puzzle of four states in a ring, and a heuristic that counts up for ever -/
example : ∃ r, Returns (fun fuel => searchV? exactOps (fun n (_ : Fin 4) => some (n : ℚ)) (fun c => [(c + 1, ()), (c - 1, ())]) 3 fuel 0
    (fun c => c == 2)) r :=
  C96_terminates exactOps _ _ 3 0 _ fun _ _ _ => rfl

/-- **C96** Also on an infinite puzzle, if the answers are never negative. -/
theorem C96_terminates_nonneg (h : Nat → C → Option ℚ) (succ : C → List (C × M)) (maxDepth : Int)
    (cube : C) (isTarget : C → Bool)
    (hh : ∀ n steps, IsWalk succ cube steps → ∃ x, h n (walkEnd cube steps) = some x ∧ 0 ≤ x) :
    ∃ r, Returns (fun fuel => searchV? exactOps h succ maxDepth fuel cube isTarget) r := by
  obtain ⟨x, hx, -⟩ := hh 0 [] trivial
  have hx : h 0 cube = some x := hx
  obtain ⟨n, hn⟩ := exists_nat_gt (x + ((maxDepth + 1).toNat : ℚ) + 1)
  have tot := searchLoopV_total_nonneg (h := h) (succ := succ) (isTarget := isTarget) (fuel := n + 1) (cube := cube)
    (S := fun c => ∃ steps, IsWalk succ cube steps ∧ walkEnd cube steps = c)
    (fun c hc s hs => by
      obtain ⟨st, w, rfl⟩ := hc
      exact ⟨st ++ [s], isWalk_append.2 ⟨w, hs, trivial⟩, by rw [walkEnd_append]; rfl⟩)
    (fun n c hc => by obtain ⟨st, w, rfl⟩ := hc; exact hh n st w) ⟨[], trivial, rfl⟩ (maxDepth + 1).toNat x 1
    (by push_cast; linarith) (by omega)
  obtain ⟨r, hr⟩ := Option.isSome_iff_exists.1 tot
  refine ⟨r, n + 1, fun fuel hle => ?_⟩
  unfold searchV?
  rw [hx]
  exact searchLoopV_mono exactOps h succ isTarget cube hle _ _ _ _ hr

/-- the integers, with answers that alternate between 0 and 1/2 -/
example : ∃ r, Returns (fun fuel => searchV? exactOps (fun n (_ : ℤ) => some (if n % 2 = 0 then 0 else 1 / 2))
    (fun c => [(c + 1, true), (c - 1, false)]) 3 fuel 0 (fun _ => false)) r :=
  C96_terminates_nonneg _ _ 3 0 _ fun n _ _ => ⟨_, rfl, by split <;> norm_num⟩

/-- **C96** With answers that are never negative the returned alg is at most as long as the largest estimate `steps so far + answer` that
could be given at any moment on the way along any walk to a target that visits no state twice. -/
theorem C96_bounded (h : Nat → C → Option ℚ) (succ : C → List (C × M)) (isTarget : C → Bool)
    (hh : ∀ n c x, h n c = some x → 0 ≤ x) (maxDepth : Int) (fuel : Nat) (cube : C) (alg : List M) (e : C)
    (hs : searchV? exactOps h succ maxDepth fuel cube isTarget = some (some (alg, e)))
    (steps : List (C × M)) (hw : IsWalk succ cube steps) (ht : isTarget (walkEnd cube steps) = true)
    (hnd : (cube :: steps.map (·.1)).Nodup) (B : ℚ)
    (hB : ∀ pre suf n x, steps = pre ++ suf → h n (walkEnd cube pre) = some x → pre.length + x ≤ B) : (alg.length : ℚ) ≤ B := by
  unfold searchV? at hs
  cases hx : h 0 cube with
  | none => rw [hx] at hs; cases hs
  | some x =>
    rw [hx] at hs
    exact searchLoopV_optimal hh hw ht hnd hB _ _ _ (by simpa using hB [] steps 0 x rfl hx) hs

/-- the integers, target 2, answers 0 or 1/2 in turn: whatever is returned has at most 2 steps (2.5 rounded down) -/
example (fuel : Nat) (alg : List Bool) (e : ℤ)
    (hs : searchV? exactOps (fun n (_ : ℤ) => some (if n % 2 = 0 then 0 else 1 / 2)) (fun c => [(c + 1, true), (c - 1, false)]) 3 fuel 0
      (fun c => c == 2) = some (some (alg, e))) : alg.length ≤ 2 := by
  have := C96_bounded _ _ _ (fun n c x hx => by cases hx; split <;> norm_num) 3 fuel 0 alg e hs [(1, true), (2, true)]
    (by simp [IsWalk]) (by decide) (by decide) (5 / 2) (fun pre suf n x e hx => by
      have : pre.length ≤ 2 := by have := congrArg List.length e; simp at this; omega
      have : (pre.length : ℚ) ≤ 2 := by exact_mod_cast this
      cases hx
      split <;> linarith)
  have : (alg.length : ℚ) < (3 : Nat) := by push_cast; linarith
  have := Nat.cast_lt.1 this
  omega

/-- **C96** If no answer is ever an overestimate (or negative), the returned alg is a shortest one, however often the heuristic changes
its mind. -/
theorem C96_optimal (h : Nat → C → Option ℚ) (succ : C → List (C × M)) (isTarget : C → Bool)
    (hh : ∀ n c x, h n c = some x → 0 ≤ x)
    (ha : ∀ n c x, h n c = some x → ∀ steps, IsWalk succ c steps → isTarget (walkEnd c steps) = true → x ≤ steps.length)
    (maxDepth : Int) (fuel : Nat) (cube : C) (alg : List M) (e : C)
    (hs : searchV? exactOps h succ maxDepth fuel cube isTarget = some (some (alg, e))) :
    ∀ steps, IsWalk succ cube steps → isTarget (walkEnd cube steps) = true → alg.length ≤ steps.length := by
  intro steps hw ht
  obtain ⟨st, h1, h2, h3, h4, -⟩ := exists_simple_walk steps.length cube steps le_rfl hw
  have ht' : isTarget (walkEnd cube st) = true := by rw [h2]; exact ht
  have := C96_bounded h succ isTarget hh maxDepth fuel cube alg e hs st h1 ht' h4 st.length (by
    rintro pre suf n x rfl hx
    have := ha n _ x hx suf (isWalk_append.1 h1).2 (by rw [← walkEnd_append]; exact ht')
    rw [List.length_append]
    push_cast
    linarith)
  have h5 : alg.length ≤ st.length := by exact_mod_cast this
  omega

/-- answers that say 0 or, on states that are not targets, 1: both hypotheses hold -/
example : (∀ n (c : ℤ) x, (fun n c => some (if n % 2 = 0 ∨ c = 2 then 0 else 1) : Nat → ℤ → Option ℚ) n c = some x → 0 ≤ x) ∧
    ∀ n (c : ℤ) x, (fun n c => some (if n % 2 = 0 ∨ c = 2 then 0 else 1) : Nat → ℤ → Option ℚ) n c = some x →
      ∀ steps : List (ℤ × Bool), IsWalk (fun c => [(c + 1, true), (c - 1, false)]) c steps → (walkEnd c steps == 2) = true →
        x ≤ steps.length := by
  refine ⟨fun n c x hx => ?_, fun n c x hx steps _ ht => ?_⟩
  · cases hx; split <;> norm_num
  · cases hx
    split
    · positivity
    · rename_i hn
      rcases steps with _ | ⟨s, l⟩
      · exact absurd (.inr (by simpa [walkEnd] using ht)) hn
      · simp

/-- **C96** Completeness: if some walk to a target (without repeated states) has all its estimates at most `B` at all moments, all
answers are multiples of `1/q`, and `B ≤ (first answer) + max_depth / q`, the search cannot come back empty-handed. -/
theorem C96_complete (h : Nat → C → Option ℚ) (succ : C → List (C × M)) (isTarget : C → Bool) (q : Nat) (hq : 0 < q)
    (hfr : ∀ n c x, h n c = some x → ∃ z : ℤ, (q : ℚ) * x = z) (maxDepth : Int) (fuel : Nat) (cube : C)
    (steps : List (C × M)) (hw : IsWalk succ cube steps) (ht : isTarget (walkEnd cube steps) = true)
    (hnd : (cube :: steps.map (·.1)).Nodup) (B : ℚ)
    (hB : ∀ pre suf n x, steps = pre ++ suf → h n (walkEnd cube pre) = some x → pre.length + x ≤ B)
    (x₀ : ℚ) (hx : h 0 cube = some x₀) (hlim : B ≤ x₀ + maxDepth / q) :
    searchV? exactOps h succ maxDepth fuel cube isTarget ≠ some none := by
  have h0 : x₀ ≤ B := by simpa using hB [] steps 0 x₀ rfl hx
  have hq' : (0 : ℚ) < q := by exact_mod_cast hq
  have hmd : (0 : ℚ) ≤ maxDepth := by
    by_contra hc
    push Not at hc
    have : (maxDepth : ℚ) / q < 0 := div_neg_of_neg_of_pos hc hq'
    linarith
  have hmd' : 0 ≤ maxDepth := by exact_mod_cast hmd
  unfold searchV?
  rw [hx]
  refine searchLoopV_found hq hfr hw ht hnd hB _ _ _ (hfr 0 cube x₀ hx) h0 ?_
  have e : (((maxDepth + 1).toNat : ℕ) : ℚ) = maxDepth + 1 := by
    have : (((maxDepth + 1).toNat : ℕ) : ℤ) = maxDepth + 1 := Int.toNat_of_nonneg (by omega)
    exact_mod_cast congrArg (Int.cast (R := ℚ)) this
  rw [e, add_div]
  have : (0 : ℚ) < 1 / q := by positivity
  linarith

/-- a walk of two steps to the target, with the bound 5/2 and the limit 5/2 -/
example (fuel : Nat) : searchV? exactOps (fun n (_ : ℤ) => some (if n % 2 = 0 then 0 else 1 / 2))
    (fun c => [(c + 1, true), (c - 1, false)]) 5 fuel 0 (fun c => c == 2) ≠ some none :=
  C96_complete _ _ _ 2 (by decide) (fun n c x hx => by cases hx; split <;> [exact ⟨0, by norm_num⟩; exact ⟨1, by norm_num⟩]) 5 fuel 0
    [(1, true), (2, true)] (by simp [IsWalk]) (by decide) (by decide) (5 / 2) (fun pre suf n x e hx => by
      have : pre.length ≤ 2 := by have := congrArg List.length e; simp at this; omega
      have : (pre.length : ℚ) ≤ 2 := by exact_mod_cast this
      cases hx
      split <;> linarith) 0 rfl (by norm_num)

end

/-- what `solve_with_heuristic` makes of the answer of the search -/
theorem solveV_returns {h : Nat → Cube3 → Option ℚ} {c : Cube3} {r : Option (List AxisMove × Cube3)}
    (hr : Returns (fun fuel => searchV? exactOps h Cube3.successors 200 fuel c Cube.isSolved) r) :
    Returns (fun fuel => Cube3.solveWithHeuristicV? exactOps h fuel c) (r.map (·.1)) := by
  obtain ⟨F, hF⟩ := hr
  refine ⟨F, fun fuel hle => ?_⟩
  have := hF fuel hle
  simp only at this
  show Cube3.solveWithHeuristicV? exactOps h fuel c = _
  unfold Cube3.solveWithHeuristicV? solveV?
  rw [this]
  rcases r with _ | ⟨alg, e⟩
  · rfl
  · have := (C96_sound exactOps h Cube3.successors cube3_successors_true 200 fuel c Cube.isSolved alg e this).2
    simp [this]

/-- the cubes that a search meets are valid -/
theorem walk_valid {c : Cube3} (hc : c.valid) {steps : List (Cube3 × AxisMove)} (hw : IsWalk Cube3.successors c steps) :
    (walkEnd c steps).valid := by
  rw [← cube3_alg_of_walk hw]
  exact C08_cubes.2.1 _ _ hc

section
variable {edges corners : List Nat} (he : buildTable? HalfEdgesMUS = some edges) (hk : buildTable? CornersMUS = some corners)

include he hk in
/-- an answer of `mus_with_fallback` is one of the fallback, or comes from a cache and is a natural number that is no overestimate -/
theorem fallback_answer {lock : Nat → Option Cache} (hl : ∀ n cache, lock n = some cache → GoodCache edges corners cache)
    {fallback : Cube3 → Option ℚ} {n : Nat} {c : Cube3} {x : ℚ} (hx : musWithFallbackAt? lock fallback n c = some x) :
    fallback c = some x ∨ (∃ k : Nat, x = k) ∧ ∀ alg : List AxisMove, movedAlg c alg = Cube3.SOLVED → x ≤ alg.length := by
  unfold musWithFallbackAt? musWithFallback? at hx
  cases hln : lock n with
  | none => rw [hln] at hx; exact Or.inl hx
  | some cache =>
    rw [hln] at hx
    simp only at hx
    cases hm : cache.get? c with
    | none => rw [hm] at hx; cases hx
    | some m =>
      rw [hm] at hx
      cases hx
      exact Or.inr ⟨⟨m, rfl⟩, fun alg h => goodCache_le he hk (hl n cache hln) hm alg h⟩

include he hk in
theorem fallback_isSome {lock : Nat → Option Cache} (hl : ∀ n cache, lock n = some cache → GoodCache edges corners cache)
    {fallback : Cube3 → Option ℚ} (hf : ∀ c : Cube3, c.valid → (fallback c).isSome) (n : Nat) {c : Cube3} (hc : c.valid) :
    (musWithFallbackAt? lock fallback n c).isSome := by
  unfold musWithFallbackAt? musWithFallback?
  cases hln : lock n with
  | none => exact hf c hc
  | some cache =>
    obtain ⟨m, -, hm, -⟩ := goodCache_get he hk (hl n cache hln) c hc
    simp only [hm]
    rfl

include he hk in
/-- **C96** `mus_with_fallback` while another thread initialises the cache, at any moment during the search. `lock n` is what the lock
holds when the heuristic is called for the `n`-th time: nothing or a cache obtained from the disk. With a fallback that answers valid
cubes with natural numbers and never overestimates (the constant 0, for example), solving a valid cube ends and does not panic; it
returns a shortest solution if the cube can be reached and `None` otherwise. -/
theorem C96_fallback (lock : Nat → Option Cache) (hl : ∀ n cache, lock n = some cache → GoodCache edges corners cache)
    (fallback : Cube3 → Option ℚ) (hf : ∀ c : Cube3, c.valid → (fallback c).isSome)
    (hz : ∀ c x, fallback c = some x → ∃ k : Nat, x = k)
    (ha : ∀ (c : Cube3) x, fallback c = some x → ∀ alg : List AxisMove, movedAlg c alg = Cube3.SOLVED → x ≤ alg.length)
    (c : Cube3) (hc : c.valid) :
    ∃ r, Returns (fun fuel => Cube3.solveWithHeuristicV? exactOps (musWithFallbackAt? lock fallback) fuel c) r ∧
      (r.isSome ↔ c.Reachable) ∧ ∀ alg, r = some alg → movedAlg c alg = Cube3.SOLVED ∧
        ∀ alg' : List AxisMove, movedAlg c alg' = Cube3.SOLVED → alg.length ≤ alg'.length := by
  have key : ∀ c : Cube3, Cube.isSolved c = true ↔ c = Cube3.SOLVED := fun c => decide_eq_true_iff
  set h := musWithFallbackAt? lock fallback with hh
  have nat : ∀ n c x, h n c = some x → ∃ k : Nat, x = k := fun n c x hx => by
    rcases fallback_answer he hk hl hx with e | e
    · exact hz c x e
    · exact e.1
  have pos : ∀ n c x, h n c = some x → 0 ≤ x := fun n c x hx => by
    obtain ⟨k, rfl⟩ := nat n c x hx
    exact Nat.cast_nonneg k
  have adm : ∀ n c x, h n c = some x → ∀ steps, IsWalk Cube3.successors c steps → Cube.isSolved (walkEnd c steps) = true →
      x ≤ steps.length := fun n c x hx steps hw ht => by
    have hend : movedAlg c (steps.map (·.2)) = Cube3.SOLVED := by rw [cube3_alg_of_walk hw]; exact (key _).1 ht
    have : x ≤ (steps.map (·.2)).length := by
      rcases fallback_answer he hk hl hx with e | e
      · exact ha c x e _ hend
      · exact e.2 _ hend
    rwa [List.length_map] at this
  obtain ⟨r, hr⟩ := C96_terminates_nonneg h Cube3.successors 200 c Cube.isSolved fun n steps hw => by
    obtain ⟨x, hx⟩ := Option.isSome_iff_exists.1 (fallback_isSome he hk hl hf n (walk_valid hc hw))
    exact ⟨x, hx, pos n _ x hx⟩
  have hsol := solveV_returns hr
  obtain ⟨F, hF⟩ := hr
  have hF := hF F le_rfl
  simp only at hF
  refine ⟨r.map (·.1), hsol, ⟨fun hs => ?_, fun hs => ?_⟩, fun alg e => ?_⟩
  · rcases r with _ | ⟨alg, e⟩
    · cases hs
    · obtain ⟨h1, h2⟩ := C96_sound exactOps h Cube3.successors cube3_successors_true 200 F c Cube.isSolved alg e hF
      exact (C15_reachable_iff c).1.2 ((C15_reachable_iff c).2.1.1 ⟨alg, by rw [h1]; exact (key _).1 h2⟩)
  · rcases r with _ | ⟨alg, e⟩
    · exfalso
      obtain ⟨w, hw1, hw2⟩ := lawful_solvable c ((C15_reachable_iff c).1.1 hs)
      obtain ⟨st0, h1, h2, h3⟩ := cube3_walk_of_alg c w
      obtain ⟨st, g1, g2, g3, g4, -⟩ := exists_simple_walk st0.length c st0 le_rfl h1
      have hlen : st0.length = w.length := by rw [← h2, List.length_map]
      have hend : Cube.isSolved (walkEnd c st) = true := by rw [g2, h3, hw2]; decide
      obtain ⟨x₀, hx₀⟩ := Option.isSome_iff_exists.1 (fallback_isSome he hk hl hf 0 hc)
      refine C96_complete h Cube3.successors Cube.isSolved 1 (by norm_num) (fun n c x hx => ?_) 200 F c st g1 hend g4 st.length
        ?_ x₀ hx₀ ?_ hF
      · obtain ⟨k, rfl⟩ := nat n c x hx
        exact ⟨k, by simp⟩
      · rintro pre suf n x rfl hx
        have := adm n _ x hx suf (isWalk_append.1 g1).2 (by rw [← walkEnd_append]; exact hend)
        rw [List.length_append]
        push_cast
        linarith
      · obtain ⟨k, rfl⟩ := nat 0 c x₀ hx₀
        have : (st.length : ℚ) ≤ 45 := by exact_mod_cast (g3.trans hlen.le).trans hw1
        have hk0 : (0 : ℚ) ≤ k := Nat.cast_nonneg k
        norm_num
        linarith
    · rfl
  · rcases r with _ | ⟨alg', e'⟩
    · cases e
    · cases e
      obtain ⟨h1, h2⟩ := C96_sound exactOps h Cube3.successors cube3_successors_true 200 F c Cube.isSolved _ e' hF
      refine ⟨by rw [h1]; exact (key _).1 h2, fun w hw => ?_⟩
      obtain ⟨st0, k1, k2, k3⟩ := cube3_walk_of_alg c w
      have := C96_optimal h Cube3.successors Cube.isSolved pos adm 200 F c _ e' hF st0 k1 (by rw [k3, hw]; decide)
      rwa [← List.length_map (f := (·.2)) (as := st0), k2] at this

include he hk in
/-- the cache appears at the third call, the fallback is the constant 0, the cube is the one after `R` -/
example : ∃ r, Returns (fun fuel => Cube3.solveWithHeuristicV? exactOps
      (musWithFallbackAt? (fun n => if n < 3 then none else some ⟨edges, corners⟩) fun _ => some 0) fuel
      (moved Cube3.SOLVED (⟨Face.R, .single⟩ : AxisMove))) r ∧ r.isSome := by
  obtain ⟨r, h1, h2, -⟩ := C96_fallback he hk (fun n => if n < 3 then none else some ⟨edges, corners⟩)
    (fun n cache h => by
      split at h
      · cases h
      · cases h
        exact ⟨⟨⟨le_rfl, fun _ _ h => .inr h⟩, rfl⟩, ⟨le_rfl, fun _ _ h => .inr h⟩, rfl⟩)
    (fun _ => some 0) (fun _ _ => rfl) (fun c x h => ⟨0, by cases h; simp⟩) (fun c x h alg _ => by cases h; positivity)
    (moved Cube3.SOLVED (⟨Face.R, .single⟩ : AxisMove)) (by unfold Cube3.valid; decide +kernel)
  exact ⟨r, h1, h2.2 ((C15_reachable_iff _).1.2 ((C15_reachable_iff _).2.1.1 ⟨[⟨Face.R, .inverse⟩], by decide +kernel⟩))⟩

include he hk in
/-- **C96** The same with the Manhattan heuristic as fallback, which may overestimate (C33): whatever is returned has at most two moves
more than a shortest solution, and every cube that can be solved in at most 23 moves is solved. -/
theorem C96_fallback_manhattan (lock : Nat → Option Cache) (hl : ∀ n cache, lock n = some cache → GoodCache edges corners cache)
    (c : Cube3) (hc : c.valid) :
    ∃ r, Returns (fun fuel => Cube3.solveWithHeuristicV? exactOps (musWithFallbackAt? lock (fun c => some (manhattan c))) fuel c) r ∧
      (r.isSome → c.Reachable) ∧
      (∀ alg, r = some alg → movedAlg c alg = Cube3.SOLVED ∧
        ∀ alg' : List AxisMove, movedAlg c alg' = Cube3.SOLVED →
          alg.length ≤ alg'.length + 2 ∧ 2 * alg.length ≤ 3 * alg'.length) ∧
      ∀ w : List AxisMove, movedAlg c w = Cube3.SOLVED → w.length ≤ 23 → r.isSome := by
  have key : ∀ c : Cube3, Cube.isSolved c = true ↔ c = Cube3.SOLVED := fun c => decide_eq_true_iff
  set h := musWithFallbackAt? lock (fun c => some (manhattan c)) with hh
  have hf : ∀ c : Cube3, c.valid → ((fun c => some (manhattan c)) c : Option ℚ).isSome := fun _ _ => rfl
  have pos : ∀ n c x, h n c = some x → 0 ≤ x := fun n c x hx => by
    rcases fallback_answer he hk hl hx with e | ⟨⟨k, rfl⟩, -⟩
    · cases e; exact (manhattan_range c).1
    · exact Nat.cast_nonneg k
  have frac : ∀ n c x, h n c = some x → ∃ z : ℤ, ((8 : Nat) : ℚ) * x = z := fun n c x hx => by
    rcases fallback_answer he hk hl hx with e | ⟨⟨k, rfl⟩, -⟩
    · cases e; simpa using (manhattan_range c).2.2
    · exact ⟨8 * k, by push_cast; ring⟩
  -- along a shortest way
  have along : ∀ w : List AxisMove, movedAlg c w = Cube3.SOLVED → ∃ st, IsWalk Cube3.successors c st ∧
      Cube.isSolved (walkEnd c st) = true ∧ (c :: st.map (·.1)).Nodup ∧
      ∀ pre suf n x, st = pre ++ suf → h n (walkEnd c pre) = some x →
        pre.length + x ≤ w.length + 2 ∧ pre.length + x ≤ 3 / 2 * w.length := by
    intro w hw
    obtain ⟨st0, h1, h2, h3⟩ := cube3_walk_of_alg c w
    obtain ⟨st, g1, g2, g3, g4, -⟩ := exists_simple_walk st0.length c st0 le_rfl h1
    have hlen : st0.length = w.length := by rw [← h2, List.length_map]
    have hend : walkEnd c st = Cube3.SOLVED := by rw [g2, h3, hw]
    refine ⟨st, g1, by rw [hend]; decide, g4, ?_⟩
    rintro pre suf n x rfl hx
    have hsuf : movedAlg (walkEnd c pre) (suf.map (·.2)) = Cube3.SOLVED := by
      rw [cube3_alg_of_walk (isWalk_append.1 g1).2, ← walkEnd_append]; exact hend
    have k5 : ((pre.length + suf.length : ℕ) : ℚ) ≤ w.length := by
      rw [List.length_append] at g3
      exact_mod_cast g3.trans hlen.le
    push_cast at k5
    have k6 : (0 : ℚ) ≤ pre.length := Nat.cast_nonneg _
    have k7 : (0 : ℚ) ≤ suf.length := Nat.cast_nonneg _
    rcases fallback_answer he hk hl hx with e | ⟨-, e⟩
    · cases e
      have k3 := (C33_partial (walkEnd c pre) (suf.map (·.2)) hsuf).2.1
      have k4 := (manhattan_range (walkEnd c pre)).2.1
      rw [List.length_map] at k3
      constructor <;> linarith
    · have := e _ hsuf
      rw [List.length_map] at this
      constructor <;> linarith
  obtain ⟨r, hr⟩ := C96_terminates_nonneg h Cube3.successors 200 c Cube.isSolved fun n steps hw => by
    obtain ⟨x, hx⟩ := Option.isSome_iff_exists.1 (fallback_isSome he hk hl hf n (walk_valid hc hw))
    exact ⟨x, hx, pos n _ x hx⟩
  have hsol := solveV_returns hr
  obtain ⟨F, hF⟩ := hr
  have hF := hF F le_rfl
  simp only at hF
  refine ⟨r.map (·.1), hsol, fun hs => ?_, fun alg e => ?_, fun w hw hle => ?_⟩
  · rcases r with _ | ⟨alg, e⟩
    · cases hs
    · obtain ⟨h1, h2⟩ := C96_sound exactOps h Cube3.successors cube3_successors_true 200 F c Cube.isSolved alg e hF
      exact (C15_reachable_iff c).1.2 ((C15_reachable_iff c).2.1.1 ⟨alg, by rw [h1]; exact (key _).1 h2⟩)
  · rcases r with _ | ⟨alg', e'⟩
    · cases e
    · cases e
      obtain ⟨h1, h2⟩ := C96_sound exactOps h Cube3.successors cube3_successors_true 200 F c Cube.isSolved _ e' hF
      refine ⟨by rw [h1]; exact (key _).1 h2, fun w hw => ?_⟩
      obtain ⟨st, g1, g2, g3, g4⟩ := along w hw
      have b1 := C96_bounded h Cube3.successors Cube.isSolved pos 200 F c _ e' hF st g1 g2 g3 (w.length + 2)
        (fun pre suf n x e hx => (g4 pre suf n x e hx).1)
      have b2 := C96_bounded h Cube3.successors Cube.isSolved pos 200 F c _ e' hF st g1 g2 g3 (3 / 2 * w.length)
        (fun pre suf n x e hx => (g4 pre suf n x e hx).2)
      constructor
      · exact_mod_cast b1
      · have : (2 : ℚ) * alg'.length ≤ 3 * w.length := by linarith
        exact_mod_cast this
  · rcases r with _ | ⟨alg, e⟩
    · exfalso
      obtain ⟨st, g1, g2, g3, g4⟩ := along w hw
      obtain ⟨x₀, hx₀⟩ := Option.isSome_iff_exists.1 (fallback_isSome he hk hl hf 0 hc)
      refine C96_complete h Cube3.successors Cube.isSolved 8 (by norm_num) frac 200 F c st g1 g2 g3 (w.length + 2)
        (fun pre suf n x e hx => (g4 pre suf n x e hx).1) x₀ hx₀ ?_ hF
      have h0 := pos 0 c x₀ hx₀
      have h1 : (w.length : ℚ) ≤ 23 := by exact_mod_cast hle
      norm_num
      linarith
    · rfl

end

/-- a heuristic that changes its mind at every call (0, and 1 for cubes that are not solved), and the search with it -/
example : Cube3.solveWithHeuristicV? exactOps (fun n c => some (if n % 2 = 0 then 0 else if Cube.isSolved c then 0 else 1)) 4
    (movedAlg Cube3.SOLVED [(⟨Face.D, .double⟩ : AxisMove)]) = some (some [⟨Face.D, .double⟩]) := by decide +kernel

/-- the hypotheses of `C96_fallback`: a lock that is filled between the third and the fourth call, the fallback 0 -/
example {edges corners : List Nat} :
    (∀ n cache, (fun n => if n < 3 then none else some (⟨edges, corners⟩ : Cache) : Nat → Option Cache) n = some cache →
      GoodCache edges corners cache) ∧
    (∀ c x, (fun _ => some 0 : Cube3 → Option ℚ) c = some x → ∃ k : Nat, x = k) := by
  have hself : ∀ t : List Nat, Patchy t t := fun t => ⟨Nat.le_refl _, fun i v h => Or.inr h⟩
  refine ⟨fun n cache h => ?_, fun c x h => ⟨0, by cases h; rfl⟩⟩
  simp only at h
  split at h
  · cases h
  · cases h
    exact ⟨⟨hself _, rfl⟩, hself _, rfl⟩

end Barbarosa
