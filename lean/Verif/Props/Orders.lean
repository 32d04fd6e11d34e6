import Verif.Props.Symmetry
import Mathlib.GroupTheory.Perm.Cycle.Type

/-!
# C101: how often an alg has to be repeated

No alg of the 3x3 has to be repeated more than 1260 times until everything is back, and `R U2 D' B D'` has to be repeated
that often. For the 2x2 of this crate, which does not turn as a whole, the number is 45. The same number of repetitions for
all algs is 55440.
-/

namespace Barbarosa

open Equiv (Perm)

/-! ## Orders and signs of permutations -/

/-- the orders, with the signs, of the permutations of at most `n` things, and maybe some others -/
def orderTable : Nat → Nat → List (Nat × Bool)
  | 0, _ => [(1, true)]
  | fuel + 1, n => ((1, true) :: ((List.range (n + 1)).filter (2 ≤ ·)).flatMap fun a =>
      (orderTable fuel (n - a)).map fun x => (Nat.lcm a x.1, x.2 == (a % 2 == 1))).dedup

theorem orderTable_mem (s : Multiset ℕ) : ∀ (fuel n : Nat), (∀ a ∈ s, 2 ≤ a) → s.sum ≤ n → s.card ≤ fuel →
    (s.lcm, decide (Even (s.sum + s.card))) ∈ orderTable fuel n := by
  induction s using Multiset.induction_on with
  | empty =>
    intro fuel n _ _ _
    rcases fuel with _ | fuel <;> simp [orderTable]
  | cons a s ih =>
    intro fuel n h2 hn hf
    rcases fuel with _ | fuel
    · simp at hf
    · rw [orderTable, List.mem_dedup]
      refine List.mem_cons_of_mem _ (List.mem_flatMap.2 ⟨a, ?_, List.mem_map.2 ⟨_, ih fuel (n - a) (fun b hb => h2 b (by simp [hb])) ?_ ?_, ?_⟩⟩)
      · simp only [List.mem_filter, List.mem_range, decide_eq_true_eq]
        rw [Multiset.sum_cons] at hn
        exact ⟨by omega, h2 a (by simp)⟩
      · rw [Multiset.sum_cons] at hn; omega
      · rw [Multiset.card_cons] at hf; omega
      · refine Prod.ext_iff.2 ⟨by simp only [Multiset.lcm_cons]; rfl, ?_⟩
        simp only [Multiset.sum_cons, Multiset.card_cons]
        rw [Bool.eq_iff_iff]
        simp only [beq_iff_eq, decide_eq_true_eq, Nat.even_iff]
        rcases Nat.mod_two_eq_zero_or_one a with h | h <;> rcases Nat.mod_two_eq_zero_or_one (s.sum + s.card) with h' | h' <;>
          simp [h, h'] <;> omega

theorem order_sign_mem {n : Nat} (σ : Perm (Fin n)) : (orderOf σ, decide (Perm.sign σ = 1)) ∈ orderTable n n := by
  have hsum : σ.cycleType.sum ≤ n := by
    rw [Perm.sum_cycleType]; exact (Finset.card_le_univ _).trans (by simp)
  have h2 : ∀ a ∈ σ.cycleType, 2 ≤ a := fun a ha => Perm.two_le_of_mem_cycleType ha
  have hcard : σ.cycleType.card ≤ n := by
    refine le_trans ?_ hsum
    have := Multiset.card_nsmul_le_sum (s := σ.cycleType) (a := 1) (fun a ha => (h2 a ha).trans' (by omega))
    simpa using this
  have := orderTable_mem σ.cycleType n n h2 hsum hcard
  rw [Perm.lcm_cycleType] at this
  convert this using 2
  rw [Perm.sign_of_cycleType, decide_eq_decide]
  constructor
  · intro h
    by_contra hne
    rw [Nat.not_even_iff_odd] at hne
    rw [hne.neg_one_pow] at h
    exact absurd h (by decide)
  · exact fun h => h.neg_one_pow

/-- the corners of the 3x3 are 8, the edges 12: the largest common order with equal signs, flips and twists counted -/
theorem orders_1260 : ∀ x ∈ orderTable 8 8, ∀ y ∈ orderTable 12 12, x.2 = y.2 → Nat.lcm (3 * x.1) (2 * y.1) ≤ 1260 := by
  decide +kernel

theorem orders_45 : ∀ x ∈ orderTable 8 8, 3 * x.1 ≤ 45 := by decide +kernel

theorem orders_55440 : (∀ x ∈ orderTable 8 8, 3 * x.1 ∣ 55440 ∧ 3 * x.1 ∣ 2520) ∧ ∀ y ∈ orderTable 12 12, 2 * y.1 ∣ 55440 := by decide +kernel

/-! ## Repeating -/

/-- where a piece is after repeating, if `F` moves the pieces by the permutation `τ` of the places -/
theorem iterate_home {P : Type} {n : Nat} [PieceSetDescriptor P n] [LawfulDescriptor P n] [Turnable P] (F : P → P)
    (hF : ∀ (k : Nat) (p : P), F (Turnable.turn^[k] p) = Turnable.turn^[k] (F p))
    (hP : ∀ p q : P, Piece.position p = Piece.position q → ∃ k < 3, p = Turnable.turn^[k] q)
    (τ : Perm (Fin n)) (hτ : PieceSet.Arranged (fun i => F (PieceSet.SOLVED P i)) τ) (t : Nat)
    (ht : ∀ (k : Nat) (p : P), Turnable.turn^[t * k] p = p) (i : Fin n) :
    F^[t * orderOf τ] (PieceSet.SOLVED P i) = PieceSet.SOLVED P i := by
  have hsol : ∀ i, Piece.position (PieceSet.SOLVED P i) = PieceSetDescriptor.REFERENCE_POSITIONS (P := P) i :=
    LawfulDescriptor.solved_pos
  have step : ∀ (m : Nat) (i : Fin n), ∃ k, F^[m] (PieceSet.SOLVED P i) = Turnable.turn^[k] (PieceSet.SOLVED P ((τ ^ m) i)) := by
    intro m i
    induction m with
    | zero => exact ⟨0, rfl⟩
    | succ m ih =>
      obtain ⟨k, hk⟩ := ih
      obtain ⟨l, -, hl⟩ := hP (F (PieceSet.SOLVED P ((τ ^ m) i))) (PieceSet.SOLVED P (τ ((τ ^ m) i)))
        ((hτ ((τ ^ m) i)).trans (hsol _).symm)
      refine ⟨k + l, ?_⟩
      rw [Function.iterate_succ_apply', hk, hF, hl, pow_succ', Perm.mul_apply, Function.iterate_add_apply]
  have hFi : ∀ (m k : Nat) (p : P), F^[m] (Turnable.turn^[k] p) = Turnable.turn^[k] (F^[m] p) := by
    intro m k p
    induction m with
    | zero => rfl
    | succ m ih => rw [Function.iterate_succ_apply', ih, hF, Function.iterate_succ_apply']
  obtain ⟨k, hk⟩ := step (orderOf τ) i
  rw [pow_orderOf_eq_one, Perm.one_apply] at hk
  have many : ∀ j : Nat, F^[j * orderOf τ] (PieceSet.SOLVED P i) = Turnable.turn^[j * k] (PieceSet.SOLVED P i) := by
    intro j
    induction j with
    | zero => simp
    | succ j ih =>
      rw [Nat.succ_mul, Function.iterate_add_apply, hk, hFi, ih, ← Function.iterate_add_apply, Nat.succ_mul, Nat.add_comm k]
  rw [many, ht]

theorem corner_turn_three (k : Nat) (p : Corner) : Turnable.turn^[3 * k] p = p := by
  have h : (Turnable.turn : Corner → Corner)^[3] = id := funext (by decide +kernel)
  rw [Function.iterate_mul, h, Function.iterate_id]; rfl

theorem edge_turn_two (k : Nat) (p : Edge) : Turnable.turn^[2 * k] p = p := by
  have h : (Turnable.turn : Edge → Edge)^[2] = id := funext (by decide +kernel)
  rw [Function.iterate_mul, h, Function.iterate_id]; rfl

theorem iterate_of_dvd {T : Type} {F : T → T} {x : T} {m n : Nat} (h : F^[m] x = x) (hd : m ∣ n) : F^[n] x = x := by
  obtain ⟨k, rfl⟩ := hd
  exact (Function.IsPeriodicPt.mul_const (show Function.IsPeriodicPt F m x from h) k)

/-- the orders of the permutations of corners and edges bound the order of the alg -/
theorem alg_order (a : List AxisMove) : ∃ x ∈ orderTable 8 8, ∃ y ∈ orderTable 12 12, x.2 = y.2 ∧
    (∀ n, 3 * x.1 ∣ n → 2 * y.1 ∣ n → movedAlg Cube3.SOLVED (List.replicate n a).flatten = Cube3.SOLVED) ∧
    ∀ n, 3 * x.1 ∣ n → movedAlg (Cube.SOLVED : Cube2) (List.replicate n a).flatten = Cube.SOLVED := by
  obtain ⟨σ, τ, hσ, hτ, hs⟩ := ((C15_reachable_iff (movedAlg Cube3.SOLVED a)).1.1 ⟨a, rfl⟩).parity
  refine ⟨_, order_sign_mem τ, _, order_sign_mem σ, by simp only [hs], ?_⟩
  have hτ' : PieceSet.Arranged (fun i => movedAlg (PieceSet.SOLVED Corner i) a) τ := fun i => by
    rw [← hτ i, cube3_corners_alg]; rfl
  have hσ' : PieceSet.Arranged (fun i => movedAlg (PieceSet.SOLVED Edge i) a) σ := fun i => by
    rw [← hσ i, cube3_edges_alg]; rfl
  have hc := iterate_home (P := Corner) (movedAlg · a) (blind_alg corner_blind a) corner_turns τ hτ' 3 corner_turn_three
  have he := iterate_home (P := Edge) (movedAlg · a) (blind_alg edge_blind a) edge_turns σ hσ' 2 edge_turn_two
  constructor
  · intro n h1 h2
    refine Cube3.ext (funext fun i => ?_) (funext fun i => ?_)
    · rw [cube3_edges_alg, movedAlg_repeat]; exact iterate_of_dvd (he i) h2
    · rw [cube3_corners_alg, movedAlg_repeat]; exact iterate_of_dvd (hc i) h1
  · intro n h1
    refine (cube2_corners_alg Cube3.SOLVED _).trans (Cube2.ext (funext fun i => ?_))
    show (movedAlg Cube3.SOLVED _).corners i = _
    rw [cube3_corners_alg, movedAlg_repeat]; exact iterate_of_dvd (hc i) h1

theorem dvd_of_iterate {T : Type} {F : T → T} {x : T} {d n : Nat} (h : F^[d] x = x ∧ 0 < d ∧ ∀ k < d, 0 < k → F^[k] x ≠ x)
    (hn : F^[n] x = x) : d ∣ n := by
  obtain ⟨h1, h2, h3⟩ := h
  have : F^[n % d] x = x := by
    have hm := (show Function.IsPeriodicPt F d x from h1).mod (show Function.IsPeriodicPt F n x from hn)
    have := (show Function.IsPeriodicPt F n x from hn).mod (show Function.IsPeriodicPt F d x from h1)
    exact this
  by_contra hd
  exact h3 (n % d) (Nat.mod_lt _ h2) (Nat.pos_of_ne_zero fun e => hd (Nat.dvd_of_mod_eq_zero e)) this

/-! ## C101 -/

/-- **C101** Every alg, repeated a certain number of times which is at most 1260, leaves every state of the 3x3 as it is; on
the 2x2 at most 45 times are enough. -/
theorem C101_at_most (a : List AxisMove) :
    (∃ n, 0 < n ∧ n ≤ 1260 ∧ ∀ c : Cube3, movedAlg c (List.replicate n a).flatten = c) ∧
    ∃ n, 0 < n ∧ n ≤ 45 ∧ ∀ c : Cube2, movedAlg c (List.replicate n a).flatten = c := by
  obtain ⟨x, hx, y, hy, hxy, h3, h2⟩ := alg_order a
  have px : ∀ x ∈ orderTable 8 8, 0 < x.1 := by decide +kernel
  have py : ∀ x ∈ orderTable 12 12, 0 < x.1 := by decide +kernel
  refine ⟨⟨Nat.lcm (3 * x.1) (2 * y.1), Nat.lcm_pos (by have := px x hx; omega) (by have := py y hy; omega),
    orders_1260 x hx y hy hxy, ?_⟩, ⟨3 * x.1, by have := px x hx; omega, orders_45 x hx, ?_⟩⟩
  · exact ((C84_repeat ⟨Cube3, AxisMove⟩ (by simp [cubeSystems]) a).2 _ Cube3.SOLVED C08_solved_valid.2.1).1
      (h3 _ (Nat.dvd_lcm_left _ _) (Nat.dvd_lcm_right _ _))
  · exact ((C84_repeat ⟨Cube2, AxisMove⟩ (by simp [cubeSystems]) a).2 _ (Cube.SOLVED : Cube2) C08_solved_valid.1).1 (h2 _ (dvd_refl _))

/-- the T permutation -/
example : ∃ n, 0 < n ∧ n ≤ 1260 ∧ ∀ c : Cube3, movedAlg c (List.replicate n Perms.T).flatten = c := (C101_at_most Perms.T).1

/-- `R U2 D' B D'` -/
def longOrder : List AxisMove := [⟨.R, .single⟩, ⟨.U, .double⟩, ⟨.D, .inverse⟩, ⟨.B, .single⟩, ⟨.D, .inverse⟩]

/-- **C101** Both numbers are reached: `R U2 D' B D'` brings the 3x3 back exactly after every 1260 repetitions, the 2x2 after
every 45. -/
theorem C101_reached (n : Nat) :
    (movedAlg Cube3.SOLVED (List.replicate n longOrder).flatten = Cube3.SOLVED ↔ 1260 ∣ n) ∧
    (movedAlg (Cube.SOLVED : Cube2) (List.replicate n longOrder).flatten = Cube.SOLVED ↔ 45 ∣ n) := by
  have hc : ∀ i, ∃ d < 16, (movedAlg · longOrder)^[d] (PieceSet.SOLVED Corner i) = PieceSet.SOLVED Corner i ∧ d ∣ 45 ∧ 0 < d := by
    decide +kernel
  have he : ∀ i, ∃ d < 29, (movedAlg · longOrder)^[d] (PieceSet.SOLVED Edge i) = PieceSet.SOLVED Edge i ∧ d ∣ 1260 ∧ 0 < d := by
    decide +kernel
  have c9 : ∃ i, (movedAlg · longOrder)^[9] (PieceSet.SOLVED Corner i) = PieceSet.SOLVED Corner i ∧ 0 < 9 ∧
      ∀ k < 9, 0 < k → (movedAlg · longOrder)^[k] (PieceSet.SOLVED Corner i) ≠ PieceSet.SOLVED Corner i := by decide +kernel
  have c5 : ∃ i, (movedAlg · longOrder)^[15] (PieceSet.SOLVED Corner i) = PieceSet.SOLVED Corner i ∧ 0 < 15 ∧
      ∀ k < 15, 0 < k → (movedAlg · longOrder)^[k] (PieceSet.SOLVED Corner i) ≠ PieceSet.SOLVED Corner i := by decide +kernel
  have e4 : ∃ i, (movedAlg · longOrder)^[4] (PieceSet.SOLVED Edge i) = PieceSet.SOLVED Edge i ∧ 0 < 4 ∧
      ∀ k < 4, 0 < k → (movedAlg · longOrder)^[k] (PieceSet.SOLVED Edge i) ≠ PieceSet.SOLVED Edge i := by decide +kernel
  have e7 : ∃ i, (movedAlg · longOrder)^[14] (PieceSet.SOLVED Edge i) = PieceSet.SOLVED Edge i ∧ 0 < 14 ∧
      ∀ k < 14, 0 < k → (movedAlg · longOrder)^[k] (PieceSet.SOLVED Edge i) ≠ PieceSet.SOLVED Edge i := by decide +kernel
  have corners : (∀ i, (movedAlg · longOrder)^[n] (PieceSet.SOLVED Corner i) = PieceSet.SOLVED Corner i) ↔ 45 ∣ n := by
    constructor
    · intro h
      obtain ⟨i, hi⟩ := c9
      obtain ⟨j, hj⟩ := c5
      have h9 := dvd_of_iterate hi (h i)
      have h15 := dvd_of_iterate hj (h j)
      omega
    · intro h i
      obtain ⟨d, -, h1, h2, -⟩ := hc i
      exact iterate_of_dvd h1 (h2.trans h)
  constructor
  · have key : movedAlg Cube3.SOLVED (List.replicate n longOrder).flatten = Cube3.SOLVED ↔
        (∀ i, (movedAlg · longOrder)^[n] (PieceSet.SOLVED Edge i) = PieceSet.SOLVED Edge i) ∧
        ∀ i, (movedAlg · longOrder)^[n] (PieceSet.SOLVED Corner i) = PieceSet.SOLVED Corner i := by
      rw [Cube3.ext_iff, funext_iff, funext_iff]
      simp only [cube3_edges_alg, cube3_corners_alg]
      simp only [movedAlg_repeat]
      exact Iff.rfl
    rw [key, corners]
    constructor
    · rintro ⟨h1, h2⟩
      obtain ⟨i, hi⟩ := e4
      obtain ⟨j, hj⟩ := e7
      have h4 := dvd_of_iterate hi (h1 i)
      have h7 := dvd_of_iterate hj (h1 j)
      omega
    · intro h
      refine ⟨fun i => ?_, by omega⟩
      obtain ⟨d, -, h1, h2, -⟩ := he i
      exact iterate_of_dvd h1 (h2.trans h)
  · rw [← corners]
    refine Iff.trans (Eq.congr_left (cube2_corners_alg Cube3.SOLVED _)) ?_
    rw [Cube2.ext_iff, funext_iff]
    simp only [cube3_corners_alg]
    simp only [movedAlg_repeat]
    exact Iff.rfl

/-- after 630 times the 2x2 is back, the 3x3 is not -/
example : movedAlg (Cube.SOLVED : Cube2) (List.replicate 630 longOrder).flatten = Cube.SOLVED ∧
    movedAlg Cube3.SOLVED (List.replicate 630 longOrder).flatten ≠ Cube3.SOLVED :=
  ⟨(C101_reached 630).2.2 (by decide), fun h => absurd ((C101_reached 630).1.1 h) (by decide)⟩

/-- **C101** 55440 repetitions of any alg leave every state of the 3x3 as it is, 2520 every state of the 2x2; and 55440 is the
least number that does so for all algs: every other one is a multiple. -/
theorem C101_all_at_once :
    (∀ (a : List AxisMove) (c : Cube3), movedAlg c (List.replicate 55440 a).flatten = c) ∧
    (∀ (a : List AxisMove) (c : Cube2), movedAlg c (List.replicate 2520 a).flatten = c) ∧
    ∀ n, (∀ a : List AxisMove, movedAlg Cube3.SOLVED (List.replicate n a).flatten = Cube3.SOLVED) → 55440 ∣ n := by
  refine ⟨fun a => ?_, fun a => ?_, fun n h => ?_⟩
  · obtain ⟨x, hx, y, hy, -, h3, -⟩ := alg_order a
    exact ((C84_repeat ⟨Cube3, AxisMove⟩ (by simp [cubeSystems]) a).2 _ Cube3.SOLVED C08_solved_valid.2.1).1
      (h3 _ (orders_55440.1 x hx).1 (orders_55440.2 y hy))
  · obtain ⟨x, hx, y, hy, -, -, h2⟩ := alg_order a
    exact ((C84_repeat ⟨Cube2, AxisMove⟩ (by simp [cubeSystems]) a).2 _ (Cube.SOLVED : Cube2) C08_solved_valid.1).1
      (h2 _ (orders_55440.1 x hx).2)
  · have he : ∀ (a : List AxisMove) (i : Fin 12), (movedAlg · a)^[n] (PieceSet.SOLVED Edge i) = PieceSet.SOLVED Edge i := by
      intro a i
      have := congrFun (congrArg Cube3.edges (h a)) i
      rwa [cube3_edges_alg, movedAlg_repeat] at this
    have hc : ∀ (a : List AxisMove) (i : Fin 8), (movedAlg · a)^[n] (PieceSet.SOLVED Corner i) = PieceSet.SOLVED Corner i := by
      intro a i
      have := congrFun (congrArg Cube3.corners (h a)) i
      rwa [cube3_corners_alg, movedAlg_repeat] at this
    -- `U R B`: an edge comes back after 16 times
    obtain ⟨i, hi⟩ : ∃ i, (movedAlg · [(⟨.U, .single⟩ : AxisMove), ⟨.R, .single⟩, ⟨.B, .single⟩])^[16] (PieceSet.SOLVED Edge i) =
        PieceSet.SOLVED Edge i ∧ 0 < 16 ∧ ∀ k < 16, 0 < k →
        (movedAlg · [(⟨.U, .single⟩ : AxisMove), ⟨.R, .single⟩, ⟨.B, .single⟩])^[k] (PieceSet.SOLVED Edge i) ≠ PieceSet.SOLVED Edge i := by
      decide +kernel
    -- `U R'`: a corner after 9 times, an edge after 7 times; `U R`: a corner after 15 times
    obtain ⟨j, hj⟩ : ∃ i, (movedAlg · [(⟨.U, .single⟩ : AxisMove), ⟨.R, .inverse⟩])^[9] (PieceSet.SOLVED Corner i) =
        PieceSet.SOLVED Corner i ∧ 0 < 9 ∧ ∀ k < 9, 0 < k →
        (movedAlg · [(⟨.U, .single⟩ : AxisMove), ⟨.R, .inverse⟩])^[k] (PieceSet.SOLVED Corner i) ≠ PieceSet.SOLVED Corner i := by
      decide +kernel
    obtain ⟨k, hk⟩ : ∃ i, (movedAlg · [(⟨.U, .single⟩ : AxisMove), ⟨.R, .inverse⟩])^[7] (PieceSet.SOLVED Edge i) =
        PieceSet.SOLVED Edge i ∧ 0 < 7 ∧ ∀ k < 7, 0 < k →
        (movedAlg · [(⟨.U, .single⟩ : AxisMove), ⟨.R, .inverse⟩])^[k] (PieceSet.SOLVED Edge i) ≠ PieceSet.SOLVED Edge i := by
      decide +kernel
    obtain ⟨l, hl⟩ : ∃ i, (movedAlg · [(⟨.U, .single⟩ : AxisMove), ⟨.R, .single⟩])^[15] (PieceSet.SOLVED Corner i) =
        PieceSet.SOLVED Corner i ∧ 0 < 15 ∧ ∀ k < 15, 0 < k →
        (movedAlg · [(⟨.U, .single⟩ : AxisMove), ⟨.R, .single⟩])^[k] (PieceSet.SOLVED Corner i) ≠ PieceSet.SOLVED Corner i := by
      decide +kernel
    -- `U R F2 D2`: an edge after 11 times
    obtain ⟨o, ho⟩ : ∃ i, (movedAlg · [(⟨.U, .single⟩ : AxisMove), ⟨.R, .single⟩, ⟨.F, .double⟩, ⟨.D, .double⟩])^[11]
        (PieceSet.SOLVED Edge i) = PieceSet.SOLVED Edge i ∧ 0 < 11 ∧ ∀ k < 11, 0 < k →
        (movedAlg · [(⟨.U, .single⟩ : AxisMove), ⟨.R, .single⟩, ⟨.F, .double⟩, ⟨.D, .double⟩])^[k] (PieceSet.SOLVED Edge i) ≠
          PieceSet.SOLVED Edge i := by
      decide +kernel
    have d1 := dvd_of_iterate hi (he _ i)
    have d2 := dvd_of_iterate hj (hc _ j)
    have d3 := dvd_of_iterate hk (he _ k)
    have d4 := dvd_of_iterate hl (hc _ l)
    have d5 := dvd_of_iterate ho (he _ o)
    have := Nat.lcm_dvd d1 (Nat.lcm_dvd d2 (Nat.lcm_dvd d3 (Nat.lcm_dvd d4 d5)))
    exact (show 55440 ∣ Nat.lcm 16 (Nat.lcm 9 (Nat.lcm 7 (Nat.lcm 15 11))) by decide).trans this

/-- the hypothesis of the last part is met by 55440 itself, and 1260 does not meet it -/
example : (∀ a : List AxisMove, movedAlg Cube3.SOLVED (List.replicate 55440 a).flatten = Cube3.SOLVED) ∧
    ¬ ∀ a : List AxisMove, movedAlg Cube3.SOLVED (List.replicate 1260 a).flatten = Cube3.SOLVED :=
  ⟨fun a => C101_all_at_once.1 a Cube3.SOLVED, fun h => absurd (C101_all_at_once.2.2 1260 h) (by decide)⟩

end Barbarosa
