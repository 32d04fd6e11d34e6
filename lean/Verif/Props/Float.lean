import Verif.Lemmas.FloatCode
import Verif.Props.Changing

/-!
# C98: the floating point arithmetic of the machine

The search, the heuristics and the pictures are computed with `f32`. Elsewhere they are modelled with exact arithmetic; here it is
shown that the arithmetic of IEEE 754 gives the same results.
-/

namespace Barbarosa

open Fl

/-! ## The arithmetic is that of the standard -/

theorem representable_neg {fmt : FloatFormat} {q : ℚ} : Representable fmt (-q) ↔ Representable fmt q := by
  have : ∀ q, Representable fmt q → Representable fmt (-q) := by
    rintro _ ⟨z, k, rfl, h1, h2, h3⟩
    exact ⟨-z, k, by push_cast; ring, by rwa [abs_neg], h2, h3⟩
  exact ⟨fun h => by simpa using this _ h, this q⟩

/-- **C98** Rounding does what IEEE 754 asks for: a finite result has a place in the format, no number with a place in the format is
nearer, and it has the sign of the exact result. -/
theorem C98_rounding (fmt : FloatFormat) (hp : 1 ≤ fmt.prec) (he : fmt.emin ≤ fmt.emax) (zs : Bool) (q : ℚ)
    (hfin : (round fmt zs q).isFinite) :
    Representable fmt (round fmt zs q).val ∧ (∀ r, Representable fmt r → |q - (round fmt zs q).val| ≤ |q - r|) ∧
      0 ≤ q * (round fmt zs q).val := by
  by_cases h0 : q = 0
  · subst h0
    have e : round fmt zs 0 = .fin zs 0 := by
      have h : roundMag fmt |(0 : ℚ)| = 0 := by unfold Fl.roundMag; simp [show roundEven 0 = 0 by decide +kernel]
      unfold Fl.round
      simp only [h, if_true]
      rw [if_pos (by positivity)]
    rw [e]
    have ev : (fin zs 0 : Fl fmt).val = 0 := by unfold Fl.val; cases zs <;> simp
    rw [ev]
    refine ⟨⟨0, fmt.emin - (fmt.prec - 1), by simp, by positivity, le_rfl, by omega⟩, fun r _ => by simp, by simp⟩
  · have hq : 0 < |q| := abs_pos.2 h0
    by_cases hlt : roundMag fmt |q| < 2 ^ (fmt.emax + 1)
    · have e : round fmt zs q = .fin (decide (q < 0)) (roundMag fmt |q|) := by
        unfold Fl.round; simp only [if_neg h0, if_pos hlt]
      have hr := roundMag_representable hp he hq hlt
      have hn := fun r => roundMag_nearest hp hq (fmt := fmt) (r := r)
      have hm := roundMag_nonneg fmt hq.le
      rw [e]
      rcases lt_or_gt_of_ne h0 with h | h
      · have ev : (fin (decide (q < 0)) (roundMag fmt |q|) : Fl fmt).val = -roundMag fmt |q| := by simp [Fl.val, h]
        rw [ev]
        refine ⟨representable_neg.2 hr, fun r hr' => ?_, by nlinarith⟩
        have := hn (-r) (representable_neg.2 hr')
        rw [abs_of_neg h] at this ⊢
        rw [show q - -roundMag fmt (-q) = -(-q - roundMag fmt (-q)) by ring, abs_neg,
          show q - r = -(-q - -r) by ring, abs_neg]
        exact this
      · have ev : (fin (decide (q < 0)) (roundMag fmt |q|) : Fl fmt).val = roundMag fmt |q| := by simp [Fl.val, h.le]
        rw [ev]
        refine ⟨hr, fun r hr' => ?_, by positivity⟩
        have := hn r hr'
        rwa [abs_of_pos h] at this ⊢
    · exfalso
      unfold Fl.round at hfin
      simp only [if_neg hlt, Fl.isFinite, Bool.false_eq_true] at hfin

/-- a third in single precision -/
example : ∀ r, Representable binary32 r → |(1 / 3 : ℚ) - 11184811 / 2 ^ 25| ≤ |1 / 3 - r| := by
  have e : (round binary32 false (1 / 3)).val = 11184811 / 2 ^ 25 := by decide +kernel
  have := (C98_rounding binary32 (by decide) (by decide) false (1 / 3) (by decide +kernel)).2.1
  rwa [e] at this

/-- **C98** A number with a place in the format is not changed; and the result of an operation is infinite only if the exact result is
larger than every number in the format. -/
theorem C98_representable (fmt : FloatFormat) (hp : 1 ≤ fmt.prec) (zs : Bool) :
    (∀ q, Representable fmt q → (round fmt zs q).Is q) ∧
    ∀ q, (round fmt zs q).isFinite = false → ∀ r, Representable fmt r → |r| < |q| := by
  have big : ∀ r, Representable fmt r → |r| < 2 ^ (fmt.emax + 1) := by
    rintro _ ⟨z, k, rfl, h1, h2, h3⟩
    rw [abs_mul, abs_of_pos (show (0 : ℚ) < 2 ^ k by positivity)]
    have a1 : |(z : ℚ)| < 2 ^ fmt.prec := by exact_mod_cast h1
    have a2 : (2 : ℚ) ^ k ≤ 2 ^ (fmt.emax - (fmt.prec - 1)) := zpow_le_zpow_right₀ (by norm_num) h3
    have a3 : (2 : ℚ) ^ (fmt.emax + 1) = 2 ^ fmt.prec * 2 ^ (fmt.emax - (fmt.prec - 1)) := by
      rw [← zpow_natCast, ← zpow_add₀ (by norm_num)]; congr 1; ring
    rw [a3]
    exact mul_lt_mul a1 a2 (by positivity) (by positivity)
  refine ⟨fun q h => ?_, fun q h r hr => ?_⟩
  · have hb := big q h
    obtain ⟨z, k, hz, h1, h2, h3⟩ := h
    exact round_is hp hz h1.le h2 hb zs
  · by_contra hc
    push Not at hc
    have hb := big r hr
    have hge : ¬ roundMag fmt |q| < 2 ^ (fmt.emax + 1) := by
      intro hlt
      unfold Fl.round at h
      simp only [if_pos hlt, Fl.isFinite, Bool.true_eq_false] at h
    rcases (abs_nonneg q).eq_or_lt with h0 | h0
    · rw [← h0] at hge
      have : roundMag fmt 0 = 0 := by unfold Fl.roundMag; simp [show roundEven 0 = 0 by decide +kernel]
      rw [this] at hge
      exact hge (by positivity)
    · -- |q| ≤ |r| < 2 ^ (emax + 1), and |r| is nearer than the result
      have hr' : Representable fmt |r| := by
        rcases abs_choice r with e | e <;> rw [e]
        · exact hr
        · exact representable_neg.2 hr
      have := roundMag_nearest hp h0 hr'
      have d1 : |q| - roundMag fmt |q| ≤ 0 := by linarith
      have d2 : |q| - |r| ≤ 0 := by linarith
      rw [abs_of_nonpos d1, abs_of_nonpos d2] at this
      linarith

/-- one third, ties, overflow, the smallest number, and `-0.0` -/
example : (lit binary32 (1 / 3)).val = 11184811 / 2 ^ 25 ∧ (ofInt binary32 16777217).val = 16777216 ∧
    (ofInt binary32 16777219).val = 16777220 ∧ round binary32 false (2 ^ 128 - 2 ^ 103) = .inf false ∧
    (round binary32 false (2 ^ 128 - 2 ^ 104)).isFinite = true ∧
    (round binary32 true (-(1 / 2 ^ 149))).val = -(1 / 2 ^ 149) ∧ round binary32 true (-(1 / 2 ^ 150)) = .fin true 0 ∧
    (fin false 1 : F32).sub (fin false 1) = .fin false 0 ∧ (inf false : F32).sub (inf false) = .nan ∧
    (fin false 1 : F32).div (fin true 0) = .inf true ∧ (fin true 1 : F32).div (inf false) = .fin true 0 ∧
    (fin false 0 : F32).div (fin false 0) = .nan ∧ (inf false : F32).mul (fin false 0) = .nan := by decide +kernel

/-- the number a value stands for, infinities included; NaN stands for none -/
def Fl.extended {fmt : FloatFormat} : Fl fmt → Option (WithBot (WithTop ℚ))
  | .nan => none
  | .inf true => some ⊥
  | .inf false => some ((⊤ : WithTop ℚ) : WithBot (WithTop ℚ))
  | .fin neg m => some (((if neg then -m else m : ℚ) : WithTop ℚ) : WithBot (WithTop ℚ))

/-- **C98** Comparisons compare the numbers: infinities are not below themselves, zeros are equal, and NaN is not below anything, nor is
anything below NaN. -/
theorem C98_comparison {fmt : FloatFormat} (a b : Fl fmt) :
    a.lt b = true ↔ ∃ x y, a.extended = some x ∧ b.extended = some y ∧ x < y := by
  rcases a with _ | s | ⟨s, m⟩ <;> rcases b with _ | t | ⟨t, k⟩
  · simp [Fl.lt, Fl.extended]
  · simp [Fl.lt, Fl.extended]
  · simp [Fl.lt, Fl.extended]
  · cases s <;> simp [Fl.lt, Fl.extended]
  · cases s <;> cases t <;> simp [Fl.lt, Fl.extended]
  · cases s <;> simp [Fl.lt, Fl.extended]
  · simp [Fl.lt, Fl.extended]
  · cases t
    · simp only [Fl.lt, Fl.extended, Bool.not_false, true_iff]
      exact ⟨_, _, rfl, rfl, WithBot.coe_lt_coe.2 (WithTop.coe_lt_top _)⟩
    · simp [Fl.lt, Fl.extended]
  · have h : (fin s m : Fl fmt).lt (fin t k) = decide ((fin s m : Fl fmt).val < (fin t k : Fl fmt).val) := rfl
    rw [h, decide_eq_true_iff]
    constructor
    · intro h
      exact ⟨_, _, rfl, rfl, WithBot.coe_lt_coe.2 (WithTop.coe_lt_coe.2 h)⟩
    · rintro ⟨x, y, hx, hy, h⟩
      obtain rfl := Option.some.inj hx
      obtain rfl := Option.some.inj hy
      exact WithTop.coe_lt_coe.1 (WithBot.coe_lt_coe.1 h)

/-- `-0.0` is not below `0.0`, but minus infinity is below every number -/
example : (fin true 0 : F32).lt (fin false 0) = false ∧ (inf true : F32).lt (fin true 5) = true ∧ (inf false : F32).lt (inf false) = false := by
  decide +kernel

/-! ## Heuristics -/

/-- **C98** The heuristics computed in `f32` are finite and exactly the numbers of the exact model, for every cube (and whichever
zero the standard library starts a sum with). -/
theorem C98_heuristics (zs : Bool) (c : Cube3) (f : Face) :
    (zero32 c).Is 0 ∧ (manhattan32 zs c).Is (manhattan c) ∧ (goodCross32 c f).Is (goodCrossHeuristic c f) ∧
    ∃ x, worseCross32? c f = some x ∧ x.Is (worseCrossHeuristic c f) := by
  have hl := crossEdgeMoves_length c f
  refine ⟨lit_is32 (q := 0) 0 (by simp) (by norm_num), manhattan_is32 zs c, ?_, ?_⟩
  · have hs : (crossEdgeMoves c f).sum ≤ 12 := by
      have := (goodCross_props c f).2.1
      unfold goodCrossHeuristic at this
      have : ((crossEdgeMoves c f).sum : ℚ) ≤ 12 := by linarith
      exact_mod_cast this
    have h2 : (lit binary32 2).Is 2 := lit_is32 (q := 2) 2 (by simp) (by norm_num)
    have h1 : (ofInt binary32 ((crossEdgeMoves c f).sum : ℕ)).Is (((crossEdgeMoves c f).sum : ℕ) : ℤ) :=
      ofInt_is32 (by rw [abs_of_nonneg (by omega)]; omega)
    obtain ⟨z, hz⟩ := h1.div h2 (by norm_num)
    unfold goodCross32
    rw [hz]
    have := round_is32 (q := goodCrossHeuristic c f) 1 (by norm_num) (z := ((crossEdgeMoves c f).sum : ℕ))
      (by unfold goodCrossHeuristic; rw [Int.cast_natCast, pow_one]) (by rw [abs_of_nonneg (by omega)]; omega) z
    have e : ((((crossEdgeMoves c f).sum : ℕ) : ℤ) : ℚ) / 2 = goodCrossHeuristic c f := by
      unfold goodCrossHeuristic; rw [Int.cast_natCast]
    rw [e]
    exact this
  · obtain ⟨h1, n, hn, e⟩ := worseCrossHeuristic?_eq c f
    have h3 := (worseCross_props c f).2.1
    have e' := e
    rw [e] at h3
    have h3 : n ≤ 3 := by exact_mod_cast h3
    unfold worseCrossHeuristic? at h1
    unfold worseCross32?
    cases hm : (crossEdgeMoves c f).max? with
    | none => rw [hm] at h1; cases h1
    | some m =>
      rw [hm] at h1
      have hmn : (m : ℚ) = n := by
        have h1 : some (m : ℚ) = some (worseCrossHeuristic c f) := h1
        rw [Option.some.inj h1, e']
      have hmn : m = n := by exact_mod_cast hmn
      subst hmn
      refine ⟨_, rfl, ?_⟩
      rw [e']
      have := ofInt_is32 (z := (m : ℤ)) (by rw [abs_of_nonneg (by omega)]; omega)
      simpa using this

/-- `R2` is 3/2 away in single precision too -/
example : (manhattan32 true (moved Cube3.SOLVED (⟨Face.R, .double⟩ : AxisMove))).Is (3 / 2) := by
  have := (C98_heuristics true (moved Cube3.SOLVED (⟨Face.R, .double⟩ : AxisMove)) Face.U).2.1
  rwa [C33_overestimates.1] at this

/-- **C98** The Manhattan distances of single vectors, pieces, and selected pieces of a cube are exact as well. -/
theorem C98_distances (zs : Bool) (c : Cube3) :
    (∀ p q : Edge.Pos, (vecManhattan32 zs (.ofInts (Edge.coordinatesPos p)) (.ofInts (Edge.coordinatesPos q))).Is
      (vecManhattan (Edge.coordinatesPos p) (Edge.coordinatesPos q) : ℤ)) ∧
    (∀ p q : Vec3, (vecManhattan32 zs (.ofInts (Corner.coordinatesPos p)) (.ofInts (Corner.coordinatesPos q))).Is
      (vecManhattan (Corner.coordinatesPos p) (Corner.coordinatesPos q) : ℤ)) ∧
    (∀ filter, (manhattanFiltered32 zs c.edges filter).Is (manhattanFiltered c.edges filter : ℤ)) ∧
    ∀ filter, (manhattanFiltered32 zs c.corners filter).Is (manhattanFiltered c.corners filter : ℤ) := by
  refine ⟨fun p q => (vecManhattan_is32 zs (edge_smallVec p) (edge_smallVec q)).1,
    fun p q => (vecManhattan_is32 zs (corner_smallVec p) (corner_smallVec q)).1, fun filter => ?_, fun filter => ?_⟩
  · refine (pieceSetManhattan_is32 zs edge_smallVec (c.edges.iterWithPos.filter fun x => filter x.1 x.2) ?_).1
    refine (List.length_filter_le _ _).trans ?_
    rw [PieceSet.iterWithPos_eq]; simp
  · refine (pieceSetManhattan_is32 zs corner_smallVec (c.corners.iterWithPos.filter fun x => filter x.1 x.2) ?_).1
    refine (List.length_filter_le _ _).trans ?_
    rw [PieceSet.iterWithPos_eq]; simp

/-- the edges that R moves travel two steps each, also in `f32` -/
example : (manhattanFiltered32 false (moved Cube3.SOLVED (⟨Face.R, .single⟩ : AxisMove)).edges (fun _ _ => true)).Is 8 := by
  have h := (C98_distances false (moved Cube3.SOLVED (⟨Face.R, .single⟩ : AxisMove))).2.2.1 (fun _ _ => true)
  rwa [show manhattanFiltered (moved Cube3.SOLVED (⟨Face.R, .single⟩ : AxisMove)).edges (fun _ _ => true) = 8 by decide +kernel] at h

/-- **C98** The values of the MUS heuristics are exact: from a cache of bytes it is the number in the cache, and without a cache whatever
the fallback computes. -/
theorem C98_mus_values (lock : Option Cache) (hl : ∀ cache, lock = some cache → ∀ c n, cache.get? c = some n → n < 256)
    (fallback32 : Cube3 → Option F32) (fallback : Cube3 → Option ℚ) (c : Cube3) (hf : Option.Rel Fl.Is (fallback32 c) (fallback c)) :
    Option.Rel Fl.Is (musWithFallback32? lock fallback32 c) (musWithFallback? lock fallback c) ∧
    ∀ cache, lock = some cache → Option.Rel Fl.Is (mus32? cache c) (mus? cache c) := by
  have key : ∀ cache, lock = some cache → Option.Rel Fl.Is (mus32? cache c) (mus? cache c) := by
    intro cache hc
    unfold mus32? mus?
    rcases h : cache.get? c with _ | n
    · exact .none
    · have := hl cache hc c n h
      exact .some (by exact_mod_cast ofInt_is32 (z := (n : ℤ)) (by rw [abs_of_nonneg (by omega)]; omega))
  refine ⟨?_, key⟩
  cases lock with
  | none => exact hf
  | some cache => exact key cache rfl

/-- without a cache, the Manhattan distance -/
example (zs : Bool) (c : Cube3) : ∃ x, musWithFallback32? none (fun c => some (manhattan32 zs c)) c = some x ∧ x.Is (manhattan c) :=
  ⟨_, rfl, (C98_heuristics zs c Face.U).2.1⟩

/-- with a cache full of sevens, seven -/
example (k : Nat) (hk : 0 < k) (c : Cube3) (hc : c.indices? = some ⟨0, 0, 0⟩) :
    ∃ x, musWithFallback32? (some ⟨List.replicate k 7, List.replicate k 7⟩) (fun _ => none) c = some x ∧ x.Is 7 := by
  have hg : (⟨List.replicate k 7, List.replicate k 7⟩ : Cache).get? c = some 7 := by
    obtain ⟨k, rfl⟩ : ∃ j, k = j + 1 := ⟨k - 1, by omega⟩
    unfold Cache.get?
    rw [hc]
    rfl
  have h := (C98_mus_values (some ⟨List.replicate k 7, List.replicate k 7⟩) (fun cache e c n hn => by
    obtain rfl := Option.some.inj e
    unfold Cache.get? at hn
    split at hn
    · cases hn
    · split at hn
      · rename_i h1 h2 h3
        have := List.getElem?_replicate ▸ h1
        have := List.getElem?_replicate ▸ h2
        have := List.getElem?_replicate ▸ h3
        grind
      · cases hn) (fun _ => none) (fun _ => none) c .none).1
  unfold musWithFallback32? musWithFallback? at *
  simp only [hg, Option.map_some] at h ⊢
  cases h with
  | some h => exact ⟨_, rfl, by simpa using h⟩

/-- the value 3/2 after a half turn, as a float, and the cross heuristics after `R` -/
example : manhattan32 true (moved Cube3.SOLVED (⟨Face.R, .double⟩ : AxisMove)) = .fin false (3 / 2) ∧
    goodCross32 (moved Cube3.SOLVED (⟨Face.R, .single⟩ : AxisMove)) Face.D = .fin false (1 / 2) ∧
    worseCross32? (moved Cube3.SOLVED (⟨Face.R, .single⟩ : AxisMove)) Face.D = some (.fin false 1) := by decide +kernel

/-! ## Searching -/

/-- **C98** The search on any puzzle, in `f32`: if all heuristic values are non-negative multiples of 1/16 up to `H`, and
`h(start) + max_depth + 1 + H` is at most `2 ^ 20`, the result is the one of exact arithmetic (about which see C26–C28). -/
theorem C98_search {C M : Type} [DecidableEq C] (h : C → F32) (v : C → ℚ) (H : ℚ) (hv : ∀ c, (h c).Is (v c))
    (hfr : ∀ c, ∃ z : ℤ, 16 * v c = z) (h0 : ∀ c, 0 ≤ v c) (hH : ∀ c, v c ≤ H) (succ : C → List (C × M)) (isTarget : C → Bool)
    (maxDepth : Int) (cube : C) (hR : v cube + max 0 (maxDepth + 1) + H ≤ 2 ^ 20) (fuel : Nat) :
    search? f32Ops h succ maxDepth fuel cube isTarget = search? exactOps v succ maxDepth fuel cube isTarget := by
  have hval : ∀ c, float32.val (h c) = v c := fun c => (hv c).val
  have := C28_floats float32 h H (fun c => (float32_ok (hv c)).1) (fun c => by rw [hval]; exact_mod_cast hfr c)
    (fun c => by rw [hval]; exact h0 c) (fun c => by rw [hval]; exact hH c) succ isTarget maxDepth cube
    (by rw [hval]; exact hR) fuel
  simp only [hval] at this
  exact this

/-- estimates in sixteenths on a ring of four states -/
example (fuel : Nat) : search? f32Ops (fun c : Fin 4 => ofInt binary32 c.val) (fun c => [(c + 1, ())]) 100 fuel 0 (fun c => c == 3) =
    search? exactOps (fun c : Fin 4 => (c.val : ℚ)) (fun c => [(c + 1, ())]) 100 fuel 0 (fun c => c == 3) :=
  C98_search _ _ 3 (fun c => by
      have := ofInt_is32 (z := (c.val : ℤ)) (by rw [abs_of_nonneg (by omega)]; omega)
      exact_mod_cast this) (fun c => ⟨16 * c.val, by push_cast; ring⟩) (fun c => Nat.cast_nonneg _)
    (fun c => by exact_mod_cast (by omega : c.val ≤ 3)) _ _ 100 0 (by norm_num) fuel

/-- **C98** The limit on the values matters: with a constant heuristic, exact arithmetic yields the shortest alg, for the sums grow by
one with each step; from `2 ^ 25` on, `f32` sums do not, and a longer alg is returned. -/
theorem C98_search_limit : let succ : Fin 3 → List (Fin 3 × Nat) := fun c => if c = 0 then [(1, 1), (2, 2)] else [(2, 2)]
    search? exactOps (fun _ => 2 ^ 25) succ 10 10 0 (fun c => c == 2) = some (some ([2], 2)) ∧
    search? f32Ops (fun _ => lit binary32 (2 ^ 25)) succ 10 10 0 (fun c => c == 2) = some (some ([1, 2], 2)) := by
  decide +kernel

/-- **C98** Solving with the Manhattan heuristic gives in `f32` what it gives in exact arithmetic (see C64). -/
theorem C98_solve_manhattan (zs : Bool) (fuel : Nat) (c : Cube3) :
    Cube3.solveWithHeuristic? f32Ops (manhattan32 zs) fuel c = Cube3.solveWithHeuristic? exactOps manhattan fuel c :=
  C64_floats float32 (by norm_num) _ (fun c => (float32_ok (manhattan_is32 zs c)).1) (fun c => (manhattan_is32 zs c).val) fuel c

/-- the search of the first solution of `R2`, in single precision -/
example : Cube3.solveWithHeuristic? f32Ops (manhattan32 false) 6 (movedAlg Cube3.SOLVED [(⟨Face.R, .double⟩ : AxisMove)]) =
    some (some [⟨Face.R, .double⟩]) := by
  rw [C98_solve_manhattan]
  decide +kernel

/-- **C98** Solving without information (`heuristics::zero`): shortest solutions, `None` for the rest, in `f32`. -/
theorem C98_solve_zero (c : Cube3) :
    (c.Reachable → ∃ alg : List AxisMove, Returns (fun fuel => Cube3.solveWithHeuristic? f32Ops zero32 fuel c) (some alg) ∧
      movedAlg c alg = Cube3.SOLVED ∧
      ∀ alg' : List AxisMove, movedAlg c alg' = Cube3.SOLVED → alg.length ≤ alg'.length) ∧
    (¬ c.Reachable → Returns (fun fuel => Cube3.solveWithHeuristic? f32Ops zero32 fuel c) none) := by
  have hz : ∀ c : Cube3, (zero32 c).Is 0 := fun c => lit_is32 (q := 0) 0 (by simp) (by norm_num)
  have hv : ∀ c : Cube3, float32.val (zero32 c) = 0 := fun c => (hz c).val
  exact C29_floats float32 zero32 0 (fun c => (float32_ok (hz c)).1) (fun c => by rw [hv]) (fun c => ⟨0, by rw [hv]; simp⟩)
    (fun c => by rw [hv]) (by norm_num) (fun c alg _ => by rw [hv]; positivity) c

/-- the sexy move is undone in as few moves as possible, in single precision -/
example : ∃ alg : List AxisMove, Returns (fun fuel => Cube3.solveWithHeuristic? f32Ops zero32 fuel (movedAlg Cube3.SOLVED Perms.SEXY_MOVE)) (some alg) := by
  obtain ⟨alg, h, -⟩ := (C98_solve_zero (movedAlg Cube3.SOLVED Perms.SEXY_MOVE)).1 ⟨_, rfl⟩
  exact ⟨alg, h⟩

/-- **C98** `solve_cross` and `solve_cross_fast` give in `f32` what they give in exact arithmetic (see C31). Here the panic of the
`expect` in the heuristic is replaced by NaN; by `C98_heuristics` it never happens. -/
theorem C98_solve_cross (fuel : Nat) (c : Cube3) (f : Face) :
    solveCrossDirectly? f32Ops fuel c f (fun c => (worseCross32? c f).getD .nan) = solveCross? fuel c f ∧
    solveCrossDirectly? f32Ops fuel c f (fun c => goodCross32 c f) = solveCrossFast? fuel c f := by
  have h1 : ∀ c : Cube3, ((worseCross32? c f).getD .nan).Is (worseCrossHeuristic c f) := fun c => by
    obtain ⟨x, hx, hi⟩ := (C98_heuristics false c f).2.2.2
    rw [hx]; exact hi
  have h2 : ∀ c : Cube3, (goodCross32 c f).Is (goodCrossHeuristic c f) := fun c => (C98_heuristics false c f).2.2.1
  exact ⟨(C31_floats float32 (by norm_num) f _ (fun c => (float32_ok (h1 c)).1) fuel c).1 fun c => (h1 c).val,
    (C31_floats float32 (by norm_num) f _ (fun c => (float32_ok (h2 c)).1) fuel c).2 fun c => (h2 c).val⟩

example (fuel : Nat) : solveCrossDirectly? f32Ops fuel (movedAlg Cube3.SOLVED Perms.T) Face.U
    (fun c => (worseCross32? c Face.U).getD .nan) = solveCross? fuel (movedAlg Cube3.SOLVED Perms.T) Face.U :=
  (C98_solve_cross fuel _ Face.U).1

/-- **C98** Solving with the MUS heuristic in `f32`, with the tables as generated or any cache from the disk that C62 lets through. -/
theorem C98_solve_mus {edges corners : List Nat} (he : buildTable? HalfEdgesMUS = some edges)
    (hk : buildTable? CornersMUS = some corners) {cache : Cache} (g : GoodCache edges corners cache) (c : Cube3) (hc : c.valid) :
    ∃ r, Returns (fun fuel => Cube3.solveWithHeuristicP? f32Ops (mus32? cache) fuel c) r ∧
      (r.isSome ↔ c.Reachable) ∧ ∀ alg, r = some alg → movedAlg c alg = Cube3.SOLVED ∧
        ∀ alg' : List AxisMove, movedAlg c alg' = Cube3.SOLVED → alg.length ≤ alg'.length := by
  have e : mus32? cache = fun c => (cache.get? c).map fun n : ℕ => ofInt binary32 (n : ℤ) := rfl
  rw [e]
  exact C95_good_cache he hk float32 (by norm_num) (fun n : ℕ => ofInt binary32 (n : ℤ))
    (fun n hn => by
      have := ofInt_is32 (z := (n : ℤ)) (by rw [abs_of_nonneg (by omega)]; omega)
      obtain ⟨h1, h2⟩ := float32_ok this
      exact ⟨h1, by rw [h2]; simp⟩) g c hc

/-- a run in `f32` -/
example : Cube3.solveWithHeuristic? f32Ops (manhattan32 true) 6 (movedAlg Cube3.SOLVED [(⟨Face.R, .double⟩ : AxisMove)]) =
      some (some [⟨Face.R, .double⟩]) := by decide +kernel

end Barbarosa
