import Verif.Model.AnySize
import Verif.Lemmas.Stickers
import Verif.Props.PieceSet
import Mathlib.Algebra.Order.Archimedean.Basic
import Mathlib.Tactic.Linarith
import Mathlib.Tactic.FieldSimp
import Mathlib.Tactic.Ring
import Mathlib.Tactic.FinCases
import Mathlib.Tactic.IntervalCases
import Mathlib.Tactic.NormNum

/-!
# C83: pictures of any size

`Square::at` promises the square closest to the point, nothing for points too far outside, and that "too far" gets
smaller with the size of the picture.
-/

namespace Barbarosa

namespace Square

theorem roundAway_neg_iff (t : ℚ) : roundAway t < 0 ↔ t ≤ -(1 / 2) := by
  unfold roundAway
  split
  · rename_i h
    have : 0 ≤ ⌊t + 1 / 2⌋ := Int.floor_nonneg.2 (by linarith)
    constructor
    · intro h'; omega
    · intro h'; linarith
  · rename_i h
    rw [Int.ceil_lt_iff]
    constructor
    · intro h'; push_cast at h'; linarith
    · intro h'; push_cast; linarith

theorem roundAway_eq_floor {t : ℚ} (h : -(1 / 2) < t) : roundAway t = ⌊t + 1 / 2⌋ := by
  unfold roundAway
  split
  · rfl
  · rename_i h'
    have e1 : ⌊t + 1 / 2⌋ = 0 := Int.floor_eq_zero_iff.2 ⟨by linarith, by linarith⟩
    rw [e1, Int.ceil_eq_zero_iff]
    exact ⟨by linarith, by linarith⟩

/-- the cell of a scaled coordinate -/
theorem cellOf?_eq_some (N : Nat) (t : ℚ) (i : Fin N) :
    cellOf? N t = some i ↔ (i.val : ℚ) - 1 / 2 ≤ t ∧ t < i.val + 1 / 2 ∧ -(1 / 2) < t := by
  unfold cellOf?
  by_cases h : t ≤ -(1 / 2)
  · simp only [(roundAway_neg_iff t).2 h, if_true]
    constructor
    · simp
    · rintro ⟨-, -, h'⟩; linarith
  · push Not at h
    have h0 : ¬ roundAway t < 0 := by rw [roundAway_neg_iff]; linarith
    simp only [h0, if_false]
    rw [roundAway_eq_floor h] at h0 ⊢
    have key : ⌊t + 1 / 2⌋.toNat = i.val ↔ (i.val : ℚ) - 1 / 2 ≤ t ∧ t < i.val + 1 / 2 := by
      have : ⌊t + 1 / 2⌋.toNat = i.val ↔ ⌊t + 1 / 2⌋ = (i.val : ℤ) := by omega
      rw [this, Int.floor_eq_iff]
      push_cast
      constructor <;> rintro ⟨h1, h2⟩ <;> constructor <;> linarith
    constructor
    · intro hs
      split at hs
      · simp only [Option.some.injEq] at hs
        have := key.1 (by rw [← hs])
        exact ⟨this.1, this.2, h⟩
      · simp at hs
    · rintro ⟨h1, h2, -⟩
      have := key.2 ⟨h1, h2⟩
      rw [dif_pos (by rw [this]; exact i.isLt)]
      simp only [this]

theorem cellOf?_isSome (N : Nat) (t : ℚ) : (cellOf? N t).isSome ↔ -(1 / 2) < t ∧ t < N - 1 / 2 := by
  rw [Option.isSome_iff_exists]
  constructor
  · rintro ⟨i, hi⟩
    rw [cellOf?_eq_some] at hi
    have : (i.val : ℚ) + 1 ≤ N := by exact_mod_cast i.isLt
    exact ⟨hi.2.2, by linarith⟩
  · rintro ⟨h1, h2⟩
    have h0 : 0 ≤ ⌊t + 1 / 2⌋ := Int.floor_nonneg.2 (by linarith)
    have hlt : ⌊t + 1 / 2⌋ < N := by
      rw [Int.floor_lt]; push_cast; linarith
    obtain ⟨n, hn⟩ := Int.eq_ofNat_of_zero_le h0
    refine ⟨⟨n, by omega⟩, ?_⟩
    rw [cellOf?_eq_some]
    obtain ⟨g1, g2⟩ := Int.floor_eq_iff.1 hn
    push_cast at g1 g2
    exact ⟨by simp only; linarith, by simp only; linarith, h1⟩

end Square

open Square

/-! ## The number before rounding -/

/-- **C83** For the integer coordinates that pieces have, the rational arithmetic is the integer arithmetic used in
`Model/Visualization.lean`, on pictures of every size. -/
theorem C83_integer_coordinates (N : Nat) :
    (∀ x : Int, transformCoordQ N x = transformCoord N x) ∧
    (∀ (p : Int × Int × Int) (f : Face), indicesQ N ((p.1 : ℚ), (p.2.1 : ℚ), (p.2.2 : ℚ)) f = indices N p f) ∧
    ∀ (s : Square N) (p : Int × Int × Int) (f : Face), s.atQ? ((p.1 : ℚ), (p.2.1 : ℚ), (p.2.2 : ℚ)) f = s.at? p f := by
  have h1 : ∀ x : Int, transformCoordQ N x = transformCoord N x := by
    intro x
    unfold transformCoordQ transformCoord
    simp only
    generalize hk : (x + 1) * (N : Int) = k
    have hq : ((x : ℚ) + 1) * N / 3 = (k : ℚ) / 3 := by rw [← hk]; push_cast; ring
    rw [hq]
    have hr : roundAway ((k : ℚ) / 3) < 0 ↔ (2 * k + 3) / 6 < 0 := by
      rw [roundAway_neg_iff]
      constructor
      · intro h
        have : (2 * k : ℚ) ≤ -3 := by linarith
        have : 2 * k ≤ -3 := by exact_mod_cast this
        omega
      · intro h
        have : 2 * k ≤ -3 := by omega
        have : (2 * k : ℚ) ≤ -3 := by exact_mod_cast this
        linarith
    unfold cellOf?
    simp only
    by_cases h0 : (2 * k + 3) / 6 < 0
    · rw [if_pos (hr.2 h0), if_pos h0]
    · have h0' : ¬ roundAway ((k : ℚ) / 3) < 0 := fun h => h0 (hr.1 h)
      rw [if_neg h0', if_neg h0]
      have : roundAway ((k : ℚ) / 3) = (2 * k + 3) / 6 := by
        rw [roundAway_eq_floor (by rw [roundAway_neg_iff] at h0'; linarith), Int.floor_eq_iff]
        have g1 : 6 * ((2 * k + 3) / 6) ≤ 2 * k + 3 := by omega
        have g2 : 2 * k + 3 < 6 * ((2 * k + 3) / 6) + 6 := by omega
        have g1' : (6 * (((2 * k + 3) / 6 : ℤ) : ℚ)) ≤ 2 * k + 3 := by exact_mod_cast g1
        have g2' : (2 * k + 3 : ℚ) < 6 * (((2 * k + 3) / 6 : ℤ) : ℚ) + 6 := by exact_mod_cast g2
        exact ⟨by linarith, by linarith⟩
      simp only [this]
  have hd : ∀ (p q : Int × Int × Int), dotQ ((p.1 : ℚ), (p.2.1 : ℚ), (p.2.2 : ℚ)) q = ((dot p q : Int) : ℚ) := by
    intro p q
    unfold dotQ dot
    push_cast
    ring
  have h2 : ∀ (p : Int × Int × Int) (f : Face),
      indicesQ N ((p.1 : ℚ), (p.2.1 : ℚ), (p.2.2 : ℚ)) f = indices N p f := by
    intro p f
    unfold indicesQ indices
    simp only [hd, h1]
    rfl
  exact ⟨h1, h2, fun s p f => by unfold atQ? at?; rw [h2]⟩

/-- column 1 of a 7x7 at 0, nothing at 2 -/
example : transformCoordQ 7 ((0 : Int) : ℚ) = transformCoord 7 0 ∧ transformCoord 7 0 = some 2 ∧ transformCoord 7 2 = none :=
  ⟨(C83_integer_coordinates 7).1 0, by decide, by decide⟩

/-- **C83** Rounding errors do no harm: for an integer coordinate the cell stays the same if the scaled coordinate is
computed with an error of less than `1/6`. (The result of the `f32` division by 3 is off by much less, since the
other two operations are exact while `(x + 1) * N` is below `2 ^ 24`.) -/
theorem C83_rounding_errors (N : Nat) (x : Int) (e : ℚ) (he : |e| < 1 / 6) :
    cellOf? N ((x + 1) * N / 3 + e) = transformCoordQ N x := by
  unfold transformCoordQ
  obtain ⟨he1, he2⟩ := abs_lt.1 he
  have step : ∀ (i : Fin N) (t : ℚ) (k : Int), t = k / 3 → (cellOf? N (t + e) = some i ↔ cellOf? N t = some i) := by
    intro i t k ht
    have g : ∀ m : Int, ((m : ℚ) - 1 / 2 ≤ t + e ↔ (m : ℚ) - 1 / 2 ≤ t) ∧ (t + e < m + 1 / 2 ↔ t < m + 1 / 2) := by
      intro m
      subst ht
      constructor
      · constructor
        · intro h
          have : (6 * m - 3 : ℚ) - 1 < 2 * k := by linarith
          have : 6 * m - 3 - 1 < 2 * k := by exact_mod_cast this
          have : 6 * m - 2 ≤ 2 * k := by omega
          have : (6 * m - 2 : ℚ) ≤ 2 * k := by exact_mod_cast this
          linarith
        · intro h
          have : (6 * m - 3 : ℚ) ≤ 2 * k := by linarith
          have : 6 * m - 3 ≤ 2 * k := by exact_mod_cast this
          have : 6 * m - 2 ≤ 2 * k := by omega
          have : (6 * m - 2 : ℚ) ≤ 2 * k := by exact_mod_cast this
          linarith
      · constructor
        · intro h
          have : (2 * k : ℚ) < 6 * m + 3 + 1 := by linarith
          have : 2 * k < 6 * m + 3 + 1 := by exact_mod_cast this
          have : 2 * k ≤ 6 * m + 2 := by omega
          have : (2 * k : ℚ) ≤ 6 * m + 2 := by exact_mod_cast this
          linarith
        · intro h
          have : (2 * k : ℚ) < 6 * m + 3 := by linarith
          have : 2 * k < 6 * m + 3 := by exact_mod_cast this
          have : 2 * k ≤ 6 * m + 2 := by omega
          have : (2 * k : ℚ) ≤ 6 * m + 2 := by exact_mod_cast this
          linarith
    rw [cellOf?_eq_some, cellOf?_eq_some]
    have g1 := g i.val
    have g2 : -(1 / 2) < t + e ↔ -(1 / 2) < t := by
      have := (g (-1)).2
      have h := (g 0).1
      push_cast at this h
      have a : ∀ s : ℚ, -(1 / 2) < s ↔ ¬ s ≤ -(1 / 2) := fun s => (not_le).symm
      subst ht
      constructor
      · intro hh
        have : (-3 : ℚ) - 1 < 2 * k := by linarith
        have : (-3 : ℤ) - 1 < 2 * k := by exact_mod_cast this
        have : -2 ≤ 2 * k := by omega
        have : (-2 : ℚ) ≤ 2 * k := by exact_mod_cast this
        linarith
      · intro hh
        have : (-3 : ℚ) < 2 * k := by linarith
        have : (-3 : ℤ) < 2 * k := by exact_mod_cast this
        have : -2 ≤ 2 * k := by omega
        have : (-2 : ℚ) ≤ 2 * k := by exact_mod_cast this
        linarith
    push_cast at g1
    rw [g1.1, g1.2, g2]
  apply Option.ext
  intro i
  exact step i _ ((x + 1) * N) (by push_cast; ring)

/-- Hypothesis met: an error of `1/7`; one of `1/5` would change the answer. -/
example : cellOf? 5 ((1 + 1) * 5 / 3 + 1 / 7) = some 3 ∧ cellOf? 5 ((1 + 1) * 5 / 3 + 1 / 5) = some 4 := by
  constructor <;> rw [cellOf?_eq_some] <;> norm_num [Fin.ext_iff]

/-! ## Too far outside -/

/-- **C83** Exactly which coordinates are accepted by a picture with `N` rows. -/
theorem C83_range (N : Nat) (hN : 0 < N) (x : ℚ) :
    (transformCoordQ N x).isSome ↔ -1 - 3 / (2 * N) < x ∧ x < 2 - 3 / (2 * N) := by
  unfold transformCoordQ
  rw [cellOf?_isSome]
  have hq : (0 : ℚ) < N := by exact_mod_cast hN
  have e1 : -(1 / 2) < (x + 1) * N / 3 ↔ -1 - 3 / (2 * N) < x := by
    have : -1 - 3 / (2 * (N : ℚ)) = (-(1 / 2) * 3 - N) / N := by field_simp; ring
    rw [this, div_lt_iff₀ hq, lt_div_iff₀ (by norm_num)]
    constructor <;> intro h <;> linarith
  have e2 : (x + 1) * N / 3 < N - 1 / 2 ↔ x < 2 - 3 / (2 * N) := by
    have : 2 - 3 / (2 * (N : ℚ)) = ((N - 1 / 2) * 3 - N) / N := by field_simp; ring
    rw [this, lt_div_iff₀ hq, div_lt_iff₀ (by norm_num)]
    constructor <;> intro h <;> linarith
  rw [e1, e2]

/-- on a 3x3 a point at 1.4 is in some row, one at 1.5 in none -/
example : (transformCoordQ 3 (7 / 5)).isSome ∧ ¬ (transformCoordQ 3 (3 / 2)).isSome :=
  ⟨(C83_range 3 (by decide) _).2 (by norm_num), fun h => absurd ((C83_range 3 (by decide) _).1 h) (by norm_num)⟩

/-- **C83** "Too far" gets smaller with the size only on the side of the first row and column: below `-1` a larger
picture accepts less. (Part of the promise; the other side is `C83_too_far_grows`.) -/
theorem C83_too_far_partial (N M : Nat) (hN : 0 < N) (h : N < M) :
    (∀ x : ℚ, x ≤ -1 → (transformCoordQ M x).isSome → (transformCoordQ N x).isSome) ∧
    ∃ x : ℚ, x < -1 ∧ (transformCoordQ N x).isSome ∧ ¬ (transformCoordQ M x).isSome := by
  have hq : (0 : ℚ) < N := by exact_mod_cast hN
  have hlt : (N : ℚ) < M := by exact_mod_cast h
  have hm : (0 : ℚ) < M := by linarith
  have hd : 3 / (2 * (M : ℚ)) < 3 / (2 * N) := div_lt_div_of_pos_left (by norm_num) (by linarith) (by linarith)
  have hpos : 0 < 3 / (2 * (M : ℚ)) := by positivity
  have hle : 3 / (2 * (N : ℚ)) ≤ 3 / 2 := by
    have h1 : (1 : ℚ) ≤ N := by exact_mod_cast hN
    rw [div_le_div_iff₀ (by linarith) (by norm_num)]
    linarith
  constructor
  · intro x hx h'
    rw [C83_range M (by omega)] at h'
    rw [C83_range N hN]
    exact ⟨by linarith [h'.1], by linarith⟩
  · refine ⟨-1 - 3 / (2 * M), by linarith, ?_, ?_⟩
    · rw [C83_range N hN]
      exact ⟨by linarith, by linarith⟩
    · rw [C83_range M (by omega)]
      rintro ⟨h', -⟩
      exact lt_irrefl _ h'

/-- from the 3x3 to the 7x7 -/
example : ∃ x : ℚ, x < -1 ∧ (transformCoordQ 3 x).isSome ∧ ¬ (transformCoordQ 7 x).isSome :=
  (C83_too_far_partial 3 7 (by decide) (by decide)).2

/-- **C83** (the promise is false) On the side of the last row and column "too far" grows with the size: above `1` a
larger picture accepts more, up to nearly `2`. -/
theorem C83_too_far_grows (N M : Nat) (hN : 0 < N) (h : N < M) :
    (∀ x : ℚ, 1 ≤ x → (transformCoordQ N x).isSome → (transformCoordQ M x).isSome) ∧
    (∃ x : ℚ, (transformCoordQ M x).isSome ∧ ¬ (transformCoordQ N x).isSome ∧ (1 < N → 1 < x)) ∧
    ∀ x : ℚ, 1 ≤ x → x < 2 → ∃ K : Nat, (transformCoordQ K x).isSome := by
  have hq : (0 : ℚ) < N := by exact_mod_cast hN
  have hlt : (N : ℚ) < M := by exact_mod_cast h
  have hm : (0 : ℚ) < M := by linarith
  have hd : 3 / (2 * (M : ℚ)) < 3 / (2 * N) := div_lt_div_of_pos_left (by norm_num) (by linarith) (by linarith)
  have hpos : 0 < 3 / (2 * (M : ℚ)) := by positivity
  have hle : 3 / (2 * (N : ℚ)) ≤ 3 / 2 := by
    have h1 : (1 : ℚ) ≤ N := by exact_mod_cast hN
    rw [div_le_div_iff₀ (by linarith) (by norm_num)]
    linarith
  refine ⟨?_, ⟨2 - 3 / (2 * N), ?_, ?_, ?_⟩, ?_⟩
  · intro x hx h'
    rw [C83_range N hN] at h'
    rw [C83_range M (by omega)]
    exact ⟨by linarith, by linarith [h'.2]⟩
  · rw [C83_range M (by omega)]
    exact ⟨by linarith, by linarith⟩
  · rw [C83_range N hN]
    rintro ⟨-, h'⟩
    exact lt_irrefl _ h'
  · intro h1
    have h2 : (2 : ℚ) ≤ N := by exact_mod_cast h1
    have : 3 / (2 * (N : ℚ)) ≤ 3 / 4 := by
      rw [div_le_div_iff₀ (by linarith) (by norm_num)]
      linarith
    linarith
  · intro x h1 h2
    obtain ⟨K, hK⟩ := exists_nat_gt (3 / (2 * (2 - x)))
    have hp : 0 < 3 / (2 * (2 - x)) := div_pos (by norm_num) (by linarith)
    have hK0 : (0 : ℚ) < K := by linarith
    refine ⟨K, ?_⟩
    rw [C83_range K (by exact_mod_cast hK0)]
    have hp' : 0 < 3 / (2 * (K : ℚ)) := by positivity
    refine ⟨by linarith, ?_⟩
    rw [div_lt_iff₀ (by linarith)] at hK
    have : 3 / (2 * (K : ℚ)) < 2 - x := by
      rw [div_lt_iff₀ (by linarith)]
      linarith
    linarith

/-- a point at 1.9 is accepted for some size of cube -/
example : ∃ K : Nat, (transformCoordQ K (19 / 10)).isSome :=
  (C83_too_far_grows 3 7 (by decide) (by decide)).2.2 _ (by norm_num) (by norm_num)

/-! ## The closest square -/

/-- the coordinate of the middle of row (column) `i` if the `N` rows are spread evenly from `-1` to `1` -/
def rowMiddle (N i : Nat) : ℚ := 2 * i / (N - 1) - 1

/-- **C83** On a picture with 3 rows the answer is the row closest to the coordinate, and there is an answer exactly
within `1.5` of the middle. (Part of the promise: other sizes are `C83_closest_only_three`.) -/
theorem C83_closest_partial (x : ℚ) :
    ((transformCoordQ 3 x).isSome ↔ |x| < 3 / 2) ∧
    ∀ i, transformCoordQ 3 x = some i → ∀ j : Fin 3, |x - rowMiddle 3 i| ≤ |x - rowMiddle 3 j| := by
  constructor
  · rw [C83_range 3 (by norm_num), abs_lt]
    constructor <;> rintro ⟨h1, h2⟩ <;> constructor <;> norm_num at * <;> linarith
  · intro i hi j
    unfold transformCoordQ at hi
    rw [cellOf?_eq_some] at hi
    obtain ⟨h1, h2, -⟩ := hi
    have e : ∀ k : Nat, rowMiddle 3 k = k - 1 := by intro k; unfold rowMiddle; push_cast; ring
    rw [e, e]
    push_cast at h1 h2
    have hx1 : (i.val : ℚ) - 1 - 1 / 2 ≤ x := by linarith
    have hx2 : x < (i.val : ℚ) - 1 + 1 / 2 := by linarith
    by_cases hij : i = j
    · rw [hij]
    · have hab : |x - ((i.val : ℚ) - 1)| ≤ 1 / 2 := abs_le.2 ⟨by linarith, by linarith⟩
      refine hab.trans ?_
      rcases lt_or_gt_of_ne (fun h => hij (Fin.ext h) : i.val ≠ j.val) with h | h
      · have : (i.val : ℚ) + 1 ≤ j.val := by exact_mod_cast h
        rw [abs_sub_comm]
        exact le_trans (by linarith) (le_abs_self _)
      · have : (j.val : ℚ) + 1 ≤ i.val := by exact_mod_cast h
        exact le_trans (by linarith) (le_abs_self _)

/-- a point at -1.2 is on a 3x3, one at -1.6 is not -/
example : (transformCoordQ 3 (-6 / 5)).isSome ∧ ¬ (transformCoordQ 3 (-8 / 5)).isSome :=
  ⟨(C83_closest_partial _).1.2 (by norm_num [abs_lt]), fun h => absurd ((C83_closest_partial _).1.1 h) (by norm_num [abs_lt])⟩

/-- **C83** (the promise is false for other sizes) Among all sizes from 2 on, 3 is the only one for which the answer is
always the closest row. -/
theorem C83_closest_only_three (N : Nat) (hN : 2 ≤ N) :
    (∀ (x : ℚ) (i : Fin N), transformCoordQ N x = some i → ∀ j : Fin N, |x - rowMiddle N i| ≤ |x - rowMiddle N j|) ↔
      N = 3 := by
  constructor
  · intro h
    by_contra hne
    rcases lt_or_gt_of_ne hne with h3 | h3
    · obtain rfl : N = 2 := by omega
      have := h (-1 / 4) 1 (by
        unfold transformCoordQ; rw [cellOf?_eq_some]; norm_num) 0
      unfold rowMiddle at this
      norm_num at this
    · have hq : (4 : ℚ) ≤ N := by exact_mod_cast h3
      have hlt : 1 / ((N : ℚ) - 1) < 3 / (2 * N) := by
        rw [div_lt_div_iff₀ (by linarith) (by linarith)]
        linarith
      obtain ⟨y, hy1, hy2⟩ := exists_between hlt
      have hp : 0 < 1 / ((N : ℚ) - 1) := div_pos (by norm_num) (by linarith)
      have := h (y - 1) ⟨0, by omega⟩ (by
        unfold transformCoordQ
        rw [cellOf?_eq_some]
        have hyN : y * N < 3 / 2 := by
          have := mul_lt_mul_of_pos_right hy2 (show (0 : ℚ) < N by linarith)
          have e : 3 / (2 * (N : ℚ)) * N = 3 / 2 := by field_simp
          linarith
        have hy0 : 0 < y * N := mul_pos (by linarith) (by linarith)
        refine ⟨?_, ?_, ?_⟩ <;> push_cast <;> linarith) ⟨1, by omega⟩
      unfold rowMiddle at this
      push_cast at this
      have e0 : y - 1 - (2 * 0 / ((N : ℚ) - 1) - 1) = y := by ring
      have e1 : y - 1 - (2 * 1 / ((N : ℚ) - 1) - 1) = y - 2 * (1 / ((N : ℚ) - 1)) := by ring
      rw [e0, e1, abs_of_pos (by linarith)] at this
      rcases abs_cases (y - 2 * (1 / ((N : ℚ) - 1))) with ⟨h', -⟩ | ⟨h', -⟩
      · linarith
      · linarith
  · rintro rfl x i hi j
    exact (C83_closest_partial x).2 i hi j

/-- Hypothesis met: on a picture with 5 rows the coordinate `1` of the last row is in row 3. -/
example : transformCoordQ 5 1 = some 3 ∧ rowMiddle 5 4 = 1 ∧ rowMiddle 5 3 = 1 / 2 := by
  refine ⟨?_, by norm_num [rowMiddle], by norm_num [rowMiddle]⟩
  unfold transformCoordQ
  rw [cellOf?_eq_some]
  norm_num [Fin.ext_iff]

/-! ## Drawing pieces -/

/-- the rows in which the three coordinates `-1`, `0`, `1` are drawn -/
def spread (N : Nat) (hN : 2 ≤ N) (i : Fin 3) : Fin N := ⟨(2 * i.val * N + 3) / 6, by
  have := i.isLt
  have : 2 * i.val * N ≤ 4 * N := Nat.mul_le_mul_right N (by omega)
  omega⟩

theorem transformCoord_spread (N : Nat) (hN : 2 ≤ N) (x : Int) (hx : x = -1 ∨ x = 0 ∨ x = 1) :
    transformCoord N x = (transformCoord 3 x).map (spread N hN) := by
  have e : ∀ i : Fin 3, transformCoord N (i.val - 1) = some (spread N hN i) := by
    intro i
    unfold transformCoord
    simp only
    have hk : ((i.val : Int) - 1 + 1) * N = ((i.val * N : Nat) : Int) := by push_cast; ring
    rw [hk]
    have hs := (spread N hN i).isLt
    unfold spread at hs ⊢
    simp only at hs
    have e1 : 2 * i.val * N = 2 * (i.val * N) := by ring
    rw [e1] at hs
    have : (2 * ((i.val * N : Nat) : Int) + 3) / 6 = ((2 * (i.val * N) + 3) / 6 : Nat) := by
      generalize i.val * N = k at *
      omega
    rw [if_neg (by rw [this]; exact Int.not_lt.2 (Int.natCast_nonneg _)), dif_pos (by rw [this]; exact hs)]
    simp only [this, Int.toNat_natCast, e1]
  rcases hx with rfl | rfl | rfl
  · have h3 : transformCoord 3 (-1) = some 0 := by decide +kernel
    rw [h3]; exact e 0
  · have h3 : transformCoord 3 0 = some 1 := by decide +kernel
    rw [h3]; exact e 1
  · have h3 : transformCoord 3 1 = some 2 := by decide +kernel
    rw [h3]; exact e 2

/-- one write on a picture of any size -/
def stick? {N : Nat} (u : Unfolded N) (w : Facelet × Color) : Option (Unfolded N) :=
  u.setAt? w.1.point.triple w.1.face w.2

theorem facelet_dots : ∀ s ∈ Facelet.all,
    let b := basisFaces s.face
    (dot s.point.triple (basisVector b.1) = -1 ∨ dot s.point.triple (basisVector b.1) = 0 ∨
      dot s.point.triple (basisVector b.1) = 1) ∧
    (dot s.point.triple (basisVector b.2) = -1 ∨ dot s.point.triple (basisVector b.2) = 0 ∨
      dot s.point.triple (basisVector b.2) = 1) := by decide +kernel

theorem indices_spread (N : Nat) (hN : 2 ≤ N) (s : Facelet) (hs : s.OnCube) :
    indices N s.point.triple s.face =
      (indices 3 s.point.triple s.face).map fun ij => (spread N hN ij.1, spread N hN ij.2) := by
  have h := facelet_dots s (s.mem_all.2 hs)
  unfold indices
  simp only
  rw [transformCoord_spread N hN _ h.1, transformCoord_spread N hN _ h.2]
  cases transformCoord 3 (dot s.point.triple (basisVector (basisFaces s.face).1)) with
  | none => rfl
  | some x =>
    cases transformCoord 3 (dot s.point.triple (basisVector (basisFaces s.face).2)) with
    | none => rfl
    | some y => rfl

theorem facelet_indices (s : Facelet) (hs : s.OnCube) : ∃ ij, indices 3 s.point.triple s.face = some ij := by
  have h1 := cell_isSome s (s.mem_all.mpr hs)
  unfold Facelet.cell at h1
  rw [Option.isSome_map] at h1
  exact Option.isSome_iff_exists.1 h1

/-- `uN` is the picture `u3` with its rows and columns in `S` moved to other places, and the background elsewhere -/
def SpreadOf {N : Nat} (hN : 2 ≤ N) (S : Fin 3 → Prop) (u3 : Unfolded 3) (uN : Unfolded N) : Prop :=
  (∀ k i j, S i → S j → uN k (spread N hN i) (spread N hN j) = u3 k i j) ∧
  ∀ k a b, ((∀ i, S i → spread N hN i ≠ a) ∨ ∀ j, S j → spread N hN j ≠ b) → uN k a b = Unfolded.default N k a b

theorem spreadOf_stick {N : Nat} (hN : 2 ≤ N) (S : Fin 3 → Prop)
    (hinj : ∀ i j, S i → S j → spread N hN i = spread N hN j → i = j) (u3 : Unfolded 3) (uN : Unfolded N)
    (hu : SpreadOf hN S u3 uN) (w : Facelet × Color) (hw : w.1.OnCube)
    (hS : ∀ ij, indices 3 w.1.point.triple w.1.face = some ij → S ij.1 ∧ S ij.2) :
    ∃ v3 vN, stick? u3 w = some v3 ∧ stick? uN w = some vN ∧ SpreadOf hN S v3 vN := by
  obtain ⟨ij, hij⟩ := facelet_indices w.1 hw
  obtain ⟨s1, s2⟩ := hS ij hij
  have hN' := indices_spread N hN w.1 hw
  rw [hij] at hN'
  refine ⟨_, _, by unfold stick? Unfolded.setAt?; rw [hij], by unfold stick? Unfolded.setAt?; rw [hN']; rfl, ?_, ?_⟩
  · intro k i j hi hj
    simp only
    have e1 : spread N hN i = spread N hN ij.1 ↔ i = ij.1 := ⟨hinj i ij.1 hi s1, fun h => by rw [h]⟩
    have e2 : spread N hN j = spread N hN ij.2 ↔ j = ij.2 := ⟨hinj j ij.2 hj s2, fun h => by rw [h]⟩
    simp only [e1, e2, hu.1 k i j hi hj]
  · intro k a b hab
    simp only
    rw [if_neg]
    · exact hu.2 k a b hab
    · rintro ⟨-, rfl, rfl⟩
      rcases hab with h | h
      · exact h _ s1 rfl
      · exact h _ s2 rfl

theorem spreadOf_all {N : Nat} (hN : 2 ≤ N) (S : Fin 3 → Prop)
    (hinj : ∀ i j, S i → S j → spread N hN i = spread N hN j → i = j) (l : List (Facelet × Color))
    (hl : ∀ w ∈ l, w.1.OnCube ∧ ∀ ij, indices 3 w.1.point.triple w.1.face = some ij → S ij.1 ∧ S ij.2)
    (u3 : Unfolded 3) (uN : Unfolded N) (hu : SpreadOf hN S u3 uN) :
    ∃ v3 vN, l.foldlM stick? u3 = some v3 ∧ l.foldlM stick? uN = some vN ∧ SpreadOf hN S v3 vN := by
  induction l generalizing u3 uN with
  | nil => exact ⟨u3, uN, rfl, rfl, hu⟩
  | cons w l ih =>
    obtain ⟨v3, vN, h1, h2, h3⟩ := spreadOf_stick hN S hinj u3 uN hu w (hl w (by simp)).1 (hl w (by simp)).2
    obtain ⟨w3, wN, g1, g2, g3⟩ := ih (fun w hw => hl w (by simp [hw])) v3 vN h3
    exact ⟨w3, wN, by simp [List.foldlM_cons, h1, g1], by simp [List.foldlM_cons, h2, g2], g3⟩

theorem populateWith?_sticks {N : Nat} {P : Type} {n : Nat} [PieceSetDescriptor P n] [Colored P] [Coordinates P]
    (u : Unfolded N) (s : PieceSet P n) :
    u.populateWith? s = (s.iterWithPos.flatMap pieceStickers).foldlM stick? u := by
  unfold Unfolded.populateWith?
  generalize s.iterWithPos = l
  induction l generalizing u with
  | nil => rfl
  | cons x l ih =>
    rw [List.foldlM_cons, List.flatMap_cons, List.foldlM_append]
    have : u.drawPiece? x = (pieceStickers x).foldlM stick? u := by
      unfold Unfolded.drawPiece? pieceStickers
      rw [List.foldlM_map]
      rfl
    rw [this]
    congr
    funext u'
    exact ih u'

theorem default_spread {N : Nat} (hN : 2 ≤ N) (S : Fin 3 → Prop) : SpreadOf hN S (Unfolded.default 3) (Unfolded.default N) :=
  ⟨fun _ _ _ _ _ => rfl, fun _ _ _ _ => rfl⟩

theorem spread_inj (N : Nat) (hN : 3 ≤ N) (i j : Fin 3) (h : spread N (by omega) i = spread N (by omega) j) : i = j := by
  unfold spread at h
  simp only [Fin.mk.injEq] at h
  fin_cases i <;> fin_cases j <;> simp at h ⊢ <;> omega

theorem spread_inj_corner (N : Nat) (hN : 2 ≤ N) (i j : Fin 3) (hi : i ≠ 1) (hj : j ≠ 1)
    (h : spread N hN i = spread N hN j) : i = j := by
  unfold spread at h
  simp only [Fin.mk.injEq] at h
  fin_cases i <;> fin_cases j <;> simp at h hi hj ⊢ <;> omega

theorem corner_sticker_indices : ∀ (p : Vec3) (f : Face), Facelet.OnCube ⟨cornerPoint p, f⟩ →
    ∀ i j : Fin 3, indices 3 (cornerPoint p).triple f = some (i, j) → i ≠ 1 ∧ j ≠ 1 := by decide +kernel

theorem corner_sticker_facelets (s : PieceSet Corner 8) : ∀ w ∈ s.iterWithPos.flatMap pieceStickers, w.1.OnCube ∧
    ∀ ij, indices 3 w.1.point.triple w.1.face = some ij → ij.1 ≠ 1 ∧ ij.2 ≠ 1 := by
  rintro ⟨f, col⟩ hw
  have hon := (stickers_on_cube ⟨Cube3.SOLVED.edges, s⟩ (f, col) (by
    unfold Cube3.stickers; exact List.mem_append_left _ hw)).1
  obtain ⟨⟨o, c⟩, hx, hw⟩ := List.mem_flatMap.1 hw
  refine ⟨hon, ?_⟩
  unfold pieceStickers at hw
  obtain ⟨fc, -, he⟩ := List.mem_map.1 hw
  simp only [Prod.mk.injEq] at he
  obtain ⟨he, -⟩ := he
  have he' : f = ⟨cornerPoint c.position, fc.1⟩ := he.symm
  rintro ⟨i, j⟩ h
  subst he'
  exact corner_sticker_indices c.position fc.1 hon i j h

/-- **C83** Where the rows of a 3x3 picture go on a picture of any size: first, one third, two thirds. The last one is
in the last row exactly up to size 4; the middle one is in the middle exactly for 3 and 5. -/
theorem C83_rows (N : Nat) (hN : 2 ≤ N) :
    (spread N hN 0).val = 0 ∧
    |((spread N hN 1).val : ℚ) - N / 3| ≤ 1 / 3 ∧ |((spread N hN 2).val : ℚ) - 2 * N / 3| ≤ 1 / 3 ∧
    ((spread N hN 2).val + 1 = N ↔ N ≤ 4) ∧
    (2 * (spread N hN 1).val + 1 = N ↔ N = 3 ∨ N = 5) := by
  have v0 : (spread N hN 0).val = 0 := by simp [spread]
  have v1 : (spread N hN 1).val = (2 * N + 3) / 6 := by simp [spread]
  have v2 : (spread N hN 2).val = (4 * N + 3) / 6 := by simp [spread]
  rw [v0, v1, v2]
  refine ⟨rfl, ?_, ?_, by omega, by omega⟩
  · have h1 : 3 * ((2 * N + 3) / 6) ≤ N + 1 := by omega
    have h2 : N ≤ 3 * ((2 * N + 3) / 6) + 1 := by omega
    have h1' : (3 * ((2 * N + 3) / 6 : ℕ) : ℚ) ≤ N + 1 := by exact_mod_cast h1
    have h2' : (N : ℚ) ≤ 3 * ((2 * N + 3) / 6 : ℕ) + 1 := by exact_mod_cast h2
    rw [abs_le]
    constructor <;> linarith
  · have h1 : 3 * ((4 * N + 3) / 6) ≤ 2 * N + 1 := by omega
    have h2 : 2 * N ≤ 3 * ((4 * N + 3) / 6) + 1 := by omega
    have h1' : (3 * ((4 * N + 3) / 6 : ℕ) : ℚ) ≤ 2 * N + 1 := by exact_mod_cast h1
    have h2' : (2 * N : ℚ) ≤ 3 * ((4 * N + 3) / 6 : ℕ) + 1 := by exact_mod_cast h2
    rw [abs_le]
    constructor <;> linarith

/-- on a 7x7 the rows 0, 2 and 5 are used -/
example : (spread 7 (by decide) 0).val = 0 ∧ (spread 7 (by decide) 1).val = 2 ∧ (spread 7 (by decide) 2).val = 5 ∧
    ¬ (spread 7 (by decide) 2).val + 1 = 7 :=
  ⟨(C83_rows 7 (by decide)).1, by decide, by decide, fun h => absurd ((C83_rows 7 (by decide)).2.2.2.1.1 h) (by decide)⟩

/-- **C83** Corners and edges drawn on a picture of size 3 or more never panic, whatever the pieces are; the picture is
the picture of size 3 with its rows and columns at the places of `C83_rows`, and the colour of the face everywhere else. -/
theorem C83_drawing (N : Nat) (hN : 3 ≤ N) (c : Cube3) :
    ∃ u3 uN, Unfolded.ofCube3? c = some u3 ∧ Unfolded.drawn? N c = some uN ∧
      (∀ k i j, uN k (spread N (by omega) i) (spread N (by omega) j) = u3 k i j) ∧
      ∀ k a b, ((∀ i, spread N (by omega) i ≠ a) ∨ ∀ j, spread N (by omega) j ≠ b) →
        uN k a b = Unfolded.default N k a b := by
  have h2 : 2 ≤ N := by omega
  obtain ⟨u3, uN, e1, e2, e3, e4⟩ := spreadOf_all h2 (fun _ => True) (fun i j _ _ => spread_inj N hN i j) c.stickers
    (fun w hw => ⟨(stickers_on_cube c w hw).1, fun _ _ => ⟨trivial, trivial⟩⟩) _ _ (default_spread h2 _)
  have key : ∀ M, Unfolded.drawn? M c = c.stickers.foldlM stick? (Unfolded.default M) := by
    intro M
    unfold Unfolded.drawn? Cube3.stickers
    rw [List.foldlM_append, ← populateWith?_sticks]
    cases (Unfolded.default M).populateWith? c.corners with
    | none => rfl
    | some u => exact populateWith?_sticks u c.edges
  refine ⟨u3, uN, ?_, ?_, fun k i j => e3 k i j trivial trivial, fun k a b h => e4 k a b ?_⟩
  · rw [ofCube3?_eq]; exact e1
  · rw [key, e2]
  · rcases h with h | h
    · exact Or.inl fun i _ => h i
    · exact Or.inr fun i _ => h i

/-- a cell of the drawing of any 3x3 as a 7x7 that stays as it was -/
example (c : Cube3) : ∃ u, Unfolded.drawn? 7 c = some u ∧ u 2 1 3 = Unfolded.default 7 2 1 3 := by
  obtain ⟨_, u, _, hu, _, h⟩ := C83_drawing 7 (by decide) c
  exact ⟨u, hu, h _ _ _ (.inl (by decide))⟩

/-- the row (column) of an `N`-picture in which a corner belongs that is in row `i` of the 3-picture -/
def borderRow (N : Nat) (hN : 2 ≤ N) (i : Fin 3) : Fin N := if i = 0 then ⟨0, by omega⟩ else ⟨N - 1, by omega⟩

/-- **C83** Corners drawn on pictures of size 2, 3 and 4 are in the corner squares, as they are on a picture of size 3,
and all other squares have the colour of the face. (Part of the promise that pieces are drawn where they belong; the
sizes from 5 on are `C83_last_row_empty`, below 2 `C83_small_panics`.) -/
theorem C83_corners_partial (N : Nat) (h2 : 2 ≤ N) (h4 : N ≤ 4) (s : PieceSet Corner 8) :
    ∃ u3 uN, (Unfolded.default 3).populateWith? s = some u3 ∧ (Unfolded.default N).populateWith? s = some uN ∧
      (∀ k i j, i ≠ 1 → j ≠ 1 → uN k (borderRow N h2 i) (borderRow N h2 j) = u3 k i j) ∧
      ∀ k a b, ((0 < a.val ∧ a.val + 1 < N) ∨ (0 < b.val ∧ b.val + 1 < N)) → uN k a b = Unfolded.default N k a b := by
  obtain ⟨u3, uN, e1, e2, e3, e4⟩ := spreadOf_all h2 (fun i => i ≠ 1) (fun i j hi hj => spread_inj_corner N h2 i j hi hj)
    _ (corner_sticker_facelets s) _ _ (default_spread h2 _)
  have hb : ∀ i : Fin 3, i ≠ 1 → spread N h2 i = borderRow N h2 i := by
    intro i hi
    have r := C83_rows N h2
    apply Fin.ext
    unfold borderRow
    fin_cases i
    · exact r.1
    · exact absurd rfl hi
    · have := r.2.2.2.1.2 h4
      simp only [Fin.reduceFinMk, Fin.reduceEq, if_false]
      omega
  have hne : ∀ (a : Fin N), 0 < a.val ∧ a.val + 1 < N → ∀ i : Fin 3, i ≠ 1 → spread N h2 i ≠ a := by
    rintro a ⟨h1, h3⟩ i hi rfl
    rw [hb i hi] at h1 h3
    unfold borderRow at h1 h3
    split at h1
    · simp at h1
    · rename_i hi0
      rw [if_neg hi0] at h3
      simp only at h3
      omega
  refine ⟨u3, uN, ?_, ?_, ?_, ?_⟩
  · rw [populateWith?_sticks]; exact e1
  · rw [populateWith?_sticks]; exact e2
  · intro k i j hi hj
    rw [← hb i hi, ← hb j hj, e3 k i j hi hj]
  · intro k a b h
    refine e4 k a b ?_
    rcases h with h | h
    · exact Or.inl (hne a h)
    · exact Or.inr (hne b h)

/-- the corners of any cube on a 2x2 -/
example (s : PieceSet Corner 8) : ∃ u3 u2, (Unfolded.default 3).populateWith? s = some u3 ∧
    (Unfolded.default 2).populateWith? s = some u2 ∧ u2 1 0 1 = u3 1 0 2 := by
  obtain ⟨u3, u2, h3, h2, h, _⟩ := C83_corners_partial 2 (by decide) (by decide) s
  exact ⟨u3, u2, h3, h2, h _ 0 2 (by decide) (by decide)⟩

/-- **C83** (the promise is false for larger sizes) On a picture of size 5 or more nothing is ever drawn in the last row
and the last column of any face: they keep the colour of the face, whatever state the pieces are in. -/
theorem C83_last_row_empty (N : Nat) (hN : 5 ≤ N) (c : Cube3) :
    ∃ u, Unfolded.drawn? N c = some u ∧
      ∀ k a b, (a.val + 1 = N ∨ b.val + 1 = N) → u k a b = Unfolded.default N k a b := by
  obtain ⟨-, u, -, h1, -, h2⟩ := C83_drawing N (by omega) c
  have hlt : ∀ i : Fin 3, (spread N (by omega) i).val + 1 < N := by
    intro i
    have : (spread N (by omega) i).val = (2 * i.val * N + 3) / 6 := rfl
    rw [this]
    have hi := i.isLt
    have : 2 * i.val * N ≤ 4 * N := Nat.mul_le_mul_right N (by omega)
    omega
  refine ⟨u, h1, fun k a b h => h2 k a b ?_⟩
  rcases h with h | h
  · exact Or.inl fun i hi => by have := hlt i; rw [hi] at this; omega
  · exact Or.inr fun i hi => by have := hlt i; rw [hi] at this; omega

/-- the last row of the 6x6 -/
example (c : Cube3) : ∃ u, Unfolded.drawn? 6 c = some u ∧ u 0 5 2 = Unfolded.default 6 0 5 2 := by
  obtain ⟨u, hu, h⟩ := C83_last_row_empty 6 (by decide) c
  exact ⟨u, hu, h _ _ _ (.inl rfl)⟩

theorem foldlM_none_of_mem {A B : Type} (f : B → A → Option B) (l : List A) (w : A) (hw : w ∈ l) (h : ∀ u, f u w = none)
    (u : B) : l.foldlM f u = none := by
  induction l generalizing u with
  | nil => simp at hw
  | cons x l ih =>
    rw [List.foldlM_cons]
    rcases List.mem_cons.1 hw with rfl | hw
    · rw [h u]; rfl
    · cases f u x with
      | none => rfl
      | some v => exact ih hw v

theorem small_off (N : Nat) (hN : N < 2) : transformCoord N 1 = none := by
  interval_cases N <;> decide +kernel

theorem upper_in_cycle : ∀ a : Axis, Face.U ∈ Corner.cycle ⟨.pos, .pos, .pos⟩ a := by decide +kernel

/-- **C83** On pictures of size 0 and 1 drawing the corners of a valid cube panics. -/
theorem C83_small_panics (N : Nat) (hN : N < 2) (s : PieceSet Corner 8) (hs : s.Valid) :
    (Unfolded.default N).populateWith? s = none := by
  obtain ⟨i, hi⟩ := hs.bijective.2 ⟨.pos, .pos, .pos⟩
  replace hi : (s i).position = ⟨.pos, .pos, .pos⟩ := hi
  rw [populateWith?_sticks]
  have hall : ∀ (a : Axis) (o : Vec3), ∃ fc ∈ Corner.colors ⟨⟨.pos, .pos, .pos⟩, a⟩ o, fc.1 = Face.U := by
    intro a o
    have := corner_zip_fst ⟨⟨.pos, .pos, .pos⟩, a⟩ o
    have hm := upper_in_cycle a
    rw [← this] at hm
    obtain ⟨fc, h1, h2⟩ := List.mem_map.1 hm
    exact ⟨fc, h1, h2⟩
  obtain ⟨fc, hfc, hU⟩ := hall (s i).orientationAxis (Corner.REFERENCE_POSITIONS i)
  refine foldlM_none_of_mem _ _ (⟨⟨1, 1, 1⟩, .U⟩, fc.2) ?_ ?_ _
  · refine List.mem_flatMap.2 ⟨(Corner.REFERENCE_POSITIONS i, s i), ?_, ?_⟩
    · rw [PieceSet.iterWithPos_eq]
      exact (List.mem_ofFn).2 ⟨i, rfl⟩
    · unfold pieceStickers
      refine List.mem_map.2 ⟨fc, ?_, ?_⟩
      · have : s i = ⟨⟨.pos, .pos, .pos⟩, (s i).orientationAxis⟩ := by
          rw [← hi]
        rw [this]
        exact hfc
      · have hp : Coordinates.coordinatesPos (P := Corner) (Piece.position (s i)) = (1, 1, 1) := by
          show Corner.coordinatesPos (s i).position = _
          rw [hi]; decide +kernel
        simp only [hp, hU]
  · intro u
    unfold stick? Unfolded.setAt?
    have : indices N (Z3.triple ⟨1, 1, 1⟩) Face.U = none := by
      unfold indices
      have hd : dot (Z3.triple ⟨1, 1, 1⟩) (basisVector (basisFaces Face.U).1) = 1 := by decide +kernel
      simp only [hd, small_off N hN]
    simp only [this]

/-- Hypotheses met: after `R` the corner in the upper right front shows the colour of `D` in front; on a picture of size
5 it is one row and column away from where it belongs. -/
example : ∃ c : Cube3, c = moved Cube3.SOLVED (⟨.R, .single⟩ : AxisMove) ∧ c.valid ∧
    (Unfolded.drawn? 5 c).map (fun u => (u.square .F 0 3, u.square .F 0 4)) = some (⟨.D⟩, ⟨.F⟩) ∧
    (Unfolded.drawn? 4 c).map (fun u => (u.square .F 0 2, u.square .F 0 3)) = some (⟨.F⟩, ⟨.D⟩) :=
  ⟨_, rfl, by unfold Cube3.valid; decide +kernel, by decide +kernel, by decide +kernel⟩

end Barbarosa
