import Verif.Spec.Float
import Verif.Spec.Search
import Mathlib.Algebra.Order.Floor.Ring
import Mathlib.Algebra.Order.Group.Abs
import Mathlib.Tactic.Linarith
import Mathlib.Tactic.Ring
import Mathlib.Tactic.Positivity
import Mathlib.Algebra.Order.Field.Power
import Mathlib.Tactic.NormNum
import Mathlib.Tactic.FieldSimp

/-!
# Rounding
-/

namespace Barbarosa

theorem roundEven_near (t : ℚ) : |t - roundEven t| ≤ 1 / 2 := by
  have h1 := Int.floor_le t
  have h2 := Int.lt_floor_add_one t
  unfold roundEven
  rw [abs_le]
  split
  · constructor <;> linarith
  · split
    · push_cast; constructor <;> linarith
    · split
      · constructor <;> linarith
      · push_cast; constructor <;> linarith

theorem roundEven_int (z : ℤ) : roundEven (z : ℚ) = z := by
  unfold roundEven
  rw [Int.floor_intCast, if_pos (by simp)]

/-- no integer is nearer -/
theorem roundEven_nearest (t : ℚ) (n : ℤ) : |t - roundEven t| ≤ |t - n| := by
  by_cases h : n = roundEven t
  · rw [h]
  · have h1 := roundEven_near t
    have h2 : (1 : ℚ) ≤ |(n : ℚ) - roundEven t| := by
      have : (1 : ℤ) ≤ |n - roundEven t| := Int.one_le_abs (sub_ne_zero.2 h)
      exact_mod_cast this
    have h3 : |(n : ℚ) - roundEven t| ≤ |t - n| + |t - roundEven t| := by
      have := abs_sub_le (n : ℚ) t (roundEven t)
      rw [abs_sub_comm (n : ℚ) t] at this
      exact this
    linarith

theorem roundEven_nonneg {t : ℚ} (h : 0 ≤ t) : 0 ≤ roundEven t := by
  have := (abs_le.1 (roundEven_near t)).2
  by_contra h'
  have h2 : roundEven t ≤ -1 := by omega
  have : (roundEven t : ℚ) ≤ -1 := by exact_mod_cast h2
  linarith

/-- an integer upper bound is kept -/
theorem roundEven_le {t : ℚ} {n : ℤ} (h : t ≤ n) : roundEven t ≤ n := by
  by_contra h'
  have h2 : n + 1 ≤ roundEven t := by omega
  have h3 : (n : ℚ) + 1 ≤ roundEven t := by exact_mod_cast h2
  have h4 := (abs_le.1 (roundEven_near t)).1
  have h5 := (roundEven_nearest t n)
  rw [abs_of_nonpos (by linarith), abs_of_nonpos (by linarith)] at h5
  linarith

/-- an integer lower bound is kept -/
theorem le_roundEven {t : ℚ} {n : ℤ} (h : (n : ℚ) ≤ t) : n ≤ roundEven t := by
  by_contra h'
  have h2 : roundEven t + 1 ≤ n := by omega
  have h3 : (roundEven t : ℚ) + 1 ≤ n := by exact_mod_cast h2
  have h5 := (roundEven_nearest t n)
  rw [abs_of_nonneg (by linarith), abs_of_nonneg (by linarith)] at h5
  linarith

namespace Fl

variable {fmt : FloatFormat}

theorem quantum_pos (fmt : FloatFormat) (x : ℚ) : 0 < quantum fmt x := by unfold quantum; positivity

/-- the result is off by at most half the distance of neighbours -/
theorem roundMag_near (fmt : FloatFormat) (x : ℚ) : |x - roundMag fmt x| ≤ quantum fmt x / 2 := by
  have hu := quantum_pos fmt x
  have h := roundEven_near (x / quantum fmt x)
  have e : x - roundMag fmt x = (x / quantum fmt x - roundEven (x / quantum fmt x)) * quantum fmt x := by
    unfold roundMag
    rw [sub_mul, div_mul_cancel₀ _ hu.ne']
  rw [e, abs_mul, abs_of_pos hu]
  calc _ ≤ 1 / 2 * quantum fmt x := mul_le_mul_of_nonneg_right h hu.le
    _ = _ := by ring

theorem roundMag_nonneg (fmt : FloatFormat) {x : ℚ} (h : 0 ≤ x) : 0 ≤ roundMag fmt x := by
  unfold roundMag
  have hu := quantum_pos fmt x
  have : 0 ≤ roundEven (x / quantum fmt x) := roundEven_nonneg (by positivity)
  have : (0 : ℚ) ≤ roundEven (x / quantum fmt x) := by exact_mod_cast this
  positivity

/-- multiples of the quantum are not changed -/
theorem roundMag_exact {x : ℚ} (h : ∃ n : ℤ, x = n * quantum fmt x) : roundMag fmt x = x := by
  obtain ⟨n, hn⟩ := h
  unfold roundMag
  have : x / quantum fmt x = n := by
    rw [div_eq_iff (quantum_pos fmt x).ne']; exact hn
  rw [this, roundEven_int]
  exact hn.symm

/-- a number with at most `prec` bits that is not too small is a multiple of its quantum -/
theorem multiple_of_quantum (hp : 0 < fmt.prec) {x : ℚ} (h0 : 0 ≤ x) {z k : ℤ} (hx : x = z * 2 ^ k) (hz : |z| ≤ 2 ^ fmt.prec)
    (hk : fmt.emin - (fmt.prec - 1) ≤ k) : ∃ n : ℤ, x = n * quantum fmt x := by
  have two : (2 : ℚ) ≠ 0 := by norm_num
  rcases h0.eq_or_lt with h0 | h0
  · exact ⟨0, by rw [← h0]; simp⟩
  have hzp : 0 < z := by
    have h2 : (0 : ℚ) < 2 ^ k := by positivity
    have : (0 : ℚ) < z := by
      rw [hx] at h0
      exact pos_of_mul_pos_left h0 h2.le
    exact_mod_cast this
  rw [abs_of_pos hzp] at hz
  -- if the quantum is at most `2 ^ k`
  have small : max (Int.log 2 x) fmt.emin - (fmt.prec - 1) ≤ k → ∃ n : ℤ, x = n * quantum fmt x := by
    intro h
    obtain ⟨d, hd⟩ := Int.eq_ofNat_of_zero_le (sub_nonneg.2 h)
    refine ⟨z * 2 ^ d, ?_⟩
    unfold quantum
    have : k = (d : ℤ) + (max (Int.log 2 x) fmt.emin - (fmt.prec - 1)) := by omega
    conv_lhs => rw [hx, this, zpow_add₀ two, zpow_natCast]
    push_cast
    ring
  rcases hz.lt_or_eq with hz | hz
  · apply small
    have hlog : Int.log 2 x < fmt.prec + k := by
      rw [← Int.lt_zpow_iff_log_lt (by norm_num) h0, hx]
      have : (z : ℚ) < 2 ^ fmt.prec := by exact_mod_cast hz
      push_cast
      rw [zpow_add₀ two, zpow_natCast]
      exact mul_lt_mul_of_pos_right this (by positivity)
    have := max_le (a := Int.log 2 x) (b := fmt.emin) (c := k + (fmt.prec - 1)) (by omega) (by omega)
    omega
  · -- a power of two
    have hx2 : x = 2 ^ (fmt.prec + k) := by rw [hx, hz, zpow_add₀ two, zpow_natCast]; push_cast; ring
    have hlog : Int.log 2 x = fmt.prec + k := by
      rw [hx2]
      have := Int.log_zpow (R := ℚ) (b := 2) (by norm_num) (fmt.prec + k)
      exact_mod_cast this
    have hq : max (Int.log 2 x) fmt.emin - (fmt.prec - 1) = k + 1 := by
      rw [hlog, max_eq_left (by omega)]
      omega
    refine ⟨2 ^ (fmt.prec - 1), ?_⟩
    unfold quantum
    rw [hq, hx2]
    push_cast
    rw [← zpow_natCast, ← zpow_add₀ two]
    congr 1
    omega

/-- a number with at most `prec` bits that is neither too small nor too large is not changed -/
theorem round_exact (hp : 0 < fmt.prec) {q : ℚ} {z k : ℤ} (hx : q = z * 2 ^ k) (hz : |z| ≤ 2 ^ fmt.prec)
    (hk : fmt.emin - (fmt.prec - 1) ≤ k) (hmax : |q| < 2 ^ (fmt.emax + 1)) (zs : Bool) :
    round fmt zs q = .fin (if q = 0 then zs else decide (q < 0)) |q| := by
  have h1 : |q| = (|z| : ℤ) * 2 ^ k := by
    rw [hx, abs_mul, abs_of_pos (show (0 : ℚ) < 2 ^ k by positivity)]
    push_cast
    rfl
  have h2 : roundMag fmt |q| = |q| :=
    roundMag_exact (multiple_of_quantum hp (abs_nonneg q) h1 (by rwa [abs_abs]) hk)
  unfold round
  simp only [h2]
  rw [if_pos hmax]

theorem Is.val {x : Fl fmt} {q : ℚ} (h : x.Is q) : x.val = q := by
  obtain ⟨s, rfl, hs⟩ := h
  unfold Fl.val
  simp only
  by_cases h : q = 0
  · subst h; simp
  · rw [hs h]
    by_cases h2 : q < 0
    · simp [h2, abs_of_neg h2]
    · simp [h2, abs_of_nonneg (not_lt.1 h2)]

theorem is_zero (neg : Bool) : (fin neg 0 : Fl fmt).Is 0 := ⟨neg, by simp, fun h => absurd rfl h⟩

/-- exact results are returned as they are -/
theorem round_is (hp : 0 < fmt.prec) {q : ℚ} {z k : ℤ} (hx : q = z * 2 ^ k) (hz : |z| ≤ 2 ^ fmt.prec)
    (hk : fmt.emin - (fmt.prec - 1) ≤ k) (hmax : |q| < 2 ^ (fmt.emax + 1)) (zs : Bool) : (round fmt zs q).Is q := by
  rw [round_exact hp hx hz hk hmax]
  exact ⟨_, rfl, fun h => by rw [if_neg h]⟩

theorem Is.add {a b : Fl fmt} {p q : ℚ} (ha : a.Is p) (hb : b.Is q) : ∃ zs, a.add b = round fmt zs (p + q) := by
  have h1 := ha.val
  have h2 := hb.val
  obtain ⟨s, rfl, -⟩ := ha
  obtain ⟨t, rfl, -⟩ := hb
  exact ⟨s && t, by unfold Fl.add; simp only [h1, h2]⟩

theorem Is.mul {a b : Fl fmt} {p q : ℚ} (ha : a.Is p) (hb : b.Is q) : ∃ zs, a.mul b = round fmt zs (p * q) := by
  have h1 := ha.val
  have h2 := hb.val
  obtain ⟨s, rfl, -⟩ := ha
  obtain ⟨t, rfl, -⟩ := hb
  exact ⟨s != t, by unfold Fl.mul; simp only [h1, h2]⟩

theorem Is.div {a b : Fl fmt} {p q : ℚ} (ha : a.Is p) (hb : b.Is q) (h0 : q ≠ 0) : ∃ zs, a.div b = round fmt zs (p / q) := by
  have h1 := ha.val
  have h2 := hb.val
  obtain ⟨s, rfl, -⟩ := ha
  obtain ⟨t, rfl, -⟩ := hb
  exact ⟨s != t, by unfold Fl.div; simp only [h1, h2, abs_eq_zero, if_neg h0]⟩

theorem Is.neg {a : Fl fmt} {p : ℚ} (ha : a.Is p) : a.neg.Is (-p) := by
  obtain ⟨s, rfl, hs⟩ := ha
  refine ⟨!s, by rw [abs_neg]; rfl, fun h => ?_⟩
  have h : p ≠ 0 := fun h' => h (by rw [h']; simp)
  rw [hs h]
  rcases lt_or_gt_of_ne h with h | h
  · simp [h, h.le]
  · simp [h, h.le]

theorem Is.abs {a : Fl fmt} {p : ℚ} (ha : a.Is p) : a.abs.Is |p| := by
  obtain ⟨s, rfl, -⟩ := ha
  exact ⟨false, by rw [abs_abs]; rfl, fun _ => by simp⟩

theorem Is.lt {a b : Fl fmt} {p q : ℚ} (ha : a.Is p) (hb : b.Is q) : a.lt b = decide (p < q) := by
  have h1 := ha.val
  have h2 := hb.val
  obtain ⟨s, rfl, -⟩ := ha
  obtain ⟨t, rfl, -⟩ := hb
  unfold Fl.lt
  simp only [h1, h2]

/-! ## Rounding is rounding to nearest -/

/-- how the quantum compares with the number -/
theorem quantum_le {x : ℚ} (hx : 0 < x) (h : (2 : ℚ) ^ fmt.emin ≤ x) : quantum fmt x ≤ x * 2 ^ (1 - (fmt.prec : ℤ)) := by
  have hl : fmt.emin ≤ Int.log 2 x := by
    rw [← Int.zpow_le_iff_le_log (by norm_num) hx]; exact_mod_cast h
  have h1 : (2 : ℚ) ^ Int.log 2 x ≤ x := by
    have := Int.zpow_log_le_self (b := 2) (r := x) (by norm_num) hx
    exact_mod_cast this
  unfold quantum
  rw [max_eq_left hl, show Int.log 2 x - ((fmt.prec : ℤ) - 1) = Int.log 2 x + (1 - fmt.prec) by ring,
    zpow_add₀ (by norm_num)]
  exact mul_le_mul_of_nonneg_right h1 (by positivity)

/-- the relative error of a result in the normal range -/
theorem roundMag_error {x : ℚ} (hx : 0 < x) (h : (2 : ℚ) ^ fmt.emin ≤ x) : |x - roundMag fmt x| ≤ x * 2 ^ (-(fmt.prec : ℤ)) := by
  refine (roundMag_near fmt x).trans ?_
  have := quantum_le hx h
  rw [show 1 - (fmt.prec : ℤ) = -(fmt.prec : ℤ) + 1 by ring, zpow_add₀ (by norm_num)] at this
  linarith

theorem roundMag_mantissa (fmt : FloatFormat) {x : ℚ} (hx : 0 < x) :
    0 ≤ roundEven (x / quantum fmt x) ∧ roundEven (x / quantum fmt x) ≤ 2 ^ fmt.prec ∧
      ((2 : ℚ) ^ fmt.emin ≤ x → 1 ≤ fmt.prec → 2 ^ (fmt.prec - 1) ≤ roundEven (x / quantum fmt x)) := by
  have hu := quantum_pos fmt x
  refine ⟨roundEven_nonneg (by positivity), roundEven_le ?_, fun h hp => le_roundEven ?_⟩
  · rw [div_le_iff₀ hu]
    have h1 : x < (2 : ℚ) ^ (Int.log 2 x + 1) := by
      have := Int.lt_zpow_succ_log_self (b := 2) (by norm_num) x
      exact_mod_cast this
    have h2 : (2 : ℚ) ^ (Int.log 2 x + 1) ≤ ((2 ^ fmt.prec : ℤ) : ℚ) * quantum fmt x := by
      unfold quantum
      push_cast
      rw [← zpow_natCast, ← zpow_add₀ (by norm_num)]
      apply zpow_le_zpow_right₀ (by norm_num)
      have := le_max_left (Int.log 2 x) fmt.emin
      omega
    linarith
  · rw [le_div_iff₀ hu]
    have := quantum_le (fmt := fmt) hx h
    have h3 : ((2 ^ (fmt.prec - 1) : ℤ) : ℚ) = 2 ^ ((fmt.prec : ℤ) - 1) := by
      push_cast
      rw [← zpow_natCast]
      congr 1
      omega
    rw [h3]
    calc (2 : ℚ) ^ ((fmt.prec : ℤ) - 1) * quantum fmt x
        ≤ 2 ^ ((fmt.prec : ℤ) - 1) * (x * 2 ^ (1 - (fmt.prec : ℤ))) := mul_le_mul_of_nonneg_left this (by positivity)
      _ = x * (2 ^ ((fmt.prec : ℤ) - 1) * 2 ^ (1 - (fmt.prec : ℤ))) := by ring
      _ = x := by rw [← zpow_add₀ (by norm_num)]; simp

/-- the result of rounding has a place in the format unless it is too large -/
theorem roundMag_representable (hp : 1 ≤ fmt.prec) (hee : fmt.emin ≤ fmt.emax) {x : ℚ} (hx : 0 < x)
    (h : roundMag fmt x < 2 ^ (fmt.emax + 1)) : Representable fmt (roundMag fmt x) := by
  obtain ⟨m0, m1, m2⟩ := roundMag_mantissa fmt hx
  have two : (2 : ℚ) ≠ 0 := by norm_num
  -- the exponent is not too large
  have he : max (Int.log 2 x) fmt.emin ≤ fmt.emax := by
    apply max_le _ hee
    by_contra hc
    push Not at hc
    have h1 : (2 : ℚ) ^ fmt.emin ≤ x := by
      have := Int.zpow_log_le_self (b := 2) (r := x) (by norm_num) hx
      have h5 : (2 : ℚ) ^ fmt.emin ≤ 2 ^ Int.log 2 x := zpow_le_zpow_right₀ (by norm_num) (by omega)
      exact h5.trans (by exact_mod_cast this)
    have h2 : ((2 ^ (fmt.prec - 1) : ℤ) : ℚ) ≤ (roundEven (x / quantum fmt x) : ℚ) := by exact_mod_cast m2 h1 hp
    have h3 : (2 : ℚ) ^ (fmt.emax + 1) ≤ roundMag fmt x := by
      unfold roundMag
      refine le_trans ?_ (mul_le_mul_of_nonneg_right h2 (quantum_pos fmt x).le)
      unfold quantum
      push_cast
      rw [← zpow_natCast, ← zpow_add₀ two]
      apply zpow_le_zpow_right₀ (by norm_num)
      have := le_max_left (Int.log 2 x) fmt.emin
      omega
    linarith
  rcases m1.lt_or_eq with m1 | m1
  · exact ⟨_, _, rfl, by rwa [abs_of_nonneg m0], by have := le_max_right (Int.log 2 x) fmt.emin; omega, by omega⟩
  · -- rounded up to a power of two
    have hr : roundMag fmt x = 2 ^ (max (Int.log 2 x) fmt.emin + 1) := by
      unfold roundMag
      rw [m1]
      unfold quantum
      push_cast
      rw [← zpow_natCast, ← zpow_add₀ two]
      congr 1
      omega
    have he' : max (Int.log 2 x) fmt.emin + 1 < fmt.emax + 1 := by
      rw [hr] at h
      exact (zpow_lt_zpow_iff_right₀ (by norm_num)).1 h
    refine ⟨2 ^ (fmt.prec - 1), max (Int.log 2 x) fmt.emin + 1 - (fmt.prec - 1), ?_, ?_, ?_, by omega⟩
    · rw [hr]
      push_cast
      rw [← zpow_natCast, ← zpow_add₀ two]
      congr 1
      omega
    · rw [abs_of_pos (by positivity)]
      exact pow_lt_pow_right₀ (by norm_num) (by omega)
    · have := le_max_right (Int.log 2 x) fmt.emin
      omega

/-- nothing in the format is nearer -/
theorem roundMag_nearest (hp : 1 ≤ fmt.prec) {x : ℚ} (hx : 0 < x) {r : ℚ} (hr : Representable fmt r) :
    |x - roundMag fmt x| ≤ |x - r| := by
  obtain ⟨z, k, rfl, hz, hk, -⟩ := hr
  have two : (2 : ℚ) ≠ 0 := by norm_num
  have hu := quantum_pos fmt x
  -- compared with multiples of the quantum
  have mult : ∀ n : ℤ, |x - roundMag fmt x| ≤ |x - n * quantum fmt x| := by
    intro n
    have h := roundEven_nearest (x / quantum fmt x) n
    have e : ∀ m : ℤ, |x - m * quantum fmt x| = |x / quantum fmt x - m| * quantum fmt x := by
      intro m
      rw [← abs_of_pos hu, ← abs_mul, abs_of_pos hu, sub_mul, div_mul_cancel₀ _ hu.ne']
    unfold roundMag
    rw [e, e]
    exact mul_le_mul_of_nonneg_right h hu.le
  rcases le_or_gt (max (Int.log 2 x) fmt.emin - (fmt.prec - 1)) k with h | h
  · obtain ⟨d, hd⟩ := Int.eq_ofNat_of_zero_le (sub_nonneg.2 h)
    have : (z : ℚ) * 2 ^ k = ((z * 2 ^ d : ℤ) : ℚ) * quantum fmt x := by
      unfold quantum
      have : k = (d : ℤ) + (max (Int.log 2 x) fmt.emin - (fmt.prec - 1)) := by omega
      rw [this, zpow_add₀ two, zpow_natCast]
      push_cast
      ring
    rw [this]
    exact mult _
  · -- finer numbers are below the power of two under `x`
    have hl : max (Int.log 2 x) fmt.emin = Int.log 2 x := by
      apply max_eq_left
      by_contra hc
      push Not at hc
      rw [max_eq_right hc.le] at h
      omega
    have h1 : (2 : ℚ) ^ Int.log 2 x ≤ x := by
      have := Int.zpow_log_le_self (b := 2) (r := x) (by norm_num) hx
      exact_mod_cast this
    have h2 : (z : ℚ) * 2 ^ k ≤ 2 ^ Int.log 2 x := by
      have hz1 : z ≤ 2 ^ fmt.prec := (le_abs_self z).trans hz.le
      have hz2 : (z : ℚ) ≤ 2 ^ fmt.prec := by exact_mod_cast hz1
      calc (z : ℚ) * 2 ^ k ≤ 2 ^ fmt.prec * 2 ^ k := mul_le_mul_of_nonneg_right hz2 (by positivity)
        _ = 2 ^ ((fmt.prec : ℤ) + k) := by rw [zpow_add₀ two, zpow_natCast]
        _ ≤ _ := zpow_le_zpow_right₀ (by norm_num) (by rw [hl] at h; omega)
    have h3 := mult (2 ^ (fmt.prec - 1))
    have h4 : ((2 ^ (fmt.prec - 1) : ℤ) : ℚ) * quantum fmt x = 2 ^ Int.log 2 x := by
      unfold quantum
      rw [hl]
      push_cast
      rw [← zpow_natCast, ← zpow_add₀ two]
      congr 1
      omega
    rw [h4, abs_of_nonneg (sub_nonneg.2 h1)] at h3
    rw [abs_of_nonneg (by linarith : (0 : ℚ) ≤ x - z * 2 ^ k)]
    linarith

/-! ## Numbers that are small multiples of a power of two -/

/-- the first `2 ^ 24` multiples of `2 ^ -j` in single precision -/
theorem round_is32 {q : ℚ} (j : Nat) (hj : j ≤ 149) {z : ℤ} (hx : q = z / 2 ^ j) (hz : |z| ≤ 2 ^ 24) (zs : Bool) :
    (round binary32 zs q).Is q := by
  have hq : q = z * 2 ^ (-(j : ℤ)) := by rw [hx, zpow_neg, zpow_natCast]; rfl
  refine round_is (fmt := binary32) (by decide) hq hz (by simp only [binary32]; omega) ?_ zs
  have h1 : |q| ≤ |(z : ℚ)| := by
    rw [hx, abs_div, abs_of_pos (show (0 : ℚ) < 2 ^ j by positivity)]
    exact div_le_self (abs_nonneg _) (one_le_pow₀ (by norm_num))
  have h2 : |(z : ℚ)| ≤ 2 ^ 24 := by exact_mod_cast hz
  have h3 : (2 : ℚ) ^ 24 < 2 ^ (binary32.emax + 1) := by simp only [binary32]; norm_num
  linarith

/-- the first `2 ^ 53` integers in double precision -/
theorem round_is64 {z : ℤ} (hz : |z| ≤ 2 ^ 53) (zs : Bool) : (round binary64 zs z).Is z := by
  refine round_is (fmt := binary64) (k := 0) (by decide) (by simp) hz (by simp only [binary64]; norm_num) ?_ zs
  have h2 : |(z : ℚ)| ≤ 2 ^ 53 := by exact_mod_cast hz
  have h3 : (2 : ℚ) ^ 53 < 2 ^ (binary64.emax + 1) := by
    have := zpow_lt_zpow_right₀ (show (1 : ℚ) < 2 by norm_num) (show (53 : ℤ) < binary64.emax + 1 by decide)
    exact_mod_cast this
  linarith

theorem ofInt_is32 {z : ℤ} (hz : |z| ≤ 2 ^ 24) : (ofInt binary32 z).Is z := round_is32 0 (by norm_num) (by simp) hz false

theorem add_is32 {a b : F32} {x y : ℤ} (j : Nat) (hj : j ≤ 149) (ha : a.Is (x / 2 ^ j)) (hb : b.Is (y / 2 ^ j)) (h : |x + y| ≤ 2 ^ 24) :
    (a.add b).Is ((x + y : ℤ) / 2 ^ j) := by
  obtain ⟨zs, e⟩ := ha.add hb
  rw [e]
  have : (x : ℚ) / 2 ^ j + y / 2 ^ j = (x + y : ℤ) / 2 ^ j := by push_cast; ring
  rw [this]
  exact round_is32 j hj rfl h zs

/-- sums of integers -/
theorem addInt_is32 {a b : F32} {x y : ℤ} (ha : a.Is x) (hb : b.Is y) (h : |x + y| ≤ 2 ^ 24) : (a.add b).Is (x + y : ℤ) := by
  have := add_is32 (x := x) (y := y) 0 (by norm_num) (by simpa using ha) (by simpa using hb) h
  simpa using this

theorem mulInt_is32 {a b : F32} {x y : ℤ} (ha : a.Is x) (hb : b.Is y) (h : |x * y| ≤ 2 ^ 24) : (a.mul b).Is (x * y : ℤ) := by
  obtain ⟨zs, e⟩ := ha.mul hb
  rw [e]
  have := round_is32 (q := ((x * y : ℤ) : ℚ)) 0 (by norm_num) (z := x * y) (by simp) h zs
  push_cast at this ⊢
  exact this

end Fl

end Barbarosa
