import Verif.Lemmas.Float
import Verif.Model.FloatCode
import Verif.Props.Progress

/-!
# C98: progress statistics with the floating point arithmetic of the machine
-/

namespace Barbarosa

open Fl

/-- one operation in `f64`: a relative error of at most `2 ^ -53` -/
theorem round64_error {q : ℚ} (h1 : 1 / 2 ^ 200 ≤ |q|) (h2 : |q| ≤ 2 ^ 200) (zs : Bool) :
    ∃ d, |d| ≤ 1 / 2 ^ 53 ∧ (round binary64 zs q).Is (q * (1 + d)) := by
  have hq : 0 < |q| := lt_of_lt_of_le (by positivity) h1
  have hq0 : q ≠ 0 := abs_pos.1 hq
  have hmin : (2 : ℚ) ^ binary64.emin ≤ |q| := by
    refine le_trans ?_ h1
    rw [one_div, ← zpow_natCast, ← zpow_neg]
    exact zpow_le_zpow_right₀ (by norm_num) (by decide)
  have err := roundMag_error (fmt := binary64) hq hmin
  rw [show -(binary64.prec : ℤ) = -((53 : ℕ) : ℤ) by decide, zpow_neg, zpow_natCast] at err
  have hm := roundMag_nonneg binary64 hq.le
  have hlt : roundMag binary64 |q| < 2 ^ (binary64.emax + 1) := by
    have a1 := (abs_le.1 err).1
    have a2 : |q| * (2 ^ 53)⁻¹ ≤ |q| * 1 := by gcongr; norm_num
    have a3 : (2 : ℚ) ^ 200 * 2 < 2 ^ (binary64.emax + 1) := by
      rw [← pow_succ, ← zpow_natCast]
      exact zpow_lt_zpow_right₀ (by norm_num) (by decide)
    linarith
  have e : round binary64 zs q = .fin (decide (q < 0)) (roundMag binary64 |q|) := by
    unfold Fl.round; simp only [if_neg hq0, if_pos hlt]
  refine ⟨roundMag binary64 |q| / |q| - 1, ?_, ?_⟩
  · rw [show roundMag binary64 |q| / |q| - 1 = (roundMag binary64 |q| - |q|) / |q| by field_simp, abs_div, abs_abs, div_le_iff₀ hq,
      abs_sub_comm, one_div, mul_comm]
    exact err
  · rw [e]
    have ev : q * (1 + (roundMag binary64 |q| / |q| - 1)) = if q < 0 then -roundMag binary64 |q| else roundMag binary64 |q| := by
      rw [show 1 + (roundMag binary64 |q| / |q| - 1) = roundMag binary64 |q| / |q| by ring]
      split
      · rename_i h; rw [abs_of_neg h]; field_simp
      · rename_i h; rw [abs_of_nonneg (not_lt.1 h)]; field_simp
    rw [ev]
    refine ⟨decide (q < 0), ?_, ?_⟩
    · split <;> simp [abs_of_nonneg hm]
    · intro h
      congr 1
      split
      · rename_i hneg
        rw [if_pos hneg] at h
        have : 0 < roundMag binary64 |q| := lt_of_le_of_ne hm fun e => h (by rw [← e]; simp)
        simp [hneg, this]
      · rename_i hneg
        simp [hneg, hm]

theorem ofInt_is64 {z : ℤ} (hz : |z| ≤ 2 ^ 53) : (ofInt binary64 z).Is z := round_is64 hz false

/-- `as i64` on a finite number that is not too large -/
theorem toInt_is {x : F64} {q : ℚ} (hx : x.Is q) : x.toInt (-2 ^ 63) (2 ^ 63 - 1) = asI64 q := by
  obtain ⟨s, rfl, hs⟩ := hx
  unfold Fl.toInt asI64
  by_cases h : q = 0
  · subst h; cases s <;> simp
  · rw [hs h]
    rcases lt_or_gt_of_ne h with h | h
    · simp only [h, decide_true, if_true, if_neg (not_le.2 h), abs_of_neg h]
      rw [Int.floor_neg, neg_neg]
    · simp [h.not_gt, h.le, abs_of_pos h]

/-- **C98** The statistics in `f64`: they are computed without a panic in the same cases as in C76. The share is right up to a relative
error of `2 ^ -53` and says 1 only when the table is finished; speed and remaining time are right up to a relative error of `2 ^ -50`
(the remaining time is then cut off to seconds). -/
theorem C98_stats (cache : List Nat) (ms : Int) (h1 : 0 < amountCached cache) (h2 : cache.length ≤ 88179840)
    (h3 : -10 ^ 11 ≤ ms) (h4 : ms ≤ 10 ^ 11) :
    ∃ s, Stats64.new? cache ms = some s ∧ s.amountCached = amountCached cache ∧ s.timeElapsedMs = ms ∧
      (∃ p, s.percentCached.Is p ∧ |p - percentCached cache (amountCached cache)| ≤ percentCached cache (amountCached cache) / 2 ^ 53 ∧
        (p = 1 ↔ amountCached cache = cache.length)) ∧
      (ms = 0 → s.statesPerSecond = .inf false ∧ s.etaSeconds = 0) ∧
      (ms ≠ 0 → ∃ v, s.statesPerSecond.Is v ∧ |v - 1000 * amountCached cache / ms| ≤ |1000 * amountCached cache / (ms : ℚ)| / 2 ^ 50) ∧
      |(s.etaSeconds : ℚ) * (1000 * amountCached cache) - (cache.length - amountCached cache) * ms| <
        1000 * amountCached cache + |(cache.length - amountCached cache) * (ms : ℚ)| / 2 ^ 50 := by
  have hle : amountCached cache ≤ cache.length := List.length_filter_le _ _
  generalize hAm : amountCached cache = A at *
  generalize hLn : cache.length = L at *
  have hA1 : (1 : ℚ) ≤ A := by exact_mod_cast h1
  have hAL : (A : ℚ) ≤ L := by exact_mod_cast hle
  have hL : (L : ℚ) ≤ 88179840 := by exact_mod_cast h2
  have iA : (ofInt binary64 (A : ℤ)).Is (A : ℚ) := by
    have := ofInt_is64 (z := (A : ℤ)) (by rw [abs_of_nonneg (by omega)]; omega)
    simpa using this
  have iL : (ofInt binary64 (L : ℤ)).Is (L : ℚ) := by
    have := ofInt_is64 (z := (L : ℤ)) (by rw [abs_of_nonneg (by omega)]; omega)
    simpa using this
  have iD : (ofInt binary64 ((L - A : ℕ) : ℤ)).Is ((L : ℚ) - A) := by
    have := ofInt_is64 (z := ((L - A : ℕ) : ℤ)) (by rw [abs_of_nonneg (by omega)]; omega)
    rw [Int.cast_natCast] at this
    rw [← Nat.cast_sub hle]
    exact this
  have iK : (lit binary64 1000).Is 1000 := by
    have := ofInt_is64 (z := 1000) (by norm_num)
    push_cast at this
    exact this
  have iM : (ofInt binary64 ms).Is ms := ofInt_is64 (abs_le.2 ⟨by omega, by omega⟩)
  -- the share
  have share : ∃ p, (percentCached64 cache A).Is p ∧ |p - percentCached cache A| ≤ percentCached cache A / 2 ^ 53 ∧ (p = 1 ↔ A = L) := by
    have hL1 : (0 : ℚ) < L := by linarith
    have hp : percentCached cache A = (A : ℚ) / L := by unfold percentCached; rw [hLn]
    obtain ⟨zs, e⟩ := iA.div iL hL1.ne'
    have e : percentCached64 cache A = round binary64 zs ((A : ℚ) / L) := by unfold percentCached64; rw [hLn]; exact e
    have q0 : (0 : ℚ) < A / L := by positivity
    rw [hp, e]
    by_cases h : A = L
    · subst h
      rw [div_self hL1.ne']
      have := round_is64 (z := 1) (by norm_num) zs
      exact ⟨1, by simpa using this, by norm_num, by simp⟩
    · have q1 : (A : ℚ) / L ≤ 1 - 1 / 88179840 := by
        have hAL' : (A : ℚ) + 1 ≤ L := by exact_mod_cast (by omega : A + 1 ≤ L)
        rw [div_le_iff₀ hL1]
        linarith
      have q2 : (1 : ℚ) / 88179840 ≤ A / L := by
        rw [div_le_div_iff₀ (by norm_num) hL1]; linarith
      obtain ⟨d, hd, hi⟩ := round64_error (q := (A : ℚ) / L) (by rw [abs_of_pos q0]; refine le_trans ?_ q2; norm_num)
        (by rw [abs_of_pos q0]; refine le_trans q1 ?_; norm_num) zs
      refine ⟨_, hi, ?_, iff_of_false (fun h1 => ?_) h⟩
      · rw [show (A : ℚ) / L * (1 + d) - A / L = A / L * d by ring, abs_mul, abs_of_pos q0, div_eq_mul_one_div ((A : ℚ) / L)]
        gcongr
      · have := (abs_le.1 hd).2
        norm_num at this
        nlinarith
  by_cases hms : ms = 0
  · subst hms
    have e1 : ((ofInt binary64 (A : ℤ)).div (ofInt binary64 0)).mul (lit binary64 1000) = .inf false := by
      obtain ⟨s, e, hs⟩ := iA
      have hs := hs (by linarith)
      rw [e, hs]
      have h0 : ¬ (A : ℚ) < 0 := by linarith
      have hA0 : |(A : ℚ)| ≠ 0 := by rw [abs_of_nonneg (by linarith)]; linarith
      rw [show (ofInt binary64 0) = .fin false 0 by decide +kernel, show lit binary64 1000 = .fin false 1000 by decide +kernel]
      simp only [h0, decide_false, Fl.div, if_true, if_neg hA0]
      simp [Fl.mul]
    have e2 : ((ofInt binary64 ((L - A : ℕ) : ℤ)).div (.inf false)).toInt (-2 ^ 63) (2 ^ 63 - 1) = 0 := by
      obtain ⟨s, e, -⟩ := iD
      rw [e]
      cases s <;> simp [Fl.div, Fl.toInt]
    have hnew : Stats64.new? cache 0 = some ⟨A, percentCached64 cache A, 0, .inf false, 0⟩ := by
      unfold Stats64.new?
      simp only [hAm, hLn, e1, e2]
      rfl
    exact ⟨_, hnew, rfl, rfl, share, fun _ => ⟨rfl, rfl⟩, fun h => absurd rfl h, by simp; exact h1⟩
  · have hm0 : (ms : ℚ) ≠ 0 := by exact_mod_cast hms
    have hm1 : (1 : ℚ) ≤ |(ms : ℚ)| := by exact_mod_cast Int.one_le_abs hms
    have hm : |(ms : ℚ)| ≤ 10 ^ 11 := abs_le.2 ⟨by exact_mod_cast h3, by exact_mod_cast h4⟩
    -- states per millisecond
    obtain ⟨z1, e1⟩ := iA.div iM hm0
    have b1 : |(A : ℚ) / ms| = A / |(ms : ℚ)| := by rw [abs_div, abs_of_pos (by linarith : (0 : ℚ) < A)]
    have b1l : 1 / 10 ^ 11 ≤ |(A : ℚ) / ms| := by rw [b1]; gcongr
    have b1u : |(A : ℚ) / ms| ≤ 88179840 := by
      rw [b1, div_le_iff₀ (by linarith)]
      nlinarith
    obtain ⟨d1, hd1, i1⟩ := round64_error (q := (A : ℚ) / ms) (le_trans (by norm_num) b1l) (le_trans b1u (by norm_num)) z1
    rw [← e1] at i1
    have hd1' := abs_le.1 hd1
    have u1 : 1 / 2 ≤ 1 + d1 ∧ 1 + d1 ≤ 2 := by norm_num at hd1'; constructor <;> linarith
    -- per second
    obtain ⟨z2, e2⟩ := i1.mul iK
    have b2 : |(A : ℚ) / ms * (1 + d1) * 1000| = |(A : ℚ) / ms| * (1 + d1) * 1000 := by
      rw [abs_mul, abs_mul, abs_of_nonneg (by linarith : (0 : ℚ) ≤ 1 + d1), abs_of_pos (by norm_num : (0 : ℚ) < 1000)]
    have b2l : 1 / 10 ^ 12 ≤ |(A : ℚ) / ms * (1 + d1) * 1000| := by
      rw [b2]
      have : 1 / 10 ^ 11 * (1 / 2) * 1000 ≤ |(A : ℚ) / ms| * (1 + d1) * 1000 := by
        have := u1.1
        gcongr
      refine le_trans (by norm_num) this
    have b2u : |(A : ℚ) / ms * (1 + d1) * 1000| ≤ 88179840 * 2 * 1000 := by
      rw [b2]
      have := u1.2
      have : 0 ≤ 1 + d1 := by linarith [u1.1]
      gcongr
    obtain ⟨d2, hd2, i2⟩ := round64_error (q := (A : ℚ) / ms * (1 + d1) * 1000) (le_trans (by norm_num) b2l)
      (le_trans b2u (by norm_num)) z2
    rw [← e2] at i2
    have hd2' := abs_le.1 hd2
    have u2 : 1 / 2 ≤ 1 + d2 ∧ 1 + d2 ≤ 2 := by norm_num at hd2'; constructor <;> linarith
    set v : ℚ := (A : ℚ) / ms * (1 + d1) * 1000 * (1 + d2) with hv
    have hv0 : v ≠ 0 := by
      have p1 : (1 + d1) ≠ 0 := by linarith [u1.1]
      have p2 : (1 + d2) ≠ 0 := by linarith [u2.1]
      have p3 : (A : ℚ) ≠ 0 := by linarith
      rw [hv]; positivity
    -- time left
    obtain ⟨z3, e3⟩ := iD.div i2 hv0
    set x : ℚ := ((L : ℚ) - A) / v with hx
    have hxv : x * (1000 * A) * ((1 + d1) * (1 + d2)) = (L - A) * ms := by
      have p1 : (1 + d1) ≠ 0 := by linarith [u1.1]
      have p2 : (1 + d2) ≠ 0 := by linarith [u2.1]
      have p3 : (A : ℚ) ≠ 0 := by linarith
      rw [hx, hv]; field_simp
    -- the errors together
    set P : ℚ := (1 + d1) * (1 + d2) with hP
    have hP1 : |P - 1| ≤ 3 / 2 ^ 53 := by
      have e : P - 1 = d1 + d2 + d1 * d2 := by rw [hP]; ring
      have m : |d1 * d2| ≤ 1 / 2 ^ 53 := by
        rw [abs_mul]
        calc |d1| * |d2| ≤ 1 / 2 ^ 53 * 1 := mul_le_mul hd1 (hd2.trans (by norm_num)) (abs_nonneg _) (by norm_num)
          _ = 1 / 2 ^ 53 := by ring
      rw [e]
      have t1 := abs_add_le (d1 + d2) (d1 * d2)
      have t2 := abs_add_le d1 d2
      have : (3 : ℚ) / 2 ^ 53 = 1 / 2 ^ 53 + 1 / 2 ^ 53 + 1 / 2 ^ 53 := by ring
      linarith
    obtain ⟨P1, P2⟩ := abs_le.1 hP1
    have P0 : 999 / 1000 ≤ P := by norm_num at P1; linarith
    have P3 : P ≤ 2 := by norm_num at P2; linarith
    have hxA : |x| * (1000 * A) * P = (L - A) * |(ms : ℚ)| := by
      have := congrArg (fun t : ℚ => |t|) hxv
      rwa [abs_mul, abs_mul, abs_mul ((L : ℚ) - A), abs_of_pos (show (0 : ℚ) < 1000 * A by linarith), abs_of_pos (by linarith : 0 < P),
        abs_of_nonneg (show (0 : ℚ) ≤ L - A by linarith)] at this
    have xu : |x| ≤ 89 / 10 * 10 ^ 15 := by
      have c1 : ((L : ℚ) - A) * |(ms : ℚ)| ≤ 88179839 * 10 ^ 11 := mul_le_mul (by linarith) hm (abs_nonneg _) (by norm_num)
      have c2 : |x| * (1000 * 1) * (999 / 1000) ≤ |x| * (1000 * A) * P := by gcongr
      rw [hxA] at c2
      linarith
    have third : ∃ d3, |d3| ≤ 1 / 2 ^ 53 ∧ (round binary64 z3 x).Is (x * (1 + d3)) := by
      by_cases hD : A = L
      · have x0 : x = 0 := by rw [hx, hD, sub_self, zero_div]
        rw [x0]
        have := round_is64 (z := 0) (by norm_num) z3
        exact ⟨0, by norm_num, by simpa using this⟩
      · have c0 : (1 : ℚ) ≤ L - A := by
          have : ((A + 1 : ℕ) : ℚ) ≤ L := by exact_mod_cast (by omega : A + 1 ≤ L)
          push_cast at this
          linarith
        have c1 : 1 * 1 ≤ ((L : ℚ) - A) * |(ms : ℚ)| := mul_le_mul c0 hm1 (by norm_num) (by linarith)
        have c2 : |x| * (1000 * A) * P ≤ |x| * (1000 * 88179840) * 2 := by
          have : (A : ℚ) ≤ 88179840 := by linarith
          gcongr
        rw [hxA] at c2
        exact round64_error (le_trans (by norm_num) (by linarith : 1 / (1000 * 88179840 * 2) ≤ |x|)) (le_trans xu (by norm_num)) z3
    obtain ⟨d3, hd3, i3⟩ := third
    rw [← e3] at i3
    have hd3' := abs_le.1 hd3
    set y : ℚ := x * (1 + d3) with hy
    have yu : |y| ≤ 9 * 10 ^ 15 := by
      have a : |1 + d3| ≤ 1 + 1 / 2 ^ 53 := by
        have := abs_add_le 1 d3
        rw [abs_one] at this
        linarith
      rw [hy, abs_mul]
      calc |x| * |1 + d3| ≤ 89 / 10 * 10 ^ 15 * (1 + 1 / 2 ^ 53) := mul_le_mul xu a (abs_nonneg _) (by norm_num)
        _ ≤ 9 * 10 ^ 15 := by norm_num
    obtain ⟨t1, -, t3⟩ := trunc_spec y yu
    have hnew : Stats64.new? cache ms = some ⟨A, percentCached64 cache A, ms,
        ((ofInt binary64 (A : ℤ)).div (ofInt binary64 ms)).mul (lit binary64 1000), asI64 y⟩ := by
      unfold Stats64.new?
      simp only [hAm, hLn, toInt_is i3, t3]
      rfl
    refine ⟨_, hnew, rfl, rfl, share, fun h => absurd h hms, fun _ => ⟨v, i2, ?_⟩, ?_⟩
    · have e : v - 1000 * A / ms = 1000 * A / ms * (P - 1) := by rw [hv, hP]; ring
      rw [e, abs_mul, div_eq_mul_one_div |_| ((2 : ℚ) ^ 50)]
      gcongr
      refine hP1.trans (by norm_num)
    · have A0 : (0 : ℚ) < 1000 * A := by linarith
      have e : (asI64 y : ℚ) * (1000 * A) - (L - A) * ms = (asI64 y - y) * (1000 * A) + x * (1000 * A) * (1 + d3 - P) := by
        rw [← hxv, hy]; ring
      have s1 : |((asI64 y : ℚ) - y) * (1000 * A)| < 1000 * A := by
        rw [abs_mul, abs_of_pos A0]; exact (mul_lt_iff_lt_one_left A0).2 t1
      have s2 : |x * (1000 * A) * (1 + d3 - P)| ≤ |(L - A) * (ms : ℚ)| / 2 ^ 50 := by
        have a : |1 + d3 - P| ≤ 1 / 2 ^ 51 := by
          have := abs_add_le d3 (-(P - 1))
          rw [abs_neg, show d3 + -(P - 1) = 1 + d3 - P by ring] at this
          refine this.trans ((add_le_add hd3 hP1).trans (by norm_num))
        have b : |x * (1000 * A)| ≤ 2 * |(L - A) * (ms : ℚ)| := by
          rw [abs_mul, abs_of_pos A0, abs_mul, abs_of_nonneg (show (0 : ℚ) ≤ L - A by linarith), ← hxA]
          have w0 : 0 ≤ |x| * (1000 * A) := by positivity
          have := mul_le_mul_of_nonneg_left P0 w0
          linarith
        rw [abs_mul]
        calc |x * (1000 * A)| * |1 + d3 - P| ≤ 2 * |(L - A) * (ms : ℚ)| * (1 / 2 ^ 51) :=
              mul_le_mul b a (abs_nonneg _) (by positivity)
          _ = |(L - A) * (ms : ℚ)| / 2 ^ 50 := by ring
      simp only
      rw [e]
      refine lt_of_le_of_lt (abs_add_le _ _) ?_
      linarith

/-- half way after a second; the speed in an unfinished table -/
example : (Stats64.new? [0, 1, 255, 255] 1000).map (fun s => (s.etaSeconds, s.percentCached, s.statesPerSecond)) =
    some (1, .fin false (1 / 2), .fin false 2) := by decide +kernel

end Barbarosa
