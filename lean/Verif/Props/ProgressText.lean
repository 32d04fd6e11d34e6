import Verif.Model.ProgressText
import Verif.Props.FloatStats
import Verif.Props.Progress

/-!
# C99: what the progress messages say
-/

namespace Barbarosa

open Fl

/-! ## Reading numbers -/

theorem digits_inj {a b : Nat} (h : Nat.toDigits 10 a = Nat.toDigits 10 b) : a = b := by
  have := congrArg (fun l => Nat.ofDigitChars 10 l 0) h
  simpa [Nat.ofDigitChars_toDigits] using this

theorem digit_of_mem {n : Nat} {c : Char} (h : c ∈ Nat.toDigits 10 n) : c.isDigit = true :=
  Nat.isDigit_of_mem_toDigits (by decide) (by decide) h

theorem digitChar_ten (d : Nat) (h : d < 10) : (Nat.digitChar d).isDigit = true := by
  interval_cases d <;> decide

/-- text up to a character that does not occur in it -/
theorem append_sep_inj {a b x y : List Char} {c : Char} (ha : c ∉ a) (hb : c ∉ b) (h : a ++ c :: x = b ++ c :: y) : a = b ∧ x = y := by
  induction a generalizing b with
  | nil =>
    cases b with
    | nil => simpa using h
    | cons d b => simp only [List.nil_append, List.cons_append, List.cons.injEq] at h; exact absurd (by simp [h.1]) hb
  | cons e a ih =>
    cases b with
    | nil => simp only [List.nil_append, List.cons_append, List.cons.injEq] at h; exact absurd (by simp [h.1]) ha
    | cons d b =>
      simp only [List.cons_append, List.cons.injEq] at h
      obtain ⟨r1, r2⟩ := ih (fun m => ha (List.mem_cons_of_mem _ m)) (fun m => hb (List.mem_cons_of_mem _ m)) h.2
      exact ⟨by rw [h.1, r1], r2⟩

theorem not_mem_digits {n : Nat} {c : Char} (hc : c.isDigit = false) : c ∉ Nat.toDigits 10 n := fun h => by
  rw [digit_of_mem h] at hc; cases hc

theorem not_mem_hundredths {n : Nat} {c : Char} (hc : c.isDigit = false) (h : c ≠ '.') : c ∉ hundredths n := by
  intro hm
  simp only [hundredths, List.mem_append, List.mem_cons, List.not_mem_nil, or_false] at hm
  rcases hm with hm | hm | hm | hm
  · exact not_mem_digits hc hm
  · exact h hm
  · rw [hm, digitChar_ten _ (by omega)] at hc; cases hc
  · rw [hm, digitChar_ten _ (by omega)] at hc; cases hc

theorem read_digits (a : Nat) (d e : Nat) (hd : d < 10) (he : e < 10) :
    Nat.ofDigitChars 10 (Nat.toDigits 10 a ++ [Nat.digitChar d, Nat.digitChar e]) 0 = a * 100 + d * 10 + e := by
  rw [Nat.ofDigitChars_append, Nat.ofDigitChars_toDigits (by decide) (by decide)]
  interval_cases d <;> interval_cases e <;> simp [Nat.ofDigitChars, Nat.digitChar] <;> omega

/-- **C99** The numbers can be read back: the digits of `n` hundredths without the point are those of `n`, and the point stands before the
last two; integers have their sign before their digits. Different numbers have different texts. -/
theorem C99_numbers :
    (∀ n, Nat.ofDigitChars 10 ((hundredths n).filter (· ≠ '.')) 0 = n ∧ (hundredths n).reverse[2]? = some '.' ∧
      (∀ c ∈ hundredths n, c = '.' ∨ c.isDigit = true) ∧ (hundredths n).length = (Nat.toDigits 10 (n / 100)).length + 3) ∧
    (∀ z : Int, intText z = if z < 0 then '-' :: Nat.toDigits 10 z.natAbs else Nat.toDigits 10 z.natAbs) ∧
    (∀ n m, hundredths n = hundredths m → n = m) ∧ ∀ x y, intText x = intText y → x = y := by
  have read : ∀ n, Nat.ofDigitChars 10 ((hundredths n).filter (· ≠ '.')) 0 = n := by
    intro n
    have h1 : (Nat.toDigits 10 (n / 100)).filter (· ≠ '.') = Nat.toDigits 10 (n / 100) := by
      rw [List.filter_eq_self]
      intro c hc
      simp only [ne_eq, decide_not, Bool.not_eq_true', decide_eq_false_iff_not]
      rintro rfl
      exact not_mem_digits (by decide) hc
    have hd : ∀ d < 10, Nat.digitChar d ≠ '.' := by decide
    unfold hundredths
    rw [List.filter_append, h1]
    simp only [List.filter_cons, ne_eq, not_true_eq_false, decide_false, Bool.false_eq_true, if_false,
      hd _ (Nat.mod_lt _ (by decide : 10 > 0)), not_false_eq_true, decide_true, if_true, List.filter_nil]
    rw [read_digits _ _ _ (Nat.mod_lt _ (by decide)) (Nat.mod_lt _ (by decide))]
    omega
  have hint : ∀ z : Int, intText z = if z < 0 then '-' :: Nat.toDigits 10 z.natAbs else Nat.toDigits 10 z.natAbs := by
    intro z; unfold intText; split <;> simp
  refine ⟨fun n => ⟨read n, ?_, fun c hc => ?_, ?_⟩, hint, fun n m h => ?_, fun x y h => ?_⟩
  · simp [hundredths]
  · by_cases h : c = '.'
    · exact Or.inl h
    · by_cases hd : c.isDigit = true
      · exact Or.inr hd
      · exact absurd hc (not_mem_hundredths (by simpa using hd) h)
  · simp [hundredths]
  · rw [← read n, h, read m]
  · rw [hint, hint] at h
    split at h <;> split at h
    · have := digits_inj (List.cons.inj h).2; omega
    · exact absurd (h ▸ List.mem_cons_self : '-' ∈ Nat.toDigits 10 y.natAbs) (not_mem_digits (by decide))
    · exact absurd (h ▸ List.mem_cons_self : '-' ∈ Nat.toDigits 10 x.natAbs) (not_mem_digits (by decide))
    · have := digits_inj h; omega

example : hundredths 1234 = ['1', '2', '.', '3', '4'] ∧ hundredths 7 = ['0', '.', '0', '7'] ∧ intText (-12) = ['-', '1', '2'] := by decide +kernel

/-! ## One message -/

theorem fixed2_is {x : F64} {q : ℚ} (hx : x.Is q) (h0 : q ≠ 0) :
    ∃ n : Nat, fixed2 x = (if q < 0 then ['-'] else []) ++ hundredths n ∧ |(n : ℚ) - |q| * 100| ≤ 1 / 2 := by
  obtain ⟨s, rfl, hs⟩ := hx
  have hr := roundEven_nonneg (t := |q| * 100) (by positivity)
  refine ⟨(roundEven (|q| * 100)).toNat, ?_, ?_⟩
  · simp only [fixed2, hs h0, decide_eq_true_eq]
  · have e : (((roundEven (|q| * 100)).toNat : ℕ) : ℚ) = (roundEven (|q| * 100) : ℤ) := by
      rw [← Int.cast_natCast, Int.toNat_of_nonneg hr]
    rw [e, abs_sub_comm]
    exact roundEven_near _

/-- the parts of a message about a table with `L` entries of which `A` are filled, after `ms` milliseconds -/
structure MessageParts (A L : Nat) (ms : Int) (percent : Nat) (speed : List Char) (minutes : Int) : Prop where
  percent : |(percent : ℚ) - 10000 * A / L| ≤ 1 / 2 + 1 / 2 ^ 30
  instant : ms = 0 → speed = "inf".toList ∧ minutes = 0
  speed : ms ≠ 0 → ∃ n : Nat, speed = (if ms < 0 then ['-'] else []) ++ hundredths n ∧
    |(n : ℚ) - 100000 * A / (|(ms : ℚ)|)| ≤ 1 / 2 + 1 / 100
  minutes : |(minutes : ℚ) * 60 * (1000 * A) - (L - A) * ms| < 60 * (1000 * A) + |((L : ℚ) - A) * ms| / 2 ^ 50

/-- a message with these parts -/
def messageText (A : Nat) (ms : Int) (percent : Nat) (speed : List Char) (minutes : Int) : List Char :=
  List.replicate (8 - (Nat.toDigits 10 A).length) ' ' ++ Nat.toDigits 10 A ++ " states cached (".toList ++ hundredths percent ++
    "%) in ".toList ++ intText (ms.tdiv 1000) ++ "s at ".toList ++ speed ++ " states/s (ETA: ".toList ++ intText minutes ++ "m)".toList

/-- **C99** What a message says: the number of cached states in a column of eight characters, the share in percent rounded to hundredths, the
seconds since the start, the states per second rounded to hundredths (`inf` if no millisecond has passed), and the remaining time in whole
minutes. -/
theorem C99_text (cache : List Nat) (ms : Int) (h1 : 0 < amountCached cache) (h2 : cache.length ≤ 88179840)
    (h3 : -10 ^ 11 ≤ ms) (h4 : ms ≤ 10 ^ 11) :
    (Nat.toDigits 10 (amountCached cache)).length ≤ 8 ∧
    ∃ s percent speed minutes, Stats64.new? cache ms = some s ∧
      MessageParts (amountCached cache) cache.length ms percent speed minutes ∧
      s.amountCached = amountCached cache ∧ s.display = messageText (amountCached cache) ms percent speed minutes := by
  have hle : amountCached cache ≤ cache.length := List.length_filter_le _ _
  have hlen : (Nat.toDigits 10 (amountCached cache)).length ≤ 8 :=
    (Nat.length_toDigits_le_iff (by decide) (by decide)).2 (by omega)
  refine ⟨hlen, ?_⟩
  obtain ⟨s, g1, g2, g3, ⟨p, p1, p2, -⟩, g5, g6, g7⟩ := C98_stats cache ms h1 h2 h3 h4
  have hA1 : (1 : ℚ) ≤ amountCached cache := by exact_mod_cast h1
  have hAL : (amountCached cache : ℚ) ≤ cache.length := by exact_mod_cast hle
  have hL : (cache.length : ℚ) ≤ 88179840 := by exact_mod_cast h2
  have hshare : percentCached cache (amountCached cache) = (amountCached cache : ℚ) / cache.length := rfl
  rw [hshare] at p2
  -- the share
  have q1 : (amountCached cache : ℚ) / cache.length ≤ 1 := div_le_one_of_le₀ hAL (by linarith)
  have q2 : (1 : ℚ) / 88179840 ≤ amountCached cache / cache.length := by
    rw [div_le_div_iff₀ (by norm_num) (by linarith)]; linarith
  obtain ⟨pl, pu⟩ := abs_le.1 p2
  have q3 : (amountCached cache : ℚ) / cache.length / 2 ^ 53 ≤ amountCached cache / cache.length / 2 := by
    apply div_le_div_of_nonneg_left <;> linarith
  have pp : 0 < p := by linarith
  have pu2 : p ≤ 2 := by linarith
  have pl2 : 1 / 88179840 / 2 ≤ p := by linarith
  have i100 : (lit binary64 100).Is 100 := by
    have := ofInt_is64 (z := 100) (by norm_num)
    push_cast at this
    exact this
  obtain ⟨zs, e⟩ := p1.mul i100
  obtain ⟨d, hd, hi⟩ := round64_error (q := p * 100) (by rw [abs_of_pos (by positivity)]; refine le_trans ?_ (by linarith : 1 / 88179840 ≤ p * 100); norm_num)
    (by rw [abs_of_pos (by positivity)]; refine le_trans (by linarith : p * 100 ≤ 200) ?_; norm_num) zs
  rw [← e] at hi
  obtain ⟨dl, du⟩ := abs_le.1 hd
  have d2 : 0 < 1 + d := by norm_num at dl; linarith
  have hv : 0 < p * 100 * (1 + d) := by positivity
  obtain ⟨n, n1, n2⟩ := fixed2_is hi hv.ne'
  rw [if_neg hv.not_gt, List.nil_append] at n1
  rw [abs_of_pos hv] at n2
  -- the speed
  have sp : ∃ speed, fixed2 s.statesPerSecond = speed ∧ (ms = 0 → speed = "inf".toList) ∧
      (ms ≠ 0 → ∃ n : Nat, speed = (if ms < 0 then ['-'] else []) ++ hundredths n ∧
        |(n : ℚ) - 100000 * amountCached cache / (|(ms : ℚ)|)| ≤ 1 / 2 + 1 / 100) := by
    refine ⟨_, rfl, fun h => by rw [(g5 h).1]; rfl, fun h => ?_⟩
    obtain ⟨v, v1, v2⟩ := g6 h
    have hm0 : (ms : ℚ) ≠ 0 := by exact_mod_cast h
    have hm1 : (1 : ℚ) ≤ |(ms : ℚ)| := by exact_mod_cast Int.one_le_abs h
    have ax : |1000 * (amountCached cache : ℚ) / ms| = 1000 * amountCached cache / |(ms : ℚ)| := by
      rw [abs_div, abs_of_pos (show (0 : ℚ) < 1000 * amountCached cache by linarith)]
    have xpos : 0 < 1000 * (amountCached cache : ℚ) / |(ms : ℚ)| := by positivity
    have xle : 1000 * (amountCached cache : ℚ) / |(ms : ℚ)| ≤ 88179840000 := by
      rw [div_le_iff₀ (by linarith)]
      nlinarith
    rw [ax] at v2
    have v0 : v ≠ 0 := by
      rintro rfl
      rw [zero_sub, abs_neg, ax, le_div_iff₀ (by norm_num)] at v2
      norm_num at v2
      linarith
    obtain ⟨n, m1, m2⟩ := fixed2_is v1 v0
    have sgn : v < 0 ↔ ms < 0 := by
      have hs : ms < 0 ↔ (ms : ℚ) < 0 := by exact_mod_cast Iff.rfl
      rw [hs]
      set X : ℚ := 1000 * (amountCached cache : ℚ) / |(ms : ℚ)| with hX
      have hXs : X / 2 ^ 50 ≤ X / 2 := by apply div_le_div_of_nonneg_left <;> linarith
      obtain ⟨w1, w2⟩ := abs_le.1 v2
      constructor
      · intro hv0
        by_contra hc
        have hpos : 0 < (ms : ℚ) := lt_of_le_of_ne (not_lt.1 hc) (Ne.symm hm0)
        have : 1000 * (amountCached cache : ℚ) / ms = X := by rw [hX, abs_of_pos hpos]
        rw [this] at w1
        linarith
      · intro hneg
        have : 1000 * (amountCached cache : ℚ) / ms = -X := by rw [hX, abs_of_neg hneg, div_neg, neg_neg]
        rw [this] at w2
        linarith
    refine ⟨n, ?_, ?_⟩
    · rw [m1]; simp only [sgn]
    · have a1 : |(|v| - 1000 * (amountCached cache : ℚ) / |(ms : ℚ)|)| ≤ 1000 * (amountCached cache : ℚ) / |(ms : ℚ)| / 2 ^ 50 := by
        refine le_trans ?_ v2
        rw [← ax]
        exact abs_abs_sub_abs_le_abs_sub _ _
      have a2 : 1000 * (amountCached cache : ℚ) / |(ms : ℚ)| / 2 ^ 50 ≤ 88179840000 / 2 ^ 50 := by gcongr
      have a3 : (n : ℚ) - 100000 * amountCached cache / |(ms : ℚ)| =
          ((n : ℚ) - |v| * 100) + (|v| - 1000 * (amountCached cache : ℚ) / |(ms : ℚ)|) * 100 := by ring
      rw [a3]
      refine (abs_add_le _ _).trans (add_le_add m2 ?_)
      rw [abs_mul, abs_of_pos (by norm_num : (0 : ℚ) < 100)]
      have : (88179840000 : ℚ) / 2 ^ 50 * 100 ≤ 1 / 100 := by norm_num
      linarith
  obtain ⟨speed, s1, s2, s3⟩ := sp
  refine ⟨s, n, speed, s.etaSeconds.tdiv 60, g1, ⟨?_, fun h => ⟨s2 h, by rw [(g5 h).2]; rfl⟩, s3, ?_⟩, g2, ?_⟩
  · set Q : ℚ := (amountCached cache : ℚ) / cache.length with hQ
    have e1 : (n : ℚ) - 10000 * amountCached cache / cache.length =
        ((n : ℚ) - p * 100 * (1 + d) * 100) + (10000 * (p - Q) + 10000 * p * d) := by
      rw [mul_div_assoc, ← hQ]; ring
    rw [e1]
    refine (abs_add_le _ _).trans (add_le_add n2 ?_)
    refine (abs_add_le _ _).trans ?_
    rw [abs_mul, abs_mul, abs_of_pos (by norm_num : (0 : ℚ) < 10000), abs_of_pos (by positivity : (0 : ℚ) < 10000 * p)]
    have b1 : 10000 * |p - Q| ≤ 10000 * (1 / 2 ^ 53) := by
      have : Q / 2 ^ 53 ≤ 1 / 2 ^ 53 := by gcongr
      linarith
    have b2 : 10000 * p * |d| ≤ 10000 * 2 * (1 / 2 ^ 53) := by gcongr
    have : (10000 : ℚ) * (1 / 2 ^ 53) + 10000 * 2 * (1 / 2 ^ 53) ≤ 1 / 2 ^ 30 := by norm_num
    linarith
  · have t1 : |((s.etaSeconds.tdiv 60 : ℤ) : ℚ) * 60 - s.etaSeconds| ≤ 59 := by
      have : |(s.etaSeconds.tdiv 60) * 60 - s.etaSeconds| ≤ 59 := by
        rw [abs_le]
        rcases Int.le_total 0 s.etaSeconds with h | h
        · rw [Int.tdiv_eq_ediv_of_nonneg h]; omega
        · have := Int.neg_tdiv s.etaSeconds 60
          rw [Int.tdiv_eq_ediv_of_nonneg (by omega)] at this
          omega
      exact_mod_cast this
    have e1 : ((s.etaSeconds.tdiv 60 : ℤ) : ℚ) * 60 * (1000 * amountCached cache) - (cache.length - amountCached cache) * ms =
        (((s.etaSeconds.tdiv 60 : ℤ) : ℚ) * 60 - s.etaSeconds) * (1000 * amountCached cache) +
        ((s.etaSeconds : ℚ) * (1000 * amountCached cache) - (cache.length - amountCached cache) * ms) := by ring
    rw [e1]
    refine lt_of_le_of_lt (abs_add_le _ _) ?_
    rw [abs_mul, abs_of_pos (show (0 : ℚ) < 1000 * amountCached cache by linarith)]
    have : |((s.etaSeconds.tdiv 60 : ℤ) : ℚ) * 60 - s.etaSeconds| * (1000 * amountCached cache) ≤ 59 * (1000 * amountCached cache) := by
      gcongr
    linarith
  · unfold Stats64.display messageText padLeft
    rw [g2, g3, n1, s1]

/-- half of a small table after a second: three of six states -/
example : ∃ s percent speed minutes, Stats64.new? [0, 1, 1, 255, 255, 255] 1000 = some s ∧ MessageParts 3 6 1000 percent speed minutes ∧
    s.display = messageText 3 1000 percent speed minutes := by
  obtain ⟨-, s, p, v, m, h1, h2, -, h3⟩ := C99_text [0, 1, 1, 255, 255, 255] 1000 (by decide) (by decide) (by decide) (by decide)
  exact ⟨s, p, v, m, h1, h2, h3⟩

/-- the number before the share -/
theorem column_inj {A B : Nat} {x y : List Char} {c : Char} (hA : (Nat.toDigits 10 A).length ≤ 8)
    (hB : (Nat.toDigits 10 B).length ≤ 8)
    (h : List.replicate (8 - (Nat.toDigits 10 A).length) ' ' ++ Nat.toDigits 10 A ++ c :: x =
      List.replicate (8 - (Nat.toDigits 10 B).length) ' ' ++ Nat.toDigits 10 B ++ c :: y) : A = B ∧ x = y := by
  have hl : ∀ n, (Nat.toDigits 10 n).length ≤ 8 →
      (List.replicate (8 - (Nat.toDigits 10 n).length) ' ' ++ Nat.toDigits 10 n).length = 8 := by
    intro n hn; simp; omega
  obtain ⟨h1, h2⟩ := List.append_inj h ((hl A hA).trans (hl B hB).symm)
  have strip : ∀ n, (List.replicate (8 - (Nat.toDigits 10 n).length) ' ' ++ Nat.toDigits 10 n).filter (·.isDigit) =
      Nat.toDigits 10 n := by
    intro n
    rw [List.filter_append, List.filter_replicate, if_neg (by decide), List.nil_append, List.filter_eq_self]
    exact fun c hc => digit_of_mem hc
  have h3 := congrArg (List.filter (·.isDigit)) h1
  rw [strip, strip] at h3
  exact ⟨digits_inj h3, (List.cons.inj h2).2⟩

/-- **C99** A message shows the number of cached states and the share: messages with different numbers of states or different hundredths of a
percent are different texts. -/
theorem C99_readable {A B p q : Nat} {ms ms' : Int} {speed speed' : List Char} {minutes minutes' : Int}
    (hA : A ≤ 88179840) (hB : B ≤ 88179840) (h : messageText A ms p speed minutes = messageText B ms' q speed' minutes') :
    A = B ∧ p = q ∧ ms.tdiv 1000 = ms'.tdiv 1000 := by
  have hl : ∀ n, n ≤ 88179840 → (Nat.toDigits 10 n).length ≤ 8 := fun n hn =>
    (Nat.length_toDigits_le_iff (by decide) (by decide)).2 (by omega)
  unfold messageText at h
  simp only [List.append_assoc] at h
  rw [← List.append_assoc, ← List.append_assoc (List.replicate (8 - (Nat.toDigits 10 B).length) ' ')] at h
  have e1 : ∀ x, " states cached (".toList ++ x = ' ' :: ("states cached (".toList ++ x) := fun _ => rfl
  rw [e1, e1] at h
  obtain ⟨h1, h2⟩ := column_inj (hl A hA) (hl B hB) h
  have h3 := List.append_cancel_left h2
  have e2 : ∀ x, "%) in ".toList ++ x = '%' :: (") in ".toList ++ x) := fun _ => rfl
  rw [e2, e2] at h3
  obtain ⟨h4, h5⟩ := append_sep_inj (not_mem_hundredths (by decide) (by decide)) (not_mem_hundredths (by decide) (by decide)) h3
  have h6 := List.append_cancel_left h5
  have e3 : ∀ x, "s at ".toList ++ x = 's' :: (" at ".toList ++ x) := fun _ => rfl
  rw [e3, e3] at h6
  have hs : ∀ z, 's' ∉ intText z := by
    intro z hm
    rw [C99_numbers.2.1] at hm
    split at hm
    · rcases List.mem_cons.1 hm with h | h
      · exact absurd h (by decide)
      · exact not_mem_digits (by decide) h
    · exact not_mem_digits (by decide) hm
  obtain ⟨h7, -⟩ := append_sep_inj (hs _) (hs _) h6
  exact ⟨h1, C99_numbers.2.2.1 _ _ h4, C99_numbers.2.2.2 _ _ h7⟩

/-- texts with different numbers of states are different, whatever else they say -/
example (p q : Nat) (ms ms' : Int) (v v' : List Char) (m m' : Int) : messageText 1 ms p v m ≠ messageText 11 ms' q v' m' :=
  fun h => absurd (C99_readable (by decide) (by decide) h).1 (by decide)

/-- the text says that everything is cached -/
def SaysHundred (A : Nat) (text : List Char) : Prop :=
  ∃ ms speed minutes, text = messageText A ms 10000 speed minutes

/-- **C99** `100.00%` is shown for a finished table, but also when about one state in 20000 is missing. -/
theorem C99_hundred (cache : List Nat) (ms : Int) (h1 : 0 < amountCached cache) (h2 : cache.length ≤ 88179840)
    (h3 : -10 ^ 11 ≤ ms) (h4 : ms ≤ 10 ^ 11) : ∃ s, Stats64.new? cache ms = some s ∧
      (20001 * (cache.length - amountCached cache) ≤ cache.length → SaysHundred (amountCached cache) s.display) ∧
      (SaysHundred (amountCached cache) s.display → 19999 * (cache.length - amountCached cache) ≤ cache.length) := by
  obtain ⟨-, s, p, speed, minutes, g1, g2, -, g3⟩ := C99_text cache ms h1 h2 h3 h4
  have hle : amountCached cache ≤ cache.length := List.length_filter_le _ _
  have hp := g2.percent
  have hL : (0 : ℚ) < cache.length := by exact_mod_cast lt_of_lt_of_le h1 hle
  have e : (10000 * (amountCached cache : ℚ) / cache.length) = 10000 - 10000 * ((cache.length - amountCached cache : ℕ) : ℚ) / cache.length := by
    rw [Nat.cast_sub hle]; field_simp; ring
  rw [e] at hp
  obtain ⟨a, b⟩ := abs_le.1 hp
  set m : ℕ := cache.length - amountCached cache with hm
  set x : ℚ := 10000 * (m : ℚ) / cache.length with hx
  have hx0 : 0 ≤ x := by positivity
  refine ⟨s, g1, fun h => ?_, fun h => ?_⟩
  · have h' : (20001 : ℚ) * m ≤ cache.length := by exact_mod_cast h
    have hx1 : x ≤ 10000 / 20001 := by
      rw [hx, div_le_div_iff₀ hL (by norm_num)]; linarith
    have c1 : (p : ℚ) < (10001 : ℕ) := by push_cast; linarith
    have c2 : ((9999 : ℕ) : ℚ) < p := by push_cast; linarith
    have : p = 10000 := by
      have := Nat.cast_lt.1 c1
      have := Nat.cast_lt.1 c2
      omega
    subst this
    exact ⟨ms, speed, minutes, g3⟩
  · obtain ⟨ms', speed', minutes', h⟩ := h
    rw [g3] at h
    have hp := (C99_readable (by omega) (by omega) h).2.1
    rw [hp] at a b
    norm_num at a b
    have hx1 : x ≤ 10000 / 19999 := by norm_num; linarith
    rw [hx, div_le_div_iff₀ hL (by norm_num)] at hx1
    have : (19999 : ℚ) * m ≤ cache.length := by linarith
    exact_mod_cast this

/-- **C99** (finding) The share that is printed is 100.00% before the table is finished: with up to 2128 of the 42577920 states of the edge
table missing, or up to 4408 of the 88179840 of the corner table. -/
theorem C99_hundred_early (cache : List Nat) (ms : Int) (h3 : -10 ^ 11 ≤ ms) (h4 : ms ≤ 10 ^ 11)
    (h : cache.length = 42577920 ∧ cache.length - amountCached cache ≤ 2128 ∨
      cache.length = 88179840 ∧ cache.length - amountCached cache ≤ 4408) :
    ∃ s, Stats64.new? cache ms = some s ∧ SaysHundred (amountCached cache) s.display := by
  obtain ⟨s, g1, g2, -⟩ := C99_hundred cache ms (by omega) (by omega) h3 h4
  exact ⟨s, g1, g2 (by omega)⟩

/-- a cache of the size of the edge table in which one state is missing: 100.00% is announced -/
example : amountCached (List.replicate 42577919 7 ++ [255]) = 42577919 ∧
    ∃ s, Stats64.new? (List.replicate 42577919 7 ++ [255]) 60000 = some s ∧ SaysHundred 42577919 s.display := by
  have e : amountCached (List.replicate 42577919 7 ++ [255]) = 42577919 := by
    unfold amountCached
    rw [List.filter_append, List.filter_replicate, if_pos (by decide)]
    simp only [List.length_append, List.length_replicate]
    rfl
  have l : (List.replicate 42577919 7 ++ [255]).length = 42577920 := by
    rw [List.length_append, List.length_replicate]; rfl
  have := C99_hundred_early (List.replicate 42577919 7 ++ [255]) 60000 (by norm_num) (by norm_num)
    (Or.inl ⟨l, by rw [e, l]; norm_num⟩)
  rw [e] at this
  exact ⟨e, this⟩

/-! ## All messages -/

/-- the message of the round for depth `depth` in which `A` of `L` states are known after `ms` milliseconds -/
def RoundText (L depth A : Nat) (ms : Int) (text : List Char) : Prop :=
  ∃ percent speed minutes, MessageParts A L ms percent speed minutes ∧
    (A = L → text = "Finished caching! ".toList ++ messageText A ms percent speed minutes) ∧
    (A ≠ L → text = "Caching at depth ".toList ++ Nat.toDigits 10 depth ++ "; ".toList ++ messageText A ms percent speed minutes)

theorem roundMessage_text {cache : List Nat} {ms : Int} (depth : Nat) (h1 : 0 < amountCached cache) (h2 : cache.length ≤ 88179840)
    (h3 : -10 ^ 11 ≤ ms) (h4 : ms ≤ 10 ^ 11) : ∃ s, Stats64.new? cache ms = some s ∧ s.amountCached = amountCached cache ∧
      RoundText cache.length depth (amountCached cache) ms (roundMessage cache.length depth s) := by
  obtain ⟨-, s, p, speed, minutes, g1, g2, g3, g4⟩ := C99_text cache ms h1 h2 h3 h4
  refine ⟨s, g1, g3, p, speed, minutes, g2, fun h => ?_, fun h => ?_⟩
  · rw [roundMessage, g3, if_pos h, g4]
  · rw [roundMessage, g3, if_neg h, g4]

section
variable {T : Type} [Deindexable T] [Movable T AxisMove] {Good : T → Prop} {start : T}

theorem amount_pos (laws : TableLaws T Good start) {c : List Nat} {d : Nat} (hd : d < 255) (h : UpTo Good start c d) :
    0 < amountCached c := by
  obtain ⟨e, h1, h2⟩ := h.2 start 0 laws.start_good laws.start_index
  unfold amountCached
  rw [List.length_pos_iff]
  intro hn
  rw [List.filter_eq_nil_iff] at hn
  apply hn e (List.mem_of_getElem? h1)
  rcases h2 with ⟨h2, -⟩ | ⟨-, h2⟩
  · have : e ≠ 255 := by omega
    simp [entryGet, this]
  · exact absurd (h2 [] rfl) (by simp)

theorem texts_spec (laws : TableLaws T Good start) (clock : Nat → Int) (hclock : ∀ k, -10 ^ 11 ≤ clock k ∧ clock k ≤ 10 ^ 11)
    (htot : Deindexable.TOTAL_SET_SIZE T ≤ 88179840) :
    ∀ (left d : Nat) (c : List Nat), left + d ≤ 254 → UpTo Good start c d → ∀ log t, buildLoopLog T left (d + 1) c = some (log, t) →
      ∃ texts, buildLoopText T clock left (d + 1) c = some (texts, t) ∧
        List.Forall₂ (fun x text => RoundText (Deindexable.TOTAL_SET_SIZE T) x.1 x.2 (clock x.1) text) log texts
  | 0, d, c, _, _, log, t, h => by cases h
  | left + 1, d, c, hl, hc, log, t, h => by
    obtain ⟨s, g1, g2, g3⟩ := roundMessage_text (cache := c) (ms := clock (d + 1)) (d + 1) (amount_pos laws (by omega) hc)
      (by rw [hc.1]; exact htot) (hclock _).1 (hclock _).2
    rw [hc.1] at g3
    unfold buildLoopLog at h
    unfold buildLoopText
    simp only [g1, g2]
    simp only at h
    split at h
    · rename_i hfull
      simp only [Option.some.injEq, Prod.mk.injEq] at h
      obtain ⟨rfl, rfl⟩ := h
      rw [if_pos hfull]
      exact ⟨_, rfl, List.Forall₂.cons g3 List.Forall₂.nil⟩
    · rename_i hfull
      rw [if_neg hfull]
      obtain ⟨c', k1, k2⟩ := hc.step laws (by omega)
      rw [k1] at h ⊢
      simp only [Option.map_eq_some_iff, Prod.exists, Prod.mk.injEq] at h
      obtain ⟨log', t', h1, rfl, rfl⟩ := h
      obtain ⟨texts, m1, m2⟩ := texts_spec laws clock hclock htot left (d + 1) c' (by omega) k2 log' t' h1
      simp only [m1, Option.map_some]
      exact ⟨_, rfl, List.Forall₂.cons g3 m2⟩

end

/-- what is announced while the table of `T` is built from `start`: the file, then one line per depth with the number of states that take fewer
moves than that, then the end -/
def Announces {T : Type} [Movable T AxisMove] (start : T) (file : List Char) (L : Nat) (clock : Nat → Int) (saved : Bool)
    (messages : List (List Char)) : Prop :=
  ∃ rounds : List (List Char), 8 ≤ rounds.length ∧ rounds.length ≤ 17 ∧
    messages = ["Building partial cache for ".toList ++ file ++ ".".toList] ++ rounds ++
      ["Caching done! Attempting to save to disk.".toList, "Writing cache to disk".toList] ++
      (if saved then ["Cache has been written".toList, "Cache saved to disk.".toList] else []) ∧
    (∀ k text, rounds[k]? = some text → RoundText L (k + 1) (ballSize start k) (clock (k + 1)) text) ∧
    ∀ k, k < rounds.length → (ballSize start k = L ↔ k + 1 = rounds.length)

theorem announces {T : Type} [DiskCacheable T] [Movable T AxisMove] {Good : T → Prop} {start : T} (laws : TableLaws T Good start)
    (clock : Nat → Int) (hclock : ∀ k, -10 ^ 11 ≤ clock k ∧ clock k ≤ 10 ^ 11) (saved : Bool) (L : Nat)
    (hL : Deindexable.TOTAL_SET_SIZE T = L) (hpos : 0 < L) (htot : L ≤ 88179840) {log : List (Nat × Nat)} {t : List Nat}
    (h1 : buildTableLog? T = some (log, t)) (h2 : buildTable? T = some t)
    (h3 : ∀ k x, log[k]? = some x → x = (k + 1, ballSize start k)) (h4 : (log.map (·.2)).Pairwise (· < ·))
    (h5 : (log.getLast?).map (·.2) = some L) (h6 : 8 ≤ log.length) (h7 : log.length ≤ 17) :
    ∃ messages t, buildMessages? T clock saved = some (messages, t) ∧ buildTable? T = some t ∧
      Announces start (DiskCacheable.PATH T).text L clock saved messages := by
  unfold buildTableLog? at h1
  rw [if_pos (by rw [hL]; exact hpos)] at h1
  obtain ⟨texts, g1, g2⟩ := texts_spec laws clock hclock (by rw [hL]; exact htot) 254 0 _ (by omega)
    (UpTo.initial laws (by rw [hL]; exact hpos)) log t h1
  rw [hL] at g2
  have hlen := g2.length_eq
  have hget : ∀ k (hk : k < log.length), log[k] = (k + 1, ballSize start k) := fun k hk =>
    h3 k _ (List.getElem?_eq_getElem hk)
  have hlast : ballSize start (log.length - 1) = L := by
    rw [List.getLast?_eq_getElem?, List.getElem?_eq_getElem (by omega), hget _ (by omega)] at h5
    simpa using h5
  refine ⟨_, t, ?_, h2, texts, by omega, by omega, rfl, fun k text hk => ?_, fun k hk => ⟨fun e => ?_, fun e => ?_⟩⟩
  · unfold buildMessages?
    rw [if_pos (by rw [hL]; exact hpos), show (1 : Nat) = 0 + 1 from rfl, g1]
    rfl
  · have hk' : k < texts.length := (List.getElem?_eq_some_iff.1 hk).1
    have := (List.forall₂_iff_get.1 g2).2 k (by omega) hk'
    simp only [List.get_eq_getElem, hget k (by omega)] at this
    rw [List.getElem?_eq_getElem hk'] at hk
    rwa [← Option.some.inj hk]
  · by_contra hne
    rw [List.pairwise_iff_getElem] at h4
    have := h4 k (log.length - 1) (by simp; omega) (by simp; omega) (by omega)
    simp only [List.getElem_map, hget k (by omega), hget (log.length - 1) (by omega)] at this
    omega
  · rw [show k = log.length - 1 by omega, hlast]

/-- **C99** Everything that is announced while the corner table is built: its file, then for each depth the number of arrangements that take
fewer moves with the statistics at that time, "Finished caching!" exactly in the last of these, then that the table is stored. The
messages do not change the table, and no clock (within three years) makes them panic. -/
theorem C99_corners (clock : Nat → Int) (hclock : ∀ k, -10 ^ 11 ≤ clock k ∧ clock k ≤ 10 ^ 11) (saved : Bool) :
    ∃ messages t, buildMessages? CornersMUS clock saved = some (messages, t) ∧ buildTable? CornersMUS = some t ∧
      Announces (T := CornersMUS) Cube3.SOLVED.corners "mus-cache/corners.barbarosa".toList 88179840 clock saved messages := by
  obtain ⟨log, t, h1, h2, h3, -, h4, h5, h6⟩ := C76_corners
  exact announces corners_laws clock hclock saved 88179840 total_corners (by decide) (by decide) h1 h2 h3 h4 h5
    (by rw [h6]; decide) (by rw [h6]; decide)

/-- **C99** The same for the edge table. -/
theorem C99_edges (clock : Nat → Int) (hclock : ∀ k, -10 ^ 11 ≤ clock k ∧ clock k ≤ 10 ^ 11) (saved : Bool) :
    ∃ messages t, buildMessages? HalfEdgesMUS clock saved = some (messages, t) ∧ buildTable? HalfEdgesMUS = some t ∧
      Announces (firstEdges Cube3.SOLVED) "mus-cache/edges.barbarosa".toList 42577920 clock saved messages := by
  obtain ⟨log, t, h1, h2, h3, -, h4, h5, h6, h7⟩ := C76_edges
  exact announces halfEdges_laws clock hclock saved 42577920 total_edges (by decide) (by decide) h1 h2 h3 h4 h5 h6
    (h7.trans (by decide))

/-- a clock that shows one minute per depth -/
example : ∀ k, -10 ^ 11 ≤ (fun d : Nat => (min d 254 : Int) * 60000) k ∧ (fun d : Nat => (min d 254 : Int) * 60000) k ≤ 10 ^ 11 := by
  intro k
  simp only
  omega

/-- **C99** A release build prints nothing. A debug build prints one line per message: the time of day, the message, and the file in brackets. -/
theorem C99_printed (file : FileName) (stamps messages : List (List Char)) :
    printedLines false file stamps messages = [] ∧
    (stamps.length = messages.length → (printedLines true file stamps messages).length = messages.length ∧
      ∀ (k : Nat) (stamp msg : List Char), stamps[k]? = some stamp → messages[k]? = some msg →
        (printedLines true file stamps messages)[k]? =
          some (stamp ++ ": ".toList ++ msg ++ (match file with
            | .corners => " (mus-cache/corners.barbarosa)".toList
            | .edges => " (mus-cache/edges.barbarosa)".toList))) := by
  refine ⟨rfl, fun h => ⟨?_, fun k stamp msg h1 h2 => ?_⟩⟩
  · unfold printedLines
    rw [if_pos rfl, List.length_zipWith, h, Nat.min_self]
  · unfold printedLines
    rw [if_pos rfl, List.getElem?_zipWith, h1, h2]
    simp only [List.append_assoc]
    cases file
    · have e : " (".toList ++ (FileName.corners.text ++ ")".toList) = " (mus-cache/corners.barbarosa)".toList := by decide +kernel
      rw [e]
    · have e : " (".toList ++ (FileName.edges.text ++ ")".toList) = " (mus-cache/edges.barbarosa)".toList := by decide +kernel
      rw [e]

/-- the first message of the edge table after two and a half seconds -/
example : (Stats64.new? ((List.replicate 42577920 255).set 0 0) 2500).isSome = true := by
  have e : (List.replicate 42577920 255).set 0 0 = 0 :: List.replicate 42577919 255 := by
    rw [List.replicate_succ, List.set_cons_zero]
  have a : amountCached ((List.replicate 42577920 255).set 0 0) = 1 := by
    rw [e]
    unfold amountCached
    rw [List.filter_cons, if_pos (by decide), List.filter_replicate, if_neg (by decide)]
    rfl
  obtain ⟨s, h, -⟩ := C99_hundred ((List.replicate 42577920 255).set 0 0) 2500 (by rw [a]; decide)
    (by rw [List.length_set, List.length_replicate]; decide) (by norm_num) (by norm_num)
  rw [h]; rfl

end Barbarosa
