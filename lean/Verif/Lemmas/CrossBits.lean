import Verif.Lemmas.Solve
import Mathlib.Data.Nat.Bitwise

/-!
# All arrangements of four edges that are `n` turns away from home, as one number

An arrangement of four edges is a number with four digits in base 24, a set of arrangements is a number whose bits say which
arrangements belong to it. One turn of the four edges then is a handful of shifts and masks, which the kernel does fast.
-/

namespace Barbarosa.Bits

/-- union of `n` copies of `B`, each `s` further than the one before -/
def spread (B s : Nat) : Nat → Nat
  | 0 => 0
  | n + 1 => spread B s n ||| (B <<< (n * s))

/-- the codes with four digits in base 24 whose digit number `k` (of weight `24 ^ k`) is 0 -/
def zeroDigit : Nat → Nat
  | 0 => spread (spread (spread (2 ^ 1 - 1) 24 24) 576 24) 13824 24
  | 1 => spread (spread (2 ^ 24 - 1) 576 24) 13824 24
  | 2 => spread (2 ^ 576 - 1) 13824 24
  | _ => 2 ^ 13824 - 1

/-- the union of `g x` for the elements `x` of a list -/
def unions {α : Type} (g : α → Nat) (a : Nat) (l : List α) : Nat := l.foldl (fun acc x => acc ||| g x) a

/-- the codes whose digit is none of the first components of `ps` -/
def fixedDigit (Z w : Nat) (ps : List (Nat × Nat)) : Nat :=
  unions (fun x => Z <<< (x * w)) 0 ((List.range 24).filter fun x => !ps.any fun p => p.1 == x)

/-- digits `p.1` become `p.2` -/
def permDigit (Z w : Nat) (ps : List (Nat × Nat)) (S : Nat) : Nat :=
  unions (fun p : Nat × Nat => ((S >>> (p.1 * w)) &&& Z) <<< (p.2 * w)) (S &&& fixedDigit Z w ps) ps

/-- the codes that are changed by `g` -/
def pairs (g : Nat → Nat) : List (Nat × Nat) := ((List.range 24).map fun x => (x, g x)).filter fun p => p.1 != p.2

/-- `g` on all four digits -/
def permAll (g : Nat → Nat) (S : Nat) : Nat :=
  permDigit (zeroDigit 3) 13824 (pairs g) (permDigit (zeroDigit 2) 576 (pairs g)
    (permDigit (zeroDigit 1) 24 (pairs g) (permDigit (zeroDigit 0) 1 (pairs g) S)))

theorem testBit_spread (B s n i : Nat) : (spread B s n).testBit i = true ↔ ∃ x < n, x * s ≤ i ∧ B.testBit (i - x * s) = true := by
  induction n with
  | zero => simp [spread]
  | succ n ih =>
    unfold spread
    rw [Nat.testBit_or, Bool.or_eq_true, ih, Nat.testBit_shiftLeft, Bool.and_eq_true, decide_eq_true_eq]
    constructor
    · rintro (⟨x, h1, h2⟩ | h)
      · exact ⟨x, by omega, h2⟩
      · exact ⟨n, by omega, h⟩
    · rintro ⟨x, h1, h2⟩
      rcases Nat.lt_succ_iff_lt_or_eq.1 h1 with h | rfl
      · exact .inl ⟨x, h, h2⟩
      · exact .inr h2

theorem testBit_unions {α : Type} (g : α → Nat) (a i : Nat) (l : List α) :
    (unions g a l).testBit i = true ↔ a.testBit i = true ∨ ∃ x ∈ l, (g x).testBit i = true := by
  unfold unions
  induction l generalizing a with
  | nil => simp
  | cons y l ih =>
    rw [List.foldl_cons, ih, Nat.testBit_or, Bool.or_eq_true]
    simp only [List.mem_cons, exists_eq_or_imp]
    tauto

/-- what the masks are: the codes whose digit of weight `w` is 0 -/
def IsZero (Z w : Nat) : Prop := ∀ i, Z.testBit i = true ↔ i < 331776 ∧ i / w % 24 = 0

theorem zeroDigit_ok : IsZero (zeroDigit 0) 1 ∧ IsZero (zeroDigit 1) 24 ∧ IsZero (zeroDigit 2) 576 ∧ IsZero (zeroDigit 3) 13824 := by
  refine ⟨fun i => ?_, fun i => ?_, fun i => ?_, fun i => ?_⟩
  · show (spread (spread (spread (2 ^ 1 - 1) 24 24) 576 24) 13824 24).testBit i = true ↔ _
    simp only [testBit_spread, Nat.testBit_two_pow_sub_one, decide_eq_true_eq, Nat.div_one]
    constructor
    · rintro ⟨x, h1, h2, y, h3, h4, z, h5, h6, h7⟩; omega
    · rintro ⟨h1, h2⟩
      exact ⟨i / 13824, by omega, by omega, i / 576 % 24, by omega, by omega, i / 24 % 24, by omega, by omega, by omega⟩
  · show (spread (spread (2 ^ 24 - 1) 576 24) 13824 24).testBit i = true ↔ _
    simp only [testBit_spread, Nat.testBit_two_pow_sub_one, decide_eq_true_eq]
    constructor
    · rintro ⟨x, h1, h2, y, h3, h4, h5⟩; omega
    · rintro ⟨h1, h2⟩
      exact ⟨i / 13824, by omega, by omega, i / 576 % 24, by omega, by omega, by omega⟩
  · show (spread (2 ^ 576 - 1) 13824 24).testBit i = true ↔ _
    simp only [testBit_spread, Nat.testBit_two_pow_sub_one, decide_eq_true_eq]
    constructor
    · rintro ⟨x, h1, h2, h3⟩; omega
    · rintro ⟨h1, h2⟩
      exact ⟨i / 13824, by omega, by omega, by omega⟩
  · show (2 ^ 13824 - 1).testBit i = true ↔ _
    rw [Nat.testBit_two_pow_sub_one, decide_eq_true_eq]
    omega

/-- the weights -/
def IsWeight (w : Nat) : Prop := w = 1 ∨ w = 24 ∨ w = 576 ∨ w = 13824

/-- the code with the digit of weight `w` replaced -/
def putDigit (w x i : Nat) : Nat := i - i / w % 24 * w + x * w

theorem putDigit_lt {w x i : Nat} (hw : IsWeight w) (hx : x < 24) (hi : i < 331776) :
    putDigit w x i < 331776 ∧ putDigit w x i / w % 24 = x ∧ ∀ y, putDigit w y (putDigit w x i) = putDigit w y i := by
  unfold putDigit
  rcases hw with rfl | rfl | rfl | rfl <;> refine ⟨by omega, by omega, fun y => by omega⟩

theorem putDigit_self {w i : Nat} (hw : IsWeight w) (hi : i < 331776) : putDigit w (i / w % 24) i = i := by
  unfold putDigit
  rcases hw with rfl | rfl | rfl | rfl <;> omega

theorem testBit_shiftZero {Z w x i : Nat} (hZ : IsZero Z w) (hw : IsWeight w) (hx : x < 24) (hi : i < 331776) :
    (Z <<< (x * w)).testBit i = true ↔ i / w % 24 = x := by
  rw [Nat.testBit_shiftLeft, Bool.and_eq_true, decide_eq_true_eq, hZ]
  rcases hw with rfl | rfl | rfl | rfl <;> omega

theorem testBit_moveDigit {Z w x y S i : Nat} (hZ : IsZero Z w) (hw : IsWeight w) (hy : y < 24) (hi : i < 331776) :
    (((S >>> (x * w)) &&& Z) <<< (y * w)).testBit i = true ↔ i / w % 24 = y ∧ S.testBit (putDigit w x i) = true := by
  rw [Nat.testBit_shiftLeft, Bool.and_eq_true, decide_eq_true_eq, Nat.testBit_and, Bool.and_eq_true, hZ, Nat.testBit_shiftRight]
  unfold putDigit
  constructor
  · rintro ⟨h1, h2, h3, h4⟩
    have h5 : i / w % 24 = y := by rcases hw with rfl | rfl | rfl | rfl <;> omega
    refine ⟨h5, ?_⟩
    rw [h5]
    rwa [Nat.add_comm] at h2
  · rintro ⟨rfl, h2⟩
    refine ⟨?_, ?_, ?_, ?_⟩
    · rcases hw with rfl | rfl | rfl | rfl <;> omega
    · rwa [Nat.add_comm]
    · omega
    · rcases hw with rfl | rfl | rfl | rfl <;> omega

theorem testBit_fixedDigit {Z w i : Nat} (hZ : IsZero Z w) (hw : IsWeight w) (hi : i < 331776) (ps : List (Nat × Nat)) :
    (fixedDigit Z w ps).testBit i = true ↔ ∀ p ∈ ps, p.1 ≠ i / w % 24 := by
  unfold fixedDigit
  rw [testBit_unions]
  simp only [Nat.zero_testBit, Bool.false_eq_true, false_or, List.mem_filter, List.mem_range, Bool.not_eq_true', List.any_eq_false,
    beq_iff_eq]
  constructor
  · rintro ⟨x, ⟨h1, h2⟩, h3⟩
    rw [testBit_shiftZero hZ hw h1 hi] at h3
    subst h3
    exact h2
  · intro h
    exact ⟨i / w % 24, ⟨Nat.mod_lt _ (by decide), h⟩, (testBit_shiftZero hZ hw (Nat.mod_lt _ (by decide)) hi).2 rfl⟩

/-- permuting one digit of the members of a set -/
theorem testBit_permDigit {Z w S i x : Nat} {g : Nat → Nat} (hZ : IsZero Z w) (hw : IsWeight w) (hg : ∀ x < 24, g x < 24)
    (hinj : ∀ x < 24, ∀ y < 24, g x = g y → x = y) (hi : i < 331776) (hx : x < 24) :
    (permDigit Z w (pairs g) S).testBit (putDigit w (g x) i) = true ↔ S.testBit (putDigit w x i) = true := by
  obtain ⟨h1, h2, h3⟩ := putDigit_lt hw (hg x hx) hi
  have hmem : ∀ p : Nat × Nat, p ∈ pairs g ↔ p.1 < 24 ∧ p.2 = g p.1 ∧ p.1 ≠ p.2 := by
    rintro ⟨a, b⟩
    simp only [pairs, List.mem_filter, List.mem_map, List.mem_range, Prod.mk.injEq, bne_iff_ne, ne_eq]
    constructor
    · rintro ⟨⟨y, hy, rfl, rfl⟩, h⟩; exact ⟨hy, rfl, h⟩
    · rintro ⟨h1, rfl, h2⟩; exact ⟨⟨a, h1, rfl, rfl⟩, h2⟩
  unfold permDigit
  rw [testBit_unions, Nat.testBit_and, Bool.and_eq_true, testBit_fixedDigit hZ hw h1, h2]
  constructor
  · rintro (⟨h4, h5⟩ | ⟨p, hp, h4⟩)
    · by_cases hgx : g (g x) = g x
      · have := hinj _ (hg x hx) _ hx hgx
        rwa [this] at h4
      · exact absurd rfl (h5 (g x, g (g x)) ((hmem _).2 ⟨hg x hx, rfl, fun e => hgx e.symm⟩))
    · obtain ⟨p1, p2, p3⟩ := (hmem p).1 hp
      rw [testBit_moveDigit hZ hw (by rw [p2]; exact hg _ p1) h1, h2, h3] at h4
      obtain ⟨h5, h6⟩ := h4
      rw [p2] at h5
      have := hinj _ hx _ p1 h5
      rwa [this]
  · intro h
    by_cases hgx : g x = x
    · refine .inl ⟨by rw [hgx]; exact h, fun p hp e => ?_⟩
      obtain ⟨p1, p2, p3⟩ := (hmem p).1 hp
      rw [hgx] at e
      subst e
      exact p3 (by rw [p2, hgx])
    · refine .inr ⟨(x, g x), (hmem _).2 ⟨hx, rfl, fun e => hgx e.symm⟩, ?_⟩
      rw [testBit_moveDigit hZ hw (hg x hx) h1, h2, h3]
      exact ⟨rfl, h⟩

/-- four digits -/
def code (a b c d : Nat) : Nat := a + 24 * (b + 24 * (c + 24 * d))

theorem testBit_permAll {S a b c d : Nat} {g : Nat → Nat} (hg : ∀ x < 24, g x < 24)
    (hinj : ∀ x < 24, ∀ y < 24, g x = g y → x = y) (ha : a < 24) (hb : b < 24) (hc : c < 24) (hd : d < 24) :
    (permAll g S).testBit (code (g a) (g b) (g c) (g d)) = true ↔ S.testBit (code a b c d) = true := by
  obtain ⟨z0, z1, z2, z3⟩ := zeroDigit_ok
  have ga := hg a ha
  have gb := hg b hb
  have gc := hg c hc
  have gd := hg d hd
  unfold permAll
  have e3 : ∀ x, putDigit 13824 x (code (g a) (g b) (g c) 0) = code (g a) (g b) (g c) x := fun x => by unfold putDigit code; omega
  have e2 : ∀ x, putDigit 576 x (code (g a) (g b) 0 d) = code (g a) (g b) x d := fun x => by unfold putDigit code; omega
  have e1 : ∀ x, putDigit 24 x (code (g a) 0 c d) = code (g a) x c d := fun x => by unfold putDigit code; omega
  have e0 : ∀ x, putDigit 1 x (code 0 b c d) = code x b c d := fun x => by unfold putDigit code; omega
  rw [← e3, testBit_permDigit z3 (by unfold IsWeight; omega) hg hinj (by unfold code; omega) hd, e3,
    ← e2, testBit_permDigit z2 (by unfold IsWeight; omega) hg hinj (by unfold code; omega) hc, e2,
    ← e1, testBit_permDigit z1 (by unfold IsWeight; omega) hg hinj (by unfold code; omega) hb, e1,
    ← e0, testBit_permDigit z0 (by unfold IsWeight; omega) hg hinj (by unfold code; omega) ha, e0]

/-- two digits, halved, are equal -/
def clash2 (Z1 w1 Z2 w2 : Nat) : Nat :=
  unions (fun p => ((Z1 <<< (2 * p * w1)) ||| (Z1 <<< ((2 * p + 1) * w1))) &&&
    ((Z2 <<< (2 * p * w2)) ||| (Z2 <<< ((2 * p + 1) * w2)))) 0 (List.range 12)

/-- the codes two of whose digits, halved, are equal -/
def clash : Nat :=
  clash2 (zeroDigit 0) 1 (zeroDigit 1) 24 ||| clash2 (zeroDigit 0) 1 (zeroDigit 2) 576 |||
  clash2 (zeroDigit 0) 1 (zeroDigit 3) 13824 ||| clash2 (zeroDigit 1) 24 (zeroDigit 2) 576 |||
  clash2 (zeroDigit 1) 24 (zeroDigit 3) 13824 ||| clash2 (zeroDigit 2) 576 (zeroDigit 3) 13824

theorem testBit_clash2 {Z1 w1 Z2 w2 i : Nat} (h1 : IsZero Z1 w1) (h2 : IsZero Z2 w2) (k1 : IsWeight w1) (k2 : IsWeight w2)
    (hi : i < 331776) : (clash2 Z1 w1 Z2 w2).testBit i = true ↔ i / w1 % 24 / 2 = i / w2 % 24 / 2 := by
  unfold clash2
  rw [testBit_unions]
  simp only [Nat.zero_testBit, Bool.false_eq_true, false_or, List.mem_range, Nat.testBit_and, Nat.testBit_or, Bool.and_eq_true,
    Bool.or_eq_true]
  constructor
  · rintro ⟨p, hp, h⟩
    rw [testBit_shiftZero h1 k1 (by omega) hi, testBit_shiftZero h1 k1 (by omega) hi, testBit_shiftZero h2 k2 (by omega) hi,
      testBit_shiftZero h2 k2 (by omega) hi] at h
    omega
  · intro h
    have hlt := Nat.mod_lt (i / w1) (show 0 < 24 by decide)
    refine ⟨i / w1 % 24 / 2, by omega, ?_⟩
    rw [testBit_shiftZero h1 k1 (by omega) hi, testBit_shiftZero h1 k1 (by omega) hi, testBit_shiftZero h2 k2 (by omega) hi,
      testBit_shiftZero h2 k2 (by omega) hi]
    have := Nat.mod_lt (i / w2) (show 0 < 24 by decide)
    omega

theorem testBit_clash {a b c d : Nat} (ha : a < 24) (hb : b < 24) (hc : c < 24) (hd : d < 24) :
    clash.testBit (code a b c d) = true ↔
      a / 2 = b / 2 ∨ a / 2 = c / 2 ∨ a / 2 = d / 2 ∨ b / 2 = c / 2 ∨ b / 2 = d / 2 ∨ c / 2 = d / 2 := by
  obtain ⟨z0, z1, z2, z3⟩ := zeroDigit_ok
  have hi : code a b c d < 331776 := by unfold code; omega
  have w0 : IsWeight 1 := .inl rfl
  have w1 : IsWeight 24 := .inr (.inl rfl)
  have w2 : IsWeight 576 := .inr (.inr (.inl rfl))
  have w3 : IsWeight 13824 := .inr (.inr (.inr rfl))
  unfold clash
  simp only [Nat.testBit_or, Bool.or_eq_true]
  rw [testBit_clash2 z0 z1 w0 w1 hi, testBit_clash2 z0 z2 w0 w2 hi, testBit_clash2 z0 z3 w0 w3 hi, testBit_clash2 z1 z2 w1 w2 hi,
    testBit_clash2 z1 z3 w1 w3 hi, testBit_clash2 z2 z3 w2 w3 hi]
  have d0 : code a b c d / 1 % 24 = a := by unfold code; omega
  have d1 : code a b c d / 24 % 24 = b := by unfold code; omega
  have d2 : code a b c d / 576 % 24 = c := by unfold code; omega
  have d3 : code a b c d / 13824 % 24 = d := by unfold code; omega
  rw [d0, d1, d2, d3]
  tauto

end Barbarosa.Bits
