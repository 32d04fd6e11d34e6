import Verif.Props.Orders

/-!
# Orders of permutations of up to 24 things

For C106. The list of the pairs of order and sign is closed under adding a cycle, which is checked for the whole list.
-/

namespace Barbarosa

open Equiv (Perm)

/-! ## Orders and signs of permutations of up to 24 things -/

/-- order and sign of a permutation as one number -/
def orderCode (o : Nat) (even : Bool) : Nat := 2 * o + even.toNat

/-- the code after a further cycle of length `a` -/
def codeStep (a b : Nat) : Nat := 2 * Nat.lcm a (b / 2) + if a % 2 = 1 then b % 2 else 1 - b % 2

/-- the numbers of the bits that are set -/
def codes (m : Nat) : List Nat := (List.range 1700).filter m.testBit

/-- for each `n` up to 24 the set of the codes of the permutations of at most `n` things, one bit for each -/
def codeMasks : List Nat := [
  0x8, 0x8, 0x18, 0x98, 0x1b8, 0x19b8, 0x1bb8, 0x110bbb8, 0x8111bbb8, 0x1009339bbb8, 0x10000900933bbbb8, 0x11010b10b3bbbbb8,
  0x10000000010008031010b10b3bbbbb8, 0x10000000011018033031b30bbbbbbb8, 0x10000001000030000000831018833031b30bbbbbbb8,
  0x800000000010000001000030100000933038833133b30bbbbbbb8,
  0x100000000010000000800000010030000003010830180000933838833133b31bbbbbbb8,
  0x10000000000000000000000000000000000100000000010000000800000010030000013010830381000b33838833333b39bbbbbbb8,
  0x10000000000000010000010000000000000300010010030000100800000030030018013038830381000b33838833333b3bbbbbbbb8,
  0x10000000000000000000000000000000000000000000000000000000000000000000000000000000000000000000000000000000030000000000000010000010800000000000300010010030000100800000031030018033038830383010b33839833333bbbbbbbbbb8,
  0x100000000000000000000000000000000000000000000000000000000000000000000010000000000000100000000000000010000300000000000000300000308000110000003000310300300003008008000b1030038033038830383810b33839833333bbbbbbbbbb8,
  0x300000000000000000000000000000000000000000000100000008000000000000000010000000000000100000000008000010000300000008000000300000308000110000003000310300300003009008000b3030138033138830383830b3393b833333bbbbbbbbbb8,
  0x300000000000000000000000000000100000000000000100000008001000000000000030000000101000300000000008000030000300000108000001300000308000330000003000330300308003009108000b30b0138033138830b83830b3393b833333bbbbbbbbbb8,
  0x10000000000000000000000000000000000000000000000000000000000000000000000000000000000000000010000000000000010000000000000000000000000000000000000000000000000000000000000000000000000000000000010000000000000000000030000000000000010080000000000010000000000000030000000800100000000000003000800010100030000000000800003000030000010800000130000030800033000000300033030030801300b108000b30b0339033338830b83830b33b3b83333bbbbbbbbbbb8,
  0x10000000000000000000000000000000000000000000000000000000000000000000000000000000000000000010000000000000010000000000000000000000000000000000000000000000000000000000000010000000000000000000010000000000100000000030000000000010010080000000001030000000000000030000000810300000000000003000800030300030000010010800003000030010030800000330000130800033000008300033030038811300b308080b30b0339033338830b83830b33b3b83333bbbbbbbbbbb8]

theorem codeMasks_one : ∀ n < 25, 3 ∈ codes (codeMasks.getD n 0) := by decide +kernel

theorem codeMasks_closed : ∀ k < 25, ∀ b ∈ codes (codeMasks.getD k 0), ∀ a < 25, 2 ≤ a → k + a < 25 →
    codeStep a b < 1700 ∧ (codeMasks.getD (k + a) 0).testBit (codeStep a b) = true := by decide +kernel

theorem code_mem (s : Multiset ℕ) : ∀ n < 25, (∀ a ∈ s, 2 ≤ a) → s.sum ≤ n →
    orderCode s.lcm (decide (Even (s.sum + s.card))) ∈ codes (codeMasks.getD n 0) := by
  induction s using Multiset.induction_on with
  | empty => intro n hn _ _; simpa [orderCode] using codeMasks_one n hn
  | cons a s ih =>
    intro n hn h2 hs
    rw [Multiset.sum_cons] at hs
    have ha : 2 ≤ a := h2 a (by simp)
    have h := ih (n - a) (by omega) (fun b hb => h2 b (by simp [hb])) (by omega)
    have := codeMasks_closed (n - a) (by omega) _ h a (by omega) ha (by omega)
    rw [Nat.sub_add_cancel (by omega)] at this
    have e : codeStep a (orderCode s.lcm (decide (Even (s.sum + s.card)))) =
        orderCode (a ::ₘ s).lcm (decide (Even ((a ::ₘ s).sum + (a ::ₘ s).card))) := by
      have h1 : ∀ (o : Nat) (b : Bool), orderCode o b / 2 = o ∧ orderCode o b % 2 = b.toNat := by
        intro o b; cases b <;> simp [orderCode]; omega
      rw [codeStep, (h1 _ _).1, (h1 _ _).2, orderCode, Multiset.lcm_cons]
      congr 1
      rw [Multiset.sum_cons, Multiset.card_cons]
      rcases Nat.mod_two_eq_zero_or_one a with h | h <;> rcases Nat.mod_two_eq_zero_or_one (s.sum + s.card) with h' | h' <;>
        have h'' : (a + s.sum + (s.card + 1)) % 2 = (a % 2 + (s.sum + s.card) % 2 + 1) % 2 := by omega
      all_goals simp [Nat.even_iff, h, h', h'']
    rw [e] at this
    exact List.mem_filter.2 ⟨List.mem_range.2 this.1, this.2⟩

theorem order_code {ι : Type} [Fintype ι] [DecidableEq ι] (σ : Perm ι) {n : Nat} (hn : n < 25) (h : Fintype.card ι ≤ n) :
    orderCode (orderOf σ) (decide (Perm.sign σ = 1)) ∈ codes (codeMasks.getD n 0) := by
  have hsum : σ.cycleType.sum ≤ n := by
    rw [Perm.sum_cycleType]; exact (Finset.card_le_univ _).trans h
  have := code_mem σ.cycleType n hn (fun a ha => Perm.two_le_of_mem_cycleType ha) hsum
  rw [Perm.lcm_cycleType] at this
  convert this using 2
  rw [Perm.sign_of_cycleType, decide_eq_decide]
  constructor
  · intro h
    by_contra hne
    rw [Nat.not_even_iff_odd] at hne
    rw [hne.neg_one_pow] at h
    exact absurd h (by decide)
  · exact fun h => h.neg_one_pow

theorem orderCode_parity {ι κ : Type} [Fintype ι] [DecidableEq ι] [Fintype κ] [DecidableEq κ] {σ : Perm ι} {τ : Perm κ}
    (h : Perm.sign σ = Perm.sign τ) :
    orderCode (orderOf σ) (decide (Perm.sign σ = 1)) % 2 = orderCode (orderOf τ) (decide (Perm.sign τ = 1)) % 2 := by
  unfold orderCode; rw [h]; omega

theorem orderCode_half (o : Nat) (b : Bool) : orderCode o b / 2 = o := by cases b <;> simp [orderCode]; omega

/-- orders of permutations of 24 things; the others divide one of these -/
def orders24 : List Nat := [840, 660, 630, 504, 462, 440, 396, 390, 385, 364, 360, 312, 308, 273, 264, 260, 240, 234, 204, 170, 143,
  119, 114, 112, 95, 76, 23]

/-- orders of corners and centers together; the others divide one of these -/
def ordersCornersCenters : List Nat := [13860, 8190, 6435, 5460, 5355, 4680, 3960, 3276, 3060, 3003, 2574, 2520, 2184, 2142, 2040,
  1995, 1848, 1716, 1710, 1680, 1428, 1140, 1035, 1008, 798, 720, 684, 483, 456, 414, 276]

theorem orders24_complete : ∀ a ∈ codes (codeMasks.getD 24 0), ∃ x ∈ orders24, a / 2 ∣ x := by decide +kernel

theorem ordersCornersCenters_complete : ∀ c ∈ codes (codeMasks.getD 8 0), ∀ b ∈ codes (codeMasks.getD 24 0), b % 2 = c % 2 →
    ∃ x ∈ ordersCornersCenters, Nat.lcm (3 * (c / 2)) (b / 2) ∣ x := by decide +kernel

theorem orders_765765 : ∀ x ∈ ordersCornersCenters, ∀ y ∈ orders24, 0 < Nat.lcm x y ∧ Nat.lcm x y ≤ 765765 := by decide +kernel

/-- corners, centers and wings of the 4x4 -/
theorem codes_765765 {a b c : Nat} (hc : c ∈ codes (codeMasks.getD 8 0)) (hb : b ∈ codes (codeMasks.getD 24 0))
    (ha : a ∈ codes (codeMasks.getD 24 0)) (h : b % 2 = c % 2) :
    Nat.lcm (Nat.lcm (3 * (c / 2)) (b / 2)) (a / 2) ≤ 765765 := by
  obtain ⟨x, hx, dx⟩ := ordersCornersCenters_complete c hc b hb h
  obtain ⟨y, hy, dy⟩ := orders24_complete a ha
  obtain ⟨h1, h2⟩ := orders_765765 x hx y hy
  exact (Nat.le_of_dvd h1 (Nat.lcm_dvd (dx.trans (Nat.dvd_lcm_left _ _)) (dy.trans (Nat.dvd_lcm_right _ _)))).trans h2

/-- corners, centers and edges of the 5x5 -/
theorem codes_180180 : ((codes (codeMasks.getD 8 0)).all fun c => (codes (codeMasks.getD 24 0)).all fun b =>
    b % 2 != c % 2 || (codes (codeMasks.getD 12 0)).all fun a =>
      a % 2 != c % 2 || Nat.ble (Nat.lcm (Nat.lcm (3 * (c / 2)) (b / 2)) (2 * (a / 2))) 180180) = true := by decide +kernel

/-- the least common multiple of the numbers up to 24 -/
theorem codes_24 : (∀ b ∈ codes (codeMasks.getD 24 0), b / 2 ∣ 5354228880) ∧
    (∀ b ∈ codes (codeMasks.getD 8 0), 3 * (b / 2) ∣ 5354228880) ∧
    ∀ b ∈ codes (codeMasks.getD 12 0), 2 * (b / 2) ∣ 5354228880 := by decide +kernel

end Barbarosa
