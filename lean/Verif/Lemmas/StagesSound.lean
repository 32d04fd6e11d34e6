import Verif.Lemmas.Stages

/-!
# Pieces as numbers, and the first stage
-/

namespace Barbarosa

open Equiv

/-! ## Codes of the pieces of a cube -/

/-- code of edge `i` -/
def Cube3.edgeAt (c : Cube3) (i : Fin 12) : Nat := edgeCode (c.edges i)
/-- code of corner `i` -/
def Cube3.cornerAt (c : Cube3) (i : Fin 8) : Nat := cornerCode (c.corners i)

theorem edgeAt_run (c : Cube3) (k t j : Nat) (i : Fin 12) :
    (movedAlg c ((wordAt k t j).map mv)).edgeAt i = runEdge (wordAt k t j) (c.edgeAt i) := by
  unfold Cube3.edgeAt
  rw [cube3_edges_alg]
  exact runEdge_ok _ (unpack_lt _ _) _

theorem cornerAt_run (c : Cube3) (k t j : Nat) (i : Fin 8) :
    (movedAlg c ((wordAt k t j).map mv)).cornerAt i = runCorner (wordAt k t j) (c.cornerAt i) := by
  unfold Cube3.cornerAt
  rw [cube3_corners_alg]
  exact runCorner_ok _ (unpack_lt _ _) _

theorem wordAt_length (k t j : Nat) : ((wordAt k t j).map mv).length ≤ k := by
  rw [List.length_map]
  exact unpack_length _ _

theorem edgeCode_of_place : ∀ (e : Edge) (j : Fin 12), e.position = Edge.REFERENCE_POSITIONS j → edgeCode e / 2 = j.val := by
  decide +kernel
theorem cornerCode_of_place : ∀ (c : Corner) (j : Fin 8), c.position = Corner.REFERENCE_POSITIONS j →
    cornerCode c / 3 = j.val := by decide +kernel

theorem edgeAt_place {c : Cube3} {σ : Perm (Fin 12)} (h : c.edges.Arranged σ) (i : Fin 12) : c.edgeAt i / 2 = σ i :=
  edgeCode_of_place _ _ (h i)
theorem cornerAt_place {c : Cube3} {τ : Perm (Fin 8)} (h : c.corners.Arranged τ) (i : Fin 8) : c.cornerAt i / 3 = τ i :=
  cornerCode_of_place _ _ (h i)

theorem edgeBit_code : ∀ e : Edge, ((edgeCode e % 2 : Nat) : ZMod 2) = 1 + edgeBit e := by decide +kernel
theorem twist_code : ∀ c : Corner, twist (cornerCode c) = c.orientationIndex := by decide +kernel

/-! ## Keys of the tables -/

theorem digits_exist (b n : Nat) (f : Nat → Nat) (hf : ∀ p < n, f p < b) :
    ∃ v < b ^ n, ∀ p < n, digit b v p = f p := by
  induction n with
  | zero => exact ⟨0, Nat.one_pos, fun p hp => absurd hp (Nat.not_lt_zero p)⟩
  | succ n ih =>
    obtain ⟨v, hv, h⟩ := ih fun p hp => hf p (Nat.lt_succ_of_lt hp)
    have hn := hf n (Nat.lt_succ_self n)
    have hb : 0 < b := Nat.lt_of_le_of_lt (Nat.zero_le _) hn
    refine ⟨v + b ^ n * f n, ?_, fun p hp => ?_⟩
    · calc v + b ^ n * f n < b ^ n + b ^ n * f n := Nat.add_lt_add_right hv _
        _ = b ^ n * (f n + 1) := by ring
        _ ≤ b ^ n * b := Nat.mul_le_mul_left _ hn
        _ = b ^ (n + 1) := (pow_succ b n).symm
    · show (v + b ^ n * f n) / b ^ p % b = f p
      rcases Nat.lt_succ_iff_lt_or_eq.1 hp with hp | rfl
      · have h1 : b ^ n = b ^ p * (b * b ^ (n - p - 1)) := by
          rw [← pow_succ', ← pow_add]
          congr 1
          omega
        rw [h1, Nat.mul_assoc, Nat.add_mul_div_left _ _ (Nat.pow_pos hb), Nat.mul_assoc, Nat.add_mul_mod_self_left]
        exact h p hp
      · rw [Nat.add_mul_div_left _ _ (Nat.pow_pos hb), Nat.div_eq_of_lt hv, Nat.zero_add, Nat.mod_eq_of_lt hn]

/-- labels of the pieces, written at the places where the pieces are -/
theorem key_exists (b : Nat) {n : Nat} (σ : Perm (Fin n)) (l : Fin n → Nat) (hl : ∀ i, l i < b) :
    ∃ v < b ^ n, ∀ i, digit b v (σ i) = l i := by
  obtain ⟨v, hv, h⟩ := digits_exist b n (fun p => if hp : p < n then l (σ.symm ⟨p, hp⟩) else 0) fun p hp => by
    rw [dif_pos hp]
    exact hl _
  refine ⟨v, hv, fun i => ?_⟩
  rw [h _ (σ i).2, dif_pos (σ i).2]
  exact congrArg l (σ.symm_apply_apply i)

theorem mask_exists {n : Nat} (σ : Perm (Fin n)) (l : Fin n → Nat) (hl : ∀ i, l i < 2) :
    ∃ v < 2 ^ n, ∀ i, bitOf v (σ i) = l i := by
  obtain ⟨v, hv, h⟩ := key_exists 2 σ l hl
  exact ⟨v, hv, fun i => by rw [bitOf_eq, h]⟩

theorem sumBelow_perm {n : Nat} (σ : Perm (Fin n)) (g : Nat → Nat) : sumBelow n g = ∑ i, g (σ i) := by
  rw [sumBelow_eq, Equiv.sum_comp σ fun i : Fin n => g i]

theorem bitOf_zero (x : Nat) : bitOf x 0 = x % 2 := by
  show x &&& 1 = x % 2
  rw [Nat.and_one_is_mod]

theorem bitOf_lt (v p : Nat) : bitOf v p < 2 := by
  rw [bitOf_eq]
  exact Nat.mod_lt _ (by decide)

theorem digit_lt {b : Nat} (hb : 0 < b) (v p : Nat) : digit b v p < b := Nat.mod_lt _ hb

theorem cond_and {a b : Bool} (h : cond a b false = true) : a = true ∧ b = true := by
  cases a
  · cases h
  · exact ⟨rfl, h⟩

/-! ## The stages -/

/-- goals of the stages -/
def Cube3.Q1 (c : Cube3) : Prop := ∀ i, c.edgeAt i % 2 = 0
def Cube3.Q2 (c : Cube3) : Prop := c.Q1 ∧ ∀ i, bitOf sliceE (c.edgeAt i / 2) = bitOf sliceE i
def Cube3.Q3 (c : Cube3) : Prop := c.Q2 ∧ ∀ i, c.cornerAt i % 3 = 1

theorem stage1_ok : allBelow 4096 stage1 = true := by decide +kernel

theorem edges_oriented (c : Cube3) (h : c.Lawful) : ∃ w : List AxisMove, w.length ≤ 7 ∧ (movedAlg c w).Q1 := by
  obtain ⟨⟨σ, τ, h1, h2, h3⟩, h4, h5⟩ := h
  rw [even_flips_iff] at h4
  obtain ⟨v, hv, hd⟩ := mask_exists σ (fun i => c.edgeAt i % 2) fun i => Nat.mod_lt _ (by decide)
  have h := allBelow_spec stage1_ok hv
  have hs : sumBelow 12 (bitOf v) % 2 = 0 := by
    rw [sumBelow_perm σ, Finset.sum_congr rfl fun i _ => hd i]
    have : ((∑ i, c.edgeAt i % 2 : Nat) : ZMod 2) = 0 := by
      unfold Cube3.edgeAt
      rw [Nat.cast_sum, Finset.sum_congr rfl fun i _ => edgeBit_code (c.edges i), Finset.sum_add_distrib, h4]
      decide
    exact Nat.mod_eq_zero_of_dvd ((ZMod.natCast_eq_zero_iff _ _).1 this)
  unfold stage1 at h
  rw [bitOf_zero (sumBelow 12 (bitOf v)), hs, show Nat.beq 0 1 = false from rfl, cond_false] at h
  refine ⟨_, wordAt_length 7 (stage1Words.getD (v / 64) 0) (v % 64), fun i => ?_⟩
  rw [edgeAt_run]
  have hi := Nat.eq_of_beq_eq_true (allBelow_spec h (σ i).2)
  rw [hd i, bitOf_zero] at hi
  have e : Nat.add (Nat.mul 2 (σ i).val) (c.edgeAt i % 2) = c.edgeAt i := by
    rw [← edgeAt_place h1 i]
    exact Nat.div_add_mod _ 2
  rw [e] at hi
  exact hi

theorem allBelow_of {n : Nat} {f : Nat → Bool} (h : ∀ p < n, f p = true) : allBelow n f = true := by
  induction n with
  | zero => rfl
  | succ n ih =>
    show cond (f n) (allBelow n f) false = true
    rw [h n (Nat.lt_succ_self n), ih fun p hp => h p (Nat.lt_succ_of_lt hp)]
    rfl

theorem four_exists : ∀ v < 256, (∀ i < 4, ∀ j < 4, digit 4 v i = digit 4 v j → i = j) → ∃ a < 24, fourAt a = v := by
  decide +kernel

/-- a permutation that keeps a set of four is one of the 24 on it -/
theorem four_of_perm {n : Nat} (σ : Perm (Fin n)) (f : Nat → Nat) (hf : ∀ i < 4, f i < n)
    (hσ : ∀ i (hi : i < 4), ∃ d < 4, (σ ⟨f i, hf i hi⟩).val = f d) (inj : ∀ i < 4, ∀ j < 4, f i = f j → i = j) :
    ∃ a < 24, ∀ i (hi : i < 4), f (digit 4 (fourAt a) i) = (σ ⟨f i, hf i hi⟩).val := by
  choose d hd1 hd2 using hσ
  obtain ⟨v, hv, h⟩ := digits_exist 4 4 (fun i => if hi : i < 4 then d i hi else 0) fun i hi => by
    rw [dif_pos hi]
    exact hd1 i hi
  have h' : ∀ i (hi : i < 4), f (digit 4 v i) = (σ ⟨f i, hf i hi⟩).val := by
    intro i hi
    rw [h i hi, dif_pos hi, hd2 i hi]
  obtain ⟨a, ha, rfl⟩ := four_exists v hv fun i hi j hj e => by
    have h1 := h' i hi
    rw [e, h' j hj] at h1
    have h2 := Fin.mk.inj (σ.injective (Fin.ext h1))
    exact (inj j hj i hi h2).symm
  exact ⟨a, ha, h'⟩

theorem fourA_mem : ∀ p : Fin 8, bitOf tetrad p = 1 → ∃ k < 4, p.val = fourA k := by decide +kernel
theorem fourB_mem : ∀ p : Fin 8, bitOf tetrad p = 0 → ∃ k < 4, p.val = fourB k := by decide +kernel
theorem fourA_bit : ∀ k < 4, ∃ h : fourA k < 8, bitOf tetrad (⟨fourA k, h⟩ : Fin 8) = 1 := by decide +kernel
theorem fourB_bit : ∀ k < 4, ∃ h : fourB k < 8, bitOf tetrad (⟨fourB k, h⟩ : Fin 8) = 0 := by decide +kernel
theorem fourA_inj : ∀ i < 4, ∀ j < 4, fourA i = fourA j → i = j := by decide +kernel
theorem fourB_inj : ∀ i < 4, ∀ j < 4, fourB i = fourB j → i = j := by decide +kernel

/-! ## The last stage -/

/-- the permutation of four things as a product of exchanges, carried to four places -/
def fourPerm {n : Nat} (l : List (Fin 4 × Fin 4)) (f : Fin 4 → Fin n) : Perm (Fin n) :=
  (l.map fun x => swap (f x.1) (f x.2)).prod

theorem fourPerm_apply {n : Nat} (l : List (Fin 4 × Fin 4)) (f : Fin 4 → Fin n) (hf : Function.Injective f) (i : Fin 4) :
    fourPerm l f (f i) = f (fourPerm l id i) := by
  induction l with
  | nil => rfl
  | cons x l ih =>
    show swap (f x.1) (f x.2) (fourPerm l f (f i)) = f (swap x.1 x.2 (fourPerm l id i))
    rw [ih, hf.swap_apply]

theorem fourPerm_other {n : Nat} (l : List (Fin 4 × Fin 4)) (f : Fin 4 → Fin n) (j : Fin n) (hj : ∀ i, f i ≠ j) :
    fourPerm l f j = j := by
  induction l with
  | nil => rfl
  | cons x l ih =>
    show swap (f x.1) (f x.2) (fourPerm l f j) = j
    rw [ih, swap_apply_of_ne_of_ne (hj _).symm (hj _).symm]

theorem fourPerm_sign {n : Nat} (l : List (Fin 4 × Fin 4)) (hl : ∀ x ∈ l, x.1 ≠ x.2) (f : Fin 4 → Fin n)
    (hf : Function.Injective f) : Perm.sign (fourPerm l f) = (-1) ^ l.length := by
  induction l with
  | nil => exact Perm.sign_one
  | cons x l ih =>
    show Perm.sign (swap (f x.1) (f x.2) * fourPerm l f) = _
    rw [Perm.sign_mul, ih fun y hy => hl y (List.mem_cons_of_mem _ hy),
      Perm.sign_swap fun e => hl x List.mem_cons_self (hf e), List.length_cons, pow_succ']

theorem fourSwaps_ok : ∀ a < 24, (∀ x ∈ fourSwaps.getD a [], x.1 ≠ x.2) ∧
    ∀ i : Fin 4, (fourPerm (fourSwaps.getD a []) id i).val = digit 4 (fourAt a) i := by decide +kernel

theorem fourE_mem : ∀ p : Fin 12, bitOf sliceE p = 1 → ∃ k < 4, p.val = fourE k := by decide +kernel
theorem fourM_mem : ∀ p : Fin 12, bitOf sliceM p = 1 → ∃ k < 4, p.val = fourM k := by decide +kernel
theorem fourS_mem : ∀ p : Fin 12, bitOf sliceE p = 0 → bitOf sliceM p = 0 → ∃ k < 4, p.val = fourS k := by decide +kernel
theorem fourE_bit : ∀ k < 4, ∃ h : fourE k < 12, bitOf sliceE (⟨fourE k, h⟩ : Fin 12) = 1 := by decide +kernel
theorem fourM_bit : ∀ k < 4, ∃ h : fourM k < 12, bitOf sliceM (⟨fourM k, h⟩ : Fin 12) = 1 := by decide +kernel
theorem fourS_bit : ∀ k < 4, ∃ h : fourS k < 12,
    bitOf sliceE (⟨fourS k, h⟩ : Fin 12) = 0 ∧ bitOf sliceM (⟨fourS k, h⟩ : Fin 12) = 0 := by decide +kernel
theorem fourE_inj : ∀ i < 4, ∀ j < 4, fourE i = fourE j → i = j := by decide +kernel
theorem fourM_inj : ∀ i < 4, ∀ j < 4, fourM i = fourM j → i = j := by decide +kernel
theorem fourS_inj : ∀ i < 4, ∀ j < 4, fourS i = fourS j → i = j := by decide +kernel
theorem four_disjoint : ∀ i < 4, ∀ j < 4, fourE i ≠ fourM j ∧ fourE i ≠ fourS j ∧ fourM i ≠ fourS j := by decide +kernel

/-- the four places as elements of `Fin n` -/
def fourFin {n : Nat} (f : Nat → Nat) (hf : ∀ i < 4, f i < n) (i : Fin 4) : Fin n := ⟨f i, hf i i.2⟩

theorem fourFin_inj {n : Nat} {f : Nat → Nat} (hf : ∀ i < 4, f i < n) (inj : ∀ i < 4, ∀ j < 4, f i = f j → i = j) :
    Function.Injective (fourFin f hf) := fun i j e => Fin.ext (inj i i.2 j j.2 (Fin.mk.inj e))

/-- the product of exchanges does what the permutation does on the set -/
theorem fourPerm_agrees {n : Nat} {σ : Perm (Fin n)} {f : Nat → Nat} {hf : ∀ i < 4, f i < n}
    (inj : ∀ i < 4, ∀ j < 4, f i = f j → i = j) {a : Nat} (ha : a < 24)
    (hk : ∀ i (hi : i < 4), f (digit 4 (fourAt a) i) = (σ ⟨f i, hf i hi⟩).val) (k : Nat) (hk' : k < 4) :
    fourPerm (fourSwaps.getD a []) (fourFin f hf) ⟨f k, hf k hk'⟩ = σ ⟨f k, hf k hk'⟩ := by
  have h1 := fourPerm_apply (fourSwaps.getD a []) (fourFin f hf) (fourFin_inj hf inj) ⟨k, hk'⟩
  have h2 := (fourSwaps_ok a ha).2 ⟨k, hk'⟩
  refine Eq.trans h1 (Fin.ext ?_)
  show f (fourPerm (fourSwaps.getD a []) id ⟨k, hk'⟩).val = _
  rw [h2]
  exact hk k hk'

theorem edge_of_home_code : ∀ i : Fin 12, edgeOfCode (2 * i.val) = PieceSet.SOLVED Edge i := by decide +kernel
theorem corner_of_home_code : ∀ i : Fin 8, cornerOfCode (3 * i.val + 1) = PieceSet.SOLVED Corner i := by decide +kernel

theorem solved_of_codes (c : Cube3) (he : ∀ i : Fin 12, c.edgeAt i = 2 * i.val)
    (hc : ∀ i : Fin 8, c.cornerAt i = 3 * i.val + 1) : c = Cube3.SOLVED := by
  refine Cube3.ext (funext fun i => ?_) (funext fun i => ?_)
  · have h := (edgeCode_ok (c.edges i)).2
    rw [show edgeCode (c.edges i) = _ from he i, edge_of_home_code] at h
    exact h.symm
  · have h := (cornerCode_ok (c.corners i)).2
    rw [show cornerCode (c.corners i) = _ from hc i, corner_of_home_code] at h
    exact h.symm

end Barbarosa
