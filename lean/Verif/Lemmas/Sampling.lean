import Verif.Lemmas.Solve
import Verif.Props.PieceSet
import Mathlib.Data.Fintype.Card
import Mathlib.Data.ZMod.Basic

/-!
# What the fix-up steps of the random generator do

On valid arrangements the three steps swap the first two edge slots, flip the last edge slot and twist the last corner
slot, each only if its invariant is violated.
-/

namespace Barbarosa

open Equiv

/-- the possible corrections: swap of the edge slots 0 and 1, flip of the edge slot 11, twists of the corner slot 7 -/
def fixUp (a b : Bool) (t : ZMod 3) (c : Cube3) : Cube3 :=
  ⟨fun i => if b && i == 11 then ((if a then c.edges.swapAt 0 1 else c.edges) i).flip
      else (if a then c.edges.swapAt 0 1 else c.edges) i,
   fun i => if i = 7 then Corner.twist^[t.val] (c.corners i) else c.corners i⟩

theorem edgeBit_flip : ∀ e : Edge, edgeBit e.flip = edgeBit e + 1 := by decide +kernel
theorem cornerTrit_twists : ∀ (c : Corner) (t : ZMod 3), cornerTrit (Corner.twist^[t.val] c) = cornerTrit c + t := by
  decide +kernel
theorem twists_twists : ∀ (c : Corner) (s t : ZMod 3),
    Corner.twist^[t.val] (Corner.twist^[s.val] c) = Corner.twist^[(s + t).val] c := by decide +kernel
theorem twists_position : ∀ (c : Corner) (t : ZMod 3), (Corner.twist^[t.val] c).position = c.position := by decide +kernel
theorem flip_flip : ∀ e : Edge, e.flip.flip = e := by decide +kernel

theorem swapAt_arranged {P : Type} {n : Nat} [PieceSetDescriptor P n] {s : PieceSet P n} {σ : Perm (Fin n)}
    (h : s.Arranged σ) (i j : Fin n) : (s.swapAt i j).Arranged (σ * swap i j) := by
  intro k
  rw [PieceSet.swapAt_apply, h, Perm.mul_apply]

theorem fixUp_arranged {c : Cube3} {σ : Perm (Fin 12)} {τ : Perm (Fin 8)} (h1 : c.edges.Arranged σ)
    (h2 : c.corners.Arranged τ) (a b : Bool) (t : ZMod 3) :
    (fixUp a b t c).edges.Arranged (if a then σ * swap 0 1 else σ) ∧ (fixUp a b t c).corners.Arranged τ := by
  refine ⟨fun i => ?_, fun i => ?_⟩
  · have key : Piece.position ((if a then c.edges.swapAt 0 1 else c.edges) i) =
        PieceSetDescriptor.REFERENCE_POSITIONS (P := Edge) ((if a then σ * swap 0 1 else σ) i) := by
      cases a
      · exact h1 i
      · exact swapAt_arranged h1 0 1 i
    rw [← key]
    show Piece.position (if b && i == 11 then _ else _) = _
    split
    · rfl
    · rfl
  · rw [← h2 i]
    show Piece.position (if i = 7 then _ else _) = _
    split
    · exact twists_position _ _
    · rfl

theorem sum_swapAt {P A : Type} {n : Nat} [AddCommMonoid A] (s : PieceSet P n) (i j : Fin n) (g : P → A) :
    ∑ k, g (s.swapAt i j k) = ∑ k, g (s k) := by
  rw [← Equiv.sum_comp (swap i j) fun k => g (s k)]
  exact Finset.sum_congr rfl fun k _ => by rw [PieceSet.swapAt_apply]

theorem fixUp_bits (a b : Bool) (t : ZMod 3) (c : Cube3) :
    ∑ i, edgeBit ((fixUp a b t c).edges i) = ∑ i, edgeBit (c.edges i) + (if b then 1 else 0) := by
  have h1 : ∑ i, edgeBit ((if a then c.edges.swapAt 0 1 else c.edges) i) = ∑ i, edgeBit (c.edges i) := by
    cases a
    · rfl
    · exact sum_swapAt _ _ _ _
  rw [← h1]
  cases b
  · simp [fixUp]
  · have : ∀ i, edgeBit ((fixUp a true t c).edges i) =
        edgeBit ((if a then c.edges.swapAt 0 1 else c.edges) i) + (if i = 11 then 1 else 0) := by
      intro i
      by_cases hi : i = 11
      · simp [fixUp, hi, edgeBit_flip]
      · simp [fixUp, hi]
    rw [Finset.sum_congr rfl fun i _ => this i, Finset.sum_add_distrib]
    simp

theorem fixUp_trits (a b : Bool) (t : ZMod 3) (c : Cube3) :
    ∑ i, cornerTrit ((fixUp a b t c).corners i) = ∑ i, cornerTrit (c.corners i) + t := by
  have : ∀ i, cornerTrit ((fixUp a b t c).corners i) = cornerTrit (c.corners i) + (if i = 7 then t else 0) := by
    intro i
    by_cases hi : i = 7
    · simp [fixUp, hi, cornerTrit_twists]
    · simp [fixUp, hi]
  rw [Finset.sum_congr rfl fun i _ => this i, Finset.sum_add_distrib]
  simp

theorem fixUp_undo (a b : Bool) (t : ZMod 3) (c : Cube3) : fixUp a b t (fixUp a b (-t) c) = c := by
  refine Cube3.ext (funext fun i => ?_) (funext fun i => ?_)
  · have hsw : (swap (0 : Fin 12) 1) 11 = 11 := by decide
    by_cases hi : i = 11
    · subst hi
      cases a <;> cases b <;> simp [fixUp, PieceSet.swapAt_apply, hsw, flip_flip]
    · have : (swap (0 : Fin 12) 1) i ≠ 11 := by
        intro h; apply hi; rw [← hsw] at h; exact (swap (0 : Fin 12) 1).injective h
      cases a <;> cases b <;> simp [fixUp, PieceSet.swapAt_apply, hi, this]
  · by_cases hi : i = 7
    · simp only [fixUp, hi, if_true, twists_twists, neg_add_cancel]
      rfl
    · simp [fixUp, hi]

/-! ## The three steps of the code -/

theorem sign_pow_eq (k l : Nat) : decide ((k : Int).tmod 2 = 0) = decide ((l : Int).tmod 2 = 0) ↔
    ((-1 : ℤˣ) ^ (11 + k) = (-1) ^ (7 + l)) := by
  rw [decide_eq_decide]
  have e : ∀ n : Nat, (n : Int).tmod 2 = 0 ↔ Even n := by
    intro n
    rw [Nat.even_iff, Int.tmod_eq_emod_of_nonneg (by omega)]
    omega
  rw [e, e]
  rcases Nat.even_or_odd k with hk | hk <;> rcases Nat.even_or_odd l with hl | hl
  · have h1 : Odd (11 + k) := by grind
    have h2 : Odd (7 + l) := by grind
    simp [hk, hl, h1.neg_one_pow, h2.neg_one_pow]
  · have h1 : Odd (11 + k) := by grind
    have h2 : Even (7 + l) := by grind
    have hl' : ¬ Even l := Nat.not_even_iff_odd.2 hl
    simp [hk, hl', h1.neg_one_pow, h2.neg_one_pow]
  · have h1 : Even (11 + k) := by grind
    have h2 : Odd (7 + l) := by grind
    have hk' : ¬ Even k := Nat.not_even_iff_odd.2 hk
    simp [hl, hk', h1.neg_one_pow, h2.neg_one_pow]
  · have h1 : Even (11 + k) := by grind
    have h2 : Even (7 + l) := by grind
    have hk' : ¬ Even k := Nat.not_even_iff_odd.2 hk
    have hl' : ¬ Even l := Nat.not_even_iff_odd.2 hl
    simp [hk', hl', h1.neg_one_pow, h2.neg_one_pow]

theorem fixSwapParity?_eq {c : Cube3} {σ : Perm (Fin 12)} {τ : Perm (Fin 8)} (h1 : c.edges.Arranged σ)
    (h2 : c.corners.Arranged τ) :
    fixSwapParity? c = some (fixUp (decide (Perm.sign σ ≠ Perm.sign τ)) false 0 c) := by
  obtain ⟨k, hk, sk⟩ := swapCycles?_eq h1
  obtain ⟨l, hl, sl⟩ := swapCycles?_eq h2
  unfold fixSwapParity?
  rw [hk, hl]
  simp only
  have key := sign_pow_eq k l
  rw [← sk, ← sl] at key
  by_cases h : Perm.sign σ = Perm.sign τ
  · rw [if_neg (by rw [key.2 h]; simp)]
    simp [h, fixUp]
  · rw [if_pos (by rw [bne_iff_ne]; exact fun e => h (key.1 e))]
    have := PieceSet.swap?_ref c.edges 0 1
    rw [show c.edges.swap? (Edge.REFERENCE_POSITIONS 0) (Edge.REFERENCE_POSITIONS 1) = _ from this]
    simp [h, fixUp]

theorem filter_ofFn_length {n : Nat} {A : Type} (f : Fin n → A) (p : A → Bool) :
    ((List.ofFn f).filter p).length = (Finset.univ.filter fun i => p (f i) = true).card := by
  rw [← List.countP_eq_length_filter, List.ofFn_eq_map, List.countP_map, Finset.card_def, Finset.filter_val,
    ← Multiset.countP_eq_card_filter]
  rw [show (Finset.univ : Finset (Fin n)).val = (List.finRange n : Multiset (Fin n)) from rfl, Multiset.coe_countP]
  congr 1
  funext i
  simp

theorem fixEdgeFlipParity_eq (c : Cube3) :
    fixEdgeFlipParity c.edges = (fixUp false (decide (∑ i, edgeBit (c.edges i) ≠ 0)) 0 c).edges := by
  unfold fixEdgeFlipParity PieceSet.toList
  rw [filter_ofFn_length]
  have h := even_flips_iff c.edges
  generalize (Finset.univ.filter fun i => (c.edges i).oriented = true).card = k at h
  by_cases hz : ∑ i, edgeBit (c.edges i) = 0
  · rw [if_neg (by have := Nat.even_iff.1 (h.2 hz); omega)]
    funext i
    simp [fixUp, hz]
  · rw [if_pos (Nat.not_even_iff.1 fun e => hz (h.1 e))]
    funext i
    by_cases hi : i = 11
    · subst hi; simp [fixUp, hz]
    · simp [fixUp, hi]

theorem iterate_update (k : Nat) (s : PieceSet Corner 8) :
    (fun s : PieceSet Corner 8 => Function.update s 7 (s 7).twist)^[k] s =
      fun i => if i = 7 then Corner.twist^[k] (s i) else s i := by
  induction k generalizing s with
  | zero => funext i; simp
  | succ k ih =>
    rw [Function.iterate_succ_apply, ih]
    funext i
    by_cases hi : i = 7
    · subst hi; simp
    · simp [hi]

theorem orientationSum_eq (s : PieceSet Corner 8) : orientationSum s = ((∑ i, (s i).orientationIndex : Nat) : Int) := by
  unfold orientationSum PieceSet.toList
  rw [List.map_ofFn, List.sum_ofFn]
  push_cast
  rfl

theorem orientationSum_cast (s : PieceSet Corner 8) : ((orientationSum s : Int) : ZMod 3) = ∑ i, cornerTrit (s i) := by
  rw [orientationSum_eq]
  unfold cornerTrit
  push_cast
  rfl

theorem fixCornerMultiplicity_eq (c : Cube3) :
    fixCornerMultiplicity c.corners = (fixUp false false (-∑ i, cornerTrit (c.corners i)) c).corners := by
  unfold fixCornerMultiplicity
  rw [iterate_update, ← orientationSum_cast]
  have : ((-orientationSum c.corners) % 3).toNat = (-((orientationSum c.corners : Int) : ZMod 3)).val := by
    rw [← Int.cast_neg]
    have := ZMod.val_intCast (n := 3) (-orientationSum c.corners)
    have h0 : (0 : Int) ≤ (-orientationSum c.corners) % 3 := Int.emod_nonneg _ (by decide)
    have e : ((3 : Nat) : Int) = 3 := rfl
    rw [e] at this
    omega
  rw [this]
  rfl

theorem fixCornerMultiplicity?_eq (c : Cube3) :
    fixCornerMultiplicity? c.corners = some (fixUp false false (-∑ i, cornerTrit (c.corners i)) c).corners := by
  unfold fixCornerMultiplicity?
  simp only
  rw [fixCornerMultiplicity_eq, if_pos]
  have h1 := fixUp_trits false false (-∑ i, cornerTrit (c.corners i)) c
  rw [add_neg_cancel, ← orientationSum_cast, ZMod.intCast_zmod_eq_zero_iff_dvd] at h1
  exact Int.tmod_eq_zero_of_dvd (by exact_mod_cast h1)

/-- the correction a valid arrangement gets -/
theorem sample_of_valid {c : Cube3} {σ : Perm (Fin 12)} {τ : Perm (Fin 8)} (h1 : c.edges.Arranged σ)
    (h2 : c.corners.Arranged τ) :
    fixInvariants? c =
    some (fixUp (decide (Perm.sign σ ≠ Perm.sign τ)) (decide (∑ i, edgeBit (c.edges i) ≠ 0))
      (-∑ i, cornerTrit (c.corners i)) c) := by
  unfold fixInvariants?
  rw [fixSwapParity?_eq h1 h2]
  simp only
  rw [fixCornerMultiplicity?_eq]
  simp only
  rw [fixEdgeFlipParity_eq, fixUp_bits, fixUp_trits]
  simp only [Bool.false_eq_true, if_false, add_zero]
  congr 1
  refine Cube3.ext (funext fun i => ?_) (funext fun i => ?_)
  · simp [fixUp]
  · by_cases hi : i = 7 <;> simp [fixUp, hi]

/-! ## Draws and valid arrangements -/

theorem raw_arranged (d : Draw3) : d.raw.edges.Arranged d.edgeShuffle ∧ d.raw.corners.Arranged d.cornerShuffle :=
  ⟨fun _ => rfl, fun _ => rfl⟩

theorem sampleCube3?_eq (d : Draw3) : sampleCube3? d =
    some (fixUp (decide (Perm.sign d.edgeShuffle ≠ Perm.sign d.cornerShuffle))
      (decide (∑ i, edgeBit (d.raw.edges i) ≠ 0)) (-∑ i, cornerTrit (d.raw.corners i)) d.raw) :=
  sample_of_valid (raw_arranged d).1 (raw_arranged d).2

theorem raw_injective : Function.Injective Draw3.raw := by
  intro d d' h
  have h1 := (raw_arranged d).1.unique (h ▸ (raw_arranged d').1)
  have h2 := (raw_arranged d).2.unique (h ▸ (raw_arranged d').2)
  obtain ⟨σ, τ, o, x⟩ := d
  obtain ⟨σ', τ', o', x'⟩ := d'
  simp only at h1 h2
  subst h1 h2
  have e1 : o = o' := funext fun i => congrArg (fun c : Cube3 => (c.edges i).oriented) h
  have e2 : x = x' := funext fun i => congrArg (fun c : Cube3 => (c.corners i).orientationAxis) h
  rw [e1, e2]

theorem raw_surjective {c : Cube3} (he : c.edges.Valid) (hc : c.corners.Valid) : ∃ d : Draw3, d.raw = c := by
  obtain ⟨σ, hσ⟩ := he.arranged
  obtain ⟨τ, hτ⟩ := hc.arranged
  refine ⟨⟨σ, τ, fun i => (c.edges i).oriented, fun i => (c.corners i).orientationAxis⟩, ?_⟩
  refine Cube3.ext (funext fun i => ?_) (funext fun i => ?_)
  · have h := hσ i
    show ({ PieceSet.SOLVED Edge (σ i) with oriented := (c.edges i).oriented } : Edge) = c.edges i
    have h' : (PieceSet.SOLVED Edge (σ i)).position = (c.edges i).position := h.symm
    generalize PieceSet.SOLVED Edge (σ i) = e at h'
    generalize c.edges i = e' at h' ⊢
    obtain ⟨a, s, o⟩ := e
    obtain ⟨a', s', o'⟩ := e'
    have := Prod.mk.inj h'
    rw [Edge.mk.injEq]; exact ⟨this.1, this.2, rfl⟩
  · have h := hτ i
    show ({ PieceSet.SOLVED Corner (τ i) with orientationAxis := (c.corners i).orientationAxis } : Corner) = c.corners i
    have h' : (PieceSet.SOLVED Corner (τ i)).position = (c.corners i).position := h.symm
    generalize PieceSet.SOLVED Corner (τ i) = e at h'
    generalize c.corners i = e' at h' ⊢
    obtain ⟨a, s⟩ := e
    obtain ⟨a', s'⟩ := e'
    rw [Corner.mk.injEq]; exact ⟨h', rfl⟩

theorem units_cases (x y : ℤˣ) : x = y ∨ x = -y := by
  rcases Int.units_eq_one_or x with rfl | rfl <;> rcases Int.units_eq_one_or y with rfl | rfl <;> simp

theorem fixUp_lawful {c : Cube3} {σ : Perm (Fin 12)} {τ : Perm (Fin 8)} (h1 : c.edges.Arranged σ)
    (h2 : c.corners.Arranged τ) :
    (fixUp (decide (Perm.sign σ ≠ Perm.sign τ)) (decide (∑ i, edgeBit (c.edges i) ≠ 0))
      (-∑ i, cornerTrit (c.corners i)) c).Lawful := by
  refine ⟨⟨_, τ, (fixUp_arranged h1 h2 _ _ _).1, (fixUp_arranged h1 h2 _ _ _).2, ?_⟩, ?_, ?_⟩
  · by_cases h : Perm.sign σ = Perm.sign τ
    · simp [h]
    · simp only [h, ne_eq, not_false_iff, decide_true, if_true, Perm.sign_mul,
        Perm.sign_swap (show (0 : Fin 12) ≠ 1 by decide)]
      rcases units_cases (Perm.sign σ) (Perm.sign τ) with e | e
      · exact absurd e h
      · rw [e]; simp
  · rw [even_flips_iff, fixUp_bits]
    generalize ∑ i, edgeBit (c.edges i) = b
    revert b; decide
  · rw [twists_iff, fixUp_trits, add_neg_cancel]

theorem sampleCube3?_lawful (d : Draw3) : ∃ c, sampleCube3? d = some c ∧ c.Lawful :=
  ⟨_, sampleCube3?_eq d, fixUp_lawful (raw_arranged d).1 (raw_arranged d).2⟩

/-! ## How many draws give a cube -/

instance : Fintype Draw3 :=
  Fintype.ofEquiv (Perm (Fin 12) × Perm (Fin 8) × (Fin 12 → Bool) × (Fin 8 → Axis))
    { toFun := fun x => ⟨x.1, x.2.1, x.2.2.1, x.2.2.2⟩
      invFun := fun d => ⟨d.edgeShuffle, d.cornerShuffle, d.oriented, d.orientationAxis⟩
      left_inv := fun _ => rfl
      right_inv := fun _ => rfl }

theorem card_draws : Fintype.card Draw3 = Nat.factorial 12 * (Nat.factorial 8 * (2 ^ 12 * 3 ^ 8)) := by
  rw [Fintype.ofEquiv_card, Fintype.card_prod, Fintype.card_prod, Fintype.card_prod, Fintype.card_perm, Fintype.card_perm,
    Fintype.card_fun, Fintype.card_fun, Fintype.card_fin, Fintype.card_fin, Fintype.card_bool,
    show Fintype.card Axis = 3 from rfl]

theorem draws_of_lawful (c : Cube3) (h : c.Lawful) : Nat.card { d : Draw3 // sampleCube3? d = some c } = 12 := by
  obtain ⟨⟨σ, τ, h1, h2, h3⟩, h4, h5⟩ := h
  rw [even_flips_iff] at h4
  rw [twists_iff] at h5
  have hv : ∀ x : Bool × Bool × ZMod 3, ∃ d : Draw3, d.raw = fixUp x.1 x.2.1 (-x.2.2) c := fun x =>
    raw_surjective (fixUp_arranged h1 h2 _ _ _).1.valid (fixUp_arranged h1 h2 _ _ _).2.valid
  choose draw hdraw using hv
  have hperm : ∀ x : Bool × Bool × ZMod 3, (draw x).edgeShuffle = (if x.1 then σ * swap 0 1 else σ) ∧
      (draw x).cornerShuffle = τ := by
    intro x
    have a := raw_arranged (draw x)
    rw [hdraw x] at a
    exact ⟨a.1.unique (fixUp_arranged h1 h2 _ _ _).1, a.2.unique (fixUp_arranged h1 h2 _ _ _).2⟩
  have hs : ∀ x : Bool × Bool × ZMod 3, Perm.sign (draw x).edgeShuffle ≠ Perm.sign (draw x).cornerShuffle ↔ x.1 = true := by
    intro x
    rw [(hperm x).1, (hperm x).2, ← h3]
    cases x.1
    · simp
    · simp only [if_true, Perm.sign_mul, Perm.sign_swap (show (0 : Fin 12) ≠ 1 by decide), iff_true]
      rcases Int.units_eq_one_or (Perm.sign σ) with e | e <;> rw [e] <;> decide
  have hb : ∀ x : Bool × Bool × ZMod 3, ∑ i, edgeBit ((draw x).raw.edges i) ≠ 0 ↔ x.2.1 = true := by
    intro x
    rw [hdraw, fixUp_bits, h4]
    cases x.2.1 <;> decide
  have ht : ∀ x : Bool × Bool × ZMod 3, -∑ i, cornerTrit ((draw x).raw.corners i) = x.2.2 := by
    intro x
    rw [hdraw, fixUp_trits, h5, zero_add, neg_neg]
  have hsample : ∀ x, sampleCube3? (draw x) = some c := by
    intro x
    have e1 : decide (Perm.sign (draw x).edgeShuffle ≠ Perm.sign (draw x).cornerShuffle) = x.1 :=
      Bool.eq_iff_iff.2 (by rw [decide_eq_true_iff]; exact hs x)
    have e2 : decide (∑ i, edgeBit ((draw x).raw.edges i) ≠ 0) = x.2.1 :=
      Bool.eq_iff_iff.2 (by rw [decide_eq_true_iff]; exact hb x)
    rw [sampleCube3?_eq, ht, e1, e2, hdraw, fixUp_undo]
  let f : Bool × Bool × ZMod 3 → { d : Draw3 // sampleCube3? d = some c } := fun x => ⟨draw x, hsample x⟩
  have hf : Function.Bijective f := by
    constructor
    · intro x y e
      have e' : draw x = draw y := congrArg Subtype.val e
      have a := hs x
      have b := hb x
      have t := ht x
      rw [e', hs y] at a
      rw [e', hb y] at b
      rw [e', ht y] at t
      exact Prod.ext (Bool.eq_iff_iff.2 a.symm) (Prod.ext (Bool.eq_iff_iff.2 b.symm) t.symm)
    · rintro ⟨d, hd⟩
      have hd' := Option.some.inj ((sampleCube3?_eq d).symm.trans hd)
      refine ⟨(decide (Perm.sign d.edgeShuffle ≠ Perm.sign d.cornerShuffle), decide (∑ i, edgeBit (d.raw.edges i) ≠ 0),
        -∑ i, cornerTrit (d.raw.corners i)), Subtype.ext (raw_injective ?_)⟩
      show (draw _).raw = d.raw
      rw [hdraw]
      rw [← hd']
      simp only
      have := fixUp_undo (decide (Perm.sign d.edgeShuffle ≠ Perm.sign d.cornerShuffle))
        (decide (∑ i, edgeBit (d.raw.edges i) ≠ 0)) (- -∑ i, cornerTrit (d.raw.corners i)) d.raw
      rw [neg_neg (-∑ i, cornerTrit (d.raw.corners i))] at this
      exact this
  rw [← Nat.card_congr (Equiv.ofBijective f hf), Nat.card_eq_fintype_card]
  rfl

theorem card_lawful : Nat.card { c : Cube3 // c.Lawful } = 43252003274489856000 := by
  let g : Draw3 → { c : Cube3 // c.Lawful } := fun d =>
    ⟨_, fixUp_lawful (raw_arranged d).1 (raw_arranged d).2⟩
  have hg : ∀ d c, g d = c ↔ sampleCube3? d = some c.1 := by
    intro d c
    rw [sampleCube3?_eq, Option.some.injEq, Subtype.ext_iff]
  have hsurj : Function.Surjective g := by
    intro c
    have := draws_of_lawful c.1 c.2
    have hne : Nonempty { d : Draw3 // sampleCube3? d = some c.1 } := by
      by_contra hne
      rw [not_nonempty_iff] at hne
      rw [Nat.card_of_isEmpty] at this
      exact absurd this (by decide)
    obtain ⟨d, hd⟩ := hne
    exact ⟨d, (hg d c).2 hd⟩
  have : Finite { c : Cube3 // c.Lawful } := Finite.of_surjective g hsurj
  have := Fintype.ofFinite { c : Cube3 // c.Lawful }
  have h1 : Nat.card Draw3 = ∑ c : { c : Cube3 // c.Lawful }, 12 := by
    rw [← Nat.card_congr (Equiv.sigmaFiberEquiv g), Nat.card_sigma]
    refine Finset.sum_congr rfl fun c _ => ?_
    rw [← draws_of_lawful c.1 c.2]
    exact Nat.card_congr (Equiv.subtypeEquivRight fun d => hg d c)
  rw [Nat.card_eq_fintype_card, card_draws, Finset.sum_const, Finset.card_univ, smul_eq_mul,
    ← Nat.card_eq_fintype_card] at h1
  have h2 : Nat.factorial 12 * (Nat.factorial 8 * (2 ^ 12 * 3 ^ 8)) = 43252003274489856000 * 12 := by decide +kernel
  rw [h2] at h1
  exact (Nat.eq_of_mul_eq_mul_right (by decide) h1).symm

end Barbarosa
