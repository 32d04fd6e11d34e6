import Verif.Lemmas.PieceSet
import Verif.Spec.Invariants
import Mathlib.Data.ZMod.Basic
import Mathlib.Data.Fintype.Perm
import Mathlib.Tactic.Ring

/-!
# The invariants of the 3x3: conservation, and the cycle counter of `fix_swap_parity`
-/

namespace Barbarosa

open PieceSet Equiv

/-! ## Arrangements -/

theorem PieceSet.Arranged.valid {P : Type} {n : Nat} [PieceSetDescriptor P n] [LawfulDescriptor P n] {s : PieceSet P n}
    {σ : Perm (Fin n)} (h : s.Arranged σ) : s.Valid := by
  intro i j e
  have e' : Piece.position (s i) = Piece.position (s j) := e
  rw [h i, h j] at e'
  exact σ.injective (LawfulDescriptor.ref_bij.1 e')

theorem PieceSet.Valid.arranged {P : Type} {n : Nat} [PieceSetDescriptor P n] [LawfulDescriptor P n] {s : PieceSet P n}
    (h : s.Valid) : ∃ σ, s.Arranged σ := by
  let r := Equiv.ofBijective _ (LawfulDescriptor.ref_bij (P := P) (n := n))
  let p := Equiv.ofBijective _ h.bijective
  refine ⟨p.trans r.symm, fun i => ?_⟩
  show Piece.position (s i) = r (r.symm (Piece.position (s i)))
  rw [Equiv.apply_symm_apply]

theorem PieceSet.Arranged.unique {P : Type} {n : Nat} [PieceSetDescriptor P n] [LawfulDescriptor P n] {s : PieceSet P n}
    {σ τ : Perm (Fin n)} (h : s.Arranged σ) (h' : s.Arranged τ) : σ = τ := by
  ext i
  rw [LawfulDescriptor.ref_bij (P := P).1 ((h i).symm.trans (h' i))]

theorem arranged_iff {P : Type} {n : Nat} [PieceSetDescriptor P n] [LawfulDescriptor P n] (s : PieceSet P n) :
    (∃ σ, s.Arranged σ) ↔ s.Valid := ⟨fun ⟨_, h⟩ => h.valid, fun h => h.arranged⟩

/-! ## Positions under quarter turns -/

/-- a 4-cycle -/
def cyc4 {n : Nat} (a b c d : Fin n) : Perm (Fin n) := swap a b * swap b c * swap c d

theorem sign_cyc4 {n : Nat} (a b c d : Fin n) (h1 : a ≠ b) (h2 : b ≠ c) (h3 : c ≠ d) : Perm.sign (cyc4 a b c d) = -1 := by
  unfold cyc4
  rw [Perm.sign_mul, Perm.sign_mul, Perm.sign_swap h1, Perm.sign_swap h2, Perm.sign_swap h3]
  decide

/-- permutation of the edge homes by a clockwise turn -/
def edgeTurn : Face → Perm (Fin 12)
  | ⟨.X, .pos⟩ => cyc4 2 4 8 10
  | ⟨.X, .neg⟩ => cyc4 3 11 9 5
  | ⟨.Y, .pos⟩ => cyc4 0 5 1 4
  | ⟨.Y, .neg⟩ => cyc4 6 11 7 10
  | ⟨.Z, .pos⟩ => cyc4 0 2 7 3
  | ⟨.Z, .neg⟩ => cyc4 1 9 6 8

/-- permutation of the corner homes by a clockwise turn -/
def cornerTurn : Face → Perm (Fin 8)
  | ⟨.X, .pos⟩ => cyc4 0 4 6 2
  | ⟨.X, .neg⟩ => cyc4 1 3 7 5
  | ⟨.Y, .pos⟩ => cyc4 0 1 5 4
  | ⟨.Y, .neg⟩ => cyc4 2 6 7 3
  | ⟨.Z, .pos⟩ => cyc4 0 2 3 1
  | ⟨.Z, .neg⟩ => cyc4 4 5 7 6

theorem sign_edgeTurn (f : Face) : Perm.sign (edgeTurn f) = -1 := by
  rcases f with ⟨_ | _ | _, _ | _⟩ <;> exact sign_cyc4 _ _ _ _ (by decide) (by decide) (by decide)

theorem sign_cornerTurn (f : Face) : Perm.sign (cornerTurn f) = -1 := by
  rcases f with ⟨_ | _ | _, _ | _⟩ <;> exact sign_cyc4 _ _ _ _ (by decide) (by decide) (by decide)

theorem edgeTurn_pos : ∀ (f : Face) (i : Fin 12),
    edgePosMoved (Edge.REFERENCE_POSITIONS i) ⟨f, .single⟩ = Edge.REFERENCE_POSITIONS (edgeTurn f i) := by decide +kernel

theorem cornerTurn_pos : ∀ (f : Face) (i : Fin 8),
    cornerPosMoved (Corner.REFERENCE_POSITIONS i) ⟨f, .single⟩ = Corner.REFERENCE_POSITIONS (cornerTurn f i) := by
  decide +kernel

theorem arranged_edges_single {s : PieceSet Edge 12} {σ : Perm (Fin 12)} (h : s.Arranged σ) (f : Face) :
    (s.moved (⟨f, .single⟩ : AxisMove)).Arranged (edgeTurn f * σ) := by
  intro i
  show (moved (s i) (⟨f, .single⟩ : AxisMove)).position = _
  rw [edge_pos_moved]
  have : (s i).position = Edge.REFERENCE_POSITIONS (σ i) := h i
  rw [this, edgeTurn_pos]
  rfl

theorem arranged_corners_single {s : PieceSet Corner 8} {σ : Perm (Fin 8)} (h : s.Arranged σ) (f : Face) :
    (s.moved (⟨f, .single⟩ : AxisMove)).Arranged (cornerTurn f * σ) := by
  intro i
  show (moved (s i) (⟨f, .single⟩ : AxisMove)).position = _
  rw [corner_pos_moved]
  have : (s i).position = Corner.REFERENCE_POSITIONS (σ i) := h i
  rw [this, cornerTurn_pos]
  rfl

/-- every move is one, two or three clockwise quarter turns -/
theorem cube3_quarters (c : Cube3) (f : Face) :
    moved c (⟨f, .double⟩ : AxisMove) = moved (moved c (⟨f, .single⟩ : AxisMove)) (⟨f, .single⟩ : AxisMove) ∧
    moved c (⟨f, .inverse⟩ : AxisMove) =
      moved (moved (moved c (⟨f, .single⟩ : AxisMove)) (⟨f, .single⟩ : AxisMove)) (⟨f, .single⟩ : AxisMove) := by
  have h1 := cube3_laws.add c () f .single .single
  have h2 := cube3_laws.add c () f .double .single
  simp only [axisAct] at h1 h2
  exact ⟨h1.symm, by rw [h1]; exact h2.symm⟩

/-- a property kept by clockwise quarter turns is kept by all moves -/
theorem keep_moves (p : Cube3 → Prop) (h : ∀ c f, p c → p (moved c (⟨f, .single⟩ : AxisMove))) (c : Cube3) (m : AxisMove)
    (hc : p c) : p (moved c m) := by
  obtain ⟨f, x⟩ := m
  cases x with
  | single => exact h c f hc
  | double => rw [(cube3_quarters c f).1]; exact h _ f (h _ f hc)
  | inverse => rw [(cube3_quarters c f).2]; exact h _ f (h _ f (h _ f hc))

/-! ## Sums over all positions -/

theorem Arranged.sum {P : Type} {n : Nat} [PieceSetDescriptor P n] {A : Type} [AddCommMonoid A] {s : PieceSet P n}
    {σ : Perm (Fin n)} (h : s.Arranged σ) (g : Piece.Position P → A) :
    ∑ i, g (Piece.position (s i)) = ∑ i, g (PieceSetDescriptor.REFERENCE_POSITIONS (P := P) i) := by
  rw [← Equiv.sum_comp σ (fun i => g (PieceSetDescriptor.REFERENCE_POSITIONS (P := P) i))]
  exact Finset.sum_congr rfl fun i _ => by rw [h i]

/-- 1 for an oriented edge, modulo 2 -/
def edgeBit (e : Edge) : ZMod 2 := if e.oriented = true then 1 else 0

/-- what a quarter turn adds to the bit of an edge at a position -/
def edgeShift (f : Face) (p : Edge.Pos) : ZMod 2 :=
  edgeBit (moved (⟨p.1, p.2, true⟩ : Edge) (⟨f, .single⟩ : AxisMove)) - 1

theorem edgeBit_moved : ∀ (e : Edge) (f : Face),
    edgeBit (moved e (⟨f, .single⟩ : AxisMove)) = edgeBit e + edgeShift f e.position := by decide +kernel

theorem edgeShift_sum : ∀ f : Face, ∑ i, edgeShift f (Edge.REFERENCE_POSITIONS i) = 0 := by decide +kernel

/-- orientation index modulo 3 -/
def cornerTrit (c : Corner) : ZMod 3 := (c.orientationIndex : ZMod 3)

/-- what a quarter turn adds to the orientation index of a corner at a position -/
def cornerShift (f : Face) (p : Vec3) : ZMod 3 := cornerTrit (moved (⟨p, .Y⟩ : Corner) (⟨f, .single⟩ : AxisMove))

theorem cornerTrit_moved : ∀ (c : Corner) (f : Face),
    cornerTrit (moved c (⟨f, .single⟩ : AxisMove)) = cornerTrit c + cornerShift f c.position := by decide +kernel

theorem cornerShift_sum : ∀ f : Face, ∑ i, cornerShift f (Corner.REFERENCE_POSITIONS i) = 0 := by decide +kernel

theorem edgeBits_single {s : PieceSet Edge 12} (h : s.Valid) (f : Face) :
    ∑ i, edgeBit ((s.moved (⟨f, .single⟩ : AxisMove)) i) = ∑ i, edgeBit (s i) := by
  obtain ⟨σ, hσ⟩ := h.arranged
  have : ∀ i, edgeBit ((s.moved (⟨f, .single⟩ : AxisMove)) i) = edgeBit (s i) + edgeShift f (s i).position :=
    fun i => edgeBit_moved (s i) f
  rw [Finset.sum_congr rfl fun i _ => this i, Finset.sum_add_distrib]
  have h2 : ∑ i, edgeShift f (s i).position = 0 := (Arranged.sum hσ (edgeShift f)).trans (edgeShift_sum f)
  rw [h2, add_zero]

theorem cornerTrits_single {s : PieceSet Corner 8} (h : s.Valid) (f : Face) :
    ∑ i, cornerTrit ((s.moved (⟨f, .single⟩ : AxisMove)) i) = ∑ i, cornerTrit (s i) := by
  obtain ⟨σ, hσ⟩ := h.arranged
  have : ∀ i, cornerTrit ((s.moved (⟨f, .single⟩ : AxisMove)) i) = cornerTrit (s i) + cornerShift f (s i).position :=
    fun i => cornerTrit_moved (s i) f
  rw [Finset.sum_congr rfl fun i _ => this i, Finset.sum_add_distrib]
  have h2 : ∑ i, cornerShift f (s i).position = 0 := (Arranged.sum hσ (cornerShift f)).trans (cornerShift_sum f)
  rw [h2, add_zero]

theorem edgeBits_card (s : PieceSet Edge 12) :
    ∑ i, edgeBit (s i) = ((Finset.univ.filter fun i => (s i).oriented = true).card : ZMod 2) := by
  unfold edgeBit
  rw [Finset.sum_boole]

theorem even_flips_iff (s : PieceSet Edge 12) :
    Even (Finset.univ.filter fun i => (s i).oriented = true).card ↔ ∑ i, edgeBit (s i) = 0 := by
  rw [edgeBits_card, ZMod.natCast_eq_zero_iff, even_iff_two_dvd]

theorem twists_iff (s : PieceSet Corner 8) : 3 ∣ ∑ i, (s i).orientationIndex ↔ ∑ i, cornerTrit (s i) = 0 := by
  unfold cornerTrit
  rw [← Nat.cast_sum, ZMod.natCast_eq_zero_iff]

/-- everything conserved by a quarter turn -/
structure Conserved (c d : Cube3) : Prop where
  parity : ∀ σ τ, c.edges.Arranged σ → c.corners.Arranged τ →
    ∃ σ' τ', d.edges.Arranged σ' ∧ d.corners.Arranged τ' ∧ Perm.sign σ' * Perm.sign τ' = Perm.sign σ * Perm.sign τ
  flips : ∑ i, edgeBit (d.edges i) = ∑ i, edgeBit (c.edges i)
  twists : ∑ i, cornerTrit (d.corners i) = ∑ i, cornerTrit (c.corners i)

theorem conserved_moved (c : Cube3) (he : c.edges.Valid) (hc : c.corners.Valid) (m : AxisMove) :
    Conserved c (moved c m) ∧ (moved c m).edges.Valid ∧ (moved c m).corners.Valid := by
  refine keep_moves (fun d => Conserved c d ∧ d.edges.Valid ∧ d.corners.Valid) ?_ c m
    ⟨⟨fun σ τ h1 h2 => ⟨σ, τ, h1, h2, rfl⟩, rfl, rfl⟩, he, hc⟩
  rintro d f ⟨h, h1, h2⟩
  refine ⟨⟨?_, ?_, ?_⟩, h1.moved_edge _, h2.moved_corner _⟩
  · intro σ τ hσ hτ
    obtain ⟨σ', τ', a, b, e⟩ := h.parity σ τ hσ hτ
    refine ⟨edgeTurn f * σ', cornerTurn f * τ', arranged_edges_single a f, arranged_corners_single b f, ?_⟩
    rw [Perm.sign_mul, Perm.sign_mul, sign_edgeTurn, sign_cornerTurn, ← e]
    simp
  · rw [← h.flips]
    exact edgeBits_single h1 f
  · rw [← h.twists]
    exact cornerTrits_single h2 f

theorem lawful_moved (c : Cube3) (h : c.Lawful) (m : AxisMove) : (moved c m).Lawful := by
  obtain ⟨⟨σ, τ, h1, h2, h3⟩, h4, h5⟩ := h
  obtain ⟨k, -, -⟩ := conserved_moved c h1.valid h2.valid m
  obtain ⟨σ', τ', a, b, e⟩ := k.parity σ τ h1 h2
  refine ⟨⟨σ', τ', a, b, ?_⟩, ?_, ?_⟩
  · rw [h3] at e
    rcases Int.units_eq_one_or (Perm.sign σ') with x | x <;> rcases Int.units_eq_one_or (Perm.sign τ') with y | y <;>
      rcases Int.units_eq_one_or (Perm.sign τ) with z | z <;> simp_all
  · rw [even_flips_iff] at h4 ⊢
    rw [k.flips, h4]
  · rw [twists_iff] at h5 ⊢
    rw [k.twists, h5]

theorem lawful_solved : Cube3.SOLVED.Lawful := by
  refine ⟨⟨1, 1, fun i => rfl, fun i => rfl, rfl⟩, ?_, ?_⟩
  · rw [even_flips_iff]; decide +kernel
  · rw [twists_iff]; decide +kernel

/-! ## The cycle counter -/

theorem neg_pow_two_add (k : Nat) : (-1 : ℤˣ) ^ (2 + k) = (-1) ^ k := by
  rw [pow_add]
  simp

/-- invariant of `swapCyclesLoop`: `ρ` is the part of `σ` seen so far, with the running cycle closed at its start `s` -/
structure CycleInv {n : Nat} (σ : Perm (Fin n)) (visited : Fin n → Bool) (current : Fin n) (cycles : Int)
    (s : Fin n) (ρ : Perm (Fin n)) : Prop where
  out : ∀ x, visited x = false → ρ x = x
  start : visited s = true
  close : ∀ x, visited x = true → σ x = current → ρ x = s
  same : ∀ x, visited x = true → σ x ≠ current → ρ x = σ x
  last : ∃ x, visited x = true ∧ σ x = current
  sign : ∃ k : Nat, (k : Int) = cycles ∧
    Perm.sign ρ = (-1) ^ ((Finset.univ.filter fun x => visited x = true).card + k + 1)

theorem card_visit {n : Nat} (visited : Fin n → Bool) (i : Fin n) (h : visited i = false) :
    (Finset.univ.filter fun x => Function.update visited i true x = true).card =
      (Finset.univ.filter fun x => visited x = true).card + 1 := by
  have : (Finset.univ.filter fun x => Function.update visited i true x = true) =
      insert i (Finset.univ.filter fun x => visited x = true) := by
    ext x
    by_cases hx : x = i
    · subst hx; simp
    · simp [hx]
  rw [this, Finset.card_insert_of_notMem (by simp [h])]

theorem CycleInv.extend {n : Nat} {σ : Perm (Fin n)} {visited : Fin n → Bool} {current : Fin n} {cycles : Int}
    {s : Fin n} {ρ : Perm (Fin n)} (h : CycleInv σ visited current cycles s ρ) (hc : visited current = false) :
    CycleInv σ (Function.update visited current true) (σ current) cycles s (swap s current * ρ) := by
  have hsc : s ≠ current := by rintro rfl; rw [h.start] at hc; exact Bool.noConfusion hc
  have up : ∀ x, Function.update visited current true x = true → x = current ∨ (x ≠ current ∧ visited x = true) := by
    intro x hx
    by_cases e : x = current
    · exact Or.inl e
    · rw [Function.update_of_ne e] at hx; exact Or.inr ⟨e, hx⟩
  refine ⟨?_, ?_, ?_, ?_, ⟨current, by simp, rfl⟩, ?_⟩
  · intro x hx
    have hxc : x ≠ current := by rintro rfl; simp at hx
    rw [Function.update_of_ne hxc] at hx
    rw [Perm.mul_apply, h.out x hx]
    exact swap_apply_of_ne_of_ne (by rintro rfl; rw [h.start] at hx; exact Bool.noConfusion hx) hxc
  · rw [Function.update_of_ne hsc]; exact h.start
  · intro x hx e
    obtain rfl : x = current := σ.injective e
    rw [Perm.mul_apply, h.out _ hc, swap_apply_right]
  · intro x hx e
    rcases up x hx with rfl | ⟨hne, hv⟩
    · exact absurd rfl e
    · rw [Perm.mul_apply]
      by_cases hx2 : σ x = current
      · rw [h.close x hv hx2, swap_apply_left, hx2]
      · rw [h.same x hv hx2]
        refine swap_apply_of_ne_of_ne ?_ hx2
        intro es
        obtain ⟨y, hy1, hy2⟩ := h.last
        have h1 : ρ y = s := h.close y hy1 hy2
        have h2 : ρ x = s := by rw [h.same x hv hx2, es]
        have : x = y := ρ.injective (h2.trans h1.symm)
        exact hx2 (this ▸ hy2)
  · obtain ⟨k, hk, hs⟩ := h.sign
    refine ⟨k, hk, ?_⟩
    rw [Perm.sign_mul, Perm.sign_swap hsc, hs, card_visit visited current hc, ← pow_succ']
    congr 1
    omega

theorem CycleInv.closed {n : Nat} {σ : Perm (Fin n)} {visited : Fin n → Bool} {current : Fin n} {cycles : Int}
    {s : Fin n} {ρ : Perm (Fin n)} (h : CycleInv σ visited current cycles s ρ) (hc : visited current = true) :
    ∀ x, visited x = true → ρ x = σ x := by
  have hcs : current = s := by
    obtain ⟨y, hy⟩ := ρ.surjective current
    by_cases hv : visited y = true
    · by_cases e : σ y = current
      · rw [h.close y hv e] at hy; exact hy.symm
      · rw [h.same y hv e] at hy; exact absurd hy e
    · have hv' : visited y = false := by simpa using hv
      have hyc : y = current := by rw [← hy, h.out y hv']
      rw [hyc] at hv'
      rw [hc] at hv'
      exact Bool.noConfusion hv'
  intro x hx
  by_cases e : σ x = current
  · rw [h.close x hx e, e, hcs]
  · exact h.same x hx e

theorem CycleInv.restart {n : Nat} {σ : Perm (Fin n)} {visited : Fin n → Bool} {current : Fin n} {cycles : Int}
    {s : Fin n} {ρ : Perm (Fin n)} (h : CycleInv σ visited current cycles s ρ) (hc : visited current = true)
    {f : Fin n} (hf : visited f = false) :
    CycleInv σ (Function.update visited f true) (σ f) (cycles + 1) f ρ := by
  have cl := h.closed hc
  have up : ∀ x, Function.update visited f true x = true → x = f ∨ (x ≠ f ∧ visited x = true) := by
    intro x hx
    by_cases e : x = f
    · exact Or.inl e
    · rw [Function.update_of_ne e] at hx; exact Or.inr ⟨e, hx⟩
  refine ⟨?_, by simp, ?_, ?_, ⟨f, by simp, rfl⟩, ?_⟩
  · intro x hx
    have hxf : x ≠ f := by rintro rfl; simp at hx
    rw [Function.update_of_ne hxf] at hx
    exact h.out x hx
  · intro x _ e
    obtain rfl : x = f := σ.injective e
    exact h.out _ hf
  · intro x hx e
    rcases up x hx with rfl | ⟨-, hv⟩
    · exact absurd rfl e
    · exact cl x hv
  · obtain ⟨k, hk, hs⟩ := h.sign
    refine ⟨k + 1, by push_cast; rw [hk], ?_⟩
    rw [hs, card_visit visited f hf, ← neg_pow_two_add]
    congr 1
    omega

theorem positionIndex?_arranged {P : Type} {n : Nat} [PieceSetDescriptor P n] [LawfulDescriptor P n] {s : PieceSet P n}
    {σ : Perm (Fin n)} (h : s.Arranged σ) (i : Fin n) : positionIndex? (s i) = some (σ i) := by
  unfold positionIndex?
  rw [h i, refIndex?_eq]

theorem swapCyclesLoop_spec {P : Type} {n : Nat} [PieceSetDescriptor P n] [LawfulDescriptor P n] {values : PieceSet P n}
    {σ : Perm (Fin n)} (hσ : values.Arranged σ) (fuel : Nat) (visited : Fin n → Bool) (current : Fin n) (cycles : Int)
    (s : Fin n) (ρ : Perm (Fin n)) (h : CycleInv σ visited current cycles s ρ)
    (hf : n + 1 ≤ fuel + (Finset.univ.filter fun x => visited x = true).card) :
    ∃ k : Nat, swapCyclesLoop values fuel visited current cycles = some (k : Int) ∧ Perm.sign σ = (-1) ^ (n + k + 1) := by
  induction fuel generalizing visited current cycles s ρ with
  | zero =>
    have : (Finset.univ.filter fun x => visited x = true).card ≤ n := by
      simpa using Finset.card_filter_le (Finset.univ : Finset (Fin n)) fun x => visited x = true
    omega
  | succ fuel ih =>
    unfold swapCyclesLoop
    by_cases hc : visited current = true
    · rw [if_pos hc]
      rcases hfu : (List.finRange n).find? (fun i => !visited i) with _ | f
      · have hall : ∀ x, visited x = true := by
          intro x
          have := List.find?_eq_none.mp hfu x (List.mem_finRange x)
          simpa using this
        have hρ : ρ = σ := by ext x; rw [h.closed hc x (hall x)]
        obtain ⟨k, hk, hs⟩ := h.sign
        refine ⟨k, by rw [hk], ?_⟩
        rw [← hρ, hs]
        have : (Finset.univ.filter fun x => visited x = true).card = n := by
          rw [Finset.filter_true_of_mem fun x _ => hall x]; simp
        rw [this]
      · have hfv : visited f = false := by simpa using List.find?_some hfu
        simp only [positionIndex?_arranged hσ]
        refine ih _ _ _ _ _ (h.restart hc hfv) ?_
        rw [card_visit visited f hfv]
        omega
    · have hcv : visited current = false := by simpa using hc
      rw [if_neg hc]
      simp only [positionIndex?_arranged hσ]
      refine ih _ _ _ _ _ (h.extend hcv) ?_
      rw [card_visit visited current hcv]
      omega

/-- `swap_cycles` never panics and its parity is the parity of the arrangement, up to the parity of the number of
pieces -/
theorem swapCycles?_eq {P : Type} {n : Nat} [PieceSetDescriptor P (n + 1)] [LawfulDescriptor P (n + 1)]
    {values : PieceSet P (n + 1)} {σ : Perm (Fin (n + 1))} (hσ : values.Arranged σ) :
    ∃ k : Nat, swapCycles? values = some (k : Int) ∧ Perm.sign σ = (-1) ^ (n + k) := by
  unfold swapCycles? swapCyclesLoop
  rw [if_neg (by simp)]
  simp only [positionIndex?_arranged hσ]
  have hinv : CycleInv σ (Function.update (fun _ => false) 0 true) (σ 0) 0 0 1 := by
    refine ⟨fun x _ => rfl, by simp, ?_, ?_, ⟨0, by simp, rfl⟩, ⟨0, rfl, ?_⟩⟩
    · intro x _ e
      rw [σ.injective e]; rfl
    · intro x hx e
      by_cases h0 : x = 0
      · subst h0; exact absurd rfl e
      · rw [Function.update_of_ne h0] at hx; exact Bool.noConfusion hx
    · rw [card_visit _ _ rfl]
      simp
  obtain ⟨k, h1, h2⟩ := swapCyclesLoop_spec hσ (n + 1) _ _ _ _ _ hinv (by rw [card_visit _ _ rfl]; omega)
  refine ⟨k, h1, ?_⟩
  rw [h2, ← neg_pow_two_add (n + k)]
  congr 1
  omega

end Barbarosa
