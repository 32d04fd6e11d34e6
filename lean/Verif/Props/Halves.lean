import Verif.Props.Effects
import Verif.Props.Meaning

/-!
# C119: edges and corners are independent up to the parity of the quarter turns

For the 3x3 (`cube_n/cube3/mod.rs:30-36`) and its moves (`cube_n/cube3/mod.rs:49-54`).
-/

namespace Barbarosa

open Equiv

/-- how many turns of an alg are quarter turns, in either direction (`cube_n/moves/amount.rs:9-13`) -/
def quarterCount (a : List AxisMove) : Nat := a.countP fun m => m.amount ≠ .double

theorem signs_alg (a : List AxisMove) : ∀ (c : Cube3) (σ : Perm (Fin 12)) (τ : Perm (Fin 8)), c.edges.Arranged σ → c.corners.Arranged τ →
    ∃ σ' τ', (movedAlg c a).edges.Arranged σ' ∧ (movedAlg c a).corners.Arranged τ' ∧
      Perm.sign σ' = (-1) ^ quarterCount a * Perm.sign σ ∧ Perm.sign τ' = (-1) ^ quarterCount a * Perm.sign τ := by
  induction a with
  | nil => exact fun c σ τ h k => ⟨σ, τ, h, k, by simp [quarterCount], by simp [quarterCount]⟩
  | cons m l ih =>
    intro c σ τ h k
    obtain ⟨ρ, π, h1, h2, h3, h4⟩ := C69_parity c m
    obtain ⟨σ', τ', e1, e2, e3, e4⟩ := ih (moved c m) _ _ (h1 σ h) (h2 τ k)
    refine ⟨σ', τ', e1, e2, ?_, ?_⟩
    · rw [e3, Perm.sign_mul, h3]
      by_cases hm : m.amount = .double <;> simp [quarterCount, hm, pow_succ]
    · rw [e4, Perm.sign_mul, h4]
      by_cases hm : m.amount = .double <;> simp [quarterCount, hm, pow_succ]

theorem solved_arranged : Cube3.SOLVED.edges.Arranged 1 ∧ Cube3.SOLVED.corners.Arranged 1 := by
  constructor <;> intro i <;> revert i <;> decide +kernel

theorem signs_solved (a : List AxisMove) : ∃ σ τ, (movedAlg Cube3.SOLVED a).edges.Arranged σ ∧ (movedAlg Cube3.SOLVED a).corners.Arranged τ ∧
    Perm.sign σ = (-1) ^ quarterCount a ∧ Perm.sign τ = (-1) ^ quarterCount a := by
  obtain ⟨σ, τ, h1, h2, h3, h4⟩ := signs_alg a Cube3.SOLVED 1 1 solved_arranged.1 solved_arranged.2
  exact ⟨σ, τ, h1, h2, by simpa using h3, by simpa using h4⟩

theorem units_parity (m n : Nat) : ((-1 : ℤˣ) ^ m = (-1) ^ n) ↔ m % 2 = n % 2 := by
  rcases Nat.even_or_odd m with hm | hm <;> rcases Nat.even_or_odd n with hn | hn <;>
    simp [hm.neg_one_pow, hn.neg_one_pow, Nat.even_iff.1, Nat.odd_iff.1, *]

theorem mix_reachable (a b : List AxisMove) :
    (⟨(movedAlg Cube3.SOLVED a).edges, (movedAlg Cube3.SOLVED b).corners⟩ : Cube3).Reachable ↔ quarterCount a % 2 = quarterCount b % 2 := by
  obtain ⟨σ, -, h1, -, h3, -⟩ := signs_solved a
  obtain ⟨-, τ, -, k2, -, k4⟩ := signs_solved b
  rw [(C15_reachable_iff _).1, ← units_parity, ← h3, ← k4]
  constructor
  · rintro ⟨⟨σ', τ', e1, e2, e3⟩, -, -⟩
    rw [← e1.unique h1, ← e2.unique k2, e3]
  · exact fun h => ⟨⟨σ, τ, h1, k2, h⟩, ((C15_reachable_iff _).1.1 ⟨a, rfl⟩).flips, ((C15_reachable_iff _).1.1 ⟨b, rfl⟩).twists⟩

/-- **C119** For two algs there is a third one that does to the edges what the first does and to the corners what the second does,
on every 3x3, exactly if the numbers of quarter turns of the two are both even or both odd. -/
theorem C119_edges_of_one_corners_of_other (a b : List AxisMove) :
    (∃ w : List AxisMove, w.length ≤ 45 ∧ ∀ c : Cube3, (movedAlg c w).edges = (movedAlg c a).edges ∧ (movedAlg c w).corners = (movedAlg c b).corners) ↔
      quarterCount a % 2 = quarterCount b % 2 := by
  rw [← mix_reachable]
  constructor
  · rintro ⟨w, -, h⟩
    exact ⟨w, Cube3.ext (h _).1 (h _).2⟩
  · intro h
    obtain ⟨w, hl, hw⟩ := lawful_reachable ((C15_reachable_iff _).1.1 h)
    refine ⟨w, hl, ?_⟩
    obtain ⟨f, f', -, hf', ha⟩ := cube3_uniform.alg a
    obtain ⟨g, g', hg, -, hb⟩ := cube3_uniform.alg b
    have ha' : ∀ c : Cube3, movedAlg c a = ⟨fun i => f' (c.edges i), fun i => f (c.corners i)⟩ := ha
    have hb' : ∀ c : Cube3, movedAlg c b = ⟨fun i => g' (c.edges i), fun i => g (c.corners i)⟩ := hb
    have hu : PieceByPiece.Uniform fun c : Cube3 => (⟨(movedAlg c a).edges, (movedAlg c b).corners⟩ : Cube3) :=
      ⟨g, f', hg, hf', fun c => by simp only [ha', hb']⟩
    have hw' : ∀ c : Cube3, movedAlg c w = ⟨(movedAlg c a).edges, (movedAlg c b).corners⟩ :=
      congrFun (PieceByPiece.determined (cube3_uniform.alg w) hu (C08_solved_valid.2.1 : HasValid.valid Cube3.SOLVED) hw)
    exact fun c => by rw [hw']; exact ⟨rfl, rfl⟩

/-- the corners of the sexy move (four quarter turns) with the edges of `R2`: possible; with the edges of `R`: not -/
example : (∃ w : List AxisMove, w.length ≤ 45 ∧ ∀ c : Cube3, (movedAlg c w).edges = (movedAlg c [(⟨.R, .double⟩ : AxisMove)]).edges ∧
      (movedAlg c w).corners = (movedAlg c Perms.SEXY_MOVE).corners) ∧
    ¬ ∃ w : List AxisMove, w.length ≤ 45 ∧ ∀ c : Cube3, (movedAlg c w).edges = (movedAlg c [(⟨.R, .single⟩ : AxisMove)]).edges ∧
      (movedAlg c w).corners = (movedAlg c Perms.SEXY_MOVE).corners :=
  ⟨(C119_edges_of_one_corners_of_other _ _).2 (by decide), fun h => absurd ((C119_edges_of_one_corners_of_other _ _).1 h) (by decide)⟩

/-! ## Counting -/

theorem cube3_alg_append (c : Cube3) (a b : List AxisMove) : movedAlg c (a ++ b) = movedAlg (movedAlg c a) b := List.foldl_append

theorem quarterCount_append (a b : List AxisMove) : quarterCount (a ++ b) = quarterCount a + quarterCount b := List.countP_append

/-- the corners after an alg whose number of quarter turns is even (0) or odd (1) -/
def cornersOf (p : Nat) (k : PieceSet Corner 8) : Prop := ∃ a, quarterCount a % 2 = p ∧ (movedAlg Cube3.SOLVED a).corners = k
/-- the edges after an alg whose number of quarter turns is even (0) or odd (1) -/
def edgesOf (p : Nat) (e : PieceSet Edge 12) : Prop := ∃ a, quarterCount a % 2 = p ∧ (movedAlg Cube3.SOLVED a).edges = e

theorem halves_reachable (c : Cube3) : c.Reachable ↔ ∃ p, edgesOf p c.edges ∧ cornersOf p c.corners := by
  constructor
  · rintro ⟨a, rfl⟩
    exact ⟨_, ⟨a, rfl, rfl⟩, ⟨a, rfl, rfl⟩⟩
  · rintro ⟨p, ⟨a, h1, h2⟩, ⟨b, h3, h4⟩⟩
    have := (mix_reachable a b).2 (h1.trans h3.symm)
    rw [h2, h4] at this
    exact this

theorem cornersOf_unique {p q : Nat} {k : PieceSet Corner 8} (h : cornersOf p k) (h' : cornersOf q k) : p = q := by
  obtain ⟨a, h1, h2⟩ := h
  obtain ⟨b, h3, h4⟩ := h'
  have := (mix_reachable a b).1 (by rw [h4, ← h2]; exact ⟨a, rfl⟩)
  omega

theorem edgesOf_unique {p q : Nat} {e : PieceSet Edge 12} (h : edgesOf p e) (h' : edgesOf q e) : p = q := by
  obtain ⟨a, h1, h2⟩ := h
  obtain ⟨b, h3, h4⟩ := h'
  have := (mix_reachable a b).1 (by rw [h2, ← h4]; exact ⟨b, rfl⟩)
  omega

theorem cornersOf_swap {p : Nat} : Nat.card { k // cornersOf p k } ≤ Nat.card { k // cornersOf ((p + 1) % 2) k } := by
  refine Nat.card_le_card_of_injective (fun k => ⟨fun i => (k.1 i).moved ⟨Face.R, .single⟩, ?_⟩) ?_
  · obtain ⟨k, a, h1, rfl⟩ := k
    refine ⟨a ++ [⟨Face.R, .single⟩], ?_, by rw [cube3_alg_append]; rfl⟩
    rw [quarterCount_append]
    show (quarterCount a + 1) % 2 = _
    omega
  · intro k l h
    have inj : ∀ x y : Corner, x.moved ⟨Face.R, .single⟩ = y.moved ⟨Face.R, .single⟩ → x = y := by decide +kernel
    exact Subtype.ext (funext fun i => inj _ _ (congrFun (congrArg Subtype.val h) i))

theorem edgesOf_swap {p : Nat} : Nat.card { k // edgesOf p k } ≤ Nat.card { k // edgesOf ((p + 1) % 2) k } := by
  refine Nat.card_le_card_of_injective (fun k => ⟨fun i => (k.1 i).moved ⟨Face.R, .single⟩, ?_⟩) ?_
  · obtain ⟨k, a, h1, rfl⟩ := k
    refine ⟨a ++ [⟨Face.R, .single⟩], ?_, by rw [cube3_alg_append]; rfl⟩
    rw [quarterCount_append]
    show (quarterCount a + 1) % 2 = _
    omega
  · intro k l h
    have inj : ∀ x y : Edge, x.moved ⟨Face.R, .single⟩ = y.moved ⟨Face.R, .single⟩ → x = y := by decide +kernel
    exact Subtype.ext (funext fun i => inj _ _ (congrFun (congrArg Subtype.val h) i))

theorem card_or {T : Type} [Finite T] (P Q : T → Prop) (h : ∀ t, P t → ¬ Q t) :
    Nat.card { t // P t ∨ Q t } = Nat.card { t // P t } + Nat.card { t // Q t } := by
  classical
  rw [← Nat.card_sum]
  exact Nat.card_congr (subtypeOrEquiv P Q (by
    rw [Pi.disjoint_iff]
    intro t
    rw [Prop.disjoint_iff]
    rcases Classical.em (P t) with hp | hp <;> simp_all))

theorem corners_parity (k : PieceSet Corner 8) : (∃ c : Cube3, c.Reachable ∧ c.corners = k) ↔ cornersOf 0 k ∨ cornersOf 1 k := by
  constructor
  · rintro ⟨c, ⟨a, rfl⟩, rfl⟩
    rcases Nat.mod_two_eq_zero_or_one (quarterCount a) with h | h
    · exact .inl ⟨a, h, rfl⟩
    · exact .inr ⟨a, h, rfl⟩
  · rintro (⟨a, -, h⟩ | ⟨a, -, h⟩) <;> exact ⟨_, ⟨a, rfl⟩, h⟩

theorem edges_parity (k : PieceSet Edge 12) : (∃ c : Cube3, c.Reachable ∧ c.edges = k) ↔ edgesOf 0 k ∨ edgesOf 1 k := by
  constructor
  · rintro ⟨c, ⟨a, rfl⟩, rfl⟩
    rcases Nat.mod_two_eq_zero_or_one (quarterCount a) with h | h
    · exact .inl ⟨a, h, rfl⟩
    · exact .inr ⟨a, h, rfl⟩
  · rintro (⟨a, -, h⟩ | ⟨a, -, h⟩) <;> exact ⟨_, ⟨a, rfl⟩, h⟩

theorem card_corners_all : Nat.card { k : PieceSet Corner 8 // ∃ c : Cube3, c.Reachable ∧ c.corners = k } = 88179840 := by
  rw [← C68_number_of_states.1]
  refine Nat.card_congr ⟨fun k => ⟨⟨k.1⟩, ?_⟩, fun c => ⟨c.1.corners, ?_⟩, fun _ => rfl, fun _ => rfl⟩
  · obtain ⟨k, c, ⟨a, rfl⟩, rfl⟩ := k
    exact ⟨a, cube2_corners_alg Cube3.SOLVED a⟩
  · obtain ⟨c, a, rfl⟩ := c
    exact ⟨_, ⟨a, rfl⟩, (congrArg Cube2.corners (cube2_corners_alg Cube3.SOLVED a)).symm⟩

theorem card_cornersOf (p : Nat) (hp : p < 2) : Nat.card { k // cornersOf p k } = 44089920 := by
  have h := card_corners_all
  rw [Nat.card_congr (subtypeEquivRight corners_parity), card_or _ _ fun k h h' => absurd (cornersOf_unique h h') (by decide)] at h
  have h0 := cornersOf_swap (p := 0)
  have h1 := cornersOf_swap (p := 1)
  norm_num at h0 h1
  interval_cases p <;> omega

theorem half_of_states (x y : Nat) (e : x = y) (h : x * 44089920 + y * 44089920 = 43252003274489856000) :
    x = 490497638400 ∧ y = 490497638400 := by
  subst e
  rw [← two_mul, mul_comm x, ← mul_assoc, show (43252003274489856000 : Nat) = 2 * 44089920 * 490497638400 by norm_num] at h
  have := Nat.eq_of_mul_eq_mul_left (by norm_num) h
  exact ⟨this, this⟩

theorem card_edgesOf (p : Nat) (hp : p < 2) : Nat.card { k // edgesOf p k } = 490497638400 := by
  have h := C16_number_of_states
  have e : ∀ c : Cube3, c.Reachable ↔ (edgesOf 0 c.edges ∧ cornersOf 0 c.corners) ∨ (edgesOf 1 c.edges ∧ cornersOf 1 c.corners) := by
    intro c
    rw [halves_reachable]
    constructor
    · rintro ⟨p, h1, h2⟩
      have : p < 2 := by obtain ⟨a, h, -⟩ := h1; omega
      interval_cases p
      · exact .inl ⟨h1, h2⟩
      · exact .inr ⟨h1, h2⟩
    · rintro (h | h)
      · exact ⟨0, h⟩
      · exact ⟨1, h⟩
  have pr : ∀ p, Nat.card { c : Cube3 // edgesOf p c.edges ∧ cornersOf p c.corners } = Nat.card { k // edgesOf p k } * Nat.card { k // cornersOf p k } := by
    intro p
    rw [← Nat.card_prod]
    exact Nat.card_congr ⟨fun c => ⟨⟨_, c.2.1⟩, ⟨_, c.2.2⟩⟩, fun x => ⟨⟨x.1.1, x.2.1⟩, x.1.2, x.2.2⟩, fun _ => rfl, fun _ => rfl⟩
  rw [Nat.card_congr (subtypeEquivRight e), card_or _ _ fun k h h' => absurd (cornersOf_unique h.2 h'.2) (by decide), pr, pr,
    card_cornersOf 0 (by decide), card_cornersOf 1 (by decide)] at h
  have h0 := edgesOf_swap (p := 0)
  have h1 := edgesOf_swap (p := 1)
  norm_num at h0 h1
  have hx := half_of_states _ _ (le_antisymm h0 h1) h
  rcases (by omega : p = 0 ∨ p = 1) with rfl | rfl
  · exact hx.1
  · exact hx.2

/-- **C119** On the reachable 3x3 cubes the corners are arranged in 88179840 ways and the edges in 980995276800. With the edges of
any given one of these cubes go exactly 44089920 arrangements of the corners, that is one half of all, and with its corners exactly
490497638400 arrangements of the edges, again one half: knowing one half of the cube tells only the parity of the other. -/
theorem C119_counts :
    Nat.card { k : PieceSet Corner 8 // ∃ c : Cube3, c.Reachable ∧ c.corners = k } = 88179840 ∧
    Nat.card { e : PieceSet Edge 12 // ∃ c : Cube3, c.Reachable ∧ c.edges = e } = 980995276800 ∧
    ∀ d : Cube3, d.Reachable → Nat.card { c : Cube3 // c.Reachable ∧ c.edges = d.edges } = 44089920 ∧
      Nat.card { c : Cube3 // c.Reachable ∧ c.corners = d.corners } = 490497638400 := by
  refine ⟨card_corners_all, ?_, ?_⟩
  · rw [Nat.card_congr (subtypeEquivRight edges_parity), card_or _ _ fun k h h' => absurd (edgesOf_unique h h') (by decide),
      card_edgesOf 0 (by decide), card_edgesOf 1 (by decide)]
  · intro d hd
    obtain ⟨p, he, hk⟩ := (halves_reachable d).1 hd
    have hp : p < 2 := by obtain ⟨a, h, -⟩ := he; omega
    constructor
    · rw [← card_cornersOf p hp]
      refine Nat.card_congr ⟨fun c => ⟨c.1.corners, ?_⟩, fun k => ⟨⟨d.edges, k.1⟩, (halves_reachable _).2 ⟨p, he, k.2⟩, rfl⟩, ?_, fun _ => rfl⟩
      · obtain ⟨q, h1, h2⟩ := (halves_reachable _).1 c.2.1
        rw [c.2.2] at h1
        rwa [edgesOf_unique he h1]
      · rintro ⟨c, h1, h2⟩
        exact Subtype.ext (Cube3.ext h2.symm rfl)
    · rw [← card_edgesOf p hp]
      refine Nat.card_congr ⟨fun c => ⟨c.1.edges, ?_⟩, fun k => ⟨⟨k.1, d.corners⟩, (halves_reachable _).2 ⟨p, k.2, hk⟩, rfl⟩, ?_, fun _ => rfl⟩
      · obtain ⟨q, h1, h2⟩ := (halves_reachable _).1 c.2.1
        rw [c.2.2] at h2
        rwa [cornersOf_unique hk h2]
      · rintro ⟨c, h1, h2⟩
        exact Subtype.ext (Cube3.ext rfl h2.symm)

/-- with the edges of the T perm, which exchanges two edges, go 44089920 arrangements of the corners -/
example : Nat.card { c : Cube3 // c.Reachable ∧ c.edges = (movedAlg Cube3.SOLVED Perms.T).edges } = 44089920 :=
  (C119_counts.2.2 _ ⟨Perms.T, rfl⟩).1

end Barbarosa
