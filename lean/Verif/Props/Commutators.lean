import Verif.Props.Effects

/-!
# C120: set-up moves, algs that have nothing in common, commutators

For the 3x3 (`cube_n/cube3/mod.rs:30-54`); algs are applied to single pieces as by `cube_n/pieces/corner.rs:63-70` and
`cube_n/pieces/edge.rs:124-131`, reversed as by `generic/alg.rs:40-42`.
-/

namespace Barbarosa

open PieceSet

/-! ## Pieces that are moved one by one -/

/-- what is used of corners and edges: moves do not look at how a piece is turned in its place, and can be undone -/
class MovedAlone (P : Type) (n : outParam Nat) [DecidableEq P] [PieceSetDescriptor P n] [Turnable P] [Movable P AxisMove] : Prop where
  lawful : LawfulDescriptor P n
  blind : ∀ m : AxisMove, Blind fun x : P => moved x m
  turns : ∀ x y : P, Piece.position x = Piece.position y → ∃ k < 3, x = Turnable.turn^[k] y
  place : ∀ x : P, Piece.position (Turnable.turn x) = Piece.position x
  inj : Function.Injective (Turnable.turn : P → P)
  undo : ∀ (x : P) (m : AxisMove), moved (moved x m) (Move.inverse m) = x
  undo' : ∀ (x : P) (m : AxisMove), moved (moved x (Move.inverse m)) m = x

instance : MovedAlone Corner 8 where
  lawful := inferInstance
  blind := corner_blind
  turns := corner_turns
  place _ := rfl
  inj := by unfold Function.Injective; decide +kernel
  undo := by decide +kernel
  undo' := by decide +kernel

instance : MovedAlone Edge 12 where
  lawful := inferInstance
  blind := edge_blind
  turns := edge_turns
  place _ := rfl
  inj := by unfold Function.Injective; decide +kernel
  undo := by decide +kernel
  undo' := by decide +kernel

/-- the two algs have only one place in common, and both bring the piece there elsewhere -/
structure OnlyCommon {P : Type} [Piece P] [Movable P AxisMove] (a b : List AxisMove) (p : Piece.Position P) : Prop where
  common : ∀ x : P, movedAlg x a ≠ x → movedAlg x b ≠ x → Piece.position x = p
  first : ∀ x : P, Piece.position x = p → Piece.position (movedAlg x a) ≠ p
  second : ∀ x : P, Piece.position x = p → Piece.position (movedAlg x b) ≠ p

section
theorem piece_append {P : Type} [Movable P AxisMove] (x : P) (a b : List AxisMove) : movedAlg x (a ++ b) = movedAlg (movedAlg x a) b :=
  List.foldl_append

/-- one alg, another, the first undone, the other undone -/
theorem piece_commutator {P : Type} [Movable P AxisMove] (a b : List AxisMove) (x : P) :
    movedAlg x (a ++ b ++ reversed a ++ reversed b) = movedAlg (movedAlg (movedAlg (movedAlg x a) b) (reversed a)) (reversed b) := by
  rw [piece_append, piece_append, piece_append]

variable {P : Type} {n : Nat} [DecidableEq P] [PieceSetDescriptor P n] [Turnable P] [Movable P AxisMove] [alone : MovedAlone P n]

include alone

theorem piece_undo (a : List AxisMove) : ∀ x : P, movedAlg (movedAlg x a) (reversed a) = x := by
  induction a with
  | nil => exact fun _ => rfl
  | cons m l ih =>
    intro x
    have : reversed (m :: l) = reversed l ++ [Move.inverse m] := by simp [reversed]
    rw [this, piece_append]
    show moved (movedAlg (movedAlg (moved x m) l) (reversed l)) (Move.inverse m) = x
    rw [ih, MovedAlone.undo]

theorem piece_undo' (a : List AxisMove) : ∀ x : P, movedAlg (movedAlg x (reversed a)) a = x := by
  induction a with
  | nil => exact fun _ => rfl
  | cons m l ih =>
    intro x
    have : reversed (m :: l) = reversed l ++ [Move.inverse m] := by simp [reversed]
    rw [this, piece_append]
    show movedAlg (moved (moved (movedAlg x (reversed l)) (Move.inverse m)) m) l = x
    rw [MovedAlone.undo', ih]

theorem piece_inj (a : List AxisMove) {x y : P} (h : movedAlg x a = movedAlg y a) : x = y := by
  rw [← piece_undo a x, h, piece_undo]

theorem piece_blind (a : List AxisMove) : Blind fun x : P => movedAlg x a := by
  induction a with
  | nil => exact blind_id
  | cons m l ih => exact (MovedAlone.blind m).comp ih

theorem iterate_place (k : Nat) (x : P) : Piece.position (Turnable.turn^[k] x) = Piece.position x := by
  induction k with
  | zero => rfl
  | succ k ih => rw [Function.iterate_succ_apply', MovedAlone.place, ih]

/-- pieces in one place go to one place, and stay as they are together -/
theorem piece_place (a : List AxisMove) {x y : P} (h : Piece.position x = Piece.position y) :
    Piece.position (movedAlg x a) = Piece.position (movedAlg y a) ∧ (movedAlg x a = x ↔ movedAlg y a = y) := by
  obtain ⟨k, -, rfl⟩ := MovedAlone.turns x y h
  have := (piece_blind a).iterate k y
  rw [show movedAlg (Turnable.turn^[k] y) a = Turnable.turn^[k] (movedAlg y a) from this, iterate_place]
  exact ⟨rfl, (MovedAlone.inj.iterate k).eq_iff⟩

/-- the number of pieces of a valid array whose place has a property does not depend on the array -/
theorem count_places (Q : Piece.Position P → Prop) [DecidablePred Q] {s t : PieceSet P n} (hs : s.Valid) (ht : t.Valid) :
    (Finset.univ.filter fun i => Q (Piece.position (s i))).card = (Finset.univ.filter fun i => Q (Piece.position (t i))).card := by
  have : LawfulDescriptor P n := MovedAlone.lawful
  obtain ⟨σ, hσ⟩ := hs.arranged
  obtain ⟨τ, hτ⟩ := ht.arranged
  rw [Finset.card_filter, Finset.card_filter, Arranged.sum hσ fun p => if Q p then 1 else 0, Arranged.sum hτ fun p => if Q p then 1 else 0]

theorem place_pred (a : List AxisMove) : ∃ Q : Piece.Position P → Prop, ∀ x : P, movedAlg x a ≠ x ↔ Q (Piece.position x) :=
  ⟨fun p => ∃ y : P, Piece.position y = p ∧ movedAlg y a ≠ y, fun x => ⟨fun h => ⟨x, rfl, h⟩, fun ⟨_, e, h⟩ => fun h' =>
    h ((piece_place a e).2.2 h')⟩⟩

theorem count_changed (a : List AxisMove) {s t : PieceSet P n} (hs : s.Valid) (ht : t.Valid) :
    (Finset.univ.filter fun i => movedAlg (s i) a ≠ s i).card = (Finset.univ.filter fun i => movedAlg (t i) a ≠ t i).card := by
  classical
  obtain ⟨Q, hQ⟩ := place_pred (P := P) a
  rw [Finset.filter_congr fun i _ => hQ (s i), Finset.filter_congr fun i _ => hQ (t i)]
  convert count_places Q hs ht

theorem piece_disjoint {a b : List AxisMove} (h : ∀ x : P, movedAlg x a = x ∨ movedAlg x b = x) (x : P) :
    movedAlg x (a ++ b) = movedAlg x (b ++ a) := by
  rw [piece_append, piece_append]
  by_cases ha : movedAlg x a = x
  · by_cases hb : movedAlg x b = x
    · rw [ha, hb, ha]
    · rcases h (movedAlg x b) with k | k
      · rw [ha, k]
      · exact absurd (piece_inj b k) hb
  · have hb := (h x).resolve_left ha
    rcases h (movedAlg x a) with k | k
    · exact absurd (piece_inj a k) ha
    · rw [hb, k]

theorem piece_disjoint_commutator {a b : List AxisMove} (h : ∀ x : P, movedAlg x a = x ∨ movedAlg x b = x) (x : P) :
    movedAlg x (a ++ b ++ reversed a ++ reversed b) = x := by
  have := piece_disjoint h x
  rw [piece_append, piece_append] at this
  rw [piece_commutator, this, piece_undo, piece_undo]

variable {a b : List AxisMove} {p : Piece.Position P}

theorem OnlyCommon.cycle (h : OnlyCommon a b p) (x : P) :
    (Piece.position x = p → movedAlg x (a ++ b ++ reversed a ++ reversed b) = movedAlg x (reversed b)) ∧
    (Piece.position (movedAlg x b) = p → movedAlg x (a ++ b ++ reversed a ++ reversed b) = movedAlg (movedAlg x b) (reversed a)) ∧
    (Piece.position (movedAlg x a) = p → movedAlg x (a ++ b ++ reversed a ++ reversed b) = movedAlg x a) ∧
    (Piece.position x ≠ p → Piece.position (movedAlg x b) ≠ p → Piece.position (movedAlg x a) ≠ p →
      movedAlg x (a ++ b ++ reversed a ++ reversed b) = x) := by
  have onlyA : ∀ y : P, movedAlg y a ≠ y → Piece.position y ≠ p → movedAlg y b = y := fun y h1 h2 => by
    by_contra h3
    exact h2 (h.common y h1 h3)
  have onlyB : ∀ y : P, movedAlg y b ≠ y → Piece.position y ≠ p → movedAlg y a = y := fun y h1 h2 => by
    by_contra h3
    exact h2 (h.common y h3 h1)
  have mA : ∀ y : P, movedAlg y a ≠ y → movedAlg (movedAlg y a) a ≠ movedAlg y a := fun y h1 h2 => h1 (piece_inj a h2)
  have mB : ∀ y : P, movedAlg y b ≠ y → movedAlg (movedAlg y b) b ≠ movedAlg y b := fun y h1 h2 => h1 (piece_inj b h2)
  have undoB : ∀ y : P, movedAlg y b = y → movedAlg y (reversed b) = y := fun y hy => by
    have := piece_undo b y
    rwa [hy] at this
  have undoA : ∀ y : P, movedAlg y a = y → movedAlg y (reversed a) = y := fun y hy => by
    have := piece_undo a y
    rwa [hy] at this
  have pA : ∀ y : P, Piece.position y = p → movedAlg y a ≠ y := fun y hy e => h.first y hy (by rw [e, hy])
  have pB : ∀ y : P, Piece.position y = p → movedAlg y b ≠ y := fun y hy e => h.second y hy (by rw [e, hy])
  rw [piece_commutator]
  refine ⟨fun hx => ?_, fun hx => ?_, fun hx => ?_, fun h1 h2 h3 => ?_⟩
  · rw [onlyA _ (mA x (pA x hx)) (h.first x hx), piece_undo]
  · have hb : movedAlg x b ≠ x := fun e => pB _ hx (by rw [e, e])
    have hp : Piece.position x ≠ p := fun e => h.second x e hx
    rw [onlyB x hb hp]
    have ha : Piece.position (movedAlg (movedAlg x b) (reversed a)) ≠ p := fun e => by
      have := h.first _ e
      rw [piece_undo'] at this
      exact this hx
    refine undoB _ (onlyA _ (fun e => ?_) ha)
    rw [piece_undo'] at e
    have := piece_undo' a (movedAlg x b)
    rw [← e] at this
    exact pA _ hx this
  · rw [onlyB _ (mB _ (pB _ hx)) (h.second _ hx) |> undoA _, piece_undo]
  · by_cases ha : movedAlg x a = x
    · rw [ha]
      by_cases hb : movedAlg x b = x
      · rw [hb, undoA _ ha, undoB _ hb]
      · rw [undoA _ (onlyB _ (mB x hb) h2), piece_undo]
    · rw [onlyA _ (mA x ha) h3, piece_undo, undoB _ (onlyA x ha h1)]

theorem OnlyCommon.changed (h : OnlyCommon a b p) (x : P) : movedAlg x (a ++ b ++ reversed a ++ reversed b) ≠ x ↔
    Piece.position x = p ∨ Piece.position (movedAlg x b) = p ∨ Piece.position (movedAlg x a) = p := by
  obtain ⟨h1, h2, h3, h4⟩ := h.cycle x
  constructor
  · intro hx
    by_contra hn
    rw [not_or, not_or] at hn
    exact hx (h4 hn.1 hn.2.1 hn.2.2)
  · rintro (k | k | k) e
    · rw [h1 k] at e
      have := piece_undo' b x
      rw [e] at this
      exact h.second x k (by rw [this, k])
    · rw [h2 k] at e
      have e' : movedAlg x b = movedAlg x a := by rw [← piece_undo' a (movedAlg x b), e]
      have hp : Piece.position x ≠ p := fun hp => h.second x hp k
      have hc := h.common x (fun e0 => hp (by rw [← k, e', e0])) (fun e0 => hp (by rw [← k, e0]))
      exact hp hc
    · rw [h3 k] at e
      rw [e] at k
      exact h.first x k (by rw [e, k])

theorem OnlyCommon.three_times (h : OnlyCommon a b p) (x : P) :
    movedAlg x ((a ++ b ++ reversed a ++ reversed b) ++ (a ++ b ++ reversed a ++ reversed b) ++ (a ++ b ++ reversed a ++ reversed b)) = x := by
  have cyc := h.cycle
  obtain ⟨w, hw⟩ : ∃ w, w = a ++ b ++ reversed a ++ reversed b := ⟨_, rfl⟩
  simp only [← hw] at cyc ⊢
  rw [piece_append, piece_append]
  have one : ∀ y : P, Piece.position y = p → movedAlg (movedAlg (movedAlg y w) w) w = y := by
    intro y hy
    have e1 : movedAlg y w = movedAlg y (reversed b) := (cyc y).1 hy
    have e2 : movedAlg (movedAlg y (reversed b)) w = movedAlg y (reversed a) := by
      have := (cyc (movedAlg y (reversed b))).2.1
      rw [piece_undo'] at this
      exact this hy
    have e3 : movedAlg (movedAlg y (reversed a)) w = y := by
      have := (cyc (movedAlg y (reversed a))).2.2.1
      rw [piece_undo'] at this
      exact this hy
    rw [e1, e2, e3]
  by_cases k1 : Piece.position x = p
  · exact one x k1
  by_cases k3 : Piece.position (movedAlg x a) = p
  · have e : movedAlg x w = movedAlg x a := (cyc x).2.2.1 k3
    apply piece_inj w
    rw [e]
    exact one _ k3
  by_cases k2 : Piece.position (movedAlg x b) = p
  · have e : movedAlg x w = movedAlg (movedAlg x b) (reversed a) := (cyc x).2.1 k2
    have e' : movedAlg (movedAlg (movedAlg x b) (reversed a)) w = movedAlg x b := by
      have := (cyc (movedAlg (movedAlg x b) (reversed a))).2.2.1
      rw [piece_undo'] at this
      exact this k2
    rw [e, e', (cyc _).1 k2, piece_undo]
  · have e : movedAlg x w = x := (cyc x).2.2.2 k1 k2 k3
    rw [e, e, e]

theorem OnlyCommon.three (h : OnlyCommon a b p) {s : PieceSet P n} (hs : s.Valid) :
    (Finset.univ.filter fun i => movedAlg (s i) (a ++ b ++ reversed a ++ reversed b) ≠ s i).card = 3 := by
  have : LawfulDescriptor P n := MovedAlone.lawful
  have hb := hs.bijective
  obtain ⟨i, hi⟩ := hb.2 p
  obtain ⟨j, hj⟩ := hb.2 (Piece.position (movedAlg (s i) (reversed b)))
  obtain ⟨k, hk⟩ := hb.2 (Piece.position (movedAlg (s i) (reversed a)))
  have hi : Piece.position (s i) = p := hi
  have pb : ∀ x : P, Piece.position (movedAlg x b) = p ↔ Piece.position x = Piece.position (movedAlg (s i) (reversed b)) := by
    intro x
    constructor
    · intro e
      have := (piece_place (reversed b) (e.trans hi.symm)).1
      rwa [piece_undo] at this
    · intro e
      have := (piece_place b e).1
      rwa [piece_undo', hi] at this
  have pa : ∀ x : P, Piece.position (movedAlg x a) = p ↔ Piece.position x = Piece.position (movedAlg (s i) (reversed a)) := by
    intro x
    constructor
    · intro e
      have := (piece_place (reversed a) (e.trans hi.symm)).1
      rwa [piece_undo] at this
    · intro e
      have := (piece_place a e).1
      rwa [piece_undo', hi] at this
  have e : (Finset.univ.filter fun l => movedAlg (s l) (a ++ b ++ reversed a ++ reversed b) ≠ s l) = {i, j, k} := by
    ext l
    simp only [Finset.mem_filter, Finset.mem_univ, true_and, Finset.mem_insert, Finset.mem_singleton]
    rw [h.changed, pa, pb]
    refine or_congr ⟨fun e => hb.1 (e.trans hi.symm), fun e => e ▸ hi⟩ (or_congr ⟨fun e => hb.1 (e.trans hj.symm), fun e => e ▸ hj⟩
      ⟨fun e => hb.1 (e.trans hk.symm), fun e => e ▸ hk⟩)
  have hj' : Piece.position (movedAlg (s j) b) = p := (pb _).2 hj
  have hk' : Piece.position (movedAlg (s k) a) = p := (pa _).2 hk
  have ij : i ≠ j := fun e => h.second (s j) (e ▸ hi) hj'
  have ik : i ≠ k := fun e => h.first (s k) (e ▸ hi) hk'
  have jk : j ≠ k := by
    rintro rfl
    have hp : Piece.position (s j) ≠ p := fun hp => h.second _ hp hj'
    exact hp (h.common (s j) (fun e0 => hp (by rw [← hk', e0])) (fun e0 => hp (by rw [← hj', e0])))
  rw [e, Finset.card_insert_of_notMem (by simp [ij, ik]), Finset.card_insert_of_notMem (by simp [jk]), Finset.card_singleton]

end

/-! ## C120 -/

/-- how many corners an alg changes, in place or orientation -/
def changedCorners (c : Cube3) (a : List AxisMove) : Nat := (Finset.univ.filter fun i => (movedAlg c a).corners i ≠ c.corners i).card
/-- how many edges an alg changes, in place or orientation -/
def changedEdges (c : Cube3) (a : List AxisMove) : Nat := (Finset.univ.filter fun i => (movedAlg c a).edges i ≠ c.edges i).card

theorem changedCorners_eq (c : Cube3) (a : List AxisMove) :
    changedCorners c a = (Finset.univ.filter fun i => movedAlg (c.corners i) a ≠ c.corners i).card := by
  unfold changedCorners
  simp only [cube3_corners_alg]

theorem changedEdges_eq (c : Cube3) (a : List AxisMove) :
    changedEdges c a = (Finset.univ.filter fun i => movedAlg (c.edges i) a ≠ c.edges i).card := by
  unfold changedEdges
  simp only [cube3_edges_alg]

/-- **C120** How many corners and how many edges an alg changes is the same on all valid cubes, solvable or not; and with set-up moves
before it that are undone afterwards it changes as many. -/
theorem C120_setup (a b : List AxisMove) (c d : Cube3) (hc : c.valid) (hd : d.valid) :
    changedCorners c a = changedCorners d a ∧ changedEdges c a = changedEdges d a ∧
    changedCorners c (b ++ a ++ reversed b) = changedCorners d a ∧ changedEdges c (b ++ a ++ reversed b) = changedEdges d a := by
  have same : ∀ (c d : Cube3), c.valid → d.valid → changedCorners c a = changedCorners d a ∧ changedEdges c a = changedEdges d a := by
    intro c d hc hd
    rw [changedCorners_eq, changedCorners_eq, changedEdges_eq, changedEdges_eq]
    exact ⟨count_changed a ((valid_iff c).1 hc).2 ((valid_iff d).1 hd).2, count_changed a ((valid_iff c).1 hc).1 ((valid_iff d).1 hd).1⟩
  have hb : (movedAlg c b).valid := C08_cubes.2.1 c b hc
  refine ⟨(same c d hc hd).1, (same c d hc hd).2, ?_, ?_⟩
  · rw [← (same _ d hb hd).1]
    unfold changedCorners
    congr 1
    refine Finset.filter_congr fun i _ => not_congr ?_
    simp only [cube3_corners_alg, piece_append]
    exact ⟨fun e => by rw [← piece_undo' b (movedAlg (movedAlg (c.corners i) b) a), e], fun e => by rw [e, piece_undo]⟩
  · rw [← (same _ d hb hd).2]
    unfold changedEdges
    congr 1
    refine Finset.filter_congr fun i _ => not_congr ?_
    simp only [cube3_edges_alg, piece_append]
    exact ⟨fun e => by rw [← piece_undo' b (movedAlg (movedAlg (c.edges i) b) a), e], fun e => by rw [e, piece_undo]⟩

/-- the T perm with any set-up moves changes two corners and two edges of every valid cube -/
example (b : List AxisMove) (c : Cube3) (hc : c.valid) : changedCorners c (b ++ Perms.T ++ reversed b) = 2 ∧
    changedEdges c (b ++ Perms.T ++ reversed b) = 2 := by
  obtain ⟨-, -, h1, h2⟩ := C120_setup Perms.T b c Cube3.SOLVED hc C08_solved_valid.2.1
  rw [h1, h2]
  decide +kernel

/-- **C120** Two algs that change no piece in common can be done in either order, on every cube. -/
theorem C120_nothing_in_common (a b : List AxisMove) (hk : ∀ x : Corner, movedAlg x a = x ∨ movedAlg x b = x)
    (he : ∀ x : Edge, movedAlg x a = x ∨ movedAlg x b = x) (c : Cube3) : movedAlg c (a ++ b) = movedAlg c (b ++ a) := by
  refine Cube3.ext (funext fun i => ?_) (funext fun i => ?_)
  · rw [cube3_edges_alg, cube3_edges_alg, piece_disjoint he]
  · rw [cube3_corners_alg, cube3_corners_alg, piece_disjoint hk]

/-- the T perm and a turn of the bottom -/
example (c : Cube3) : movedAlg c (Perms.T ++ [⟨.D, .single⟩]) = movedAlg c ([⟨.D, .single⟩] ++ Perms.T) :=
  C120_nothing_in_common Perms.T [⟨.D, .single⟩] (by decide +kernel) (by decide +kernel) c

/-- **C120** Corner three-cycles: if two algs change no edge in common and only one corner, which both of them bring to another place,
then the first, the second, the first undone and the second undone leave all edges alone and change exactly three corners of
every valid cube, and three times this does nothing to any cube. -/
theorem C120_three_corners (a b : List AxisMove) (p : Vec3) (he : ∀ x : Edge, movedAlg x a = x ∨ movedAlg x b = x)
    (hk : ∀ x : Corner, movedAlg x a ≠ x → movedAlg x b ≠ x → x.position = p)
    (ha : ∀ x : Corner, x.position = p → (movedAlg x a).position ≠ p) (hb : ∀ x : Corner, x.position = p → (movedAlg x b).position ≠ p) :
    (∀ c : Cube3, (movedAlg c (a ++ b ++ reversed a ++ reversed b)).edges = c.edges) ∧
    (∀ c : Cube3, c.valid → changedCorners c (a ++ b ++ reversed a ++ reversed b) = 3) ∧
    ∀ c : Cube3, movedAlg c ((a ++ b ++ reversed a ++ reversed b) ++ (a ++ b ++ reversed a ++ reversed b) ++ (a ++ b ++ reversed a ++ reversed b)) = c := by
  have h : OnlyCommon (P := Corner) a b p := ⟨hk, ha, hb⟩
  have e1 : ∀ c : Cube3, (movedAlg c (a ++ b ++ reversed a ++ reversed b)).edges = c.edges := fun c => funext fun i => by
    rw [cube3_edges_alg, piece_disjoint_commutator he]
  refine ⟨e1, fun c hc => ?_, fun c => Cube3.ext (funext fun i => ?_) (funext fun i => ?_)⟩
  · rw [changedCorners_eq]
    exact h.three ((valid_iff c).1 hc).2
  · rw [cube3_edges_alg, piece_append, piece_disjoint_commutator he, piece_append, piece_disjoint_commutator he, piece_disjoint_commutator he]
  · rw [cube3_corners_alg, h.three_times]

/-- `R U R'` and `D` have only the corner at the front of the bottom right in common -/
example (c : Cube3) (hc : c.valid) : changedCorners c ([⟨.R, .single⟩, ⟨.U, .single⟩, ⟨.R, .inverse⟩] ++ [⟨.D, .single⟩] ++
    [⟨.R, .single⟩, ⟨.U, .inverse⟩, ⟨.R, .inverse⟩] ++ [⟨.D, .inverse⟩]) = 3 :=
  (C120_three_corners [⟨.R, .single⟩, ⟨.U, .single⟩, ⟨.R, .inverse⟩] [⟨.D, .single⟩] ⟨.pos, .neg, .pos⟩
    (by decide +kernel) (by decide +kernel) (by decide +kernel) (by decide +kernel)).2.1 c hc

/-- **C120** Edge three-cycles: the same with edges and corners exchanged. -/
theorem C120_three_edges (a b : List AxisMove) (p : Edge.Pos) (hk : ∀ x : Corner, movedAlg x a = x ∨ movedAlg x b = x)
    (he : ∀ x : Edge, movedAlg x a ≠ x → movedAlg x b ≠ x → x.position = p)
    (ha : ∀ x : Edge, x.position = p → (movedAlg x a).position ≠ p) (hb : ∀ x : Edge, x.position = p → (movedAlg x b).position ≠ p) :
    (∀ c : Cube3, (movedAlg c (a ++ b ++ reversed a ++ reversed b)).corners = c.corners) ∧
    (∀ c : Cube3, c.valid → changedEdges c (a ++ b ++ reversed a ++ reversed b) = 3) ∧
    ∀ c : Cube3, movedAlg c ((a ++ b ++ reversed a ++ reversed b) ++ (a ++ b ++ reversed a ++ reversed b) ++ (a ++ b ++ reversed a ++ reversed b)) = c := by
  have h : OnlyCommon (P := Edge) a b p := ⟨he, ha, hb⟩
  have e1 : ∀ c : Cube3, (movedAlg c (a ++ b ++ reversed a ++ reversed b)).corners = c.corners := fun c => funext fun i => by
    rw [cube3_corners_alg, piece_disjoint_commutator hk]
  refine ⟨e1, fun c hc => ?_, fun c => Cube3.ext (funext fun i => ?_) (funext fun i => ?_)⟩
  · rw [changedEdges_eq]
    exact h.three ((valid_iff c).1 hc).1
  · rw [cube3_edges_alg, h.three_times]
  · rw [cube3_corners_alg, piece_append, piece_disjoint_commutator hk, piece_append, piece_disjoint_commutator hk, piece_disjoint_commutator hk]

/-- the U perm, which changes no corner, and `R` have only the edge between the right and the upper face in common -/
example (c : Cube3) (hc : c.valid) : changedEdges c (Perms.U ++ [⟨.R, .single⟩] ++ reversed Perms.U ++ [⟨.R, .inverse⟩]) = 3 :=
  (C120_three_edges Perms.U [⟨.R, .single⟩] (Edge.REFERENCE_POSITIONS 4)
    (by decide +kernel) (by decide +kernel) (by decide +kernel) (by decide +kernel)).2.1 c hc

end Barbarosa
