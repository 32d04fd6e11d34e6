import Verif.Props.Manhattan

/-!
# C92: the values of the Manhattan heuristic
-/

namespace Barbarosa

/-! ## The specification -/

/-- the pieces of the cube are in their places, turned in any way -/
def Cube3.InPlace (c : Cube3) : Prop :=
  (∀ i, Piece.position (c.edges i) = Edge.REFERENCE_POSITIONS i) ∧ ∀ i, Piece.position (c.corners i) = Corner.REFERENCE_POSITIONS i

/-- how far apart two points are if one walks along the axes -/
def taxicab (a b : Int × Int × Int) : Int := |a.1 - b.1| + |a.2.1 - b.2.1| + |a.2.2 - b.2.2|

/-! ## The theorems -/

/-- **C92** What the heuristic is: one sixteenth of the sum, over all pieces, of the distance between where the piece is and where it
belongs. -/
theorem C92_value (c : Cube3) :
    16 * manhattan c =
      ((∑ i, taxicab (Coordinates.coordinatesPos (P := Edge) (Piece.position (c.edges i)))
        (Coordinates.coordinatesPos (P := Edge) (Edge.REFERENCE_POSITIONS i)) +
      ∑ i, taxicab (Coordinates.coordinatesPos (P := Corner) (Piece.position (c.corners i)))
        (Coordinates.coordinatesPos (P := Corner) (Corner.REFERENCE_POSITIONS i)) : Int) : ℚ) := by
  unfold manhattan
  rw [pieceSetManhattan_eq, pieceSetManhattan_eq]
  have : ∀ x : ℚ, 16 * (x / (8 * 2)) = x := fun x => by ring
  rw [this]
  rfl

/-- after R eight pieces have travelled two steps each -/
example : manhattan (moved Cube3.SOLVED (⟨Face.R, .single⟩ : AxisMove)) = 1 := by
  have h := C92_value (moved Cube3.SOLVED (⟨Face.R, .single⟩ : AxisMove))
  rw [show (∑ i, taxicab (Coordinates.coordinatesPos (P := Edge) (Piece.position ((moved Cube3.SOLVED (⟨Face.R, .single⟩ : AxisMove)).edges i)))
        (Coordinates.coordinatesPos (P := Edge) (Edge.REFERENCE_POSITIONS i)) +
      ∑ i, taxicab (Coordinates.coordinatesPos (P := Corner) (Piece.position ((moved Cube3.SOLVED (⟨Face.R, .single⟩ : AxisMove)).corners i)))
        (Coordinates.coordinatesPos (P := Corner) (Corner.REFERENCE_POSITIONS i)) : Int) = 16 by decide +kernel] at h
  push_cast at h
  linarith

/-- **C92** `manhattan_filtered` is the same sum over the pieces that pass the filter only; so a filter and its opposite add up to the
whole, and a filter that lets everything pass gives the whole. -/
theorem C92_filtered {P : Type} {n : Nat} [PieceSetDescriptor P n] [Coordinates P] (s : PieceSet P n)
    (filter : Piece.Position P → P → Bool) :
    manhattanFiltered s filter = (∑ i, if filter (PieceSetDescriptor.REFERENCE_POSITIONS (P := P) i) (s i) = true then
      taxicab (Coordinates.coordinatesPos (P := P) (Piece.position (s i)))
        (Coordinates.coordinatesPos (P := P) (PieceSetDescriptor.REFERENCE_POSITIONS (P := P) i)) else 0) ∧
    manhattanFiltered s filter + manhattanFiltered s (fun a b => !filter a b) = pieceSetManhattan s ∧
    manhattanFiltered s (fun _ _ => true) = pieceSetManhattan s ∧ 0 ≤ manhattanFiltered s filter ∧
    manhattanFiltered s filter ≤ pieceSetManhattan s := by
  have key : ∀ f : Piece.Position P → P → Bool, manhattanFiltered s f =
      (∑ i, if f (PieceSetDescriptor.REFERENCE_POSITIONS (P := P) i) (s i) = true then
        taxicab (Coordinates.coordinatesPos (P := P) (Piece.position (s i)))
          (Coordinates.coordinatesPos (P := P) (PieceSetDescriptor.REFERENCE_POSITIONS (P := P) i)) else 0) := by
    intro f
    have general : ∀ (l : List (Piece.Position P × P)) (p : Piece.Position P × P → Bool) (g : Piece.Position P × P → Int),
        ((l.filter p).map g).sum = (l.map fun x => if p x = true then g x else 0).sum := by
      intro l p g
      induction l with
      | nil => rfl
      | cons x l ih =>
        rw [List.filter_cons, List.map_cons, List.sum_cons]
        split
        · rw [List.map_cons, List.sum_cons, ih]
        · rw [ih, zero_add]
    unfold manhattanFiltered
    rw [general, PieceSet.iterWithPos_eq, List.map_ofFn, List.sum_ofFn]
    rfl
  have whole : pieceSetManhattan s = ∑ i, taxicab (Coordinates.coordinatesPos (P := P) (Piece.position (s i)))
      (Coordinates.coordinatesPos (P := P) (PieceSetDescriptor.REFERENCE_POSITIONS (P := P) i)) := pieceSetManhattan_eq s
  have nonneg : ∀ a b, 0 ≤ taxicab a b := fun a b => by unfold taxicab; positivity
  refine ⟨key filter, ?_, ?_, ?_, ?_⟩
  · rw [key, key, whole, ← Finset.sum_add_distrib]
    refine Finset.sum_congr rfl fun i _ => ?_
    cases filter (PieceSetDescriptor.REFERENCE_POSITIONS (P := P) i) (s i) <;> simp
  · rw [key, whole]
    exact Finset.sum_congr rfl fun i _ => if_pos rfl
  · rw [key]
    refine Finset.sum_nonneg fun i _ => ?_
    split
    · exact nonneg _ _
    · exact le_rfl
  · rw [key, whole]
    refine Finset.sum_le_sum fun i _ => ?_
    split
    · exact le_rfl
    · exact nonneg _ _

example : manhattanFiltered (movedAlg Cube3.SOLVED Perms.T).corners (fun _ c => c.isOriented) +
    manhattanFiltered (movedAlg Cube3.SOLVED Perms.T).corners (fun _ c => !c.isOriented) =
    pieceSetManhattan (movedAlg Cube3.SOLVED Perms.T).corners :=
  (C92_filtered (movedAlg Cube3.SOLVED Perms.T).corners (fun _ c => c.isOriented)).2.1

theorem taxicab_eq_zero {a b : Int × Int × Int} : taxicab a b = 0 ↔ a = b := by
  unfold taxicab
  constructor
  · intro h
    have h1 := abs_nonneg (a.1 - b.1)
    have h2 := abs_nonneg (a.2.1 - b.2.1)
    have h3 := abs_nonneg (a.2.2 - b.2.2)
    have e1 : a.1 - b.1 = 0 := abs_eq_zero.1 (by omega)
    have e2 : a.2.1 - b.2.1 = 0 := abs_eq_zero.1 (by omega)
    have e3 : a.2.2 - b.2.2 = 0 := abs_eq_zero.1 (by omega)
    ext <;> omega
  · rintro rfl
    simp

theorem edge_coords_inj : ∀ p q : Edge.Pos, Coordinates.coordinatesPos (P := Edge) p = Coordinates.coordinatesPos (P := Edge) q → p = q := by
  decide +kernel

theorem corner_coords_inj : ∀ p q : Vec3,
    Coordinates.coordinatesPos (P := Corner) p = Coordinates.coordinatesPos (P := Corner) q → p = q := by
  decide +kernel

/-- **C92** It is zero exactly when every piece is in its place; how the pieces are turned does not matter. -/
theorem C92_zero (c : Cube3) : manhattan c = 0 ↔ c.InPlace := by
  have nonneg : ∀ a b, 0 ≤ taxicab a b := fun a b => by unfold taxicab; positivity
  have h := C92_value c
  have e : manhattan c = 0 ↔ (∑ i, taxicab (Coordinates.coordinatesPos (P := Edge) (Piece.position (c.edges i)))
        (Coordinates.coordinatesPos (P := Edge) (Edge.REFERENCE_POSITIONS i)) +
      ∑ i, taxicab (Coordinates.coordinatesPos (P := Corner) (Piece.position (c.corners i)))
        (Coordinates.coordinatesPos (P := Corner) (Corner.REFERENCE_POSITIONS i)) : Int) = 0 := by
    constructor
    · intro h0
      rw [h0, mul_zero] at h
      exact_mod_cast h.symm
    · intro h0
      rw [h0] at h
      simpa using h
  rw [e, add_eq_zero_iff_of_nonneg (Finset.sum_nonneg fun i _ => nonneg _ _) (Finset.sum_nonneg fun i _ => nonneg _ _),
    Finset.sum_eq_zero_iff_of_nonneg fun i _ => nonneg _ _, Finset.sum_eq_zero_iff_of_nonneg fun i _ => nonneg _ _]
  simp only [Finset.mem_univ, forall_const, taxicab_eq_zero]
  unfold Cube3.InPlace
  constructor
  · exact fun ⟨a, b⟩ => ⟨fun i => edge_coords_inj _ _ (a i), fun i => corner_coords_inj _ _ (b i)⟩
  · exact fun ⟨a, b⟩ => ⟨fun i => by rw [a i], fun i => by rw [b i]⟩

/-- a flipped edge is in its place -/
example : oneFlip.InPlace ∧ ¬ (moved Cube3.SOLVED (⟨Face.R, .single⟩ : AxisMove)).InPlace :=
  ⟨(C92_zero _).1 (by decide +kernel), fun h => absurd ((C92_zero _).2 h) (by decide +kernel)⟩

/-- sums to zero: all but the first value can be chosen freely -/
theorem card_sum_zero {A : Type} [AddCommGroup A] [Finite A] (n : Nat) :
    Nat.card { f : Fin (n + 1) → A // ∑ i, f i = 0 } = Nat.card A ^ n := by
  have e : { f : Fin (n + 1) → A // ∑ i, f i = 0 } ≃ (Fin n → A) :=
    { toFun := fun f => Fin.tail f.1
      invFun := fun g => ⟨Fin.cons (-∑ i, g i) g, by rw [Fin.sum_univ_succ]; simp⟩
      left_inv := by
        rintro ⟨f, hf⟩
        rw [Fin.sum_univ_succ] at hf
        apply Subtype.ext
        simp only
        conv_rhs => rw [← Fin.cons_self_tail f]
        congr 1
        rw [eq_neg_of_add_eq_zero_left hf]
        rfl
      right_inv := fun g => by simp }
  rw [Nat.card_congr e, Nat.card_fun, Nat.card_fin]

theorem edge_of_bit : ∀ (p : Edge.Pos) (b : ZMod 2), ∃ e : Edge, Piece.position e = p ∧ edgeBit e = b := by decide +kernel

theorem corner_of_trit : ∀ (p : Vec3) (b : ZMod 3), ∃ e : Corner, Piece.position e = p ∧ cornerTrit e = b := by decide +kernel

theorem edge_bit_inj : ∀ e e' : Edge, Piece.position e = Piece.position e' → edgeBit e = edgeBit e' → e = e' := by decide +kernel

theorem corner_trit_inj : ∀ e e' : Corner, Piece.position e = Piece.position e' → cornerTrit e = cornerTrit e' → e = e' := by
  decide +kernel

theorem lawful_inPlace (c : Cube3) (h : c.InPlace) :
    c.Reachable ↔ ∑ i, edgeBit (c.edges i) = 0 ∧ ∑ i, cornerTrit (c.corners i) = 0 := by
  rw [(C15_reachable_iff c).1]
  constructor
  · exact fun hl => ⟨(even_flips_iff _).1 hl.flips, (twists_iff _).1 hl.twists⟩
  · exact fun ⟨a, b⟩ => ⟨⟨1, 1, fun i => h.1 i, fun i => h.2 i, rfl⟩, (even_flips_iff _).2 a, (twists_iff _).2 b⟩

/-- **C92** 4,478,976 cubes that can be reached are taken for solved (have the value zero), of which one is. -/
theorem C92_zero_number : Nat.card { c : Cube3 // c.Reachable ∧ manhattan c = 0 } = 4478976 := by
  let f : { c : Cube3 // c.Reachable ∧ manhattan c = 0 } →
      { f : Fin 12 → ZMod 2 // ∑ i, f i = 0 } × { f : Fin 8 → ZMod 3 // ∑ i, f i = 0 } := fun c =>
    (⟨fun i => edgeBit (c.1.edges i), ((lawful_inPlace _ ((C92_zero _).1 c.2.2)).1 c.2.1).1⟩,
     ⟨fun i => cornerTrit (c.1.corners i), ((lawful_inPlace _ ((C92_zero _).1 c.2.2)).1 c.2.1).2⟩)
  have hf : Function.Bijective f := by
    constructor
    · rintro ⟨c, hc1, hc2⟩ ⟨d, hd1, hd2⟩ h
      have pc := (C92_zero _).1 hc2
      have pd := (C92_zero _).1 hd2
      have h1 : ∀ i, edgeBit (c.edges i) = edgeBit (d.edges i) := fun i => congrFun (congrArg (fun x => x.1.1) h) i
      have h2 : ∀ i, cornerTrit (c.corners i) = cornerTrit (d.corners i) := fun i => congrFun (congrArg (fun x => x.2.1) h) i
      have e1 : c.edges = d.edges := funext fun i => edge_bit_inj _ _ (by rw [pc.1, pd.1]) (h1 i)
      have e2 : c.corners = d.corners := funext fun i => corner_trit_inj _ _ (by rw [pc.2, pd.2]) (h2 i)
      obtain ⟨ce, cc⟩ := c
      obtain ⟨de, dc⟩ := d
      simp only at e1 e2
      subst e1 e2
      rfl
    · rintro ⟨⟨a, ha⟩, ⟨b, hb⟩⟩
      choose e he using fun i : Fin 12 => edge_of_bit (Edge.REFERENCE_POSITIONS i) (a i)
      choose k hk using fun i : Fin 8 => corner_of_trit (Corner.REFERENCE_POSITIONS i) (b i)
      have hp : Cube3.InPlace ⟨e, k⟩ := ⟨fun i => (he i).1, fun i => (hk i).1⟩
      refine ⟨⟨⟨e, k⟩, (lawful_inPlace _ hp).2 ⟨?_, ?_⟩, (C92_zero _).2 hp⟩, ?_⟩
      · simpa only [(he _).2] using ha
      · simpa only [(hk _).2] using hb
      · exact Prod.ext (Subtype.ext (funext fun i => (he i).2)) (Subtype.ext (funext fun i => (hk i).2))
  rw [Nat.card_congr (Equiv.ofBijective f hf), Nat.card_prod, card_sum_zero 11, card_sum_zero 7, Nat.card_zmod, Nat.card_zmod]
  norm_num

/-- **C92** One move changes it by at most one, a half turn by at most one and a half, on every valid cube. -/
theorem C92_one_move (c : Cube3) (hv : c.valid) (m : AxisMove) :
    |manhattan (moved c m) - manhattan c| ≤ 3 / 2 ∧ (m.amount ≠ .double → |manhattan (moved c m) - manhattan c| ≤ 1) := by
  have h1 := manhattan_step c ((valid_iff c).1 hv).1 ((valid_iff c).1 hv).2 m
  have hv' : (moved c m).valid := C08_cubes.2.1 c [m] hv
  have h2 := manhattan_step (moved c m) ((valid_iff _).1 hv').1 ((valid_iff _).1 hv').2 (Move.inverse m)
  rw [show moved (moved c m) (Move.inverse m) = c from
    (C01_move_then_inverse ⟨Cube3, AxisMove⟩ (by simp [moveSystems]) c m).1] at h2
  have inv : ∀ m : AxisMove, (Move.inverse m).amount = .double ↔ m.amount = .double := by decide
  have step : ∀ (m : AxisMove) {x y : Int}, (x ≤ y + match m.amount with | .double => 24 | _ => 16) →
      x - y ≤ 24 ∧ (m.amount ≠ .double → x - y ≤ 16) := by
    rintro ⟨f, a⟩ x y h
    rcases a <;> simp only at h <;> constructor <;> first | omega | (intro; omega) | (intro h'; exact absurd rfl h')
  obtain ⟨a1, b1⟩ := step m h1
  obtain ⟨a2, b2⟩ := step _ h2
  unfold manhattan
  rw [← sub_div, ← Int.cast_sub, abs_div, ← Int.cast_abs, show |(8 * 2 : ℚ)| = 16 by norm_num, div_le_iff₀ (by norm_num),
    div_le_iff₀ (by norm_num)]
  have cast : ∀ (z : Int) (n : Int), z ≤ n → (z : ℚ) ≤ n := fun z n h => by exact_mod_cast h
  constructor
  · refine (cast _ 24 (abs_le.2 ⟨by omega, by omega⟩)).trans (by norm_num)
  · intro h
    have b1 := b1 h
    have b2 := b2 fun h' => h ((inv m).1 h')
    exact (cast _ 16 (abs_le.2 ⟨by omega, by omega⟩)).trans (by norm_num)

/-- `R` after `U` -/
example : |manhattan (moved (moved Cube3.SOLVED (⟨Face.U, .single⟩ : AxisMove)) (⟨Face.R, .single⟩ : AxisMove)) -
    manhattan (moved Cube3.SOLVED (⟨Face.U, .single⟩ : AxisMove))| ≤ 1 :=
  (C92_one_move _ (C08_cubes.2.1 Cube3.SOLVED [⟨Face.U, .single⟩] C08_solved_valid.2.1) ⟨Face.R, .single⟩).2 (by decide)

/-- **C92** So an alg of quarter turns changes it by at most its length, and any alg by at most one and a half times its length. -/
theorem C92_alg (c : Cube3) (hv : c.valid) (alg : List AxisMove) :
    |manhattan (movedAlg c alg) - manhattan c| ≤ 3 / 2 * alg.length ∧
    ((∀ m ∈ alg, m.amount ≠ .double) → |manhattan (movedAlg c alg) - manhattan c| ≤ alg.length) := by
  induction alg generalizing c with
  | nil => simp [movedAlg]
  | cons m alg ih =>
    obtain ⟨h1, h2⟩ := C92_one_move c hv m
    obtain ⟨g1, g2⟩ := ih (moved c m) (C08_cubes.2.1 c [m] hv)
    have e : movedAlg c (m :: alg) = movedAlg (moved c m) alg := rfl
    rw [e]
    have t := abs_sub_le (manhattan (movedAlg (moved c m) alg)) (manhattan (moved c m)) (manhattan c)
    push_cast [List.length_cons]
    constructor
    · linarith
    · intro h
      have h2 := h2 (h m (by simp))
      have g2 := g2 fun m' hm' => h m' (by simp [hm'])
      linarith

/-- quarter turns only -/
example : |manhattan (movedAlg oneFlip Perms.SEXY_MOVE) - manhattan oneFlip| ≤ 4 :=
  (C92_alg oneFlip (by unfold Cube3.valid; decide +kernel) Perms.SEXY_MOVE).2 (by decide)

/-- the place of an edge or a corner on the opposite side of the cube -/
def oppositeEdge (i : Fin 12) : Edge :=
  ⟨(Cube3.SOLVED.edges i).normalAxis, ⟨(Cube3.SOLVED.edges i).slicePosition.x.flip, (Cube3.SOLVED.edges i).slicePosition.y.flip⟩, true⟩

/-- the cube on which every piece is exchanged with the opposite one -/
def antipodal : Cube3 :=
  ⟨oppositeEdge, fun i => ⟨⟨(Cube3.SOLVED.corners i).position.x.flip, (Cube3.SOLVED.corners i).position.y.flip,
    (Cube3.SOLVED.corners i).position.z.flip⟩, (Cube3.SOLVED.corners i).orientationAxis⟩⟩

/-- where the edges go -/
def antipodalEdge (i : Fin 12) : Fin 12 :=
  ((List.finRange 12).find? fun j => Edge.REFERENCE_POSITIONS j = Piece.position (antipodal.edges i)).getD 0

/-- where the corners go -/
def antipodalCorner (i : Fin 8) : Fin 8 :=
  ((List.finRange 8).find? fun j => Corner.REFERENCE_POSITIONS j = Piece.position (antipodal.corners i)).getD 0

theorem antipodal_reachable : antipodal.Reachable := by
  refine (C15_reachable_iff _).1.2 ⟨⟨⟨antipodalEdge, antipodalEdge, by decide +kernel, by decide +kernel⟩,
    ⟨antipodalCorner, antipodalCorner, by decide +kernel, by decide +kernel⟩, by unfold PieceSet.Arranged; decide +kernel,
    by unfold PieceSet.Arranged; decide +kernel, by decide +kernel⟩, by decide +kernel, by decide +kernel⟩

/-- **C92** Its values are multiples of 1/8 between 0 and 6, and both ends are values of cubes that can be reached: 6 if every piece is
opposite to its place. -/
theorem C92_range : (∀ c : Cube3, 0 ≤ manhattan c ∧ manhattan c ≤ 6 ∧ ∃ z : ℤ, 8 * manhattan c = z) ∧
    manhattan Cube3.SOLVED = 0 ∧ ∃ c : Cube3, c.Reachable ∧ manhattan c = 6 :=
  ⟨manhattan_range, by decide +kernel, antipodal, antipodal_reachable, by decide +kernel⟩

/-- A quarter turn raises the value from 0 to 1, a half turn to 3/2, the next one lowers it again: the bounds of `C92_one_move` are
reached, and a valid cube (with one edge flipped) that is not solved has the value 0. -/
example : manhattan (moved Cube3.SOLVED (⟨Face.R, .single⟩ : AxisMove)) = 1 ∧
    manhattan (moved Cube3.SOLVED (⟨Face.R, .double⟩ : AxisMove)) = 3 / 2 ∧ manhattan oneFlip = 0 ∧ oneFlip ≠ Cube3.SOLVED := by
  decide +kernel

/-- The edges of the upper layer after R: one of them has left its place. -/
example : manhattanFiltered (moved Cube3.SOLVED (⟨Face.R, .single⟩ : AxisMove)).edges (fun pos _ => isCrossEdge pos Face.U) = 2 ∧
    pieceSetManhattan (moved Cube3.SOLVED (⟨Face.R, .single⟩ : AxisMove)).edges = 8 := by
  decide +kernel

end Barbarosa
