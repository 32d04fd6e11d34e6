import Verif.Lemmas.Float
import Verif.Model.FloatCode
import Verif.Spec.Search
import Verif.Props.AnySize

/-!
# Lemmas about the functions of the crate that compute with floats
-/

namespace Barbarosa

open Fl

theorem lit_is32 {q : ℚ} (z : ℤ) (h : q = z) (hz : |z| ≤ 2 ^ 24) : (lit binary32 q).Is q := by
  subst h; exact ofInt_is32 hz

/-- IEEE 754 single precision is exact on the multiples of 1/16 up to `2 ^ 20` -/
def float32 : FloatLike f32Ops 16 (2 ^ 20) where
  val := Fl.val
  ok x := x.Is x.val
  zero_ok := by
    have h : (f32Ops.zero).Is 0 := lit_is32 (q := 0) 0 (by simp) (by norm_num)
    rw [h.val]; exact h
  zero_val := Is.val (lit_is32 (q := 0) 0 (by simp) (by norm_num))
  one_ok := by
    have h : (f32Ops.one).Is 1 := lit_is32 (q := 1) 1 (by simp) (by norm_num)
    rw [h.val]; exact h
  one_val := Is.val (lit_is32 (q := 1) 1 (by simp) (by norm_num))
  add_ok := by
    rintro a b ha hb a0 b0 ⟨x, hx⟩ ⟨y, hy⟩ hle
    have hx' : a.val = x / 2 ^ 4 := by push_cast at hx; linarith
    have hy' : b.val = y / 2 ^ 4 := by push_cast at hy; linarith
    have h0 : 0 ≤ x + y := by
      have : (0 : ℚ) ≤ ((x + y : ℤ) : ℚ) := by push_cast; rw [hx'] at a0; rw [hy'] at b0; linarith
      exact_mod_cast this
    have h1 : x + y ≤ 2 ^ 24 := by
      have : ((x + y : ℤ) : ℚ) ≤ 2 ^ 24 := by push_cast; rw [hx', hy'] at hle; linarith
      exact_mod_cast this
    have h : (a.add b).Is (((x + y : ℤ) : ℚ) / 2 ^ 4) :=
      add_is32 4 (by norm_num) (hx' ▸ ha) (hy' ▸ hb) (by rw [abs_of_nonneg h0]; exact h1)
    have hv : (a.add b).val = a.val + b.val := by rw [h.val, hx', hy']; push_cast; ring
    refine ⟨?_, hv⟩
    show (a.add b).Is (a.add b).val
    rw [h.val]; exact h
  lt_val := fun a b ha hb => ha.lt hb

theorem float32_ok {x : F32} {q : ℚ} (h : x.Is q) : float32.ok x ∧ float32.val x = q := by
  refine ⟨?_, h.val⟩
  show x.Is x.val
  rw [h.val]; exact h

/-! ## Sums -/

theorem sumFrom_is32 (l : List (F32 × ℤ)) (h : ∀ x ∈ l, x.1.Is x.2 ∧ 0 ≤ x.2) (a : F32) (z : ℤ) (ha : a.Is z) (hz : 0 ≤ z)
    (hs : z + (l.map (·.2)).sum ≤ 2 ^ 24) : ((l.map (·.1)).foldl add a).Is (z + (l.map (·.2)).sum : ℤ) := by
  induction l generalizing a z with
  | nil => simpa using ha
  | cons x l ih =>
    obtain ⟨hx, hx0⟩ := h x (by simp)
    have hl : 0 ≤ (l.map (·.2)).sum := List.sum_nonneg fun y hy => by
      obtain ⟨w, hw, rfl⟩ := List.mem_map.1 hy
      exact (h w (by simp [hw])).2
    simp only [List.map_cons, List.sum_cons, List.foldl_cons] at hs ⊢
    have := ih (fun y hy => h y (by simp [hy])) (a.add x.1) (z + x.2)
      (addInt_is32 ha hx (by rw [abs_of_nonneg (by omega)]; omega)) (by omega) (by omega)
    rwa [show z + (x.2 + (l.map (·.2)).sum) = z + x.2 + (l.map (·.2)).sum by ring]

/-- sums of small natural numbers are exact -/
theorem sum_is32 {α : Type} (l : List α) (f : α → F32) (g : α → ℤ) (zs : Bool) (h : ∀ x ∈ l, (f x).Is (g x) ∧ 0 ≤ g x)
    (hs : (l.map g).sum ≤ 2 ^ 24) : (Fl.sum zs (l.map f)).Is ((l.map g).sum : ℤ) := by
  have := sumFrom_is32 (l.map fun x => (f x, g x)) (by
    intro x hx
    obtain ⟨y, hy, rfl⟩ := List.mem_map.1 hx
    exact h y hy) (.fin zs 0) 0 (by simpa using is_zero zs) le_rfl (by simpa [Function.comp_def] using hs)
  simpa [Fl.sum, Function.comp_def] using this

/-! ## The Manhattan distance -/

/-- a coordinate of a piece -/
def SmallVec (p : Int × Int × Int) : Prop := |p.1| ≤ 1 ∧ |p.2.1| ≤ 1 ∧ |p.2.2| ≤ 1

theorem edge_smallVec : ∀ p : Edge.Pos, SmallVec (Coordinates.coordinatesPos (P := Edge) p) := by
  unfold SmallVec; decide +kernel

theorem corner_smallVec : ∀ p : Piece.Position Corner, SmallVec (Coordinates.coordinatesPos (P := Corner) p) := by
  have : ∀ p : Vec3, SmallVec (Coordinates.coordinatesPos (P := Corner) p) := by unfold SmallVec; decide +kernel
  exact this

theorem sub_is32 {a b : F32} {x y : ℤ} (ha : a.Is x) (hb : b.Is y) (h : |x - y| ≤ 2 ^ 24) : (a.sub b).Is (x - y : ℤ) := by
  unfold Fl.sub
  rw [sub_eq_add_neg] at h ⊢
  exact addInt_is32 ha (by simpa using hb.neg) h

theorem abs_is32 {a : F32} {x : ℤ} (ha : a.Is x) : a.abs.Is (|x| : ℤ) := by
  have := ha.abs
  push_cast
  exact this

theorem vecManhattan_is32 (zs : Bool) {a b : Int × Int × Int} (ha : SmallVec a) (hb : SmallVec b) :
    (vecManhattan32 zs (.ofInts a) (.ofInts b)).Is (vecManhattan a b : ℤ) ∧ 0 ≤ vecManhattan a b ∧ vecManhattan a b ≤ 6 := by
  have one : ∀ x y : ℤ, |x| ≤ 1 → |y| ≤ 1 →
      (((ofInt binary32 x).sub (ofInt binary32 y)).abs).Is (|x - y| : ℤ) ∧ 0 ≤ |x - y| ∧ |x - y| ≤ 2 := by
    intro x y hx hy
    have h2 : |x - y| ≤ 2 := (abs_sub _ _).trans (by omega)
    exact ⟨abs_is32 (sub_is32 (ofInt_is32 (by omega)) (ofInt_is32 (by omega)) (by omega)), abs_nonneg _, h2⟩
  obtain ⟨x1, x2, x3⟩ := one a.1 b.1 ha.1 hb.1
  obtain ⟨y1, y2, y3⟩ := one a.2.1 b.2.1 ha.2.1 hb.2.1
  obtain ⟨z1, z2, z3⟩ := one a.2.2 b.2.2 ha.2.2 hb.2.2
  have := sumFrom_is32 [(_, |a.1 - b.1|), (_, |a.2.1 - b.2.1|), (_, |a.2.2 - b.2.2|)] (by
    simp only [List.mem_cons, List.not_mem_nil, or_false, forall_eq_or_imp, forall_eq]
    exact ⟨⟨x1, x2⟩, ⟨y1, y2⟩, z1, z2⟩) (.fin zs 0) 0 (by simpa using is_zero zs) le_rfl (by simp; omega)
  refine ⟨?_, by unfold vecManhattan; omega, by unfold vecManhattan; omega⟩
  have e : (0 : ℤ) + ([|a.1 - b.1|, |a.2.1 - b.2.1|, |a.2.2 - b.2.2|] : List ℤ).sum = vecManhattan a b := by
    unfold vecManhattan; simp [add_assoc]
  rw [← e]
  exact this

theorem pieceSetManhattan_is32 (zs : Bool) {P : Type} {n : Nat} [PieceSetDescriptor P n] [Coordinates P]
    (hP : ∀ p : Piece.Position P, SmallVec (Coordinates.coordinatesPos (P := P) p)) (l : List (Piece.Position P × P))
    (hn : l.length ≤ 100000) :
    (Fl.sum zs (l.map fun x => pieceManhattan32 zs x.1 x.2)).Is ((l.map fun x => pieceManhattan x.1 x.2).sum : ℤ) ∧
      0 ≤ (l.map fun x => pieceManhattan x.1 x.2).sum ∧ (l.map fun x => pieceManhattan x.1 x.2).sum ≤ 6 * l.length := by
  have key : ∀ x : Piece.Position P × P, (pieceManhattan32 zs x.1 x.2).Is (pieceManhattan x.1 x.2 : ℤ) ∧
      0 ≤ pieceManhattan x.1 x.2 ∧ pieceManhattan x.1 x.2 ≤ 6 := fun x => vecManhattan_is32 zs (hP _) (hP _)
  have h6 : (l.map fun x => pieceManhattan x.1 x.2).sum ≤ 6 * l.length := by
    have := List.sum_le_card_nsmul (l.map fun x => pieceManhattan x.1 x.2) 6 (fun y hy => by
      obtain ⟨x, -, rfl⟩ := List.mem_map.1 hy
      exact (key x).2.2)
    rw [List.length_map, nsmul_eq_mul] at this
    linarith
  refine ⟨sum_is32 l _ _ zs (fun x _ => ⟨(key x).1, (key x).2.1⟩) (by omega), List.sum_nonneg fun y hy => ?_, h6⟩
  obtain ⟨x, -, rfl⟩ := List.mem_map.1 hy
  exact (key x).2.1

theorem manhattan_is32 (zs : Bool) (c : Cube3) : (manhattan32 zs c).Is (manhattan c) := by
  obtain ⟨e1, e2, e3⟩ := pieceSetManhattan_is32 zs edge_smallVec c.edges.iterWithPos (by
    rw [PieceSet.iterWithPos_eq]; simp)
  obtain ⟨c1, c2, c3⟩ := pieceSetManhattan_is32 zs corner_smallVec c.corners.iterWithPos (by
    rw [PieceSet.iterWithPos_eq]; simp)
  have el : c.edges.iterWithPos.length = 12 := by rw [PieceSet.iterWithPos_eq]; simp
  have cl : c.corners.iterWithPos.length = 8 := by rw [PieceSet.iterWithPos_eq]; simp
  rw [el] at e3
  rw [cl] at c3
  change 0 ≤ pieceSetManhattan c.edges at e2
  change pieceSetManhattan c.edges ≤ _ at e3
  change 0 ≤ pieceSetManhattan c.corners at c2
  change pieceSetManhattan c.corners ≤ _ at c3
  have hs : ((pieceSetManhattan32 zs c.edges).add (pieceSetManhattan32 zs c.corners)).Is
      (pieceSetManhattan c.edges + pieceSetManhattan c.corners : ℤ) :=
    addInt_is32 e1 c1 (by rw [abs_of_nonneg (by omega)]; omega)
  have hd : ((lit binary32 8).mul (lit binary32 2)).Is ((8 * 2 : ℤ) : ℚ) :=
    mulInt_is32 (by have := lit_is32 (q := 8) 8 (by simp) (by norm_num); simpa using this)
      (by have := lit_is32 (q := 2) 2 (by simp) (by norm_num); simpa using this) (by norm_num)
  obtain ⟨z, hz⟩ := hs.div hd (by norm_num)
  unfold manhattan32
  rw [hz]
  have := round_is32 (q := manhattan c) 4 (by norm_num) (z := pieceSetManhattan c.edges + pieceSetManhattan c.corners)
    (by unfold manhattan; norm_num) (by rw [abs_of_nonneg (by omega)]; omega) z
  have e : (((pieceSetManhattan c.edges + pieceSetManhattan c.corners : ℤ) : ℚ) / ((8 * 2 : ℤ) : ℚ)) = manhattan c := by
    unfold manhattan; norm_num
  rw [e]
  exact this

/-! ## Pictures -/

namespace Square

theorem asUsize_eq (s : Bool) {n : ℤ} (h0 : 0 ≤ n) (h : n < 2 ^ 64) : asUsize (.fin s n) = if s then 0 else n.toNat := by
  unfold asUsize Fl.toInt
  cases s
  · simp only [Int.floor_intCast, if_neg Bool.false_ne_true]
    congr 1; omega
  · simp only [Int.floor_intCast, if_true]
    have : max 0 (min (2 ^ 64 - 1) (-n)) = 0 := by omega
    rw [this]; rfl

theorem cell_cases (N : Nat) (s : Bool) {n : ℤ} (n0 : 0 ≤ n) :
    (if decide (s = true ∧ n ≠ 0) = true then none
      else if h : (if s = true then 0 else n.toNat) < N then some (⟨if s = true then 0 else n.toNat, h⟩ : Fin N) else none) =
    if (if s = true then -n else n) < 0 then none
    else if h : (if s = true then -n else n).toNat < N then some ⟨(if s = true then -n else n).toNat, h⟩ else none := by
  cases s
  · simp only [Bool.false_eq_true, false_and, decide_false, if_false]
    rw [if_neg (by omega : ¬ n < 0)]
  · simp only [if_true, true_and]
    by_cases hn : n = 0
    · subst hn; simp
    · rw [if_pos (by simpa using hn), if_pos (by omega)]

/-- what happens to the scaled coordinate: the same as with exact arithmetic -/
theorem cell32 (N : Nat) (s : Bool) {m : ℚ} (h0 : 0 ≤ m) (h : m < 2 ^ 63) :
    (if (Fl.roundAway (.fin s m : F32)).lt (lit binary32 0) then none
      else if h : asUsize (Fl.roundAway (.fin s m)) < N then some ⟨asUsize (Fl.roundAway (.fin s m)), h⟩
      else none) = cellOf? N (Fl.val (.fin s m : F32)) := by
  have hz : (lit binary32 0).Is 0 := lit_is32 (q := 0) 0 (by simp) (by norm_num)
  have n0 : 0 ≤ ⌊m + 1 / 2⌋ := Int.floor_nonneg.2 (by linarith)
  have n1 : ⌊m + 1 / 2⌋ < 2 ^ 64 := by
    rw [Int.floor_lt]; push_cast; linarith
  obtain ⟨t, ht, -⟩ := hz
  have hlt : (Fl.roundAway (.fin s m : F32)).lt (lit binary32 0) = decide (s = true ∧ ⌊m + 1 / 2⌋ ≠ 0) := by
    rw [ht]
    unfold Fl.roundAway Fl.lt Fl.val
    simp only [abs_zero, neg_zero, ite_self]
    congr 1
    have n0' : (0 : ℚ) ≤ ⌊m + 1 / 2⌋ := by exact_mod_cast n0
    cases s
    · simp only [Bool.false_eq_true, false_and, if_false, eq_iff_iff, iff_false, not_lt]; exact n0'
    · simp only [if_true, true_and, eq_iff_iff]
      constructor
      · intro h1 h2; rw [h2] at h1; simp at h1
      · intro h1
        have : 0 < ⌊m + 1 / 2⌋ := by omega
        have : (0 : ℚ) < ⌊m + 1 / 2⌋ := by exact_mod_cast this
        linarith
  rw [hlt]
  have hu : asUsize (Fl.roundAway (.fin s m)) = if s then 0 else ⌊m + 1 / 2⌋.toNat := asUsize_eq s n0 n1
  have hr : roundAway (Fl.val (.fin s m : F32)) = if s then -⌊m + 1 / 2⌋ else ⌊m + 1 / 2⌋ := by
    unfold roundAway Fl.val
    cases s
    · simp only [if_neg Bool.false_ne_true, if_pos h0]
    · simp only [if_true]
      split
      · have : m = 0 := by linarith
        subst this; norm_num
      · rw [show -m - 1 / 2 = -(m + 1 / 2) by ring, Int.ceil_neg]
  unfold cellOf?
  simp only [hr, hu]
  exact cell_cases N s n0

end Square

end Barbarosa
