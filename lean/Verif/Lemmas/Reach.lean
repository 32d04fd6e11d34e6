import Verif.Lemmas.Groups
import Verif.Lemmas.Invariants
import Verif.Spec.Reach

/-!
# The group of the wide moves

Every kind of pieces of the big cubes is an orbit of the wide moves, and the wide moves can permute the pieces of one
(non-corner, non-edge) orbit evenly without touching any other piece.
-/

namespace Barbarosa

open Equiv

/-- the orbits of the pieces of the cubes with up to seven layers, apart from the center edges -/
inductive Orbit | corner | edge | wing1 | wing2 | cc1 | cc2 | cwR | cwL
  deriving DecidableEq, Repr

instance : Fintype Orbit :=
  ⟨({.corner, .edge, .wing1, .wing2, .cc1, .cc2, .cwR, .cwL} : Finset Orbit), fun a => by cases a <;> decide⟩

namespace Orbit

/-- the pieces of an orbit -/
def Pc : Orbit → Type
  | .corner => Corner
  | .edge => Edge
  | .wing1 | .wing2 => Wing
  | .cc1 | .cc2 => CenterCorner
  | .cwR => { c : CenterWing // c.rightHanded = true }
  | .cwL => { c : CenterWing // c.rightHanded = false }

instance : (k : Orbit) → Fintype (Pc k)
  | .corner => inferInstanceAs (Fintype Corner)
  | .edge => inferInstanceAs (Fintype Edge)
  | .wing1 | .wing2 => inferInstanceAs (Fintype Wing)
  | .cc1 | .cc2 => inferInstanceAs (Fintype CenterCorner)
  | .cwR => inferInstanceAs (Fintype { c : CenterWing // c.rightHanded = true })
  | .cwL => inferInstanceAs (Fintype { c : CenterWing // c.rightHanded = false })

instance : (k : Orbit) → DecidableEq (Pc k)
  | .corner => inferInstanceAs (DecidableEq Corner)
  | .edge => inferInstanceAs (DecidableEq Edge)
  | .wing1 | .wing2 => inferInstanceAs (DecidableEq Wing)
  | .cc1 | .cc2 => inferInstanceAs (DecidableEq CenterCorner)
  | .cwR => inferInstanceAs (DecidableEq { c : CenterWing // c.rightHanded = true })
  | .cwL => inferInstanceAs (DecidableEq { c : CenterWing // c.rightHanded = false })

end Orbit

open Orbit

/-- the depth only matters up to two -/
theorem cw_moved_hand (c : CenterWing) (m : WideAxisMove 2) :
    (DepthPiece.moved 1 2 c m : CenterWing).rightHanded = c.rightHanded := by
  have h : ∀ (c : CenterWing) (r : AxisRotation), (Rotatable.rotated c r : CenterWing).rightHanded = c.rightHanded := by
    decide +kernel
  unfold DepthPiece.moved
  split
  · exact h _ _
  · rfl

/-- what a wide move does to the pieces of an orbit -/
def turn (m : WideAxisMove 2) : (k : Orbit) → Pc k → Pc k
  | .corner => fun c => moved (C := Corner) c m.axisMove
  | .edge => fun c => moved (C := Edge) c m.axisMove
  | .wing1 => fun c => DepthPiece.moved (P := Wing) 1 0 c m
  | .wing2 => fun c => DepthPiece.moved (P := Wing) 2 0 c m
  | .cc1 => fun c => DepthPiece.moved (P := CenterCorner) 1 0 c m
  | .cc2 => fun c => DepthPiece.moved (P := CenterCorner) 2 0 c m
  | .cwR => fun c => ⟨DepthPiece.moved 1 2 c.1 m, (cw_moved_hand _ _).trans c.2⟩
  | .cwL => fun c => ⟨DepthPiece.moved 1 2 c.1 m, (cw_moved_hand _ _).trans c.2⟩

theorem depth_undo {P : Type} [DepthPiece P] [Rotatable P] [LawfulRotatable P] [LawfulDepthPiece P] {M : Nat}
    (nd td : Nat) (m : WideAxisMove M) (p : P) :
    DepthPiece.moved nd td (DepthPiece.moved nd td p m) (Move.inverse m) = p := by
  obtain ⟨d, f, x⟩ := m
  have := (depth_laws P M nd td).add p d f x (x.mul .neg)
  have hx : x.add (x.mul .neg) = none := by cases x <;> rfl
  simp only [hx] at this
  have e : (Move.inverse (⟨d, ⟨f, x⟩⟩ : WideAxisMove M)) = ⟨d, ⟨f, x.mul .neg⟩⟩ := by cases x <;> rfl
  rw [e]
  exact this

theorem turn_undo (m : WideAxisMove 2) (k : Orbit) (x : Pc k) : turn (Move.inverse m) k (turn m k x) = x := by
  have hc : ∀ (c : Corner) (m : AxisMove), moved (moved c m) (Move.inverse m) = c := by decide +kernel
  have he : ∀ (c : Edge) (m : AxisMove), moved (moved c m) (Move.inverse m) = c := by decide +kernel
  cases k
  · exact hc _ _
  · exact he _ _
  · exact depth_undo (P := Wing) 1 0 m x
  · exact depth_undo (P := Wing) 2 0 m x
  · exact depth_undo (P := CenterCorner) 1 0 m x
  · exact depth_undo (P := CenterCorner) 2 0 m x
  · exact Subtype.ext (depth_undo 1 2 m x.1)
  · exact Subtype.ext (depth_undo 1 2 m x.1)

theorem inverse_inverse_wide {N : Nat} (m : WideAxisMove N) : Move.inverse (Move.inverse m) = m := by
  obtain ⟨d, f, x⟩ := m
  cases x <;> rfl

/-- the permutations of all orbits at once -/
abbrev BigPerm := (k : Orbit) → Perm (Pc k)

/-- the permutations made by a wide move -/
def gen (m : WideAxisMove 2) : BigPerm := fun k =>
  ⟨turn m k, turn (Move.inverse m) k, turn_undo m k, fun x => by
    have := turn_undo (Move.inverse m) k x
    rwa [inverse_inverse_wide] at this⟩

/-- the permutations made by an alg of wide moves -/
def evalWord : List (WideAxisMove 2) → BigPerm
  | [] => 1
  | m :: w => evalWord w * gen m

/-- an alg of wide moves on a piece -/
def runWord (k : Orbit) : List (WideAxisMove 2) → Pc k → Pc k
  | [], x => x
  | m :: w, x => runWord k w (turn m k x)

theorem evalWord_apply (k : Orbit) : ∀ (w : List (WideAxisMove 2)) (x : Pc k), evalWord w k x = runWord k w x
  | [], _ => rfl
  | m :: w, x => evalWord_apply k w (turn m k x)

theorem evalWord_append (u v : List (WideAxisMove 2)) : evalWord (u ++ v) = evalWord v * evalWord u := by
  induction u with
  | nil => simp [evalWord]
  | cons m u ih => simp [evalWord, ih, mul_assoc]

/-- the moves of depth at most `D` -/
def Γ (D : Nat) : Subgroup BigPerm := Subgroup.closure { g | ∃ m : WideAxisMove 2, m.depth ≤ D ∧ gen m = g }

theorem gen_inverse (m : WideAxisMove 2) : gen (Move.inverse m) = (gen m)⁻¹ := by
  funext k
  ext x
  rfl

theorem word_mem (D : Nat) (w : List (WideAxisMove 2)) (h : ∀ m ∈ w, m.depth ≤ D) : evalWord w ∈ Γ D := by
  induction w with
  | nil => exact one_mem _
  | cons m w ih =>
    exact mul_mem (ih fun x hx => h x (List.mem_cons_of_mem _ hx))
      (Subgroup.subset_closure ⟨m, h m List.mem_cons_self, rfl⟩)

theorem mem_word (D : Nat) (g : BigPerm) (h : g ∈ Γ D) :
    ∃ w : List (WideAxisMove 2), (∀ m ∈ w, m.depth ≤ D) ∧ evalWord w = g := by
  have inv : ∀ w : List (WideAxisMove 2), (∀ m ∈ w, m.depth ≤ D) →
      ∃ v : List (WideAxisMove 2), (∀ m ∈ v, m.depth ≤ D) ∧ evalWord v = (evalWord w)⁻¹ := by
    intro w
    induction w with
    | nil => exact fun _ => ⟨[], by simp, by simp [evalWord]⟩
    | cons m w ih =>
      intro hw
      obtain ⟨v, hv, e⟩ := ih fun x hx => hw x (List.mem_cons_of_mem _ hx)
      refine ⟨v ++ [Move.inverse m], ?_, ?_⟩
      · intro x hx
        rcases List.mem_append.1 hx with hx | hx
        · exact hv x hx
        · rw [List.mem_singleton.1 hx]
          exact hw m List.mem_cons_self
      · rw [evalWord_append, e]
        simp [evalWord, gen_inverse]
  induction h using Subgroup.closure_induction with
  | mem x hx =>
    obtain ⟨m, hm, rfl⟩ := hx
    exact ⟨[m], by simpa using hm, by simp [evalWord]⟩
  | one => exact ⟨[], by simp, rfl⟩
  | mul x y _ _ hx hy =>
    obtain ⟨u, hu, rfl⟩ := hx
    obtain ⟨v, hv, rfl⟩ := hy
    exact ⟨v ++ u, fun m hm => (List.mem_append.1 hm).elim (hv m) (hu m), evalWord_append _ _⟩
  | inv x _ hx =>
    obtain ⟨u, hu, rfl⟩ := hx
    exact inv u hu

/-! ## Algs as numbers -/

/-- `18 * depth + 3 * face + turns - 1` -/
def wideOfCode (n : Nat) : WideAxisMove 2 :=
  ⟨n / 18, ⟨match n / 3 % 6 with | 0 => Face.R | 1 => Face.U | 2 => Face.F | 3 => Face.L | 4 => Face.D | _ => Face.B,
    match n % 3 with | 0 => .single | 1 => .double | _ => .inverse⟩⟩

theorem codes_depth (D : Nat) (w : List Nat) (h : w.all (fun n => n / 18 ≤ D) = true) :
    ∀ m ∈ w.map wideOfCode, m.depth ≤ D := by
  intro m hm
  obtain ⟨n, hn, rfl⟩ := List.mem_map.1 hm
  have := List.all_eq_true.1 h n hn
  exact of_decide_eq_true this

/-- a piece of the orbit -/
def x₀ : (k : Orbit) → Pc k
  | .corner => PieceSet.SOLVED Corner 0
  | .edge => PieceSet.SOLVED Edge 0
  | .wing1 | .wing2 => Wing.SOLVED 0
  | .cc1 | .cc2 => CenterCorner.SOLVED 0
  | .cwR => ⟨CenterWing.SOLVED 24, by decide⟩
  | .cwL => ⟨CenterWing.SOLVED 0, by decide⟩

/-- another piece of the orbit -/
def x₁ : (k : Orbit) → Pc k
  | .corner => PieceSet.SOLVED Corner 1
  | .edge => PieceSet.SOLVED Edge 1
  | .wing1 | .wing2 => Wing.SOLVED 12
  | .cc1 | .cc2 => CenterCorner.SOLVED 8
  | .cwR => ⟨CenterWing.SOLVED 36, by decide⟩
  | .cwL => ⟨CenterWing.SOLVED 12, by decide⟩

/-- algs that bring every piece of the orbit to `x₀` -/
def tbl0 : Orbit → List (List Nat)
  | .wing1 =>
    [[], [0, 3], [1, 3], [2, 3], [3], [4], [5], [6], [7], [8], [9, 5], [11, 5], [15, 4], [17, 4], [18], [19], [20], [24,
    5], [26, 5], [27, 4], [29, 4], [33, 3], [34, 3], [35, 3]]
  | .wing2 =>
    [[], [0, 3], [1, 3], [2, 3], [3], [4], [5], [6], [7], [8], [9, 5], [11, 5], [15, 4], [17, 4], [36], [37], [38], [42,
    5], [44, 5], [45, 4], [47, 4], [51, 3], [52, 3], [53, 3]]
  | .cc1 =>
    [[], [0], [1], [2], [21], [21, 2], [22], [23], [23, 2], [24], [24, 0], [25], [25, 0], [26], [26, 0], [30, 0], [30,
    1], [31, 0], [32, 0], [32, 1], [33, 1], [33, 2], [35, 1], [35, 2]]
  | .cc2 =>
    [[], [0], [1], [2], [39], [39, 2], [40], [41], [41, 2], [42], [42, 0], [43], [43, 0], [44], [44, 0], [48, 0], [48,
    1], [49, 0], [50, 0], [50, 1], [51, 1], [51, 2], [53, 1], [53, 2]]
  | .cwR =>
    [[], [0], [1], [2], [21], [22], [23], [24, 0], [25, 0], [26, 0], [30, 1], [32, 1], [33, 2], [35, 2], [39, 2], [41,
    2], [42], [43], [44], [48, 0], [49, 0], [50, 0], [51, 1], [53, 1]]
  | .cwL =>
    [[], [0], [1], [2], [21], [22], [23], [24, 0], [25, 0], [26, 0], [30, 1], [32, 1], [33, 2], [35, 2], [39, 0], [40,
    0], [41, 0], [42, 1], [44, 1], [48, 2], [50, 2], [51], [52], [53]]
  | _ => []
/-- algs that fix `x₀` and bring every other piece of the orbit to `x₁` -/
def tbl1 : Orbit → List (List Nat)
  | .wing1 =>
    [[], [0, 15, 27], [1, 15, 27], [1, 17, 28], [10, 17, 27], [11, 15, 28], [12, 28], [12, 29], [13, 28], [14, 28], [14,
    29], [15, 27], [15, 28], [16, 27], [16, 28], [17, 27], [17, 28], [19, 6, 19], [20, 5, 18], [27], [28], [29], [35,
    12, 28]]
  | .wing2 =>
    [[], [0, 15, 45], [1, 15, 45], [1, 17, 46], [10, 17, 45], [11, 15, 46], [12, 46], [12, 47], [13, 46], [14, 46], [14,
    47], [15, 45], [15, 46], [16, 45], [16, 46], [17, 45], [17, 46], [37, 6, 37], [38, 5, 36], [45], [46], [47], [53,
    12, 46]]
  | .cc1 =>
    [[], [1, 24, 1], [3], [4], [5], [18, 2], [18, 3, 2], [19, 1], [19, 3, 1], [20, 0], [20, 3, 0], [27, 4], [27, 5],
    [28, 4], [29, 4], [29, 5], [30, 18, 2], [31, 35, 4], [33, 3], [33, 4], [34, 3], [35, 3], [35, 4]]
  | .cc2 =>
    [[], [1, 42, 1], [3], [4], [5], [36, 2], [36, 3, 2], [37, 1], [37, 3, 1], [38, 0], [38, 3, 0], [45, 4], [45, 5],
    [46, 4], [47, 4], [47, 5], [48, 36, 2], [49, 53, 4], [51, 3], [51, 4], [52, 3], [53, 3], [53, 4]]
  | .cwR =>
    [[], [5, 53], [6, 30], [7, 30], [8, 30], [9, 31], [11, 31], [12, 51], [13, 51], [15, 32], [16, 32], [17, 32], [23,
    0, 21], [23, 2, 21], [28, 51], [30], [31], [32], [45, 32], [47, 32], [51], [52], [53]]
  | .cwL =>
    [[], [3, 42], [4, 42], [6, 30], [7, 30], [8, 30], [9, 31], [11, 31], [13, 44], [14, 44], [15, 32], [17, 32], [23, 0,
    21], [23, 2, 21], [30], [31], [32], [42], [43], [44], [45, 30], [46, 30], [47, 30]]
  | _ => []

/-- a 3-cycle of pieces of the orbit that leaves every other piece alone -/
def threeCycle : Orbit → List Nat
  | .wing1 => [0, 3, 18, 2, 5, 2, 3, 0, 20, 5]
  | .wing2 => [0, 3, 36, 20, 5, 2, 3, 18, 38, 5]
  | .cc1 => [18, 2, 3, 27, 11, 5, 0, 20, 3, 9, 29, 5]
  | .cc2 => [36, 20, 3, 45, 29, 5, 18, 38, 3, 27, 47, 5]
  | .cwR => [18, 2, 3, 36, 20, 5, 0, 20, 3, 18, 38, 5]
  | .cwL => [18, 2, 3, 45, 29, 5, 0, 20, 3, 27, 47, 5]
  | _ => []

/-- what the tables claim -/
def tablesOk (D : Nat) (k : Orbit) : Prop :=
  (∀ w ∈ tbl0 k, w.all (fun n => n / 18 ≤ D) = true) ∧ (∀ w ∈ tbl1 k, w.all (fun n => n / 18 ≤ D) = true) ∧
  (∀ x, ∃ w ∈ tbl0 k, runWord k (w.map wideOfCode) x = x₀ k) ∧
  (∀ x, x ≠ x₀ k → ∃ w ∈ tbl1 k, runWord k (w.map wideOfCode) (x₀ k) = x₀ k ∧ runWord k (w.map wideOfCode) x = x₁ k) ∧
  (threeCycle k).all (fun n => n / 18 ≤ D) = true ∧
  (Finset.univ.filter fun x => runWord k ((threeCycle k).map wideOfCode) x ≠ x).card = 3 ∧
  (∀ k', k' ≠ k → ∀ x, runWord k' ((threeCycle k).map wideOfCode) x = x) ∧
  5 ≤ Fintype.card (Pc k)

instance (D : Nat) (k : Orbit) : Decidable (tablesOk D k) := by unfold tablesOk; infer_instance

theorem even_of_tables {D : Nat} {k : Orbit} (h : tablesOk D k) (a : Perm (Pc k))
    (ha : Perm.sign a = 1) : (Pi.mulSingle k a : BigPerm) ∈ Γ D := by
  obtain ⟨d0, d1, h0, h1, d2, h2, h3, h5⟩ := h
  refine even_mem (Γ D) (Pi.evalMonoidHom _ k) (MonoidHom.mulSingle (fun k => Perm (Pc k)) k) (fun a => by simp) (fun g a => ?_) h5 (x₀ k) (x₁ k)
    (fun x => ?_) (fun x hx => ?_) (t := evalWord ((threeCycle k).map wideOfCode) k) ?_ ?_ a ha
  · funext k'
    by_cases e : k' = k
    · subst e
      simp
    · simp [e]
  · obtain ⟨w, hw, e⟩ := h0 x
    exact ⟨_, word_mem D _ (codes_depth D w (d0 w hw)), (evalWord_apply k _ x).trans e⟩
  · obtain ⟨w, hw, e, e'⟩ := h1 x hx
    exact ⟨_, word_mem D _ (codes_depth D w (d1 w hw)), (evalWord_apply k _ _).trans e, (evalWord_apply k _ x).trans e'⟩
  · rw [← card_support_eq_three_iff, ← h2]
    congr 1
    ext x
    simp [evalWord_apply]
  · have e : MonoidHom.mulSingle (fun k => Perm (Pc k)) k (evalWord ((threeCycle k).map wideOfCode) k) =
        evalWord ((threeCycle k).map wideOfCode) := by
      funext k'
      by_cases e : k' = k
      · subst e
        simp
      · rw [MonoidHom.mulSingle_apply, Pi.mulSingle_eq_of_ne e]
        ext x
        rw [evalWord_apply, h3 k' e x]
        rfl
    rw [e]
    exact word_mem D _ (codes_depth D _ d2)

theorem tables1 : ∀ k : Orbit, k = .wing1 ∨ k = .cc1 → tablesOk 1 k := by decide +kernel

theorem tables2 : ∀ k : Orbit, k ≠ .corner → k ≠ .edge → tablesOk 2 k := by decide +kernel

end Barbarosa
