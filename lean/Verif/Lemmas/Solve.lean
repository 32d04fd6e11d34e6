import Verif.Lemmas.Invariants

/-!
# Moves and pieces as numbers
-/

namespace Barbarosa

open Equiv

/-- move number `n` of `AxisMove::all` -/
def mv (n : Nat) : AxisMove :=
  ⟨match n / 3 with
    | 0 => ⟨.X, .pos⟩ | 1 => ⟨.X, .neg⟩ | 2 => ⟨.Y, .pos⟩ | 3 => ⟨.Y, .neg⟩ | 4 => ⟨.Z, .pos⟩ | _ => ⟨.Z, .neg⟩,
   match n % 3 with
    | 0 => .single | 1 => .double | _ => .inverse⟩

/-- the edge with a code -/
def edgeOfCode (k : Nat) : Edge :=
  let p := Edge.REFERENCE_POSITIONS ⟨(k / 2) % 12, Nat.mod_lt _ (by decide)⟩
  ⟨p.1, p.2, k % 2 == 0⟩

/-- the corner with a code -/
def cornerOfCode (k : Nat) : Corner :=
  ⟨Corner.REFERENCE_POSITIONS ⟨(k / 3) % 8, Nat.mod_lt _ (by decide)⟩,
   match k % 3 with | 0 => .X | 1 => .Y | _ => .Z⟩

/-- the state of a piece as a code -/
def edgeCode (e : Edge) : Nat :=
  match PieceSet.refIndex? Edge (n := 12) e.position with
  | some i => 2 * i.val + (if e.oriented then 0 else 1)
  | none => 24

/-- the state of a piece as a code -/
def cornerCode (c : Corner) : Nat :=
  match PieceSet.refIndex? Corner (n := 8) c.position with
  | some i => 3 * i.val + c.orientationAxis.toNat
  | none => 24

theorem edgeCode_ok : ∀ e : Edge, edgeCode e < 24 ∧ edgeOfCode (edgeCode e) = e := by decide +kernel
theorem cornerCode_ok : ∀ c : Corner, cornerCode c < 24 ∧ cornerOfCode (cornerCode c) = c := by decide +kernel

theorem edgeCode_place : ∀ (e : Edge) (j : Fin 12), j.val = edgeCode e / 2 → e.position = Edge.REFERENCE_POSITIONS j := by
  decide +kernel
theorem cornerCode_place : ∀ (c : Corner) (j : Fin 8), j.val = cornerCode c / 3 →
    c.position = Corner.REFERENCE_POSITIONS j := by decide +kernel

theorem cube3_edges_alg (c : Cube3) (w : List AxisMove) (i : Fin 12) : (movedAlg c w).edges i = movedAlg (c.edges i) w := by
  induction w generalizing c with
  | nil => rfl
  | cons m w ih => exact ih (moved c m)

theorem cube3_corners_alg (c : Cube3) (w : List AxisMove) (i : Fin 8) :
    (movedAlg c w).corners i = movedAlg (c.corners i) w := by
  induction w generalizing c with
  | nil => rfl
  | cons m w ih => exact ih (moved c m)

theorem valid_alg (c : Cube3) (he : c.edges.Valid) (hc : c.corners.Valid) (w : List AxisMove) :
    (movedAlg c w).edges.Valid ∧ (movedAlg c w).corners.Valid := by
  induction w generalizing c with
  | nil => exact ⟨he, hc⟩
  | cons m w ih =>
    obtain ⟨-, h1, h2⟩ := conserved_moved c he hc m
    exact ih (moved c m) h1 h2

theorem alg_append {C M : Type} [Movable C M] (c : C) (v w : List M) :
    movedAlg c (v ++ w) = movedAlg (movedAlg c v) w := List.foldl_append

/-! ## Algs keep the invariants -/

theorem lawful_alg (c : Cube3) (h : c.Lawful) (w : List AxisMove) : (movedAlg c w).Lawful := by
  induction w generalizing c with
  | nil => exact h
  | cons m w ih => exact ih _ (lawful_moved c h m)

theorem Cube3.Lawful.edges_valid {c : Cube3} (h : c.Lawful) : c.edges.Valid := by
  obtain ⟨⟨σ, τ, h1, h2, h3⟩, -, -⟩ := h
  exact h1.valid

theorem Cube3.Lawful.corners_valid {c : Cube3} (h : c.Lawful) : c.corners.Valid := by
  obtain ⟨⟨σ, τ, h1, h2, h3⟩, -, -⟩ := h
  exact h2.valid

end Barbarosa
