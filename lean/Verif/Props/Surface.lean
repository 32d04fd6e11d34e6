import Verif.Spec.Surface
import Verif.Props.Reach

/-!
# C70: every visible cubie is a piece
-/

namespace Barbarosa

open Equiv

/-! ## The pieces of a valid set fill the places of the solved set -/

theorem cells_perm {P : Type} {n : Nat} [PieceSetDescriptor P n] [LawfulDescriptor P n] {s : PieceSet P n} (h : s.Valid)
    (f : P → Z3) (hf : ∀ a b : P, Piece.position a = Piece.position b → f a = f b) :
    (List.ofFn fun i => f (s i)).Perm (List.ofFn fun i => f (PieceSet.SOLVED P i)) := by
  obtain ⟨σ, hσ⟩ := h.arranged
  have e : (fun i => f (s i)) = (fun i => f (PieceSet.SOLVED P i)) ∘ σ := by
    funext i
    exact hf _ _ ((hσ i).trans (LawfulDescriptor.solved_pos (σ i)).symm)
  rw [e]
  exact σ.ofFn_comp_perm _

/-- all candidates for a visible cubie -/
def grid (N : Nat) : List Z3 :=
  let l := (List.range N).map fun i : Nat => 2 * (i : Int) - ((N : Int) - 1)
  l.flatMap fun x => l.flatMap fun y => l.map fun z => ⟨x, y, z⟩

theorem coordinate_mem {N : Nat} {x : Int} (h : Coordinate N x) :
    x ∈ (List.range N).map fun i : Nat => 2 * (i : Int) - ((N : Int) - 1) := by
  obtain ⟨h1, h2, k, hk⟩ := h
  rw [List.mem_map]
  refine ⟨k.toNat, List.mem_range.2 ?_, ?_⟩
  · have : 0 ≤ k := by omega
    omega
  · have : 0 ≤ k := by omega
    omega

theorem surface_mem {N : Nat} {p : Z3} (h : Surface N p) : p ∈ grid N := by
  obtain ⟨h1, h2, h3, -⟩ := h
  unfold grid
  simp only [List.mem_flatMap, List.mem_map (b := p)]
  exact ⟨p.x, coordinate_mem h1, p.y, coordinate_mem h2, p.z, coordinate_mem h3, rfl⟩

theorem complete_of_perm {N : Nat} {l l' : List Z3} (hp : l.Perm l') (h1 : l'.Nodup)
    (h2 : ∀ p ∈ l', Surface N p ∧ (N % 2 = 1 → ¬ FaceCentre N p))
    (h3 : ∀ p ∈ grid N, Surface N p → (N % 2 = 1 → ¬ FaceCentre N p) → p ∈ l') : Complete N l :=
  ⟨hp.nodup_iff.2 h1, fun p => hp.mem_iff.trans ⟨h2 p, fun h => h3 p (surface_mem h.1) h.1 h.2⟩⟩

theorem cornerCell (N : Nat) (a b : Corner) (h : Piece.position a = Piece.position b) : a.cell N = b.cell N :=
  congrArg (fun q : Vec3 => q.point.smul (N - 1)) h

theorem edgeCell (N : Nat) (a b : Edge) (h : Piece.position a = Piece.position b) : a.cell N = b.cell N := by
  have : ∀ a b : Edge, Piece.position a = Piece.position b → a.faces = b.faces := by decide +kernel
  unfold Edge.cell
  rw [this a b h]

/-- **C70** On every valid 2x2, 3x3, 4x4, 6x6 and 7x7 the pieces are at different places, and together they are at all places that can be
seen (but for the middles of the faces, which never move). -/
theorem C70_complete_partial :
    (∀ c : Cube2, c.corners.Valid → Complete 2 c.cells) ∧
    (∀ c : Cube3, c.corners.Valid → c.edges.Valid → Complete 3 c.cells) ∧
    (∀ c : Cube4, c.corners.Valid → c.wings.Valid → c.centers.Valid → Complete 4 c.cells) ∧
    (∀ c : Cube6, c.corners.Valid → c.wings1.Valid → c.wings2.Valid → c.centerCorners1.Valid → c.centerCorners2.Valid →
      c.centerWings.Valid → Complete 6 c.cells) ∧
    (∀ c : Cube7, c.corners.Valid → c.edges.Valid → c.wings1.Valid → c.wings2.Valid → c.centerCorners1.Valid →
      c.centerCorners2.Valid → c.centerWings.Valid → c.centerEdges1.Valid → c.centerEdges2.Valid → Complete 7 c.cells) := by
  refine ⟨fun c h => ?_, fun c h1 h2 => ?_, fun c h1 h2 h3 => ?_, fun c h1 h2 h3 h4 h5 h6 => ?_,
    fun c h1 h2 h3 h4 h5 h6 h7 h8 h9 => ?_⟩
  · refine complete_of_perm (l' := (Cube.SOLVED : Cube2).cells) (cells_perm h _ (cornerCell 2)) ?_ ?_ ?_ <;> decide +kernel
  · refine complete_of_perm (l' := (Cube.SOLVED : Cube3).cells)
      ((cells_perm h1 _ (cornerCell 3)).append (cells_perm h2 _ (edgeCell 3))) ?_ ?_ ?_ <;> decide +kernel
  · refine complete_of_perm (l' := (Cube.SOLVED : Cube4).cells) (((cells_perm h1 _ (cornerCell 4)).append
      (cells_perm h2 _ fun a b h => congrArg _ h)).append (cells_perm h3 _ fun a b h => congrArg _ h)) ?_ ?_ ?_ <;> decide +kernel
  · refine complete_of_perm (l' := (Cube.SOLVED : Cube6).cells) ((((((cells_perm h1 _ (cornerCell 6)).append
      (cells_perm h2 _ fun a b h => congrArg _ h)).append (cells_perm h3 _ fun a b h => congrArg _ h)).append
      (cells_perm h4 _ fun a b h => congrArg _ h)).append (cells_perm h5 _ fun a b h => congrArg _ h)).append
      (cells_perm h6 _ fun a b h => congrArg _ h)) ?_ ?_ ?_ <;> decide +kernel
  · refine complete_of_perm (l' := (Cube.SOLVED : Cube7).cells) (((((((((cells_perm h1 _ (cornerCell 7)).append
      (cells_perm h2 _ (edgeCell 7))).append (cells_perm h3 _ fun a b h => congrArg _ h)).append
      (cells_perm h4 _ fun a b h => congrArg _ h)).append (cells_perm h5 _ fun a b h => congrArg _ h)).append
      (cells_perm h6 _ fun a b h => congrArg _ h)).append (cells_perm h7 _ fun a b h => congrArg _ h)).append
      (cells_perm h8 _ fun a b h => congrArg _ h)).append (cells_perm h9 _ fun a b h => congrArg _ h)) ?_ ?_ ?_ <;> decide +kernel

/-- **C70** is false for the 5x5: the 24 cubies of the edges next to the corners are no pieces (and nothing else is missing). -/
theorem C70_cube5_no_wings (c : Cube5) (h1 : c.corners.Valid) (h2 : c.edges.Valid) (h3 : c.cornerCenters.Valid)
    (h4 : c.cornerEdges.Valid) : ¬ Complete 5 c.cells ∧ c.cells.Nodup ∧
      ∀ p, p ∈ c.cells ↔ Surface 5 p ∧ ¬ FaceCentre 5 p ∧ ¬ WingPlace5 p := by
  have hp : c.cells.Perm (Cube.SOLVED : Cube5).cells := (((cells_perm h1 _ (cornerCell 5)).append (cells_perm h2 _ (edgeCell 5))).append
    (cells_perm h3 _ fun a b h => congrArg _ h)).append (cells_perm h4 _ fun a b h => congrArg _ h)
  have hm : ∀ p, p ∈ c.cells ↔ Surface 5 p ∧ ¬ FaceCentre 5 p ∧ ¬ WingPlace5 p := by
    have t1 : ∀ p ∈ (Cube.SOLVED : Cube5).cells, Surface 5 p ∧ ¬ FaceCentre 5 p ∧ ¬ WingPlace5 p := by decide +kernel
    have t2 : ∀ p ∈ grid 5, Surface 5 p → ¬ FaceCentre 5 p → ¬ WingPlace5 p → p ∈ (Cube.SOLVED : Cube5).cells := by decide +kernel
    exact fun p => hp.mem_iff.trans ⟨t1 p, fun h => t2 p (surface_mem h.1) h.1 h.2.1 h.2.2⟩
  refine ⟨fun h => ?_, hp.nodup_iff.2 (by decide +kernel), hm⟩
  have : (⟨2, 4, 4⟩ : Z3) ∈ c.cells := (h.2 _).2 (by decide +kernel)
  exact absurd ((hm _).1 this).2.2 (by decide)

/-- a scrambled 5x5 -/
example : ¬ Complete 5 (movedAlg (Cube.SOLVED : Cube5) [(⟨1, ⟨Face.R, .single⟩⟩ : WideAxisMove 1)]).cells :=
  (C70_cube5_no_wings _ (by unfold PieceSet.Valid Function.Injective; decide +kernel)
    (by unfold PieceSet.Valid Function.Injective; decide +kernel) (by unfold PieceSet.Valid Function.Injective; decide +kernel)
    (by unfold PieceSet.Valid Function.Injective; decide +kernel)).1

/-- turns of the outermost layers, and of the outermost two, of R and U -/
def r1 (d : Nat) (a : Amount) : WideAxisMove 1 := ⟨d, ⟨Face.R, a⟩⟩
def u1 (d : Nat) (a : Amount) : WideAxisMove 1 := ⟨d, ⟨Face.U, a⟩⟩

/-- a commutator that cycles three wings of the 4x4 -/
def wingCycle : List (WideAxisMove 1) :=
  [r1 0 .single, u1 0 .single, r1 1 .single, r1 0 .inverse, u1 0 .inverse, r1 0 .inverse, u1 0 .single, r1 0 .single, r1 1 .inverse,
    u1 0 .inverse]

/-- **C70**, a consequence: turns after which this 5x5 is solved although on a real one cubies of the edges have changed places. On the
4x4, which has wings, the same turns are noticed. -/
theorem C70_cube5_blind :
    movedAlg (Cube.SOLVED : Cube5) wingCycle = Cube.SOLVED ∧
    (∃ p, Surface 5 p ∧ wingCycle.foldl (fun q m => wideTurn 5 m.depth m.axisMove q) p ≠ p) ∧
    movedAlg (Cube.SOLVED : Cube4) wingCycle ≠ Cube.SOLVED := by
  refine ⟨?_, ?_, fun h => ?_⟩
  · apply Cube5.ext <;> (funext i; revert i; decide +kernel)
  · have : ∃ p ∈ grid 5, Surface 5 p ∧ wingCycle.foldl (fun q m => wideTurn 5 m.depth m.axisMove q) p ≠ p := by decide +kernel
    obtain ⟨p, -, h⟩ := this
    exact ⟨p, h⟩
  · have := congrArg (fun c : Cube4 => decide (c.wings = PieceSet.SOLVED Wing)) h
    revert this
    decide +kernel

/-! ### Examples -/

/-- a scrambled 7x7 -/
example : Complete 7 (movedAlg (Cube.SOLVED : Cube7) [(⟨1, ⟨Face.R, .single⟩⟩ : WideAxisMove 2), ⟨2, ⟨Face.U, .double⟩⟩]).cells := by
  refine C70_complete_partial.2.2.2.2 _ ?_ ?_ ?_ ?_ ?_ ?_ ?_ ?_ ?_ <;> (unfold PieceSet.Valid Function.Injective; decide +kernel)

/-- a cubie in the middle of an edge, and one where the 5x5 has no piece -/
example : (⟨0, 4, 4⟩ : Z3) ∈ (Cube.SOLVED : Cube5).cells ∧ (⟨2, 4, 4⟩ : Z3) ∉ (Cube.SOLVED : Cube5).cells := by decide +kernel

end Barbarosa
