import Verif.Spec.BigCubes

/-!
# The cubies of a cube that can be seen

An `N×N×N` cube has a cubie at every point whose coordinates are among `-(N-1), -(N-3), …, N-1`; those with a coordinate `±(N-1)` can be
seen. For odd `N` the middle of each face never moves.
-/

namespace Barbarosa

/-- one coordinate of a cubie -/
def Coordinate (N : Nat) (x : Int) : Prop := -((N : Int) - 1) ≤ x ∧ x ≤ (N : Int) - 1 ∧ 2 ∣ x + ((N : Int) - 1)

/-- a cubie that can be seen -/
def Surface (N : Nat) (p : Z3) : Prop :=
  Coordinate N p.x ∧ Coordinate N p.y ∧ Coordinate N p.z ∧
    (p.x.natAbs = N - 1 ∨ p.y.natAbs = N - 1 ∨ p.z.natAbs = N - 1)

/-- the middle of a face -/
def FaceCentre (N : Nat) (p : Z3) : Prop := ∃ f : Face, p = f.normal.smul (N - 1)

instance (N : Nat) (x : Int) : Decidable (Coordinate N x) := by unfold Coordinate; infer_instance
instance (N : Nat) (p : Z3) : Decidable (Surface N p) := by unfold Surface; infer_instance
instance (N : Nat) (p : Z3) : Decidable (FaceCentre N p) := by unfold FaceCentre; infer_instance

/-- a cubie of an edge next to a corner on the 5x5, where wings would be -/
def WingPlace5 (p : Z3) : Prop :=
  (p.x.natAbs = 2 ∧ p.y.natAbs = 4 ∧ p.z.natAbs = 4) ∨ (p.x.natAbs = 4 ∧ p.y.natAbs = 2 ∧ p.z.natAbs = 4) ∨
    (p.x.natAbs = 4 ∧ p.y.natAbs = 4 ∧ p.z.natAbs = 2)

instance (p : Z3) : Decidable (WingPlace5 p) := by unfold WingPlace5; infer_instance

/-! ## The places of all pieces of a cube -/

def Cube2.cells (c : Cube2) : List Z3 := List.ofFn fun i => (c.corners i).cell 2

def Cube3.cells (c : Cube3) : List Z3 := (List.ofFn fun i => (c.corners i).cell 3) ++ List.ofFn fun i => (c.edges i).cell 3

def Cube4.cells (c : Cube4) : List Z3 :=
  (List.ofFn fun i => (c.corners i).cell 4) ++ (List.ofFn fun i => (c.wings i).cell 4 1) ++
    List.ofFn fun i => (c.centers i).cell 4 1

def Cube5.cells (c : Cube5) : List Z3 :=
  (List.ofFn fun i => (c.corners i).cell 5) ++ (List.ofFn fun i => (c.edges i).cell 5) ++
    (List.ofFn fun i => (c.cornerCenters i).cell 5 1) ++ List.ofFn fun i => (c.cornerEdges i).cell 5 1

def Cube6.cells (c : Cube6) : List Z3 :=
  (List.ofFn fun i => (c.corners i).cell 6) ++ (List.ofFn fun i => (c.wings1 i).cell 6 1) ++
    (List.ofFn fun i => (c.wings2 i).cell 6 2) ++ (List.ofFn fun i => (c.centerCorners1 i).cell 6 1) ++
    (List.ofFn fun i => (c.centerCorners2 i).cell 6 2) ++ List.ofFn fun i => (c.centerWings i).cell 6 1 2

def Cube7.cells (c : Cube7) : List Z3 :=
  (List.ofFn fun i => (c.corners i).cell 7) ++ (List.ofFn fun i => (c.edges i).cell 7) ++
    (List.ofFn fun i => (c.wings1 i).cell 7 1) ++ (List.ofFn fun i => (c.wings2 i).cell 7 2) ++
    (List.ofFn fun i => (c.centerCorners1 i).cell 7 1) ++ (List.ofFn fun i => (c.centerCorners2 i).cell 7 2) ++
    (List.ofFn fun i => (c.centerWings i).cell 7 1 2) ++ (List.ofFn fun i => (c.centerEdges1 i).cell 7 1) ++
    List.ofFn fun i => (c.centerEdges2 i).cell 7 2

/-- every visible cubie that can move is represented by exactly one piece -/
def Complete (N : Nat) (cells : List Z3) : Prop :=
  cells.Nodup ∧ ∀ p, p ∈ cells ↔ Surface N p ∧ (N % 2 = 1 → ¬ FaceCentre N p)

end Barbarosa
