import Verif.Props.WholeCubes

/-!
# Cubes whose algs can be rotated

Which moves can be rotated as a whole, and what it means that an alg solves a scramble.
-/

namespace Barbarosa

/-- A cube type with a kind of moves that can be rotated; `ok` says which moves are meant (wide moves whose depth is
allowed, see `WideAxisMove.WF`) -/
structure RotSys extends CubeSys where
  rot : M → AxisRotation → M
  ok : M → Prop

/-- plain face moves on cubes of every size, wide moves on the big cubes; `AxisMove` has a rotation in the crate
(`cube_n/moves/rotation.rs:113-117`), for a wide move it is the face that is rotated -/
def rotSystems : List RotSys :=
  [⟨⟨Cube2, AxisMove⟩, rotated, fun _ => True⟩, ⟨⟨Cube3, AxisMove⟩, rotated, fun _ => True⟩,
   ⟨⟨Cube4, AxisMove⟩, rotated, fun _ => True⟩, ⟨⟨Cube5, AxisMove⟩, rotated, fun _ => True⟩,
   ⟨⟨Cube6, AxisMove⟩, rotated, fun _ => True⟩, ⟨⟨Cube7, AxisMove⟩, rotated, fun _ => True⟩,
   ⟨⟨Cube4, WideAxisMove 1⟩, rotWide, WideAxisMove.WF⟩, ⟨⟨Cube5, WideAxisMove 1⟩, rotWide, WideAxisMove.WF⟩,
   ⟨⟨Cube6, WideAxisMove 2⟩, rotWide, WideAxisMove.WF⟩, ⟨⟨Cube7, WideAxisMove 2⟩, rotWide, WideAxisMove.WF⟩]

namespace RotSys

/-- the alg rotated by several rotations, one after the other -/
def rotAlg (s : RotSys) (rs : List AxisRotation) (a : List s.M) : List s.M := a.map fun m => rs.foldl s.rot m

/-- the alg `x` solves the cube that the scramble `a` leads to: every piece is back where it was -/
def Solves (s : RotSys) (a x : List s.M) : Prop := movedAlg (movedAlg (Cube.SOLVED : s.C) a) x = Cube.SOLVED

/-- the scramble `a` can be solved in `n` moves -/
def SolvableIn (s : RotSys) (a : List s.M) (n : Nat) : Prop :=
  ∃ x : List s.M, (∀ m ∈ x, s.ok m) ∧ x.length = n ∧ s.Solves a x

end RotSys

end Barbarosa
