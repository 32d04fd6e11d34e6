import Verif.Model.NonRedundant

/-!
# Which cube accepts which moves

A catalogue of the `Movable` implementations of the crate on cubes, so that a law can be stated once for all of them.
-/

namespace Barbarosa

/-- A cube type with one of the move types it accepts -/
structure MoveSys where
  C : Type
  M : Type
  [move : Move M]
  [movable : Movable C M]

attribute [instance] MoveSys.move MoveSys.movable

/-- All pairs (cube type, move type) for which the crate implements `Movable`: the blanket implementations
`cube_n/moves/{quarter.rs:51, non_redundant.rs:364, wide.rs:122}` for every cube, `AxisMove` for every cube, and
`WideAxisMove<1>`, `WideAxisMove<2>` for the big cubes. -/
def moveSystems : List MoveSys :=
  [⟨Cube2, AxisMove⟩, ⟨Cube3, AxisMove⟩, ⟨Cube4, AxisMove⟩, ⟨Cube5, AxisMove⟩, ⟨Cube6, AxisMove⟩, ⟨Cube7, AxisMove⟩,
   ⟨Cube2, WideAxisMove 0⟩, ⟨Cube3, WideAxisMove 0⟩, ⟨Cube4, WideAxisMove 0⟩, ⟨Cube5, WideAxisMove 0⟩,
   ⟨Cube6, WideAxisMove 0⟩, ⟨Cube7, WideAxisMove 0⟩,
   ⟨Cube2, QuarterAxisMove⟩, ⟨Cube3, QuarterAxisMove⟩, ⟨Cube4, QuarterAxisMove⟩, ⟨Cube5, QuarterAxisMove⟩,
   ⟨Cube6, QuarterAxisMove⟩, ⟨Cube7, QuarterAxisMove⟩,
   ⟨Cube2, NonRedundantAxisMove⟩, ⟨Cube3, NonRedundantAxisMove⟩, ⟨Cube4, NonRedundantAxisMove⟩,
   ⟨Cube5, NonRedundantAxisMove⟩, ⟨Cube6, NonRedundantAxisMove⟩, ⟨Cube7, NonRedundantAxisMove⟩,
   ⟨Cube4, WideAxisMove 1⟩, ⟨Cube5, WideAxisMove 1⟩, ⟨Cube6, WideAxisMove 1⟩, ⟨Cube7, WideAxisMove 1⟩,
   ⟨Cube6, WideAxisMove 2⟩, ⟨Cube7, WideAxisMove 2⟩]

/-- A cube type with a way of turning a face by an amount, at a depth -/
structure TurnSys where
  C : Type
  turn : C → (depth : Nat) → Face → Amount → C

/-- Face turns and wide turns of the crate's cubes. For `AxisMove` the depth is ignored. -/
def turnSystems : List TurnSys :=
  [⟨Cube2, fun c _ f x => moved c (⟨f, x⟩ : AxisMove)⟩,
   ⟨Cube3, fun c _ f x => moved c (⟨f, x⟩ : AxisMove)⟩,
   ⟨Cube4, fun c _ f x => moved c (⟨f, x⟩ : AxisMove)⟩,
   ⟨Cube5, fun c _ f x => moved c (⟨f, x⟩ : AxisMove)⟩,
   ⟨Cube6, fun c _ f x => moved c (⟨f, x⟩ : AxisMove)⟩,
   ⟨Cube7, fun c _ f x => moved c (⟨f, x⟩ : AxisMove)⟩,
   ⟨Cube4, fun c d f x => moved c (⟨d, ⟨f, x⟩⟩ : WideAxisMove 1)⟩,
   ⟨Cube5, fun c d f x => moved c (⟨d, ⟨f, x⟩⟩ : WideAxisMove 1)⟩,
   ⟨Cube6, fun c d f x => moved c (⟨d, ⟨f, x⟩⟩ : WideAxisMove 1)⟩,
   ⟨Cube7, fun c d f x => moved c (⟨d, ⟨f, x⟩⟩ : WideAxisMove 1)⟩,
   ⟨Cube6, fun c d f x => moved c (⟨d, ⟨f, x⟩⟩ : WideAxisMove 2)⟩,
   ⟨Cube7, fun c d f x => moved c (⟨d, ⟨f, x⟩⟩ : WideAxisMove 2)⟩]

/-- A cube type that accepts plain face moves (all of them do) -/
structure AxisSys where
  C : Type
  [cube : Cube C]
  [movable : Movable C AxisMove]

attribute [instance] AxisSys.cube AxisSys.movable

/-- The cubes of the crate with their `AxisMove` implementation -/
def axisSystems : List AxisSys := [⟨Cube2⟩, ⟨Cube3⟩, ⟨Cube4⟩, ⟨Cube5⟩, ⟨Cube6⟩, ⟨Cube7⟩]

/-- How many clockwise quarter turns an amount stands for -/
def quarterTurns : Amount → Nat
  | .single => 1
  | .double => 2
  | .inverse => 3

end Barbarosa
