import Verif.Spec.Stickers
import Verif.Model.Cubes

/-!
# What it means that a cube looks solved
-/

namespace Barbarosa

/-- the stickers of a 2x2: where they are and their colours, as the pieces report them -/
def Cube2.stickers (c : Cube2) : List (Facelet × Color) := c.corners.iterWithPos.flatMap pieceStickers

/-- every face of the 2x2 shows only one colour -/
def Cube2.LooksSolved (c : Cube2) : Prop := ∀ f : Face, ∃ col : Color, ∀ s ∈ c.stickers, s.1.face = f → s.2 = col

/-- the 2x2 turned round as a whole -/
def Cube2.turned (c : Cube2) (r : AxisRotation) : Cube2 := ⟨fun i => rotated (c.corners i) r⟩

/-- every face of the 3x3 shows only one colour -/
def Cube3.LooksSolved (c : Cube3) : Prop :=
  ∀ f : Face, ∃ col : Color, ∀ s : Facelet, s.OnCube → s.face = f → c.shows s = some col

end Barbarosa
