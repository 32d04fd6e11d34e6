import Verif.Model.NonRedundant

/-!
# Lemmas about single pieces

Panic-freedom of the piece operations and the algebra of rotating one piece. Every table below ranges over *all*
values of the types involved and is checked by kernel evaluation.
-/

namespace Barbarosa

/-! ## The totalised functions lose nothing -/

theorem Axis.offset_range (a b : Axis) : a.offset b = 0 ∨ a.offset b = 1 ∨ a.offset b = 2 := by
  revert a b; decide

theorem Amount.add_arm_dead (a b : Amount) : (a.toNat + b.toNat) % 4 < 4 := Nat.mod_lt _ (by decide)

theorem Face.containsEdge?_eq (f : Face) (e : Edge) : f.containsEdge? e = some (f.containsEdge e) := by
  revert f e; decide +kernel

theorem Edge.positionFromFaces?_eq (a b : Face) :
    Edge.positionFromFaces? a b =
      some (match Edge.positionFromFaces a b with | some p => .ok p | none => .error a.axis) := by
  have h : ∀ a b : Face, (match Edge.positionFromFaces? a b, Edge.positionFromFaces a b with
    | some (.ok p), some q => decide (p = q)
    | some (.error x), none => decide (x = a.axis)
    | _, _ => false) = true := by decide +kernel
  specialize h a b
  revert h
  rcases Edge.positionFromFaces? a b with _ | _ | _ <;> rcases Edge.positionFromFaces a b with _ | _ <;> simp

theorem Edge.rotate?_eq (e : Edge) (r : AxisRotation) : e.rotate? r = some (e.rotated r) := by
  revert e r; decide +kernel

theorem Edge.directionOnAxis?_eq (p : Edge.Pos) (a : Axis) :
    Edge.directionOnAxis? p a = some (Edge.directionOnAxis p a) := by
  revert p a; decide +kernel

theorem CenterEdge.sideFace?_eq (c : CenterEdge) : c.sideFace? = some c.sideFace := by
  revert c; decide +kernel

theorem CenterEdge.normalAxis?_eq (c : CenterEdge) : c.normalAxis? = some c.normalAxis := by
  revert c; decide +kernel

theorem CenterEdge.rotate?_eq (c : CenterEdge) (r : AxisRotation) : c.rotate? r = some (c.rotated r) := by
  revert c r; decide +kernel

theorem CenterWing.normal_axis_of_ne (c : CenterWing) (f : Face)
    (h : ¬ (c.mainFace.axis = f.axis ∨ c.sideFace.axis = f.axis)) : c.normalAxis = f.axis := by
  revert c f; decide +kernel

theorem CenterWing.isInWideMove?_eq {M : Nat} (c : CenterWing) (nd td : Nat) (m : WideAxisMove M) :
    c.isInWideMove? nd td m = some (DepthPiece.isInWideMove c nd td m) := by
  unfold CenterWing.isInWideMove?
  show _ = some (if _ then _ else _)
  split_ifs <;> try rfl
  exact absurd (CenterWing.normal_axis_of_ne c m.face ‹_›) ‹_›

theorem movedWidened?_eq {C : Type} (W : Nat) [Movable C (WideAxisMove W)] (c : C) (m : AxisMove) :
    movedWidened? W c m = some (movedWidened W c m) := by
  simp [movedWidened?, movedWidened, AxisMove.widen, WideAxisMove.new]

theorem movedWidened_def {C : Type} (W : Nat) [Movable C (WideAxisMove W)] (c : C) (m : AxisMove) :
    movedWidened W c m = moved c (⟨W, m⟩ : WideAxisMove W) := by
  simp [movedWidened, AxisMove.widen, WideAxisMove.new]

/-! ## Rotations about one axis add up -/

/-- Two rotations about the same axis compose by adding the amounts. -/
class LawfulRotatable (P : Type) [Rotatable P] : Prop where
  rot_add : ∀ (p : P) (a : Axis) (x y : Amount),
    rotated (rotated p ⟨a, x⟩) ⟨a, y⟩ = match x.add y with
      | none => p
      | some z => rotated p ⟨a, z⟩

instance : LawfulRotatable Face := ⟨by decide +kernel⟩
instance : LawfulRotatable Vec3 := ⟨by decide +kernel⟩
instance : LawfulRotatable Axis := ⟨by decide +kernel⟩
instance : LawfulRotatable AxisMove := ⟨by decide +kernel⟩
instance : LawfulRotatable Corner := ⟨by decide +kernel⟩
instance : LawfulRotatable Edge := ⟨by decide +kernel⟩
instance : LawfulRotatable Wing := ⟨by decide +kernel⟩
instance : LawfulRotatable CenterCorner := ⟨by decide +kernel⟩
instance : LawfulRotatable CenterEdge := ⟨by decide +kernel⟩
instance : LawfulRotatable CenterWing := ⟨by decide +kernel⟩

end Barbarosa
