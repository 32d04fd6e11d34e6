import Verif.Model.Vectors
import Verif.Props.Geometry

/-!
# C57: the conversions into vectors
-/

namespace Barbarosa

/-- **C57** Converting a face into a vector never overflows and gives the outward unit normal; `Face::coords` gives the same. The
vector of an axis is the unit vector of that axis, so it is 1 along the axis and 0 along the others. -/
theorem C57_conversions :
    (∀ f : Face, ∃ v, f.vector? = some v ∧ (⟨v.x.toInt, v.y.toInt, v.z.toInt⟩ : Z3) = f.normal ∧
      f.coords = (v.x.toInt, v.y.toInt, v.z.toInt)) ∧
    (∀ a : Axis, (⟨a.vector.x.toInt, a.vector.y.toInt, a.vector.z.toInt⟩ : Z3) = Z3.unit a) ∧
    ∀ a b : Axis, a.vector.at b = if a = b then 1 else 0 := by
  refine ⟨fun f => ?_, by decide +kernel, by decide +kernel⟩
  rcases f with ⟨_ | _ | _, _ | _⟩ <;> exact ⟨_, rfl, by decide +kernel, by decide +kernel⟩

/-- the front and the back -/
example : Face.F.vector? = some ⟨0, 0, 1⟩ ∧ Face.B.vector? = some ⟨0, 0, -1⟩ ∧ Face.B.normal = ⟨0, 0, -1⟩ := by decide +kernel

/-- **C57** Faces can be told apart by their vectors, and the vector of the rotated face is the rotated vector. -/
theorem C57_vectors_of_faces (f g : Face) (r : AxisRotation) :
    (f.vector? = g.vector? ↔ f = g) ∧
    ∃ v w, f.vector? = some v ∧ (rotated f r).vector? = some w ∧
      (⟨w.x.toInt, w.y.toInt, w.z.toInt⟩ : Z3) = Z3.rot r ⟨v.x.toInt, v.y.toInt, v.z.toInt⟩ := by
  obtain ⟨v, hv, hn, -⟩ := C57_conversions.1 f
  obtain ⟨w, hw, hm, -⟩ := C57_conversions.1 (rotated f r)
  refine ⟨⟨fun h => ?_, fun h => by rw [h]⟩, v, w, hv, hw, by rw [hn, hm, C57_face_rotated]⟩
  obtain ⟨u, hu, hk, -⟩ := C57_conversions.1 g
  rw [hv, hu] at h
  cases h
  exact C57_normal_injective (hn.symm.trans hk)

/-- `y'` takes the right face to the back, and its vector with it -/
example : ∃ w, (rotated Face.R (⟨.Y, .inverse⟩ : AxisRotation)).vector? = some w ∧
    (⟨w.x.toInt, w.y.toInt, w.z.toInt⟩ : Z3) = Z3.rot ⟨.Y, .inverse⟩ ⟨1, 0, 0⟩ := by
  obtain ⟨v, w, h1, h2, h3⟩ := (C57_vectors_of_faces Face.R Face.R ⟨.Y, .inverse⟩).2
  cases (show Face.R.vector? = some ⟨1, 0, 0⟩ by decide +kernel).symm.trans h1
  exact ⟨w, h2, h3⟩

end Barbarosa
