import Verif.Spec.Orientable
import Verif.Props.Geometry
import Verif.Props.Stickers
import Verif.Props.Moves
import Mathlib.Tactic.LinearCombination
import Mathlib.Tactic.Linarith

/-!
# Lemmas about orientations and orientable cubes
-/

namespace Barbarosa

/-! ## Linearity -/

/-- a map of space that is determined by the images of the three unit vectors -/
structure Linear (f : Z3 → Z3) : Prop where
  expand : ∀ p, f p = (((f ⟨1, 0, 0⟩).smul p.x).add ((f ⟨0, 1, 0⟩).smul p.y)).add ((f ⟨0, 0, 1⟩).smul p.z)

theorem Linear.congr {f g : Z3 → Z3} (hf : Linear f) (hg : Linear g) (hx : f ⟨1, 0, 0⟩ = g ⟨1, 0, 0⟩)
    (hy : f ⟨0, 1, 0⟩ = g ⟨0, 1, 0⟩) (hz : f ⟨0, 0, 1⟩ = g ⟨0, 0, 1⟩) (p : Z3) : f p = g p := by
  rw [hf.expand, hg.expand, hx, hy, hz]

theorem linear_id : Linear fun p => p := ⟨fun p => by ext <;> simp [Z3.add, Z3.smul]⟩

theorem linear_place (o : Orientation) : Linear o.place :=
  ⟨fun p => by ext <;> simp [Orientation.place, Z3.add, Z3.smul]⟩

theorem Linear.map_add {f : Z3 → Z3} (h : Linear f) (p q : Z3) : f (p.add q) = (f p).add (f q) := by
  rw [h.expand (p.add q), h.expand p, h.expand q]
  ext <;> simp only [Z3.add, Z3.smul] <;> ring

theorem Linear.map_smul {f : Z3 → Z3} (h : Linear f) (a : Int) (p : Z3) : f (p.smul a) = (f p).smul a := by
  rw [h.expand (p.smul a), h.expand p]
  ext <;> simp only [Z3.add, Z3.smul] <;> ring

theorem Linear.comp {f g : Z3 → Z3} (hf : Linear f) (hg : Linear g) : Linear fun p => f (g p) :=
  ⟨fun p => by
    show f (g p) = _
    rw [hg.expand p, hf.map_add, hf.map_add, hf.map_smul, hf.map_smul, hf.map_smul]⟩

theorem linear_quarter (a : Axis) : Linear (Z3.quarter a) := by
  cases a <;> exact ⟨fun p => by ext <;> simp [Z3.quarter, Z3.add, Z3.smul]⟩

theorem linear_iterate {f : Z3 → Z3} (h : Linear f) : ∀ n : Nat, Linear (f^[n])
  | 0 => linear_id
  | n + 1 => by
    have := (linear_iterate h n).comp h
    exact this

theorem linear_rot (r : AxisRotation) : Linear (Z3.rot r) := linear_iterate (linear_quarter r.axis) _

theorem linear_turnOf (m : AxisMove) : Linear (turnOf m) := by
  have : turnOf m = Z3.rot (AxisRotation.ofMove m) := funext fun p => (C57_rotation_of_move m p).symm
  rw [this]; exact linear_rot _

/-! ## Orientations -/

/-- the 24 orientations -/
theorem rotate_table : ∀ (o : Orientation) (r : AxisRotation), ∃ o', o.rotate? r = some o' ∧
    o'.place ⟨1, 0, 0⟩ = Z3.rot r (o.place ⟨1, 0, 0⟩) ∧ o'.place ⟨0, 1, 0⟩ = Z3.rot r (o.place ⟨0, 1, 0⟩) ∧
    o'.place ⟨0, 0, 1⟩ = Z3.rot r (o.place ⟨0, 0, 1⟩) ∧ o'.rotate? r.inverse = some o := by decide +kernel

theorem place_rotate {o o' : Orientation} {r : AxisRotation} (h : o.rotate? r = some o') (p : Z3) :
    o'.place p = Z3.rot r (o.place p) := by
  obtain ⟨o'', h', hx, hy, hz, -⟩ := rotate_table o r
  cases h.symm.trans h'
  exact (linear_place o').congr ((linear_rot r).comp (linear_place o)) hx hy hz p

theorem rotate_undo {o o' : Orientation} {r : AxisRotation} (h : o.rotate? r = some o') : o'.rotate? r.inverse = some o := by
  obtain ⟨o'', h', -, -, -, hu⟩ := rotate_table o r
  cases h.symm.trans h'
  exact hu

theorem rotate_isSome (o : Orientation) (r : AxisRotation) : ∃ o', o.rotate? r = some o' := by
  obtain ⟨o', h, -⟩ := rotate_table o r
  exact ⟨o', h⟩

/-- conjugating a turn by an orientation -/
theorem conj_table : ∀ (o : Orientation) (m m' : AxisMove), m'.amount = m.amount → o.place m'.face.normal = m.face.normal →
    o.place (turnOf m' ⟨1, 0, 0⟩) = turnOf m (o.place ⟨1, 0, 0⟩) ∧
    o.place (turnOf m' ⟨0, 1, 0⟩) = turnOf m (o.place ⟨0, 1, 0⟩) ∧
    o.place (turnOf m' ⟨0, 0, 1⟩) = turnOf m (o.place ⟨0, 0, 1⟩) := by decide +kernel

theorem place_turn {o : Orientation} {m m' : AxisMove} (ha : m'.amount = m.amount) (hn : o.place m'.face.normal = m.face.normal)
    (p : Z3) : o.place (turnOf m' p) = turnOf m (o.place p) := by
  obtain ⟨hx, hy, hz⟩ := conj_table o m m' ha hn
  exact ((linear_place o).comp (linear_turnOf m')).congr ((linear_turnOf m).comp (linear_place o)) hx hy hz p

/-- an orientation keeps scalar products -/
theorem place_dot (o : Orientation) (p q : Z3) : (o.place p).dot (o.place q) = p.dot q := by
  have h : ∀ o : Orientation,
      (o.place ⟨1, 0, 0⟩).dot (o.place ⟨1, 0, 0⟩) = 1 ∧ (o.place ⟨0, 1, 0⟩).dot (o.place ⟨0, 1, 0⟩) = 1 ∧
      (o.place ⟨0, 0, 1⟩).dot (o.place ⟨0, 0, 1⟩) = 1 ∧ (o.place ⟨1, 0, 0⟩).dot (o.place ⟨0, 1, 0⟩) = 0 ∧
      (o.place ⟨1, 0, 0⟩).dot (o.place ⟨0, 0, 1⟩) = 0 ∧ (o.place ⟨0, 1, 0⟩).dot (o.place ⟨0, 0, 1⟩) = 0 := by decide +kernel
  obtain ⟨h1, h2, h3, h4, h5, h6⟩ := h o
  rw [(linear_place o).expand p, (linear_place o).expand q]
  generalize o.place ⟨1, 0, 0⟩ = a at *
  generalize o.place ⟨0, 1, 0⟩ = b at *
  generalize o.place ⟨0, 0, 1⟩ = c at *
  simp only [Z3.dot, Z3.add, Z3.smul] at *
  linear_combination (p.x * q.x) * h1 + (p.y * q.y) * h2 + (p.z * q.z) * h3 + (p.x * q.y + p.y * q.x) * h4 +
    (p.x * q.z + p.z * q.x) * h5 + (p.y * q.z + p.z * q.y) * h6

/-- the point that an orientation puts at a place -/
def Orientation.unplace (o : Orientation) (p : Z3) : Z3 :=
  ⟨p.dot o.rFace.normal, p.dot o.uFace.normal, p.dot (o.rFace.normal.cross o.uFace.normal)⟩

theorem linear_unplace (o : Orientation) : Linear o.unplace :=
  ⟨fun p => by ext <;> simp [Orientation.unplace, Z3.dot, Z3.add, Z3.smul]⟩

theorem unplace_table : ∀ o : Orientation,
    (o.unplace (o.place ⟨1, 0, 0⟩) = ⟨1, 0, 0⟩ ∧ o.unplace (o.place ⟨0, 1, 0⟩) = ⟨0, 1, 0⟩ ∧
      o.unplace (o.place ⟨0, 0, 1⟩) = ⟨0, 0, 1⟩) ∧
    o.place (o.unplace ⟨1, 0, 0⟩) = ⟨1, 0, 0⟩ ∧ o.place (o.unplace ⟨0, 1, 0⟩) = ⟨0, 1, 0⟩ ∧
      o.place (o.unplace ⟨0, 0, 1⟩) = ⟨0, 0, 1⟩ := by decide +kernel

theorem unplace_place (o : Orientation) (p : Z3) : o.unplace (o.place p) = p := by
  obtain ⟨⟨h1, h2, h3⟩, -⟩ := unplace_table o
  exact ((linear_unplace o).comp (linear_place o)).congr linear_id h1 h2 h3 p

theorem place_unplace (o : Orientation) (p : Z3) : o.place (o.unplace p) = p := by
  obtain ⟨-, h1, h2, h3⟩ := unplace_table o
  exact ((linear_place o).comp (linear_unplace o)).congr linear_id h1 h2 h3 p

theorem place_inj {o : Orientation} {p q : Z3} (h : o.place p = o.place q) : p = q := by
  rw [← unplace_place o p, h, unplace_place]

theorem normal_inj : ∀ f g : Face, f.normal = g.normal → f = g := by decide +kernel

/-- the face that an orientation puts at a place -/
theorem place_face_surj : ∀ (o : Orientation) (f : Face), ∃ g : Face, o.place g.normal = f.normal := by decide +kernel

theorem place_face_image : ∀ (o : Orientation) (f : Face), ∃ g : Face, o.place f.normal = g.normal := by decide +kernel

theorem onCube_iff (s : Facelet) : s.OnCube ↔
    (s.point.dot s.point ≤ 3 ∧ s.point.dot s.face.normal = 1) := by
  obtain ⟨⟨x, y, z⟩, f⟩ := s
  unfold Facelet.OnCube
  simp only [Z3.dot]
  constructor
  · rintro ⟨⟨h1, h2⟩, ⟨h3, h4⟩, ⟨h5, h6⟩, h⟩
    refine ⟨?_, h⟩
    nlinarith
  · rintro ⟨h, h'⟩
    refine ⟨?_, ?_, ?_, h'⟩ <;> constructor <;> nlinarith

theorem seenAt_onCube {o : Orientation} {t s : Facelet} (h : Facelet.SeenAt o t s) : s.OnCube ↔ t.OnCube := by
  rw [onCube_iff, onCube_iff, h.1, h.2, place_dot, place_dot]

theorem seenAt_exists (o : Orientation) (s : Facelet) : ∃ t, Facelet.SeenAt o t s := by
  obtain ⟨g, hg⟩ := place_face_surj o s.face
  exact ⟨⟨o.unplace s.point, g⟩, (place_unplace o _).symm, hg.symm⟩

theorem seenAt_unique {o : Orientation} {t t' s : Facelet} (h : Facelet.SeenAt o t s) (h' : Facelet.SeenAt o t' s) : t = t' := by
  cases t; cases t'
  obtain ⟨h1, h2⟩ := h
  obtain ⟨h3, h4⟩ := h'
  cases place_inj (h1.symm.trans h3)
  cases normal_inj _ _ (place_inj (h2.symm.trans h4))
  rfl

/-- a turn of the face that is brought to a place looks like the turn of that place -/
theorem carries_conj {o : Orientation} {m m' : AxisMove} (ha : m'.amount = m.amount)
    (hn : o.place m'.face.normal = m.face.normal) {t t' s s' : Facelet} (h : Facelet.SeenAt o t s)
    (h' : Facelet.SeenAt o t' s') : Facelet.Carries m' t t' ↔ Facelet.Carries m s s' := by
  have hl : s.InLayer m ↔ t.InLayer m' := by
    unfold Facelet.InLayer
    rw [h.1, ← hn, place_dot]
  unfold Facelet.Carries
  by_cases hi : t.InLayer m'
  · rw [if_pos hi, if_pos (hl.mpr hi), h'.1, h'.2, h.1, h.2, ← place_turn ha hn, ← place_turn ha hn]
    exact ⟨fun ⟨a, b⟩ => ⟨by rw [a], by rw [b]⟩, fun ⟨a, b⟩ => ⟨place_inj a, place_inj b⟩⟩
  · rw [if_neg hi, if_neg (mt hl.mp hi)]
    constructor
    · rintro rfl
      cases s; cases s'
      obtain ⟨h1, h2⟩ := h
      obtain ⟨h3, h4⟩ := h'
      simp only at *
      rw [h1, h3, normal_inj _ _ (h2.trans h4.symm)]
    · rintro rfl
      exact seenAt_unique h' h

end Barbarosa
