import Verif.Spec.BigCubes
import Verif.Lemmas.Moves
import Mathlib.Tactic.Ring

/-!
# Wide turns of single pieces, for cubes of every size
-/

namespace Barbarosa

theorem quarter_lin (x : Axis) (a b c : Int) (p q r : Z3) :
    Z3.quarter x (((p.smul a).add (q.smul b)).add (r.smul c)) =
      (((Z3.quarter x p).smul a).add ((Z3.quarter x q).smul b)).add ((Z3.quarter x r).smul c) := by
  cases x <;> ext <;> simp only [Z3.quarter, Z3.add, Z3.smul] <;> ring

theorem quarter_iter_lin (n : Nat) (x : Axis) (a b c : Int) (p q r : Z3) :
    (Z3.quarter x)^[n] (((p.smul a).add (q.smul b)).add (r.smul c)) =
      ((((Z3.quarter x)^[n] p).smul a).add (((Z3.quarter x)^[n] q).smul b)).add (((Z3.quarter x)^[n] r).smul c) := by
  induction n generalizing p q r with
  | zero => rfl
  | succ n ih => rw [Function.iterate_succ_apply, quarter_lin, ih]; rfl

/-- turns are linear -/
theorem turnOf_lin (m : AxisMove) (a b c : Int) (p q r : Z3) :
    turnOf m (((p.smul a).add (q.smul b)).add (r.smul c)) =
      (((turnOf m p).smul a).add ((turnOf m q).smul b)).add ((turnOf m r).smul c) := by
  unfold turnOf
  cases m.face.direction <;> exact quarter_iter_lin _ _ _ _ _ _ _ _

theorem dot_lin (n : Z3) (a b c : Int) (p q r : Z3) :
    (((p.smul a).add (q.smul b)).add (r.smul c)).dot n = a * p.dot n + b * q.dot n + c * r.dot n := by
  simp only [Z3.dot, Z3.add, Z3.smul]
  ring

/-- the general scheme: a cell that is a combination of three vectors that turn with the piece -/
theorem wide_scheme {P : Type} (A B C : P → Z3) (cell : P → Z3) (a b c : Int)
    (hcell : ∀ p, cell p = (((A p).smul a).add ((B p).smul b)).add ((C p).smul c))
    (N d : Nat) (m : AxisMove) (p p' rp : P) (inside : Bool)
    (hp' : p' = if inside then rp else p)
    (hA : A rp = turnOf m (A p)) (hB : B rp = turnOf m (B p)) (hC : C rp = turnOf m (C p))
    (hin : inside = true ↔ (N : Int) - 1 - 2 * d ≤ a * (A p).dot m.face.normal + b * (B p).dot m.face.normal + c * (C p).dot m.face.normal) :
    cell p' = wideTurn N d m (cell p) := by
  have hin' : inside = true ↔ InLayers N d m.face (cell p) := by
    unfold InLayers
    rw [hcell p, dot_lin]
    exact hin
  unfold wideTurn
  by_cases h : inside = true
  · rw [if_pos (hin'.1 h), hp', if_pos h, hcell p, turnOf_lin, ← hA, ← hB, ← hC, hcell]
  · rw [if_neg (fun h' => h (hin'.2 h')), hp', if_neg h]

/-! ### the vectors of each kind of piece -/

def zero3 : Z3 := ⟨0, 0, 0⟩

theorem turnOf_zero : ∀ m, turnOf m zero3 = zero3 := by decide +kernel

def Edge.outer (e : Edge) : Z3 := e.faces.1.normal.add e.faces.2.normal
def Wing.outer (w : Wing) : Z3 := w.faces.1.normal.add w.faces.2.normal
def Wing.along (w : Wing) : Z3 := Face.normal ⟨w.normalAxis, w.normalDirection⟩
def CenterWing.along (w : CenterWing) : Z3 := Face.normal ⟨w.normalAxis, w.normalDirection⟩

theorem corner_vec : ∀ (m : AxisMove) (c : Corner),
    (c.rotated (AxisRotation.ofMove m)).position.point = turnOf m c.position.point ∧
    (if m.face.containsVector c.position then c.position.point.dot m.face.normal = 1
     else c.position.point.dot m.face.normal = -1) := by decide +kernel

theorem edge_vec : ∀ (m : AxisMove) (e : Edge),
    (e.rotated (AxisRotation.ofMove m)).outer = turnOf m e.outer ∧
    (if m.face.containsEdge e then e.outer.dot m.face.normal = 1
     else e.outer.dot m.face.normal ≤ 0 ∧ -1 ≤ e.outer.dot m.face.normal) := by decide +kernel

theorem wing_vec : ∀ (m : AxisMove) (w : Wing),
    (Rotatable.rotated w (AxisRotation.ofMove m)).outer = turnOf m w.outer ∧
    (Rotatable.rotated w (AxisRotation.ofMove m)).along = turnOf m w.along ∧
    (if m.face.containsEdge w.correspondingEdge then w.outer.dot m.face.normal = 1 ∧ w.along.dot m.face.normal = 0
     else if w.correspondingEdge.normalAxis = m.face.axis then
       w.outer.dot m.face.normal = 0 ∧ w.along.dot m.face.normal = if m.face.direction = w.normalDirection then 1 else -1
     else w.outer.dot m.face.normal = -1 ∧ w.along.dot m.face.normal = 0) := by decide +kernel

theorem centerCorner_vec : ∀ (m : AxisMove) (w : CenterCorner),
    (Rotatable.rotated w (AxisRotation.ofMove m)).mainFace.normal = turnOf m w.mainFace.normal ∧
    (Rotatable.rotated w (AxisRotation.ofMove m)).position.point = turnOf m w.position.point ∧
    (if w.position.at m.face.axis = m.face.direction then
       w.position.point.dot m.face.normal = 1 ∧ w.mainFace.normal.dot m.face.normal = if w.axis = m.face.axis then 1 else 0
     else w.position.point.dot m.face.normal = -1 ∧
       w.mainFace.normal.dot m.face.normal = if w.axis = m.face.axis then -1 else 0) := by decide +kernel

theorem centerEdge_vec : ∀ (m : AxisMove) (w : CenterEdge),
    (Rotatable.rotated w (AxisRotation.ofMove m)).mainFace.normal = turnOf m w.mainFace.normal ∧
    (Rotatable.rotated w (AxisRotation.ofMove m)).sideFace.normal = turnOf m w.sideFace.normal ∧
    (if m.face = w.mainFace then w.mainFace.normal.dot m.face.normal = 1 ∧ w.sideFace.normal.dot m.face.normal = 0
     else if m.face = w.sideFace then w.mainFace.normal.dot m.face.normal = 0 ∧ w.sideFace.normal.dot m.face.normal = 1
     else (w.mainFace.normal.dot m.face.normal = 0 ∧ w.sideFace.normal.dot m.face.normal = 0) ∨
       (w.mainFace.normal.dot m.face.normal = -1 ∧ w.sideFace.normal.dot m.face.normal = 0) ∨
       (w.mainFace.normal.dot m.face.normal = 0 ∧ w.sideFace.normal.dot m.face.normal = -1)) := by decide +kernel

theorem centerWing_vec : ∀ (m : AxisMove) (w : CenterWing),
    (Rotatable.rotated w (AxisRotation.ofMove m)).mainFace.normal = turnOf m w.mainFace.normal ∧
    (Rotatable.rotated w (AxisRotation.ofMove m)).sideFace.normal = turnOf m w.sideFace.normal ∧
    (Rotatable.rotated w (AxisRotation.ofMove m)).along = turnOf m w.along ∧
    (if w.mainFace = m.face then w.mainFace.normal.dot m.face.normal = 1 ∧ w.sideFace.normal.dot m.face.normal = 0 ∧
        w.along.dot m.face.normal = 0
     else if w.sideFace = m.face then w.mainFace.normal.dot m.face.normal = 0 ∧ w.sideFace.normal.dot m.face.normal = 1 ∧
        w.along.dot m.face.normal = 0
     else if w.mainFace.axis = m.face.axis ∨ w.sideFace.axis = m.face.axis then
       w.along.dot m.face.normal = 0 ∧ (w.mainFace.normal.dot m.face.normal, w.sideFace.normal.dot m.face.normal) ∈
         [((-1 : Int), (0 : Int)), (0, -1)]
     else w.mainFace.normal.dot m.face.normal = 0 ∧ w.sideFace.normal.dot m.face.normal = 0 ∧
        w.along.dot m.face.normal = if w.normalDirection = m.face.direction then 1 else -1) := by decide +kernel

/-! ### wide turns -/

theorem wing_isIn {M : Nat} (w : Wing) (k d : Nat) (m : AxisMove) :
    DepthPiece.isInWideMove w k 0 (⟨d, m⟩ : WideAxisMove M) =
      if m.face.containsEdge w.correspondingEdge then true
      else if w.correspondingEdge.normalAxis = m.face.axis then
        if k ≤ d ∧ m.face.direction = w.normalDirection then true else false
      else false := rfl

theorem centerCorner_isIn {M : Nat} (c : CenterCorner) (k d : Nat) (m : AxisMove) :
    DepthPiece.isInWideMove c k 0 (⟨d, m⟩ : WideAxisMove M) =
      if c.position.at m.face.axis = m.face.direction then
        if k ≤ d then true else if c.axis = m.face.axis then true else false
      else false := rfl

theorem centerEdge_isIn {M : Nat} (c : CenterEdge) (k d : Nat) (m : AxisMove) :
    DepthPiece.isInWideMove c k 0 (⟨d, m⟩ : WideAxisMove M) =
      if m.face = c.mainFace then true else if m.face = c.sideFace ∧ k ≤ M then true else false := rfl

theorem centerWing_isIn {M : Nat} (c : CenterWing) (k t d : Nat) (m : AxisMove) :
    DepthPiece.isInWideMove c k t (⟨d, m⟩ : WideAxisMove M) =
      if c.mainFace = m.face then true
      else if c.sideFace = m.face then decide (k ≤ d)
      else if c.mainFace.axis = m.face.axis ∨ c.sideFace.axis = m.face.axis then false
      else decide (c.normalDirection = m.face.direction ∧ t ≤ d) := rfl

theorem corner_wide (N d : Nat) (hd : d + 1 < N) (c : Corner) (m : AxisMove) :
    (moved c m).cell N = wideTurn N d m (c.cell N) := by
  obtain ⟨h1, h2⟩ := corner_vec m c
  refine wide_scheme (fun c : Corner => c.position.point) (fun _ => zero3) (fun _ => zero3) (Corner.cell N) (N - 1) 0 0
    (fun p => ?_) N d m c _ (c.rotated (AxisRotation.ofMove m)) (m.face.containsVector c.position) rfl h1
    (turnOf_zero m).symm (turnOf_zero m).symm ?_
  · ext <;> simp [Corner.cell, Z3.add, Z3.smul, zero3]
  · revert h2
    split <;> intro h2 <;> rename_i hb <;> simp only [hb, h2] <;> simp <;> omega

theorem edge_wide (N d : Nat) (hd : d + 1 < N) (hmid : 2 * d + 1 < N) (e : Edge) (m : AxisMove) :
    (moved e m).cell N = wideTurn N d m (e.cell N) := by
  obtain ⟨h1, h2⟩ := edge_vec m e
  refine wide_scheme Edge.outer (fun _ => zero3) (fun _ => zero3) (Edge.cell N) (N - 1) 0 0
    (fun p => ?_) N d m e _ (e.rotated (AxisRotation.ofMove m)) (m.face.containsEdge e) rfl h1
    (turnOf_zero m).symm (turnOf_zero m).symm ?_
  · ext <;> simp [Edge.cell, Z3.add, Z3.smul, zero3, Edge.outer]
  · revert h2
    split <;> intro h2 <;> rename_i hb
    · simp only [hb, h2]; simp; omega
    · have h3 : e.outer.dot m.face.normal = 0 ∨ e.outer.dot m.face.normal = -1 := by omega
      rcases h3 with h3 | h3 <;> simp only [hb, h3] <;> simp <;> omega

theorem wing_wide {M : Nat} (N k d : Nat) (hk : 2 * k + 2 ≤ N) (hd : 2 * d + 2 ≤ N) (w : Wing) (m : AxisMove) :
    (DepthPiece.moved k 0 w (⟨d, m⟩ : WideAxisMove M)).cell N k = wideTurn N d m (w.cell N k) := by
  obtain ⟨h1, h2, h3⟩ := wing_vec m w
  refine wide_scheme Wing.outer Wing.along (fun _ => zero3) (Wing.cell N k) (N - 1) (N - 1 - 2 * k) 0
    (fun p => ?_) N d m w _ (Rotatable.rotated w (AxisRotation.ofMove m))
    (DepthPiece.isInWideMove w k 0 (⟨d, m⟩ : WideAxisMove M)) rfl h1 h2 (turnOf_zero m).symm ?_
  · ext <;> simp [Wing.cell, Z3.add, Z3.smul, zero3, Wing.outer, Wing.along]
  · rw [wing_isIn]
    revert h3
    split
    · rintro ⟨a1, a2⟩; rw [a1, a2]; exact iff_of_true rfl (by omega)
    · split
      · by_cases hdir : m.face.direction = w.normalDirection
        · rw [if_pos hdir]
          rintro ⟨a1, a2⟩; rw [a1, a2]
          by_cases hkd : k ≤ d
          · rw [if_pos ⟨hkd, hdir⟩]; exact iff_of_true rfl (by omega)
          · rw [if_neg (fun h => hkd h.1)]; exact iff_of_false (by simp) (by omega)
        · rw [if_neg hdir, if_neg (fun h => hdir h.2)]
          rintro ⟨a1, a2⟩; rw [a1, a2]
          exact iff_of_false (by simp) (by omega)
      · rintro ⟨a1, a2⟩; rw [a1, a2]; exact iff_of_false (by simp) (by omega)

theorem centerCorner_wide {M : Nat} (N k d : Nat) (hk : 2 * k + 2 ≤ N) (hd : 2 * d + 2 ≤ N) (w : CenterCorner) (m : AxisMove) :
    (DepthPiece.moved k 0 w (⟨d, m⟩ : WideAxisMove M)).cell N k = wideTurn N d m (w.cell N k) := by
  obtain ⟨h1, h2, h3⟩ := centerCorner_vec m w
  refine wide_scheme (fun w : CenterCorner => w.mainFace.normal) (fun w => w.position.point) (fun _ => zero3)
    (CenterCorner.cell N k) (2 * k) (N - 1 - 2 * k) 0
    (fun p => ?_) N d m w _ (Rotatable.rotated w (AxisRotation.ofMove m))
    (DepthPiece.isInWideMove w k 0 (⟨d, m⟩ : WideAxisMove M)) rfl h1 h2 (turnOf_zero m).symm ?_
  · ext <;> simp [CenterCorner.cell, Z3.add, Z3.smul, zero3]
  · rw [centerCorner_isIn]
    revert h3
    split
    · by_cases ha : w.axis = m.face.axis
      · simp only [if_pos ha, ite_self]
        rintro ⟨a1, a2⟩; rw [a1, a2]; exact iff_of_true trivial (by omega)
      · simp only [if_neg ha]
        rintro ⟨a1, a2⟩; rw [a1, a2]
        by_cases hkd : k ≤ d
        · rw [if_pos hkd]; exact iff_of_true rfl (by omega)
        · rw [if_neg hkd]; exact iff_of_false (by simp) (by omega)
    · split <;> rintro ⟨a1, a2⟩ <;> rw [a1, a2] <;> exact iff_of_false (by simp) (by omega)

/-- center edges: whatever the depth of the move, the code compares with the maximum depth `M` -/
theorem centerEdge_wide {M : Nat} (N k d : Nat) (hk : 2 * k + 3 ≤ N) (hM : 2 * M + 3 ≤ N) (w : CenterEdge)
    (m : AxisMove) :
    (DepthPiece.moved k 0 w (⟨d, m⟩ : WideAxisMove M)).cell N k = wideTurn N M m (w.cell N k) := by
  obtain ⟨h1, h2, h3⟩ := centerEdge_vec m w
  refine wide_scheme (fun w : CenterEdge => w.mainFace.normal) (fun w => w.sideFace.normal) (fun _ => zero3)
    (CenterEdge.cell N k) (N - 1) (N - 1 - 2 * k) 0
    (fun p => ?_) N M m w _ (Rotatable.rotated w (AxisRotation.ofMove m))
    (DepthPiece.isInWideMove w k 0 (⟨d, m⟩ : WideAxisMove M)) rfl h1 h2 (turnOf_zero m).symm ?_
  · ext <;> simp [CenterEdge.cell, Z3.add, Z3.smul, zero3]
  · rw [centerEdge_isIn]
    revert h3
    split
    · rintro ⟨a1, a2⟩; rw [a1, a2]; exact iff_of_true rfl (by omega)
    · by_cases hs : m.face = w.sideFace
      · rw [if_pos hs]
        rintro ⟨a1, a2⟩; rw [a1, a2]
        by_cases hkd : k ≤ M
        · rw [if_pos ⟨hs, hkd⟩]; exact iff_of_true rfl (by omega)
        · rw [if_neg (fun h => hkd h.2)]; exact iff_of_false (by simp) (by omega)
      · rw [if_neg hs, if_neg (fun h => hs h.1)]
        rintro (⟨a1, a2⟩ | ⟨a1, a2⟩ | ⟨a1, a2⟩) <;> rw [a1, a2] <;> exact iff_of_false (by simp) (by omega)

theorem centerWing_wide {M : Nat} (N k t d : Nat) (hk : 2 * k + 2 ≤ N) (ht : 2 * t + 2 ≤ N) (hd : 2 * d + 2 ≤ N)
    (w : CenterWing) (m : AxisMove) :
    (DepthPiece.moved k t w (⟨d, m⟩ : WideAxisMove M)).cell N k t = wideTurn N d m (w.cell N k t) := by
  obtain ⟨h1, h2, h3, h4⟩ := centerWing_vec m w
  refine wide_scheme (fun w : CenterWing => w.mainFace.normal) (fun w => w.sideFace.normal) CenterWing.along
    (CenterWing.cell N k t) (N - 1) (N - 1 - 2 * k) (N - 1 - 2 * t)
    (fun p => ?_) N d m w _ (Rotatable.rotated w (AxisRotation.ofMove m))
    (DepthPiece.isInWideMove w k t (⟨d, m⟩ : WideAxisMove M)) rfl h1 h2 h3 ?_
  · ext <;> simp [CenterWing.cell, Z3.add, Z3.smul, CenterWing.along]
  · rw [centerWing_isIn]
    revert h4
    split
    · rintro ⟨a1, a2, a3⟩; rw [a1, a2, a3]; exact iff_of_true rfl (by omega)
    · split
      · rintro ⟨a1, a2, a3⟩; rw [a1, a2, a3, decide_eq_true_iff]; omega
      · split
        · rintro ⟨a3, a4⟩
          simp only [List.mem_cons, Prod.mk.injEq, List.not_mem_nil, or_false] at a4
          rcases a4 with ⟨a1, a2⟩ | ⟨a1, a2⟩ <;> rw [a1, a2, a3] <;> exact iff_of_false (by simp) (by omega)
        · rintro ⟨a1, a2, a3⟩
          rw [a1, a2, a3, decide_eq_true_iff]
          split
          · rename_i hn
            simp only [hn, true_and]
            omega
          · rename_i hn
            exact iff_of_false (fun h => hn h.1) (by omega)

end Barbarosa
