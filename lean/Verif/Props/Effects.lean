import Verif.Spec.Systems
import Verif.Props.Invariants
import Verif.Props.Lower
import Mathlib.Dynamics.PeriodicPts.Defs

/-!
# C84, C85: the effect of an alg

The solved cube shows what an alg does to every state, and long algs can be replaced by short ones.
-/

namespace Barbarosa

open PieceSet

/-- the states in which no two pieces share a place: all piece sets pass `validate` -/
class HasValid (C : Type) where
  valid : C → Prop

instance : HasValid Cube2 := ⟨Cube2.valid⟩
instance : HasValid Cube3 := ⟨Cube3.valid⟩
instance : HasValid Cube4 := ⟨Cube4.valid⟩
instance : HasValid Cube5 := ⟨Cube5.valid⟩
instance : HasValid Cube6 := ⟨Cube6.valid⟩
instance : HasValid Cube7 := ⟨Cube7.valid⟩

/-- A cube type, with its solved state and its valid states, and one of the move types it accepts -/
structure CubeSys where
  C : Type
  M : Type
  [cube : Cube C]
  [hasValid : HasValid C]
  [move : Move M]
  [movable : Movable C M]

attribute [instance] CubeSys.cube CubeSys.hasValid CubeSys.move CubeSys.movable

/-- all pairs of `moveSystems` -/
def cubeSystems : List CubeSys :=
  [⟨Cube2, AxisMove⟩, ⟨Cube3, AxisMove⟩, ⟨Cube4, AxisMove⟩, ⟨Cube5, AxisMove⟩, ⟨Cube6, AxisMove⟩, ⟨Cube7, AxisMove⟩,
   ⟨Cube2, WideAxisMove 0⟩, ⟨Cube3, WideAxisMove 0⟩, ⟨Cube4, WideAxisMove 0⟩, ⟨Cube5, WideAxisMove 0⟩,
   ⟨Cube6, WideAxisMove 0⟩, ⟨Cube7, WideAxisMove 0⟩,
   ⟨Cube2, QuarterAxisMove⟩, ⟨Cube3, QuarterAxisMove⟩, ⟨Cube4, QuarterAxisMove⟩, ⟨Cube5, QuarterAxisMove⟩,
   ⟨Cube6, QuarterAxisMove⟩, ⟨Cube7, QuarterAxisMove⟩,
   ⟨Cube2, NonRedundantAxisMove⟩, ⟨Cube3, NonRedundantAxisMove⟩, ⟨Cube4, NonRedundantAxisMove⟩,
   ⟨Cube5, NonRedundantAxisMove⟩, ⟨Cube6, NonRedundantAxisMove⟩, ⟨Cube7, NonRedundantAxisMove⟩,
   ⟨Cube4, WideAxisMove 1⟩, ⟨Cube5, WideAxisMove 1⟩, ⟨Cube6, WideAxisMove 1⟩, ⟨Cube7, WideAxisMove 1⟩,
   ⟨Cube6, WideAxisMove 2⟩, ⟨Cube7, WideAxisMove 2⟩]

/-- nothing is left out, and solved cubes are valid -/
theorem cubeSystems_complete : cubeSystems.map (fun s => (⟨s.C, s.M⟩ : MoveSys)) = moveSystems ∧
    ∀ s ∈ cubeSystems, HasValid.valid (Cube.SOLVED : s.C) := by
  refine ⟨rfl, ?_⟩
  simp only [cubeSystems, List.forall_mem_cons, List.not_mem_nil, false_imp_iff, implies_true, and_true]
  obtain ⟨h2, h3, h4, h5, h6, h7⟩ := C08_solved_valid
  exact ⟨h2, h3, h4, h5, h6, h7, h2, h3, h4, h5, h6, h7, h2, h3, h4, h5, h6, h7, h2, h3, h4, h5, h6, h7, h4, h5, h6, h7,
    h6, h7⟩

/-! ## Symmetries of the pieces -/

/-- turning a piece where it is: for corners a twist, for edges a flip, for the others (which have no orientation) nothing -/
class Turnable (P : Type) where
  turn : P → P

instance : Turnable Corner := ⟨fun c => ⟨c.position, Corner.nextAxis c.position c.orientationAxis⟩⟩
instance : Turnable Edge := ⟨fun e => { e with oriented := !e.oriented }⟩
instance : Turnable Wing := ⟨id⟩
instance : Turnable CenterCorner := ⟨id⟩
instance : Turnable CenterEdge := ⟨id⟩
instance : Turnable CenterWing := ⟨id⟩

/-- a way of moving pieces that does not depend on how they are turned -/
def Blind {P : Type} [Turnable P] (f : P → P) : Prop := ∀ p, f (Turnable.turn p) = Turnable.turn (f p)

theorem Blind.comp {P : Type} [Turnable P] {f g : P → P} (hf : Blind f) (hg : Blind g) : Blind (fun p => g (f p)) :=
  fun p => by simp only [hf p, hg (f p)]

theorem blind_id {P : Type} [Turnable P] : Blind (fun p : P => p) := fun _ => rfl

theorem Blind.iterate {P : Type} [Turnable P] {f : P → P} (hf : Blind f) (k : Nat) (p : P) :
    f (Turnable.turn^[k] p) = Turnable.turn^[k] (f p) := by
  induction k with
  | zero => rfl
  | succ k ih => rw [Function.iterate_succ_apply', Function.iterate_succ_apply', hf, ih]

/-- every piece is a piece of the array, turned some times -/
def Covers {P : Type} {n : Nat} [Turnable P] (s : PieceSet P n) : Prop := ∀ p, ∃ i, ∃ k < 3, p = Turnable.turn^[k] (s i)

theorem Blind.eq_of_covers {P : Type} {n : Nat} [Turnable P] {s : PieceSet P n} (hs : Covers s) {f g : P → P}
    (hf : Blind f) (hg : Blind g) (h : ∀ i, f (s i) = g (s i)) : f = g := by
  funext p
  obtain ⟨i, k, -, rfl⟩ := hs p
  rw [hf.iterate, hg.iterate, h]

theorem covers_of_valid {P : Type} {n : Nat} [DecidableEq P] [PieceSetDescriptor P n] [LawfulDescriptor P n] [Turnable P]
    (hP : ∀ p q : P, Piece.position p = Piece.position q → ∃ k < 3, p = Turnable.turn^[k] q) {s : PieceSet P n}
    (hs : s.validate = none) : Covers s := by
  intro p
  obtain ⟨i, hi⟩ := ((validate_eq_none s).1 hs).bijective.2 (Piece.position p)
  obtain ⟨k, hk, e⟩ := hP p (s i) hi.symm
  exact ⟨i, k, hk, e⟩

theorem corner_turns : ∀ p q : Corner, Piece.position p = Piece.position q → ∃ k < 3, p = Turnable.turn^[k] q := by
  show ∀ p q : Corner, p.position = q.position → _
  decide +kernel
theorem edge_turns : ∀ p q : Edge, Piece.position p = Piece.position q → ∃ k < 3, p = Turnable.turn^[k] q := by
  show ∀ p q : Edge, p.position = q.position → _
  decide +kernel
theorem wing_turns : ∀ p q : Wing, Piece.position p = Piece.position q → ∃ k < 3, p = Turnable.turn^[k] q :=
  fun _ _ h => ⟨0, by omega, h⟩
theorem centerCorner_turns : ∀ p q : CenterCorner, Piece.position p = Piece.position q → ∃ k < 3, p = Turnable.turn^[k] q :=
  fun _ _ h => ⟨0, by omega, h⟩
theorem centerEdge_turns : ∀ p q : CenterEdge, Piece.position p = Piece.position q → ∃ k < 3, p = Turnable.turn^[k] q :=
  fun _ _ h => ⟨0, by omega, h⟩
theorem centerWing_turns : ∀ p q : CenterWing, Piece.position p = Piece.position q → ∃ k < 3, p = Turnable.turn^[k] q :=
  fun _ _ h => ⟨0, by omega, h⟩

theorem corner_blind (m : AxisMove) : Blind (fun p : Corner => moved p m) := by unfold Blind; revert m; decide +kernel
theorem edge_blind (m : AxisMove) : Blind (fun p : Edge => moved p m) := by unfold Blind; revert m; decide +kernel

/-- the pieces of a cube are moved each by itself, without regard to how they are turned -/
class PieceByPiece (C : Type) [HasValid C] where
  Uniform : (C → C) → Prop
  nothing : Uniform fun c => c
  comp : ∀ {F G}, Uniform F → Uniform G → Uniform fun c => G (F c)
  determined : ∀ {F G c₀}, Uniform F → Uniform G → HasValid.valid c₀ → F c₀ = G c₀ → F = G

instance : PieceByPiece Cube2 where
  Uniform F := ∃ f : Corner → Corner, Blind f ∧ ∀ c, F c = ⟨fun i => f (c.corners i)⟩
  nothing := ⟨_, blind_id, fun _ => rfl⟩
  comp := by
    rintro F G ⟨f, hf, eF⟩ ⟨g, hg, eG⟩
    exact ⟨_, hf.comp hg, fun c => by simp only [eG, eF]⟩
  determined := by
    rintro F G c₀ ⟨f, hf, eF⟩ ⟨g, hg, eG⟩ v_corners h
    rw [eF, eG] at h
    have e := (Cube2.ext_iff.1 h)
    obtain rfl := hf.eq_of_covers (covers_of_valid corner_turns v_corners) hg fun i => congrFun e i
    funext c; rw [eF, eG]

instance : PieceByPiece Cube3 where
  Uniform F := ∃ (f : Corner → Corner) (f' : Edge → Edge), Blind f ∧ Blind f' ∧
    ∀ c, F c = ⟨fun i => f' (c.edges i), fun i => f (c.corners i)⟩
  nothing := ⟨_, _, blind_id, blind_id, fun _ => rfl⟩
  comp := by
    rintro F G ⟨f, f', hf, hf', eF⟩ ⟨g, g', hg, hg', eG⟩
    exact ⟨_, _, hf.comp hg, hf'.comp hg', fun c => by simp only [eG, eF]⟩
  determined := by
    rintro F G c₀ ⟨f, f', hf, hf', eF⟩ ⟨g, g', hg, hg', eG⟩ hv h
    obtain ⟨v_edges, v_corners⟩ := hv
    rw [eF, eG] at h
    obtain ⟨e1, e2⟩ := Cube3.ext_iff.1 h
    obtain rfl := hf.eq_of_covers (covers_of_valid corner_turns v_corners) hg fun i => congrFun e2 i
    obtain rfl := hf'.eq_of_covers (covers_of_valid edge_turns v_edges) hg' fun i => congrFun e1 i
    funext c; rw [eF, eG]

theorem blind_wing (f : Wing → Wing) : Blind f := fun _ => rfl
theorem blind_centerCorner (f : CenterCorner → CenterCorner) : Blind f := fun _ => rfl
theorem blind_centerEdge (f : CenterEdge → CenterEdge) : Blind f := fun _ => rfl
theorem blind_centerWing (f : CenterWing → CenterWing) : Blind f := fun _ => rfl

instance : PieceByPiece Cube4 where
  Uniform F := ∃ (f : Corner → Corner) (w : Wing → Wing) (t : CenterCorner → CenterCorner), Blind f ∧
    ∀ c, F c = ⟨fun i => f (c.corners i), fun i => w (c.wings i), fun i => t (c.centers i)⟩
  nothing := ⟨_, fun x => x, fun x => x, blind_id, fun _ => rfl⟩
  comp := by
    rintro F G ⟨f, w, t, hf, eF⟩ ⟨g, w', t', hg, eG⟩
    exact ⟨_, fun x => w' (w x), fun x => t' (t x), hf.comp hg, fun c => by simp only [eG, eF]⟩
  determined := by
    rintro F G c₀ ⟨f, w, t, hf, eF⟩ ⟨g, w', t', hg, eG⟩ hv h
    obtain ⟨v_corners, v_wings, v_centers⟩ := hv
    rw [eF, eG] at h
    obtain ⟨e1, e2, e3⟩ := Cube4.ext_iff.1 h
    obtain rfl := hf.eq_of_covers (covers_of_valid corner_turns v_corners) hg fun i => congrFun e1 i
    obtain rfl := (blind_wing w).eq_of_covers (covers_of_valid wing_turns v_wings) (blind_wing w') fun i => congrFun e2 i
    obtain rfl := (blind_centerCorner t).eq_of_covers (covers_of_valid centerCorner_turns v_centers) (blind_centerCorner t') fun i => congrFun e3 i
    funext c; rw [eF, eG]

instance : PieceByPiece Cube5 where
  Uniform F := ∃ (f : Corner → Corner) (e : Edge → Edge) (t : CenterCorner → CenterCorner) (u : CenterEdge → CenterEdge),
    Blind f ∧ Blind e ∧ ∀ c, F c = ⟨fun i => f (c.corners i), fun i => e (c.edges i), fun i => t (c.cornerCenters i),
      fun i => u (c.cornerEdges i)⟩
  nothing := ⟨_, _, fun x => x, fun x => x, blind_id, blind_id, fun _ => rfl⟩
  comp := by
    rintro F G ⟨f, e, t, u, hf, he, eF⟩ ⟨g, e', t', u', hg, he', eG⟩
    exact ⟨_, _, fun x => t' (t x), fun x => u' (u x), hf.comp hg, he.comp he', fun c => by simp only [eG, eF]⟩
  determined := by
    rintro F G c₀ ⟨f, e, t, u, hf, he, eF⟩ ⟨g, e', t', u', hg, he', eG⟩ hv h
    obtain ⟨v_corners, v_edges, v_cornerCenters, v_cornerEdges⟩ := hv
    rw [eF, eG] at h
    obtain ⟨e1, e2, e3, e4⟩ := Cube5.ext_iff.1 h
    obtain rfl := hf.eq_of_covers (covers_of_valid corner_turns v_corners) hg fun i => congrFun e1 i
    obtain rfl := he.eq_of_covers (covers_of_valid edge_turns v_edges) he' fun i => congrFun e2 i
    obtain rfl := (blind_centerCorner t).eq_of_covers (covers_of_valid centerCorner_turns v_cornerCenters) (blind_centerCorner t') fun i => congrFun e3 i
    obtain rfl := (blind_centerEdge u).eq_of_covers (covers_of_valid centerEdge_turns v_cornerEdges) (blind_centerEdge u') fun i => congrFun e4 i
    funext c; rw [eF, eG]

instance : PieceByPiece Cube6 where
  Uniform F := ∃ (f : Corner → Corner) (w1 w2 : Wing → Wing) (t1 t2 : CenterCorner → CenterCorner)
    (v : CenterWing → CenterWing), Blind f ∧ ∀ c, F c = ⟨fun i => f (c.corners i), fun i => w1 (c.wings1 i),
      fun i => w2 (c.wings2 i), fun i => t1 (c.centerCorners1 i), fun i => t2 (c.centerCorners2 i), fun i => v (c.centerWings i)⟩
  nothing := ⟨_, fun x => x, fun x => x, fun x => x, fun x => x, fun x => x, blind_id, fun _ => rfl⟩
  comp := by
    rintro F G ⟨f, w1, w2, t1, t2, v, hf, eF⟩ ⟨g, w1', w2', t1', t2', v', hg, eG⟩
    exact ⟨_, fun x => w1' (w1 x), fun x => w2' (w2 x), fun x => t1' (t1 x), fun x => t2' (t2 x), fun x => v' (v x),
      hf.comp hg, fun c => by simp only [eG, eF]⟩
  determined := by
    rintro F G c₀ ⟨f, w1, w2, t1, t2, v, hf, eF⟩ ⟨g, w1', w2', t1', t2', v', hg, eG⟩ hv h
    obtain ⟨v_corners, v_wings1, v_wings2, v_centerCorners1, v_centerCorners2, v_centerWings⟩ := hv
    rw [eF, eG] at h
    obtain ⟨e1, e2, e3, e4, e5, e6⟩ := Cube6.ext_iff.1 h
    obtain rfl := hf.eq_of_covers (covers_of_valid corner_turns v_corners) hg fun i => congrFun e1 i
    obtain rfl := (blind_wing w1).eq_of_covers (covers_of_valid wing_turns v_wings1) (blind_wing w1') fun i => congrFun e2 i
    obtain rfl := (blind_wing w2).eq_of_covers (covers_of_valid wing_turns v_wings2) (blind_wing w2') fun i => congrFun e3 i
    obtain rfl := (blind_centerCorner t1).eq_of_covers (covers_of_valid centerCorner_turns v_centerCorners1) (blind_centerCorner t1') fun i => congrFun e4 i
    obtain rfl := (blind_centerCorner t2).eq_of_covers (covers_of_valid centerCorner_turns v_centerCorners2) (blind_centerCorner t2') fun i => congrFun e5 i
    obtain rfl := (blind_centerWing v).eq_of_covers (covers_of_valid centerWing_turns v_centerWings) (blind_centerWing v') fun i => congrFun e6 i
    funext c; rw [eF, eG]

instance : PieceByPiece Cube7 where
  Uniform F := ∃ (f : Corner → Corner) (e : Edge → Edge) (w1 w2 : Wing → Wing) (t1 t2 : CenterCorner → CenterCorner)
    (v : CenterWing → CenterWing) (u1 u2 : CenterEdge → CenterEdge), Blind f ∧ Blind e ∧
    ∀ c, F c = ⟨fun i => f (c.corners i), fun i => e (c.edges i), fun i => w1 (c.wings1 i), fun i => w2 (c.wings2 i),
      fun i => t1 (c.centerCorners1 i), fun i => t2 (c.centerCorners2 i), fun i => v (c.centerWings i),
      fun i => u1 (c.centerEdges1 i), fun i => u2 (c.centerEdges2 i)⟩
  nothing := ⟨_, _, fun x => x, fun x => x, fun x => x, fun x => x, fun x => x, fun x => x, fun x => x,
    blind_id, blind_id, fun _ => rfl⟩
  comp := by
    rintro F G ⟨f, e, w1, w2, t1, t2, v, u1, u2, hf, he, eF⟩ ⟨g, e', w1', w2', t1', t2', v', u1', u2', hg, he', eG⟩
    exact ⟨_, _, fun x => w1' (w1 x), fun x => w2' (w2 x), fun x => t1' (t1 x), fun x => t2' (t2 x), fun x => v' (v x), fun x => u1' (u1 x), fun x => u2' (u2 x),
      hf.comp hg, he.comp he', fun c => by simp only [eG, eF]⟩
  determined := by
    rintro F G c₀ ⟨f, e, w1, w2, t1, t2, v, u1, u2, hf, he, eF⟩ ⟨g, e', w1', w2', t1', t2', v', u1', u2', hg, he', eG⟩ hv h
    obtain ⟨v_corners, v_edges, v_wings1, v_wings2, v_centerCorners1, v_centerCorners2, v_centerWings, v_centerEdges1, v_centerEdges2⟩ := hv
    rw [eF, eG] at h
    obtain ⟨e1, e2, e3, e4, e5, e6, e7, e8, e9⟩ := Cube7.ext_iff.1 h
    obtain rfl := hf.eq_of_covers (covers_of_valid corner_turns v_corners) hg fun i => congrFun e1 i
    obtain rfl := he.eq_of_covers (covers_of_valid edge_turns v_edges) he' fun i => congrFun e2 i
    obtain rfl := (blind_wing w1).eq_of_covers (covers_of_valid wing_turns v_wings1) (blind_wing w1') fun i => congrFun e3 i
    obtain rfl := (blind_wing w2).eq_of_covers (covers_of_valid wing_turns v_wings2) (blind_wing w2') fun i => congrFun e4 i
    obtain rfl := (blind_centerCorner t1).eq_of_covers (covers_of_valid centerCorner_turns v_centerCorners1) (blind_centerCorner t1') fun i => congrFun e5 i
    obtain rfl := (blind_centerCorner t2).eq_of_covers (covers_of_valid centerCorner_turns v_centerCorners2) (blind_centerCorner t2') fun i => congrFun e6 i
    obtain rfl := (blind_centerWing v).eq_of_covers (covers_of_valid centerWing_turns v_centerWings) (blind_centerWing v') fun i => congrFun e7 i
    obtain rfl := (blind_centerEdge u1).eq_of_covers (covers_of_valid centerEdge_turns v_centerEdges1) (blind_centerEdge u1') fun i => congrFun e8 i
    obtain rfl := (blind_centerEdge u2).eq_of_covers (covers_of_valid centerEdge_turns v_centerEdges2) (blind_centerEdge u2') fun i => congrFun e9 i
    funext c; rw [eF, eG]

/-- every move of a type is of this kind -/
def MovesUniform (C M : Type) [HasValid C] [PieceByPiece C] [Movable C M] : Prop :=
  ∀ m : M, PieceByPiece.Uniform fun c : C => moved c m

section
variable {C : Type} [HasValid C] [PieceByPiece C]

theorem MovesUniform.alg {M : Type} [Movable C M] (h : MovesUniform C M) (a : List M) :
    PieceByPiece.Uniform fun c : C => movedAlg c a := by
  induction a with
  | nil => exact PieceByPiece.nothing
  | cons m l ih => exact PieceByPiece.comp (h m) ih

theorem MovesUniform.same {M : Type} [Movable C M] (h : MovesUniform C M) (c₀ : C) (hc : HasValid.valid c₀) (a b : List M)
    (e : movedAlg c₀ a = movedAlg c₀ b) (c : C) : movedAlg c a = movedAlg c b :=
  congrFun (PieceByPiece.determined (h.alg a) (h.alg b) hc e) c

theorem MovesUniform.wide0 [Cube C] [Movable C AxisMove] (h : MovesUniform C AxisMove) : MovesUniform C (WideAxisMove 0) :=
  fun m => h m.axisMove

theorem MovesUniform.quarter [Cube C] [Movable C AxisMove] (h : MovesUniform C AxisMove) : MovesUniform C QuarterAxisMove :=
  fun m => h m.toAxisMove

theorem MovesUniform.nonRedundant [Cube C] [Movable C AxisMove] (h : MovesUniform C AxisMove) : MovesUniform C NonRedundantAxisMove :=
  fun m => h.alg m.moves

theorem uniform_widened {W : Nat} [Movable C (WideAxisMove W)] (h : MovesUniform C (WideAxisMove W)) (m : AxisMove) :
    PieceByPiece.Uniform fun c : C => movedWidened W c m := by
  unfold movedWidened
  cases m.widen W W with
  | none => exact PieceByPiece.nothing
  | some w => exact h w

end

theorem cube2_uniform : MovesUniform Cube2 AxisMove := fun m => ⟨_, corner_blind m, fun _ => rfl⟩
theorem cube3_uniform : MovesUniform Cube3 AxisMove := fun m => ⟨_, _, corner_blind m, edge_blind m, fun _ => rfl⟩
theorem cube4_uniform : MovesUniform Cube4 (WideAxisMove 1) := fun m =>
  ⟨_, fun p => DepthPiece.moved 1 0 p m, fun p => DepthPiece.moved 1 0 p m, corner_blind m.axisMove, fun _ => rfl⟩
theorem cube5_uniform : MovesUniform Cube5 (WideAxisMove 1) :=
  fun m => ⟨_, _, fun p => DepthPiece.moved 1 0 p m, fun p => DepthPiece.moved 1 0 p m, corner_blind m.axisMove,
    edge_blind m.axisMove, fun _ => rfl⟩
theorem cube6_uniform : MovesUniform Cube6 (WideAxisMove 2) :=
  fun m => ⟨_, fun p => DepthPiece.moved 1 0 p m, fun p => DepthPiece.moved 2 0 p m,
    fun p => DepthPiece.moved 1 0 p m, fun p => DepthPiece.moved 2 0 p m,
    fun p => DepthPiece.moved 1 2 p m, corner_blind m.axisMove, fun _ => rfl⟩
theorem cube7_uniform : MovesUniform Cube7 (WideAxisMove 2) :=
  fun m => ⟨_, _, fun p => DepthPiece.moved 1 0 p m, fun p => DepthPiece.moved 2 0 p m,
    fun p => DepthPiece.moved 1 0 p m, fun p => DepthPiece.moved 2 0 p m,
    fun p => DepthPiece.moved 1 2 p m, fun p => DepthPiece.moved 1 0 p m, fun p => DepthPiece.moved 2 0 p m,
    corner_blind m.axisMove, edge_blind m.axisMove, fun _ => rfl⟩
theorem cube4_axis_uniform : MovesUniform Cube4 AxisMove := uniform_widened cube4_uniform
theorem cube5_axis_uniform : MovesUniform Cube5 AxisMove := uniform_widened cube5_uniform
theorem cube6_axis_uniform : MovesUniform Cube6 AxisMove := uniform_widened cube6_uniform
theorem cube7_axis_uniform : MovesUniform Cube7 AxisMove := uniform_widened cube7_uniform
theorem cube6_wide1_uniform : MovesUniform Cube6 (WideAxisMove 1) := fun m => cube6_uniform ⟨m.depth, m.axisMove⟩
theorem cube7_wide1_uniform : MovesUniform Cube7 (WideAxisMove 1) := fun m => cube7_uniform ⟨m.depth, m.axisMove⟩

theorem one_state_shows_effect : ∀ s ∈ cubeSystems, ∀ c₀ : s.C, HasValid.valid c₀ → ∀ a b : List s.M,
    movedAlg c₀ a = movedAlg c₀ b → ∀ c : s.C, movedAlg c a = movedAlg c b := by
  simp only [cubeSystems, List.forall_mem_cons, List.not_mem_nil, false_imp_iff, implies_true, and_true]
  exact ⟨cube2_uniform.same, cube3_uniform.same, cube4_axis_uniform.same, cube5_axis_uniform.same,
    cube6_axis_uniform.same, cube7_axis_uniform.same,
    cube2_uniform.wide0.same, cube3_uniform.wide0.same, cube4_axis_uniform.wide0.same, cube5_axis_uniform.wide0.same,
    cube6_axis_uniform.wide0.same, cube7_axis_uniform.wide0.same,
    cube2_uniform.quarter.same, cube3_uniform.quarter.same, cube4_axis_uniform.quarter.same,
    cube5_axis_uniform.quarter.same, cube6_axis_uniform.quarter.same, cube7_axis_uniform.quarter.same,
    cube2_uniform.nonRedundant.same, cube3_uniform.nonRedundant.same, cube4_axis_uniform.nonRedundant.same,
    cube5_axis_uniform.nonRedundant.same, cube6_axis_uniform.nonRedundant.same, cube7_axis_uniform.nonRedundant.same,
    cube4_uniform.same, cube5_uniform.same, cube6_wide1_uniform.same, cube7_wide1_uniform.same,
    cube6_uniform.same, cube7_uniform.same⟩

/-! ## C84 -/

/-- **C84** One state shows what an alg does: on every cube, for every kind of moves it accepts, two algs that lead from
one valid state, for example the solved one, to the same state have the same effect on every state (also on those that
cannot be reached). -/
theorem C84_one_state_shows_effect (s : CubeSys) (hs : s ∈ cubeSystems) (c₀ : s.C) (h₀ : HasValid.valid c₀) (a b : List s.M) :
    movedAlg c₀ a = movedAlg c₀ b ↔ ∀ c : s.C, movedAlg c a = movedAlg c b :=
  ⟨one_state_shows_effect s hs c₀ h₀ a b, fun h => h c₀⟩

/-- Hypotheses met, with a state that is not solved: `R U R' U'` six times and nothing at all agree on the cube after `F`. -/
example : ∃ c₀ : Cube3, HasValid.valid c₀ ∧ c₀ ≠ Cube3.SOLVED ∧
    movedAlg c₀ (List.replicate 6 Perms.SEXY_MOVE).flatten = movedAlg c₀ ([] : List AxisMove) ∧
    movedAlg c₀ Perms.SEXY_MOVE ≠ c₀ :=
  ⟨moved Cube3.SOLVED (⟨.F, .single⟩ : AxisMove), C08_cubes.2.1 Cube3.SOLVED [⟨.F, .single⟩] C08_solved_valid.2.1,
    by decide +kernel, by decide +kernel, by decide +kernel⟩

/-- On the array in which all corners are in one place the claim is false: `L` and nothing agree there. -/
example : ∃ c₀ : Cube2, ¬ HasValid.valid c₀ ∧ movedAlg c₀ [(⟨.L, .single⟩ : AxisMove)] = movedAlg c₀ ([] : List AxisMove) ∧
    movedAlg (Cube.SOLVED : Cube2) [(⟨.L, .single⟩ : AxisMove)] ≠ Cube.SOLVED :=
  ⟨⟨fun _ => Corner.oriented ⟨.pos, .pos, .pos⟩⟩, by show ¬ Cube2.valid _; unfold Cube2.valid; decide +kernel,
    by decide +kernel, by decide +kernel⟩

theorem movedAlg_repeat {C M : Type} [Movable C M] (a : List M) (n : Nat) (c : C) :
    movedAlg c (List.replicate n a).flatten = (fun d => movedAlg d a)^[n] c := by
  induction n generalizing c with
  | zero => rfl
  | succ n ih =>
    rw [List.replicate_succ, List.flatten_cons, Function.iterate_succ_apply, ← ih]
    exact List.foldl_append

instance : Finite Cube2 := Finite.of_injective (fun c => c.corners) fun _ _ h => Cube2.ext h
instance : Finite Cube3 := Finite.of_injective (fun c => (c.edges, c.corners)) fun _ _ h => by
  simp only [Prod.mk.injEq] at h; exact Cube3.ext h.1 h.2
instance : Finite Cube4 := Finite.of_injective (fun c => (c.corners, c.wings, c.centers)) fun _ _ h => by
  simp only [Prod.mk.injEq] at h; exact Cube4.ext h.1 h.2.1 h.2.2
instance : Finite Cube5 := Finite.of_injective (fun c => (c.corners, c.edges, c.cornerCenters, c.cornerEdges)) fun _ _ h => by
  simp only [Prod.mk.injEq] at h; exact Cube5.ext h.1 h.2.1 h.2.2.1 h.2.2.2
instance : Finite Cube6 := Finite.of_injective
    (fun c => (c.corners, c.wings1, c.wings2, c.centerCorners1, c.centerCorners2, c.centerWings)) fun _ _ h => by
  simp only [Prod.mk.injEq] at h; exact Cube6.ext h.1 h.2.1 h.2.2.1 h.2.2.2.1 h.2.2.2.2.1 h.2.2.2.2.2
instance : Finite Cube7 := Finite.of_injective
    (fun c => (c.corners, c.edges, c.wings1, c.wings2, c.centerCorners1, c.centerCorners2, c.centerWings, c.centerEdges1,
      c.centerEdges2)) fun _ _ h => by
  simp only [Prod.mk.injEq] at h
  exact Cube7.ext h.1 h.2.1 h.2.2.1 h.2.2.2.1 h.2.2.2.2.1 h.2.2.2.2.2.1 h.2.2.2.2.2.2.1 h.2.2.2.2.2.2.2.1 h.2.2.2.2.2.2.2.2

theorem cubeSystems_finite : ∀ s ∈ cubeSystems, Finite s.C := by
  simp only [cubeSystems, List.forall_mem_cons, List.not_mem_nil, false_imp_iff, implies_true, and_true]
  refine ⟨?_, ?_, ?_, ?_, ?_, ?_, ?_, ?_, ?_, ?_, ?_, ?_, ?_, ?_, ?_, ?_, ?_, ?_, ?_, ?_, ?_, ?_, ?_, ?_, ?_, ?_, ?_, ?_, ?_,
    ?_⟩ <;> infer_instance

/-- **C84** Every alg repeated often enough does nothing, whatever the state; and how often is the same for all valid
states: it is back at one of them exactly when it is back at all states. -/
theorem C84_repeat (s : CubeSys) (hs : s ∈ cubeSystems) (a : List s.M) :
    (∃ n > 0, ∀ c : s.C, movedAlg c (List.replicate n a).flatten = c) ∧
    ∀ (n : Nat) (c₀ : s.C), HasValid.valid c₀ →
      (movedAlg c₀ (List.replicate n a).flatten = c₀ ↔ ∀ c : s.C, movedAlg c (List.replicate n a).flatten = c) := by
  have key : ∀ (n : Nat) (c₀ : s.C), HasValid.valid c₀ →
      (movedAlg c₀ (List.replicate n a).flatten = c₀ ↔ ∀ c : s.C, movedAlg c (List.replicate n a).flatten = c) :=
    fun n c₀ h₀ => C84_one_state_shows_effect s hs c₀ h₀ _ []
  refine ⟨?_, key⟩
  have hfin := cubeSystems_finite s hs
  have hm : (⟨s.C, s.M⟩ : MoveSys) ∈ moveSystems := by
    rw [← cubeSystems_complete.1]
    exact List.mem_map.2 ⟨s, hs, rfl⟩
  have hinj : Function.Injective fun d : s.C => movedAlg d a := by
    intro c d h
    have h1 := (C02_alg_then_reversed ⟨s.C, s.M⟩ hm a c).1
    have h2 := (C02_alg_then_reversed ⟨s.C, s.M⟩ hm a d).1
    simp only at h
    rw [← h1, ← h2]
    exact congrArg (fun x => movedAlg x (reversed a)) h
  obtain ⟨n, hn, hp⟩ := Function.Injective.mem_periodicPts hinj (Cube.SOLVED : s.C)
  refine ⟨n, hn, (key n Cube.SOLVED (cubeSystems_complete.2 s hs)).1 ?_⟩
  rw [movedAlg_repeat]
  exact hp

/-- six times the sexy move does nothing to a solved 3x3, hence to no 3x3 -/
example (c : Cube3) : movedAlg c (List.replicate 6 Perms.SEXY_MOVE).flatten = c :=
  ((C84_repeat ⟨Cube3, AxisMove⟩ (by simp [cubeSystems]) Perms.SEXY_MOVE).2 6 Cube3.SOLVED C08_solved_valid.2.1).1
    (by decide +kernel) c

/-- **C84** Where a piece goes does not depend on the other pieces: stated for the 3x3, any two arrays and any two places
in them. -/
theorem C84_pieces_independent (a : List AxisMove) (c d : Cube3) :
    (∀ i j, c.corners i = d.corners j → (movedAlg c a).corners i = (movedAlg d a).corners j) ∧
    (∀ i j, c.edges i = d.edges j → (movedAlg c a).edges i = (movedAlg d a).edges j) := by
  obtain ⟨f, f', -, -, h⟩ := cube3_uniform.alg a
  have hc : movedAlg c a = _ := h c
  have hd : movedAlg d a = _ := h d
  rw [hc, hd]
  exact ⟨fun i j e => by simp only [e], fun i j e => by simp only [e]⟩

/-- the edge that was in place 0 of one cube and is in place 3 of another goes the same way -/
example (c d : Cube3) (h : c.edges 0 = d.edges 3) : (movedAlg c Perms.SEXY_MOVE).edges 0 = (movedAlg d Perms.SEXY_MOVE).edges 3 :=
  (C84_pieces_independent Perms.SEXY_MOVE c d).2 0 3 h

/-! ## C85 -/

/-- **C85** Every alg, however long, has the same effect on every state of the 3x3 as one of at most 45 moves; so an alg
of more than 45 moves is always redundant. (The documentation says more than 20; the bound 20 is not proved here.) -/
theorem C85_long_algs_partial (a : List AxisMove) :
    ∃ b : List AxisMove, b.length ≤ 45 ∧ ∀ c : Cube3, movedAlg c b = movedAlg c a := by
  obtain ⟨b, hb, e⟩ := lawful_reachable ((C15_reachable_iff (movedAlg Cube3.SOLVED a)).1.1 ⟨a, rfl⟩)
  exact ⟨b, hb, one_state_shows_effect ⟨Cube3, AxisMove⟩ (by simp [cubeSystems]) Cube3.SOLVED C08_solved_valid.2.1 b a e⟩

example : ∃ b : List AxisMove, b.length ≤ 45 ∧ ∀ c : Cube3, movedAlg c b = movedAlg c (List.replicate 21 Perms.T).flatten :=
  C85_long_algs_partial _

/-- **C85** On the 2x2 every alg has the same effect as one of at most 11 moves, so there algs of more than 20 moves are
redundant. -/
theorem C85_long_algs_two (a : List AxisMove) :
    ∃ b : List AxisMove, b.length ≤ 11 ∧ ∀ c : Cube2, movedAlg c b = movedAlg c a := by
  obtain ⟨w, hw, e⟩ := (C17_reachable_iff (movedAlg (Cube.SOLVED : Cube2) a)).2.2
    ((C17_reachable_iff (movedAlg (Cube.SOLVED : Cube2) a)).1.1 ⟨a, rfl⟩)
  refine ⟨reversed w, by simpa [reversed] using hw, ?_⟩
  refine one_state_shows_effect ⟨Cube2, AxisMove⟩ (by simp [cubeSystems]) (Cube.SOLVED : Cube2) C08_solved_valid.1 _ a ?_
  have h := (C02_alg_then_reversed ⟨Cube2, AxisMove⟩ (by simp [moveSystems]) w (movedAlg (Cube.SOLVED : Cube2) a)).1
  dsimp only at h
  rwa [e] at h

/-- a thousand times the same two moves -/
example : ∃ b : List AxisMove, b.length ≤ 45 ∧
    ∀ c : Cube3, movedAlg c b = movedAlg c (List.replicate 1000 [(⟨Face.R, .single⟩ : AxisMove), ⟨Face.U, .single⟩]).flatten :=
  C85_long_algs_partial _

/-- the same on the 2x2 -/
example : ∃ b : List AxisMove, b.length ≤ 11 ∧
    ∀ c : Cube2, movedAlg c b = movedAlg c (List.replicate 1000 [(⟨Face.R, .single⟩ : AxisMove), ⟨Face.U, .single⟩]).flatten :=
  C85_long_algs_two _

/-- the effects of the algs -/
def IsEffect (F : Cube3 → Cube3) : Prop := ∃ a : List AxisMove, ∀ c, F c = movedAlg c a

theorem same_effect {a b : List AxisMove} (h : movedAlg Cube3.SOLVED a = movedAlg Cube3.SOLVED b) (c : Cube3) :
    movedAlg c a = movedAlg c b :=
  one_state_shows_effect ⟨Cube3, AxisMove⟩ (by simp [cubeSystems]) Cube3.SOLVED C08_solved_valid.2.1 a b h c

theorem cube3_undo (w : List AxisMove) (c : Cube3) :
    movedAlg (movedAlg c w) (reversed w) = c ∧ movedAlg (movedAlg c (reversed w)) w = c :=
  C02_alg_then_reversed ⟨Cube3, AxisMove⟩ (by simp [moveSystems]) w c

/-- an effect is told by what it does to the solved cube -/
noncomputable def effectEquiv : { F : Cube3 → Cube3 // IsEffect F } ≃ { c : Cube3 // c.Reachable } :=
  Equiv.ofBijective (fun F => ⟨F.1 Cube3.SOLVED, by obtain ⟨a, ha⟩ := F.2; exact ⟨a, (ha _).symm⟩⟩) (by
    constructor
    · rintro ⟨F, a, ha⟩ ⟨G, b, hb⟩ h
      simp only [Subtype.mk.injEq] at h
      rw [ha, hb] at h
      apply Subtype.ext
      funext c
      show F c = G c
      rw [ha, hb, same_effect h]
    · rintro ⟨c, a, rfl⟩
      exact ⟨⟨fun c => movedAlg c a, a, fun _ => rfl⟩, rfl⟩)

/-- **C85** The algs of face moves have exactly `43252003274489856000` different effects on the 3x3. -/
theorem C85_number_of_effects :
    Nat.card { F : Cube3 → Cube3 // ∃ a : List AxisMove, ∀ c, F c = movedAlg c a } = 43252003274489856000 := by
  rw [← C16_number_of_states]
  exact Nat.card_congr effectEquiv

/-- **C85** Not every alg of 18 moves is redundant: more than half of all effects are not the effect of any alg with fewer
than 18 moves. -/
theorem C85_not_eighteen :
    Nat.card { F : Cube3 → Cube3 // ∃ a : List AxisMove, ∀ c, F c = movedAlg c a } <
      2 * Nat.card { F : Cube3 → Cube3 // (∃ a : List AxisMove, ∀ c, F c = movedAlg c a) ∧
        ∀ b : List AxisMove, (∀ c, F c = movedAlg c b) → 18 ≤ b.length } := by
  have h1 : Nat.card { F : Cube3 → Cube3 // ∃ a : List AxisMove, ∀ c, F c = movedAlg c a } =
      Nat.card { c : Cube3 // c.Reachable } := Nat.card_congr effectEquiv
  have h2 : Nat.card { F : Cube3 → Cube3 // (∃ a : List AxisMove, ∀ c, F c = movedAlg c a) ∧
        ∀ b : List AxisMove, (∀ c, F c = movedAlg c b) → 18 ≤ b.length } =
      Nat.card { c : Cube3 // c.Reachable ∧ ∀ alg : List AxisMove, movedAlg c alg = Cube3.SOLVED → 18 ≤ alg.length } := by
    refine Nat.card_congr ?_
    refine (Equiv.subtypeSubtypeEquivSubtypeInter IsEffect _).symm.trans (Equiv.trans ?_
      (Equiv.subtypeSubtypeEquivSubtypeInter Cube3.Reachable _))
    refine effectEquiv.subtypeEquiv ?_
    rintro ⟨F, a, ha⟩
    have e : (effectEquiv ⟨F, a, ha⟩).1 = movedAlg Cube3.SOLVED a := ha _
    simp only [e]
    constructor
    · intro h alg halg
      have := h (reversed alg) fun c => by
        rw [ha]
        refine same_effect ?_ c
        exact (cube3_undo alg _).1.symm.trans (congrArg (fun x => movedAlg x (reversed alg)) halg)
      simpa [reversed] using this
    · intro h b hb
      have : movedAlg (movedAlg Cube3.SOLVED a) (reversed b) = Cube3.SOLVED := by
        rw [← ha, hb]
        exact (cube3_undo b _).1
      simpa [reversed] using h _ this
  rw [h1, h2]
  exact C75_eighteen

/-- In particular there is such an effect. -/
example : ∃ a : List AxisMove, ∀ b : List AxisMove, (∀ c : Cube3, movedAlg c b = movedAlg c a) → 18 ≤ b.length := by
  have h := C85_not_eighteen
  by_contra hno
  push Not at hno
  have : Nat.card { F : Cube3 → Cube3 // (∃ a : List AxisMove, ∀ c, F c = movedAlg c a) ∧
        ∀ b : List AxisMove, (∀ c, F c = movedAlg c b) → 18 ≤ b.length } = 0 := by
    rw [Nat.card_eq_zero]
    refine Or.inl ⟨?_⟩
    rintro ⟨F, ⟨a, ha⟩, hF⟩
    obtain ⟨b, hb, hlt⟩ := hno a
    have := hF b fun c => by rw [ha, hb]
    omega
  rw [this] at h
  omega

end Barbarosa
