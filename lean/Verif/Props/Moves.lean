import Verif.Lemmas.Moves
import Verif.Spec.Systems

/-!
# C01–C04: the algebra of moves
-/

namespace Barbarosa

/-! ## Helpers (from the turn laws to undo laws) -/

theorem TurnLaws.undo {C K : Type} {act : C → K → Face → Amount → C} (h : TurnLaws act) (c : C) (k : K) (f : Face)
    (x : Amount) : act (act c k f x) k f (x.mul .neg) = c := by
  rw [h.add]
  have : x.add (x.mul .neg) = none := by revert x; decide
  rw [this]

theorem axis_undo {C : Type} [Movable C AxisMove] (h : TurnLaws (axisAct C)) (c : C) (m : AxisMove) :
    moved (moved c m) (Move.inverse m) = c :=
  h.undo c () m.face m.amount

theorem wide_undo {C : Type} {N : Nat} [Movable C (WideAxisMove N)] (h : TurnLaws (wideAct C N)) (c : C)
    (m : WideAxisMove N) : moved (moved c m) (Move.inverse m) = c :=
  h.undo c m.depth m.axisMove.face m.axisMove.amount

theorem wide0_undo {C : Type} [Cube C] [Movable C AxisMove] (h : TurnLaws (axisAct C)) (c : C) (m : WideAxisMove 0) :
    moved (moved c m) (Move.inverse m) = c :=
  h.undo c () m.axisMove.face m.axisMove.amount

theorem quarter_undo {C : Type} [Cube C] [Movable C AxisMove] (h : TurnLaws (axisAct C)) (c : C) (m : QuarterAxisMove) :
    moved (moved c m) (Move.inverse m) = c := by
  obtain ⟨f, d⟩ := m
  cases d
  · exact h.undo c () f .single
  · exact h.undo c () f .inverse

theorem nr_undo {C : Type} [Cube C] [Movable C AxisMove] (h : TurnLaws (axisAct C)) (c : C) (m : NonRedundantAxisMove) :
    moved (moved c m) (Move.inverse m) = c := by
  cases m with
  | single m => exact h.undo c () m.face m.amount
  | double a p n =>
    show axisAct C (axisAct C (axisAct C (axisAct C c () ⟨a, .pos⟩ p) () ⟨a, .neg⟩ n) () ⟨a, .pos⟩ (p.mul .neg))
      () ⟨a, .neg⟩ (n.mul .neg) = c
    rw [h.comm _ () () a .neg .pos, h.undo, h.undo]

theorem undo_all : ∀ s ∈ moveSystems, ∀ (c : s.C) (m : s.M), moved (moved c m) (Move.inverse m) = c := by
  simp only [moveSystems, List.forall_mem_cons, List.not_mem_nil, false_imp_iff, implies_true, and_true]
  exact ⟨axis_undo cube2_laws, axis_undo cube3_laws, axis_undo cube4_axis_laws, axis_undo cube5_axis_laws,
    axis_undo cube6_axis_laws, axis_undo cube7_axis_laws,
    wide0_undo cube2_laws, wide0_undo cube3_laws, wide0_undo cube4_axis_laws, wide0_undo cube5_axis_laws,
    wide0_undo cube6_axis_laws, wide0_undo cube7_axis_laws,
    quarter_undo cube2_laws, quarter_undo cube3_laws, quarter_undo cube4_axis_laws, quarter_undo cube5_axis_laws,
    quarter_undo cube6_axis_laws, quarter_undo cube7_axis_laws,
    nr_undo cube2_laws, nr_undo cube3_laws, nr_undo cube4_axis_laws, nr_undo cube5_axis_laws,
    nr_undo cube6_axis_laws, nr_undo cube7_axis_laws,
    wide_undo cube4_laws, wide_undo cube5_laws, wide_undo cube6_wide1_laws, wide_undo cube7_wide1_laws,
    wide_undo cube6_laws, wide_undo cube7_laws⟩

theorem AxisMove.inverse_inverse (m : AxisMove) : Move.inverse (Move.inverse m) = m := by revert m; decide

theorem WideAxisMove.inverse_inverse {N : Nat} (m : WideAxisMove N) : Move.inverse (Move.inverse m) = m := by
  obtain ⟨d, m⟩ := m
  show (⟨d, Move.inverse (Move.inverse m)⟩ : WideAxisMove N) = ⟨d, m⟩
  rw [AxisMove.inverse_inverse]

theorem QuarterAxisMove.inverse_inverse (m : QuarterAxisMove) : Move.inverse (Move.inverse m) = m := by
  revert m; decide

theorem NonRedundantAxisMove.inverse_inverse (m : NonRedundantAxisMove) : Move.inverse (Move.inverse m) = m := by
  revert m; decide

theorem inverse_inverse_all : ∀ s ∈ moveSystems, ∀ m : s.M, Move.inverse (Move.inverse m) = m := by
  simp only [moveSystems, List.forall_mem_cons, List.not_mem_nil, false_imp_iff, implies_true, and_true]
  exact ⟨AxisMove.inverse_inverse, AxisMove.inverse_inverse, AxisMove.inverse_inverse, AxisMove.inverse_inverse,
    AxisMove.inverse_inverse, AxisMove.inverse_inverse,
    WideAxisMove.inverse_inverse, WideAxisMove.inverse_inverse, WideAxisMove.inverse_inverse,
    WideAxisMove.inverse_inverse, WideAxisMove.inverse_inverse, WideAxisMove.inverse_inverse,
    QuarterAxisMove.inverse_inverse, QuarterAxisMove.inverse_inverse, QuarterAxisMove.inverse_inverse,
    QuarterAxisMove.inverse_inverse, QuarterAxisMove.inverse_inverse, QuarterAxisMove.inverse_inverse,
    NonRedundantAxisMove.inverse_inverse, NonRedundantAxisMove.inverse_inverse, NonRedundantAxisMove.inverse_inverse,
    NonRedundantAxisMove.inverse_inverse, NonRedundantAxisMove.inverse_inverse, NonRedundantAxisMove.inverse_inverse,
    WideAxisMove.inverse_inverse, WideAxisMove.inverse_inverse, WideAxisMove.inverse_inverse,
    WideAxisMove.inverse_inverse, WideAxisMove.inverse_inverse, WideAxisMove.inverse_inverse⟩

/-! ## C01 -/

/-- **C01** On every cube, for every move type it accepts: a move followed by its inverse is the identity, on every
state, and inverting twice gives back the move. -/
theorem C01_move_then_inverse : ∀ s ∈ moveSystems, ∀ (c : s.C) (m : s.M),
    moved (moved c m) (Move.inverse m) = c ∧ moved (moved c (Move.inverse m)) m = c ∧
      Move.inverse (Move.inverse m) = m := by
  intro s hs c m
  have hi := inverse_inverse_all s hs m
  have h2 := undo_all s hs c (Move.inverse m)
  rw [hi] at h2
  exact ⟨undo_all s hs c m, h2, hi⟩

/-- the catalogue is not empty and a move really changes something -/
example : (⟨Cube7, WideAxisMove 2⟩ : MoveSys) ∈ moveSystems ∧
    moved (Cube.SOLVED : Cube3) (⟨Face.R, .single⟩ : AxisMove) ≠ Cube.SOLVED ∧
    moved (moved (Cube.SOLVED : Cube3) (⟨Face.R, .single⟩ : AxisMove)) (⟨Face.R, .inverse⟩ : AxisMove)
      = Cube.SOLVED := by
  refine ⟨by simp [moveSystems], by decide +kernel, by decide +kernel⟩

/-! ## C02 -/

/-- **C02** On every cube, for every move type: an alg followed by its reverse is the identity. -/
theorem C02_alg_then_reversed : ∀ s ∈ moveSystems, ∀ (alg : List s.M) (c : s.C),
    movedAlg (movedAlg c alg) (reversed alg) = c ∧ movedAlg (movedAlg c (reversed alg)) alg = c := by
  intro s hs alg c
  have key : ∀ (alg : List s.M) (c : s.C), movedAlg (movedAlg c alg) (reversed alg) = c := by
    intro alg
    induction alg with
    | nil => intro c; rfl
    | cons m l ih =>
      intro c
      have := ih (moved c m)
      simp only [movedAlg, reversed, List.foldl_cons, List.reverse_cons, List.map_append, List.foldl_append] at this ⊢
      rw [this]
      exact (undo_all s hs c m)
  refine ⟨key alg c, ?_⟩
  have h := key (reversed alg) c
  have : reversed (reversed alg) = alg := by
    simp only [reversed, ← List.map_reverse, List.reverse_reverse, List.map_map]
    conv_rhs => rw [← List.map_id alg]
    exact List.map_congr_left fun m _ => inverse_inverse_all s hs m
  rwa [this] at h

/-- the sexy move and its reverse on any 6x6 -/
example (c : Cube6) : movedAlg (movedAlg c Perms.SEXY_MOVE) (reversed Perms.SEXY_MOVE) = c :=
  (C02_alg_then_reversed ⟨Cube6, AxisMove⟩ (by simp [moveSystems]) Perms.SEXY_MOVE c).1

/-- **C02** Reversing twice gives the same alg, for every move type of the catalogue. -/
theorem C02_reversed_reversed : ∀ s ∈ moveSystems, ∀ alg : List s.M, reversed (reversed alg) = alg := by
  intro s hs alg
  simp only [reversed, ← List.map_reverse, List.reverse_reverse, List.map_map]
  conv_rhs => rw [← List.map_id alg]
  exact List.map_congr_left fun m _ => inverse_inverse_all s hs m

example (alg : List (WideAxisMove 2)) : reversed (reversed alg) = alg :=
  C02_reversed_reversed ⟨Cube7, WideAxisMove 2⟩ (by simp [moveSystems]) alg

/-- **C02** The reverse of a concatenation is the concatenation of the reverses in the other order, and reversing keeps
the length. -/
theorem C02_reversed_append {M : Type} [Move M] (a b : List M) :
    reversed (a ++ b) = reversed b ++ reversed a ∧ (reversed a).length = a.length := by
  simp [reversed]

example : reversed Perms.SEXY_MOVE = [⟨Face.U, .single⟩, ⟨Face.R, .single⟩, ⟨Face.U, .inverse⟩, ⟨Face.R, .inverse⟩] ∧
    movedAlg Cube3.SOLVED Perms.SEXY_MOVE ≠ Cube3.SOLVED := by decide +kernel

/-! ## C03 -/

theorem turn_add_all : ∀ s ∈ turnSystems, ∀ (c : s.C) (d : Nat) (f : Face) (x y : Amount),
    s.turn (s.turn c d f x) d f y = match x.add y with
      | none => c
      | some z => s.turn c d f z := by
  simp only [turnSystems, List.forall_mem_cons, List.not_mem_nil, false_imp_iff, implies_true, and_true]
  exact ⟨fun c _ => cube2_laws.add c (), fun c _ => cube3_laws.add c (), fun c _ => cube4_axis_laws.add c (),
    fun c _ => cube5_axis_laws.add c (), fun c _ => cube6_axis_laws.add c (), fun c _ => cube7_axis_laws.add c (),
    cube4_laws.add, cube5_laws.add, cube6_wide1_laws.add, cube7_wide1_laws.add, cube6_laws.add, cube7_laws.add⟩

/-- **C03** Turning a face by `x` and then by `y` has the effect of `x + y`, and of nothing if that is `None`. -/
theorem C03_amounts_add : ∀ s ∈ turnSystems, ∀ (c : s.C) (d : Nat) (f : Face) (x y : Amount),
    s.turn (s.turn c d f x) d f y = match x.add y with
      | none => c
      | some z => s.turn c d f z := turn_add_all

/-- `R2` and `R'` on any 5x5 make `R` -/
example (c : Cube5) : moved (moved c (⟨Face.R, .double⟩ : AxisMove)) (⟨Face.R, .inverse⟩ : AxisMove) = moved c (⟨Face.R, .single⟩ : AxisMove) :=
  C03_amounts_add ⟨Cube5, fun c _ f x => moved c (⟨f, x⟩ : AxisMove)⟩ (by simp [turnSystems]) c 0 Face.R .double .inverse

/-- **C03** The sum of amounts counts quarter turns modulo 4. -/
theorem C03_add_counts_quarters (x y : Amount) :
    (x.add y = none ↔ (quarterTurns x + quarterTurns y) % 4 = 0) ∧
    ∀ z, (x.add y = some z ↔ (quarterTurns x + quarterTurns y) % 4 = quarterTurns z) := by
  revert x y; decide

/-- two and three quarters are one -/
example : Amount.add .double .inverse = some .single := ((C03_add_counts_quarters .double .inverse).2 .single).2 (by decide)

/-- **C03** An amount is that many repetitions of the clockwise quarter turn, and four quarter turns are the identity. -/
theorem C03_amount_is_repeated_quarter : ∀ s ∈ turnSystems, ∀ (c : s.C) (d : Nat) (f : Face),
    (∀ x : Amount, s.turn c d f x = (fun c => s.turn c d f .single)^[quarterTurns x] c) ∧
    (fun c => s.turn c d f .single)^[4] c = c := by
  intro s hs c d f
  have h := turn_add_all s hs
  have h1 : ∀ c, s.turn (s.turn c d f .single) d f .single = s.turn c d f .double := fun c => h c d f .single .single
  have h2 : ∀ c, s.turn (s.turn c d f .double) d f .single = s.turn c d f .inverse := fun c => h c d f .double .single
  have h3 : ∀ c, s.turn (s.turn c d f .inverse) d f .single = c := fun c => h c d f .inverse .single
  refine ⟨fun x => ?_, ?_⟩
  · cases x <;> simp [quarterTurns, h1, h2]
  · simp [h1, h2, h3]

/-- `U'` on a 5x5 is three turns `U` -/
example (c : Cube5) : moved c (⟨1, ⟨.U, .inverse⟩⟩ : WideAxisMove 1) =
    (fun c : Cube5 => moved c (⟨1, ⟨.U, .single⟩⟩ : WideAxisMove 1))^[3] c := by
  have := (C03_amount_is_repeated_quarter ⟨Cube5, fun c d f x => moved c (⟨d, ⟨f, x⟩⟩ : WideAxisMove 1)⟩ (by simp [turnSystems]) c 1 .U).1 .inverse
  exact this

/-- **C03** Two half turns, and a quarter turn followed by its inverse, are the identity. -/
theorem C03_half_turns : ∀ s ∈ turnSystems, ∀ (c : s.C) (d : Nat) (f : Face),
    s.turn (s.turn c d f .double) d f .double = c ∧
    s.turn (s.turn c d f .single) d f .inverse = c ∧ s.turn (s.turn c d f .inverse) d f .single = c := by
  intro s hs c d f
  exact ⟨turn_add_all s hs c d f .double .double, turn_add_all s hs c d f .single .inverse,
    turn_add_all s hs c d f .inverse .single⟩

example : Amount.add .double .inverse = some .single ∧ Amount.add .single .inverse = none ∧
    moved Cube3.SOLVED (⟨Face.R, .double⟩ : AxisMove) ≠ Cube3.SOLVED := by
  decide +kernel

/-! ## C04 -/

/-- **C04** Two turns about the same axis (same face or opposite faces), at any depths, commute. -/
theorem C04_same_axis_commute : ∀ s ∈ turnSystems, ∀ (c : s.C) (d₁ d₂ : Nat) (f g : Face), f.axis = g.axis →
    ∀ x y : Amount, s.turn (s.turn c d₁ f x) d₂ g y = s.turn (s.turn c d₂ g y) d₁ f x := by
  intro s hs c d₁ d₂ ⟨a, u⟩ ⟨b, v⟩ hab x y
  obtain rfl : a = b := hab
  revert s
  simp only [turnSystems, List.forall_mem_cons, List.not_mem_nil, false_imp_iff, implies_true, and_true]
  exact ⟨fun c => cube2_laws.comm c () () a u v x y, fun c => cube3_laws.comm c () () a u v x y,
    fun c => cube4_axis_laws.comm c () () a u v x y, fun c => cube5_axis_laws.comm c () () a u v x y,
    fun c => cube6_axis_laws.comm c () () a u v x y, fun c => cube7_axis_laws.comm c () () a u v x y,
    fun c => cube4_laws.comm c d₁ d₂ a u v x y, fun c => cube5_laws.comm c d₁ d₂ a u v x y,
    fun c => cube6_wide1_laws.comm c d₁ d₂ a u v x y, fun c => cube7_wide1_laws.comm c d₁ d₂ a u v x y,
    fun c => cube6_laws.comm c d₁ d₂ a u v x y, fun c => cube7_laws.comm c d₁ d₂ a u v x y⟩

/-- the hypothesis is met by opposite faces, and turns about different axes do not commute -/
example : Face.R.axis = Face.L.axis ∧ Face.R ≠ Face.L ∧
    moved (moved Cube3.SOLVED (⟨Face.R, .single⟩ : AxisMove)) (⟨Face.U, .single⟩ : AxisMove) ≠
      moved (moved Cube3.SOLVED (⟨Face.U, .single⟩ : AxisMove)) (⟨Face.R, .single⟩ : AxisMove) := by
  decide +kernel

end Barbarosa
