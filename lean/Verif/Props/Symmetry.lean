import Verif.Spec.Symmetry
import Verif.Props.Heuristics
import Verif.Props.Orientable
import Verif.Props.BigCubes

/-!
# C100: a scramble turned round, a scramble undone

Rotating all moves of a scramble, or taking its reverse, makes it neither harder nor easier to solve.
-/

namespace Barbarosa

/-! ## Rotations are automorphisms -/

theorem rotated_back {P : Type} [Rotatable P] [LawfulRotatable P] (p : P) (r : AxisRotation) :
    rotated (rotated p r) r.inverse = p ∧ rotated (rotated p r.inverse) r = p := by
  obtain ⟨a, x⟩ := r
  constructor
  · exact (LawfulRotatable.rot_add p a x (x.mul .neg)).trans (by cases x <;> rfl)
  · exact (LawfulRotatable.rot_add p a (x.mul .neg) x).trans (by cases x <;> rfl)

theorem rotWide_back {N : Nat} (m : WideAxisMove N) (r : AxisRotation) :
    rotWide (rotWide m r) r.inverse = m ∧ rotWide (rotWide m r.inverse) r = m := by
  obtain ⟨d, m⟩ := m
  exact ⟨congrArg (WideAxisMove.mk d) (rotated_back m r).1, congrArg (WideAxisMove.mk d) (rotated_back m r).2⟩

/-- what the proofs below need to know about a system -/
structure RotSys.Good (s : RotSys) : Prop where
  mem : s.toCubeSys ∈ cubeSystems
  commutes : ∀ r : AxisRotation, ∃ R : s.C → s.C, (∀ c m, R (moved c m) = moved (R c) (s.rot m r)) ∧ Function.Surjective R
  back : ∀ (m : s.M) (r : AxisRotation), s.rot (s.rot m r) r.inverse = m ∧ s.rot (s.rot m r.inverse) r = m
  inverse : ∀ (m : s.M) (r : AxisRotation), s.rot (Move.inverse m) r = Move.inverse (s.rot m r)
  ok_rot : ∀ (m : s.M) (r : AxisRotation), s.ok (s.rot m r) ↔ s.ok m
  ok_inverse : ∀ m : s.M, s.ok (Move.inverse m) ↔ s.ok m

theorem surjective_of_back {C : Type} (R : C → AxisRotation → C) (h : ∀ c r, R (R c r.inverse) r = c) (r : AxisRotation) :
    Function.Surjective (R · r) := fun c => ⟨R c r.inverse, h c r⟩

theorem cube2_surj (r : AxisRotation) : Function.Surjective (Cube2.rotatedPieces · r) :=
  surjective_of_back _ (fun _ r => Cube2.ext (funext fun _ => (rotated_back _ r).2)) r
theorem cube3_surj (r : AxisRotation) : Function.Surjective (Cube3.rotatedPieces · r) :=
  surjective_of_back _ (fun _ r => Cube3.ext (funext fun _ => (rotated_back _ r).2) (funext fun _ => (rotated_back _ r).2)) r
theorem cube4_surj (r : AxisRotation) : Function.Surjective (Cube4.rotatedPieces · r) :=
  surjective_of_back _ (fun _ r => Cube4.ext (funext fun _ => (rotated_back _ r).2) (funext fun _ => (rotated_back _ r).2)
    (funext fun _ => (rotated_back _ r).2)) r
theorem cube5_surj (r : AxisRotation) : Function.Surjective (Cube5.rotatedPieces · r) :=
  surjective_of_back _ (fun _ r => Cube5.ext (funext fun _ => (rotated_back _ r).2) (funext fun _ => (rotated_back _ r).2)
    (funext fun _ => (rotated_back _ r).2) (funext fun _ => (rotated_back _ r).2)) r
theorem cube6_surj (r : AxisRotation) : Function.Surjective (Cube6.rotatedPieces · r) :=
  surjective_of_back _ (fun _ r => Cube6.ext (funext fun _ => (rotated_back _ r).2) (funext fun _ => (rotated_back _ r).2)
    (funext fun _ => (rotated_back _ r).2) (funext fun _ => (rotated_back _ r).2) (funext fun _ => (rotated_back _ r).2)
    (funext fun _ => (rotated_back _ r).2)) r
theorem cube7_surj (r : AxisRotation) : Function.Surjective (Cube7.rotatedPieces · r) :=
  surjective_of_back _ (fun _ r => Cube7.ext (funext fun _ => (rotated_back _ r).2) (funext fun _ => (rotated_back _ r).2)
    (funext fun _ => (rotated_back _ r).2) (funext fun _ => (rotated_back _ r).2) (funext fun _ => (rotated_back _ r).2)
    (funext fun _ => (rotated_back _ r).2) (funext fun _ => (rotated_back _ r).2) (funext fun _ => (rotated_back _ r).2)
    (funext fun _ => (rotated_back _ r).2)) r

theorem rotSystems_good : ∀ s ∈ rotSystems, s.Good := by
  have hb : ∀ (m : AxisMove) (r : AxisRotation), rotated (rotated m r) r.inverse = m ∧ rotated (rotated m r.inverse) r = m :=
    rotated_back
  have hi : ∀ (m : AxisMove) (r : AxisRotation), rotated (Move.inverse m) r = Move.inverse (rotated m r) := fun m r => rfl
  have wi : ∀ {N : Nat} (m : WideAxisMove N) (r : AxisRotation), rotWide (Move.inverse m) r = Move.inverse (rotWide m r) :=
    fun m r => rfl
  have wo : ∀ {N : Nat} (m : WideAxisMove N) (r : AxisRotation), (rotWide m r).WF ↔ m.WF := fun m r => Iff.rfl
  have wv : ∀ {N : Nat} (m : WideAxisMove N), WideAxisMove.WF (Move.inverse m) ↔ m.WF := fun m => Iff.rfl
  simp only [rotSystems, List.forall_mem_cons, List.not_mem_nil, false_imp_iff, implies_true, and_true]
  refine ⟨?_, ?_, ?_, ?_, ?_, ?_, ?_, ?_, ?_, ?_⟩
  · exact ⟨by simp [cubeSystems], fun r => ⟨_, cube2_rot_move r, cube2_surj r⟩, hb, hi,
      fun _ _ => Iff.rfl, fun _ => Iff.rfl⟩
  · exact ⟨by simp [cubeSystems], fun r => ⟨_, fun c m => C56_cube3_alg c [m] r, cube3_surj r⟩, hb, hi, fun _ _ => Iff.rfl, fun _ => Iff.rfl⟩
  · exact ⟨by simp [cubeSystems], fun r => ⟨_, fun c m => widened_rot_move (Cube4.rotatedPieces · r) r (cube4_rot_move r) c m, cube4_surj r⟩, hb, hi,
      fun _ _ => Iff.rfl, fun _ => Iff.rfl⟩
  · exact ⟨by simp [cubeSystems], fun r => ⟨_, fun c m => widened_rot_move (Cube5.rotatedPieces · r) r (cube5_rot_move r) c m, cube5_surj r⟩, hb, hi,
      fun _ _ => Iff.rfl, fun _ => Iff.rfl⟩
  · exact ⟨by simp [cubeSystems], fun r => ⟨_, fun c m => widened_rot_move (Cube6.rotatedPieces · r) r (cube6_rot_move r) c m, cube6_surj r⟩, hb, hi,
      fun _ _ => Iff.rfl, fun _ => Iff.rfl⟩
  · exact ⟨by simp [cubeSystems], fun r => ⟨_, fun c m => widened_rot_move (Cube7.rotatedPieces · r) r (cube7_rot_move r) c m, cube7_surj r⟩, hb, hi,
      fun _ _ => Iff.rfl, fun _ => Iff.rfl⟩
  · exact ⟨by simp [cubeSystems], fun r => ⟨_, cube4_rot_move r, cube4_surj r⟩, rotWide_back, wi, wo, wv⟩
  · exact ⟨by simp [cubeSystems], fun r => ⟨_, cube5_rot_move r, cube5_surj r⟩, rotWide_back, wi, wo, wv⟩
  · exact ⟨by simp [cubeSystems], fun r => ⟨_, cube6_rot_move r, cube6_surj r⟩, rotWide_back, wi, wo, wv⟩
  · exact ⟨by simp [cubeSystems], fun r => ⟨_, cube7_rot_move r, cube7_surj r⟩, rotWide_back, wi, wo, wv⟩

namespace RotSys.Good

variable {s : RotSys} (h : s.Good)
include h

theorem sys : (⟨s.C, s.M⟩ : MoveSys) ∈ moveSystems := by
  rw [← cubeSystems_complete.1]; exact List.mem_map.2 ⟨s.toCubeSys, h.mem, rfl⟩

/-- two algs agree on the solved cube exactly when they agree everywhere -/
theorem agree (a b : List s.M) :
    movedAlg (Cube.SOLVED : s.C) a = movedAlg (Cube.SOLVED : s.C) b ↔ ∀ c : s.C, movedAlg c a = movedAlg c b :=
  C84_one_state_shows_effect s.toCubeSys h.mem Cube.SOLVED (cubeSystems_complete.2 s.toCubeSys h.mem) a b

theorem agree_rot (r : AxisRotation) {a b : List s.M} (e : ∀ c : s.C, movedAlg c a = movedAlg c b) (c : s.C) :
    movedAlg c (a.map (s.rot · r)) = movedAlg c (b.map (s.rot · r)) := by
  obtain ⟨R, h1, h2⟩ := h.commutes r
  obtain ⟨c, rfl⟩ := h2 c
  rw [← movedAlg_commutes R (s.rot · r) h1, ← movedAlg_commutes R (s.rot · r) h1, e]

theorem agree_rotAlg (rs : List AxisRotation) {a b : List s.M} (e : ∀ c : s.C, movedAlg c a = movedAlg c b) (c : s.C) :
    movedAlg c (s.rotAlg rs a) = movedAlg c (s.rotAlg rs b) := by
  induction rs generalizing a b with
  | nil => simpa [RotSys.rotAlg] using e c
  | cons r rs ih =>
    have := ih (h.agree_rot r e)
    simpa [RotSys.rotAlg, List.map_map, Function.comp_def] using this

omit h in
theorem rotAlg_append_list (rs ts : List AxisRotation) (a : List s.M) : s.rotAlg (rs ++ ts) a = s.rotAlg ts (s.rotAlg rs a) := by
  simp [RotSys.rotAlg]

/-- the rotations the other way round, in the other order -/
theorem rotAlg_back (rs : List AxisRotation) (a : List s.M) :
    s.rotAlg (rs.reverse.map AxisRotation.inverse) (s.rotAlg rs a) = a := by
  induction rs generalizing a with
  | nil => simp [RotSys.rotAlg]
  | cons r rs ih =>
    have e : r :: rs = [r] ++ rs := rfl
    rw [e, rotAlg_append_list [r] rs, List.reverse_append, List.map_append, rotAlg_append_list, ih]
    simp [RotSys.rotAlg, List.map_map, Function.comp_def, (h.back _ r).1]

theorem rotAlg_forth (rs : List AxisRotation) (a : List s.M) :
    s.rotAlg rs (s.rotAlg (rs.reverse.map AxisRotation.inverse) a) = a := by
  have := h.rotAlg_back (rs.reverse.map AxisRotation.inverse) a
  rwa [← List.map_reverse, List.map_map, List.reverse_reverse,
    show (AxisRotation.inverse ∘ AxisRotation.inverse) = id from funext fun r => by
      obtain ⟨a, x⟩ := r; cases x <;> rfl, List.map_id] at this

theorem agree_reversed {a b : List s.M} (e : ∀ c : s.C, movedAlg c a = movedAlg c b) (c : s.C) :
    movedAlg c (reversed a) = movedAlg c (reversed b) := by
  have h1 := (C02_alg_then_reversed ⟨s.C, s.M⟩ h.sys b c).2
  have h2 := (C02_alg_then_reversed ⟨s.C, s.M⟩ h.sys a (movedAlg c (reversed b))).1
  simp only at h1 h2
  rw [e, h1] at h2
  exact h2

theorem reversed_reversed (a : List s.M) : reversed (reversed a) = a := by
  have hm : ∀ m : s.M, Move.inverse (Move.inverse m) = m := inverse_inverse_all ⟨s.C, s.M⟩ h.sys
  simp only [reversed, ← List.map_reverse, List.reverse_reverse, List.map_map]
  conv_rhs => rw [← List.map_id a]
  exact List.map_congr_left fun m _ => hm m

/-- `x` solves `a` when `a` and the reverse of `x` do the same -/
theorem solves_iff (a x : List s.M) : s.Solves a x ↔ ∀ c : s.C, movedAlg c a = movedAlg c (reversed x) := by
  unfold RotSys.Solves
  rw [← h.agree]
  have h1 := (C02_alg_then_reversed ⟨s.C, s.M⟩ h.sys x (movedAlg (Cube.SOLVED : s.C) a)).1
  have h2 := (C02_alg_then_reversed ⟨s.C, s.M⟩ h.sys x (Cube.SOLVED : s.C)).2
  simp only at h1 h2
  constructor
  · intro e; rw [e] at h1; exact h1.symm
  · intro e; rw [e]; exact h2

omit h in
theorem reversed_rotAlg (hi : ∀ (m : s.M) (r : AxisRotation), s.rot (Move.inverse m) r = Move.inverse (s.rot m r))
    (rs : List AxisRotation) (a : List s.M) : s.rotAlg rs (reversed a) = reversed (s.rotAlg rs a) := by
  have key : ∀ m : s.M, rs.foldl s.rot (Move.inverse m) = Move.inverse (rs.foldl s.rot m) := by
    induction rs with
    | nil => intro m; rfl
    | cons r rs ih => intro m; rw [List.foldl_cons, hi, ih]; rfl
  simp only [RotSys.rotAlg, reversed, ← List.map_reverse, List.map_map]
  exact List.map_congr_left fun m _ => key m

end RotSys.Good

/-! ## C100 -/

/-- **C100** On every cube, for plain moves and for wide moves: two algs that lead to the same state still do so when all
their moves are rotated in the same way, and when both are reversed; and conversely. -/
theorem C100_same_state (s : RotSys) (hs : s ∈ rotSystems) (rs : List AxisRotation) (a b : List s.M) :
    (movedAlg (Cube.SOLVED : s.C) (s.rotAlg rs a) = movedAlg (Cube.SOLVED : s.C) (s.rotAlg rs b) ↔
      movedAlg (Cube.SOLVED : s.C) a = movedAlg (Cube.SOLVED : s.C) b) ∧
    (movedAlg (Cube.SOLVED : s.C) (reversed a) = movedAlg (Cube.SOLVED : s.C) (reversed b) ↔
      movedAlg (Cube.SOLVED : s.C) a = movedAlg (Cube.SOLVED : s.C) b) := by
  have h := rotSystems_good s hs
  simp only [h.agree]
  refine ⟨⟨fun e => ?_, fun e c => h.agree_rotAlg rs e c⟩, ⟨fun e => ?_, fun e c => h.agree_reversed e c⟩⟩
  · have := h.agree_rotAlg (rs.reverse.map AxisRotation.inverse) e
    rwa [h.rotAlg_back, h.rotAlg_back] at this
  · have := h.agree_reversed e
    rwa [h.reversed_reversed, h.reversed_reversed] at this

/-- `R L` and `L R` on the 5x5, rotated by `y` and then `x2` -/
example : movedAlg (Cube.SOLVED : Cube5) [(⟨.B, .single⟩ : AxisMove), ⟨.F, .single⟩] =
    movedAlg (Cube.SOLVED : Cube5) [(⟨.F, .single⟩ : AxisMove), ⟨.B, .single⟩] :=
  (C100_same_state ⟨⟨Cube5, AxisMove⟩, rotated, fun _ => True⟩ (by simp [rotSystems]) [⟨.Y, .single⟩, ⟨.X, .double⟩]
    [⟨.R, .single⟩, ⟨.L, .single⟩] [⟨.L, .single⟩, ⟨.R, .single⟩]).1.2 (by decide +kernel)

/-- **C100** The solutions of a rotated scramble are the rotated solutions, the solutions of a reversed scramble are the
reversed solutions. -/
theorem C100_solutions (s : RotSys) (hs : s ∈ rotSystems) (rs : List AxisRotation) (a x : List s.M) :
    (s.Solves (s.rotAlg rs a) (s.rotAlg rs x) ↔ s.Solves a x) ∧ (s.Solves (reversed a) (reversed x) ↔ s.Solves a x) := by
  have h := rotSystems_good s hs
  rw [h.solves_iff, h.solves_iff, h.solves_iff, ← RotSys.Good.reversed_rotAlg h.inverse]
  obtain ⟨h1, h2⟩ := C100_same_state s hs rs a (reversed x)
  rw [h.agree, h.agree] at h1
  rw [h.agree, h.agree] at h2
  exact ⟨h1, h2⟩

/-- a wide move on the 6x6: `3Rw` is solved by `3Rw'`, so `3Fw` (after `y`) by `3Fw'` -/
example : (⟨⟨Cube6, WideAxisMove 2⟩, rotWide, WideAxisMove.WF⟩ : RotSys).Solves [⟨2, ⟨.F, .single⟩⟩] [⟨2, ⟨.F, .inverse⟩⟩] :=
  (C100_solutions ⟨⟨Cube6, WideAxisMove 2⟩, rotWide, WideAxisMove.WF⟩ (by simp [rotSystems]) [⟨.Y, .single⟩]
    [⟨2, ⟨.R, .single⟩⟩] [⟨2, ⟨.R, .inverse⟩⟩]).1.2 (by unfold RotSys.Solves; decide +kernel)

/-- **C100** A scramble, the scramble rotated in any way and the scramble reversed can be solved in the same numbers of
moves; in particular the least number is the same. -/
theorem C100_moves_needed (s : RotSys) (hs : s ∈ rotSystems) (rs : List AxisRotation) (a : List s.M) (n : Nat) :
    (s.SolvableIn (s.rotAlg rs a) n ↔ s.SolvableIn a n) ∧ (s.SolvableIn (reversed a) n ↔ s.SolvableIn a n) := by
  have h := rotSystems_good s hs
  have okr : ∀ (rs : List AxisRotation) (m : s.M), s.ok (rs.foldl s.rot m) ↔ s.ok m := by
    intro rs
    induction rs with
    | nil => exact fun m => Iff.rfl
    | cons r rs ih => exact fun m => (ih _).trans (h.ok_rot m r)
  have f1 : ∀ (rs : List AxisRotation) (a : List s.M), s.SolvableIn a n → s.SolvableIn (s.rotAlg rs a) n := by
    rintro rs a ⟨x, h1, h2, h3⟩
    refine ⟨s.rotAlg rs x, ?_, by simpa [RotSys.rotAlg] using h2, (C100_solutions s hs rs a x).1.2 h3⟩
    intro m hm
    obtain ⟨m, hm', rfl⟩ := List.mem_map.1 hm
    exact (okr rs m).2 (h1 m hm')
  have f2 : ∀ a : List s.M, s.SolvableIn a n → s.SolvableIn (reversed a) n := by
    rintro a ⟨x, h1, h2, h3⟩
    refine ⟨reversed x, ?_, by simpa [reversed] using h2, (C100_solutions s hs [] a x).2.2 h3⟩
    intro m hm
    simp only [reversed, List.mem_map, List.mem_reverse] at hm
    obtain ⟨m, hm', rfl⟩ := hm
    exact (h.ok_inverse m).2 (h1 m hm')
  refine ⟨⟨fun e => ?_, f1 rs a⟩, ⟨fun e => ?_, f2 a⟩⟩
  · have := f1 (rs.reverse.map AxisRotation.inverse) _ e
    rwa [h.rotAlg_back] at this
  · have := f2 _ e
    rwa [h.reversed_reversed] at this

/-- the sexy move on the 3x3, its reverse, and `F U F' U'` can all be solved in 4 moves -/
example : ∀ a ∈ [Perms.SEXY_MOVE, reversed Perms.SEXY_MOVE, rotated Perms.SEXY_MOVE (⟨.Y, .single⟩ : AxisRotation)],
    (⟨⟨Cube3, AxisMove⟩, rotated, fun _ => True⟩ : RotSys).SolvableIn a 4 := by
  have h := C100_moves_needed ⟨⟨Cube3, AxisMove⟩, rotated, fun _ => True⟩ (by simp [rotSystems]) [⟨.Y, .single⟩]
    Perms.SEXY_MOVE 4
  have h0 : (⟨⟨Cube3, AxisMove⟩, rotated, fun _ => True⟩ : RotSys).SolvableIn Perms.SEXY_MOVE 4 :=
    ⟨reversed Perms.SEXY_MOVE, fun _ _ => trivial, rfl, by unfold RotSys.Solves; decide +kernel⟩
  simp only [List.forall_mem_cons, List.not_mem_nil, false_imp_iff, implies_true, and_true]
  exact ⟨h0, h.2.2 h0, h.1.2 h0⟩

/-! ## What this means for `is_solved` -/

/-- **C100** On the 2x2, the 3x3 and the 5x5 also with `is_solved`: an alg makes `is_solved` true for a scramble exactly when
the rotated alg does so for the rotated scramble. -/
theorem C100_is_solved (r : AxisRotation) (a x : List AxisMove) :
    Cube.isSolved (movedAlg (movedAlg (Cube.SOLVED : Cube2) (rotated a r)) (rotated x r)) =
      Cube.isSolved (movedAlg (movedAlg (Cube.SOLVED : Cube2) a) x) ∧
    Cube.isSolved (movedAlg (movedAlg (Cube.SOLVED : Cube3) (rotated a r)) (rotated x r)) =
      Cube.isSolved (movedAlg (movedAlg (Cube.SOLVED : Cube3) a) x) ∧
    Cube.isSolved (movedAlg (movedAlg (Cube.SOLVED : Cube5) (rotated a r)) (rotated x r)) =
      Cube.isSolved (movedAlg (movedAlg (Cube.SOLVED : Cube5) a) x) := by
  refine ⟨Bool.eq_iff_iff.2 ?_, Bool.eq_iff_iff.2 ?_, Bool.eq_iff_iff.2 ?_⟩
  · have h := (C100_solutions ⟨⟨Cube2, AxisMove⟩, rotated, fun _ => True⟩ (by simp [rotSystems]) [r] a x).1
    unfold RotSys.Solves at h
    exact decide_eq_true_iff.trans (h.trans decide_eq_true_iff.symm)
  · have h := (C100_solutions ⟨⟨Cube3, AxisMove⟩, rotated, fun _ => True⟩ (by simp [rotSystems]) [r] a x).1
    unfold RotSys.Solves at h
    exact decide_eq_true_iff.trans (h.trans decide_eq_true_iff.symm)
  · have h := (C100_solutions ⟨⟨Cube5, AxisMove⟩, rotated, fun _ => True⟩ (by simp [rotSystems]) [r] a x).1
    unfold RotSys.Solves at h
    exact decide_eq_true_iff.trans (h.trans decide_eq_true_iff.symm)

/-- `R` and `R'` rotated by `z` -/
example : Cube.isSolved (movedAlg (movedAlg (Cube.SOLVED : Cube3) [(⟨.D, .single⟩ : AxisMove)]) [(⟨.D, .inverse⟩ : AxisMove)]) = true :=
  (C100_is_solved ⟨.Z, .single⟩ [⟨.R, .single⟩] [⟨.R, .inverse⟩]).2.1.trans (by decide +kernel)

/-- **C100** is false with `is_solved` on the 4x4, the 6x6 and the 7x7, where `is_solved` mixes up centers (C19): after an alg
it is true, after the alg rotated by `y` it is false. -/
theorem C100_is_solved_depends_on_rotation :
    (Cube.isSolved (movedAlg (Cube.SOLVED : Cube4) mixCenters4) = true ∧
      Cube.isSolved (movedAlg (Cube.SOLVED : Cube4) (mixCenters4.map (rotWide · ⟨.Y, .single⟩))) = false) ∧
    (Cube.isSolved (movedAlg (Cube.SOLVED : Cube6) mixCenters6) = true ∧
      Cube.isSolved (movedAlg (Cube.SOLVED : Cube6) (mixCenters6.map (rotWide · ⟨.Y, .single⟩))) = false) ∧
    (Cube.isSolved (movedAlg (Cube.SOLVED : Cube7) mixCenters6) = true ∧
      Cube.isSolved (movedAlg (Cube.SOLVED : Cube7) (mixCenters6.map (rotWide · ⟨.Y, .single⟩))) = false) := by
  decide +kernel

/-! ## What the solver returns -/

theorem returns_unique {R : Type} {f : Nat → Option R} {x y : R} (hx : Returns f x) (hy : Returns f y) : x = y := by
  obtain ⟨m, hx⟩ := hx
  obtain ⟨n, hy⟩ := hy
  exact Option.some.inj ((hx (max m n) (le_max_left _ _)).symm.trans (hy (max m n) (le_max_right _ _)))

/-- **C100** `solve_with_heuristic` returns solutions of the same length for a scramble, for the scramble rotated in any way
and for the reversed scramble, with any admissible integer-valued heuristics (even with different ones). -/
theorem C100_solver (h h' : Cube3 → ℚ) (h0 : ∀ c, 0 ≤ h c) (h0' : ∀ c, 0 ≤ h' c) (hz : ∀ c, ∃ z : ℤ, h c = z)
    (hz' : ∀ c, ∃ z : ℤ, h' c = z)
    (ha : ∀ (c : Cube3) (alg : List AxisMove), movedAlg c alg = Cube3.SOLVED → h c ≤ alg.length)
    (ha' : ∀ (c : Cube3) (alg : List AxisMove), movedAlg c alg = Cube3.SOLVED → h' c ≤ alg.length)
    (a b : List AxisMove) (hb : b = reversed a ∨ ∃ rs : List AxisRotation, b = a.map fun m => rs.foldl rotated m) :
    ∃ x y : List AxisMove,
      Returns (fun fuel => Cube3.solveWithHeuristic? exactOps h fuel (movedAlg Cube3.SOLVED a)) (some x) ∧
      Returns (fun fuel => Cube3.solveWithHeuristic? exactOps h' fuel (movedAlg Cube3.SOLVED b)) (some y) ∧
      x.length = y.length := by
  obtain ⟨x, x1, x2, x3, -⟩ := C29_optimal h h0 hz ha (movedAlg Cube3.SOLVED a) ⟨a, rfl⟩
  obtain ⟨y, y1, y2, y3, -⟩ := C29_optimal h' h0' hz' ha' (movedAlg Cube3.SOLVED b) ⟨b, rfl⟩
  refine ⟨x, y, x1, y1, ?_⟩
  have hs : (⟨⟨Cube3, AxisMove⟩, rotated, fun _ => True⟩ : RotSys) ∈ rotSystems := by simp [rotSystems]
  have key : ∀ n, (⟨⟨Cube3, AxisMove⟩, rotated, fun _ => True⟩ : RotSys).SolvableIn b n ↔
      (⟨⟨Cube3, AxisMove⟩, rotated, fun _ => True⟩ : RotSys).SolvableIn a n := by
    intro n
    rcases hb with rfl | ⟨rs, rfl⟩
    · exact (C100_moves_needed _ hs [] a n).2
    · exact (C100_moves_needed _ hs rs a n).1
  apply le_antisymm
  · obtain ⟨z, -, z1, z2⟩ := (key y.length).1 ⟨y, fun _ _ => trivial, rfl, y2⟩
    exact (x3 z z2).trans z1.le
  · obtain ⟨z, -, z1, z2⟩ := (key x.length).2 ⟨x, fun _ _ => trivial, rfl, x2⟩
    exact (y3 z z2).trans z1.le

/-- the T permutation and its reverse, without a heuristic -/
example : ∃ x y : List AxisMove,
    Returns (fun fuel => Cube3.solveWithHeuristic? exactOps zeroHeuristic fuel (movedAlg Cube3.SOLVED Perms.T)) (some x) ∧
    Returns (fun fuel => Cube3.solveWithHeuristic? exactOps zeroHeuristic fuel (movedAlg Cube3.SOLVED (reversed Perms.T))) (some y) ∧
    x.length = y.length :=
  C100_solver zeroHeuristic zeroHeuristic (fun _ => le_rfl) (fun _ => le_rfl) (fun _ => ⟨0, rfl⟩) (fun _ => ⟨0, rfl⟩)
    (fun _ _ _ => Nat.cast_nonneg _) (fun _ _ _ => Nat.cast_nonneg _) Perms.T _ (.inl rfl)

/-! ## Where the pieces of the rotated scramble are -/

/-- the slot a slot of an edge is rotated to -/
def edgeSlot (r : AxisRotation) (i : Fin 12) : Fin 12 :=
  ((List.finRange 12).find? fun j => decide (Edge.REFERENCE_POSITIONS j = Piece.position (rotated (PieceSet.SOLVED Edge i) r))).getD 0

/-- how often the rotated edge has to be flipped to be in place -/
def edgeFlips (r : AxisRotation) (i : Fin 12) : Nat := if (rotated (PieceSet.SOLVED Edge i) r).oriented then 0 else 1

/-- the slot a slot of a corner is rotated to -/
def cornerSlot (r : AxisRotation) (i : Fin 8) : Fin 8 :=
  ((List.finRange 8).find? fun j => decide (Corner.REFERENCE_POSITIONS j = Piece.position (rotated (PieceSet.SOLVED Corner i) r))).getD 0

/-- how often the rotated corner has to be twisted to be in place -/
def cornerTwists (r : AxisRotation) (i : Fin 8) : Nat :=
  ((List.range 3).find? fun k => decide (Turnable.turn^[k] (rotated (PieceSet.SOLVED Corner i) r) =
    PieceSet.SOLVED Corner (cornerSlot r i))).getD 0

theorem edgeSlot_table : ∀ (r : AxisRotation) (i : Fin 12),
    Turnable.turn^[edgeFlips r i] (rotated (PieceSet.SOLVED Edge i) r) = PieceSet.SOLVED Edge (edgeSlot r i) ∧
    ∀ e : Edge, Edge.minMovesToSolve (Edge.REFERENCE_POSITIONS (edgeSlot r i)) (Turnable.turn^[edgeFlips r i] (rotated e r)) =
        Edge.minMovesToSolve (Edge.REFERENCE_POSITIONS i) e ∧
      pieceManhattan (P := Edge) (Edge.REFERENCE_POSITIONS (edgeSlot r i)) (Turnable.turn^[edgeFlips r i] (rotated e r)) =
        pieceManhattan (P := Edge) (Edge.REFERENCE_POSITIONS i) e ∧
      (Turnable.turn^[edgeFlips r i] (rotated e r) = PieceSet.SOLVED Edge (edgeSlot r i) ↔ e = PieceSet.SOLVED Edge i) := by
  decide +kernel

theorem cornerSlot_table : ∀ (r : AxisRotation) (i : Fin 8),
    Turnable.turn^[cornerTwists r i] (rotated (PieceSet.SOLVED Corner i) r) = PieceSet.SOLVED Corner (cornerSlot r i) ∧
    ∀ c : Corner,
      pieceManhattan (P := Corner) (Corner.REFERENCE_POSITIONS (cornerSlot r i)) (Turnable.turn^[cornerTwists r i] (rotated c r)) =
        pieceManhattan (P := Corner) (Corner.REFERENCE_POSITIONS i) c := by
  decide +kernel

theorem edgeSlot_bijective (r : AxisRotation) : Function.Bijective (edgeSlot r) := by
  rw [← Finite.injective_iff_bijective]; unfold Function.Injective; revert r; decide +kernel
theorem cornerSlot_bijective (r : AxisRotation) : Function.Bijective (cornerSlot r) := by
  rw [← Finite.injective_iff_bijective]; unfold Function.Injective; revert r; decide +kernel

theorem blind_alg {P : Type} [Turnable P] [Movable P AxisMove] (hb : ∀ m : AxisMove, Blind (fun p : P => moved p m))
    (w : List AxisMove) (k : Nat) (p : P) : movedAlg (Turnable.turn^[k] p) w = Turnable.turn^[k] (movedAlg p w) := by
  have one : ∀ (w : List AxisMove) (p : P), movedAlg (Turnable.turn p) w = Turnable.turn (movedAlg p w) := by
    intro w
    induction w with
    | nil => exact fun p => rfl
    | cons m w ih =>
      intro p
      show movedAlg (moved (Turnable.turn p) m) w = _
      rw [show moved (Turnable.turn p) m = Turnable.turn (moved p m) from hb m p]
      exact ih _
  induction k with
  | zero => rfl
  | succ k ih => rw [Function.iterate_succ_apply', one, ih, Function.iterate_succ_apply']

/-- Where an edge is after the rotated scramble: rotate the edge that was there before, and flip it if needed. -/
theorem edge_after_rotated (r : AxisRotation) (w : List AxisMove) (i : Fin 12) :
    (movedAlg Cube3.SOLVED (rotated w r)).edges (edgeSlot r i) =
      Turnable.turn^[edgeFlips r i] (rotated ((movedAlg Cube3.SOLVED w).edges i) r) := by
  rw [cube3_edges_alg, cube3_edges_alg]
  show movedAlg (PieceSet.SOLVED Edge (edgeSlot r i)) _ = Turnable.turn^[_] (rotated (movedAlg (PieceSet.SOLVED Edge i) w) r)
  rw [← (edgeSlot_table r i).1, blind_alg edge_blind]
  congr 1
  exact (movedAlg_commutes (fun e : Edge => rotated e r) (fun m : AxisMove => rotated m r) (fun e m => C56_edge e m r) _ w).symm

theorem corner_after_rotated (r : AxisRotation) (w : List AxisMove) (i : Fin 8) :
    (movedAlg Cube3.SOLVED (rotated w r)).corners (cornerSlot r i) =
      Turnable.turn^[cornerTwists r i] (rotated ((movedAlg Cube3.SOLVED w).corners i) r) := by
  rw [cube3_corners_alg, cube3_corners_alg]
  show movedAlg (PieceSet.SOLVED Corner (cornerSlot r i)) _ = Turnable.turn^[_] (rotated (movedAlg (PieceSet.SOLVED Corner i) w) r)
  rw [← (cornerSlot_table r i).1, blind_alg corner_blind]
  congr 1
  exact (movedAlg_commutes (fun e : Corner => rotated e r) (fun m : AxisMove => rotated m r) (fun e m => C56_corner e m r) _ w).symm

/-! ## The Manhattan heuristic -/

theorem manhattan_rotated (w : List AxisMove) (r : AxisRotation) :
    manhattan (movedAlg Cube3.SOLVED (rotated w r)) = manhattan (movedAlg Cube3.SOLVED w) := by
  unfold manhattan
  simp only [pieceSetManhattan_eq]
  rw [← (edgeSlot_bijective r).sum_comp, ← (cornerSlot_bijective r).sum_comp]
  simp only [edge_after_rotated, corner_after_rotated]
  congr 3
  · exact Finset.sum_congr rfl fun i _ => ((edgeSlot_table r i).2 _).2.1
  · exact Finset.sum_congr rfl fun i _ => (cornerSlot_table r i).2 _

/-- the sum of distances for a permutation of the places, and for its inverse -/
theorem sum_reversed {P : Type} {n : Nat} [PieceSetDescriptor P n] [LawfulDescriptor P n] [Turnable P] [Coordinates P]
    (F G : P → P) (hGF : ∀ p, G (F p) = p) (hG : ∀ k p, G (Turnable.turn^[k] p) = Turnable.turn^[k] (G p))
    (hpos : ∀ (k : Nat) (p : P), Piece.position (Turnable.turn^[k] p) = Piece.position p)
    (hP : ∀ p q : P, Piece.position p = Piece.position q → ∃ k < 3, p = Turnable.turn^[k] q)
    (hv : PieceSet.Valid fun i => F (PieceSet.SOLVED P i))
    (hsymm : ∀ p q : Piece.Position P, vecManhattan (Coordinates.coordinatesPos (P := P) p) (Coordinates.coordinatesPos (P := P) q) =
      vecManhattan (Coordinates.coordinatesPos (P := P) q) (Coordinates.coordinatesPos (P := P) p)) :
    ∑ i, pieceManhattan (PieceSetDescriptor.REFERENCE_POSITIONS (P := P) i) (G (PieceSet.SOLVED P i)) =
      ∑ i, pieceManhattan (PieceSetDescriptor.REFERENCE_POSITIONS (P := P) i) (F (PieceSet.SOLVED P i)) := by
  have hsol : ∀ i, Piece.position (PieceSet.SOLVED P i) = PieceSetDescriptor.REFERENCE_POSITIONS (P := P) i :=
    LawfulDescriptor.solved_pos
  have hex : ∀ i, ∃ j, Piece.position (F (PieceSet.SOLVED P i)) = PieceSetDescriptor.REFERENCE_POSITIONS (P := P) j := fun i =>
    ((LawfulDescriptor.ref_bij (P := P)).2 _).imp fun j h => h.symm
  choose π hπ using hex
  have hinj : Function.Injective π := fun i j e => hv (by
    show Piece.position (F (PieceSet.SOLVED P i)) = Piece.position (F (PieceSet.SOLVED P j))
    rw [hπ, hπ, e])
  rw [← (Finite.injective_iff_bijective.1 hinj).sum_comp]
  refine Finset.sum_congr rfl fun i _ => ?_
  obtain ⟨k, -, hk⟩ := hP (F (PieceSet.SOLVED P i)) (PieceSet.SOLVED P (π i)) ((hπ i).trans (hsol _).symm)
  have h1 : Piece.position (G (PieceSet.SOLVED P (π i))) = PieceSetDescriptor.REFERENCE_POSITIONS (P := P) i := by
    rw [← hsol i, ← hpos k, ← hG, ← hk, hGF]
  unfold pieceManhattan
  rw [h1, hπ]
  exact hsymm _ _

theorem vecManhattan_symm (a b : Int × Int × Int) : vecManhattan a b = vecManhattan b a := by
  unfold vecManhattan; rw [abs_sub_comm a.1, abs_sub_comm a.2.1, abs_sub_comm a.2.2]

theorem manhattan_reversed (w : List AxisMove) :
    manhattan (movedAlg Cube3.SOLVED (reversed w)) = manhattan (movedAlg Cube3.SOLVED w) := by
  have undo : ∀ c : Cube3, movedAlg (movedAlg c w) (reversed w) = c := fun c =>
    (C02_alg_then_reversed ⟨Cube3, AxisMove⟩ (by simp [moveSystems]) w c).1
  obtain ⟨v1, v2⟩ := (valid_iff _).1 (C08_cubes.2.1 _ w C08_solved_valid.2.1)
  have e1 : pieceSetManhattan (movedAlg Cube3.SOLVED (reversed w)).edges = pieceSetManhattan (movedAlg Cube3.SOLVED w).edges := by
    simp only [pieceSetManhattan_eq, cube3_edges_alg]
    refine sum_reversed (P := Edge) (movedAlg · w) (movedAlg · (reversed w)) (fun e => ?_) (blind_alg edge_blind (reversed w))
      (fun k => ?_) edge_turns (fun i j h => v1 ?_) (fun _ _ => vecManhattan_symm _ _)
    · have := congrFun (congrArg Cube3.edges (undo ⟨fun _ => e, PieceSet.SOLVED Corner⟩)) 0
      rwa [cube3_edges_alg, cube3_edges_alg] at this
    · induction k with
      | zero => exact fun _ => rfl
      | succ k ih => intro p; rw [Function.iterate_succ_apply']; exact ih p
    · show Piece.position ((movedAlg Cube3.SOLVED w).edges i) = Piece.position ((movedAlg Cube3.SOLVED w).edges j)
      rw [cube3_edges_alg, cube3_edges_alg]; exact h
  have e2 : pieceSetManhattan (movedAlg Cube3.SOLVED (reversed w)).corners = pieceSetManhattan (movedAlg Cube3.SOLVED w).corners := by
    simp only [pieceSetManhattan_eq, cube3_corners_alg]
    refine sum_reversed (P := Corner) (movedAlg · w) (movedAlg · (reversed w)) (fun e => ?_) (blind_alg corner_blind (reversed w))
      (fun k => ?_) corner_turns (fun i j h => v2 ?_) (fun _ _ => vecManhattan_symm _ _)
    · have := congrFun (congrArg Cube3.corners (undo ⟨PieceSet.SOLVED Edge, fun _ => e⟩)) 0
      rwa [cube3_corners_alg, cube3_corners_alg] at this
    · induction k with
      | zero => exact fun _ => rfl
      | succ k ih => intro p; rw [Function.iterate_succ_apply']; exact ih p
    · show Piece.position ((movedAlg Cube3.SOLVED w).corners i) = Piece.position ((movedAlg Cube3.SOLVED w).corners j)
      rw [cube3_corners_alg, cube3_corners_alg]; exact h
  unfold manhattan
  rw [e1, e2]

/-- **C100** The Manhattan heuristic gives the same number for a scramble, for the scramble rotated and for the scramble
reversed. -/
theorem C100_manhattan (w : List AxisMove) :
    manhattan (movedAlg Cube3.SOLVED (reversed w)) = manhattan (movedAlg Cube3.SOLVED w) ∧
    ∀ rs : List AxisRotation, manhattan (movedAlg Cube3.SOLVED (w.map fun m => rs.foldl rotated m)) =
      manhattan (movedAlg Cube3.SOLVED w) := by
  refine ⟨manhattan_reversed w, fun rs => ?_⟩
  induction rs generalizing w with
  | nil => simp
  | cons r rs ih =>
    have := (ih (rotated w r)).trans (manhattan_rotated w r)
    rwa [show rotated w r = w.map (fun m => rotated m r) from rfl, List.map_map] at this

/-- `R2` and `U2`: 3/2 -/
example : manhattan (movedAlg Cube3.SOLVED [(⟨.U, .double⟩ : AxisMove)]) = manhattan (movedAlg Cube3.SOLVED [(⟨.R, .double⟩ : AxisMove)]) :=
  (C100_manhattan [⟨.R, .double⟩]).2 [⟨.Z, .inverse⟩]

/-! ## The cross -/

theorem crossSlots_rotated : ∀ (r : AxisRotation) (f : Face), ((crossSlots f).map (edgeSlot r)).Perm (crossSlots (rotated f r)) := by
  decide +kernel

theorem crossEdgeMoves_rotated (w : List AxisMove) (r : AxisRotation) (f : Face) :
    (crossEdgeMoves (movedAlg Cube3.SOLVED w) f).Perm (crossEdgeMoves (movedAlg Cube3.SOLVED (rotated w r)) (rotated f r)) := by
  rw [crossEdgeMoves_eq, crossEdgeMoves_eq]
  refine List.Perm.trans (List.Perm.of_eq ?_) ((crossSlots_rotated r f).map _)
  rw [List.map_map]
  refine List.map_congr_left fun i _ => ?_
  simp only [Function.comp_apply, edge_after_rotated]
  exact ((edgeSlot_table r i).2 _).1.symm

/-- **C100** The cross: after the rotated scramble, the cross of the rotated face is solved exactly when the cross of the face
is solved after the scramble; as many of its edges are in place; both cross heuristics say the same. -/
theorem C100_cross (w : List AxisMove) (r : AxisRotation) (f : Face) :
    ((movedAlg Cube3.SOLVED (rotated w r)).CrossSolved (rotated f r) ↔ (movedAlg Cube3.SOLVED w).CrossSolved f) ∧
    countCrossPieces (movedAlg Cube3.SOLVED (rotated w r)) (rotated f r) = countCrossPieces (movedAlg Cube3.SOLVED w) f ∧
    goodCrossHeuristic (movedAlg Cube3.SOLVED (rotated w r)) (rotated f r) = goodCrossHeuristic (movedAlg Cube3.SOLVED w) f ∧
    worseCrossHeuristic? (movedAlg Cube3.SOLVED (rotated w r)) (rotated f r) = worseCrossHeuristic? (movedAlg Cube3.SOLVED w) f := by
  have count : countCrossPieces (movedAlg Cube3.SOLVED (rotated w r)) (rotated f r) = countCrossPieces (movedAlg Cube3.SOLVED w) f := by
    rw [countCrossPieces_eq, countCrossPieces_eq, ← ((crossSlots_rotated r f).filter _).length_eq, List.filter_map, List.length_map]
    congr 1
    refine List.filter_congr fun i _ => ?_
    simp only [Function.comp_apply, edge_after_rotated]
    exact decide_eq_decide.2 ((edgeSlot_table r i).2 _).2.2
  have hp := crossEdgeMoves_rotated w r f
  refine ⟨?_, count, ?_, ?_⟩
  · rw [← (C32_count _ _).2.2, ← (C32_count _ _).2.2, count]
  · unfold goodCrossHeuristic
    rw [hp.sum_eq]
  · have hm : (crossEdgeMoves (movedAlg Cube3.SOLVED (rotated w r)) (rotated f r)).max? =
        (crossEdgeMoves (movedAlg Cube3.SOLVED w) f).max? := by
      apply Option.ext
      intro n
      rw [List.max?_eq_some_iff, List.max?_eq_some_iff]
      constructor
      · exact fun ⟨h1, h2⟩ => ⟨hp.mem_iff.2 h1, fun b hb => h2 b (hp.mem_iff.1 hb)⟩
      · exact fun ⟨h1, h2⟩ => ⟨hp.mem_iff.1 h1, fun b hb => h2 b (hp.mem_iff.2 hb)⟩
    unfold worseCrossHeuristic?
    rw [hm]

/-- after `R` the cross of L is solved and three edges of the cross of U are in place; after `F` so for B and U (the rotation is `y`) -/
example : (movedAlg Cube3.SOLVED [(⟨.F, .single⟩ : AxisMove)]).CrossSolved .B ∧
    countCrossPieces (movedAlg Cube3.SOLVED [(⟨.F, .single⟩ : AxisMove)]) .U = 3 :=
  ⟨(C100_cross [⟨.R, .single⟩] ⟨.Y, .single⟩ .L).1.2 (by decide +kernel),
    (C100_cross [⟨.R, .single⟩] ⟨.Y, .single⟩ .U).2.1.trans (by decide +kernel)⟩

/-- **C100** `solve_cross` returns algs of the same length for a scramble and a face, and for both rotated. -/
theorem C100_solve_cross (w : List AxisMove) (r : AxisRotation) (f : Face) :
    ∃ (x y : List AxisMove) (d e : Cube3),
      Returns (fun fuel => solveCross? fuel (movedAlg Cube3.SOLVED w) f) (some (x, d)) ∧
      Returns (fun fuel => solveCross? fuel (movedAlg Cube3.SOLVED (rotated w r)) (rotated f r)) (some (y, e)) ∧
      x.length = y.length := by
  have hv : ∀ w : List AxisMove, (movedAlg Cube3.SOLVED w).valid := fun w => C08_cubes.2.1 _ w C08_solved_valid.2.1
  obtain ⟨x, d, x1, x2, x3, x4, -⟩ := C31_solve_cross _ (hv w) f
  obtain ⟨y, e, y1, y2, y3, y4, -⟩ := C31_solve_cross _ (hv (rotated w r)) (rotated f r)
  refine ⟨x, y, d, e, x1, y1, le_antisymm ?_ ?_⟩
  · -- the solution of the rotated scramble, rotated back
    have hb : rotated (rotated y r.inverse) r = y := by
      show (y.map (fun m => rotated m r.inverse)).map (fun m => rotated m r) = y
      rw [List.map_map]
      conv_rhs => rw [← List.map_id y]
      exact List.map_congr_left fun m _ => (rotated_back m r).2
    have := x4 (rotated y r.inverse) (by
      rw [← movedAlg_append, ← (C100_cross _ r f).1]
      rw [← y2] at y3
      rw [← movedAlg_append] at y3
      rw [show rotated (w ++ rotated y r.inverse) r = rotated w r ++ rotated (rotated y r.inverse) r from List.map_append, hb]
      exact y3)
    refine this.trans (Nat.le_of_eq ?_)
    exact List.length_map _
  · have := y4 (rotated x r) (by
      rw [← x2, ← movedAlg_append, ← (C100_cross _ r f).1] at x3
      rw [← movedAlg_append]
      rw [show rotated (w ++ x) r = rotated w r ++ rotated x r from List.map_append] at x3
      exact x3)
    refine this.trans (Nat.le_of_eq ?_)
    exact List.length_map _

/-- the cross of D after the sexy move, and the cross of U after the sexy move rotated by `x2` -/
example : ∃ (x y : List AxisMove) (d e : Cube3),
    Returns (fun fuel => solveCross? fuel (movedAlg Cube3.SOLVED Perms.SEXY_MOVE) .D) (some (x, d)) ∧
    Returns (fun fuel => solveCross? fuel (movedAlg Cube3.SOLVED
      [(⟨.R, .single⟩ : AxisMove), ⟨.D, .single⟩, ⟨.R, .inverse⟩, ⟨.D, .inverse⟩]) .U) (some (y, e)) ∧ x.length = y.length :=
  C100_solve_cross Perms.SEXY_MOVE ⟨.X, .double⟩ .D

/-- **C100** For the reversed scramble this is not so: after `U R2` one move solves the cross of D, after the reverse none
does. -/
theorem C100_cross_not_reversed : ∃ w : List AxisMove,
    (∃ x : List AxisMove, x.length = 1 ∧ (movedAlg (movedAlg Cube3.SOLVED w) x).CrossSolved .D) ∧
    ∀ x : List AxisMove, (movedAlg (movedAlg Cube3.SOLVED (reversed w)) x).CrossSolved .D → 2 ≤ x.length := by
  refine ⟨[⟨.U, .single⟩, ⟨.R, .double⟩], ⟨[⟨.R, .double⟩], rfl, by decide +kernel⟩, fun x hx => ?_⟩
  rcases x with _ | ⟨m, _ | ⟨n, x⟩⟩
  · exact absurd hx (by decide +kernel)
  · have : ∀ m : AxisMove, ¬ (movedAlg (movedAlg Cube3.SOLVED (reversed [(⟨.U, .single⟩ : AxisMove), ⟨.R, .double⟩])) [m]).CrossSolved .D := by
      decide +kernel
    exact absurd hx (this m)
  · simp

end Barbarosa
