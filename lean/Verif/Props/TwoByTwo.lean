import Verif.Props.Meaning
import Verif.Props.Effects

/-!
# How many moves a 2x2 takes

C105.
-/

namespace Barbarosa

open Face

/-- R U R U R F2 R F' R F2 U2 -/
def farAlg : List AxisMove :=
  [⟨R, .single⟩, ⟨U, .single⟩, ⟨R, .single⟩, ⟨U, .single⟩, ⟨R, .single⟩, ⟨F, .double⟩, ⟨R, .single⟩, ⟨F, .inverse⟩, ⟨R, .single⟩,
    ⟨F, .double⟩, ⟨U, .double⟩]

theorem farAlg_eq : farAlg = Two.movesOf Two.farWord := by decide +kernel

theorem cube2_alg_corners (w : List AxisMove) (c : Cube2) (i : Fin 8) : (movedAlg c w).corners i = movedAlg (c.corners i) w := by
  induction w generalizing c with
  | nil => rfl
  | cons m w ih => exact ih (moved c m)

/-- **C105** Every 2x2 that turns lead to is solved by some alg of at most 11 moves. -/
theorem C105_eleven_suffice (c : Cube2) (h : c.Reachable) : ∃ alg : List AxisMove, alg.length ≤ 11 ∧ movedAlg c alg = Cube.SOLVED :=
  (C17_reachable_iff c).2.2 ((C17_reachable_iff c).1.1 h)

/-- a 2x2 scrambled by a hundred moves -/
example : ∃ alg : List AxisMove, alg.length ≤ 11 ∧
    movedAlg (movedAlg (Cube.SOLVED : Cube2) (List.replicate 20 (Perms.SEXY_MOVE ++ [⟨F, .single⟩])).flatten) alg = Cube.SOLVED :=
  C105_eleven_suffice _ ⟨_, rfl⟩

/-- **C105** Ten are not enough: the 2x2 scrambled by R U R U R F2 R F' R F2 U2 takes 11 moves to solve, and as many even if it
may end up rotated (`rs` are rotations, each piece of the end is that piece of the solved 2x2 rotated). -/
theorem C105_eleven_needed (c : Cube2) (hc : c = movedAlg (Cube.SOLVED : Cube2) farAlg) :
    MinTurns c (Cube.SOLVED : Cube2) 11 ∧
    ∀ (alg : List AxisMove) (rs : List AxisRotation),
      (∀ i, (movedAlg c alg).corners i = rs.foldl rotated ((Cube.SOLVED : Cube2).corners i)) → 11 ≤ alg.length := by
  subst hc
  have back : movedAlg (movedAlg (Cube.SOLVED : Cube2) farAlg) (reversed farAlg) = Cube.SOLVED :=
    (C02_alg_then_reversed ⟨Cube2, AxisMove⟩ (by simp [moveSystems]) farAlg _).1
  have key : ∀ (alg : List AxisMove) (rs : List AxisRotation),
      (∀ i, (movedAlg (movedAlg (Cube.SOLVED : Cube2) farAlg) alg).corners i = Two.rots rs ((Cube.SOLVED : Cube2).corners i)) →
        11 ≤ alg.length := by
    intro alg rs h
    refine Two.far_attitudes alg rs fun i => ?_
    have := h i
    rw [cube2_alg_corners, cube2_alg_corners, farAlg_eq] at this
    exact this
  exact ⟨⟨⟨reversed farAlg, rfl, back⟩, fun alg h => key alg [] fun i => by rw [h]; rfl⟩, key⟩

example (alg : List AxisMove) (h : movedAlg (movedAlg (Cube.SOLVED : Cube2) farAlg) alg = Cube.SOLVED) : 11 ≤ alg.length :=
  (C105_eleven_needed _ rfl).2 alg [] fun i => by rw [h]; rfl

/-- **C105** The same for algs: the effect of every alg on the 2x2 is that of one of at most 11 moves (`C85_long_algs_two`), and
that of R U R U R F2 R F' R F2 U2 is not that of any shorter alg. -/
theorem C105_shortest_alg (b : List AxisMove) (h : ∀ c : Cube2, movedAlg c b = movedAlg c farAlg) : farAlg.length ≤ b.length := by
  have := (C105_eleven_needed _ rfl).1.2 (reversed b) (by
    rw [← h]
    exact (C02_alg_then_reversed ⟨Cube2, AxisMove⟩ (by simp [moveSystems]) b _).1)
  have e : (reversed b).length = b.length := by simp [reversed]
  exact this.trans e.le

example : ∀ c : Cube2, movedAlg c ([⟨R, .single⟩, ⟨R, .inverse⟩] ++ farAlg) = movedAlg c farAlg := by
  intro c
  rw [alg_append]
  have e : movedAlg c [(⟨R, .single⟩ : AxisMove), ⟨R, .inverse⟩] = c :=
    (C02_alg_then_reversed ⟨Cube2, AxisMove⟩ (by simp [moveSystems]) [⟨R, .single⟩] c).1
  rw [e]

/-- **C105** In terms of the table: the corner table that is built has an entry for every 2x2 that turns lead to, the least number
of moves that solve it, and the greatest of these numbers is 11. -/
theorem C105_table : ∃ t, buildTable? CornersMUS = some t ∧
    (∀ c : Cube2, c.Reachable → ∃ i e, Deindexable.index? (T := CornersMUS) c.corners = some i ∧ t[i]? = some e ∧ e ≤ 11 ∧
      MinTurns c (Cube.SOLVED : Cube2) e) ∧
    ∃ c : Cube2, c.Reachable ∧ ∃ i, Deindexable.index? (T := CornersMUS) c.corners = some i ∧ t[i]? = some 11 := by
  obtain ⟨t, h1, -, h2⟩ := C68_two_by_two_distances
  refine ⟨t, h1, h2, movedAlg (Cube.SOLVED : Cube2) farAlg, ⟨farAlg, rfl⟩, ?_⟩
  obtain ⟨i, e, a1, a2, -, ⟨w, a3, a4⟩, a5⟩ := h2 _ ⟨farAlg, rfl⟩
  obtain ⟨⟨w', b1, b2⟩, b3⟩ := (C105_eleven_needed _ rfl).1
  refine ⟨i, a1, ?_⟩
  have l1 := b3 w a4
  have l2 := a5 w' b2
  rw [a2, show e = 11 by omega]

end Barbarosa
