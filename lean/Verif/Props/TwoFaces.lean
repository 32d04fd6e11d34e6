import Verif.Props.Generators
import Verif.Props.TwoCounts

/-!
# C116: which faces are enough if the 2x2 may be held in any way
-/

namespace Barbarosa

theorem turned_list (rs : List AxisRotation) : ∀ (c : Cube2) (i), (rs.foldl Cube2.turned c).corners i = rs.foldl rotated (c.corners i) := by
  induction rs with
  | nil => exact fun _ _ => rfl
  | cons r l ih => exact fun c i => ih (c.turned r) i

/-- turning the cube round and then a face is turning another face first -/
theorem turned_moves (rs : List AxisRotation) : ∀ (c : Cube2) (m : AxisMove),
    moved (rs.foldl Cube2.turned c) (rs.foldl AxisMove.rotated m) = rs.foldl Cube2.turned (moved c m) := by
  induction rs with
  | nil => exact fun _ _ => rfl
  | cons r l ih =>
    intro c m
    have h : (moved c m).turned r = moved (c.turned r) (m.rotated r) :=
      Cube2.ext (funext fun i => (Two.moved_rotated_corner (c.corners i) m r).symm)
    rw [List.foldl_cons, List.foldl_cons, List.foldl_cons, h]
    exact ih _ _

/-- on the 2x2 a turn of a face is one of the opposite face and turning the cube round -/
theorem opposite_table : ∀ (f : Face) (a : Amount), ∃ (b : Amount) (r : AxisRotation), ∀ x : Corner,
    x.moved ⟨f.opposite, b⟩ = rotated (x.moved ⟨f, a⟩) r := by
  decide +kernel

theorem whole_closed : ∀ w ∈ wholeTurns, ∀ r : AxisRotation, ∃ w' ∈ wholeTurns, ∀ i : Fin 8,
    rotated (w.foldl rotated (PieceSet.SOLVED Corner i)) r = w'.foldl rotated (PieceSet.SOLVED Corner i) := by
  decide +kernel

theorem looks_turned {c : Cube2} (h : c.LooksSolved) (r : AxisRotation) : (c.turned r).LooksSolved := by
  obtain ⟨w, hw, rfl⟩ := (C79_looks_solved _).1 h
  obtain ⟨w', hw', e⟩ := whole_closed w hw r
  refine (C79_looks_solved _).2 ⟨w', hw', Cube2.ext (funext fun i => ?_)⟩
  rw [turned_list, ← show _ = w'.foldl rotated ((Cube.SOLVED : Cube2).corners i) from e i]
  show rotated ((w.foldl Cube2.turned (Cube.SOLVED : Cube2)).corners i) r = _
  rw [turned_list]
  rfl

/-- **C116** With one face of each axis, an alg of the same length does to every 2x2 what a given alg does, up to turning the cube round. -/
theorem C116_one_of_each (S : Set Face) (hS : ∀ x, ∃ f ∈ S, f.axis = x) (a : List AxisMove) (c : Cube2) :
    ∃ b : List AxisMove, (∀ m ∈ b, m.face ∈ S) ∧ b.length = a.length ∧
      ∃ rs : List AxisRotation, movedAlg c b = rs.foldl Cube2.turned (movedAlg c a) := by
  suffices H : ∀ (a : List AxisMove) (c : Cube2) (rs : List AxisRotation), ∃ b : List AxisMove, (∀ m ∈ b, m.face ∈ S) ∧ b.length = a.length ∧
      ∃ rs' : List AxisRotation, movedAlg (rs.foldl Cube2.turned c) b = rs'.foldl Cube2.turned (movedAlg c a) from H a c []
  clear a c
  intro a
  induction a with
  | nil => exact fun c rs => ⟨[], by simp, rfl, rs, rfl⟩
  | cons m l ih =>
    intro c rs
    let m1 := rs.foldl AxisMove.rotated m
    have e1 : moved (rs.foldl Cube2.turned c) m1 = rs.foldl Cube2.turned (moved c m) := turned_moves rs c m
    have step : ∃ m2 : AxisMove, m2.face ∈ S ∧ ∃ rs1 : List AxisRotation,
        moved (rs.foldl Cube2.turned c) m2 = rs1.foldl Cube2.turned (moved c m) := by
      obtain ⟨f, hf, hax⟩ := hS m1.face.axis
      rcases (by decide +kernel : ∀ f g : Face, f.axis = g.axis → f = g ∨ f = g.opposite) f m1.face hax with e | e
      · exact ⟨m1, e ▸ hf, rs, e1⟩
      · obtain ⟨b, r, h⟩ := opposite_table m1.face m1.amount
        refine ⟨⟨m1.face.opposite, b⟩, e ▸ hf, rs ++ [r], ?_⟩
        rw [List.foldl_append, ← e1]
        exact Cube2.ext (funext fun i => h _)
    obtain ⟨m2, h2, rs1, e2⟩ := step
    obtain ⟨b, h3, h4, rs', e3⟩ := ih (moved c m) rs1
    refine ⟨m2 :: b, fun x hx => ?_, by rw [List.length_cons, h4, List.length_cons], rs', ?_⟩
    · rcases List.mem_cons.1 hx with rfl | hx
      · exact h2
      · exact h3 x hx
    · show movedAlg (moved (rs.foldl Cube2.turned c) m2) b = _
      rw [e2, e3]
      rfl

/-- D L with R, U and F -/
example (c : Cube2) : ∃ b : List AxisMove, (∀ m ∈ b, m.face ∈ ({Face.R, Face.U, Face.F} : Set Face)) ∧ b.length = 2 ∧
    ∃ rs : List AxisRotation, movedAlg c b = rs.foldl Cube2.turned (movedAlg c [(⟨Face.D, .single⟩ : AxisMove), ⟨Face.L, .single⟩]) :=
  C116_one_of_each {Face.R, Face.U, Face.F} (fun x => by
    cases x
    · exact ⟨Face.R, by simp, rfl⟩
    · exact ⟨Face.U, by simp, rfl⟩
    · exact ⟨Face.F, by simp, rfl⟩) [(⟨Face.D, .single⟩ : AxisMove), ⟨Face.L, .single⟩] c

/-- **C116** Eleven moves of one face of each axis are enough to make any reachable 2x2 look solved. -/
theorem C116_eleven (S : Set Face) (hS : ∀ x, ∃ f ∈ S, f.axis = x) (c : Cube2) (hc : c.Reachable) :
    ∃ b : List AxisMove, (∀ m ∈ b, m.face ∈ S) ∧ b.length ≤ 11 ∧ (movedAlg c b).LooksSolved := by
  obtain ⟨a, h1, h2⟩ := C105_eleven_suffice c hc
  obtain ⟨b, h3, h4, rs, h5⟩ := C116_one_of_each S hS a c
  refine ⟨b, h3, h4.trans_le h1, ?_⟩
  rw [h5, h2]
  clear h5
  have h : (Cube.SOLVED : Cube2).LooksSolved := (C79_looks_solved _).2 ⟨[], by decide, rfl⟩
  generalize (Cube.SOLVED : Cube2) = d at h
  induction rs generalizing d with
  | nil => exact h
  | cons r l ih => exact ih _ (looks_turned h r)

/-- a 2x2 scrambled by a hundred moves, with L, D and B -/
example : ∃ b : List AxisMove, (∀ m ∈ b, m.face ∈ ({Face.L, Face.D, Face.B} : Set Face)) ∧ b.length ≤ 11 ∧
    (movedAlg (movedAlg (Cube.SOLVED : Cube2) (List.replicate 50 [(⟨Face.R, .single⟩ : AxisMove), ⟨Face.U, .single⟩]).flatten) b).LooksSolved :=
  C116_eleven _ (fun x => by
    cases x
    · exact ⟨Face.L, by simp, rfl⟩
    · exact ⟨Face.D, by simp, rfl⟩
    · exact ⟨Face.B, by simp, rfl⟩) _ ⟨_, rfl⟩

/-- the turns of one axis keep the coordinates along it, and those of no solved cube are the ones after a turn of some other face -/
theorem one_axis : ∀ f : Face, ∃ g : Face, ∀ w ∈ wholeTurns, ∃ i, ((PieceSet.SOLVED Corner i).moved ⟨g, .single⟩).position.at f.axis ≠
    (w.foldl rotated (PieceSet.SOLVED Corner i)).position.at f.axis := by
  decide +kernel

/-- the turns of two faces leave the corner `j` and bring no corner to the place of the corner `i` -/
abbrev LeavePair (f g : Face) (i j : Fin 8) : Prop :=
  ∀ m : AxisMove, m.face = f ∨ m.face = g → (PieceSet.SOLVED Corner j).moved m = PieceSet.SOLVED Corner j ∧
    ∀ x : Corner, x.position ≠ (PieceSet.SOLVED Corner i).position → (x.moved m).position ≠ (PieceSet.SOLVED Corner i).position

/-- a turn of `h` takes away `i` and leaves `j`, and whoever has `j` in place has `i` in place -/
abbrev TakesOne (h : Face) (i j : Fin 8) : Prop :=
  (PieceSet.SOLVED Corner j).moved ⟨h, .single⟩ = PieceSet.SOLVED Corner j ∧
    ((PieceSet.SOLVED Corner i).moved ⟨h, .single⟩).position ≠ (PieceSet.SOLVED Corner i).position ∧
    ∀ w ∈ wholeTurns, w.foldl rotated (PieceSet.SOLVED Corner j) = PieceSet.SOLVED Corner j →
      w.foldl rotated (PieceSet.SOLVED Corner i) = PieceSet.SOLVED Corner i

theorem leave_pair : ∀ f g : Face, f.axis ≠ g.axis → ∃ i j : Fin 8, LeavePair f g i j ∧ i ≠ j := by
  decide +kernel

theorem takes_one : ∀ i j : Fin 8, i ≠ j → ∃ h : Face, TakesOne h i j := by
  decide +kernel

/-- two faces leave one corner where it is and cannot bring back the other that they leave -/
theorem two_faces (f g : Face) (hfg : f.axis ≠ g.axis) : ∃ (h : Face) (i j : Fin 8), TakesOne h i j ∧ LeavePair f g i j := by
  obtain ⟨i, j, h1, h2⟩ := leave_pair f g hfg
  obtain ⟨h, h3⟩ := takes_one i j h2
  exact ⟨h, i, j, h3, h1⟩

/-- **C116** The turns of some faces are enough to make every reachable 2x2 look solved exactly if there is one of each axis
among them, or two opposite ones and one of another axis. -/
theorem C116_looks (S : Set Face) :
    (∀ c : Cube2, c.Reachable → ∃ a : List AxisMove, (∀ m ∈ a, m.face ∈ S) ∧ (movedAlg c a).LooksSolved) ↔
      (∀ x, ∃ f ∈ S, f.axis = x) ∨ ∃ f ∈ S, f.opposite ∈ S ∧ ∃ g ∈ S, g.axis ≠ f.axis := by
  constructor
  · intro h
    by_contra hn
    rw [not_or] at hn
    obtain ⟨h1, h2⟩ := hn
    have run : ∀ (a : List AxisMove), (∀ m ∈ a, m.face ∈ S) → ∀ (Q : Corner → Prop), (∀ x, Q x → ∀ m : AxisMove, m.face ∈ S → Q (x.moved m)) →
        ∀ x, Q x → Q (a.foldl Corner.moved x) := by
      intro a ha Q hQ
      induction a with
      | nil => exact fun x hx => hx
      | cons m l ih =>
        exact fun x hx => ih (fun m' hm' => ha m' (.tail _ hm')) _ (hQ x hx m (ha m (.head _)))
    have key : ∀ k : Face, ∃ a : List AxisMove, (∀ m ∈ a, m.face ∈ S) ∧ ∃ w ∈ wholeTurns, ∀ i,
        a.foldl Corner.moved ((PieceSet.SOLVED Corner i).moved ⟨k, .single⟩) = w.foldl rotated (PieceSet.SOLVED Corner i) := by
      intro k
      obtain ⟨a, ha, hl⟩ := h (movedAlg (Cube.SOLVED : Cube2) [⟨k, .single⟩]) ⟨_, rfl⟩
      obtain ⟨w, hw, e⟩ := (C79_looks_solved _).1 hl
      refine ⟨a, ha, w, hw, fun i => ?_⟩
      have := congrFun (congrArg Cube2.corners e) i
      rw [turned_list, small_alg] at this
      exact this
    by_cases hp : ∃ f ∈ S, f.opposite ∈ S
    · obtain ⟨f, hf, ho⟩ := hp
      have hs : ∀ g ∈ S, g.axis = f.axis := fun g hg => by
        by_contra hx
        exact h2 ⟨f, hf, ho, g, hg, hx⟩
      obtain ⟨g, hg⟩ := one_axis f
      obtain ⟨a, ha, w, hw, e⟩ := key g
      obtain ⟨i, hi⟩ := hg w hw
      refine hi ?_
      rw [← e i]
      exact (run a ha (fun x => x.position.at f.axis = ((PieceSet.SOLVED Corner i).moved ⟨g, .single⟩).position.at f.axis)
        (fun x hx m hm => (layer_kept x f m (hs _ hm)).trans hx) _ rfl).symm
    · have pick : ∀ f : Face, ∃ g : Face, g.axis = f.axis ∧ g.opposite ∉ S := fun f => by
        by_cases hf : f ∈ S
        · exact ⟨f, rfl, fun h => hp ⟨f, hf, h⟩⟩
        · exact ⟨f.opposite, (by decide +kernel : ∀ f : Face, f.opposite.axis = f.axis) f,
            by rw [(by decide +kernel : ∀ f : Face, f.opposite.opposite = f) f]; exact hf⟩
      push Not at h1
      obtain ⟨x, hx⟩ := h1
      obtain ⟨y, z, hxyz⟩ := (by decide +kernel : ∀ x : Axis, ∃ y z : Face, y.axis ≠ x ∧ z.axis ≠ x ∧ y.axis ≠ z.axis) x
      obtain ⟨f, f1, f2⟩ := pick y
      obtain ⟨g, g1, g2⟩ := pick z
      have hs : ∀ k ∈ S, k = f ∨ k = g := by
        intro k hk
        have t := (by decide +kernel : ∀ (x : Axis) (f g k : Face), f.axis ≠ x → g.axis ≠ x → f.axis ≠ g.axis → k.axis ≠ x →
          k = f ∨ k = g ∨ k = f.opposite ∨ k = g.opposite) x f g k (f1 ▸ hxyz.1) (g1 ▸ hxyz.2.1) (by rw [f1, g1]; exact hxyz.2.2) (hx k hk)
        rcases t with t | t | t | t
        · exact .inl t
        · exact .inr t
        · exact absurd (t ▸ hk) f2
        · exact absurd (t ▸ hk) g2
      obtain ⟨k, i, j, ⟨k1, k2, k4⟩, k3⟩ := two_faces f g (by rw [f1, g1]; exact hxyz.2.2)
      obtain ⟨a, ha, w, hw, e⟩ := key k
      have ej := e j
      rw [k1, run a ha (· = PieceSet.SOLVED Corner j) (fun x hx m hm => by rw [hx]; exact (k3 m (hs _ hm)).1) _ rfl] at ej
      have ei := (e i).trans (k4 w hw ej.symm)
      exact run a ha (fun x => x.position ≠ (PieceSet.SOLVED Corner i).position) (fun x hx m hm => (k3 m (hs _ hm)).2 x hx) _ k2
        (congrArg Corner.position ei)
  · rintro (h | h) c hc
    · obtain ⟨b, h1, -, h2⟩ := C116_eleven S h c hc
      exact ⟨b, h1, h2⟩
    · obtain ⟨a, -, e⟩ := C105_eleven_suffice c hc
      obtain ⟨f, hf, ho, g, hg, hax⟩ := h
      obtain ⟨b, h1, -, h2⟩ := C116_three f g hax a
      refine ⟨b, fun m hm => ?_, ?_⟩
      · rcases h1 m hm with e | e | e
        · exact e ▸ hf
        · exact e ▸ ho
        · exact e ▸ hg
      · rw [h2, e]
        exact (C79_looks_solved _).2 ⟨[], by decide, rfl⟩

/-- R, U and F are enough, R and U are not -/
example : (∀ c : Cube2, c.Reachable → ∃ a : List AxisMove, (∀ m ∈ a, m.face ∈ ({Face.R, Face.U, Face.F} : Set Face)) ∧ (movedAlg c a).LooksSolved) ∧
    ¬ ∀ c : Cube2, c.Reachable → ∃ a : List AxisMove, (∀ m ∈ a, m.face ∈ {f : Face | f = Face.R ∨ f = Face.U}) ∧ (movedAlg c a).LooksSolved := by
  refine ⟨(C116_looks _).2 (.inl fun x => ?_), fun h => ?_⟩
  · cases x
    · exact ⟨Face.R, by simp, rfl⟩
    · exact ⟨Face.U, by simp, rfl⟩
    · exact ⟨Face.F, by simp, rfl⟩
  · rcases (C116_looks _).1 h with h | ⟨f, h1, h2, -⟩
    · obtain ⟨f, h1, h2⟩ := h .Z
      revert f
      simp only [Set.mem_ofPred_eq]
      decide +kernel
    · revert f
      simp only [Set.mem_ofPred_eq]
      decide +kernel

end Barbarosa
