import Verif.Props.Centre

/-!
# C116: which faces are enough

A solver or a scrambler that is only given the turns of some faces: which positions can it reach? The turns are those
of `AxisMove`s on `Cube2` and `Cube3` (`cube_n/cube2/mod.rs:32-36`, `cube_n/cube3/mod.rs:49-54`,
`cube_n/pieces/edge.rs:124-131`).
The words defined here are only used in the proofs.
-/

namespace Barbarosa

/-- algs whose moves can be replaced one by one can be replaced -/
theorem replace_moves {C : Type} [Movable C AxisMove] (S : Set Face)
    (n : AxisMove → Nat)
    (h : ∀ m : AxisMove, ∃ w : List AxisMove, (∀ x ∈ w, x.face ∈ S) ∧ w.length ≤ n m ∧ ∀ c : C, movedAlg c w = moved c m) (a : List AxisMove) :
    ∃ b : List AxisMove, (∀ x ∈ b, x.face ∈ S) ∧ b.length ≤ (a.map n).sum ∧ ∀ c : C, movedAlg c b = movedAlg c a := by
  induction a with
  | nil => exact ⟨[], by simp, le_rfl, fun _ => rfl⟩
  | cons m l ih =>
    obtain ⟨w, h1, hw, h2⟩ := h m
    obtain ⟨b, h3, hb, h4⟩ := ih
    refine ⟨w ++ b, fun x hx => (List.mem_append.1 hx).elim (h1 x) (h3 x), ?_, fun c => ?_⟩
    · rw [List.length_append, List.map_cons, List.sum_cons]
      exact Nat.add_le_add hw hb
    have e : movedAlg c (w ++ b) = movedAlg (movedAlg c w) b := by unfold movedAlg; rw [List.foldl_append]
    rw [e, h2, h4]
    rfl

/-! ## 3x3 -/

/-- a turn of `f` without `f`: the cube is turned over with slices, the opposite face is turned, and back -/
def without (f p q : Face) (a : Amount) : List AxisMove :=
  [⟨p, .single⟩, ⟨p.opposite, .inverse⟩, ⟨q, .double⟩, ⟨q.opposite, .double⟩, ⟨p, .single⟩, ⟨p.opposite, .inverse⟩, ⟨f.opposite, a⟩,
   ⟨p, .inverse⟩, ⟨p.opposite, .single⟩, ⟨q, .double⟩, ⟨q.opposite, .double⟩, ⟨p, .inverse⟩, ⟨p.opposite, .single⟩]

theorem without_table : ∀ (f : Face) (a : Amount), ∃ p q : Face, (∀ m ∈ without f p q a, m.face ≠ f) ∧
    (∀ x : Edge, (without f p q a).foldl Edge.moved x = x.moved ⟨f, a⟩) ∧
    ∀ x : Corner, (without f p q a).foldl Corner.moved x = x.moved ⟨f, a⟩ := by
  decide +kernel

/-- the edge between two faces is only moved by them -/
theorem edge_between : ∀ f g : Face, f.axis ≠ g.axis → ∃ i, (∀ m : AxisMove, m.face ≠ f → m.face ≠ g →
    (PieceSet.SOLVED Edge i).moved m = PieceSet.SOLVED Edge i) ∧ (PieceSet.SOLVED Edge i).moved ⟨f, .single⟩ ≠ PieceSet.SOLVED Edge i := by
  decide +kernel

/-- what the four other faces can do with one edge -/
def fourFaces (f : Face) (x : Edge) : List Edge := orbitList Edge.moved (sixTurns.filter fun m => m.face.axis ≠ f.axis) 8 [x]

theorem four_faces : ∀ f : Face, ∃ i, (PieceSet.SOLVED Edge i) ∈ fourFaces f (PieceSet.SOLVED Edge i) ∧
    (∀ x ∈ fourFaces f (PieceSet.SOLVED Edge i), ∀ m : AxisMove, m.face.axis ≠ f.axis → x.moved m ∈ fourFaces f (PieceSet.SOLVED Edge i)) ∧
    (PieceSet.SOLVED Edge i).moved ⟨f, .single⟩ ∉ fourFaces f (PieceSet.SOLVED Edge i) := by
  decide +kernel

/-- **C116** On the 3x3 any one face can be avoided: every alg has one that does the same to every cube without turning it, in which
each turn of the face has become thirteen and the other moves have stayed. -/
theorem C116_avoid (f : Face) (a : List AxisMove) : ∃ b : List AxisMove, (∀ m ∈ b, m.face ≠ f) ∧
    b.length ≤ a.length + 12 * a.countP (·.face = f) ∧ ∀ c : Cube3, movedAlg c b = movedAlg c a := by
  obtain ⟨b, h1, h2, h3⟩ := replace_moves (C := Cube3) {g | g ≠ f} (fun m => if m.face = f then 13 else 1) (fun m => by
    by_cases hm : m.face = f
    · obtain ⟨p, q, h1, h2, h3⟩ := without_table m.face m.amount
      refine ⟨without m.face p q m.amount, fun x hx => hm ▸ h1 x hx, by rw [if_pos hm]; exact le_rfl, fun c => ?_⟩
      exact Cube3.ext (funext fun i => (pieces_alg _ c i 0).1.trans (h2 _)) (funext fun i => (pieces_alg _ c 0 i).2.trans (h3 _))
    · exact ⟨[m], fun x hx => by rw [List.mem_singleton.1 hx]; exact hm, by rw [if_neg hm]; exact le_rfl, fun _ => rfl⟩) a
  refine ⟨b, h1, h2.trans (le_of_eq ?_), h3⟩
  clear h2 h3
  induction a with
  | nil => rfl
  | cons m l ih =>
    rw [List.map_cons, List.sum_cons, ih, List.countP_cons, List.length_cons]
    by_cases hm : m.face = f <;> simp only [hm, if_true, if_false, decide_true, decide_false] <;> grind

/-- the T permutation has five turns of U and fourteen moves in all -/
example : ∃ b : List AxisMove, (∀ m ∈ b, m.face ≠ Face.U) ∧ b.length ≤ 74 ∧ ∀ c : Cube3, movedAlg c b = movedAlg c Perms.T := by
  obtain ⟨b, h1, h2, h3⟩ := C116_avoid Face.U Perms.T
  exact ⟨b, h1, h2.trans (by decide), h3⟩

/-- **C116** On the 3x3 the turns of some faces are enough to reach everything exactly if at most one face is left out. -/
theorem C116_cube3 (S : Set Face) :
    (∀ c : Cube3, c.Reachable → ∃ a : List AxisMove, (∀ m ∈ a, m.face ∈ S) ∧ movedAlg Cube3.SOLVED a = c) ↔
      ∃ f, ∀ g, g ≠ f → g ∈ S := by
  constructor
  · intro h
    by_contra hn
    push Not at hn
    obtain ⟨f, -, hf⟩ := hn Face.R
    obtain ⟨g, hgf, hg⟩ := hn f
    obtain ⟨a, ha, e⟩ := h (movedAlg Cube3.SOLVED [⟨f, .single⟩]) ⟨_, rfl⟩
    have he : ∀ i, a.foldl Edge.moved (PieceSet.SOLVED Edge i) = (PieceSet.SOLVED Edge i).moved ⟨f, .single⟩ := fun i =>
      ((pieces_alg a Cube3.SOLVED i 0).1.symm.trans (congrFun (congrArg Cube3.edges e) i))
    have nf : ∀ m ∈ a, m.face ≠ f ∧ m.face ≠ g := fun m hm => ⟨fun h => hf (h ▸ ha m hm), fun h => hg (h ▸ ha m hm)⟩
    have run : ∀ (Q : Edge → Prop), (∀ x, Q x → ∀ m : AxisMove, m.face ≠ f → m.face ≠ g → Q (x.moved m)) →
        ∀ x, Q x → Q (a.foldl Edge.moved x) := by
      intro Q hQ
      clear e ha he
      induction a with
      | nil => exact fun x hx => hx
      | cons m l ih =>
        exact fun x hx => ih (fun m' hm' => nf m' (.tail _ hm')) _ (hQ x hx m (nf m (.head _)).1 (nf m (.head _)).2)
    by_cases hax : f.axis = g.axis
    · obtain ⟨i, h1, h2, h3⟩ := four_faces f
      have ho : ∀ f g k : Face, g ≠ f → f.axis = g.axis → k ≠ f → k ≠ g → k.axis ≠ f.axis := by decide +kernel
      have := run (· ∈ fourFaces f (PieceSet.SOLVED Edge i)) (fun x hx m m1 m2 => h2 x hx m (ho f g m.face hgf hax m1 m2)) _ h1
      rw [he] at this
      exact h3 this
    · obtain ⟨i, h1, h2⟩ := edge_between f g hax
      have := run (· = PieceSet.SOLVED Edge i) (fun x hx m m1 m2 => by rw [hx]; exact h1 m m1 m2) _ rfl
      rw [he] at this
      exact h2 this
  · rintro ⟨f, hf⟩ c ⟨a, rfl⟩
    obtain ⟨b, h1, -, h2⟩ := C116_avoid f a
    exact ⟨b, fun m hm => hf _ (h1 m hm), h2 _⟩

/-- the T permutation without ever turning the upper face; and something cannot be done without R and B -/
example : (∃ a : List AxisMove, (∀ m ∈ a, m.face ≠ Face.U) ∧ movedAlg Cube3.SOLVED a = movedAlg Cube3.SOLVED Perms.T) ∧
    ¬ ∀ c : Cube3, c.Reachable → ∃ a : List AxisMove, (∀ m ∈ a, m.face ∈ {f : Face | f ≠ Face.R ∧ f ≠ Face.B}) ∧ movedAlg Cube3.SOLVED a = c := by
  refine ⟨(C116_cube3 {f | f ≠ Face.U}).2 ⟨Face.U, fun g hg => hg⟩ _ ⟨Perms.T, rfl⟩, fun h => ?_⟩
  obtain ⟨f, hf⟩ := (C116_cube3 _).1 h
  by_cases h1 : Face.R = f
  · exact (hf Face.B (h1 ▸ by decide)).2 rfl
  · exact (hf Face.R h1).1 rfl

/-! ## 2x2 -/

theorem small_alg (a : List AxisMove) : ∀ (c : Cube2) (i), (movedAlg c a).corners i = a.foldl Corner.moved (c.corners i) := by
  induction a with
  | nil => exact fun _ _ => rfl
  | cons m l ih => exact fun c i => ih (moved c m) i

/-- the cube is turned over with `f` and the face opposite of it, `g` is turned, and back -/
def around (f g : Face) (b : Amount) : Option Amount → List AxisMove
  | none => [⟨g, b⟩]
  | some .single => [⟨f, .single⟩, ⟨f.opposite, .inverse⟩, ⟨g, b⟩, ⟨f, .inverse⟩, ⟨f.opposite, .single⟩]
  | some .double => [⟨f, .double⟩, ⟨f.opposite, .double⟩, ⟨g, b⟩, ⟨f, .double⟩, ⟨f.opposite, .double⟩]
  | some .inverse => [⟨f, .inverse⟩, ⟨f.opposite, .single⟩, ⟨g, b⟩, ⟨f, .single⟩, ⟨f.opposite, .inverse⟩]

theorem around_table : ∀ f g h : Face, g.axis ≠ f.axis → h.axis ≠ f.axis → ∀ b : Amount, ∃ w : Option Amount,
    ∀ x : Corner, (around f g b w).foldl Corner.moved x = x.moved ⟨h, b⟩ := by
  decide +kernel

theorem around_faces : ∀ (f g : Face) (b : Amount) (w : Option Amount), ∀ m ∈ around f g b w, m.face = f ∨ m.face = f.opposite ∨ m.face = g := by
  decide +kernel

/-- of three faces, one of each axis, there is a corner that only they move -/
theorem corner_between : ∀ f g h : Face, f.axis = .X → g.axis = .Y → h.axis = .Z → ∃ i, (∀ m : AxisMove, m.face ≠ f → m.face ≠ g → m.face ≠ h →
    (PieceSet.SOLVED Corner i).moved m = PieceSet.SOLVED Corner i) ∧ (PieceSet.SOLVED Corner i).moved ⟨f, .single⟩ ≠ PieceSet.SOLVED Corner i := by
  decide +kernel

/-- the turns of one axis leave the corners in their layer, those of another do not -/
theorem layer_kept : ∀ (x : Corner) (f : Face) (m : AxisMove), m.face.axis = f.axis → (x.moved m).position.at f.axis = x.position.at f.axis := by
  decide +kernel

theorem layer_left : ∀ f : Face, ∃ (g : Face) (i : _), ((PieceSet.SOLVED Corner i).moved ⟨g, .single⟩).position.at f.axis ≠
    (PieceSet.SOLVED Corner i).position.at f.axis := by
  decide +kernel

/-- **C116** On the 2x2 the turns of two opposite faces and one of another axis do all that any alg does to any cube, with at
most five times as many moves. -/
theorem C116_three (f g : Face) (hax : g.axis ≠ f.axis) (a : List AxisMove) : ∃ b : List AxisMove,
    (∀ m ∈ b, m.face = f ∨ m.face = f.opposite ∨ m.face = g) ∧ b.length ≤ 5 * a.length ∧ ∀ c : Cube2, movedAlg c b = movedAlg c a := by
  obtain ⟨b, h1, h2, h3⟩ := replace_moves (C := Cube2) {k | k = f ∨ k = f.opposite ∨ k = g} (fun _ => 5) (fun m => by
    by_cases hm : m.face.axis = f.axis
    · refine ⟨[m], fun x hx => ?_, Nat.le_add_left 1 4, fun _ => rfl⟩
      rw [List.mem_singleton.1 hx]
      rcases (by decide +kernel : ∀ f g : Face, g.axis = f.axis → g = f ∨ g = f.opposite) f m.face hm with e | e
      · exact .inl e
      · exact .inr (.inl e)
    · obtain ⟨w, hw⟩ := around_table f g m.face hax hm m.amount
      refine ⟨around f g m.amount w, around_faces f g m.amount w, ?_, fun c => Cube2.ext (funext fun i => (small_alg _ c i).trans (hw _))⟩
      rcases w with _ | _ | _ | _ <;> simp [around]) a
  refine ⟨b, h1, h2.trans (le_of_eq ?_), h3⟩
  rw [List.map_const', List.sum_replicate, smul_eq_mul, Nat.mul_comm]

/-- F and D with R, L and U only -/
example : ∃ b : List AxisMove, (∀ m ∈ b, m.face = Face.R ∨ m.face = Face.R.opposite ∨ m.face = Face.U) ∧ b.length ≤ 10 ∧
    ∀ c : Cube2, movedAlg c b = movedAlg c [(⟨Face.F, .single⟩ : AxisMove), ⟨Face.D, .double⟩] :=
  C116_three Face.R Face.U (by decide) [(⟨Face.F, .single⟩ : AxisMove), ⟨Face.D, .double⟩]

/-- **C116** On the 2x2 the turns of some faces are enough to reach everything exactly if two opposite faces and one
of another axis are among them. -/
theorem C116_cube2 (S : Set Face) :
    (∀ c : Cube2, c.Reachable → ∃ a : List AxisMove, (∀ m ∈ a, m.face ∈ S) ∧ movedAlg (Cube.SOLVED : Cube2) a = c) ↔
      ∃ f ∈ S, f.opposite ∈ S ∧ ∃ g ∈ S, g.axis ≠ f.axis := by
  constructor
  · intro h
    have run : ∀ (a : List AxisMove), (∀ m ∈ a, m.face ∈ S) → ∀ (Q : Corner → Prop), (∀ x, Q x → ∀ m : AxisMove, m.face ∈ S → Q (x.moved m)) →
        ∀ x, Q x → Q (a.foldl Corner.moved x) := by
      intro a ha Q hQ
      induction a with
      | nil => exact fun x hx => hx
      | cons m l ih =>
        exact fun x hx => ih (fun m' hm' => ha m' (.tail _ hm')) _ (hQ x hx m (ha m (.head _)))
    have key : ∀ (k : Face) (i) (Q : Corner → Prop), (∀ x, Q x → ∀ m : AxisMove, m.face ∈ S → Q (x.moved m)) → Q (PieceSet.SOLVED Corner i) →
        Q ((PieceSet.SOLVED Corner i).moved ⟨k, .single⟩) := by
      intro k i Q hQ h0
      obtain ⟨a, ha, e⟩ := h (movedAlg (Cube.SOLVED : Cube2) [⟨k, .single⟩]) ⟨_, rfl⟩
      have he : a.foldl Corner.moved (PieceSet.SOLVED Corner i) = (PieceSet.SOLVED Corner i).moved ⟨k, .single⟩ :=
        ((small_alg a (Cube.SOLVED : Cube2) i).symm.trans (congrFun (congrArg Cube2.corners e) i))
      rw [← he]
      exact run a ha Q hQ _ h0
    by_cases hp : ∃ f ∈ S, f.opposite ∈ S
    · obtain ⟨f, hf, ho⟩ := hp
      refine ⟨f, hf, ho, ?_⟩
      by_contra hn
      push Not at hn
      obtain ⟨g, i, hg⟩ := layer_left f
      exact hg (key g i (fun x => x.position.at f.axis = (PieceSet.SOLVED Corner i).position.at f.axis)
        (fun x hx m hm => (layer_kept x f m (hn _ hm)).trans hx) rfl)
    · exfalso
      have pick : ∀ f : Face, ∃ g : Face, g.axis = f.axis ∧ g ∉ S := fun f => by
        by_cases hf : f ∈ S
        · exact ⟨f.opposite, (by decide +kernel : ∀ f : Face, f.opposite.axis = f.axis) f, fun h => hp ⟨f, hf, h⟩⟩
        · exact ⟨f, rfl, hf⟩
      obtain ⟨f, f1, f2⟩ := pick Face.R
      obtain ⟨g, g1, g2⟩ := pick Face.U
      obtain ⟨k, k1, k2⟩ := pick Face.F
      obtain ⟨i, h1, h2⟩ := corner_between f g k f1 g1 k1
      exact h2 (key f i (· = PieceSet.SOLVED Corner i) (fun x hx m hm => by
        rw [hx]; exact h1 m (fun e => f2 (e ▸ hm)) (fun e => g2 (e ▸ hm)) (fun e => k2 (e ▸ hm))) rfl)
  · rintro ⟨f, hf, ho, g, hg, hax⟩ c ⟨a, rfl⟩
    obtain ⟨b, h1, -, h2⟩ := C116_three f g hax a
    refine ⟨b, fun m hm => ?_, h2 _⟩
    rcases h1 m hm with e | e | e
    · exact e ▸ hf
    · exact e ▸ ho
    · exact e ▸ hg

/-- on the 2x2 the faces R, L and U are enough, the faces R, U and F are not -/
example : (∃ a : List AxisMove, (∀ m ∈ a, m.face ∈ ({Face.R, Face.L, Face.U} : Set Face)) ∧ movedAlg (Cube.SOLVED : Cube2) a = movedAlg (Cube.SOLVED : Cube2) [(⟨Face.F, .single⟩ : AxisMove), ⟨Face.D, .double⟩]) ∧
    ¬ ∀ c : Cube2, c.Reachable → ∃ a : List AxisMove, (∀ m ∈ a, m.face ∈ {f : Face | f = Face.R ∨ f = Face.U ∨ f = Face.F}) ∧ movedAlg (Cube.SOLVED : Cube2) a = c := by
  refine ⟨(C116_cube2 {Face.R, Face.L, Face.U}).2 ⟨Face.R, by simp, by simp [show Face.R.opposite = Face.L from by decide], Face.U, by simp, by decide⟩ _ ⟨_, rfl⟩, fun h => ?_⟩
  obtain ⟨f, h1, h2, -⟩ := (C116_cube2 _).1 h
  revert f
  simp only [Set.mem_ofPred_eq]
  decide +kernel

end Barbarosa
