import Verif.Props.Moves

/-!
# C118: which amounts have to be turned

For all sizes and all kinds of face turns (`Spec/Systems.lean`); the amounts are those of `cube_n/moves/amount.rs:9-13`.
-/

namespace Barbarosa

/-- one turn after the other: depth, face and amount of each -/
def TurnSys.run (s : TurnSys) (c : s.C) (l : List (Nat × Face × Amount)) : s.C := l.foldl (fun c t => s.turn c t.1 t.2.1 t.2.2) c

theorem TurnSys.run_append (s : TurnSys) (c : s.C) (k l) : s.run c (k ++ l) = s.run (s.run c k) l := List.foldl_append

/-- **C118** On every size, every sequence of turns can be replaced by one in which all turns are quarter turns in one given
direction, at most three times as long, with the same effect on every cube. -/
theorem C118_one_direction : ∀ s ∈ turnSystems, ∀ q : Amount, q ≠ .double → ∀ a : List (Nat × Face × Amount),
    ∃ b : List (Nat × Face × Amount), (∀ t ∈ b, t.2.2 = q) ∧ b.length ≤ 3 * a.length ∧ ∀ c : s.C, s.run c b = s.run c a := by
  intro s hs q hq a
  have add := C03_amounts_add s hs
  have one : ∀ t : Nat × Face × Amount, ∃ n ≤ 3, ∀ c : s.C, s.run c (List.replicate n (t.1, t.2.1, q)) = s.turn c t.1 t.2.1 t.2.2 := by
    rintro ⟨d, f, x⟩
    have two : ∀ c, s.turn (s.turn c d f q) d f q = s.turn c d f .double := fun c => by
      have := add c d f q q
      cases q
      · exact this
      · exact absurd rfl hq
      · exact this
    have three : ∀ c, s.turn (s.turn (s.turn c d f q) d f q) d f q = s.turn c d f (q.mul .neg) := fun c => by
      rw [two]
      have := add c d f q .double
      cases q
      · exact this
      · exact absurd rfl hq
      · exact this
    by_cases hx : x = q
    · exact ⟨1, by decide, fun c => by subst hx; rfl⟩
    · by_cases h2 : x = .double
      · exact ⟨2, by decide, fun c => by subst h2; exact two c⟩
      · refine ⟨3, le_rfl, fun c => (three c).trans ?_⟩
        have : q.mul .neg = x := 
          (by decide : ∀ q x : Amount, q ≠ .double → ¬ x = q → ¬ x = .double → q.mul .neg = x) q x hq hx h2
        rw [this]
  induction a with
  | nil => exact ⟨[], by simp, le_rfl, fun _ => rfl⟩
  | cons t l ih =>
    obtain ⟨b, h1, h2, h3⟩ := ih
    obtain ⟨n, hn, e⟩ := one t
    refine ⟨List.replicate n (t.1, t.2.1, q) ++ b, fun x hx => ?_, ?_, fun c => ?_⟩
    · rcases List.mem_append.1 hx with hx | hx
      · rw [(List.mem_replicate.1 hx).2]
      · exact h1 x hx
    · rw [List.length_append, List.length_replicate, List.length_cons]
      omega
    · rw [TurnSys.run_append, e, h3]
      rfl

/-- F2 and Rw' of a 5x5 clockwise: at most six turns -/
example : ∃ b : List (Nat × Face × Amount), (∀ t ∈ b, t.2.2 = .single) ∧ b.length ≤ 6 ∧
    ∀ c : Cube5, TurnSys.run ⟨Cube5, fun c d f x => moved c (⟨d, ⟨f, x⟩⟩ : WideAxisMove 1)⟩ c b =
      moved (moved c (⟨0, ⟨.F, .double⟩⟩ : WideAxisMove 1)) (⟨1, ⟨.R, .inverse⟩⟩ : WideAxisMove 1) :=
  C118_one_direction ⟨Cube5, fun c d f x => moved c (⟨d, ⟨f, x⟩⟩ : WideAxisMove 1)⟩ (by simp [turnSystems]) .single (by decide)
    [(0, .F, .double), (1, .R, .inverse)]

/-- every cube has eight corners, which its turns move -/
theorem corners_of_turns : ∀ s ∈ turnSystems, ∃ (cor : s.C → Fin 8 → Corner) (c₀ : s.C), cor c₀ = PieceSet.SOLVED Corner ∧
    ∀ c d f x i, cor (s.turn c d f x) i = (cor c i).moved ⟨f, x⟩ := by
  simp only [turnSystems, List.forall_mem_cons, List.not_mem_nil, false_imp_iff, implies_true, and_true]
  refine ⟨⟨Cube2.corners, Cube.SOLVED, rfl, ?_⟩, ⟨Cube3.corners, Cube.SOLVED, rfl, ?_⟩, ⟨Cube4.corners, Cube.SOLVED, rfl, ?_⟩,
    ⟨Cube5.corners, Cube.SOLVED, rfl, ?_⟩, ⟨Cube6.corners, Cube.SOLVED, rfl, ?_⟩, ⟨Cube7.corners, Cube.SOLVED, rfl, ?_⟩,
    ⟨Cube4.corners, Cube.SOLVED, rfl, ?_⟩, ⟨Cube5.corners, Cube.SOLVED, rfl, ?_⟩, ⟨Cube6.corners, Cube.SOLVED, rfl, ?_⟩,
    ⟨Cube7.corners, Cube.SOLVED, rfl, ?_⟩, ⟨Cube6.corners, Cube.SOLVED, rfl, ?_⟩, ⟨Cube7.corners, Cube.SOLVED, rfl, ?_⟩⟩ <;>
    intro c d f x i <;> rfl

theorem half_turn_axis : ∀ (x : Corner) (f : Face), (x.moved ⟨f, .double⟩).orientationAxis = x.orientationAxis := by decide +kernel

theorem quarter_turn_axis : ∀ (f : Face) (q : Amount), q ≠ .double → f.axis ≠ .Y → ∃ i,
    ((PieceSet.SOLVED Corner i).moved ⟨f, q⟩).orientationAxis ≠ (PieceSet.SOLVED Corner i).orientationAxis := by decide +kernel

/-- **C118** On every size, what the turns of some amounts reach is everything exactly if there is a quarter turn among the amounts. -/
theorem C118_amounts : ∀ s ∈ turnSystems, ∀ A : Set Amount,
    (∀ (a : List (Nat × Face × Amount)) (c : s.C), ∃ b : List (Nat × Face × Amount), (∀ t ∈ b, t.2.2 ∈ A) ∧ s.run c b = s.run c a) ↔
      .single ∈ A ∨ .inverse ∈ A := by
  intro s hs A
  constructor
  · intro h
    by_contra hn
    rw [not_or] at hn
    obtain ⟨cor, c₀, h0, hc⟩ := corners_of_turns s hs
    obtain ⟨b, hb, e⟩ := h [(0, Face.R, .single)] c₀
    have keep : ∀ (b : List (Nat × Face × Amount)), (∀ t ∈ b, t.2.2 ∈ A) → ∀ c i, (cor (s.run c b) i).orientationAxis = (cor c i).orientationAxis := by
      intro b
      induction b with
      | nil => exact fun _ _ _ => rfl
      | cons t l ih =>
        intro hb c i
        obtain ⟨d, f, x⟩ := t
        have hx : x ∈ A := hb _ (.head _)
        have hx : x = .double := by
          cases x
          · exact absurd hx hn.1
          · rfl
          · exact absurd hx hn.2
        subst hx
        refine (ih (fun t ht => hb t (.tail _ ht)) _ i).trans ?_
        show (cor (s.turn c d f .double) i).orientationAxis = _
        rw [hc, half_turn_axis]
    obtain ⟨i, hi⟩ := quarter_turn_axis Face.R .single (by decide) (by decide)
    have k := keep b hb c₀ i
    rw [e] at k
    change (cor (s.turn c₀ 0 Face.R .single) i).orientationAxis = _ at k
    rw [hc, h0] at k
    exact hi k
  · intro h a c
    have : ∃ q : Amount, q ≠ .double ∧ q ∈ A := by
      rcases h with h | h
      · exact ⟨.single, by decide, h⟩
      · exact ⟨.inverse, by decide, h⟩
    obtain ⟨q, hq, hA⟩ := this
    obtain ⟨b, h1, -, h2⟩ := C118_one_direction s hs q hq a
    exact ⟨b, fun t ht => by rw [h1 t ht]; exact hA, h2 c⟩

/-- half turns are not enough on the 7x7 -/
example : ∃ (a : List (Nat × Face × Amount)) (c : Cube7), ∀ b : List (Nat × Face × Amount), (∀ t ∈ b, t.2.2 = .double) →
    TurnSys.run ⟨Cube7, fun c d f x => moved c (⟨d, ⟨f, x⟩⟩ : WideAxisMove 2)⟩ c b ≠
      TurnSys.run ⟨Cube7, fun c d f x => moved c (⟨d, ⟨f, x⟩⟩ : WideAxisMove 2)⟩ c a := by
  by_contra hn
  push Not at hn
  have := (C118_amounts ⟨Cube7, fun c d f x => moved c (⟨d, ⟨f, x⟩⟩ : WideAxisMove 2)⟩ (by simp [turnSystems]) {x | x = .double}).1 hn
  simp only [Set.mem_ofPred_eq] at this
  exact absurd this (by decide)

end Barbarosa
