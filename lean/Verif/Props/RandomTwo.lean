import Verif.Props.LooksSolved

/-!
# C17: how much of the 2x2 the random generator covers
-/

namespace Barbarosa

open Equiv

/-- **C17** The generator can return exactly 40320 different cubes, and among the 40320 outcomes of the shuffle exactly eight
give a cube that looks solved: the solved one turned about the vertical axis or upside down. Among all 88179840
reachable states 24 look solved (`C79_number`). -/
theorem C17_draws :
    Nat.card { c : Cube2 // ∃ σ, sampleCube2? σ = some c } = 40320 ∧
    Nat.card { σ : Perm (Fin 8) // ∃ c, sampleCube2? σ = some c ∧ c.LooksSolved } = 8 ∧
    ∀ σ c, sampleCube2? σ = some c → c.LooksSolved → ∃ w ∈ wholeTurns,
      c = w.foldl Cube2.turned (Cube.SOLVED : Cube2) ∧ ∀ i, (c.corners i).orientationAxis = .Y := by
  have hex : ∀ σ, ∃ c, sampleCube2? σ = some c := fun σ => ⟨_, sampleCube2?_eq σ⟩
  refine ⟨?_, ?_, fun σ c h hl => ?_⟩
  · let f : Perm (Fin 8) → { c : Cube2 // ∃ σ, sampleCube2? σ = some c } := fun σ => ⟨_, σ, sampleCube2?_eq σ⟩
    have hf : Function.Bijective f := by
      refine ⟨fun σ τ h => C17_random_partial.2.2 σ τ ?_, fun ⟨c, σ, h⟩ => ⟨σ, Subtype.ext ?_⟩⟩
      · rw [sampleCube2?_eq, sampleCube2?_eq]; exact congrArg some (congrArg Subtype.val h)
      · exact Option.some.inj ((sampleCube2?_eq σ).symm.trans h)
    rw [← Nat.card_eq_of_bijective f hf, Nat.card_eq_fintype_card, Fintype.card_perm, Fintype.card_fin]
    decide
  · let L : List Cube2 := (wholeTurns.map fun w => w.foldl Cube2.turned (Cube.SOLVED : Cube2)).filter
      fun c => decide (∀ i, (c.corners i).orientationAxis = .Y)
    have hL : ∀ c : Cube2, c ∈ L.toFinset ↔ (∃ σ, sampleCube2? σ = some c) ∧ c.LooksSolved := by
      intro c
      rw [List.mem_toFinset, List.mem_filter, List.mem_map, decide_eq_true_iff, C79_looks_solved, C17_random_partial.2.1]
      constructor
      · rintro ⟨⟨w, h1, rfl⟩, h2⟩
        refine ⟨⟨?_, h2⟩, w, h1, rfl⟩
        revert w
        decide +kernel
      · rintro ⟨⟨-, h2⟩, w, h1, h3⟩
        exact ⟨⟨w, h1, h3.symm⟩, h2⟩
    let g : { σ : Perm (Fin 8) // ∃ c, sampleCube2? σ = some c ∧ c.LooksSolved } →
        { c : Cube2 // (∃ σ, sampleCube2? σ = some c) ∧ c.LooksSolved } := fun σ =>
      ⟨_, ⟨σ.1, sampleCube2?_eq σ.1⟩, by
        obtain ⟨c, h1, h2⟩ := σ.2
        obtain rfl := Option.some.inj ((sampleCube2?_eq σ.1).symm.trans h1)
        exact h2⟩
    have hg : Function.Bijective g := by
      refine ⟨fun σ τ h => Subtype.ext (C17_random_partial.2.2 _ _ ?_), fun ⟨c, ⟨σ, h⟩, hl⟩ =>
        ⟨⟨σ, c, h, hl⟩, Subtype.ext (Option.some.inj ((sampleCube2?_eq σ).symm.trans h))⟩⟩
      rw [sampleCube2?_eq, sampleCube2?_eq]; exact congrArg some (congrArg Subtype.val h)
    rw [Nat.card_eq_of_bijective g hg, Nat.subtype_card _ hL, List.toFinset_card_of_nodup (by decide +kernel)]
    decide +kernel
  · obtain ⟨w, h1, h2⟩ := (C79_looks_solved c).1 hl
    exact ⟨w, h1, h2, ((C17_random_partial.2.1 c).1 ⟨σ, h⟩).2⟩

/-- one of the eight: the shuffle that turns the cube by a half turn about the vertical axis -/
example : ∃ σ c, sampleCube2? σ = some c ∧ c.LooksSolved ∧ c ≠ (Cube.SOLVED : Cube2) := by
  obtain ⟨σ, h⟩ := (C17_random_partial.2.1 ((Cube.SOLVED : Cube2).turned ⟨.Y, .double⟩)).2 (by decide +kernel)
  exact ⟨σ, _, h, (C79_looks_solved _).2 ⟨[⟨.Y, .double⟩], by decide, rfl⟩, by decide +kernel⟩

end Barbarosa
