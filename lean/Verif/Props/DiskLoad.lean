import Verif.Props.Disk

/-!
# C52: every outcome of `Cache::load`
-/

namespace Barbarosa

/-- What loading two files should come to: the edges are read first, and only then the corners
(`cube_n/cube3/mus/cache/mod.rs:69-71`, `cube_n/cube3/mus/cache/disk_storage.rs:13-18`). -/
def loadSpec : (edges corners : Option (List Nat)) → Proc (Except IoError Cache)
  | none, _ => .returned (.error .notFound)
  | some a, b =>
    if a.length ≠ 42577920 then .panicked
    else match b with
      | none => .returned (.error .notFound)
      | some b => if b.length ≠ 88179840 then .panicked else .returned (.ok ⟨a, b⟩)

theorem not_killed {α : Type} {d d' : Disk} {p p' : Proc α} (hp : p ≠ .killed) (h : Proc.Runs d p d' p') : p' ≠ .killed := by
  unfold Proc.Runs at h
  generalize hx : (d, p) = x at h
  generalize hy : (d', p') = y at h
  induction h generalizing d' p' with
  | refl => subst hx; cases hy; exact hp
  | @tail b c _ hs _ =>
    obtain ⟨b1, b2⟩ := b
    subst hy
    intro e
    dsimp only at hs
    subst e
    generalize hf : false = f at hs
    cases hs
    cases hf

/-- **C52** Without faults and alone, `Cache::load` leaves the disk as it is and comes to exactly what `loadSpec` says,
whatever the two files hold: a file of the wrong size makes it panic, a missing one is reported. -/
theorem C52_load (d d' : Disk) (p' : Proc (Except IoError Cache)) (h : Proc.Runs d (.running Cache.load) d' p') (ho : p'.over) :
    p' = loadSpec (d.file .edges) (d.file .corners) ∧ d' = d := by
  have hk : p' ≠ .killed := not_killed (p := .running Cache.load) (by intro h; cases h) h
  obtain ⟨_, h2⟩ := runs_exec (p := .running Cache.load) trivial h
  have te := total_edges
  have tc := total_corners
  have key : Proc.exec d (.running Cache.load) = (match loadSpec (d.file .edges) (d.file .corners) with
      | .returned x => some x
      | _ => none, d) := by
    show Prog.exec Cache.load d = _
    unfold Cache.load Prog.andThen
    rw [exec_bind]
    cases ha : d.file .edges with
    | none => rw [(loadPartial_exec HalfEdgesMUS d).1 ha]; rfl
    | some a =>
      by_cases hl : a.length = 42577920
      · rw [(loadPartial_exec HalfEdgesMUS d).2.1 a ha (by rw [te, hl])]
        simp only
        rw [exec_bind]
        cases hb : d.file .corners with
        | none => rw [(loadPartial_exec CornersMUS d).1 hb]; simp only [loadSpec, hl, ne_eq, not_true, if_false]; rfl
        | some b =>
          by_cases hm : b.length = 88179840
          · rw [(loadPartial_exec CornersMUS d).2.1 b hb (by rw [tc, hm])]
            simp only [loadSpec, hl, hm, ne_eq, not_true, if_false]
            rfl
          · rw [(loadPartial_exec CornersMUS d).2.2 b hb (by rw [tc]; exact hm)]
            simp only [loadSpec, hl, hm, ne_eq, not_true, if_false, not_false_eq_true, if_true]
      · rw [(loadPartial_exec HalfEdgesMUS d).2.2 a ha (by rw [te]; exact hl)]
        simp only [loadSpec, hl, ne_eq, not_false_eq_true, if_true]
  rw [key] at h2
  have cases3 : ∀ x y, (∃ r, loadSpec x y = .returned r) ∨ loadSpec x y = .panicked := by
    intro x y
    unfold loadSpec
    split
    · exact .inl ⟨_, rfl⟩
    · split
      · exact .inr rfl
      · split
        · exact .inl ⟨_, rfl⟩
        · split
          · exact .inr rfl
          · exact .inl ⟨_, rfl⟩
  rcases cases3 (d.file .edges) (d.file .corners) with ⟨r, e⟩ | e <;> rw [e] at h2 ⊢
  · cases p' with
    | returned x => cases h2; exact ⟨rfl, rfl⟩
    | panicked => cases h2
    | killed => cases h2
    | _ => exact ho.elim
  · cases p' with
    | returned x => cases h2
    | panicked => cases h2; exact ⟨rfl, rfl⟩
    | killed => exact absurd rfl hk
    | _ => exact ho.elim

/-- the edges are there and the file of the corners is missing, empty, or in order -/
example : ∀ c : Option (List Nat), (c = none → loadSpec (some (List.replicate 42577920 7)) c = .returned (.error .notFound)) ∧
    (c = some [] → loadSpec (some (List.replicate 42577920 7)) c = .panicked) ∧
    ∀ b, c = some b → b.length = 88179840 → ∃ p', Proc.Runs (some fun | .edges => some (List.replicate 42577920 7) | .corners => c) (.running Cache.load)
      (some fun | .edges => some (List.replicate 42577920 7) | .corners => c) p' ∧ p' = .returned (.ok ⟨List.replicate 42577920 7, b⟩) := by
  intro c
  refine ⟨?_, ?_, ?_⟩
  · rintro rfl; simp only [loadSpec, List.length_replicate, ne_eq, not_true, if_false]
  · rintro rfl; simp only [loadSpec, List.length_replicate, ne_eq, not_true, if_false, List.length_nil]; rfl
  · rintro b rfl hb
    obtain ⟨d', p', h1, h2, -⟩ := runs_end (acc_running Cache.load (some fun | .edges => some (List.replicate 42577920 7) | .corners => some b)) trivial
    obtain ⟨e, rfl⟩ := C52_load _ d' p' h1 h2
    refine ⟨p', h1, e.trans ?_⟩
    simp only [Disk.file, loadSpec, List.length_replicate, hb, ne_eq, not_true, if_false, Option.bind_some]

end Barbarosa
