import Verif.Lemmas.Moves
import Verif.Spec.Systems
import Mathlib.Data.List.Chain

/-!
# Lemmas about `absorve` and `normalized`
-/

namespace Barbarosa

/-- the moves an optional combined move stands for -/
def optMoves : Option NonRedundantAxisMove → List AxisMove
  | none => []
  | some nr => nr.moves

/-- the face moves of a cube that obeys the turn laws -/
abbrev AxisLaws (C : Type) [Movable C AxisMove] : Prop := TurnLaws (axisAct C)

theorem axisSystems_laws : ∀ s ∈ axisSystems, AxisLaws s.C := by
  simp only [axisSystems, List.forall_mem_cons, List.not_mem_nil, false_imp_iff, implies_true, and_true]
  exact ⟨cube2_laws, cube3_laws, cube4_axis_laws, cube5_axis_laws, cube6_axis_laws, cube7_axis_laws⟩

section
variable {C : Type} [Movable C AxisMove]

theorem laws_add (h : AxisLaws C) (c : C) (f : Face) (x y : Amount) :
    moved (moved c (⟨f, x⟩ : AxisMove)) (⟨f, y⟩ : AxisMove) =
      match x.add y with
      | none => c
      | some z => moved c (⟨f, z⟩ : AxisMove) := h.add c () f x y

theorem laws_comm (h : AxisLaws C) (c : C) (a : Axis) (d d' : Direction) (x y : Amount) :
    moved (moved c (⟨⟨a, d⟩, x⟩ : AxisMove)) (⟨⟨a, d'⟩, y⟩ : AxisMove) =
      moved (moved c (⟨⟨a, d'⟩, y⟩ : AxisMove)) (⟨⟨a, d⟩, x⟩ : AxisMove) := h.comm c () () a d d' x y

theorem movedAlg_append (c : C) (a b : List AxisMove) : movedAlg c (a ++ b) = movedAlg (movedAlg c a) b := by
  simp [movedAlg]

/-- effect of `absorve`, the new move applied after the combined one -/
theorem absorve_after (h : AxisLaws C) (nr : Option NonRedundantAxisMove) (m : AxisMove)
    (hn : (absorve nr m).2 ≠ .notAdded) (c : C) :
    movedAlg c (optMoves (absorve nr m).1) = movedAlg c (optMoves nr ++ [m]) := by
  obtain ⟨⟨a, d⟩, x⟩ := m
  rcases nr with _ | ⟨⟨⟨b, e⟩, y⟩⟩ | ⟨b, p, q⟩
  · rfl
  · by_cases hab : b = a
    · subst hab
      have h1 := fun c => laws_add h c ⟨b, .pos⟩ y x
      have h2 := fun c => laws_add h c ⟨b, .neg⟩ y x
      have h3 := fun c => laws_comm h c b .neg .pos y x
      cases e <;> cases d <;> simp only [absorve, if_true] <;>
        (try rcases hxy : y.add x with _ | z) <;>
        simp_all [optMoves, NonRedundantAxisMove.moves, movedAlg]
    · simp [absorve, hab] at hn
  · by_cases hab : b = a
    · subst hab
      have h1 := fun c => laws_add h c ⟨b, .pos⟩ p x
      have h2 := fun c => laws_add h c ⟨b, .neg⟩ q x
      have h3 := fun c => laws_comm h c b .neg .pos q x
      cases d <;> simp only [absorve, if_true]
      · rcases hxy : p.add x with _ | z <;>
          simp_all [optMoves, NonRedundantAxisMove.moves, movedAlg, Direction.flip]
      · rcases hxy : q.add x with _ | z <;>
          simp_all [optMoves, NonRedundantAxisMove.moves, movedAlg, Direction.flip]
    · simp [absorve, hab] at hn

/-- a move on the axis of a combined move may be applied before or after it -/
theorem optMoves_comm (h : AxisLaws C) (nr : Option NonRedundantAxisMove) (m : AxisMove)
    (ha : ∀ n, nr = some n → n.axis = m.face.axis) (c : C) :
    movedAlg c (optMoves nr ++ [m]) = movedAlg c (m :: optMoves nr) := by
  obtain ⟨⟨a, d⟩, x⟩ := m
  rcases nr with _ | ⟨⟨⟨b, e⟩, y⟩⟩ | ⟨b, p, q⟩
  · rfl
  · obtain rfl : b = a := ha _ rfl
    exact laws_comm h c b e d y x
  · obtain rfl : b = a := ha _ rfl
    show moved (moved (moved c _) _) _ = moved (moved (moved c _) _) _
    rw [laws_comm h _ b .neg d q x, laws_comm h _ b .pos d p x]

theorem absorve_axis (nr : Option NonRedundantAxisMove) (m : AxisMove) (hn : (absorve nr m).2 ≠ .notAdded) :
    ∀ n, nr = some n → n.axis = m.face.axis := by
  rintro n rfl
  by_contra hc
  apply hn
  obtain ⟨⟨a, d⟩, x⟩ := m
  rcases n with ⟨⟨⟨b, e⟩, y⟩⟩ | ⟨b, p, q⟩ <;>
    (simp only [NonRedundantAxisMove.axis] at hc; simp [absorve, hc])

theorem absorve_before (h : AxisLaws C) (nr : Option NonRedundantAxisMove) (m : AxisMove)
    (hn : (absorve nr m).2 ≠ .notAdded) (c : C) :
    movedAlg c (optMoves (absorve nr m).1) = movedAlg c (m :: optMoves nr) := by
  rw [absorve_after h nr m hn, optMoves_comm h nr m (absorve_axis nr m hn)]

/-! ## The loop -/

/-- the alg a loop state stands for -/
def NormState.word (s : NormState) : List AxisMove := s.rest.reverse ++ optMoves s.held ++ s.out

theorem offload_eq (held : Option NonRedundantAxisMove) (out : List AxisMove) :
    offload held out = (optMoves held).reverse ++ out := by
  rcases held with _ | ⟨m⟩ | ⟨a, p, n⟩ <;> rfl

theorem offload_effect (h : AxisLaws C) (held : Option NonRedundantAxisMove) (out : List AxisMove) (c : C) :
    movedAlg c (offload held out) = movedAlg c (optMoves held ++ out) := by
  rcases held with _ | ⟨m⟩ | ⟨a, p, n⟩
  · rfl
  · rfl
  · rw [offload_eq, movedAlg_append, movedAlg_append]
    congr 1
    exact laws_comm h c a .neg .pos n p

theorem absorve_none (m : AxisMove) : absorve none m = (some (.single m), .absorved) := rfl

theorem absorve_notAdded (nr : Option NonRedundantAxisMove) (m : AxisMove) (h : (absorve nr m).2 = .notAdded) :
    (absorve nr m).1 = nr ∧ ∃ n, nr = some n ∧ n.axis ≠ m.face.axis := by
  obtain ⟨⟨a, d⟩, x⟩ := m
  rcases nr with _ | ⟨⟨⟨b, e⟩, y⟩⟩ | ⟨b, p, q⟩
  · simp [absorve] at h
  · by_cases hab : b = a
    · subst hab
      exfalso
      revert h
      cases e <;> cases d <;> simp only [absorve, if_true] <;> (try rcases hxy : y.add x with _ | z) <;> simp
    · exact ⟨by simp [absorve, hab], _, rfl, hab⟩
  · by_cases hab : b = a
    · subst hab
      exfalso
      revert h
      cases d <;> simp only [absorve, if_true]
      · rcases hxy : p.add x with _ | z <;> simp
      · rcases hxy : q.add x with _ | z <;> simp
    · exact ⟨by simp [absorve, hab], _, rfl, hab⟩

theorem normStep_effect (h : AxisLaws C) {s s' : NormState} (hs : normStep s = some s') (c : C) :
    movedAlg c s'.word = movedAlg c s.word := by
  obtain ⟨rest, held, out⟩ := s
  rcases rest with _ | ⟨m, rest⟩
  · simp [normStep] at hs
  · have hbef := absorve_before h held m
    have hnot := absorve_notAdded held m
    unfold normStep at hs
    rcases hab : absorve held m with ⟨held', res⟩
    rw [hab] at hbef hnot
    simp only [hab] at hs
    have hword : ∀ (H : Option NonRedundantAxisMove) (o : List AxisMove),
        movedAlg c ((⟨m :: rest, H, o⟩ : NormState).word) =
          movedAlg (movedAlg (movedAlg c rest.reverse) (m :: optMoves H)) o := by
      intro H o
      rw [← movedAlg_append, ← movedAlg_append]
      simp [NormState.word]
    rw [hword]
    cases res with
    | notAdded =>
      simp only [Option.some.injEq] at hs
      subst hs
      obtain ⟨h1, -⟩ := hnot rfl
      simp only at h1
      subst h1
      simp only [NormState.word, absorve_none, optMoves, NonRedundantAxisMove.moves]
      rw [movedAlg_append, movedAlg_append, offload_effect h, movedAlg_append]
      rfl
    | collapsed =>
      simp only at hs
      have hb : ∀ c, movedAlg c (optMoves held') = movedAlg c (m :: optMoves held) := hbef (by simp)
      have ho := offload_effect h held' out (movedAlg c rest.reverse)
      rw [movedAlg_append, hb] at ho
      rcases hoff : offload held' out with _ | ⟨m', out'⟩
      · rw [hoff] at hs ho
        simp only [Option.some.injEq] at hs
        subst hs
        rw [← ho]
        simp [NormState.word, optMoves, movedAlg]
      · rw [hoff] at hs ho
        simp only [Option.some.injEq] at hs
        subst hs
        rw [← ho]
        simp [NormState.word, optMoves, movedAlg]
    | absorved =>
      simp only [Option.some.injEq] at hs
      subst hs
      rw [← hbef (by simp)]
      simp [NormState.word, movedAlg]
    | added =>
      simp only [Option.some.injEq] at hs
      subst hs
      rw [← hbef (by simp)]
      simp [NormState.word, movedAlg]

theorem normLoop_effect (h : AxisLaws C) : ∀ (k : Nat) (s s' : NormState), normLoop k s = some s' →
    ∀ c : C, movedAlg c s'.word = movedAlg c s.word ∧ s'.rest = [] := by
  have done : ∀ s : NormState, normStep s = none → s.rest = [] := by
    intro s hs
    obtain ⟨_ | ⟨m, r⟩, held, out⟩ := s
    · rfl
    · exfalso
      unfold normStep at hs
      rcases hab : absorve held m with ⟨held', res⟩
      simp only [hab] at hs
      cases res <;> simp only at hs <;> (try cases hs)
      rcases hoff : offload held' out with _ | ⟨m', out'⟩ <;> simp only [hoff] at hs <;> cases hs
  intro k
  induction k with
  | zero =>
    intro s s' hs c
    unfold normLoop at hs
    rcases hst : normStep s with _ | t
    · rw [hst] at hs
      simp only [Option.some.injEq] at hs
      subst hs
      exact ⟨rfl, done _ hst⟩
    · rw [hst] at hs; cases hs
  | succ k ih =>
    intro s s' hs c
    unfold normLoop at hs
    rcases hst : normStep s with _ | t
    · rw [hst] at hs
      simp only [Option.some.injEq] at hs
      subst hs
      exact ⟨rfl, done _ hst⟩
    · rw [hst] at hs
      obtain ⟨h1, h2⟩ := ih t s' hs c
      exact ⟨h1.trans (normStep_effect h hst c), h2⟩

end

/-! ## Length and termination -/

/-- number of moves in a loop state -/
def NormState.total (s : NormState) : Nat := s.rest.length + (optMoves s.held).length + s.out.length

/-- the measure that shrinks in every iteration -/
def NormState.measure (s : NormState) : Nat := 2 * s.total + s.rest.length

theorem absorve_length (nr : Option NonRedundantAxisMove) (m : AxisMove) :
    (optMoves (absorve nr m).1).length ≤ (optMoves nr).length + 1 ∧
    ((absorve nr m).2 = .collapsed → (optMoves (absorve nr m).1).length + 1 = (optMoves nr).length) := by
  obtain ⟨⟨a, d⟩, x⟩ := m
  rcases nr with _ | ⟨⟨⟨b, e⟩, y⟩⟩ | ⟨b, p, q⟩
  · simp [absorve, optMoves, NonRedundantAxisMove.moves]
  · by_cases hab : b = a
    · subst hab
      cases e <;> cases d <;> simp only [absorve, if_true] <;> (try rcases hxy : y.add x with _ | z) <;>
        simp [optMoves, NonRedundantAxisMove.moves]
    · simp [absorve, hab, optMoves, NonRedundantAxisMove.moves]
  · by_cases hab : b = a
    · subst hab
      cases d <;> simp only [absorve, if_true]
      · rcases hxy : p.add x with _ | z <;> simp [optMoves, NonRedundantAxisMove.moves]
      · rcases hxy : q.add x with _ | z <;> simp [optMoves, NonRedundantAxisMove.moves]
    · simp [absorve, hab, optMoves, NonRedundantAxisMove.moves]

theorem normStep_measure {s s' : NormState} (hs : normStep s = some s') :
    s'.total ≤ s.total ∧ s'.measure < s.measure := by
  obtain ⟨rest, held, out⟩ := s
  rcases rest with _ | ⟨m, rest⟩
  · simp [normStep] at hs
  · have hl := absorve_length held m
    have hnot := absorve_notAdded held m
    unfold normStep at hs
    rcases hab : absorve held m with ⟨held', res⟩
    rw [hab] at hl hnot
    simp only [hab] at hs
    have hoff : (offload held' out).length = (optMoves held').length + out.length := by simp [offload_eq]
    cases res with
    | notAdded =>
      simp only [Option.some.injEq] at hs
      subst hs
      obtain ⟨h1, -⟩ := hnot rfl
      simp only at h1
      subst h1
      simp only [NormState.measure, NormState.total, absorve_none, optMoves, NonRedundantAxisMove.moves, hoff,
        List.length_cons, List.length_nil]
      rcases held' with _ | n <;> simp only [List.length_nil] <;> omega
    | collapsed =>
      have h2 := hl.2 rfl
      simp only at h2 hs
      rcases hof : offload held' out with _ | ⟨m', out'⟩
      · rw [hof] at hs hoff
        simp only [Option.some.injEq] at hs
        subst hs
        simp only [NormState.measure, NormState.total, optMoves, List.length_cons, List.length_nil] at hoff ⊢
        omega
      · rw [hof] at hs hoff
        simp only [Option.some.injEq] at hs
        subst hs
        simp only [List.length_cons] at hoff
        have e : (optMoves (none : Option NonRedundantAxisMove)).length = 0 := rfl
        simp only [NormState.measure, NormState.total, e, List.length_cons]
        omega
    | absorved =>
      simp only [Option.some.injEq] at hs
      subst hs
      simp only [NormState.measure, NormState.total, List.length_cons] at hl ⊢
      omega
    | added =>
      simp only [Option.some.injEq] at hs
      subst hs
      simp only [NormState.measure, NormState.total, List.length_cons] at hl ⊢
      omega

theorem normLoop_terminates : ∀ (k : Nat) (s : NormState), s.measure ≤ k →
    ∃ s', normLoop k s = some s' ∧ s'.total ≤ s.total := by
  intro k
  induction k with
  | zero =>
    intro s hs
    unfold normLoop
    rcases hst : normStep s with _ | t
    · exact ⟨s, rfl, le_rfl⟩
    · have := (normStep_measure hst).2; omega
  | succ k ih =>
    intro s hs
    unfold normLoop
    rcases hst : normStep s with _ | t
    · exact ⟨s, rfl, le_rfl⟩
    · obtain ⟨h1, h2⟩ := normStep_measure hst
      obtain ⟨s', h3, h4⟩ := ih t (by omega)
      exact ⟨s', h3, by omega⟩

theorem normLoop_mono : ∀ (k j : Nat) (s s' : NormState), normLoop k s = some s' → normLoop (k + j) s = some s' := by
  intro k
  induction k with
  | zero =>
    intro j s s' hs
    unfold normLoop at hs
    rcases hst : normStep s with _ | t
    · rw [hst] at hs
      cases j <;> simp [normLoop, hst] at hs ⊢ <;> exact hs
    · rw [hst] at hs; cases hs
  | succ k ih =>
    intro j s s' hs
    rw [Nat.succ_add]
    unfold normLoop at hs ⊢
    rcases hst : normStep s with _ | t
    · rw [hst] at hs; exact hs
    · rw [hst] at hs; exact ih j t s' hs

/-- the final state of the loop -/
theorem normalized_final (alg : List AxisMove) : ∃ s, normLoop (3 * alg.length) ⟨alg.reverse, none, []⟩ = some s ∧
    s.total ≤ alg.length ∧ normalized alg = offload s.held s.out ∧
    ∀ fuel, 3 * alg.length ≤ fuel → normalized? fuel alg = some (normalized alg) := by
  obtain ⟨s, h1, h2⟩ := normLoop_terminates (3 * alg.length) ⟨alg.reverse, none, []⟩
    (by simp [NormState.measure, NormState.total, optMoves]; omega)
  have h3 : normalized alg = offload s.held s.out := by simp [normalized, normalized?, h1]
  refine ⟨s, h1, by simpa [NormState.total, optMoves] using h2, h3, fun fuel hf => ?_⟩
  obtain ⟨j, rfl⟩ := Nat.exists_eq_add_of_le hf
  have := normLoop_mono _ j _ _ h1
  simp [normalized?, this, h3]

end Barbarosa
