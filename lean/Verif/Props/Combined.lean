import Verif.Model.Combined
import Verif.Props.Algs
import Verif.Props.Moves

/-!
# C80: conversions between combined moves and face moves
-/

namespace Barbarosa

open Amount Face

/-- neighbouring combined moves are of different axes (so that they cannot be merged) -/
def AxesAlternate (cs : List NonRedundantAxisMove) : Prop := cs.IsChain fun a b => a.axis ≠ b.axis

theorem foldl_push {α : Type} (l acc : List α) : l.foldl (fun a m => a ++ [m]) acc = acc ++ l := by
  induction l generalizing acc with
  | nil => simp
  | cons m l ih => simp [ih]

theorem combinedToAlg_acc (cs : List NonRedundantAxisMove) (acc : List AxisMove) :
    cs.foldl (fun moves nr => nr.moves.foldl (fun moves m => moves ++ [m]) moves) acc =
      acc ++ cs.flatMap NonRedundantAxisMove.moves := by
  induction cs generalizing acc with
  | nil => simp
  | cons c cs ih => rw [List.foldl_cons, ih, foldl_push]; simp

theorem combinedToAlg_eq (cs : List NonRedundantAxisMove) :
    combinedToAlg cs = cs.flatMap NonRedundantAxisMove.moves := by
  unfold combinedToAlg; rw [combinedToAlg_acc]; simp

theorem combinedToAlg_cons (c : NonRedundantAxisMove) (cs : List NonRedundantAxisMove) :
    combinedToAlg (c :: cs) = c.moves ++ combinedToAlg cs := by simp [combinedToAlg_eq]

/-- **C80** Converting an alg of combined moves into face moves does not change what it does, on any state of any cube. The same
holds for a single combined move, and for a face move that is wrapped as a combined one. -/
theorem C80_effect : ∀ s ∈ axisSystems, ∀ c : s.C,
    (∀ cs : List NonRedundantAxisMove, movedAlg c (combinedToAlg cs) = movedAlg c cs) ∧
    (∀ n : NonRedundantAxisMove, movedAlg c n.toAlg = moved c n) ∧
    (∀ m : AxisMove, moved c (NonRedundantAxisMove.ofMove m) = moved c m) := by
  intro s _ c
  refine ⟨fun cs => ?_, fun n => rfl, fun m => rfl⟩
  rw [combinedToAlg_eq]
  induction cs generalizing c with
  | nil => rfl
  | cons n cs ih =>
    rw [List.flatMap_cons]
    show List.foldl moved c (n.moves ++ _) = _
    rw [List.foldl_append]
    exact ih (moved c n)

/-- `R L2` as one combined move on any 5x5 -/
example (c : Cube5) : movedAlg c [(⟨R, single⟩ : AxisMove), ⟨L, double⟩] = moved c (NonRedundantAxisMove.double .X single double) :=
  (C80_effect ⟨Cube5⟩ (by simp [axisSystems]) c).2.1 (.double .X single double)

/-- **C80** Wrapping every move of an alg and converting back gives the same alg. -/
theorem C80_round_trip (alg : List AxisMove) :
    combinedToAlg (alg.map NonRedundantAxisMove.ofMove) = alg ∧
    ∀ m : AxisMove, (NonRedundantAxisMove.ofMove m).toAlg = [m] := by
  refine ⟨?_, fun _ => rfl⟩
  rw [combinedToAlg_eq]
  induction alg with
  | nil => rfl
  | cons m l ih => simpa [NonRedundantAxisMove.ofMove, NonRedundantAxisMove.moves] using ih

example : combinedToAlg ([(⟨.R, .single⟩ : AxisMove), ⟨.L, .double⟩, ⟨.U, .inverse⟩].map NonRedundantAxisMove.ofMove) =
    [⟨.R, .single⟩, ⟨.L, .double⟩, ⟨.U, .inverse⟩] := (C80_round_trip _).1

/-- **C80** The reverse of an alg of combined moves, converted, undoes the converted alg. -/
theorem C80_reversed : ∀ s ∈ axisSystems, ∀ (c : s.C) (cs : List NonRedundantAxisMove),
    movedAlg (movedAlg c (combinedToAlg cs)) (combinedToAlg (reversed cs)) = c ∧
    movedAlg c (combinedToAlg (reversed cs)) = movedAlg c (reversed (combinedToAlg cs)) := by
  intro s hs c cs
  have key : ∀ (c : s.C), movedAlg (movedAlg c (combinedToAlg cs)) (combinedToAlg (reversed cs)) = c ∧
      movedAlg (movedAlg c (reversed (combinedToAlg cs))) (combinedToAlg cs) = c := by
    revert s
    simp only [axisSystems, List.forall_mem_cons, List.not_mem_nil, false_imp_iff, implies_true, and_true]
    have h2 := C02_alg_then_reversed
    simp only [moveSystems, List.forall_mem_cons, List.not_mem_nil, false_imp_iff, implies_true, and_true] at h2
    have he := C80_effect
    simp only [axisSystems, List.forall_mem_cons, List.not_mem_nil, false_imp_iff, implies_true, and_true] at he
    obtain ⟨a2, a3, a4, a5, a6, a7, -, -, -, -, -, -, -, -, -, -, -, -, n2, n3, n4, n5, n6, n7, -⟩ := h2
    obtain ⟨e2, e3, e4, e5, e6, e7⟩ := he
    refine ⟨fun _ c => ⟨?_, (a2 _ c).2⟩, fun _ c => ⟨?_, (a3 _ c).2⟩, fun _ c => ⟨?_, (a4 _ c).2⟩, fun _ c => ⟨?_, (a5 _ c).2⟩,
      fun _ c => ⟨?_, (a6 _ c).2⟩, fun _ c => ⟨?_, (a7 _ c).2⟩⟩
    · rw [(e2 _).1, (e2 _).1]; exact (n2 _ c).1
    · rw [(e3 _).1, (e3 _).1]; exact (n3 _ c).1
    · rw [(e4 _).1, (e4 _).1]; exact (n4 _ c).1
    · rw [(e5 _).1, (e5 _).1]; exact (n5 _ c).1
    · rw [(e6 _).1, (e6 _).1]; exact (n6 _ c).1
    · rw [(e7 _).1, (e7 _).1]; exact (n7 _ c).1
  refine ⟨(key c).1, ?_⟩
  have h := (key (movedAlg c (reversed (combinedToAlg cs)))).1
  rwa [(key c).2] at h

/-- as written down the two differ: turns of opposite faces come out in the other order -/
example : combinedToAlg (reversed [.double .X single double]) = [⟨R, inverse⟩, ⟨L, double⟩] ∧
    reversed (combinedToAlg [.double .X single double]) = [⟨L, double⟩, ⟨R, inverse⟩] := by decide +kernel

theorem head_axis {cs : List NonRedundantAxisMove} {m : AxisMove} {l : List AxisMove} (h : combinedToAlg cs = m :: l) :
    ∃ c cs', cs = c :: cs' ∧ c.axis = m.face.axis := by
  cases cs with
  | nil => simp [combinedToAlg] at h
  | cons c cs' =>
    refine ⟨c, cs', rfl, ?_⟩
    rw [combinedToAlg_cons] at h
    cases c with
    | single k =>
      simp only [NonRedundantAxisMove.moves, List.cons_append, List.cons.injEq] at h
      simp [NonRedundantAxisMove.axis, h.1]
    | double a p n =>
      simp only [NonRedundantAxisMove.moves, List.cons_append, List.cons.injEq] at h
      simp [NonRedundantAxisMove.axis, ← h.1]

theorem alternate_ordered : ∀ cs : List NonRedundantAxisMove, AxesAlternate cs → Ordered .pos (combinedToAlg cs)
  | [], _ => by simp [combinedToAlg, Ordered]
  | c :: cs, h => by
    have ih := alternate_ordered cs (List.isChain_cons.1 h).2
    have hh := (List.isChain_cons.1 h).1
    have hne : ∀ m ∈ (combinedToAlg cs).head?, c.axis ≠ m.face.axis := by
      intro m hm
      cases e : combinedToAlg cs with
      | nil => simp [e] at hm
      | cons m' l =>
        obtain ⟨d, cs', rfl, hd⟩ := head_axis e
        simp only [e, List.head?_cons, Option.mem_def, Option.some.injEq] at hm
        subst hm
        rw [← hd]; exact hh d (by simp)
    rw [combinedToAlg_cons]
    unfold Ordered at ih ⊢
    cases c with
    | single k =>
      simp only [NonRedundantAxisMove.moves, List.singleton_append]
      exact List.isChain_cons.2 ⟨fun m hm e => absurd e (hne m hm), ih⟩
    | double a p n =>
      simp only [NonRedundantAxisMove.moves, List.cons_append, List.nil_append]
      refine List.isChain_cons.2 ⟨?_, List.isChain_cons.2 ⟨fun m hm e => absurd e (hne m hm), ih⟩⟩
      intro m hm _
      simp only [List.head?_cons, Option.mem_def, Option.some.injEq] at hm
      subst hm
      exact ⟨rfl, rfl⟩

theorem ordered_combined : ∀ alg : List AxisMove, Ordered .pos alg → ∃ cs, AxesAlternate cs ∧ combinedToAlg cs = alg
  | [], _ => ⟨[], by simp [AxesAlternate], by simp [combinedToAlg]⟩
  | [m], _ => ⟨[.single m], by simp [AxesAlternate], by simp [combinedToAlg, NonRedundantAxisMove.moves]⟩
  | m :: n :: l, h => by
    obtain ⟨hmn, hnl⟩ := List.isChain_cons_cons.1 h
    by_cases e : m.face.axis = n.face.axis
    · obtain ⟨h1, h2⟩ := hmn e
      obtain ⟨cs, hc, he⟩ := ordered_combined l (List.isChain_cons.1 hnl).2
      refine ⟨.double m.face.axis m.amount n.amount :: cs, List.isChain_cons.2 ⟨?_, hc⟩, ?_⟩
      · intro d hd
        cases l with
        | nil =>
          cases cs with
          | nil => simp at hd
          | cons d' cs' => rw [combinedToAlg_cons] at he; cases d' <;> simp [NonRedundantAxisMove.moves] at he
        | cons k l =>
          obtain ⟨d', cs', rfl, hd'⟩ := head_axis he
          simp only [List.head?_cons, Option.mem_def, Option.some.injEq] at hd
          subst hd
          rw [hd']
          intro e'
          have := ((List.isChain_cons_cons.1 hnl).1 (e.symm.trans e')).1
          rw [h2] at this
          cases this
      · obtain ⟨⟨ma, md⟩, mx⟩ := m
        obtain ⟨⟨na, nd⟩, nx⟩ := n
        simp only at e h1 h2
        subst e h1 h2
        rw [combinedToAlg_cons, he]
        rfl
    · obtain ⟨cs, hc, he⟩ := ordered_combined (n :: l) hnl
      obtain ⟨d, cs', rfl, hd⟩ := head_axis he
      refine ⟨.single m :: d :: cs', List.isChain_cons_cons.2 ⟨?_, hc⟩, ?_⟩
      · rw [hd]; exact e
      · rw [combinedToAlg_cons, he]; rfl

theorem combined_unique : ∀ cs ds : List NonRedundantAxisMove, AxesAlternate cs → AxesAlternate ds →
    combinedToAlg cs = combinedToAlg ds → cs = ds
  | [], [], _, _, _ => rfl
  | [], d :: ds, _, _, h => by rw [combinedToAlg_cons] at h; cases d <;> simp [NonRedundantAxisMove.moves, combinedToAlg] at h
  | c :: cs, [], _, _, h => by rw [combinedToAlg_cons] at h; cases c <;> simp [NonRedundantAxisMove.moves, combinedToAlg] at h
  | c :: cs, d :: ds, hc, hd, h => by
    have ih := combined_unique cs ds (List.isChain_cons.1 hc).2 (List.isChain_cons.1 hd).2
    have aux : ∀ (m : AxisMove) (a : Axis) (p n : Amount) (es fs : List NonRedundantAxisMove),
        AxesAlternate (.single m :: es) →
        combinedToAlg (.single m :: es) = combinedToAlg (.double a p n :: fs) → False := by
      intro m a p n es fs he h
      simp only [combinedToAlg_cons, NonRedundantAxisMove.moves, List.cons_append, List.nil_append, List.cons.injEq] at h
      obtain ⟨rfl, h⟩ := h
      obtain ⟨e, es', rfl, hea⟩ := head_axis h
      exact (List.isChain_cons_cons.1 he).1 hea.symm
    cases c with
    | single m =>
      cases d with
      | single m' =>
        simp only [combinedToAlg_cons, NonRedundantAxisMove.moves, List.cons_append, List.nil_append, List.cons.injEq] at h
        rw [h.1, ih h.2]
      | double a p n => exact (aux m a p n cs ds hc h).elim
    | double a p n =>
      cases d with
      | single m => exact (aux m a p n ds cs hd h.symm).elim
      | double a' p' n' =>
        simp only [combinedToAlg_cons, NonRedundantAxisMove.moves, List.cons_append, List.nil_append, List.cons.injEq,
          AxisMove.mk.injEq, Face.mk.injEq] at h
        obtain ⟨⟨⟨rfl, -⟩, rfl⟩, ⟨-, rfl⟩, h⟩ := h
        rw [ih h]

/-- **C80** Algs of combined moves in which neighbours are of different axes are converted to exactly the algs in which
neighbouring moves of one axis are a positive face followed by the negative one (those that `Alg::random` makes, C36); each of these
comes from exactly one such alg of combined moves. -/
theorem C80_normal_form (alg : List AxisMove) :
    (Ordered .pos alg ↔ ∃ cs, AxesAlternate cs ∧ combinedToAlg cs = alg) ∧
    (Ordered .pos alg ↔ ∃! cs, AxesAlternate cs ∧ combinedToAlg cs = alg) := by
  have h1 : Ordered .pos alg ↔ ∃ cs, AxesAlternate cs ∧ combinedToAlg cs = alg :=
    ⟨ordered_combined alg, fun ⟨cs, h, e⟩ => e ▸ alternate_ordered cs h⟩
  refine ⟨h1, fun h => ?_, fun h => h1.2 h.exists⟩
  obtain ⟨cs, hc, he⟩ := h1.1 h
  exact ⟨cs, ⟨hc, he⟩, fun ds ⟨hd, hde⟩ => combined_unique ds cs hd hc (hde.trans he.symm)⟩

/-- an alg of combined moves and its conversion; wrapping each face move by itself is not of that form -/
example : combinedToAlg [.double .X single double, .single ⟨U, inverse⟩] = [⟨R, single⟩, ⟨L, double⟩, ⟨U, inverse⟩] ∧
    AxesAlternate [.double .X single double, .single ⟨U, inverse⟩] ∧
    ¬ AxesAlternate ([⟨R, single⟩, ⟨L, double⟩, ⟨U, inverse⟩].map NonRedundantAxisMove.ofMove) := by
  refine ⟨by decide +kernel, ?_, ?_⟩ <;> (unfold AxesAlternate; decide +kernel)

theorem absorve_keeps_axis (n : NonRedundantAxisMove) (m : AxisMove) (h : n.axis = m.face.axis) :
    (absorve (some n) m).2 ≠ .notAdded ∧ ∀ n' ∈ (absorve (some n) m).1, n'.axis = n.axis := by
  revert n m; decide +kernel

theorem absorve_moves (n : NonRedundantAxisMove) (m : AxisMove) (h : n.axis = m.face.axis) :
    (optMoves (absorve (some n) m).1).length ≤ n.moves.length + 1 := by
  revert n m; decide +kernel

/-- **C80** Every alg of face moves has the effect, on every cube, of an alg of combined moves in which neighbours are of different axes;
it needs neither more combined moves nor, converted, more face moves. -/
theorem C80_every_alg (alg : List AxisMove) : ∃ cs, AxesAlternate cs ∧ cs.length ≤ alg.length ∧
    (combinedToAlg cs).length ≤ alg.length ∧ ∀ s ∈ axisSystems, ∀ c : s.C, movedAlg c cs = movedAlg c alg := by
  induction alg with
  | nil => exact ⟨[], by simp [AxesAlternate], by simp, by simp [combinedToAlg], fun _ _ _ => rfl⟩
  | cons m l ih =>
    obtain ⟨cs, hc, hl, hm, he⟩ := ih
    cases cs with
    | nil =>
      refine ⟨[.single m], by simp [AxesAlternate], by simp, by simp [combinedToAlg, NonRedundantAxisMove.moves], ?_⟩
      intro s hs c
      have := he s hs (moved c m)
      exact this
    | cons n cs =>
      by_cases e : n.axis = m.face.axis
      · obtain ⟨h1, h2⟩ := absorve_keeps_axis n m e
        have h3 := absorve_moves n m e
        have h4 : ∀ s ∈ axisSystems, ∀ c : s.C, movedAlg c (optMoves (absorve (some n) m).1) = moved (moved c m) n := by
          intro s hs c
          exact absorve_before (axisSystems_laws s hs) (some n) m h1 c
        rw [combinedToAlg_cons, List.length_append] at hm
        cases e' : (absorve (some n) m).1 with
        | none =>
          rw [e'] at h4
          refine ⟨cs, (List.isChain_cons.1 hc).2, by simp at hl ⊢; omega, by simp; omega, fun s hs c => ?_⟩
          have := he s hs (moved c m)
          show _ = movedAlg (moved c m) l
          rw [← this]
          show _ = movedAlg (moved (moved c m) n) cs
          rw [← h4 s hs c]; rfl
        | some n' =>
          rw [e'] at h4 h3
          refine ⟨n' :: cs, List.isChain_cons.2 ⟨?_, (List.isChain_cons.1 hc).2⟩, by simp at hl ⊢; omega, ?_, ?_⟩
          · rw [h2 n' e']; exact (List.isChain_cons.1 hc).1
          · rw [combinedToAlg_cons, List.length_append]
            simp only [optMoves] at h3
            simp only [List.length_cons]
            omega
          · intro s hs c
            have := he s hs (moved c m)
            show _ = movedAlg (moved c m) l
            rw [← this]
            show _ = movedAlg (moved (moved c m) n) cs
            rw [← h4 s hs c]; rfl
      · refine ⟨.single m :: n :: cs, List.isChain_cons_cons.2 ⟨fun h => e h.symm, hc⟩, by simp at hl ⊢; omega, ?_, ?_⟩
        · rw [combinedToAlg_cons, List.length_append]; simp [NonRedundantAxisMove.moves]; omega
        · intro s hs c
          exact he s hs (moved c m)

/-- an alg that becomes shorter -/
example : movedAlg Cube3.SOLVED ([.double .X double single] : List NonRedundantAxisMove) =
    movedAlg Cube3.SOLVED [(⟨R, single⟩ : AxisMove), ⟨L, single⟩, ⟨R, single⟩] := by decide +kernel

end Barbarosa
