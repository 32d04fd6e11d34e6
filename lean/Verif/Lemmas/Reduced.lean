import Verif.Lemmas.Normalize
import Verif.Spec.Algs

/-!
# When the output of `normalized` has no redundancy left
-/

namespace Barbarosa

/-- ordered algs have no redundancy -/
theorem Ordered.reduced {d : Direction} {l : List AxisMove} (h : Ordered d l) : Reduced l := by
  intro i j hij hj hf
  by_contra hc
  push Not at hc
  rw [Ordered, List.isChain_iff_getElem] at h
  have hax : ∀ k (hk : k < l.length), i ≤ k → k ≤ j → (l[k]).face.axis = (l[j]).face.axis := by
    intro k hk h1 h2
    rcases Nat.eq_or_lt_of_le h1 with rfl | h1
    · rw [hf]
    rcases Nat.eq_or_lt_of_le h2 with rfl | h2
    · rfl
    exact hc k hk h1 h2
  have h0 := h i (by omega) ((hax i (by omega) le_rfl (by omega)).trans (hax (i + 1) (by omega) (by omega) (by omega)).symm)
  rcases Nat.eq_or_lt_of_le (Nat.succ_le_of_lt hij) with he | hlt
  · obtain rfl : i + 1 = j := he
    rw [hf] at h0
    have := h0.1.symm.trans h0.2
    cases d <;> cases this
  · have h1 := h (i + 1) (by omega)
      ((hax (i + 1) (by omega) (by omega) (by omega)).trans (hax (i + 2) (by omega) (by omega) (by omega)).symm)
    have := h1.1.symm.trans h0.2
    cases d <;> cases this

theorem optMoves_axis {n : NonRedundantAxisMove} {m : AxisMove} (h : m ∈ n.moves) : m.face.axis = n.axis := by
  cases n with
  | single m' => simp only [NonRedundantAxisMove.moves, List.mem_singleton] at h; subst h; rfl
  | double a p q =>
    simp only [NonRedundantAxisMove.moves, List.mem_cons, List.not_mem_nil, or_false] at h
    rcases h with rfl | rfl <;> rfl

/-- what holds of the loop state as long as nothing has collapsed -/
structure NormState.Inv (s : NormState) : Prop where
  chain : Ordered .neg s.out
  held : ∀ n, s.held = some n → ∀ o ∈ s.out.head?, n.axis ≠ o.face.axis
  empty : s.held = none → s.out = []

theorem offload_some_head (n : NonRedundantAxisMove) (out : List AxisMove) :
    ∃ m l, offload (some n) out = m :: l ∧ m.face.axis = n.axis := by
  cases n with
  | single m => exact ⟨m, out, rfl, rfl⟩
  | double a p q => exact ⟨_, _, rfl, rfl⟩

theorem ordered_offload {held : Option NonRedundantAxisMove} {out : List AxisMove} (hc : Ordered .neg out)
    (hh : ∀ n, held = some n → ∀ o ∈ out.head?, n.axis ≠ o.face.axis) : Ordered .neg (offload held out) := by
  rcases held with _ | ⟨m⟩ | ⟨a, p, q⟩
  · exact hc
  · have := hh _ rfl
    rcases out with _ | ⟨o, out⟩
    · exact List.isChain_singleton _
    · exact List.isChain_cons_cons.2 ⟨fun h => absurd h (this o rfl), hc⟩
  · have := hh _ rfl
    refine List.isChain_cons_cons.2 ⟨fun _ => ⟨rfl, rfl⟩, ?_⟩
    rcases out with _ | ⟨o, out⟩
    · exact List.isChain_singleton _
    · exact List.isChain_cons_cons.2 ⟨fun h => absurd h (this o rfl), hc⟩

theorem absorve_new_axis {nr : Option NonRedundantAxisMove} {m : AxisMove} {n : NonRedundantAxisMove}
    (hn : (absorve nr m).2 ≠ .notAdded) (h : (absorve nr m).1 = some n) : n.axis = m.face.axis := by
  obtain ⟨⟨a, d⟩, x⟩ := m
  rcases nr with _ | ⟨⟨⟨b, e⟩, y⟩⟩ | ⟨b, p, q⟩
  · simp only [absorve, Option.some.injEq] at h; subst h; rfl
  · by_cases hab : b = a
    · subst hab
      revert h
      cases e <;> cases d <;> simp only [absorve, if_true] <;> (try rcases hxy : y.add x with _ | z) <;>
        simp only [Option.some.injEq, reduceCtorEq, false_imp_iff] <;> (try (rintro rfl; rfl))
    · simp [absorve, hab] at hn
  · by_cases hab : b = a
    · subst hab
      revert h
      cases d <;> simp only [absorve, if_true]
      · rcases hxy : p.add x with _ | z <;> simp only [Option.some.injEq] <;> (rintro rfl; rfl)
      · rcases hxy : q.add x with _ | z <;> simp only [Option.some.injEq] <;> (rintro rfl; rfl)
    · simp [absorve, hab] at hn

/-- a step that does not lose two moves at once keeps the invariant -/
theorem NormState.Inv.step {s s' : NormState} (hi : s.Inv) (hs : normStep s = some s')
    (ht : s.total ≤ s'.total + 1) : s'.Inv := by
  obtain ⟨rest, held, out⟩ := s
  rcases rest with _ | ⟨m, rest⟩
  · simp [normStep] at hs
  · have hl := absorve_length held m
    have hnot := absorve_notAdded held m
    have hax := absorve_axis held m
    have hnew := fun n => absorve_new_axis (nr := held) (m := m) (n := n)
    have hnone : (absorve held m).1 = none → (absorve held m).2 = .collapsed := by
      clear hi ht hs hl hnot hax hnew
      obtain ⟨⟨a, d⟩, x⟩ := m
      rcases held with _ | ⟨⟨⟨b, e⟩, y⟩⟩ | ⟨b, p, q⟩
      · simp [absorve]
      · by_cases hab : b = a
        · subst hab
          cases e <;> cases d <;> simp only [absorve, if_true] <;> (try rcases hxy : y.add x with _ | z) <;> simp
        · simp [absorve, hab]
      · by_cases hab : b = a
        · subst hab
          cases d <;> simp only [absorve, if_true]
          · rcases hxy : p.add x with _ | z <;> simp
          · rcases hxy : q.add x with _ | z <;> simp
        · simp [absorve, hab]
    have hkeep : ∀ held', (∀ n, held' = some n → n.axis = m.face.axis) → (held' ≠ none) →
        (∀ n, held = some n → n.axis = m.face.axis) → NormState.Inv ⟨rest, held', out⟩ := by
      intro held' h1 h2 h3
      refine ⟨hi.chain, fun n hn o ho => ?_, fun h => absurd h h2⟩
      rcases hh : held with _ | n0
      · rw [hi.empty hh] at ho; cases ho
      · rw [h1 n hn, ← h3 n0 hh]
        exact hi.held n0 hh o ho
    unfold normStep at hs
    rcases hab : absorve held m with ⟨held', res⟩
    rw [hab] at hl hnot hax hnew hnone
    simp only [hab] at hs
    have hoff : (offload held' out).length = (optMoves held').length + out.length := by simp [offload_eq]
    cases res with
    | notAdded =>
      simp only [Option.some.injEq] at hs
      subst hs
      obtain ⟨h1, n, h2, h3⟩ := hnot rfl
      simp only at h1
      subst h1
      subst h2
      refine ⟨ordered_offload hi.chain hi.held, ?_, fun h => by cases h⟩
      intro n' hn' o ho
      simp only [absorve_none, Option.some.injEq] at hn'
      subst hn'
      obtain ⟨m0, l, h4, h5⟩ := offload_some_head n out
      rw [h4] at ho
      simp only [List.head?_cons, Option.mem_def, Option.some.injEq] at ho
      subst ho
      rw [h5]
      exact fun h => h3 h.symm
    | collapsed =>
      exfalso
      have h2 := hl.2 rfl
      simp only at h2 hs
      rcases hof : offload held' out with _ | ⟨m', out'⟩
      · rw [hof] at hs hoff
        simp only [Option.some.injEq] at hs
        subst hs
        have e : (optMoves (none : Option NonRedundantAxisMove)).length = 0 := rfl
        simp only [NormState.total, e, List.length_cons, List.length_nil] at hoff ht
        omega
      · rw [hof] at hs hoff
        simp only [Option.some.injEq] at hs
        subst hs
        simp only [List.length_cons] at hoff
        have e : (optMoves (none : Option NonRedundantAxisMove)).length = 0 := rfl
        simp only [NormState.total, e, List.length_cons] at ht
        omega
    | absorved =>
      simp only [Option.some.injEq] at hs
      subst hs
      exact hkeep _ (fun n hn => hnew n (by simp) hn) (fun h => by simpa using hnone h) (hax (by simp))
    | added =>
      simp only [Option.some.injEq] at hs
      subst hs
      exact hkeep _ (fun n hn => hnew n (by simp) hn) (fun h => by simpa using hnone h) (hax (by simp))

theorem normLoop_total : ∀ (k : Nat) (s s' : NormState), normLoop k s = some s' → s'.total ≤ s.total := by
  intro k
  induction k with
  | zero =>
    intro s s' hs
    unfold normLoop at hs
    rcases hst : normStep s with _ | t
    · rw [hst] at hs; simp only [Option.some.injEq] at hs; rw [hs]
    · rw [hst] at hs; cases hs
  | succ k ih =>
    intro s s' hs
    unfold normLoop at hs
    rcases hst : normStep s with _ | t
    · rw [hst] at hs; simp only [Option.some.injEq] at hs; rw [hs]
    · rw [hst] at hs
      exact (ih t s' hs).trans (normStep_measure hst).1

theorem NormState.Inv.loop : ∀ (k : Nat) (s s' : NormState), s.Inv → normLoop k s = some s' →
    s.total ≤ s'.total + 1 → s'.Inv := by
  intro k
  induction k with
  | zero =>
    intro s s' hi hs ht
    unfold normLoop at hs
    rcases hst : normStep s with _ | t
    · rw [hst] at hs; simp only [Option.some.injEq] at hs; rwa [← hs]
    · rw [hst] at hs; cases hs
  | succ k ih =>
    intro s s' hi hs ht
    unfold normLoop at hs
    rcases hst : normStep s with _ | t
    · rw [hst] at hs; simp only [Option.some.injEq] at hs; rwa [← hs]
    · rw [hst] at hs
      have h1 := normLoop_total k t s' hs
      have h2 := (normStep_measure hst).1
      exact ih t s' (hi.step hst (by omega)) hs (by omega)

theorem loop_rest {k : Nat} {s s' : NormState} (h : normLoop k s = some s') : s'.rest = [] :=
  (normLoop_effect (C := Cube3) cube3_laws k s s' h Cube3.SOLVED).2

/-- if at most one move was saved, the output is ordered -/
theorem normalized_ordered (alg : List AxisMove) (h : alg.length ≤ (normalized alg).length + 1) :
    Ordered .neg (normalized alg) := by
  obtain ⟨s, h1, -, h3, -⟩ := normalized_final alg
  have hr := loop_rest h1
  have hlen : (normalized alg).length = s.total := by
    rw [h3, offload_eq]; simp [NormState.total, hr]
  have hinv : s.Inv := NormState.Inv.loop _ ⟨alg.reverse, none, []⟩ _
    ⟨List.IsChain.nil, fun n hn => (by cases hn), fun _ => rfl⟩ h1
    (by rw [← hlen]; simpa [NormState.total, optMoves] using h)
  rw [h3]
  exact ordered_offload hinv.chain hinv.held

/-! ## Algs with at most one face per axis -/

/-- what holds of the loop state if the alg never uses opposite faces -/
structure NormState.Inv1 (s : NormState) : Prop where
  one : OneFacePerAxis s.word
  chain : s.out.IsChain fun a b => a.face.axis ≠ b.face.axis
  single : ∀ n, s.held = some n → ∃ m, n = .single m ∧ ∀ o ∈ s.out.head?, m.face.axis ≠ o.face.axis
  empty : s.held = none → ∀ r ∈ s.rest.head?, ∀ o ∈ s.out.head?, r.face.axis ≠ o.face.axis

theorem OneFacePerAxis.mono {l l' : List AxisMove} (h : OneFacePerAxis l)
    (hs : ∀ m ∈ l', ∃ m' ∈ l, m'.face = m.face) : OneFacePerAxis l' := by
  intro a ha b hb hab
  obtain ⟨a', ha', e1⟩ := hs a ha
  obtain ⟨b', hb', e2⟩ := hs b hb
  rw [← e1, ← e2] at hab ⊢
  exact h a' ha' b' hb' hab

theorem NormState.Inv1.step {s s' : NormState} (hi : s.Inv1) (hs : normStep s = some s') : s'.Inv1 := by
  obtain ⟨rest, held, out⟩ := s
  obtain ⟨hone, hchain, hsingle, hnone⟩ := hi
  simp only at hchain hsingle hnone
  rcases rest with _ | ⟨m, rest⟩
  · simp [normStep] at hs
  rcases held with _ | n
  · simp only [normStep, absorve_none, Option.some.injEq] at hs
    subst hs
    refine ⟨?_, hchain, ?_, fun h => by cases h⟩
    · refine hone.mono fun x hx => ⟨x, ?_, rfl⟩
      simp [NormState.word, optMoves, NonRedundantAxisMove.moves] at hx ⊢
      tauto
    · intro n hn
      simp only [Option.some.injEq] at hn
      exact ⟨m, hn.symm, hnone rfl m rfl⟩
  · obtain ⟨m0, rfl, hm0⟩ := hsingle n rfl
    by_cases hax : m0.face.axis = m.face.axis
    · have hf : m0.face = m.face := by
        refine hone m0 ?_ m ?_ hax <;> simp [NormState.word, optMoves, NonRedundantAxisMove.moves]
      have habs : absorve (some (.single m0)) m = match m0.amount.add m.amount with
          | some a => (some (.single ⟨m0.face, a⟩), .absorved)
          | none => (none, .collapsed) := by
        obtain ⟨⟨a, d⟩, x⟩ := m
        obtain ⟨⟨b, e⟩, y⟩ := m0
        simp only [Face.mk.injEq] at hf
        obtain ⟨rfl, rfl⟩ := hf
        cases e <;> simp only [absorve, if_true] <;> rcases y.add x with _ | z <;> rfl
      unfold normStep at hs
      rcases hadd : m0.amount.add m.amount with _ | z
      · simp only [habs, hadd] at hs
        rcases out with _ | ⟨m', out⟩
        · simp only [offload, Option.some.injEq] at hs
          subst hs
          refine ⟨?_, List.IsChain.nil, fun n hn => (by cases hn), fun _ _ _ o ho => (by cases ho)⟩
          refine hone.mono fun x hx => ⟨x, ?_, rfl⟩
          simp [NormState.word, optMoves, NonRedundantAxisMove.moves] at hx ⊢
          tauto
        · simp only [offload, Option.some.injEq] at hs
          subst hs
          refine ⟨?_, hchain.tail, fun n hn => (by cases hn), fun _ r hr o ho => ?_⟩
          · refine hone.mono fun x hx => ⟨x, ?_, rfl⟩
            simp [NormState.word, optMoves, NonRedundantAxisMove.moves] at hx ⊢
            tauto
          · simp only [List.head?_cons, Option.mem_def, Option.some.injEq] at hr
            subst hr
            rcases out with _ | ⟨o', out⟩
            · cases ho
            · simp only [List.head?_cons, Option.mem_def, Option.some.injEq] at ho
              subst ho
              exact (List.isChain_cons_cons.1 hchain).1
      · simp only [habs, hadd, Option.some.injEq] at hs
        subst hs
        refine ⟨?_, hchain, ?_, fun h => (by cases h)⟩
        · intro a ha b hb
          have key : ∀ x ∈ (⟨rest, some (.single ⟨m0.face, z⟩), out⟩ : NormState).word,
              ∃ x' ∈ (⟨m :: rest, some (.single m0), out⟩ : NormState).word, x'.face = x.face := by
            intro x hx
            simp only [NormState.word, optMoves, NonRedundantAxisMove.moves, List.append_assoc, List.mem_append,
              List.mem_reverse, List.mem_cons, List.not_mem_nil, or_false] at hx ⊢
            rcases hx with hx | rfl | hx
            · exact ⟨x, .inl (.inr hx), rfl⟩
            · exact ⟨m0, .inr (.inl rfl), rfl⟩
            · exact ⟨x, .inr (.inr hx), rfl⟩
          exact hone.mono key a ha b hb
        · intro n hn
          simp only [Option.some.injEq] at hn
          exact ⟨_, hn.symm, hm0⟩
    · have habs : absorve (some (.single m0)) m = (some (.single m0), .notAdded) := by simp [absorve, hax]
      unfold normStep at hs
      simp only [habs, Option.some.injEq] at hs
      subst hs
      refine ⟨?_, ?_, ?_, fun h => (by cases h)⟩
      · refine hone.mono fun x hx => ⟨x, ?_, rfl⟩
        simp [NormState.word, optMoves, NonRedundantAxisMove.moves, offload, absorve] at hx ⊢
        tauto
      · show (m0 :: out).IsChain _
        rcases out with _ | ⟨o, out⟩
        · exact List.isChain_singleton _
        · exact List.isChain_cons_cons.2 ⟨hm0 o rfl, hchain⟩
      · intro n hn
        simp only [absorve_none, Option.some.injEq] at hn
        refine ⟨m, hn.symm, fun o ho => ?_⟩
        have : o = m0 := by simpa [offload, NonRedundantAxisMove.moves, eq_comm] using ho
        subst this
        exact fun h => hax h.symm

theorem NormState.Inv1.loop : ∀ (k : Nat) (s s' : NormState), s.Inv1 → normLoop k s = some s' → s'.Inv1 := by
  intro k
  induction k with
  | zero =>
    intro s s' hi hs
    unfold normLoop at hs
    rcases hst : normStep s with _ | t
    · rw [hst] at hs; simp only [Option.some.injEq] at hs; rwa [← hs]
    · rw [hst] at hs; cases hs
  | succ k ih =>
    intro s s' hi hs
    unfold normLoop at hs
    rcases hst : normStep s with _ | t
    · rw [hst] at hs; simp only [Option.some.injEq] at hs; rwa [← hs]
    · rw [hst] at hs
      exact ih t s' (hi.step hst) hs

theorem normalized_ordered_one (alg : List AxisMove) (h : OneFacePerAxis alg) :
    Ordered .neg (normalized alg) := by
  obtain ⟨s, h1, -, h3, -⟩ := normalized_final alg
  have hinv : s.Inv1 := NormState.Inv1.loop _ ⟨alg.reverse, none, []⟩ _
    ⟨by simpa [NormState.word, optMoves] using h, List.IsChain.nil, fun n hn => (by cases hn),
      fun _ _ _ o ho => (by cases ho)⟩ h1
  rw [h3]
  have hout : Ordered .neg s.out := hinv.chain.imp fun a b hne he => absurd he hne
  refine ordered_offload hout fun n hn o ho => ?_
  obtain ⟨m, rfl, hm⟩ := hinv.single n hn
  exact hm o ho

/-! ## Ordered algs are left alone -/

/-- the final state of the loop started at `s` -/
def normRun (s : NormState) : NormState := (normLoop s.measure s).getD s

theorem normRun_eq {s r : NormState} {k : Nat} (h : normLoop k s = some r) : normRun s = r := by
  obtain ⟨r', h1, -⟩ := normLoop_terminates s.measure s le_rfl
  have e1 := normLoop_mono _ k _ _ h1
  have e2 := normLoop_mono _ s.measure _ _ h
  rw [Nat.add_comm] at e2
  rw [normRun, h1]
  exact Option.some.inj (e1.symm.trans e2)

theorem normRun_step {s t : NormState} (h : normStep s = some t) : normRun s = normRun t := by
  obtain ⟨r, h1, -⟩ := normLoop_terminates t.measure t le_rfl
  rw [normRun_eq h1]
  refine normRun_eq (k := t.measure + 1) ?_
  rw [normLoop, h]
  exact h1

theorem normRun_done (held : Option NonRedundantAxisMove) (out : List AxisMove) :
    normRun ⟨[], held, out⟩ = ⟨[], held, out⟩ := normRun_eq (k := 0) rfl

theorem normalized_run (alg : List AxisMove) :
    normalized alg = offload (normRun ⟨alg.reverse, none, []⟩).held (normRun ⟨alg.reverse, none, []⟩).out := by
  obtain ⟨s, h1, -, h3, -⟩ := normalized_final alg
  rw [normRun_eq h1, h3]

/-- running the loop over an ordered rest just stacks it up -/
theorem normRun_ordered : ∀ (rest : List AxisMove) (held : Option NonRedundantAxisMove) (out : List AxisMove),
    Ordered .neg (rest.reverse ++ offload held out) → (held = none → out = []) →
    offload (normRun ⟨rest, held, out⟩).held (normRun ⟨rest, held, out⟩).out =
      rest.reverse ++ offload held out
  | [], held, out, _, _ => by rw [normRun_done]; rfl
  | m :: rest, none, out, hc, hn => by
    obtain rfl := hn rfl
    have hs : normStep ⟨m :: rest, none, []⟩ = some ⟨rest, some (.single m), []⟩ := rfl
    rw [normRun_step hs]
    have e : (m :: rest).reverse ++ offload none [] = rest.reverse ++ offload (some (.single m)) [] := by
      simp [offload, NonRedundantAxisMove.moves]
    rw [e] at hc ⊢
    exact normRun_ordered rest _ _ hc (fun h => by cases h)
  | m :: rest, some n, out, hc, hn => by
    by_cases hax : n.axis = m.face.axis
    · -- `n` must be a single positive move and `m` negative
      have hpair : (m :: offload (some n) out).IsChain
          fun a b => a.face.axis = b.face.axis → a.face.direction = .neg ∧ b.face.direction = Direction.neg.flip := by
        have : Ordered .neg (rest.reverse ++ (m :: offload (some n) out)) := by simpa using hc
        exact (List.isChain_append.1 this).2.1
      rcases n with ⟨⟨⟨b, e⟩, y⟩⟩ | ⟨b, p, q⟩
      · obtain ⟨⟨a, d⟩, x⟩ := m
        obtain rfl : b = a := hax
        obtain ⟨rfl, rfl⟩ := (List.isChain_cons_cons.1 hpair).1 rfl
        have hs : normStep ⟨⟨⟨b, .neg⟩, x⟩ :: rest, some (.single ⟨⟨b, Direction.neg.flip⟩, y⟩), out⟩ =
            some ⟨rest, some (.double b y x), out⟩ := by simp [normStep, absorve, Direction.flip]
        rw [normRun_step hs]
        have e : (⟨⟨b, .neg⟩, x⟩ :: rest).reverse ++ offload (some (.single ⟨⟨b, Direction.neg.flip⟩, y⟩)) out =
            rest.reverse ++ offload (some (.double b y x)) out := by
          simp [offload, NonRedundantAxisMove.moves, Direction.flip]
        rw [e] at hc ⊢
        exact normRun_ordered rest _ _ hc (fun h => by cases h)
      · exfalso
        obtain ⟨⟨a, d⟩, x⟩ := m
        obtain rfl : b = a := hax
        have := (List.isChain_cons_cons.1 hpair).1 rfl
        simp only [Direction.flip, reduceCtorEq, and_false] at this
    · have hs : normStep ⟨m :: rest, some n, out⟩ = some ⟨rest, some (.single m), offload (some n) out⟩ := by
        have : absorve (some n) m = (some n, .notAdded) := by
          cases n <;> (simp only [NonRedundantAxisMove.axis] at hax; simp [absorve, hax])
        simp [normStep, this, absorve_none]
      rw [normRun_step hs]
      have e : (m :: rest).reverse ++ offload (some n) out =
          rest.reverse ++ offload (some (.single m)) (offload (some n) out) := by
        simp [offload_eq, optMoves, NonRedundantAxisMove.moves]
      rw [e] at hc ⊢
      exact normRun_ordered rest _ _ hc (fun h => by cases h)

theorem normalized_of_ordered {alg : List AxisMove} (h : Ordered .neg alg) : normalized alg = alg := by
  rw [normalized_run, normRun_ordered _ _ _ (by simpa [offload] using h) (fun _ => rfl)]
  simp [offload]

theorem normalized_length (alg : List AxisMove) : (normalized alg).length ≤ alg.length := by
  obtain ⟨s, h1, h2, h3, -⟩ := normalized_final alg
  rw [h3, offload_eq]
  simp only [NormState.total] at h2
  simp only [List.length_append, List.length_reverse]
  omega

/-- one more pass always helps until nothing is left to do -/
theorem normalized_iterate : ∀ (k : Nat) (alg : List AxisMove), alg.length ≤ 2 * k →
    Ordered .neg (normalized^[k] alg)
  | 0, alg, h => by
    have : alg = [] := List.length_eq_zero_iff.1 (by omega)
    subst this
    exact List.IsChain.nil
  | k + 1, alg, h => by
    rw [Function.iterate_succ_apply]
    by_cases hl : alg.length ≤ (normalized alg).length + 1
    · have ho := normalized_ordered alg hl
      have : ∀ j, normalized^[j] (normalized alg) = normalized alg := by
        intro j
        exact Function.iterate_fixed (normalized_of_ordered ho) j
      rw [this]
      exact ho
    · exact normalized_iterate k _ (by omega)

end Barbarosa
