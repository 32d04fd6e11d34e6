import Verif.Model.Shared
import Verif.Props.Mus

/-!
# C53: the shared cache is initialised once and read consistently
-/

namespace Barbarosa

/-- The caches that initialisations ended with -/
def finishedValues (es : List LockEvent) : List Cache :=
  es.filterMap fun | .finished _ v => some v | _ => none

/-- How often an initialisation was started, and how often one panicked -/
def startedCount (es : List LockEvent) : Nat := es.countP fun | .started _ => true | _ => false
def panickedCount (es : List LockEvent) : Nat := es.countP fun | .panicked _ => true | _ => false

/-- What holds at every moment -/
structure LockInv (es : List LockEvent) (l : Lock) : Prop where
  value : finishedValues es = l.value.toList
  owner : ∀ t c, l.threads t = .initialising c → l.owner = some t
  owned : ∀ t, l.owner = some t → ∃ c, l.threads t = .initialising c
  empty : l.owner ≠ none → l.value = none
  count : startedCount es = panickedCount es + (finishedValues es).length + (if l.owner.isSome then 1 else 0)

theorem put_same (l : Lock) (t : Nat) (s : Thread) : l.put t s t = s := if_pos rfl
theorem put_other (l : Lock) {t u : Nat} (s : Thread) (h : u ≠ t) : l.put t s u = l.threads u := if_neg h

/-- A step that concerns neither the lock nor an initialisation -/
theorem LockInv.quiet {es : List LockEvent} {l : Lock} (h : LockInv es l) {t : Nat} {s : Thread} {e : LockEvent}
    (hs : ∀ c, s ≠ .initialising c) (ht : ∀ c, l.threads t ≠ .initialising c) (hf : finishedValues [e] = [])
    (hst : startedCount [e] = 0) (hp : panickedCount [e] = 0) : LockInv (es ++ [e]) { l with threads := l.put t s } := by
  have hf' : finishedValues (es ++ [e]) = finishedValues es := by
    unfold finishedValues at hf ⊢
    rw [List.filterMap_append, hf, List.append_nil]
  refine ⟨hf'.trans h.value, fun u c hu => ?_, fun u hu => ?_, h.empty, ?_⟩
  · by_cases hut : u = t
    · subst hut
      exact absurd ((put_same l u s).symm.trans hu) (hs c)
    · exact h.owner u c ((put_other l s hut).symm.trans hu)
  · obtain ⟨c, hc⟩ := h.owned u hu
    refine ⟨c, (put_other l s ?_).trans hc⟩
    rintro rfl
    exact ht c hc
  · rw [hf']
    have := h.count
    unfold startedCount panickedCount at *
    rw [List.countP_append, List.countP_append, hst, hp]
    simpa using this

theorem lock_inv {es : List LockEvent} {l : Lock} (h : Lock.Trace es l) : LockInv es l := by
  induction h with
  | nil =>
    refine ⟨rfl, fun t c h => ?_, fun t h => ?_, fun h => rfl, rfl⟩
    · cases h
    · cases h
  | @snoc es l e l' _ hs ih =>
    cases hs with
    | callGet t c ht => exact ih.quiet (fun c => by simp) (fun c => by simp [ht]) rfl rfl rfl
    | callGetOrInit t c ht => exact ih.quiet (fun c => by simp) (fun c => by simp [ht]) rfl rfl rfl
    | get t c ht => exact ih.quiet (fun c => by simp) (fun c => by simp [ht]) rfl rfl rfl
    | use t c v ht hv => exact ih.quiet (fun c => by simp) (fun c => by simp [ht]) rfl rfl rfl
    | start t c ht hv ho =>
      have hf' : finishedValues (es ++ [.started t]) = finishedValues es := by
        simp [finishedValues, List.filterMap_append]
      refine ⟨?_, fun u c' hu => ?_, fun u hu => ?_, fun _ => rfl, ?_⟩
      · rw [hf', ih.value, hv]
      · by_cases hut : u = t
        · rw [hut]
        · have := ih.owner u c' ((put_other l _ hut).symm.trans hu)
          rw [ho] at this
          cases this
      · cases hu
        exact ⟨c, put_same l t _⟩
      · rw [hf']
        have := ih.count
        rw [ho] at this
        simp only [startedCount, panickedCount, List.countP_append] at *
        simp at this ⊢
        omega
    | finish t c v ht =>
      have how := ih.owner t c ht
      have hv := ih.empty (by rw [how]; simp)
      have hf' : finishedValues (es ++ [.finished t v]) = [v] := by
        have := ih.value
        rw [hv] at this
        simp only [finishedValues, List.filterMap_append] at this ⊢
        rw [this]
        rfl
      have hf0 : finishedValues es = [] := by rw [ih.value, hv]; rfl
      refine ⟨hf', fun u c' hu => ?_, fun u hu => (by cases hu), fun h => absurd rfl h, ?_⟩
      · by_cases hut : u = t
        · subst hut
          cases (put_same l u _).symm.trans hu
        · have := ih.owner u c' ((put_other l _ hut).symm.trans hu)
          rw [how] at this
          cases this
          exact absurd rfl hut
      · rw [hf']
        have := ih.count
        rw [how, hf0] at this
        simp only [startedCount, panickedCount, List.countP_append] at *
        simp at this ⊢
        omega
    | panic t c ht =>
      have how := ih.owner t c ht
      have hf' : finishedValues (es ++ [.panicked t]) = finishedValues es := by
        simp [finishedValues, List.filterMap_append]
      refine ⟨hf'.trans ih.value, fun u c' hu => ?_, fun u hu => (by cases hu), fun h => absurd rfl h, ?_⟩
      · by_cases hut : u = t
        · subst hut
          cases (put_same l u _).symm.trans hu
        · have := ih.owner u c' ((put_other l _ hut).symm.trans hu)
          rw [how] at this
          cases this
          exact absurd rfl hut
      · rw [hf']
        have := ih.count
        rw [how] at this
        simp only [startedCount, panickedCount, List.countP_append] at *
        simp at this ⊢
        omega

/-- Every event of a trace was a step from a state with a trace of its own -/
theorem trace_split {es : List LockEvent} {l : Lock} (h : Lock.Trace es l) : ∀ {pre e post}, es = pre ++ e :: post →
    ∃ l1 l2, Lock.Trace pre l1 ∧ Lock.Step l1 e l2 := by
  induction h with
  | nil => intro pre e post h; simp at h
  | @snoc es l e' l' ht hs ih =>
    intro pre e post h
    rcases List.eq_nil_or_concat post with rfl | ⟨post', x, rfl⟩
    · obtain ⟨rfl, h2⟩ := List.append_inj' h rfl
      cases h2
      exact ⟨l, l', ht, hs⟩
    · rw [List.concat_eq_append, ← List.cons_append, ← List.append_assoc] at h
      obtain ⟨h1, _⟩ := List.append_inj' h rfl
      exact ih h1

/-- **C53** The cache is initialised at most once, whatever the threads do: at most one initialisation succeeds. -/
theorem C53_once {es : List LockEvent} {l : Lock} (h : Lock.Trace es l) : (finishedValues es).length ≤ 1 := by
  rw [(lock_inv h).value]
  cases l.value <;> simp

/-- **C53** Every attempt but one has panicked or is still under way: no second thread initialises while one does, and none does after
one has succeeded. -/
theorem C53_attempts {es : List LockEvent} {l : Lock} (h : Lock.Trace es l) :
    startedCount es ≤ panickedCount es + 1 ∧
    (∀ t u c d, l.threads t = .initialising c → l.threads u = .initialising d → t = u) ∧
    (finishedValues es ≠ [] → ∀ t c, l.threads t ≠ .initialising c) := by
  have inv := lock_inv h
  refine ⟨?_, fun t u c d ht hu => ?_, fun hf t c ht => ?_⟩
  · rw [inv.count, inv.value]
    cases hv : l.value with
    | none => simp only [Option.toList_none, List.length_nil]; split <;> omega
    | some v =>
      have : l.owner = none := by
        by_contra ho
        rw [inv.empty ho] at hv
        cases hv
      rw [this]
      simp
  · have := (inv.owner t c ht).symm.trans (inv.owner u d hu)
    cases this
    rfl
  · apply hf
    rw [inv.value, inv.empty (by rw [inv.owner t c ht]; simp)]
    rfl

/-- **C53** Every value that `get_or_init` returns was looked up in the one cache whose initialisation had finished before. -/
theorem C53_get_or_init {es : List LockEvent} {l : Lock} (h : Lock.Trace es l) {pre post : List LockEvent} {t : Nat} {c : Cube3}
    {n : Option Nat} (hs : es = pre ++ .used t c n :: post) : ∃ v, finishedValues pre = [v] ∧ finishedValues es = [v] ∧ n = v.get? c := by
  obtain ⟨l1, l2, h1, h2⟩ := trace_split h hs
  cases h2 with
  | use _ _ v ht hv =>
    have hp : finishedValues pre = [v] := by rw [(lock_inv h1).value, hv]; rfl
    refine ⟨v, hp, ?_, rfl⟩
    have := C53_once h
    subst hs
    simp only [finishedValues, List.filterMap_append, List.length_append] at this hp ⊢
    rw [hp] at this ⊢
    rw [List.length_eq_zero_iff.1 (show (List.filterMap _ (LockEvent.used t c (v.get? c) :: post)).length = 0 by
      simp only [List.length_cons, List.length_nil] at this; omega)]
    rfl

/-- **C53** `get` returns `None` exactly when no initialisation has finished so far, otherwise a value from that one cache. -/
theorem C53_get {es : List LockEvent} {l : Lock} (h : Lock.Trace es l) {pre post : List LockEvent} {t : Nat} {c : Cube3}
    {r : Option (Option Nat)} (hs : es = pre ++ .got t c r :: post) :
    (r = none ↔ finishedValues pre = []) ∧ ∀ n, r = some n → ∃ v, finishedValues pre = [v] ∧ n = v.get? c := by
  obtain ⟨l1, l2, h1, h2⟩ := trace_split h hs
  cases h2 with
  | get ht =>
    rw [(lock_inv h1).value]
    cases l1.value with
    | none => exact ⟨by simp, fun n h => by simp at h⟩
    | some v =>
      refine ⟨by simp, fun n h => ⟨v, rfl, ?_⟩⟩
      simpa using h.symm

/-- **C53** No thread waits for ever for lack of a step: `get` can always return; a thread in `get_or_init` can return, can start
the initialisation itself, or waits for one particular other thread, which is initialising and can finish. -/
theorem C53_no_deadlock {es : List LockEvent} {l : Lock} (h : Lock.Trace es l) (t : Nat) (c : Cube3) :
    (l.threads t = .getting c → ∃ r l', Lock.Step l (.got t c r) l' ∧ l'.threads t = .idle) ∧
    (l.threads t = .waiting c →
      (∃ n l', Lock.Step l (.used t c n) l' ∧ l'.threads t = .idle) ∨ (∃ l', Lock.Step l (.started t) l') ∨
      ∃ u d, u ≠ t ∧ l.threads u = .initialising d ∧ ∀ v, ∃ l', Lock.Step l (.finished u v) l' ∧ l'.value = some v ∧
        l'.threads t = .waiting c) ∧
    (l.threads t = .initialising c → ∀ v, ∃ l', Lock.Step l (.finished t v) l' ∧ l'.value = some v) := by
  refine ⟨fun ht => ⟨_, _, .get l t c ht, put_same _ _ _⟩, fun ht => ?_, fun ht v => ⟨_, .finish l t c v ht, rfl⟩⟩
  cases hv : l.value with
  | some v => exact Or.inl ⟨_, _, .use l t c v ht hv, put_same _ _ _⟩
  | none =>
    cases ho : l.owner with
    | none => exact Or.inr (Or.inl ⟨_, .start l t c ht hv ho⟩)
    | some u =>
      obtain ⟨d, hd⟩ := (lock_inv h).owned u ho
      have hut : u ≠ t := by
        rintro rfl
        rw [ht] at hd
        cases hd
      exact Or.inr (Or.inr ⟨u, d, hut, hd, fun v => ⟨_, .finish l u d v hd, rfl, (put_other l _ hut.symm).trans ht⟩⟩)

/-- **C53** The fallback heuristic: at any moment `mus_with_fallback` gives the fallback's value exactly when `get` returns `None`, and
otherwise the value of the one cache. With complete tables and an admissible fallback it never overestimates, whenever the
initialisation happens in the meantime. -/
theorem C53_fallback {edges corners : List Nat} (he : buildTable? HalfEdgesMUS = some edges)
    (hk : buildTable? CornersMUS = some corners) {es : List LockEvent} {l : Lock} (h : Lock.Trace es l)
    (hv : ∀ v ∈ finishedValues es, v = ⟨edges, corners⟩) (fallback : Cube3 → Option ℚ)
    (hf : ∀ (c : Cube3) (alg : List AxisMove), movedAlg c alg = Cube3.SOLVED → ∃ x, fallback c = some x ∧ x ≤ alg.length) :
    (finishedValues es = [] → ∀ c, musWithFallback? l.value fallback c = fallback c) ∧
    (finishedValues es ≠ [] → ∀ c, musWithFallback? l.value fallback c = mus? ⟨edges, corners⟩ c) ∧
    ∀ (c : Cube3) (alg : List AxisMove), movedAlg c alg = Cube3.SOLVED →
      ∃ x, musWithFallback? l.value fallback c = some x ∧ x ≤ alg.length := by
  have inv := (lock_inv h).value
  cases hl : l.value with
  | none =>
    rw [hl] at inv
    refine ⟨fun _ c => rfl, fun hne => absurd inv hne, fun c alg ha => ?_⟩
    exact C25_fallback he hk fallback hf none (Or.inl rfl) c alg ha
  | some v =>
    rw [hl] at inv
    have hv' : v = ⟨edges, corners⟩ := hv v (by rw [inv]; simp)
    subst hv'
    refine ⟨fun h0 => (by rw [inv] at h0; cases h0), fun _ c => rfl, fun c alg ha => ?_⟩
    exact C25_fallback he hk fallback hf (some _) (Or.inr rfl) c alg ha

/-- two threads; the first initialisation panics, the second thread then initialises, both `get`s are as described -/
theorem example_trace (c : Cube3) (v : Cache) : ∃ l, Lock.Trace [.called 0 c, .called 1 c, .started 0, .called 2 c, .got 2 c none, .panicked 0,
    .started 1, .finished 1 v, .called 2 c, .used 1 c (v.get? c), .got 2 c (some (v.get? c))] l := by
  have e1 := Lock.Trace.snoc .nil (.callGetOrInit Lock.new 0 c rfl)
  have e2 := e1.snoc (.callGetOrInit _ 1 c rfl)
  have e3 := e2.snoc (.start _ 0 c rfl rfl rfl)
  have e4 := e3.snoc (.callGet _ 2 c rfl)
  have e5 := e4.snoc (.get _ 2 c rfl)
  have e6 := e5.snoc (.panic _ 0 c rfl)
  have e7 := e6.snoc (.start _ 1 c rfl rfl rfl)
  have e8 := e7.snoc (.finish _ 1 c v rfl)
  have e9 := e8.snoc (.callGet _ 2 c rfl)
  have e10 := e9.snoc (.use _ 1 c v rfl rfl)
  have e11 := e10.snoc (.get _ 2 c rfl)
  exact ⟨_, e11⟩

/-- what the theorems say about this run: one value, two attempts, and what the second thread and the two `get`s were given -/
example (c : Cube3) (v : Cache) : ∃ es l, Lock.Trace es l ∧ (finishedValues es).length = 1 ∧ startedCount es = 2 ∧ panickedCount es = 1 ∧
    ∃ pre post, es = pre ++ .used 1 c (v.get? c) :: post ∧ finishedValues pre = [v] := by
  obtain ⟨l, h⟩ := example_trace c v
  exact ⟨_, l, h, rfl, rfl, rfl, [.called 0 c, .called 1 c, .started 0, .called 2 c, .got 2 c none, .panicked 0,
    .started 1, .finished 1 v, .called 2 c], _, rfl, rfl⟩

/-- a `get` during an initialisation is answered `None` -/
example (c : Cube3) (v : Cache) (r : Option (Option Nat)) (l : Lock)
    (h : Lock.Trace [.called 0 c, .started 0, .called 2 c, .got 2 c r, .finished 0 v] l) : r = none :=
  (C53_get h (pre := [.called 0 c, .started 0, .called 2 c]) (post := [.finished 0 v]) rfl).1.2 rfl

/-- the same by the theorems: at most one value, no more attempts than failures and one, and what the second thread was given -/
example (c : Cube3) (v : Cache) : ∃ es l, Lock.Trace es l ∧ (finishedValues es).length ≤ 1 ∧ startedCount es ≤ panickedCount es + 1 ∧
    (∀ u d, l.threads u ≠ .initialising d) ∧ ∃ w, finishedValues es = [w] ∧ v.get? c = w.get? c := by
  obtain ⟨l, h⟩ := example_trace c v
  obtain ⟨w, -, h1, h2⟩ := C53_get_or_init h (pre := [.called 0 c, .called 1 c, .started 0, .called 2 c, .got 2 c none, .panicked 0,
    .started 1, .finished 1 v, .called 2 c]) rfl
  exact ⟨_, l, h, C53_once h, (C53_attempts h).1, (C53_attempts h).2.2 (by rw [h1]; simp), w, h1, h2⟩

/-- two threads that wait for the first to finish: nobody is stuck -/
example (c : Cube3) : ∃ es l, Lock.Trace es l ∧ l.threads 1 = .waiting c ∧ l.threads 0 = .initialising c ∧
    ∀ v, ∃ l', Lock.Step l (.finished 0 v) l' ∧ l'.value = some v := by
  have e1 := Lock.Trace.snoc .nil (.callGetOrInit Lock.new 0 c rfl)
  have e2 := e1.snoc (.callGetOrInit _ 1 c rfl)
  have e3 := e2.snoc (.start _ 0 c rfl rfl rfl)
  exact ⟨_, _, e3, rfl, rfl, (C53_no_deadlock e3 0 c).2.2 rfl⟩

end Barbarosa
