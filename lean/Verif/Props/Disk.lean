import Verif.Lemmas.Disk
import Verif.Props.Mus

/-!
# C52, C62: the tables on disk

`edges` and `corners` are the finished tables (`C24_edges`, `C24_corners` say that they exist and what they contain).
-/

namespace Barbarosa

/-- The finished table that belongs into a file -/
def tables (edges corners : List Nat) : FileName → List Nat
  | .edges => edges
  | .corners => corners

/-- Nothing has been started -/
def World.Fresh (w : World) : Prop := ∀ i, w.procs i = .killed

section

variable {edges corners : List Nat} (he : buildTable? HalfEdgesMUS = some edges) (hk : buildTable? CornersMUS = some corners)

include he in
theorem edges_length : edges.length = Deindexable.TOTAL_SET_SIZE HalfEdgesMUS := by
  obtain ⟨t, h1, h2, _⟩ := halfEdges_table
  rw [he] at h1
  cases h1
  exact h2

include hk in
theorem corners_length : corners.length = Deindexable.TOTAL_SET_SIZE CornersMUS := by
  obtain ⟨t, h1, h2, _⟩ := corners_table
  rw [hk] at h1
  cases h1
  exact h2

/-! ## The programs keep contracts -/

theorem loadPartial_keeps {α : Type} {C : Contract α} {T : Type} [DiskCacheable T] {Q : Except IoError (List Nat) → Prop}
    (hok : ∀ c, C.read (DiskCacheable.PATH T) (.ok c) → c.length = Deindexable.TOTAL_SET_SIZE T → Q (.ok c))
    (herr : ∀ e, C.read (DiskCacheable.PATH T) (.error e) → Q (.error e)) : (loadPartial T).Keeps (C.to Q) := by
  intro r hr
  cases r with
  | error e => exact herr e hr
  | ok c =>
    show (assertCorrectCacheSize T c.length (.done (.ok c))).Keeps (C.to Q)
    unfold assertCorrectCacheSize
    split
    · trivial
    · next h => exact hok c hr (not_not.1 h)

theorem writePartial_keeps {α : Type} {C : Contract α} {T : Type} [DiskCacheable T] {Q : Except IoError Unit → Prop}
    {bytes : List Nat} (hw : C.write (DiskCacheable.PATH T) bytes) (hQ : ∀ r, Q r) :
    (writePartial T bytes).Keeps (C.to Q) := by
  unfold writePartial assertCorrectCacheSize
  split
  · trivial
  · refine ⟨hw, fun r => ?_⟩
    match r with
    | .ok () => exact hQ _
    | .error .notFound =>
      intro r
      match r with
      | .ok () => exact ⟨hw, fun r => hQ r⟩
      | .error e => exact hQ _
    | .error .other => exact hQ _

theorem buildPartial_keeps {α : Type} {C : Contract α} {T : Type} [DiskCacheable T] [Movable T AxisMove]
    {Q : Except IoError (List Nat) → Prop} {t : List Nat} (ht : buildTable? T = some t)
    (hw : C.write (DiskCacheable.PATH T) t) (hok : Q (.ok t)) (herr : ∀ e, Q (.error e)) :
    (buildPartial T).Keeps (C.to Q) := by
  unfold buildPartial
  rw [ht]
  refine keeps_bind (C := C) (fun _ => True) (writePartial_keeps hw fun _ => trivial) fun r _ => ?_
  cases r with
  | ok u => exact hok
  | error e => exact herr e

theorem loadOrBuildPartial_keeps {α : Type} {C : Contract α} {T : Type} [DiskCacheable T] [Movable T AxisMove]
    {Q : Except IoError (List Nat) → Prop} {t : List Nat} (ht : buildTable? T = some t)
    (hok : ∀ c, C.read (DiskCacheable.PATH T) (.ok c) → c.length = Deindexable.TOTAL_SET_SIZE T → Q (.ok c))
    (herr : ∀ e, Q (.error e))
    (hbuild : C.read (DiskCacheable.PATH T) (.error .notFound) → C.write (DiskCacheable.PATH T) t ∧ Q (.ok t)) :
    (loadOrBuildPartial T).Keeps (C.to Q) := by
  refine keeps_bind (C := C) (fun r => (∀ c, r = .ok c → Q (.ok c)) ∧
      (r = .error .notFound → C.write (DiskCacheable.PATH T) t ∧ Q (.ok t))) ?_ ?_
  · refine loadPartial_keeps (fun c hc hl => ⟨?_, fun h => (by cases h)⟩) (fun e h => ⟨fun c hc => (by cases hc), ?_⟩)
    · rintro c' ⟨⟩
      exact hok c hc hl
    · rintro ⟨⟩
      exact hbuild h
  · rintro r ⟨h1, h2⟩
    match r with
    | .ok c => exact h1 c rfl
    | .error .notFound => exact buildPartial_keeps ht (h2 rfl).1 (h2 rfl).2 herr
    | .error .other => exact herr _

include he hk in
/-- Both programs keep every contract of this form -/
theorem cache_keeps {C : Contract (Except IoError Cache)} (Q : FileName → List Nat → Prop)
    (hok : ∀ f c, C.read f (.ok c) → c.length = (tables edges corners f).length → Q f c)
    (hbuild : ∀ f, C.read f (.error .notFound) → C.write f (tables edges corners f) ∧ Q f (tables edges corners f))
    (hres : ∀ a b, Q .edges a → Q .corners b → C.result (.ok ⟨a, b⟩)) (herr : ∀ e, C.result (.error e)) :
    Cache.initProg.Keeps C ∧ Cache.load.Keeps C := by
  have hQ : ∀ f, ∀ e : IoError, ∀ c, (Except.error e : Except IoError (List Nat)) = .ok c → Q f c := by
    intro f e c h
    cases h
  constructor
  · refine keeps_bind (C := C) (fun c => C.result (.ok c)) (p := Cache.init) ?_ (fun c hc => hc)
    refine keeps_bind (C := C) (fun r => ∀ c, r = .ok c → C.result (.ok c)) (p := loadOrBuild) ?_ ?_
    · refine keeps_bind (C := C) (fun r => ∀ c, r = .ok c → Q .edges c)
        (loadOrBuildPartial_keeps he (fun c hc hl c' h => by cases h; exact hok _ c hc (by rw [hl]; exact (edges_length he).symm))
          (hQ _) (fun h => ⟨(hbuild _ h).1, fun c' h' => by cases h'; exact (hbuild _ h).2⟩)) ?_
      rintro (e | a) ha
      · intro c h; cases h
      · refine keeps_bind (C := C) (fun r => ∀ c, r = .ok c → Q .corners c)
          (loadOrBuildPartial_keeps hk
            (fun c hc hl c' h => by cases h; exact hok _ c hc (by rw [hl]; exact (corners_length hk).symm))
            (hQ _) (fun h => ⟨(hbuild _ h).1, fun c' h' => by cases h'; exact (hbuild _ h).2⟩)) ?_
        rintro (e | b) hb
        · intro c h; cases h
        · rintro c ⟨⟩
          exact hres a b (ha a rfl) (hb b rfl)
    · rintro (e | c) h
      · trivial
      · exact h c rfl
  · refine keeps_bind (C := C) (fun r => ∀ c, r = .ok c → Q .edges c)
      (loadPartial_keeps (fun c hc hl c' h => by cases h; exact hok _ c hc (by rw [hl]; exact (edges_length he).symm))
        (fun e _ => hQ _ e)) ?_
    rintro (e | a) ha
    · exact herr e
    · refine keeps_bind (C := C) (fun r => ∀ c, r = .ok c → Q .corners c)
        (loadPartial_keeps
          (fun c hc hl c' h => by cases h; exact hok _ c hc (by rw [hl]; exact (corners_length hk).symm))
          (fun e _ => hQ _ e)) ?_
      rintro (e | b) hb
      · exact herr e
      · exact hres a b (ha a rfl) (hb b rfl)

/-! ## C52: one process at a time -/

include he hk in
theorem alone_ok {w w' : World} (hw : w.procs 0 = .killed)
    (hd : ∀ f c, w.disk.file f = some c → c <+: tables edges corners f) (h : w.LeadsAlone w') :
    (∀ f c, w'.disk.file f = some c → c <+: tables edges corners f) ∧
      ∀ cache, w'.procs 0 = .returned (.ok cache) → cache = ⟨edges, corners⟩ := by
  let C : Contract (Except IoError Cache) :=
    ⟨fun f r => ∀ c, r = .ok c → c <+: tables edges corners f, fun f b => b = tables edges corners f,
      fun r => ∀ cache, r = .ok cache → cache = ⟨edges, corners⟩⟩
  have hkeep := cache_keeps he hk (C := C) (fun f c => c = tables edges corners f)
    (fun f c hc hl => (hc c rfl).eq_of_length hl) (fun f _ => ⟨rfl, rfl⟩)
    (fun a b ha hb c h => by cases h; subst ha; subst hb; rfl) (fun e c h => by cases h)
  have := leadsAlone_ok (C := C) (tab := tables edges corners) (fun f e c h => by cases h) (fun f c hc c' h => by cases h; exact hc)
    (fun f b h => h) hkeep.1 hkeep.2 h hd (by rw [hw]; trivial)
  refine ⟨this.1, fun cache hc => ?_⟩
  have h2 := this.2
  rw [hc] at h2
  exact h2 cache rfl

include he hk in
/-- **C52** Runs one after the other, each of which may fail or be killed at any moment, also in the middle of writing: every
file is always missing or the beginning of the finished table. -/
theorem C52_files {w w' : World} (hw : w.procs 0 = .killed)
    (hd : ∀ f c, w.disk.file f = some c → c <+: tables edges corners f) (h : w.LeadsAlone w') :
    ∀ f c, w'.disk.file f = some c → c <+: tables edges corners f := (alone_ok he hk hw hd h).1

include he hk in
/-- a run that is killed after its start, on a disk with the first thousand bytes of a table: those bytes stay a beginning of it -/
example : ∃ w w' : World, w.procs 0 = .killed ∧ w.disk.file .edges = some (edges.take 1000) ∧ w.LeadsAlone w' ∧
    ∀ f c, w'.disk.file f = some c → c <+: tables edges corners f := by
  let w : World := ⟨some fun | .edges => some (edges.take 1000) | .corners => none, fun _ => .killed⟩
  have h : w.LeadsAlone _ := (Relation.ReflTransGen.single ⟨false, .startInit w trivial⟩).tail
    ⟨true, .act true _ _ _ (Proc.Step.killed w.disk (.running Cache.initProg) id)⟩
  refine ⟨w, _, rfl, rfl, h, C52_files he hk (w := w) rfl (fun f c h => ?_) h⟩
  cases f with
  | corners => cases h
  | edges => cases h; exact List.take_prefix _ _

include he hk in
/-- **C52** … and a run that does return a cache returns exactly the finished tables, whatever went wrong before. -/
theorem C52_exact {w w' : World} (hw : w.procs 0 = .killed)
    (hd : ∀ f c, w.disk.file f = some c → c <+: tables edges corners f) (h : w.LeadsAlone w') (cache : Cache)
    (hc : w'.procs 0 = .returned (.ok cache)) : cache = ⟨edges, corners⟩ := (alone_ok he hk hw hd h).2 cache hc

include he hk in
/-- **C52** Hence the heuristic is exact and never overestimates with the cache of any such run. -/
theorem C52_heuristic {w w' : World} (hw : w.procs 0 = .killed)
    (hd : ∀ f c, w.disk.file f = some c → c <+: tables edges corners f) (h : w.LeadsAlone w') (cache : Cache)
    (hc : w'.procs 0 = .returned (.ok cache)) (c : Cube3) (alg : List AxisMove) (ha : movedAlg c alg = Cube3.SOLVED) :
    ∃ x, mus? cache c = some x ∧ 0 ≤ x ∧ x ≤ alg.length := by
  rw [C52_exact he hk hw hd h cache hc]
  exact (C25_admissible he hk c alg ha).1

/-! ## C52: what is in a file stays there -/

include he hk in
theorem untouched {w w' : World} (hw : w.Fresh) (h : w.Leads w') (f : FileName) (c : List Nat) (hf : w.disk.file f = some c) :
    w'.disk.file f = some c ∧ (c.length ≠ (tables edges corners f).length →
      ∀ i cache, w'.procs i ≠ .returned (.ok cache)) := by
  let C : Contract (Except IoError Cache) :=
    ⟨fun g r => g = f → r ≠ .error .notFound ∧ ∀ c', r = .ok c' → c' = c, fun g _ => g ≠ f,
      fun r => c.length ≠ (tables edges corners f).length → ∀ cache, r ≠ .ok cache⟩
  have hkeep := cache_keeps he hk (C := C) (fun g c' => g = f → c.length ≠ (tables edges corners f).length → False)
    (fun g c' hr hl hg hne => by
      have := (hr hg).2 c' rfl
      subst this
      subst hg
      exact hne hl)
    (fun g hr => by
      by_cases hg : g = f
      · exact absurd rfl (hr hg).1
      · exact ⟨hg, fun h => absurd h hg⟩)
    (fun a b ha hb hne cache h => by
      cases f
      · exact hb rfl hne
      · exact ha rfl hne)
    (fun e _ cache h => by cases h)
  have S : C.Stable (fun g c' => g = f → c' = c) (fun g a => g = f → a <+: c) (fun g => g ≠ f) :=
    { acc_nil := fun _ _ => List.nil_prefix
      acc_more := fun g a c' n ha hc' _ hg => by
        have := hc' hg
        subst this
        exact prefix_more (ha hg) n
      acc_end := fun g a c' ha hc' hl hg => ⟨fun h => by (cases h), fun c'' h => by
        have := hc' hg
        subst this
        cases h
        exact (ha hg).eq_of_length_le hl⟩
      other := fun g hg => ⟨fun h => by (cases h), fun c'' h => by cases h⟩
      notFound := fun g hm hg => absurd hg hm
      nil := fun g b hb hg => absurd hg hb
      write := fun g b c' o n hb _ _ hg => absurd hg hb }
  have := leads_ok S hkeep.1 hkeep.2 h
    ⟨fun g c' hg hgf => by subst hgf; rw [hf] at hg; cases hg; rfl, fun g hg hgf => by subst hgf; rw [hf] at hg; cases hg⟩
    (fun i => by rw [hw i]; trivial)
  constructor
  · cases hx : w'.disk.file f with
    | none => exact absurd rfl (this.1.2 f hx)
    | some c' => rw [this.1.1 f c' hx rfl]
  · intro hne i cache hi
    have h2 := this.2 i
    rw [hi] at h2
    exact h2 hne cache rfl

include he hk in
/-- **C52** A file that is there when nothing runs is never changed again, whatever it contains, by any number of runs of any
number of processes: a table is built only when its file is missing. -/
theorem C52_untouched {w w' : World} (hw : w.Fresh) (h : w.Leads w') (f : FileName) (c : List Nat)
    (hf : w.disk.file f = some c) : w'.disk.file f = some c := (untouched he hk hw h f c hf).1

include he hk in
/-- a file that is not a table at all, and a process that is started -/
example : ∃ w w' : World, w.Fresh ∧ w.Leads w' ∧ w' ≠ w ∧ w.disk.file .corners = some [1, 2, 3] ∧ w'.disk.file .corners = some [1, 2, 3] := by
  let w : World := ⟨some fun | .edges => none | .corners => some [1, 2, 3], fun _ => .killed⟩
  have h : w.Leads _ := Relation.ReflTransGen.single ⟨5, false, .startInit w trivial⟩
  refine ⟨w, _, fun _ => rfl, h, fun e => ?_, rfl, C52_untouched he hk (w := w) (fun _ => rfl) h .corners [1, 2, 3] rfl⟩
  have := congrArg (fun w : World => w.procs 5) e
  cases this

include he hk in
/-- **C52** So a file of the wrong size, left over from a run that was killed while writing, is never accepted, but it is
not repaired either: no later run ever returns a cache (until the file is deleted by hand). -/
theorem C52_short_stuck {w w' : World} (hw : w.Fresh) (h : w.Leads w') (f : FileName) (c : List Nat)
    (hf : w.disk.file f = some c) (hne : c.length ≠ (tables edges corners f).length) (i : Nat) (cache : Cache) :
    w'.procs i ≠ .returned (.ok cache) := (untouched he hk hw h f c hf).2 hne i cache

include he hk in
/-- a file of three bytes: no run of any process ever returns a cache -/
example {w' : World} (h : (⟨some fun | .edges => some [0, 1, 1] | .corners => none, fun _ => .killed⟩ : World).Leads w') (i : Nat)
    (cache : Cache) : w'.procs i ≠ .returned (.ok cache) :=
  C52_short_stuck he hk (fun _ => rfl) h .edges [0, 1, 1] rfl (by
    show 3 ≠ edges.length
    rw [edges_length he, total_edges]
    decide) i cache

/-! ## C52: when nothing goes wrong -/

/-- The disk with a file put there, in a new directory if need be -/
def Disk.put (d : Disk) (f : FileName) (c : List Nat) : Disk :=
  some fun g => if g = f then some c else d.file g

theorem loadPartial_exec (T : Type) [DiskCacheable T] (d : Disk) :
    (d.file (DiskCacheable.PATH T) = none → (loadPartial T).exec d = (some (.error .notFound), d)) ∧
    (∀ c, d.file (DiskCacheable.PATH T) = some c → c.length = Deindexable.TOTAL_SET_SIZE T →
      (loadPartial T).exec d = (some (.ok c), d)) ∧
    (∀ c, d.file (DiskCacheable.PATH T) = some c → c.length ≠ Deindexable.TOTAL_SET_SIZE T →
      (loadPartial T).exec d = (none, d)) := by
  refine ⟨fun h => ?_, fun c h hl => ?_, fun c h hl => ?_⟩
  · simp only [loadPartial, Prog.andThen, Prog.bind, Prog.exec, h]
  · simp only [loadPartial, Prog.andThen, Prog.bind, Prog.exec, h, assertCorrectCacheSize, hl, ne_eq, not_true, if_false]
  · simp only [loadPartial, Prog.andThen, Prog.bind, Prog.exec, h, assertCorrectCacheSize, hl, ne_eq, not_false_eq_true, if_true]

theorem writePartial_exec (T : Type) [DiskCacheable T] (d : Disk) (t : List Nat)
    (hl : t.length = Deindexable.TOTAL_SET_SIZE T) :
    (writePartial T t).exec d = (some (.ok ()), d.put (DiskCacheable.PATH T) t) := by
  cases d with
  | none =>
    simp only [writePartial, assertCorrectCacheSize, hl, ne_eq, not_true, if_false, Prog.exec, Prog.andThen, Prog.bind]
    rfl
  | some files =>
    simp only [writePartial, assertCorrectCacheSize, hl, ne_eq, not_true, if_false, Prog.exec]
    rfl

theorem loadOrBuildPartial_exec (T : Type) [DiskCacheable T] [Movable T AxisMove] (d : Disk) (t : List Nat)
    (ht : buildTable? T = some t) (hl : t.length = Deindexable.TOTAL_SET_SIZE T)
    (hd : ∀ c, d.file (DiskCacheable.PATH T) = some c → c.length = Deindexable.TOTAL_SET_SIZE T) :
    ∃ d', (loadOrBuildPartial T).exec d = (some (.ok ((d.file (DiskCacheable.PATH T)).getD t)), d') ∧
      d'.file (DiskCacheable.PATH T) = some ((d.file (DiskCacheable.PATH T)).getD t) ∧
      ∀ g, g ≠ DiskCacheable.PATH T → d'.file g = d.file g := by
  unfold loadOrBuildPartial
  rw [exec_bind]
  cases hf : d.file (DiskCacheable.PATH T) with
  | none =>
    rw [(loadPartial_exec T d).1 hf]
    simp only [buildPartial, ht, Prog.andThen]
    rw [exec_bind, writePartial_exec T d t hl]
    refine ⟨_, rfl, by simp [Disk.put, Disk.file], fun g hg => by simp [Disk.put, Disk.file, hg]⟩
  | some c =>
    rw [(loadPartial_exec T d).2.1 c hf (hd c hf)]
    exact ⟨d, rfl, hf, fun _ _ => rfl⟩

theorem bothParts_exec (p q : Prog (Except IoError (List Nat))) {d d1 d2 : Disk} {a b : List Nat}
    (hp : p.exec d = (some (.ok a), d1)) (hq : q.exec d1 = (some (.ok b), d2)) :
    ((Prog.andThen p fun edges => Prog.andThen q fun corners => .done (.ok (Cache.mk edges corners))).bind fun
      | .ok cache => .done cache
      | .error _ => .panic : Prog Cache).exec d = (some ⟨a, b⟩, d2) := by
  rw [exec_bind]
  unfold Prog.andThen
  rw [exec_bind, hp]
  simp only
  rw [exec_bind, hq]
  rfl

theorem loadBoth_exec (p q : Prog (Except IoError (List Nat))) {d d1 d2 : Disk} {a b : List Nat}
    (hp : p.exec d = (some (.ok a), d1)) (hq : q.exec d1 = (some (.ok b), d2)) :
    (Prog.andThen p fun edges => Prog.andThen q fun corners => .done (.ok (Cache.mk edges corners))).exec d =
      (some (.ok ⟨a, b⟩), d2) := by
  unfold Prog.andThen
  rw [exec_bind, hp]
  simp only
  rw [exec_bind, hq]
  rfl

theorem loadBoth_missing (p q : Prog (Except IoError (List Nat))) {d d1 : Disk} {e : IoError}
    (hp : p.exec d = (some (.error e), d1)) :
    (Prog.andThen p fun edges => Prog.andThen q fun corners => .done (.ok (Cache.mk edges corners))).exec d =
      (some (.error e), d1) := by
  unfold Prog.andThen
  rw [exec_bind, hp]
  rfl

include he hk in
/-- Result of `Cache::init` when every file is missing or has the right size -/
theorem init_exec (d : Disk) (hd : ∀ f c, d.file f = some c → c.length = (tables edges corners f).length) :
    ∃ d', Cache.init.exec d = (some ⟨(d.file .edges).getD edges, (d.file .corners).getD corners⟩, d') ∧
      ∀ f, d'.file f = some ((d.file f).getD (tables edges corners f)) := by
  have el := edges_length he
  have kl := corners_length hk
  obtain ⟨d1, h1, h2, h3⟩ := loadOrBuildPartial_exec HalfEdgesMUS d edges he el
    (fun c h => by rw [hd _ c h]; exact el)
  have h4 : d1.file .corners = d.file .corners := h3 .corners (by decide)
  obtain ⟨d2, g1, g2, g3⟩ := loadOrBuildPartial_exec CornersMUS d1 corners hk kl
    (fun c h => by rw [hd .corners c (h4.symm.trans h)]; exact kl)
  refine ⟨d2, ?_, fun f => ?_⟩
  · rw [← h4]
    exact bothParts_exec _ _ h1 g1
  · cases f
    · rw [show FileName.corners = DiskCacheable.PATH CornersMUS from rfl, g2]
      show some ((d1.file .corners).getD corners) = _
      rw [h4]
      rfl
    · rw [show FileName.edges = DiskCacheable.PATH HalfEdgesMUS from rfl, g3 _ (by decide), h2]
      rfl

/-- A run of one process alone in which nothing goes wrong -/
def Proc.Runs {α : Type} (d : Disk) (p : Proc α) (d' : Disk) (p' : Proc α) : Prop :=
  Relation.ReflTransGen (fun x y : Disk × Proc α => Proc.Step false x.1 x.2 y.1 y.2) (d, p) (d', p')

theorem runs_exec {α : Type} {d d' : Disk} {p p' : Proc α} (hp : p.Sane d) (h : Proc.Runs d p d' p') :
    p'.Sane d' ∧ p'.exec d' = p.exec d := by
  unfold Proc.Runs at h
  generalize hx : (d, p) = x at h
  generalize hy : (d', p') = y at h
  induction h generalizing d' p' with
  | refl => subst hx; cases hy; exact ⟨hp, rfl⟩
  | @tail b c _ hs ih =>
    obtain ⟨h1, h2⟩ := ih (d' := b.1) (p' := b.2) rfl
    subst hy
    obtain ⟨g1, g2⟩ := step_exec hs h1
    exact ⟨g1, g2.trans h2⟩

/-- A process that runs alone comes to its end -/
theorem runs_end {α : Type} {d : Disk} {p : Proc α} (h : Acc Proc.After (d, p)) (hp : p.Sane d) :
    ∃ d' p', Proc.Runs d p d' p' ∧ p'.over ∧ p'.exec d' = p.exec d := by
  generalize hx : (d, p) = x at h
  induction h generalizing d p with
  | intro x _ ih =>
    subst hx
    by_cases ho : p.over
    · exact ⟨d, p, .refl, ho, rfl⟩
    · obtain ⟨d1, p1, hs⟩ := progress hp ho
      obtain ⟨s1, e1⟩ := step_exec hs hp
      obtain ⟨d2, p2, h1, h2, h3⟩ := ih (d1, p1) ⟨false, hs⟩ s1 rfl
      exact ⟨d2, p2, Relation.ReflTransGen.head (b := (d1, p1)) hs h1, h2, h3.trans e1⟩

include he hk in
/-- **C52** When nothing goes wrong and every file is missing or has the right size, `Cache::init` ends after finitely many
steps, never panics, returns for each file its contents or, if it is missing, the finished table, and leaves just that on
the disk. (All runs: a run can go on until it is over, cannot go on for ever, and every way of ending is this one.) -/
theorem C52_init (d : Disk) (hd : ∀ f c, d.file f = some c → c.length = (tables edges corners f).length) :
    Acc Proc.After (d, Proc.running Cache.init) ∧
    ∀ d' p', Proc.Runs d (.running Cache.init) d' p' →
      (¬ p'.over → ∃ d'' p'', Proc.Step false d' p' d'' p'') ∧
      (p'.over → p' = .returned ⟨(d.file .edges).getD edges, (d.file .corners).getD corners⟩ ∧
        ∀ f, d'.file f = some ((d.file f).getD (tables edges corners f))) := by
  refine ⟨acc_running _ d, fun d' p' h => ?_⟩
  obtain ⟨h1, h2⟩ := runs_exec (p := .running Cache.init) trivial h
  obtain ⟨d2, e1, e2⟩ := init_exec he hk d hd
  refine ⟨progress h1, fun ho => ?_⟩
  rw [show Proc.exec d (.running Cache.init) = Cache.init.exec d from rfl, e1] at h2
  cases p' with
  | returned a => cases h2; exact ⟨rfl, e2⟩
  | panicked => cases h2
  | killed => cases h2
  | _ => exact ho.elim

include he hk in
/-- there is such a run: without any file it builds both tables -/
example : ∃ d' p', Proc.Runs none (.running Cache.init) d' p' ∧ p' = .returned ⟨edges, corners⟩ ∧
    d'.file .edges = some edges ∧ d'.file .corners = some corners := by
  obtain ⟨d', p', h1, h2, -⟩ := runs_end (acc_running Cache.init none) trivial
  obtain ⟨h3, h4⟩ := ((C52_init he hk none fun f c h => by cases h).2 d' p' h1).2 h2
  exact ⟨d', p', h1, h3, h4 .edges, h4 .corners⟩

include he hk in
/-- **C52** With complete files, or with none at all, the result is the finished tables. -/
theorem C52_init_exact (d d' : Disk) (p' : Proc Cache) (hd : ∀ f c, d.file f = some c → c = tables edges corners f)
    (h : Proc.Runs d (.running Cache.init) d' p') (ho : p'.over) :
    p' = .returned ⟨edges, corners⟩ ∧ ∀ f, d'.file f = some (tables edges corners f) := by
  have hg : ∀ f, (d.file f).getD (tables edges corners f) = tables edges corners f := by
    intro f
    cases hf : d.file f with
    | none => rfl
    | some c => exact hd f c hf
  obtain ⟨h1, h2⟩ := ((C52_init he hk d fun f c hc => by rw [hd f c hc]).2 d' p' h).2 ho
  refine ⟨?_, fun f => ?_⟩
  · rw [h1]
    show Proc.returned (Cache.mk ((d.file .edges).getD (tables edges corners .edges))
      ((d.file .corners).getD (tables edges corners .corners))) = _
    rw [hg, hg]
    rfl
  · rw [h2, hg]

include he hk in
/-- the edges are there, the corners are built -/
example : ∃ d' p', Proc.Runs (some fun | .edges => some edges | .corners => none) (.running Cache.init) d' p' ∧
    p' = .returned ⟨edges, corners⟩ := by
  obtain ⟨d', p', h1, h2, -⟩ := runs_end (acc_running Cache.init (some fun | .edges => some edges | .corners => none)) trivial
  refine ⟨d', p', h1, (C52_init_exact he hk _ d' p' (fun f c h => ?_) h1 h2).1⟩
  cases f with
  | corners => cases h
  | edges => cases h; rfl

/-- **C52** The size is the only check: files of the right size are loaded as they are, whatever their contents (this is why
a file damaged in another way than by being cut off is not noticed). -/
theorem C52_only_size (d d' : Disk) (p' : Proc (Except IoError Cache)) (a b : List Nat) (ha : d.file .edges = some a)
    (hb : d.file .corners = some b) (hal : a.length = Deindexable.TOTAL_SET_SIZE HalfEdgesMUS)
    (hbl : b.length = Deindexable.TOTAL_SET_SIZE CornersMUS)
    (h : Proc.Runs d (.running Cache.load) d' p') (ho : p'.over) : p' = .returned (.ok ⟨a, b⟩) ∧ d' = d := by
  obtain ⟨_, h2⟩ := runs_exec (p := .running Cache.load) trivial h
  have e : Proc.exec d (.running Cache.load) = (some (.ok ⟨a, b⟩), d) := loadBoth_exec _ _
    ((loadPartial_exec HalfEdgesMUS d).2.1 a ha hal) ((loadPartial_exec CornersMUS d).2.1 b hb hbl)
  rw [e] at h2
  cases p' with
  | returned x => cases h2; exact ⟨rfl, rfl⟩
  | panicked => cases h2
  | killed => cases h2
  | _ => exact ho.elim

/-- two files full of sevens -/
example : ∃ d d' p', Proc.Runs d (.running Cache.load) d' p' ∧ p' = .returned (.ok ⟨List.replicate (Deindexable.TOTAL_SET_SIZE HalfEdgesMUS) 7,
    List.replicate (Deindexable.TOTAL_SET_SIZE CornersMUS) 7⟩) := by
  let d : Disk := some fun
    | .edges => some (List.replicate (Deindexable.TOTAL_SET_SIZE HalfEdgesMUS) 7)
    | .corners => some (List.replicate (Deindexable.TOTAL_SET_SIZE CornersMUS) 7)
  obtain ⟨d', p', h1, h2, -⟩ := runs_end (acc_running Cache.load d) trivial
  exact ⟨d, d', p', h1, (C52_only_size d d' p' _ _ rfl rfl List.length_replicate List.length_replicate h1 h2).1⟩

/-- **C52** `Cache::load` builds nothing: a missing file is reported as `NotFound`, and the disk stays as it is. -/
theorem C52_load_missing (d d' : Disk) (p' : Proc (Except IoError Cache)) (ha : d.file .edges = none)
    (h : Proc.Runs d (.running Cache.load) d' p') (ho : p'.over) : p' = .returned (.error .notFound) ∧ d' = d := by
  obtain ⟨_, h2⟩ := runs_exec (p := .running Cache.load) trivial h
  have e : Proc.exec d (.running Cache.load) = (some (.error .notFound), d) := loadBoth_missing _ _
    ((loadPartial_exec HalfEdgesMUS d).1 ha)
  rw [e] at h2
  cases p' with
  | returned x => cases h2; exact ⟨rfl, rfl⟩
  | panicked => cases h2
  | killed => cases h2
  | _ => exact ho.elim

/-- the directory is there and empty -/
example : ∃ p', Proc.Runs (some fun _ => none) (.running Cache.load) (some fun _ => none) p' ∧ p' = .returned (.error .notFound) := by
  obtain ⟨d', p', h1, h2, -⟩ := runs_end (acc_running Cache.load (some fun _ => none)) trivial
  obtain ⟨h3, rfl⟩ := C52_load_missing _ d' p' rfl h1 h2
  exact ⟨p', h1, h3⟩

/-! ## C52: no error is swallowed -/

/-- Whenever an operation fails (other than by `NotFound`) the rest of the program is `fail` -/
def Prog.Strict {α : Type} : (p fail : Prog α) → Prop
  | .done _, _ => True
  | .panic, _ => True
  | .read _ k, fail => k (.error .other) = fail ∧ ∀ r, (k r).Strict fail
  | .write _ _ k, fail => k (.error .other) = fail ∧ ∀ r, (k r).Strict fail
  | .mkdir k, fail => k (.error .other) = fail ∧ ∀ r, (k r).Strict fail

theorem Prog.Strict.bind {α β : Type} {fail : Prog α} {k : α → Prog β} {fail' : Prog β} (hf : fail.bind k = fail')
    (hk : ∀ a, (k a).Strict fail') : ∀ p : Prog α, p.Strict fail → (p.bind k).Strict fail'
  | .done a, _ => hk a
  | .panic, _ => trivial
  | .read _ g, h => ⟨by simp only [h.1, hf], fun r => Prog.Strict.bind hf hk (g r) (h.2 r)⟩
  | .write _ _ g, h => ⟨by simp only [h.1, hf], fun r => Prog.Strict.bind hf hk (g r) (h.2 r)⟩
  | .mkdir g, h => ⟨by simp only [h.1, hf], fun r => Prog.Strict.bind hf hk (g r) (h.2 r)⟩

theorem strict_andThen {α β : Type} {p : Prog (Except IoError α)} {k : α → Prog (Except IoError β)}
    (hp : p.Strict (.done (.error .other))) (hk : ∀ a, (k a).Strict (.done (.error .other))) :
    (p.andThen k).Strict (.done (.error .other)) := by
  refine Prog.Strict.bind (fail := .done (.error .other)) rfl (fun a => ?_) p hp
  cases a with
  | error e => trivial
  | ok a => exact hk a

theorem strict_size {α : Type} {T : Type} [DiskCacheable T] {n : Nat} {p fail : Prog α} (hp : p.Strict fail) :
    (assertCorrectCacheSize T n p).Strict fail := by
  unfold assertCorrectCacheSize
  split
  · trivial
  · exact hp

theorem strict_loadPartial (T : Type) [DiskCacheable T] : (loadPartial T).Strict (.done (.error .other)) :=
  strict_andThen ⟨rfl, fun _ => trivial⟩ fun _ => strict_size trivial

theorem strict_writePartial (T : Type) [DiskCacheable T] (t : List Nat) :
    (writePartial T t).Strict (.done (.error .other)) := by
  refine strict_size ⟨rfl, fun r => ?_⟩
  match r with
  | .ok () => trivial
  | .error .notFound => exact strict_andThen ⟨rfl, fun _ => trivial⟩ fun _ => ⟨rfl, fun _ => trivial⟩
  | .error .other => trivial

theorem strict_loadOrBuildPartial (T : Type) [DiskCacheable T] [Movable T AxisMove] :
    (loadOrBuildPartial T).Strict (.done (.error .other)) := by
  refine Prog.Strict.bind (fail := .done (Except.error IoError.other)) rfl (fun r => ?_) (loadPartial T) (strict_loadPartial T)
  match r with
  | .ok c => trivial
  | .error .notFound =>
    show (buildPartial T).Strict _
    unfold buildPartial
    split
    · trivial
    · exact strict_andThen (strict_writePartial T _) fun _ => trivial
  | .error .other => trivial

theorem strict_load : Cache.load.Strict (.done (.error .other)) :=
  strict_andThen (strict_loadPartial _) fun _ => strict_andThen (strict_loadPartial _) fun _ => trivial

theorem strict_init : Cache.init.Strict .panic := by
  have h : loadOrBuild.Strict (.done (.error .other)) := by
    refine strict_andThen (strict_loadOrBuildPartial _) fun _ => strict_andThen (strict_loadOrBuildPartial _) fun _ => ?_
    trivial
  refine Prog.Strict.bind (fail := .done (.error .other)) rfl (fun r => ?_) loadOrBuild h
  cases r with
  | ok c => trivial
  | error e => trivial

/-- The same for a process -/
def ProcStrict {α : Type} (fail : Prog α) : Proc α → Prop
  | .running p => p.Strict fail
  | .reading _ _ k => k (.error .other) = fail ∧ ∀ r, (k r).Strict fail
  | .writing _ _ _ k => k (.error .other) = fail ∧ ∀ r, (k r).Strict fail
  | _ => True

theorem step_strict {α : Type} {fail : Prog α} {b : Bool} {d d' : Disk} {p p' : Proc α} (h : Proc.Step b d p d' p')
    (hp : ProcStrict fail p) : ProcStrict fail p' ∧ (b = true → d' = d ∧ (p' = .killed ∨ p' = .running fail)) := by
  cases h with
  | done => exact ⟨trivial, fun h => by cases h⟩
  | panic => exact ⟨trivial, fun h => by cases h⟩
  | readMissing => exact ⟨hp.2 _, fun h => by cases h⟩
  | readOpen => exact ⟨hp, fun h => by cases h⟩
  | readOpenFault => exact ⟨hp.2 _, fun _ => ⟨rfl, Or.inr (by rw [hp.1])⟩⟩
  | readSome => exact ⟨hp, fun h => by cases h⟩
  | readEnd => exact ⟨hp.2 _, fun h => by cases h⟩
  | readFault => exact ⟨hp.2 _, fun _ => ⟨rfl, Or.inr (by rw [hp.1])⟩⟩
  | writeMissing => exact ⟨hp.2 _, fun h => by cases h⟩
  | writeOpen => exact ⟨hp, fun h => by cases h⟩
  | writeOpenFault => exact ⟨hp.2 _, fun _ => ⟨rfl, Or.inr (by rw [hp.1])⟩⟩
  | writeSome => exact ⟨hp, fun h => by cases h⟩
  | writeEnd => exact ⟨hp.2 _, fun h => by cases h⟩
  | writeFault => exact ⟨hp.2 _, fun _ => ⟨rfl, Or.inr (by rw [hp.1])⟩⟩
  | mkdirNew => exact ⟨hp.2 _, fun h => by cases h⟩
  | mkdirOld => exact ⟨hp.2 _, fun h => by cases h⟩
  | mkdirFault => exact ⟨hp.2 _, fun _ => ⟨rfl, Or.inr (by rw [hp.1])⟩⟩
  | killed => exact ⟨trivial, fun _ => ⟨rfl, Or.inl rfl⟩⟩

/-- What a process may come to, with other processes changing the disk between its steps -/
inductive Proc.Comes {α : Type} : Proc α → Proc α → Prop
  | refl (p) : Comes p p
  | step {p q r : Proc α} {b : Bool} {d d' : Disk} : Comes p q → Proc.Step b d q d' r → Comes p r

/-- **C52** No error is swallowed. At whatever moment of a run, also with other processes at work: when an operation fails with
any error but `NotFound`, `Cache::init` panics next and `Cache::load` returns that error next, without touching the disk again. -/
theorem C52_no_error_swallowed (d d' : Disk) :
    (∀ p q, Proc.Comes (.running Cache.init) p → Proc.Step true d p d' q → d' = d ∧ (q = .killed ∨ q = .running .panic)) ∧
    (∀ p q, Proc.Comes (.running Cache.load) p → Proc.Step true d p d' q →
      d' = d ∧ (q = .killed ∨ q = .running (.done (.error .other)))) := by
  have key : ∀ {α : Type} {fail : Prog α} {p q : Proc α}, ProcStrict fail p → Proc.Comes p q → ProcStrict fail q := by
    intro α fail p q hp h
    induction h with
    | refl => exact hp
    | step _ hs ih => exact (step_strict hs ih).1
  refine ⟨fun p q hc hs => ?_, fun p q hc hs => ?_⟩
  · exact (step_strict hs (key (p := .running Cache.init) strict_init hc)).2 rfl
  · exact (step_strict hs (key (p := .running Cache.load) strict_load hc)).2 rfl

/-- a run in which the second file cannot be opened -/
example (d : Disk) (q : Proc Cache) (k) (h : Proc.Comes (.running Cache.init) (.running (.read .corners k)))
    (hs : Proc.Step true d (.running (.read .corners k)) d q) : q = .killed ∨ q = .running .panic :=
  ((C52_no_error_swallowed d d).1 _ _ h hs).2

/-! ## C62: several processes at the same time -/

include he hk in
theorem patchy_ok {w w' : World} (hw : w.Fresh) (h : w.Leads w')
    (hd : ∀ f c, w.disk.file f = some c → Patchy (tables edges corners f) c) :
    (∀ f c, w'.disk.file f = some c → Patchy (tables edges corners f) c) ∧
      ∀ i cache, w'.procs i = .returned (.ok cache) → (Patchy edges cache.edges ∧ cache.edges.length = edges.length) ∧
        Patchy corners cache.corners ∧ cache.corners.length = corners.length := by
  let C : Contract (Except IoError Cache) :=
    ⟨fun f r => ∀ c, r = .ok c → Patchy (tables edges corners f) c, fun f b => b = tables edges corners f,
      fun r => ∀ cache, r = .ok cache → (Patchy edges cache.edges ∧ cache.edges.length = edges.length) ∧
        Patchy corners cache.corners ∧ cache.corners.length = corners.length⟩
  have hself : ∀ t : List Nat, Patchy t t := fun t => ⟨Nat.le_refl _, fun i v h => Or.inr h⟩
  have hkeep := cache_keeps he hk (C := C)
    (fun f c => Patchy (tables edges corners f) c ∧ c.length = (tables edges corners f).length)
    (fun f c hc hl => ⟨hc c rfl, hl⟩) (fun f _ => ⟨rfl, hself _, rfl⟩)
    (fun a b ha hb c h => by cases h; exact ⟨ha, hb⟩) (fun e c h => by cases h)
  have S : C.Stable (fun f c => Patchy (tables edges corners f) c) (fun f c => Patchy (tables edges corners f) c)
      (fun _ => True) :=
    { acc_nil := fun f => patchy_nil _
      acc_more := fun f a c n ha hc hl => ha.more hc n hl
      acc_end := fun f a c ha _ _ c' h => by cases h; exact ha
      other := fun f c h => by cases h
      notFound := fun f _ c h => by cases h
      nil := fun f b _ => patchy_nil _
      write := fun f b c o n hb hc hl => by cases hb; exact hc.write o n hl }
  have := leads_ok S hkeep.1 hkeep.2 h ⟨hd, fun _ _ => trivial⟩ (fun i => by rw [hw i]; trivial)
  refine ⟨this.1.1, fun i cache hi => ?_⟩
  have h2 := this.2 i
  rw [hi] at h2
  exact h2 cache rfl

include he hk in
/-- **C62** Any number of processes that read, build and write the tables at the same time, each of which may fail or be killed
at any moment: every byte of every file is always the right one or zero. -/
theorem C62_bytes {w w' : World} (hw : w.Fresh) (h : w.Leads w')
    (hd : ∀ f c, w.disk.file f = some c → Patchy (tables edges corners f) c) :
    ∀ f c, w'.disk.file f = some c → Patchy (tables edges corners f) c := (patchy_ok he hk hw h hd).1

theorem patchy_le {t c : List Nat} (h : Patchy t c) (hl : c.length = t.length) {i v : Nat} (hi : t[i]? = some v) :
    ∃ u, c[i]? = some u ∧ u ≤ v := by
  have hlt : i < c.length := by rw [hl]; exact (List.getElem?_eq_some_iff.1 hi).1
  refine ⟨c[i], List.getElem?_eq_getElem hlt, ?_⟩
  rcases h.2 i c[i] (List.getElem?_eq_getElem hlt) with h0 | h1
  · omega
  · rw [hi] at h1
    cases h1
    exact Nat.le_refl _

include he hk in
/-- **C62** Hence every cache that any of them returns has the right size, so no lookup is out of bounds, and its heuristic never
overestimates: solving stays optimal. -/
theorem C62_admissible {w w' : World} (hw : w.Fresh) (h : w.Leads w')
    (hd : ∀ f c, w.disk.file f = some c → Patchy (tables edges corners f) c) (i : Nat) (cache : Cache)
    (hi : w'.procs i = .returned (.ok cache)) :
    (∀ c : Cube3, c.valid → ∃ n, cache.get? c = some n) ∧
    ∀ (c : Cube3) (alg : List AxisMove), movedAlg c alg = Cube3.SOLVED → ∃ x, mus? cache c = some x ∧ 0 ≤ x ∧ x ≤ alg.length := by
  obtain ⟨⟨e1, e2⟩, k1, k2⟩ := (patchy_ok he hk hw h hd).2 i cache hi
  refine ⟨fun c hc => ?_, fun c alg ha => ?_⟩
  · obtain ⟨_, n, _, _, _, _, hn⟩ := C20_lookup cache (e2.trans (edges_length he)) (k2.trans (corners_length hk)) c hc
    exact ⟨n, hn⟩
  · obtain ⟨x, hx, _, hle⟩ := (C25_admissible he hk c alg ha).1
    unfold mus? at hx ⊢
    obtain ⟨n, hn, rfl⟩ := Option.map_eq_some_iff.1 hx
    suffices ∃ m : Nat, cache.get? c = some m ∧ m ≤ n by
      obtain ⟨m, h1, h2⟩ := this
      refine ⟨(m : ℚ), by rw [h1]; rfl, by positivity, ?_⟩
      exact le_trans (by exact_mod_cast h2) hle
    unfold Cache.get? at hn ⊢
    cases hidx : c.indices? with
    | none => rw [hidx] at hn; cases hn
    | some j =>
      rw [hidx] at hn
      simp only at hn ⊢
      cases hk' : corners[j.corners]? with
      | none => simp [hk'] at hn
      | some a =>
        cases h0 : edges[j.edges0]? with
        | none => simp [hk', h0] at hn
        | some b =>
          cases h1 : edges[j.edges1]? with
          | none => simp [hk', h0, h1] at hn
          | some b' =>
            simp only [hk', h0, h1] at hn
            cases hn
            obtain ⟨u, hu, hu'⟩ := patchy_le k1 k2 hk'
            obtain ⟨v, hv, hv'⟩ := patchy_le e1 e2 h0
            obtain ⟨v', hv1, hv2⟩ := patchy_le e1 e2 h1
            rw [hu, hv, hv1]
            exact ⟨_, rfl, by exact_mod_cast max_le_max hu' (max_le_max hv' hv2)⟩

/-! ### A wrong table can be accepted -/

theorem bind_assoc {α β γ : Type} (k : α → Prog β) (l : β → Prog γ) : ∀ p : Prog α, (p.bind k).bind l = p.bind fun a => (k a).bind l
  | .done _ => rfl
  | .panic => rfl
  | .read f g => congrArg (Prog.read f) (funext fun r => bind_assoc k l (g r))
  | .write f b g => congrArg (Prog.write f b) (funext fun r => bind_assoc k l (g r))
  | .mkdir g => congrArg Prog.mkdir (funext fun r => bind_assoc k l (g r))

/-- The operations that `load_or_build_partial` asks for when the file is missing -/
theorem loadOrBuild_shape (T : Type) [DiskCacheable T] [Movable T AxisMove] (t : List Nat) (ht : buildTable? T = some t)
    (hl : t.length = Deindexable.TOTAL_SET_SIZE T) {β : Type} (K : Except IoError (List Nat) → Prog β) :
    ∃ k1 k2 k3 k4, (loadOrBuildPartial T).bind K = .read (DiskCacheable.PATH T) k1 ∧
      k1 (.error .notFound) = .write (DiskCacheable.PATH T) t k2 ∧ k2 (.error .notFound) = .mkdir k3 ∧
      k3 (.ok ()) = .write (DiskCacheable.PATH T) t k4 ∧ k4 (.ok ()) = K (.ok t) := by
  have hb : ∃ k2 k3 k4, (buildPartial T).bind K = .write (DiskCacheable.PATH T) t k2 ∧ k2 (.error .notFound) = .mkdir k3 ∧
      k3 (.ok ()) = .write (DiskCacheable.PATH T) t k4 ∧ k4 (.ok ()) = K (.ok t) := by
    unfold buildPartial
    rw [ht]
    simp only [writePartial, assertCorrectCacheSize, hl, ne_eq, not_true, if_false]
    exact ⟨_, _, _, rfl, rfl, rfl, rfl⟩
  obtain ⟨k2, k3, k4, h1, h2⟩ := hb
  exact ⟨_, k2, k3, k4, rfl, h1, h2⟩

theorem bothParts_shape (p q : Prog (Except IoError (List Nat))) {γ δ : Type} (f : Except IoError Cache → Prog γ)
    (g : γ → Prog δ) :
    ∃ K : Except IoError (List Nat) → Prog δ,
      ((Prog.andThen p fun edges => Prog.andThen q fun corners => .done (.ok (Cache.mk edges corners))).bind f).bind g = p.bind K ∧
      ∀ e, K (.ok e) = ((Prog.andThen q fun corners => .done (.ok (Cache.mk e corners))).bind f).bind g := by
  unfold Prog.andThen
  rw [bind_assoc, bind_assoc]
  refine ⟨_, rfl, fun e => ?_⟩
  simp only [bind_assoc]

theorem secondPart_exec (q : Prog (Except IoError (List Nat))) {d d' : Disk} {a b : List Nat}
    (hq : q.exec d = (some (.ok b), d')) :
    ((((Prog.andThen q fun corners => .done (.ok (Cache.mk a corners))).bind fun
      | .ok cache => .done cache
      | .error _ => .panic).bind fun c => .done (.ok c) : Prog (Except IoError Cache)).exec d) = (some (.ok ⟨a, b⟩), d') := by
  rw [exec_bind, exec_bind]
  unfold Prog.andThen
  rw [exec_bind, hq]
  rfl

/-- One process does something, the others wait -/
theorem world_step {w : World} {i : Nat} {b : Bool} {p : Proc (Except IoError Cache)} {d' p'} (hi : w.procs i = p)
    (h : Proc.Step b w.disk p d' p') :
    ∃ w', w.Leads w' ∧ w'.disk = d' ∧ w'.procs i = p' ∧ ∀ j, j ≠ i → w'.procs j = w.procs j := by
  subst hi
  exact ⟨_, .single ⟨i, b, .act b w d' p' h⟩, rfl, if_pos rfl, fun j hj => if_neg hj⟩

theorem world_start {w : World} {i : Nat} (hi : w.procs i = .killed) :
    (∃ w', w.Leads w' ∧ w'.disk = w.disk ∧ w'.procs i = .running Cache.initProg ∧ ∀ j, j ≠ i → w'.procs j = w.procs j) ∧
    ∃ w', w.Leads w' ∧ w'.disk = w.disk ∧ w'.procs i = .running Cache.load ∧ ∀ j, j ≠ i → w'.procs j = w.procs j := by
  have ho : (w.procs i).over := by rw [hi]; trivial
  exact ⟨⟨_, .single ⟨i, false, .startInit w ho⟩, rfl, if_pos rfl, fun j hj => if_neg hj⟩,
    ⟨_, .single ⟨i, false, .startLoad w ho⟩, rfl, if_pos rfl, fun j hj => if_neg hj⟩⟩

theorem world_run {w : World} {i : Nat} {p : Proc (Except IoError Cache)} {d' p'} (hi : w.procs i = p)
    (h : Proc.Runs w.disk p d' p') :
    ∃ w', w.Leads w' ∧ w'.disk = d' ∧ w'.procs i = p' ∧ ∀ j, j ≠ i → w'.procs j = w.procs j := by
  unfold Proc.Runs at h
  generalize hx : (w.disk, p) = x at h
  generalize hy : (d', p') = y at h
  induction h generalizing d' p' with
  | refl => subst hx; cases hy; exact ⟨w, .refl, rfl, hi, fun _ _ => rfl⟩
  | @tail b c _ hs ih =>
    obtain ⟨w1, h1, h2, h3, h4⟩ := ih (d' := b.1) (p' := b.2) rfl
    subst hy
    rw [← h2] at hs
    obtain ⟨w2, g1, g2, g3, g4⟩ := world_step h3 hs
    exact ⟨w2, h1.trans g1, g2, g3, fun j hj => (g4 j hj).trans (h4 j hj)⟩

/-- A process that goes on alone from a sane state ends as `exec` says -/
theorem world_finish {w : World} {i : Nat} {p : Prog (Except IoError Cache)} {a : Except IoError Cache} {d' : Disk}
    (hi : w.procs i = .running p) (h : p.exec w.disk = (some a, d')) :
    ∃ w', w.Leads w' ∧ w'.disk = d' ∧ w'.procs i = .returned a ∧ ∀ j, j ≠ i → w'.procs j = w.procs j := by
  obtain ⟨d1, p1, h1, h2, h3⟩ := runs_end (acc_running p w.disk) trivial
  have h4 : Proc.exec w.disk (.running p) = (some a, d') := h
  rw [h4] at h3
  have : p1 = .returned a ∧ d1 = d' := by
    cases p1 with
    | returned x => cases h3; exact ⟨rfl, rfl⟩
    | panicked => cases h3
    | killed => cases h3
    | _ => exact h2.elim
  obtain ⟨rfl, rfl⟩ := this
  exact world_run hi h1

include he hk in
/-- **C62** The guarantee does not extend to exactness. Two processes start without a cache, both find that it is missing, one of
them truncates the file that the other has nearly finished and is killed; the other then finishes it. From then on every
process loads a table of the right size that consists of zeros except for its last entry. -/
theorem C62_race : ∃ w w' : World, w.Fresh ∧ w.disk = none ∧ w.Leads w' ∧ (∀ i, (w'.procs i).over) ∧
    ∃ cache : Cache, w'.procs 2 = .returned (.ok cache) ∧ (∀ i, i + 1 < edges.length → cache.edges[i]? = some 0) ∧
      cache.edges ≠ edges ∧ w'.disk.file .edges = some cache.edges := by
  have el := edges_length he
  have kl := corners_length hk
  have hlen : edges.length = 42577920 := by rw [el, total_edges]
  obtain ⟨K, hK1, hK2⟩ := bothParts_shape (loadOrBuildPartial HalfEdgesMUS) (loadOrBuildPartial CornersMUS)
    (fun
      | .ok cache => .done cache
      | .error _ => .panic : Except IoError Cache → Prog Cache) (fun c => .done (.ok c) : Cache → Prog (Except IoError Cache))
  obtain ⟨k1, k2, k3, k4, s1, s2, s3, s4, s5⟩ := loadOrBuild_shape HalfEdgesMUS edges he el K
  have hinit : Cache.initProg = .read .edges k1 := hK1.trans s1
  let w0 : World := ⟨none, fun _ => .killed⟩
  -- both start and find nothing
  obtain ⟨w1, l1, d1, p1, o1⟩ := (world_start (w := w0) (i := 0) rfl).1
  obtain ⟨w2, l2, d2, p2, o2⟩ := (world_start (w := w1) (i := 1) (o1 1 (by decide))).1
  have d2 : w2.disk = none := d2.trans d1
  obtain ⟨w3, l3, d3, p3, o3⟩ := world_step (i := 0) (w := w2) (by rw [o2 0 (by decide), p1, hinit])
    (.readMissing w2.disk .edges k1 (by rw [d2]; rfl))
  obtain ⟨w4, l4, d4, p4, o4⟩ := world_step (i := 1) (w := w3) (by rw [o3 1 (by decide), p2, hinit])
    (.readMissing w3.disk .edges k1 (by rw [d3, d2]; rfl))
  rw [s2] at p3 p4
  have d4' : w4.disk = none := by rw [d4, d3, d2]
  -- process 0 creates the directory and writes all but one byte
  obtain ⟨w5, l5, d5, p5, o5⟩ := world_step (i := 0) (w := w4) (by rw [o4 0 (by decide), p3])
    (show Proc.Step false w4.disk _ none (.running (k2 (.error .notFound))) by rw [d4']; exact .writeMissing .edges edges k2)
  rw [s3] at p5
  obtain ⟨w6, l6, d6, p6, o6⟩ := world_step (i := 0) (w := w5) p5
    (show Proc.Step false w5.disk _ (some fun _ => none) (.running (k3 (.ok ()))) by rw [d5]; exact .mkdirNew k3)
  rw [s4] at p6
  have n6 : w6.disk ≠ none := by rw [d6]; simp
  obtain ⟨w7, l7, d7, p7, o7⟩ := world_step (i := 0) (w := w6) p6 (.writeOpen w6.disk .edges edges k4 n6)
  have f7 : w7.disk.file .edges = some [] := by rw [d7, file_set _ _ _ _ n6, if_pos rfl]
  have g7 : w7.disk.file .corners = none := by rw [d7, file_set _ _ _ _ n6, if_neg (by decide), d6]; rfl
  obtain ⟨w8, l8, d8, p8, o8⟩ := world_step (i := 0) (w := w7) p7
    (.writeSome w7.disk .edges edges k4 0 [] (edges.length - 1) f7 (by omega) (by omega))
  have n7 := ne_none_of_file f7
  have n8 : w8.disk ≠ none := by rw [d8]; exact set_ne_none n7
  have g8 : w8.disk.file .corners = none := by rw [d8, file_set _ _ _ _ n7, if_neg (by decide), g7]
  -- process 1 truncates the file and is killed
  have p81 : w8.procs 1 = .running (.write .edges edges k2) := by
    rw [o8 1 (by decide), o7 1 (by decide), o6 1 (by decide), o5 1 (by decide), p4]
    rfl
  obtain ⟨w9, l9, d9, p9, o9⟩ := world_step (i := 1) (w := w8) p81 (.writeOpen w8.disk .edges edges k2 n8)
  have f9 : w9.disk.file .edges = some [] := by rw [d9, file_set _ _ _ _ n8, if_pos rfl]
  have g9 : w9.disk.file .corners = none := by rw [d9, file_set _ _ _ _ n8, if_neg (by decide), g8]
  obtain ⟨w10, l10, d10, p10, o10⟩ := world_step (i := 1) (w := w9) p9 (.killed w9.disk _ (fun h => h))
  -- process 0 writes the last byte and goes on to the end
  have p100 : w10.procs 0 = .writing .edges edges (0 + (edges.length - 1)) k4 := by
    rw [o10 0 (by decide), o9 0 (by decide), p8]
  rw [Nat.zero_add] at p100
  obtain ⟨w11, l11, d11, p11, o11⟩ := world_step (i := 0) (w := w10) p100
    (.writeSome w10.disk .edges edges k4 (edges.length - 1) [] 1 (by rw [d10]; exact f9) (by omega) (by omega))
  obtain ⟨w12, l12, d12, p12, o12⟩ := world_step (i := 0) (w := w11) p11
    (.writeEnd w11.disk .edges edges k4 (edges.length - 1 + 1) (by omega))
  rw [s5, hK2] at p12
  have n10 : w10.disk ≠ none := by rw [d10]; exact ne_none_of_file f9
  let z : List Nat := writeAt [] (edges.length - 1) ((edges.drop (edges.length - 1)).take 1)
  have f12 : w12.disk.file .edges = some z := by rw [d12, d11, file_set _ _ _ _ n10, if_pos rfl]
  have g12 : w12.disk.file .corners = none := by rw [d12, d11, file_set _ _ _ _ n10, if_neg (by decide), d10, g9]
  obtain ⟨d, e1, e2, e3⟩ := loadOrBuildPartial_exec CornersMUS w12.disk corners hk kl (fun c h => by
    rw [show DiskCacheable.PATH CornersMUS = FileName.corners from rfl, g12] at h
    cases h)
  rw [show DiskCacheable.PATH CornersMUS = FileName.corners from rfl, g12] at e1 e2
  obtain ⟨w13, l13, d13, p13, o13⟩ := world_finish p12 (secondPart_exec _ e1)
  -- process 2 loads
  have f13 : w13.disk.file .edges = some z := by rw [d13, e3 .edges (by decide), f12]
  have g13 : w13.disk.file .corners = some corners := by rw [d13, e2]; rfl
  have q2 : w13.procs 2 = .killed := by
    rw [o13 2 (by decide), o12 2 (by decide), o11 2 (by decide), o10 2 (by decide), o9 2 (by decide), o8 2 (by decide),
      o7 2 (by decide), o6 2 (by decide), o5 2 (by decide), o4 2 (by decide), o3 2 (by decide), o2 2 (by decide),
      o1 2 (by decide)]
  obtain ⟨w14, l14, d14, p14, o14⟩ := (world_start (w := w13) (i := 2) q2).2
  have hzl : z.length = edges.length := by
    simp only [z, writeAt, List.length_append, List.length_take, List.length_replicate, List.length_drop, List.length_nil]
    omega
  obtain ⟨w15, l15, d15, p15, o15⟩ := world_finish p14 (loadBoth_exec _ _
    ((loadPartial_exec HalfEdgesMUS w14.disk).2.1 z (by rw [d14]; exact f13) (by rw [hzl]; exact el))
    ((loadPartial_exec CornersMUS w14.disk).2.1 corners (by rw [d14]; exact g13) kl))
  have hz : ∀ i, i + 1 < edges.length → z[i]? = some 0 := by
    intro i hi
    simp only [z, writeAt, List.take_nil, List.nil_append, List.length_nil, Nat.sub_zero, List.drop_nil, List.append_nil]
    rw [List.getElem?_append_left (by rw [List.length_replicate]; omega), List.getElem?_replicate, if_pos (by omega)]
  refine ⟨w0, w15, fun _ => rfl, rfl, ?_, ?_, ⟨z, corners⟩, p15, hz, ?_, ?_⟩
  · exact l1.trans (l2.trans (l3.trans (l4.trans (l5.trans (l6.trans (l7.trans (l8.trans (l9.trans (l10.trans (l11.trans
      (l12.trans (l13.trans (l14.trans l15)))))))))))))
  · intro i
    by_cases h2 : i = 2
    · subst h2; rw [p15]; trivial
    · rw [o15 i h2, o14 i h2]
      by_cases h0 : i = 0
      · subst h0; rw [p13]; trivial
      · rw [o13 i h0, o12 i h0, o11 i h0]
        by_cases h1 : i = 1
        · subst h1; rw [p10]; trivial
        · rw [o10 i h1, o9 i h1, o8 i h0, o7 i h0, o6 i h0, o5 i h0, o4 i h1, o3 i h0, o2 i h1, o1 i h0]
          trivial
  · intro h
    have h1 := hz 1 (by omega)
    obtain ⟨t, t1, t2, t3⟩ := C24_edges
    rw [he] at t1
    cases t1
    rw [show z = edges from h] at h1
    obtain ⟨_, s, hs, ⟨⟨alg, ha, ha'⟩, _⟩, _⟩ := t3 1 0 h1
    rw [List.length_eq_zero_iff] at ha
    subst ha
    have hs' : Deindexable.fromIndex? (T := HalfEdgesMUS) 1 = some (firstEdges Cube3.SOLVED) := by rw [hs, ← ha']; rfl
    exact absurd hs' (by decide +kernel)
  · rw [d15, d14, f13]

theorem alone_run {w : World} {p : Proc (Except IoError Cache)} {d' p'} (hi : w.procs 0 = p)
    (h : Proc.Runs w.disk p d' p') : ∃ w', w.LeadsAlone w' ∧ w'.disk = d' ∧ w'.procs 0 = p' := by
  unfold Proc.Runs at h
  generalize hx : (w.disk, p) = x at h
  generalize hy : (d', p') = y at h
  induction h generalizing d' p' with
  | refl => subst hx; cases hy; exact ⟨w, .refl, rfl, hi⟩
  | @tail b c _ hs ih =>
    obtain ⟨w1, h1, h2, h3⟩ := ih (d' := b.1) (p' := b.2) rfl
    subst hy
    rw [← h2, ← h3] at hs
    exact ⟨_, h1.tail ⟨false, .act false w1 d' p' hs⟩, rfl, rfl⟩

include he hk in
/-- the hypotheses of `C52_exact` and `C52_heuristic`: a run that loads complete tables -/
example : ∃ w w' : World, w.procs 0 = .killed ∧ (∀ f c, w.disk.file f = some c → c <+: tables edges corners f) ∧ w.LeadsAlone w' ∧
    w'.procs 0 = .returned (.ok ⟨edges, corners⟩) := by
  let w : World := ⟨some fun | .edges => some edges | .corners => some corners, fun _ => .killed⟩
  let w1 : World := ⟨w.disk, fun j => if j = 0 then .running Cache.load else w.procs j⟩
  have h : w.LeadsAlone w1 := Relation.ReflTransGen.single ⟨false, .startLoad w trivial⟩
  obtain ⟨d', p', h1, h2, -⟩ := runs_end (acc_running Cache.load w1.disk) trivial
  obtain ⟨h3, -⟩ := C52_only_size w1.disk d' p' edges corners rfl rfl (edges_length he) (corners_length hk) h1 h2
  obtain ⟨w2, g1, -, g3⟩ := alone_run (w := w1) rfl h1
  refine ⟨w, w2, rfl, fun f c h => ?_, h.trans g1, g3.trans h3⟩
  cases f <;> cases h <;> exact List.prefix_rfl

include he hk in
/-- the hypotheses of `C62_bytes` and `C62_admissible`: the run of `C62_race`; the table that is nearly all zeros never overestimates -/
example : ∃ cache : Cache, cache.edges ≠ edges ∧
    ∀ (c : Cube3) (alg : List AxisMove), movedAlg c alg = Cube3.SOLVED → ∃ x, mus? cache c = some x ∧ 0 ≤ x ∧ x ≤ alg.length := by
  obtain ⟨w, w', hw, hd, h, -, cache, hi, -, hne, -⟩ := C62_race he hk
  exact ⟨cache, hne, (C62_admissible he hk hw h (fun f c hf => by rw [hd] at hf; cases hf) 2 cache hi).2⟩

end

/-! ## Concrete cases -/

/-- a run that was killed in the middle of writing leaves a disk as in `C52_files` and `C52_short_stuck` -/
example (edges corners : List Nat) (he : buildTable? HalfEdgesMUS = some edges) :
    (∀ f c, (Disk.file (some fun | .edges => some (edges.take 1000) | .corners => none) f) = some c →
      c <+: tables edges corners f) ∧ (edges.take 1000).length ≠ (tables edges corners .edges).length := by
  constructor
  · intro f c h
    cases f with
    | corners => cases h
    | edges => cases h; exact List.take_prefix _ _
  · show _ ≠ edges.length
    rw [List.length_take, edges_length he, total_edges]
    decide

/-- a file with a gap is patchy without being the beginning of the table -/
example : Patchy [0, 1, 1, 2] [0, 0, 0, 2] ∧ ¬ [0, 0, 0, 2] <+: [0, 1, 1, 2] := by
  refine ⟨⟨by decide, fun i v h => ?_⟩, by decide⟩
  match i with
  | 0 | 1 | 2 | 3 => simp at h; subst h; simp
  | n + 4 => simp at h

/-- the start of every run in `C52_init_exact`: no directory at all -/
example (edges corners : List Nat) : ∀ f c, Disk.file none f = some c → c = tables edges corners f := fun _ _ h => by cases h

/-- a process in the middle of a run (`C52_no_error_swallowed`): it has opened the first file -/
example (d : Disk) (c : List Nat) (h : d.file .edges = some c) :
    ∃ k, Proc.Comes (.running Cache.load) (.reading .edges [] k) ∧
      Proc.Step true d (.reading .edges [] k) d (.running (k (.error .other))) :=
  ⟨_, .step (.refl _) (.readOpen d .edges _ c h), .readFault d .edges _ []⟩

end Barbarosa
