import Verif.Spec.Disk
import Mathlib.Tactic.Basic
import Mathlib.Data.List.Infix

/-!
# Lemmas about programs, processes and the disk
-/

namespace Barbarosa

@[simp] theorem file_set (d : Disk) (f g : FileName) (c : List Nat) (hd : d ≠ none) :
    (d.set f c).file g = if g = f then some c else d.file g := by
  cases d with
  | none => exact absurd rfl hd
  | some files => simp [Disk.set, Disk.file]

theorem set_ne_none {d : Disk} {f : FileName} {c : List Nat} (h : d ≠ none) : d.set f c ≠ none := by
  cases d with
  | none => exact absurd rfl h
  | some files => simp [Disk.set]

theorem ne_none_of_file {d : Disk} {f : FileName} {c : List Nat} (h : d.file f = some c) : d ≠ none := by
  rintro rfl
  cases h

/-! ## Contracts -/

/-- What a program may rely on when it reads and has to respect when it writes and returns -/
structure Contract (α : Type) where
  read : FileName → Except IoError (List Nat) → Prop
  write : FileName → List Nat → Prop
  result : α → Prop

/-- The program keeps the contract -/
def Prog.Keeps {α : Type} (C : Contract α) : Prog α → Prop
  | .done a => C.result a
  | .panic => True
  | .read f k => ∀ r, C.read f r → (k r).Keeps C
  | .write f bytes k => C.write f bytes ∧ ∀ r, (k r).Keeps C
  | .mkdir k => ∀ r, (k r).Keeps C

theorem Prog.Keeps.bind {α β : Type} {C : Contract α} {D : Contract β} {k : α → Prog β}
    (hr : ∀ f r, D.read f r → C.read f r) (hw : ∀ f b, C.write f b → D.write f b)
    (hk : ∀ a, C.result a → (k a).Keeps D) : ∀ p : Prog α, p.Keeps C → (p.bind k).Keeps D
  | .done a, h => hk a h
  | .panic, _ => trivial
  | .read f g, h => fun r hr' => Prog.Keeps.bind hr hw hk (g r) (h r (hr f r hr'))
  | .write f b g, h => ⟨hw f b h.1, fun r => Prog.Keeps.bind hr hw hk (g r) (h.2 r)⟩
  | .mkdir g, h => fun r => Prog.Keeps.bind hr hw hk (g r) (h r)

/-- A contract with another requirement on the result -/
def Contract.to {α β : Type} (C : Contract α) (Q : β → Prop) : Contract β := ⟨C.read, C.write, Q⟩

theorem keeps_bind {α β γ : Type} {C : Contract γ} (Q : α → Prop) {R : β → Prop} {p : Prog α} {k : α → Prog β}
    (hp : p.Keeps (C.to Q)) (hk : ∀ a, Q a → (k a).Keeps (C.to R)) : (p.bind k).Keeps (C.to R) :=
  Prog.Keeps.bind (C := C.to Q) (D := C.to R) (fun _ _ h => h) (fun _ _ h => h) hk p hp

/-! ## Any number of processes -/

/-- The conditions under which a contract holds for processes running at the same time: what files may contain, what a process
may have read so far, and which files may be missing -/
structure Contract.Stable {α : Type} (C : Contract α) (content acc : FileName → List Nat → Prop) (missing : FileName → Prop) :
    Prop where
  acc_nil : ∀ f, acc f []
  acc_more : ∀ f a c n, acc f a → content f c → a.length + n ≤ c.length → acc f (a ++ (c.drop a.length).take n)
  acc_end : ∀ f a c, acc f a → content f c → c.length ≤ a.length → C.read f (.ok a)
  other : ∀ f, C.read f (.error .other)
  notFound : ∀ f, missing f → C.read f (.error .notFound)
  nil : ∀ f b, C.write f b → content f []
  write : ∀ f b c o n, C.write f b → content f c → o + n ≤ b.length → content f (writeAt c o ((b.drop o).take n))

/-- What is known about the disk -/
def DiskOk (content : FileName → List Nat → Prop) (missing : FileName → Prop) (d : Disk) : Prop :=
  (∀ f c, d.file f = some c → content f c) ∧ ∀ f, d.file f = none → missing f

/-- What is known about a process -/
def ProcOk {α : Type} (C : Contract α) (acc : FileName → List Nat → Prop) : Proc α → Prop
  | .running p => p.Keeps C
  | .reading f a k => acc f a ∧ ∀ r, C.read f r → (k r).Keeps C
  | .writing f b _ k => C.write f b ∧ ∀ r, (k r).Keeps C
  | .returned a => C.result a
  | .panicked => True
  | .killed => True

theorem step_ok {α : Type} {C : Contract α} {content acc : FileName → List Nat → Prop} {missing : FileName → Prop}
    (S : C.Stable content acc missing) {b : Bool} {d d' : Disk} {p p' : Proc α} (h : Proc.Step b d p d' p')
    (hd : DiskOk content missing d) (hp : ProcOk C acc p) : DiskOk content missing d' ∧ ProcOk C acc p' := by
  cases h with
  | done => exact ⟨hd, hp⟩
  | panic => exact ⟨hd, trivial⟩
  | readMissing _ f k hf => exact ⟨hd, hp _ (S.notFound f (hd.2 f hf))⟩
  | readOpen _ f k c hf => exact ⟨hd, S.acc_nil f, hp⟩
  | readOpenFault _ f k => exact ⟨hd, hp _ (S.other f)⟩
  | readSome _ f k a c n hf hn hl => exact ⟨hd, S.acc_more f a c n hp.1 (hd.1 f c hf) hl, hp.2⟩
  | readEnd _ f k a c hf hl => exact ⟨hd, hp.2 _ (S.acc_end f a c hp.1 (hd.1 f c hf) hl)⟩
  | readFault _ f k a => exact ⟨hd, hp.2 _ (S.other f)⟩
  | writeMissing f b k => exact ⟨hd, hp.2 _⟩
  | writeOpen _ f b k hn =>
    refine ⟨⟨fun g c hg => ?_, fun g hg => ?_⟩, hp.1, hp.2⟩
    · rw [file_set _ _ _ _ hn] at hg
      split at hg
      · next h => cases hg; subst h; exact S.nil _ b hp.1
      · exact hd.1 g c hg
    · rw [file_set _ _ _ _ hn] at hg
      split at hg
      · cases hg
      · exact hd.2 g hg
  | writeOpenFault _ f b k => exact ⟨hd, hp.2 _⟩
  | writeSome _ f b k o c n hf hn hl =>
    refine ⟨⟨fun g c' hg => ?_, fun g hg => ?_⟩, hp.1, hp.2⟩
    · rw [file_set _ _ _ _ (ne_none_of_file hf)] at hg
      split at hg
      · next h => cases hg; subst h; exact S.write _ b c o n hp.1 (hd.1 _ c hf) hl
      · exact hd.1 g c' hg
    · rw [file_set _ _ _ _ (ne_none_of_file hf)] at hg
      split at hg
      · cases hg
      · exact hd.2 g hg
  | writeEnd _ f b k o hl => exact ⟨hd, hp.2 _⟩
  | writeFault _ f b k o => exact ⟨hd, hp.2 _⟩
  | mkdirNew k =>
    refine ⟨⟨fun g c hg => ?_, fun g hg => ?_⟩, hp _⟩
    · cases hg
    · exact hd.2 g rfl
  | mkdirOld _ k hn => exact ⟨hd, hp _⟩
  | mkdirFault _ k => exact ⟨hd, hp _⟩
  | killed => exact ⟨hd, trivial⟩

theorem leads_ok {C : Contract (Except IoError Cache)} {content acc : FileName → List Nat → Prop} {missing : FileName → Prop}
    (S : C.Stable content acc missing) (hinit : Cache.initProg.Keeps C) (hload : Cache.load.Keeps C) {w w' : World}
    (h : w.Leads w') (hd : DiskOk content missing w.disk) (hp : ∀ i, ProcOk C acc (w.procs i)) :
    DiskOk content missing w'.disk ∧ ∀ i, ProcOk C acc (w'.procs i) := by
  induction h with
  | refl => exact ⟨hd, hp⟩
  | tail _ hs ih =>
    obtain ⟨i, b, hs⟩ := hs
    obtain ⟨ih1, ih2⟩ := ih
    cases hs with
    | act _ _ d p hs =>
      obtain ⟨h1, h2⟩ := step_ok S hs ih1 (ih2 i)
      refine ⟨h1, fun j => ?_⟩
      dsimp only
      split
      · exact h2
      · exact ih2 j
    | startInit =>
      refine ⟨ih1, fun j => ?_⟩
      dsimp only
      split
      · exact hinit
      · exact ih2 j
    | startLoad =>
      refine ⟨ih1, fun j => ?_⟩
      dsimp only
      split
      · exact hload
      · exact ih2 j

/-- A process that is over has nothing to keep, except for a result it may have returned before -/
theorem procOk_of_over {α : Type} {C : Contract α} {acc : FileName → List Nat → Prop} {p : Proc α} (h : p.over)
    (hr : ∀ a, p = .returned a → C.result a) : ProcOk C acc p := by
  cases p with
  | returned a => exact hr a rfl
  | panicked => trivial
  | killed => trivial
  | _ => exact h.elim

/-! ## One process at a time -/

/-- A file and the process that writes it, at a moment when no other process runs: `tab` gives the finished tables -/
def AloneOk {α : Type} (C : Contract α) (tab : FileName → List Nat) (d : Disk) : Proc α → Prop
  | .running p => p.Keeps C
  | .reading f a k => (∃ c, d.file f = some c ∧ a <+: c) ∧ ∀ r, C.read f r → (k r).Keeps C
  | .writing f b o k => b = tab f ∧ o ≤ b.length ∧ d.file f = some (b.take o) ∧ ∀ r, (k r).Keeps C
  | .returned a => C.result a
  | .panicked => True
  | .killed => True

/-- Every file is missing or the beginning of the finished table -/
def Begun (tab : FileName → List Nat) (d : Disk) : Prop := ∀ f c, d.file f = some c → c <+: tab f

theorem writeAt_take (b : List Nat) (o n : Nat) (h : o + n ≤ b.length) :
    writeAt (b.take o) o ((b.drop o).take n) = b.take (o + n) := by
  unfold writeAt
  have h1 : (b.take o).length = o := by rw [List.length_take]; omega
  have h2 : ((b.drop o).take n).length = n := by rw [List.length_take, List.length_drop]; omega
  rw [h1, h2, Nat.sub_self, List.replicate_zero, List.append_nil, List.take_of_length_le (l := b.take o) (by omega),
    List.drop_of_length_le (l := b.take o) (by omega), List.append_nil, List.take_add]

theorem prefix_more {a c : List Nat} (h : a <+: c) (n : Nat) : a ++ (c.drop a.length).take n <+: c := by
  obtain ⟨t, rfl⟩ := h
  rw [List.drop_left]
  exact (List.prefix_append_right_inj a).2 (List.take_prefix n t)

theorem step_alone {α : Type} {C : Contract α} {tab : FileName → List Nat}
    (hread : ∀ f e, C.read f (.error e)) (hok : ∀ f c, c <+: tab f → C.read f (.ok c))
    (hwrite : ∀ f b, C.write f b → b = tab f) {b : Bool} {d d' : Disk} {p p' : Proc α} (h : Proc.Step b d p d' p')
    (hd : Begun tab d) (hp : AloneOk C tab d p) : Begun tab d' ∧ AloneOk C tab d' p' := by
  cases h with
  | done => exact ⟨hd, hp⟩
  | panic => exact ⟨hd, trivial⟩
  | readMissing _ f k hf => exact ⟨hd, hp _ (hread f _)⟩
  | readOpen _ f k c hf => exact ⟨hd, ⟨c, hf, List.nil_prefix⟩, hp⟩
  | readOpenFault _ f k => exact ⟨hd, hp _ (hread f _)⟩
  | readSome _ f k a c n hf hn hl =>
    obtain ⟨⟨c', h1, h2⟩, h3⟩ := hp
    rw [hf] at h1
    cases h1
    exact ⟨hd, ⟨c, hf, prefix_more h2 n⟩, h3⟩
  | readEnd _ f k a c hf hl =>
    obtain ⟨⟨c', h1, h2⟩, h3⟩ := hp
    rw [hf] at h1
    cases h1
    exact ⟨hd, h3 _ (hok f a (h2.trans (hd f c hf)))⟩
  | readFault _ f k a => exact ⟨hd, hp.2 _ (hread f _)⟩
  | writeMissing f b k => exact ⟨hd, hp.2 _⟩
  | writeOpen _ f b k hn =>
    refine ⟨fun g c hg => ?_, hwrite f b hp.1, Nat.zero_le _, ?_, hp.2⟩
    · rw [file_set _ _ _ _ hn] at hg
      split at hg
      · cases hg; exact List.nil_prefix
      · exact hd g c hg
    · rw [file_set _ _ _ _ hn, if_pos rfl, List.take_zero]
  | writeOpenFault _ f b k => exact ⟨hd, hp.2 _⟩
  | writeSome _ f b k o c n hf hn hl =>
    obtain ⟨h1, h2, h3, h4⟩ := hp
    rw [hf] at h3
    cases h3
    rw [writeAt_take b o n hl]
    refine ⟨fun g c hg => ?_, h1, hl, ?_, h4⟩
    · rw [file_set _ _ _ _ (ne_none_of_file hf)] at hg
      split at hg
      · next h => cases hg; subst h; rw [h1]; exact List.take_prefix _ _
      · exact hd g c hg
    · rw [file_set _ _ _ _ (ne_none_of_file hf), if_pos rfl]
  | writeEnd _ f b k o hl => exact ⟨hd, hp.2.2.2 _⟩
  | writeFault _ f b k o => exact ⟨hd, hp.2.2.2 _⟩
  | mkdirNew k => exact ⟨fun g c hg => (by cases hg), hp _⟩
  | mkdirOld _ k hn => exact ⟨hd, hp _⟩
  | mkdirFault _ k => exact ⟨hd, hp _⟩
  | killed => exact ⟨hd, trivial⟩

theorem leadsAlone_ok {C : Contract (Except IoError Cache)} {tab : FileName → List Nat}
    (hread : ∀ f e, C.read f (.error e)) (hok : ∀ f c, c <+: tab f → C.read f (.ok c))
    (hwrite : ∀ f b, C.write f b → b = tab f) (hinit : Cache.initProg.Keeps C) (hload : Cache.load.Keeps C) {w w' : World}
    (h : w.LeadsAlone w') (hd : Begun tab w.disk) (hp : AloneOk C tab w.disk (w.procs 0)) :
    Begun tab w'.disk ∧ AloneOk C tab w'.disk (w'.procs 0) := by
  induction h with
  | refl => exact ⟨hd, hp⟩
  | tail _ hs ih =>
    obtain ⟨b, hs⟩ := hs
    obtain ⟨ih1, ih2⟩ := ih
    cases hs with
    | act _ _ d p hs =>
      obtain ⟨h1, h2⟩ := step_alone hread hok hwrite hs ih1 ih2
      exact ⟨h1, h2⟩
    | startInit => exact ⟨ih1, hinit⟩
    | startLoad => exact ⟨ih1, hload⟩

/-! ## Patchy files -/

theorem patchy_nil (t : List Nat) : Patchy t [] := ⟨Nat.zero_le _, fun i v h => by simp at h⟩

theorem Patchy.more {t a c : List Nat} (ha : Patchy t a) (hc : Patchy t c) (n : Nat) (h : a.length + n ≤ c.length) :
    Patchy t (a ++ (c.drop a.length).take n) := by
  refine ⟨?_, fun i v hi => ?_⟩
  · rw [List.length_append, List.length_take, List.length_drop]
    have := hc.1
    omega
  · rw [List.getElem?_append] at hi
    split at hi
    · exact ha.2 i v hi
    · next hlt =>
      rw [List.getElem?_take, List.getElem?_drop] at hi
      split at hi
      · rw [show a.length + (i - a.length) = i by omega] at hi
        exact hc.2 i v hi
      · cases hi

theorem Patchy.write {t c : List Nat} (hc : Patchy t c) (o n : Nat) (h : o + n ≤ t.length) :
    Patchy t (writeAt c o ((t.drop o).take n)) := by
  have h2 : ((t.drop o).take n).length = n := by rw [List.length_take, List.length_drop]; omega
  unfold writeAt
  refine ⟨?_, fun i v hi => ?_⟩
  · simp only [List.length_append, List.length_take, List.length_replicate, List.length_drop]
    have := hc.1
    omega
  · rw [List.getElem?_append] at hi
    split at hi
    · rw [List.getElem?_append] at hi
      split at hi
      · rw [List.getElem?_append] at hi
        split at hi
        · rw [List.getElem?_take] at hi
          split at hi
          · exact hc.2 i v hi
          · cases hi
        · rw [List.getElem?_replicate] at hi
          split at hi
          · cases hi; exact Or.inl rfl
          · cases hi
      · next hlt hlt' =>
        simp only [List.length_append, List.length_take, List.length_replicate] at hlt' hi hlt
        rw [List.getElem?_take, List.getElem?_drop] at hi
        split at hi
        · rw [show o + (i - (min o c.length + (o - c.length))) = i by omega] at hi
          exact Or.inr hi
        · cases hi
    · next hlt =>
      simp only [List.length_append, List.length_take, List.length_replicate, List.length_drop] at hlt hi
      rw [List.getElem?_drop] at hi
      rw [show o + min n (t.length - o) + (i - (min o c.length + (o - c.length) + min n (t.length - o))) = i by omega] at hi
      exact hc.2 i v hi

/-! ## Running without faults -/

theorem exec_bind {α β : Type} (k : α → Prog β) : ∀ (p : Prog α) (d : Disk), (p.bind k).exec d =
    match p.exec d with
    | (some a, d') => (k a).exec d'
    | (none, d') => (none, d')
  | .done a, d => rfl
  | .panic, d => rfl
  | .read f g, d => by
    simp only [Prog.bind, Prog.exec]
    split
    · exact exec_bind k _ _
    · exact exec_bind k _ _
  | .write f b g, d => by
    simp only [Prog.bind, Prog.exec]
    split
    · exact exec_bind k _ _
    · exact exec_bind k _ _
  | .mkdir g, d => by
    simp only [Prog.bind, Prog.exec]
    split
    · exact exec_bind k _ _
    · exact exec_bind k _ _

/-- What a process that runs alone without faults comes to -/
def Proc.exec {α : Type} (d : Disk) : Proc α → Option α × Disk
  | .running p => p.exec d
  | .reading f a k =>
    match d.file f with
    | none => (k (.ok a)).exec d
    | some c => (k (.ok c)).exec d
  | .writing f b _ k => (k (.ok ())).exec (d.set f b)
  | .returned a => (some a, d)
  | .panicked => (none, d)
  | .killed => (none, d)

/-- A process that runs alone: what it has read or written so far is the beginning of the file -/
def Proc.Sane {α : Type} (d : Disk) : Proc α → Prop
  | .reading f a _ => ∃ c, d.file f = some c ∧ a <+: c
  | .writing f b o _ => o ≤ b.length ∧ d.file f = some (b.take o)
  | _ => True

theorem set_set (d : Disk) (f : FileName) (a b : List Nat) : (d.set f a).set f b = d.set f b := by
  cases d with
  | none => rfl
  | some files =>
    simp only [Disk.set, Option.map_some]
    congr 1
    funext g
    split <;> rfl

theorem set_self (d : Disk) (f : FileName) (a : List Nat) (h : d.file f = some a) : d.set f a = d := by
  cases d with
  | none => rfl
  | some files =>
    simp only [Disk.set, Option.map_some]
    congr 1
    funext g
    split
    · next h' => subst h'; exact h.symm
    · rfl

theorem step_exec {α : Type} {d d' : Disk} {p p' : Proc α} (h : Proc.Step false d p d' p') (hp : p.Sane d) :
    p'.Sane d' ∧ p'.exec d' = p.exec d := by
  cases h with
  | done => exact ⟨trivial, rfl⟩
  | panic => exact ⟨trivial, rfl⟩
  | readMissing _ f k hf => exact ⟨trivial, by simp only [Proc.exec, Prog.exec, hf]⟩
  | readOpen _ f k c hf => exact ⟨⟨c, hf, List.nil_prefix⟩, by simp only [Proc.exec, Prog.exec, hf]⟩
  | readSome _ f k a c n hf hn hl =>
    obtain ⟨c', h1, h2⟩ := hp
    rw [hf] at h1
    cases h1
    exact ⟨⟨c, hf, prefix_more h2 n⟩, by simp only [Proc.exec, hf]⟩
  | readEnd _ f k a c hf hl =>
    obtain ⟨c', h1, h2⟩ := hp
    rw [hf] at h1
    cases h1
    exact ⟨trivial, by simp only [Proc.exec, hf, h2.eq_of_length_le hl]⟩
  | writeMissing f b k => exact ⟨trivial, rfl⟩
  | writeOpen _ f b k hn =>
    refine ⟨⟨Nat.zero_le _, by rw [file_set _ _ _ _ hn, if_pos rfl, List.take_zero]⟩, ?_⟩
    simp only [Proc.exec, set_set]
    cases d with
    | none => exact absurd rfl hn
    | some files => rfl
  | writeSome _ f b k o c n hf hn hl =>
    obtain ⟨h2, h3⟩ := hp
    rw [hf] at h3
    cases h3
    rw [writeAt_take b o n hl]
    refine ⟨⟨hl, by rw [file_set _ _ _ _ (ne_none_of_file hf), if_pos rfl]⟩, ?_⟩
    simp only [Proc.exec, set_set]
  | writeEnd _ f b k o hl =>
    obtain ⟨h2, h3⟩ := hp
    refine ⟨trivial, ?_⟩
    rw [List.take_of_length_le hl] at h3
    simp only [Proc.exec, set_self _ _ _ h3]
  | mkdirNew k => exact ⟨trivial, rfl⟩
  | mkdirOld _ k hn =>
    refine ⟨trivial, ?_⟩
    cases d with
    | none => exact absurd rfl hn
    | some files => rfl

/-- A process that is not at its end can go on without a fault -/
theorem progress {α : Type} {d : Disk} {p : Proc α} (hp : p.Sane d) (ho : ¬ p.over) : ∃ d' p', Proc.Step false d p d' p' := by
  cases p with
  | running q =>
    cases q with
    | done a => exact ⟨_, _, .done d a⟩
    | panic => exact ⟨_, _, .panic d⟩
    | read f k =>
      cases hf : d.file f with
      | none => exact ⟨_, _, .readMissing d f k hf⟩
      | some c => exact ⟨_, _, .readOpen d f k c hf⟩
    | write f b k =>
      cases d with
      | none => exact ⟨_, _, .writeMissing f b k⟩
      | some files => exact ⟨_, _, .writeOpen _ f b k (by simp)⟩
    | mkdir k =>
      cases d with
      | none => exact ⟨_, _, .mkdirNew k⟩
      | some files => exact ⟨_, _, .mkdirOld _ k (by simp)⟩
  | reading f a k =>
    obtain ⟨c, hf, hc⟩ := hp
    by_cases hl : c.length ≤ a.length
    · exact ⟨_, _, .readEnd d f k a c hf hl⟩
    · exact ⟨_, _, .readSome d f k a c 1 hf Nat.one_pos (by omega)⟩
  | writing f b o k =>
    obtain ⟨h1, h2⟩ := hp
    by_cases hl : b.length ≤ o
    · exact ⟨_, _, .writeEnd d f b k o hl⟩
    · exact ⟨_, _, .writeSome d f b k o _ 1 h2 Nat.one_pos (by omega)⟩
  | returned a => exact absurd trivial ho
  | panicked => exact absurd trivial ho
  | killed => exact absurd trivial ho

/-- "comes before" for the steps of a process, with or without faults -/
def Proc.After {α : Type} (x y : Disk × Proc α) : Prop := ∃ b, Proc.Step b y.1 y.2 x.1 x.2

theorem acc_over {α : Type} {d : Disk} {p : Proc α} (h : p.over) : Acc Proc.After (d, p) := by
  constructor
  rintro ⟨d', p'⟩ ⟨b, hs⟩
  cases p with
  | returned a => cases hs; exact absurd trivial ‹_›
  | panicked => cases hs; exact absurd trivial ‹_›
  | killed => cases hs; exact absurd trivial ‹_›
  | _ => exact h.elim

theorem acc_reading {α : Type} {f : FileName} {k : Except IoError (List Nat) → Prog α}
    (hk : ∀ r d, Acc Proc.After (d, Proc.running (k r))) (d : Disk) :
    ∀ (m : Nat) (a : List Nat), (∀ c, d.file f = some c → c.length - a.length ≤ m) → Acc Proc.After (d, Proc.reading f a k) := by
  intro m
  induction m with
  | zero =>
    intro a ha
    constructor
    rintro ⟨d', p'⟩ ⟨b, hs⟩
    cases hs with
    | readSome _ _ _ _ c n hf hn hl => have := ha c hf; omega
    | readEnd _ _ _ _ c hf hl => exact hk _ _
    | readFault => exact hk _ _
    | killed => exact acc_over trivial
  | succ m ih =>
    intro a ha
    constructor
    rintro ⟨d', p'⟩ ⟨b, hs⟩
    cases hs with
    | readSome _ _ _ _ c n hf hn hl =>
      refine ih _ fun c' hc' => ?_
      rw [hf] at hc'
      cases hc'
      have := ha c hf
      rw [List.length_append, List.length_take, List.length_drop]
      omega
    | readEnd _ _ _ _ c hf hl => exact hk _ _
    | readFault => exact hk _ _
    | killed => exact acc_over trivial

theorem acc_writing {α : Type} {f : FileName} {bytes : List Nat} {k : Except IoError Unit → Prog α}
    (hk : ∀ r d, Acc Proc.After (d, Proc.running (k r))) :
    ∀ (m : Nat) (d : Disk) (o : Nat), bytes.length - o ≤ m → Acc Proc.After (d, Proc.writing f bytes o k) := by
  intro m
  induction m with
  | zero =>
    intro d o ho
    constructor
    rintro ⟨d', p'⟩ ⟨b, hs⟩
    cases hs with
    | writeSome _ _ _ _ _ c n hf hn hl => omega
    | writeEnd => exact hk _ _
    | writeFault => exact hk _ _
    | killed => exact acc_over trivial
  | succ m ih =>
    intro d o ho
    constructor
    rintro ⟨d', p'⟩ ⟨b, hs⟩
    cases hs with
    | writeSome _ _ _ _ _ c n hf hn hl => exact ih _ _ (by omega)
    | writeEnd => exact hk _ _
    | writeFault => exact hk _ _
    | killed => exact acc_over trivial

theorem acc_running {α : Type} (p : Prog α) : ∀ d : Disk, Acc Proc.After (d, Proc.running p) := by
  induction p with
  | done a =>
    intro d
    constructor
    rintro ⟨d', p'⟩ ⟨b, hs⟩
    cases hs <;> exact acc_over trivial
  | panic =>
    intro d
    constructor
    rintro ⟨d', p'⟩ ⟨b, hs⟩
    cases hs <;> exact acc_over trivial
  | read f k ih =>
    intro d
    constructor
    rintro ⟨d', p'⟩ ⟨b, hs⟩
    cases hs with
    | readMissing => exact ih _ _
    | readOpen _ _ _ c hf =>
      refine acc_reading ih d c.length [] fun c' hc' => ?_
      rw [hf] at hc'
      cases hc'
      exact Nat.sub_le _ _
    | readOpenFault => exact ih _ _
    | killed => exact acc_over trivial
  | write f bytes k ih =>
    intro d
    constructor
    rintro ⟨d', p'⟩ ⟨b, hs⟩
    cases hs with
    | writeMissing => exact ih _ _
    | writeOpen => exact acc_writing ih bytes.length _ 0 (Nat.sub_le _ _)
    | writeOpenFault => exact ih _ _
    | killed => exact acc_over trivial
  | mkdir k ih =>
    intro d
    constructor
    rintro ⟨d', p'⟩ ⟨b, hs⟩
    cases hs with
    | mkdirNew => exact ih _ _
    | mkdirOld => exact ih _ _
    | mkdirFault => exact ih _ _
    | killed => exact acc_over trivial

end Barbarosa
