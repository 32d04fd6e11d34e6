import Verif.Model.Mus

/-!
# The tables on disk

Transcription of `cube_n/cube3/mus/cache/disk_storage.rs`, of the parts of `cube_n/cube3/mus/cache/generation.rs` that use it and
of `Cache::init` and `Cache::load`. The code is given as programs that ask for file system operations (`Prog`); the file
system, what can go wrong with it and any number of processes that run these programs at the same time are a transition system
(`World`).

Simplifications. The current directory does not change, and nobody but these programs writes to `mus-cache`. Messages printed
in debug builds are left out. The kinds of errors are reduced to `NotFound` and all others; `NotFound` arises exactly when the
directory or the file is missing. Interrupting a process (kill, crash, panic in another thread) keeps what it has written so far; loss of
data after a power failure is not modelled. Killing a process while it builds a table has no effect on the disk, so building is
one step together with the operation that follows.
-/

namespace Barbarosa

/-- `io::ErrorKind`, as far as `cube_n/cube3/mus/cache/disk_storage.rs:37,73` distinguish kinds -/
inductive IoError | notFound | other
  deriving DecidableEq, Repr

/-- `cube_n/cube3/mus/cache/disk_storage.rs:46-52`: the files inside `mus-cache` -/
inductive FileName | corners | edges
  deriving DecidableEq, Repr

/-- A program that uses `fs::read` (`cube_n/cube3/mus/cache/disk_storage.rs:57`), `fs::write` (`71`, `79`) and `fs::create_dir_all`
for `mus-cache` (`78`), and goes on according to what they return -/
inductive Prog (α : Type)
  | done (a : α)
  | panic
  | read (f : FileName) (k : Except IoError (List Nat) → Prog α)
  | write (f : FileName) (bytes : List Nat) (k : Except IoError Unit → Prog α)
  | mkdir (k : Except IoError Unit → Prog α)

/-- Sequencing of statements (`cube_n/cube3/mus/cache/disk_storage.rs:14-17` and everywhere else) -/
def Prog.bind {α β : Type} : Prog α → (α → Prog β) → Prog β
  | .done a, k => k a
  | .panic, _ => .panic
  | .read f g, k => .read f fun r => (g r).bind k
  | .write f bytes g, k => .write f bytes fun r => (g r).bind k
  | .mkdir g, k => .mkdir fun r => (g r).bind k

/-- `?` (`cube_n/cube3/mus/cache/disk_storage.rs:14-15,21-22,57,78-79`, `generation.rs:76`): go on with the value or return the
error -/
def Prog.andThen {α β : Type} (p : Prog (Except IoError α)) (k : α → Prog (Except IoError β)) : Prog (Except IoError β) :=
  p.bind fun
    | .ok a => k a
    | .error e => .done (.error e)

/-- `cube_n/cube3/mus/cache/disk_storage.rs:42-44` -/
class DiskCacheable (T : Type) extends Deindexable T where
  PATH : FileName

/-- `cube_n/cube3/mus/cache/disk_storage.rs:46-48` -/
instance : DiskCacheable CornersMUS := ⟨.corners⟩
/-- `cube_n/cube3/mus/cache/disk_storage.rs:50-52` -/
instance : DiskCacheable HalfEdgesMUS := ⟨.edges⟩

/-- `cube_n/cube3/mus/cache/disk_storage.rs:102-106` -/
def assertCorrectCacheSize (T : Type) [DiskCacheable T] {α : Type} (given : Nat) (k : Prog α) : Prog α :=
  if given ≠ Deindexable.TOTAL_SET_SIZE T then .panic else k

/-- `cube_n/cube3/mus/cache/disk_storage.rs:54-63` -/
def loadPartial (T : Type) [DiskCacheable T] : Prog (Except IoError (List Nat)) :=
  Prog.andThen (.read (DiskCacheable.PATH T) .done) fun bytes =>
    assertCorrectCacheSize T bytes.length (.done (.ok bytes))

/-- `cube_n/cube3/mus/cache/disk_storage.rs:67-87`; the path has a parent, so lines 74-76 have no effect -/
def writePartial (T : Type) [DiskCacheable T] (bytes : List Nat) : Prog (Except IoError Unit) :=
  assertCorrectCacheSize T bytes.length <|
    .write (DiskCacheable.PATH T) bytes fun
      | .ok () => .done (.ok ())
      | .error .notFound =>
        Prog.andThen (.mkdir .done) fun _ => .write (DiskCacheable.PATH T) bytes .done
      | .error e => .done (.error e)

/-- `cube_n/cube3/mus/cache/generation.rs:46-81` -/
def buildPartial (T : Type) [DiskCacheable T] [Movable T AxisMove] : Prog (Except IoError (List Nat)) :=
  match buildTable? T with
  | none => .panic
  | some cache => Prog.andThen (writePartial T cache) fun _ => .done (.ok cache)

/-- `cube_n/cube3/mus/cache/disk_storage.rs:33-40` -/
def loadOrBuildPartial (T : Type) [DiskCacheable T] [Movable T AxisMove] : Prog (Except IoError (List Nat)) :=
  (loadPartial T).bind fun
    | .ok cache => .done (.ok cache)
    | .error .notFound => buildPartial T
    | .error e => .done (.error e)

/-- `cube_n/cube3/mus/cache/disk_storage.rs:20-25` -/
def loadOrBuild : Prog (Except IoError Cache) :=
  Prog.andThen (loadOrBuildPartial HalfEdgesMUS) fun edges =>
    Prog.andThen (loadOrBuildPartial CornersMUS) fun corners => .done (.ok ⟨edges, corners⟩)

/-- `cube_n/cube3/mus/cache/mod.rs:60-66`: `expect` turns every error into a panic -/
def Cache.init : Prog Cache :=
  loadOrBuild.bind fun
    | .ok cache => .done cache
    | .error _ => .panic

/-- `cube_n/cube3/mus/cache/mod.rs:69-71` and `cube_n/cube3/mus/cache/disk_storage.rs:13-18` -/
def Cache.load : Prog (Except IoError Cache) :=
  Prog.andThen (loadPartial HalfEdgesMUS) fun edges =>
    Prog.andThen (loadPartial CornersMUS) fun corners => .done (.ok ⟨edges, corners⟩)

/-! ## The file system and the processes -/

/-- The directory `mus-cache` (`cube_n/cube3/mus/cache/disk_storage.rs:47,51`): `none` when it does not exist, otherwise the contents of
the files in it -/
abbrev Disk := Option (FileName → Option (List Nat))

/-- The contents of a file, if there is one (`cube_n/cube3/mus/cache/disk_storage.rs:57`) -/
def Disk.file (d : Disk) (f : FileName) : Option (List Nat) := d.bind fun files => files f

/-- Replaces the contents of a file in an existing directory (`cube_n/cube3/mus/cache/disk_storage.rs:71`) -/
def Disk.set (d : Disk) (f : FileName) (content : List Nat) : Disk :=
  d.map fun files g => if g = f then some content else files g

/-- Writing `bytes` at an offset; a gap before it is filled with zeros (`write` of the operating system, used by `fs::write`,
`cube_n/cube3/mus/cache/disk_storage.rs:71`) -/
def writeAt (content : List Nat) (offset : Nat) (bytes : List Nat) : List Nat :=
  content.take offset ++ List.replicate (offset - content.length) 0 ++ bytes ++ content.drop (offset + bytes.length)

/-- A process that runs a program, at a moment between two operations, in the middle of `fs::read` (with the bytes read so far;
`cube_n/cube3/mus/cache/disk_storage.rs:57`), in the middle of `fs::write` (with the number of bytes written so far; `71`, `79`), or
at its end -/
inductive Proc (α : Type)
  | running (p : Prog α)
  | reading (f : FileName) (acc : List Nat) (k : Except IoError (List Nat) → Prog α)
  | writing (f : FileName) (bytes : List Nat) (offset : Nat) (k : Except IoError Unit → Prog α)
  | returned (a : α)
  | panicked
  | killed

/-- The process is at its end, or has never been started (`barbarosa/src/main.rs:14-24`) -/
def Proc.over {α : Type} : Proc α → Prop
  | .returned _ => True
  | .panicked => True
  | .killed => True
  | _ => False

/-- What a process can do next, with `fault = false` when nothing goes wrong. `fs::write` first creates the file or truncates it,
then writes its bytes piece by piece; `fs::read` reads piece by piece up to the end of the file
(`cube_n/cube3/mus/cache/disk_storage.rs:57,71,78,79`) -/
inductive Proc.Step {α : Type} : (fault : Bool) → Disk → Proc α → Disk → Proc α → Prop
  | done (d a) : Step false d (.running (.done a)) d (.returned a)
  | panic (d) : Step false d (.running .panic) d .panicked
  | readMissing (d f k) : d.file f = none → Step false d (.running (.read f k)) d (.running (k (.error .notFound)))
  | readOpen (d f k content) : d.file f = some content → Step false d (.running (.read f k)) d (.reading f [] k)
  | readOpenFault (d f k) : Step true d (.running (.read f k)) d (.running (k (.error .other)))
  | readSome (d : Disk) (f k acc content n) : d.file f = some content → 0 < n → acc.length + n ≤ content.length →
      Step false d (.reading f acc k) d (.reading f (acc ++ (content.drop acc.length).take n) k)
  | readEnd (d : Disk) (f k acc content) : d.file f = some content → content.length ≤ acc.length →
      Step false d (.reading f acc k) d (.running (k (.ok acc)))
  | readFault (d f k acc) : Step true d (.reading f acc k) d (.running (k (.error .other)))
  | writeMissing (f bytes k) : Step false none (.running (.write f bytes k)) none (.running (k (.error .notFound)))
  | writeOpen (d : Disk) (f bytes k) : d ≠ none →
      Step false d (.running (.write f bytes k)) (d.set f []) (.writing f bytes 0 k)
  | writeOpenFault (d f bytes k) : Step true d (.running (.write f bytes k)) d (.running (k (.error .other)))
  | writeSome (d : Disk) (f bytes k offset content n) : d.file f = some content → 0 < n → offset + n ≤ bytes.length →
      Step false d (.writing f bytes offset k) (d.set f (writeAt content offset ((bytes.drop offset).take n)))
        (.writing f bytes (offset + n) k)
  | writeEnd (d f bytes k offset) : bytes.length ≤ offset →
      Step false d (.writing f bytes offset k) d (.running (k (.ok ())))
  | writeFault (d f bytes k offset) : Step true d (.writing f bytes offset k) d (.running (k (.error .other)))
  | mkdirNew (k) : Step false none (.running (.mkdir k)) (some fun _ => none) (.running (k (.ok ())))
  | mkdirOld (d : Disk) (k) : d ≠ none → Step false d (.running (.mkdir k)) d (.running (k (.ok ())))
  | mkdirFault (d k) : Step true d (.running (.mkdir k)) d (.running (k (.error .other)))
  | killed (d) (p : Proc α) : ¬ p.over → Step true d p d .killed

/-- The disk and any number of processes (each is a run of `main`, `barbarosa/src/main.rs:17-19`, or of another program that calls
`Cache::init` or `Cache::load`) -/
structure World where
  disk : Disk
  procs : Nat → Proc (Except IoError Cache)

/-- `Cache::init` as a program of the same type as `Cache::load` (`cube_n/cube3/mus/cache/mod.rs:60-71`) -/
def Cache.initProg : Prog (Except IoError Cache) := Cache.init.bind fun c => .done (.ok c)

/-- One step of the process number `i`: it does something or, being over, starts anew with `Cache::init` or `Cache::load`
(`cube_n/cube3/mus/cache/mod.rs:60-71`) -/
inductive World.StepOf (i : Nat) : (fault : Bool) → World → World → Prop
  | act (b w d p) : Proc.Step b w.disk (w.procs i) d p → StepOf i b w ⟨d, fun j => if j = i then p else w.procs j⟩
  | startInit (w) : (w.procs i).over →
      StepOf i false w ⟨w.disk, fun j => if j = i then .running Cache.initProg else w.procs j⟩
  | startLoad (w) : (w.procs i).over →
      StepOf i false w ⟨w.disk, fun j => if j = i then .running Cache.load else w.procs j⟩

end Barbarosa
