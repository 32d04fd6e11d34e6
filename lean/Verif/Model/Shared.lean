import Verif.Model.Mus

/-!
# The shared cache

Transcription of `CACHE_LOCK`, `get_or_init` and `get` in `cube_n/cube3/mus/cache/mod.rs` as a transition system: any number of
threads call the two functions at any time.

Simplifications. `OnceLock` is modelled by its documented behaviour: `get` looks at the value and never waits, `get_or_init`
returns the value if there is one, otherwise it waits for an initialisation that is under way or runs the given function
itself; if that panics the lock stays empty and a later call tries again. What `Cache::init` comes to (a cache or a panic,
`Model/Disk.lean`) is arbitrary here. `Cache::init` does not call `get_or_init`, so it cannot wait for itself.
-/

namespace Barbarosa

/-- What a thread is doing: nothing here, inside `get` (`cube_n/cube3/mus/cache/mod.rs:30-32`), inside `get_or_init` (`24-26`), or running
`Cache::init` on behalf of `get_or_init` (`25`) -/
inductive Thread
  | idle
  | getting (c : Cube3)
  | waiting (c : Cube3)
  | initialising (c : Cube3)

/-- `CACHE_LOCK` (`cube_n/cube3/mus/cache/mod.rs:20`): the value, the thread that is initialising it; and the threads -/
structure Lock where
  value : Option Cache
  owner : Option Nat
  threads : Nat → Thread

/-- `cube_n/cube3/mus/cache/mod.rs:20` at the start of the program -/
def Lock.new : Lock := ⟨none, none, fun _ => .idle⟩

/-- What can be observed. `got` is the return of `get`, `used` the return of `get_or_init`; the inner `none` would be a lookup
out of bounds (`cube_n/cube3/mus/cache/mod.rs:24-49`) -/
inductive LockEvent
  | called (t : Nat) (c : Cube3)
  | got (t : Nat) (c : Cube3) (r : Option (Option Nat))
  | used (t : Nat) (c : Cube3) (n : Option Nat)
  | started (t : Nat)
  | finished (t : Nat) (v : Cache)
  | panicked (t : Nat)

/-- Another state of one thread (`cube_n/cube3/mus/cache/mod.rs:24-32`) -/
def Lock.put (l : Lock) (t : Nat) (s : Thread) : Nat → Thread := fun u => if u = t then s else l.threads u

/-- The steps of `cube_n/cube3/mus/cache/mod.rs:24-32` -/
inductive Lock.Step : Lock → LockEvent → Lock → Prop
  | callGet (l t c) : l.threads t = .idle → Step l (.called t c) { l with threads := l.put t (.getting c) }
  | callGetOrInit (l t c) : l.threads t = .idle → Step l (.called t c) { l with threads := l.put t (.waiting c) }
  | get (l t c) : l.threads t = .getting c →
      Step l (.got t c (l.value.map fun cache => cache.get? c)) { l with threads := l.put t .idle }
  | use (l t c v) : l.threads t = .waiting c → l.value = some v →
      Step l (.used t c (v.get? c)) { l with threads := l.put t .idle }
  | start (l t c) : l.threads t = .waiting c → l.value = none → l.owner = none →
      Step l (.started t) ⟨none, some t, l.put t (.initialising c)⟩
  | finish (l t c v) : l.threads t = .initialising c → Step l (.finished t v) ⟨some v, none, l.put t (.waiting c)⟩
  | panic (l t c) : l.threads t = .initialising c → Step l (.panicked t) ⟨l.value, none, l.put t .idle⟩

/-- The state of the lock after some steps, and what was observed meanwhile (`cube_n/cube3/mus/cache/mod.rs:24-32`) -/
inductive Lock.Trace : List LockEvent → Lock → Prop
  | nil : Trace [] Lock.new
  | snoc {es l e l'} : Trace es l → Lock.Step l e l' → Trace (es ++ [e]) l'

end Barbarosa
