import Verif.Model.Disk
import Mathlib.Logic.Relation

/-!
# Specification of the tables on disk
-/

namespace Barbarosa

/-- Anything that can happen in some steps of any processes. -/
def World.Leads (w w' : World) : Prop := Relation.ReflTransGen (fun a b => ∃ i fault, World.StepOf i fault a b) w w'

/-- Anything that can happen while only process `0` runs: one run after the other. -/
def World.LeadsAlone (w w' : World) : Prop := Relation.ReflTransGen (fun a b => ∃ fault, World.StepOf 0 fault a b) w w'

/-- Nothing is running. -/
def World.Quiet (w : World) : Prop := ∀ i, (w.procs i).over

/-- Every byte is the right one or zero, and there are not too many. -/
def Patchy (table content : List Nat) : Prop :=
  content.length ≤ table.length ∧ ∀ (i : Nat) v, content[i]? = some v → v = 0 ∨ table[i]? = some v

/-- The effect of a program when nothing else runs and nothing goes wrong: its result (`none` is a panic) and the disk
afterwards. -/
def Prog.exec {α : Type} : Prog α → Disk → Option α × Disk
  | .done a, d => (some a, d)
  | .panic, d => (none, d)
  | .read f k, d =>
    match d.file f with
    | none => (k (.error .notFound)).exec d
    | some content => (k (.ok content)).exec d
  | .write f bytes k, d =>
    match d with
    | none => (k (.error .notFound)).exec d
    | some files => (k (.ok ())).exec (some fun g => if g = f then some bytes else files g)
  | .mkdir k, d =>
    match d with
    | none => (k (.ok ())).exec (some fun _ => none)
    | some files => (k (.ok ())).exec (some files)

end Barbarosa
