import Verif.Spec.Search

/-!
# Which of several solutions comes first
-/

namespace Barbarosa

section
variable {C M : Type}

/-- The walk from `c` that takes at each state the successor with the given place in the list of successors; `none` if there
is no such successor -/
def walkAlong (succ : C → List (C × M)) : C → List Nat → Option (List (C × M))
  | _, [] => some []
  | c, i :: is =>
    match (succ c)[i]? with
    | none => none
    | some s => (walkAlong succ s.1 is).map (s :: ·)

/-- `a` comes before `b` in the order of a dictionary, or is the same or a beginning of it -/
def NotAfter : List Nat → List Nat → Prop
  | [], _ => True
  | _ :: _, [] => False
  | i :: is, j :: js => i < j ∨ i = j ∧ NotAfter is js

instance instDecidableNotAfter : ∀ a b : List Nat, Decidable (NotAfter a b)
  | [], _ => isTrue trivial
  | _ :: _, [] => isFalse id
  | i :: is, j :: js =>
    have := instDecidableNotAfter is js
    inferInstanceAs (Decidable (i < j ∨ i = j ∧ NotAfter is js))

end

end Barbarosa
