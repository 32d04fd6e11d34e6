import Verif.Model.Orientable
import Verif.Model.Visualization

/-!
# The playground

Transcription of `playground_3x3` in `main.rs`.

Simplifications. What the terminal delivers is the list of `Input`s. Writing to standard output always succeeds, except that
`flush` may report an error (which is treated like an error of reading: both leave through `?` before anything is parsed).
Messages are not modelled, only that there is one.
-/

namespace Barbarosa

/-- What `stdin().lock().lines().next()` gives, `main.rs:40`: the end of the input (`None`), an error, or a line without its end -/
inductive Input
  | eof
  | failed
  | line (s : List Char)

/-- What one round shows: a drawing, or `Error: ...` on standard error (`main.rs:46`, `55`) -/
inductive Shown
  | drawing (t : List Tok)
  | error
  deriving DecidableEq

/-- One round of the loop, `main.rs:37-49` and `54-56`; `none` is a panic (which ends the program) -/
def playgroundRound? (num : Char → Bool) (cube : Orientable Cube3) : Input → Option (Orientable Cube3 × Shown)
  | .eof => none
  | .failed => some (cube, .error)
  | .line s =>
    match (parse num s : Outcome (List ExtendedAxisMove)) with
    | .panic => none
    | .err _ => some (cube, .error)
    | .ok alg =>
      match cube.applyAlg? alg with
      | none => none
      | some cube =>
        match cube.baseCube.display? with
        | none => none
        | some t => some (cube, .drawing t)

/-- The loop, `main.rs:53-57`, for as long as there is input -/
def playgroundLoop? (num : Char → Bool) : Orientable Cube3 → List Input → Option (Orientable Cube3 × List Shown)
  | cube, [] => some (cube, [])
  | cube, i :: is =>
    match playgroundRound? num cube i with
    | none => none
    | some (cube, s) =>
      match playgroundLoop? num cube is with
      | none => none
      | some (cube, ss) => some (cube, s :: ss)

/-- `main.rs:26-58`: the cube and everything shown -/
def playground? (num : Char → Bool) (is : List Input) : Option (Orientable Cube3 × List Shown) :=
  let cube := Orientable.new Cube3.SOLVED
  match cube.baseCube.display? with
  | none => none
  | some t =>
    match playgroundLoop? num cube is with
    | none => none
    | some (cube, ss) => some (cube, .drawing t :: ss)

end Barbarosa
