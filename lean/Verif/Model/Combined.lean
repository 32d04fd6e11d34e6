import Verif.Model.NonRedundant

/-!
# Conversions between combined moves and face moves

Transcription of the `From` implementations at the end of `cube_n/moves/non_redundant.rs`.
-/

namespace Barbarosa

/-- `cube_n/moves/non_redundant.rs:372-376` (`From<AxisMove> for NonRedundantAxisMove`) -/
def NonRedundantAxisMove.ofMove (m : AxisMove) : NonRedundantAxisMove := .single m

/-- `cube_n/moves/non_redundant.rs:378-382` (`From<NonRedundantAxisMove> for Alg<AxisMove>`) -/
def NonRedundantAxisMove.toAlg (m : NonRedundantAxisMove) : List AxisMove := m.moves

/-- `cube_n/moves/non_redundant.rs:384-396` (`From<Alg<NonRedundantAxisMove>> for Alg<AxisMove>`): two nested loops that
push at the end of `moves` -/
def combinedToAlg (alg : List NonRedundantAxisMove) : List AxisMove :=
  alg.foldl (fun moves nr => nr.moves.foldl (fun moves m => moves ++ [m]) moves) []

end Barbarosa
