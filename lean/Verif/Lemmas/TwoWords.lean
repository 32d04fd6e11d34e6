import Verif.Lemmas.TwoTree

/-!
# Sequences of turns that can end in every attitude of the cube

On the 2x2 the turn of a face and the turn of the face opposite differ by a rotation of the whole cube. So every turn of a
sequence can be done in two ways, and the corner that is left in place by the turns of R, U, F ends up in several attitudes.
Here are sequences of five or six turns after which the corner can be in all of its 24 attitudes.
-/

namespace Barbarosa.Two

/-- one turn of the positive face of an axis -/
abbrev Letter := Axis × Amount

/-- quarter turns -/
def quarters : Amount → Nat
  | .single => 1
  | .double => 2
  | .inverse => 3

/-- the six corners at home -/
def home : List (Nat × Nat) := [(0, 0), (1, 0), (2, 0), (3, 0), (4, 0), (5, 0)]

/-- the six corners after a sequence of turns -/
def run (w : List Letter) : List (Nat × Nat) := w.foldl (fun l m => turns m.1 (quarters m.2) l) home

/-- where the rotation that makes the difference takes a corner: the codes of 24 corners, five bits each -/
def rhoTable : Letter → Nat
  | (.X, .single) => 687306780900463268245243733466193158
  | (.X, .double) => 213008441010812424006487564681400946
  | (.X, .inverse) => 430036847190820225145924704299103692
  | (.Y, .single) => 387299849738238143978660521915265454
  | (.Y, .double) => 341651258881370405042893418139108879
  | (.Y, .inverse) => 773173347677364655560116342534737029
  | (.Z, .single) => 854921804280525324028078820974466148
  | (.Z, .double) => 598921194028621233021675079671688521
  | (.Z, .inverse) => 726302538738372829012180667956502727

/-- the code of a corner after the rotation -/
def rho (m : Letter) (x : Nat) : Nat := Nat.land (Nat.shiftRight (rhoTable m) (Nat.mul 5 x)) 31

/-- the attitudes of the last corner after a sequence of turns -/
noncomputable def attitudes (w : List Letter) : List Nat :=
  List.rec (motive := fun _ => List Nat) [22] (fun m _ r => r ++ r.map (rho m)) w

/-- all 24 attitudes -/
noncomputable def allAttitudes (w : List Letter) : Bool :=
  Nat.beq ((attitudes w).foldl (fun a x => Nat.lor a (Nat.shiftLeft 1 x)) 0) 16777215

/-- a quarter turn one way or the other, or a half turn, about an axis -/
abbrev Kind := Axis × Bool

/-- the sequences of given kinds -/
def wordsOf : List Kind → List (List Letter)
  | [] => [[]]
  | (ax, true) :: k => (wordsOf k).map fun w => (ax, .double) :: w
  | (ax, false) :: k => (wordsOf k).flatMap fun w => [(ax, .single) :: w, (ax, .inverse) :: w]

/-- what the three axes can be called -/
def namings : List (Axis × Axis × Axis) :=
  [(.X, .Y, .Z), (.X, .Z, .Y), (.Y, .X, .Z), (.Y, .Z, .X), (.Z, .X, .Y), (.Z, .Y, .X)]

/-- the axes of five turns, up to naming -/
def patterns (a b c : Axis) : List (List Axis) :=
  [[a, b, a, b, a], [a, b, a, b, c], [a, b, a, c, a], [a, b, a, c, b], [a, b, c, a, b], [a, b, c, a, c], [a, b, c, b, a],
    [a, b, c, b, c]]

/-- which of five turns are half turns, and after which patterns of axes every attitude is possible -/
def halves : List (List Bool × List Bool) :=
  [([true, true, false, false, false], [true, true, true, true, true, true, true, true]),
    ([false, false, false, true, true], [true, true, true, true, true, true, true, true]),
    ([false, true, true, false, false], [true, true, true, true, false, false, true, true]),
    ([false, false, true, true, false], [true, true, true, false, false, true, true, true]),
    ([true, false, false, true, false], [false, true, false, true, true, false, true, false]),
    ([false, true, false, false, true], [false, false, false, false, true, true, true, true])]

/-- the sequences of five turns after which every attitude is possible -/
def kinds : List (List Kind) :=
  namings.flatMap fun n => halves.flatMap fun h =>
    ((patterns n.1 n.2.1 n.2.2).zip h.2).flatMap fun p => if p.2 then [p.1.zip h.1] else []

/-- a turn by its number -/
def letter : Nat → Letter
  | 0 => (.X, .single)
  | 1 => (.X, .double)
  | 2 => (.X, .inverse)
  | 3 => (.Y, .single)
  | 4 => (.Y, .double)
  | 5 => (.Y, .inverse)
  | 6 => (.Z, .single)
  | 7 => (.Z, .double)
  | _ => (.Z, .inverse)

/-- six turns by their decimal digits -/
def word6 (n : Nat) : List Letter :=
  [letter (n / 100000 % 10), letter (n / 10000 % 10), letter (n / 1000 % 10), letter (n / 100 % 10), letter (n / 10 % 10),
    letter (n % 10)]

/-- more sequences, of six turns -/
def more : List Nat :=
  [50327, 50651, 56051, 56324, 323057, 326057, 323657, 326384, 623081, 623627, 626084, 626327, 262561, 262804, 562504,
   562831, 832564, 832837, 52327, 52627, 80324, 83624, 284241, 383651, 656381, 32514, 32817, 38271, 38514, 58081, 58324,
   61374, 62574, 62817, 64071, 65271, 65817, 82384, 82624, 85084, 85624, 313273, 313840, 373246, 373840, 616246, 616516,
   646246, 646570, 31617, 37041, 37248, 40308, 40362, 40608, 40632, 41752, 41758, 52373, 52646, 58040, 58373, 71482, 71485,
   152375, 158042, 230373, 231617, 232807, 237041, 261314, 313062, 328070, 375050, 524726, 581483, 648050, 40516, 40570,
   40813, 40840, 42507, 42564, 42807, 42837, 62307, 62631, 70516, 70570, 70813, 70840, 75156, 75750, 315237, 315264, 315804,
   315837, 618231, 618264, 618504, 618564]

/-- the arrangements after one more turn of a kind -/
noncomputable def kindStep (k : Kind) (t : Tree) : Tree :=
  cond k.2 (act2 k.1 t) (union (act k.1 t digits6 fun n => n) (act2 k.1 (act k.1 t digits6 fun n => n)))

/-- the arrangements after the turns of a kind -/
noncomputable def kindEnds (ks : List Kind) : Tree :=
  List.rec (motive := fun _ => Tree → Tree) (fun t => t) (fun k _ f t => f (kindStep k t)) ks (only home)

/-- the arrangements after the sequences of five turns -/
noncomputable def ends5 : Tree :=
  List.rec (motive := fun _ => Tree) Tree.nil (fun k _ t => union (kindEnds k) t) kinds

/-- the arrangements after the sequences of six turns -/
noncomputable def ends6 : Tree :=
  List.rec (motive := fun _ => Tree) Tree.nil (fun n _ t => union (only (run (word6 n))) t) more

theorem kinds_allAttitudes : (kinds.flatMap wordsOf).all allAttitudes = true := by decide +kernel

theorem more_allAttitudes : (more.map word6).all allAttitudes = true := by decide +kernel

end Barbarosa.Two
