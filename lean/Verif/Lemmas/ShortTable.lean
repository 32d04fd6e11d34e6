import Verif.Lemmas.Solve

/-!
# All algs of at most four moves, tried in the kernel

A piece is a number, a turn is a table of numbers, and a state is a list of the numbers of twelve pieces (which is enough to tell the states
apart). `visit` tries all ordered algs and puts a key of each state that comes out into a search tree. It is written with recursors and
continuations, so that the kernel evaluates everything once.
-/

namespace Barbarosa

/-- nine times the code of a corner -/
def cornerDigit (c : Corner) : Nat := 9 * cornerCode c
/-- the codes of edges come after those of corners -/
def edgeDigit (e : Edge) : Nat := 9 * (24 + edgeCode e)

/-- a move and where it takes the pieces -/
def shortMove0 : AxisMove × Nat := (⟨⟨.X, .pos⟩, .single⟩, 9202047698843609953151803215281752522214495910748783813515156646137226681153718929080189208497672086816944878189361171591331380845)
/-- a move and where it takes the pieces -/
def shortMove1 : AxisMove × Nat := (⟨⟨.X, .pos⟩, .double⟩, 9202050679405531561474505150957848596048425775320073546095305021766294280131954589409424044944019445648092274129875520772094908579)
/-- a move and where it takes the pieces -/
def shortMove2 : AxisMove × Nat := (⟨⟨.X, .pos⟩, .inverse⟩, 9202056640529375168475868790314409217627527064831442408121589479365735934300852947880857089788188190795496505831901908843049816631)
/-- a move and where it takes the pieces -/
def shortMove3 : AxisMove × Nat := (⟨⟨.X, .neg⟩, .single⟩, 8420723196644985242181368872018078862675218783125382207869778067281085635350385012045912993138186855349992341159385942343063180289)
/-- a move and where it takes the pieces -/
def shortMove4 : AxisMove × Nat := (⟨⟨.X, .neg⟩, .double⟩, 6858050347786471476711493385790495630746781114846415189556925119227724840768301757916361348042765706305932177405074911076465513473)
/-- a move and where it takes the pieces -/
def shortMove5 : AxisMove × Nat := (⟨⟨.X, .neg⟩, .inverse⟩, 6076713923408379330335267511261316509036362938670757699141144212940321477370997150036764924419202168343431836459409775756814586881)
/-- a move and where it takes the pieces -/
def shortMove6 : AxisMove × Nat := (⟨⟨.Y, .pos⟩, .single⟩, 9202059621091297037035877237993412792063161166377758399058642460179957558604830485286548140446363190356038365474575992843284793902)
/-- a move and where it takes the pieces -/
def shortMove7 : AxisMove × Nat := (⟨⟨.Y, .pos⟩, .double⟩, 9202059621091297037035877237993416403604242030950546203050138416763870467411016345683326976422698800896663498368563442482024096392)
/-- a move and where it takes the pieces -/
def shortMove8 : AxisMove × Nat := (⟨⟨.Y, .pos⟩, .inverse⟩, 9202059621091297037035877237993411588228380298893517050586268037050032193285360855289999392649313561707665855664274618627099257983)
/-- a move and where it takes the pieces -/
def shortMove9 : AxisMove × Nat := (⟨⟨.Y, .neg⟩, .single⟩, 7639380811120309649350817796197397027656044009762044237333160547162639611402470322024865373019917220171248233575673360713519993857)
/-- a move and where it takes the pieces -/
def shortMove10 : AxisMove × Nat := (⟨⟨.Y, .neg⟩, .double⟩, 8811392899160471971928707215189577040902397374572039191648469543568653620882915152156672871376995834701978011956074343823852704769)
/-- a move and where it takes the pieces -/
def shortMove11 : AxisMove × Nat := (⟨⟨.Y, .neg⟩, .inverse⟩, 7248714089189484584243813227185992082601862906848705855152358176615750737592855367057903407073991875731134148768037830048350999553)
/-- a move and where it takes the pieces -/
def shortMove12 : AxisMove × Nat := (⟨⟨.Z, .pos⟩, .single⟩, 9202059621091297037035505126801952187047480823695153463595492092457325011038197633817249514265648220618352349465872189833531911744)
/-- a move and where it takes the pieces -/
def shortMove13 : AxisMove × Nat := (⟨⟨.Z, .pos⟩, .double⟩, 9202059621091297037035298147510838051804774833100160339484150654615184185676799453195422236376753112450839875825952345822751405650)
/-- a move and where it takes the pieces -/
def shortMove14 : AxisMove × Nat := (⟨⟨.Z, .pos⟩, .inverse⟩, 9202059621091297037035422399590155107671159796633790148540147985747346914844842859770540981891348824362321587869468589561528989733)
/-- a move and where it takes the pieces -/
def shortMove15 : AxisMove × Nat := (⟨⟨.Z, .neg⟩, .single⟩, 9202059621071410558771244777564325705363505654619027800936501922371449987528619775465013873485892184487109413069348245688090891265)
/-- a move and where it takes the pieces -/
def shortMove16 : AxisMove × Nat := (⟨⟨.Z, .neg⟩, .double⟩, 9202059621085612088015795904795250655340543187341361068180835492218149695097893126868516892969126003528097542323063348173814371329)
/-- a move and where it takes the pieces -/
def shortMove17 : AxisMove × Nat := (⟨⟨.Z, .neg⟩, .inverse⟩, 9202059621042985813670838119778551929383679518699517635915072396382520111670357336686311050030175895807970834204602929815768273921)

/-- all moves -/
def shortMoves : List (AxisMove × Nat) := [shortMove0, shortMove1, shortMove2, shortMove3, shortMove4, shortMove5, shortMove6, shortMove7, shortMove8, shortMove9, shortMove10, shortMove11, shortMove12, shortMove13, shortMove14, shortMove15, shortMove16, shortMove17]

/-- the moves that may follow a move of this face in an ordered alg -/
def shortAfter : Face → List (AxisMove × Nat)
  | ⟨.X, .pos⟩ => [shortMove6, shortMove7, shortMove8, shortMove9, shortMove10, shortMove11, shortMove12, shortMove13, shortMove14, shortMove15, shortMove16, shortMove17]
  | ⟨.X, .neg⟩ => [shortMove0, shortMove1, shortMove2, shortMove6, shortMove7, shortMove8, shortMove9, shortMove10, shortMove11, shortMove12, shortMove13, shortMove14, shortMove15, shortMove16, shortMove17]
  | ⟨.Y, .pos⟩ => [shortMove0, shortMove1, shortMove2, shortMove3, shortMove4, shortMove5, shortMove12, shortMove13, shortMove14, shortMove15, shortMove16, shortMove17]
  | ⟨.Y, .neg⟩ => [shortMove0, shortMove1, shortMove2, shortMove3, shortMove4, shortMove5, shortMove6, shortMove7, shortMove8, shortMove12, shortMove13, shortMove14, shortMove15, shortMove16, shortMove17]
  | ⟨.Z, .pos⟩ => [shortMove0, shortMove1, shortMove2, shortMove3, shortMove4, shortMove5, shortMove6, shortMove7, shortMove8, shortMove9, shortMove10, shortMove11]
  | ⟨.Z, .neg⟩ => [shortMove0, shortMove1, shortMove2, shortMove3, shortMove4, shortMove5, shortMove6, shortMove7, shortMove8, shortMove9, shortMove10, shortMove11, shortMove12, shortMove13, shortMove14]

/-- the half turns -/
def shortHalfMoves : List (AxisMove × Nat) := [shortMove1, shortMove4, shortMove7, shortMove10, shortMove13, shortMove16]

/-- the half turns that may follow a move of this face in an ordered alg -/
def shortHalfAfter : Face → List (AxisMove × Nat)
  | ⟨.X, .pos⟩ => [shortMove7, shortMove10, shortMove13, shortMove16]
  | ⟨.X, .neg⟩ => [shortMove1, shortMove7, shortMove10, shortMove13, shortMove16]
  | ⟨.Y, .pos⟩ => [shortMove1, shortMove4, shortMove13, shortMove16]
  | ⟨.Y, .neg⟩ => [shortMove1, shortMove4, shortMove7, shortMove13, shortMove16]
  | ⟨.Z, .pos⟩ => [shortMove1, shortMove4, shortMove7, shortMove10]
  | ⟨.Z, .neg⟩ => [shortMove1, shortMove4, shortMove7, shortMove10, shortMove13]

/-- a state as numbers -/
def shortDigits (c : Cube3) : List Nat :=
  [cornerDigit (c.corners 1), cornerDigit (c.corners 2), cornerDigit (c.corners 3), cornerDigit (c.corners 4), cornerDigit (c.corners 5), edgeDigit (c.edges 1), edgeDigit (c.edges 2), edgeDigit (c.edges 3), edgeDigit (c.edges 4), edgeDigit (c.edges 5), edgeDigit (c.edges 7), edgeDigit (c.edges 8)]

/-- a tree for searching -/
inductive KeyTree
  | leaf
  | node (l : KeyTree) (k : Nat) (r : KeyTree)

/-- put a key into the tree -/
noncomputable def KeyTree.insertK (x : Nat) (t : KeyTree) : (KeyTree → Nat) → Nat :=
  KeyTree.rec (motive := fun _ => (KeyTree → Nat) → Nat)
    (fun k => k (.node .leaf x .leaf))
    (fun l a r il ir k =>
      Bool.rec
        (Bool.rec (k (.node l a r)) (ir fun r' => k (.node l a r')) (Nat.blt a x))
        (il fun l' => k (.node l' a r)) (Nat.blt x a)) t

/-- how many keys there are -/
noncomputable def KeyTree.size (t : KeyTree) : Nat :=
  KeyTree.rec (motive := fun _ => Nat) 0 (fun _ _ _ a b => Nat.succ (Nat.add a b)) t

/-- evaluates a number and goes on with its predecessor -/
noncomputable def forceK (x : Nat) (k : Nat → Nat) : Nat := Nat.rec (motive := fun _ => Nat) (k 0) (fun n _ => k n) x

/-- a turn of all pieces -/
noncomputable def shortStepK (t : Nat) (l : List Nat) : (List Nat → Nat) → Nat :=
  List.rec (motive := fun _ => (List Nat → Nat) → Nat) (fun k => k [])
    (fun p _ ih k => forceK (Nat.mod (Nat.shiftRight t p) 512) fun q => ih fun qs => k (q :: qs)) l

/-- the key of the state after a turn, plus one -/
noncomputable def shortKey (t : Nat) (l : List Nat) : Nat → Nat :=
  List.rec (motive := fun _ => Nat → Nat) (fun acc => acc)
    (fun p _ ih acc => ih (Nat.add (Nat.mul acc 512) (Nat.mod (Nat.shiftRight t p) 512))) l

/-- try all ordered algs of at most this many moves that begin with one of these moves -/
noncomputable def shortVisit (after : Face → List (AxisMove × Nat)) (n : Nat) :
    List (AxisMove × Nat) → List Nat → KeyTree → (KeyTree → Nat) → Nat :=
  Nat.rec (motive := fun _ => List (AxisMove × Nat) → List Nat → KeyTree → (KeyTree → Nat) → Nat)
    (fun _ _ t k => k t)
    (fun n ih ms l => List.rec (motive := fun _ => KeyTree → (KeyTree → Nat) → Nat) (fun t k => k t)
      (fun m _ loop t k =>
        forceK (shortKey m.2 l 0) fun x => t.insertK x fun t' =>
          Nat.rec (motive := fun _ => Nat) (loop t' k)
            (fun _ _ => shortStepK m.2 l fun l' => ih (after m.1.face) l' t' fun t'' => loop t'' k) n) ms) n

/-- one if the key is in the tree -/
noncomputable def KeyTree.lookup (x : Nat) (t : KeyTree) : Nat :=
  KeyTree.rec (motive := fun _ => Nat) 0
    (fun _ a _ il ir => Bool.rec (Bool.rec 1 ir (Nat.blt a x)) il (Nat.blt x a)) t

/-- how many ordered algs of at most this many moves, beginning with one of these moves, lead to a state in the tree -/
noncomputable def shortFind (after : Face → List (AxisMove × Nat)) (t : KeyTree) (n : Nat) : List (AxisMove × Nat) → List Nat → Nat :=
  Nat.rec (motive := fun _ => List (AxisMove × Nat) → List Nat → Nat)
    (fun _ _ => 0)
    (fun n ih ms l => List.rec (motive := fun _ => Nat) 0
      (fun m _ loop =>
        forceK (shortKey m.2 l 0) fun x => Nat.add (t.lookup x) (Nat.add
          (Nat.rec (motive := fun _ => Nat) 0 (fun _ _ => shortStepK m.2 l fun l' => ih (after m.1.face) l') n) loop)) ms) n

/-- the solved state as numbers -/
def shortStart : List Nat := [36, 63, 90, 117, 144, 234, 252, 270, 288, 306, 342, 360]

theorem shortStart_eq : shortDigits Cube3.SOLVED = shortStart := by decide +kernel

/-- the key of a state, plus one -/
noncomputable def shortKeyOf (l : List Nat) : Nat → Nat :=
  List.rec (motive := fun _ => Nat → Nat) (fun acc => acc)
    (fun p _ ih acc => ih (Nat.add (Nat.mul acc 512) (Nat.succ p))) l

/-- the state after the first move as numbers -/
def shortR : List Nat := [36, 18, 90, 180, 144, 234, 288, 270, 360, 306, 342, 396]

theorem shortR_eq : shortDigits (movedAlg Cube3.SOLVED ([⟨⟨.X, .pos⟩, .single⟩] : List AxisMove)) = shortR := by decide +kernel

/-- how many states after at most four moves are in the tree -/
noncomputable def shortInTree (t : KeyTree) : Nat :=
  forceK (shortKeyOf shortStart 0) fun y => Nat.add (t.lookup y) (shortFind shortAfter t 4 shortMoves shortStart)

/-- the same, if the tree has this size -/
noncomputable def shortJudge (t : KeyTree) : Nat := Bool.rec 0 (shortInTree t) (Nat.beq t.size 3502)

/-- The states after `R` and at most three moves are put into a tree, and the states after at most four moves are looked up. -/
noncomputable def shortQuarter : Nat :=
  forceK (shortKeyOf shortR 0) fun x => shortVisit shortAfter 3 shortMoves shortR (.node .leaf x .leaf) shortJudge

/-- how many states are at most four half turns from solved, as far as the twelve pieces go -/
noncomputable def shortHalf : Nat :=
  forceK (shortKeyOf shortStart 0) fun x => shortVisit shortHalfAfter 4 shortHalfMoves shortStart (.node .leaf x .leaf) KeyTree.size

set_option maxRecDepth 100000 in
theorem shortHalf_eq : shortHalf = 673 := by decide +kernel

set_option maxRecDepth 100000 in
theorem shortQuarter_eq : shortQuarter = 3502 := by decide +kernel

end Barbarosa
