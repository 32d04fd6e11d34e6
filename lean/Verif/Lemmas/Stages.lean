import Verif.Lemmas.StagesTable

/-!
# Solving in four stages: the first stage

Every cube that satisfies the three invariants can be solved in 45 moves: orient the edges (7), orient the corners and bring the
edges of the slice between U and D into it (10), bring the cube where half turns suffice (13), solve it with half turns (15). The
first stage is a table of words; what the words do is checked in the kernel for every entry, one piece at a time. The others are
searches that the kernel carries out itself (`PhaseOrient`, `PhaseSort`, `PhaseHalf`).
-/

namespace Barbarosa

open Equiv

/-! ## Words and pieces as numbers -/

def edgeStep (x n : Nat) : Nat := Nat.land (Nat.shiftRight edgeSteps (Nat.mul 5 (Nat.add (Nat.mul 24 n) x))) 31
def cornerStep (x n : Nat) : Nat := Nat.land (Nat.shiftRight cornerSteps (Nat.mul 5 (Nat.add (Nat.mul 24 n) x))) 31

theorem edgeStep_ok : ∀ n < 31, ∀ x < 24, edgeStep x n = edgeCode (moved (edgeOfCode x) (mv n)) := by decide +kernel
theorem cornerStep_ok : ∀ n < 31, ∀ x < 24, cornerStep x n = cornerCode (moved (cornerOfCode x) (mv n)) := by
  decide +kernel

/-- the code after a word -/
noncomputable def runEdge (w : List Nat) : Nat → Nat :=
  List.rec (motive := fun _ => Nat → Nat) (fun x => x) (fun n _ ih x => ih (edgeStep x n)) w
/-- the code after a word -/
noncomputable def runCorner (w : List Nat) : Nat → Nat :=
  List.rec (motive := fun _ => Nat → Nat) (fun x => x) (fun n _ ih x => ih (cornerStep x n)) w

/-- at most `k` digits of five bits, up to the first 0 -/
def unpack : Nat → Nat → List Nat
  | 0, _ => []
  | k + 1, x => cond (Nat.beq (x % 32) 0) [] ((x % 32 - 1) :: unpack k (x / 32))

/-- word number `j` of a number that packs words of at most `k` moves -/
def wordAt (k t j : Nat) : List Nat := unpack k (t >>> (5 * k * j))

theorem unpack_length (k x : Nat) : (unpack k x).length ≤ k := by
  induction k generalizing x with
  | zero => exact Nat.le_refl _
  | succ k ih =>
    unfold unpack
    cases Nat.beq (x % 32) 0 with
    | true => exact Nat.zero_le _
    | false => exact Nat.succ_le_succ (ih _)

theorem unpack_lt (k x : Nat) : ∀ n ∈ unpack k x, n < 31 := by
  induction k generalizing x with
  | zero => intro n h; cases h
  | succ k ih =>
    intro n h
    unfold unpack at h
    cases hb : Nat.beq (x % 32) 0 with
    | true => rw [hb] at h; cases h
    | false =>
      rw [hb] at h
      rcases List.mem_cons.1 h with rfl | h
      · have h1 : x % 32 < 32 := Nat.mod_lt _ (by decide)
        have h2 : x % 32 ≠ 0 := Nat.ne_of_beq_eq_false hb
        omega
      · exact ih _ n h

theorem runEdge_ok (w : List Nat) (hw : ∀ n ∈ w, n < 31) (e : Edge) :
    edgeCode (movedAlg e (w.map mv)) = runEdge w (edgeCode e) := by
  induction w generalizing e with
  | nil => rfl
  | cons n w ih =>
    have h1 := ih (fun m hm => hw m (List.mem_cons_of_mem _ hm)) (moved e (mv n))
    have h2 := edgeStep_ok n (hw n List.mem_cons_self) (edgeCode e) (edgeCode_ok e).1
    rw [(edgeCode_ok e).2] at h2
    show edgeCode (movedAlg (moved e (mv n)) (w.map mv)) = runEdge w (edgeStep (edgeCode e) n)
    rw [h1, h2]

theorem runCorner_ok (w : List Nat) (hw : ∀ n ∈ w, n < 31) (c : Corner) :
    cornerCode (movedAlg c (w.map mv)) = runCorner w (cornerCode c) := by
  induction w generalizing c with
  | nil => rfl
  | cons n w ih =>
    have h1 := ih (fun m hm => hw m (List.mem_cons_of_mem _ hm)) (moved c (mv n))
    have h2 := cornerStep_ok n (hw n List.mem_cons_self) (cornerCode c) (cornerCode_ok c).1
    rw [(cornerCode_ok c).2] at h2
    show cornerCode (movedAlg (moved c (mv n)) (w.map mv)) = runCorner w (cornerStep (cornerCode c) n)
    rw [h1, h2]

/-! ## Sets and digits -/

/-- digit `p` to the base `b` -/
def digit (b v p : Nat) : Nat := Nat.mod (Nat.div v (Nat.pow b p)) b

/-- 1 if bit `p` of the mask is set, else 0 -/
def bitOf (v p : Nat) : Nat := Nat.land (Nat.shiftRight v p) 1

theorem bitOf_eq (v p : Nat) : bitOf v p = digit 2 v p := by
  show v >>> p &&& 1 = v / 2 ^ p % 2
  rw [Nat.and_one_is_mod, Nat.shiftRight_eq_div_pow]

/-- the edges of the slice between U and D -/
def sliceE : Nat := 780
/-- the edges of the slice between R and L -/
def sliceM : Nat := 195
/-- four corners no two of which are neighbours -/
def tetrad : Nat := 105

/-- `g 0 + ... + g (n - 1)` -/
noncomputable def sumBelow (n : Nat) (g : Nat → Nat) : Nat :=
  Nat.rec (motive := fun _ => Nat) 0 (fun p acc => Nat.add (g p) acc) n

/-- `f` holds below `n` -/
noncomputable def allBelow (n : Nat) (f : Nat → Bool) : Bool :=
  Nat.rec (motive := fun _ => Bool) true (fun p acc => cond (f p) acc false) n

theorem sumBelow_eq (n : Nat) (g : Nat → Nat) : sumBelow n g = ∑ i : Fin n, g i := by
  induction n with
  | zero => rfl
  | succ n ih =>
    rw [Fin.sum_univ_castSucc]
    exact (congrArg (g n + ·) ih).trans (Nat.add_comm _ _)

theorem allBelow_spec {n : Nat} {f : Nat → Bool} (h : allBelow n f = true) {p : Nat} (hp : p < n) : f p = true := by
  induction n with
  | zero => cases hp
  | succ n ih =>
    change cond (f n) (allBelow n f) false = true at h
    cases hf : f n with
    | false => rw [hf] at h; cases h
    | true =>
      rw [hf] at h
      rcases Nat.lt_succ_iff_lt_or_eq.1 hp with hp | rfl
      · exact ih h hp
      · exact hf

/-! ## What the tables are checked for -/

noncomputable def stage1 (v : Nat) : Bool :=
  cond (Nat.beq (bitOf (sumBelow 12 (bitOf v)) 0) 1) true
    (allBelow 12 fun p => Nat.beq
      (bitOf (runEdge (wordAt 7 (stage1Words.getD (v / 64) 0) (v % 64)) (Nat.add (Nat.mul 2 p) (bitOf v p))) 0) 0)

/-- the orientation index of a corner -/
def twist (x : Nat) : Nat := Nat.land (Nat.shiftRight twistTable (Nat.mul 2 x)) 3

def fourA (i : Nat) : Nat := [0, 3, 5, 6].getD i 0
def fourB (i : Nat) : Nat := [1, 2, 4, 7].getD i 0
def fourE (i : Nat) : Nat := [2, 3, 8, 9].getD i 0
def fourM (i : Nat) : Nat := [0, 1, 6, 7].getD i 0
def fourS (i : Nat) : Nat := [4, 5, 10, 11].getD i 0

/-- permutation number `a` of four things, as digits -/
def fourAt (a : Nat) : Nat := Nat.land (Nat.shiftRight fours (Nat.mul 8 a)) 255

/-- number of exchanges that make up permutation number `a` -/
def fourLength (a : Nat) : Nat := (fourSwaps.getD a []).length

end Barbarosa
