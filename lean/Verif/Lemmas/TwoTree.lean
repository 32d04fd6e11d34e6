import Verif.Lemmas.CrossBits
import Mathlib.Tactic.IntervalCases

/-!
# Sets of arrangements of six corners, as trees

An arrangement of the corners of the 2x2 is described by where six of them are and how they are twisted, when the last corner
is in its place: six places `0..6`, six twists `0..2`. A set of arrangements is a tree that branches seven ways by the place of
one corner after the other; a leaf is a number whose bits are the 729 twists. One turn of a face moves the branches around and
shifts the leaves. All functions that the kernel evaluates are written with recursors.
-/

namespace Barbarosa.Two

/-- a set of arrangements -/
inductive Tree
  | nil
  | leaf (n : Nat)
  | node (a b c d e f g : Tree)

/-- the weight of one of the six twists, and the twists where it is 0, 0 or 1, 1 or 2, 2 -/
structure Digit where
  (w m0 m01 m12 m2 : Nat)

/-- twist by 1 -/
def tw1 (d : Digit) (n : Nat) : Nat :=
  Nat.lor (Nat.shiftLeft (Nat.land n d.m01) d.w) (Nat.shiftRight (Nat.land n d.m2) (Nat.mul 2 d.w))

/-- twist by 2 -/
def tw2 (d : Digit) (n : Nat) : Nat :=
  Nat.lor (Nat.shiftLeft (Nat.land n d.m0) (Nat.mul 2 d.w)) (Nat.shiftRight (Nat.land n d.m12) d.w)

/-- the twists whose digit `k` is 0 -/
def zeros (k : Nat) : Nat := Bits.spread (2 ^ 3 ^ k - 1) (3 * 3 ^ k) (3 ^ (5 - k))

/-- digit `k` -/
def digit (k : Nat) : Digit :=
  ⟨3 ^ k, zeros k, Nat.lor (zeros k) (Nat.shiftLeft (zeros k) (3 ^ k)),
    Nat.lor (Nat.shiftLeft (zeros k) (3 ^ k)) (Nat.shiftLeft (zeros k) (2 * 3 ^ k)), Nat.shiftLeft (zeros k) (2 * 3 ^ k)⟩

/-- the six digits -/
def digits6 : List Digit := [digit 0, digit 1, digit 2, digit 3, digit 4, digit 5]

/-- where a quarter turn of the positive face of an axis takes a place -/
def dest : Axis → Nat → Nat
  | .X, x => match x with | 0 => 4 | 2 => 0 | 4 => 6 | 6 => 2 | x => x
  | .Y, x => match x with | 0 => 1 | 1 => 5 | 5 => 4 | 4 => 0 | x => x
  | .Z, x => match x with | 0 => 2 | 2 => 3 | 3 => 1 | 1 => 0 | x => x

/-- how it twists what is there -/
def tw : Axis → Nat → Nat
  | .X, x => match x with | 0 => 2 | 2 => 1 | 4 => 1 | 6 => 2 | _ => 0
  | .Y, _ => 0
  | .Z, x => match x with | 0 => 1 | 1 => 2 | 2 => 2 | 3 => 1 | _ => 0

/-- a quarter turn of a set; `h` are the twists from the corners before -/
noncomputable def act (ax : Axis) (t : Tree) : List Digit → (Nat → Nat) → Tree :=
  Tree.rec (motive := fun _ => List Digit → (Nat → Nat) → Tree) (fun _ _ => Tree.nil) (fun n _ h => .leaf (h n))
    (fun _ _ _ _ _ _ _ a b c d e f g l h => List.rec (motive := fun _ => Tree) Tree.nil (fun p l _ =>
      Axis.rec (motive := fun _ => Tree)
        (.node (c l fun n => tw1 p (h n)) (b l h) (g l fun n => tw2 p (h n)) (d l h) (a l fun n => tw2 p (h n)) (f l h)
          (e l fun n => tw1 p (h n)))
        (.node (e l h) (a l h) (c l h) (d l h) (f l h) (b l h) (g l h))
        (.node (b l fun n => tw2 p (h n)) (d l fun n => tw1 p (h n)) (a l fun n => tw1 p (h n)) (c l fun n => tw2 p (h n))
          (e l h) (f l h) (g l h)) ax) l) t

/-- a half turn of a set; it does not twist -/
noncomputable def act2 (ax : Axis) (t : Tree) : Tree :=
  Tree.rec (motive := fun _ => Tree) Tree.nil (fun n => .leaf n)
    (fun _ _ _ _ _ _ _ a b c d e f g => Axis.rec (motive := fun _ => Tree)
      (.node g b e d c f a) (.node f e c d b a g) (.node d c b a e f g) ax) t

/-- the union of two sets -/
noncomputable def union (s : Tree) : Tree → Tree :=
  Tree.rec (motive := fun _ => Tree → Tree) (fun t => t)
    (fun n t => Tree.rec (motive := fun _ => Tree) (.leaf n) (fun m => .leaf (Nat.lor n m))
      (fun _ _ _ _ _ _ _ _ _ _ _ _ _ _ => .leaf n) t)
    (fun a0 b0 c0 d0 e0 f0 g0 a b c d e f g t => Tree.rec (motive := fun _ => Tree) (.node a0 b0 c0 d0 e0 f0 g0)
      (fun _ => .node a0 b0 c0 d0 e0 f0 g0)
      (fun a' b' c' d' e' f' g' _ _ _ _ _ _ _ => .node (a a') (b b') (c c') (d d') (e e') (f f') (g g')) t) s

/-- the set with its three turns about one axis -/
noncomputable def faceStep (ax : Axis) (t : Tree) : Tree :=
  union (union t (act ax t digits6 fun n => n)) (act2 ax (union t (act ax t digits6 fun n => n)))

/-- the set with everything one turn away -/
noncomputable def step (t : Tree) : Tree := union (faceStep .X t) (union (faceStep .Y t) (faceStep .Z t))

/-- `n` steps -/
noncomputable def steps (n : Nat) (t : Tree) : Tree := Nat.rec t (fun _ t => step t) n

/-- is a place not used yet? -/
def free (used x : Nat) : Bool := Nat.beq (Nat.land (Nat.shiftRight used x) 1) 0

/-- every arrangement of the corners over the places not used yet is in the set -/
noncomputable def full (t : Tree) : Nat → Bool :=
  Tree.rec (motive := fun _ => Nat → Bool) (fun _ => false) (fun n _ => Nat.beq n (2 ^ 729 - 1))
    (fun _ _ _ _ _ _ _ a b c d e f g u =>
      and (cond (free u 0) (a (Nat.lor u 1)) true) (and (cond (free u 1) (b (Nat.lor u 2)) true)
        (and (cond (free u 2) (c (Nat.lor u 4)) true) (and (cond (free u 3) (d (Nat.lor u 8)) true)
          (and (cond (free u 4) (e (Nat.lor u 16)) true) (and (cond (free u 5) (f (Nat.lor u 32)) true)
            (cond (free u 6) (g (Nat.lor u 64)) true))))))) t

/-- the set with one arrangement: its places and its twists -/
def single : List Nat → Nat → Tree
  | [], o => .leaf (Nat.shiftLeft 1 o)
  | x :: xs, o =>
    match x with
    | 0 => .node (single xs o) .nil .nil .nil .nil .nil .nil
    | 1 => .node .nil (single xs o) .nil .nil .nil .nil .nil
    | 2 => .node .nil .nil (single xs o) .nil .nil .nil .nil
    | 3 => .node .nil .nil .nil (single xs o) .nil .nil .nil
    | 4 => .node .nil .nil .nil .nil (single xs o) .nil .nil
    | 5 => .node .nil .nil .nil .nil .nil (single xs o) .nil
    | 6 => .node .nil .nil .nil .nil .nil .nil (single xs o)
    | _ => .nil

/-! ## What they mean -/

/-- a branch -/
def Tree.get : Tree → Nat → Tree
  | .node a b c d e f g, x =>
    match x with | 0 => a | 1 => b | 2 => c | 3 => d | 4 => e | 5 => f | 6 => g | _ => .nil
  | _, _ => .nil

/-- a bit of a leaf -/
def Tree.bit : Tree → Nat → Bool
  | .leaf n, o => n.testBit o
  | _, _ => false

/-- does an arrangement belong to the set? -/
def Tree.mem : Tree → List Nat → Nat → Bool
  | t, [], o => t.bit o
  | t, x :: xs, o => (t.get x).mem xs o

/-- all leaves are at the same depth -/
def Tree.Depth : Tree → Nat → Prop
  | .nil, _ => True
  | .leaf _, n => n = 0
  | .node _ _ _ _ _ _ _, 0 => False
  | .node a b c d e f g, n + 1 => a.Depth n ∧ b.Depth n ∧ c.Depth n ∧ d.Depth n ∧ e.Depth n ∧ f.Depth n ∧ g.Depth n

/-- the number with given digits to the base 3 -/
def code3 : List Nat → Nat
  | [] => 0
  | x :: l => x + 3 * code3 l

/-- one corner after a quarter turn -/
def turn1 (ax : Axis) (p : Nat × Nat) : Nat × Nat := (dest ax p.1, (p.2 + tw ax p.1) % 3)

/-- the corners after a quarter turn -/
def turn (ax : Axis) (l : List (Nat × Nat)) : List (Nat × Nat) := l.map (turn1 ax)

/-- places and twists that there are -/
def Fine (l : List (Nat × Nat)) : Prop := ∀ p ∈ l, p.1 < 7 ∧ p.2 < 3

/-- does an arrangement, given by place and twist of every corner, belong to the set? -/
def Mem (t : Tree) (l : List (Nat × Nat)) : Prop := t.mem (l.map Prod.fst) (code3 (l.map Prod.snd)) = true

/-! ### Leaves -/

theorem testBit_zeros {k : Nat} (hk : k < 6) (i : Nat) : (zeros k).testBit i = true ↔ i < 729 ∧ i / 3 ^ k % 3 = 0 := by
  unfold zeros
  rw [Bits.testBit_spread]
  simp only [Nat.testBit_two_pow_sub_one, decide_eq_true_eq]
  interval_cases k
  all_goals
    norm_num only
    constructor
    · rintro ⟨x, h1, h2, h3⟩; omega
    · rintro ⟨h1, h2⟩
      first
        | exact ⟨i / 3, by omega, by omega, by omega⟩
        | exact ⟨i / 9, by omega, by omega, by omega⟩
        | exact ⟨i / 27, by omega, by omega, by omega⟩
        | exact ⟨i / 81, by omega, by omega, by omega⟩
        | exact ⟨i / 243, by omega, by omega, by omega⟩

theorem testBit_tw1 {k : Nat} (hk : k < 6) (n : Nat) {lo o r : Nat} (hlo : lo < 3 ^ k) (ho : o < 3)
    (hi : lo + 3 ^ k * (o + 3 * r) < 729) :
    (tw1 (digit k) n).testBit (lo + 3 ^ k * ((o + 1) % 3 + 3 * r)) = n.testBit (lo + 3 ^ k * (o + 3 * r)) := by
  have z := fun i => testBit_zeros hk i
  show (((n &&& (zeros k ||| zeros k <<< 3 ^ k)) <<< 3 ^ k) ||| ((n &&& zeros k <<< (2 * 3 ^ k)) >>> (2 * 3 ^ k))).testBit _ = _
  rw [Bool.eq_iff_iff]
  simp only [Nat.testBit_or, Nat.testBit_and, Nat.testBit_shiftLeft, Nat.testBit_shiftRight, Bool.or_eq_true, Bool.and_eq_true,
    decide_eq_true_eq, z]
  generalize hj : lo + 3 ^ k * ((o + 1) % 3 + 3 * r) = j
  generalize hi' : lo + 3 ^ k * (o + 3 * r) = i at *
  by_cases h : o < 2
  · have e : j - 3 ^ k = i := by interval_cases k <;> norm_num only at * <;> omega
    rw [e]
    have h1 : (i < 729 ∧ i / 3 ^ k % 3 = 0) ∨ i ≥ 3 ^ k ∧ i - 3 ^ k < 729 ∧ (i - 3 ^ k) / 3 ^ k % 3 = 0 := by
      interval_cases k <;> norm_num only at * <;> omega
    have h2 : j ≥ 3 ^ k := by interval_cases k <;> norm_num only at * <;> omega
    have h3 : ¬ ((2 * 3 ^ k + j - 2 * 3 ^ k) / 3 ^ k % 3 = 0) := by interval_cases k <;> norm_num only at * <;> omega
    tauto
  · have e : 2 * 3 ^ k + j = i := by interval_cases k <;> norm_num only at * <;> omega
    rw [e]
    have h1 : i ≥ 2 * 3 ^ k ∧ i - 2 * 3 ^ k < 729 ∧ (i - 2 * 3 ^ k) / 3 ^ k % 3 = 0 := by
      interval_cases k <;> norm_num only at * <;> omega
    have h2 : ¬ (j ≥ 3 ^ k ∧ ((j - 3 ^ k < 729 ∧ (j - 3 ^ k) / 3 ^ k % 3 = 0) ∨
        j - 3 ^ k ≥ 3 ^ k ∧ j - 3 ^ k - 3 ^ k < 729 ∧ (j - 3 ^ k - 3 ^ k) / 3 ^ k % 3 = 0)) := by
      interval_cases k <;> norm_num only at * <;> omega
    tauto

/-- the digit at a place, with room below and above -/
theorem digit_at {w lo q : Nat} (hlo : lo < w) : (lo + w * q) / w = q := by
  rw [Nat.add_mul_div_left _ _ (by omega), Nat.div_eq_of_lt hlo, Nat.zero_add]

theorem testBit_tw2 {k : Nat} (hk : k < 6) (n : Nat) {lo o r : Nat} (hlo : lo < 3 ^ k) (ho : o < 3)
    (hi : lo + 3 ^ k * (o + 3 * r) < 729) :
    (tw2 (digit k) n).testBit (lo + 3 ^ k * ((o + 2) % 3 + 3 * r)) = n.testBit (lo + 3 ^ k * (o + 3 * r)) := by
  have z := fun i => testBit_zeros hk i
  show (((n &&& zeros k) <<< (2 * 3 ^ k)) ||| ((n &&& (zeros k <<< 3 ^ k ||| zeros k <<< (2 * 3 ^ k))) >>> 3 ^ k)).testBit _ = _
  rw [Bool.eq_iff_iff]
  simp only [Nat.testBit_or, Nat.testBit_and, Nat.testBit_shiftLeft, Nat.testBit_shiftRight, Bool.or_eq_true, Bool.and_eq_true,
    decide_eq_true_eq, z]
  generalize 3 ^ k = w at *
  have d := fun q => digit_at (q := q) hlo
  by_cases h : o = 0
  · subst h
    have e1 : lo + w * ((0 + 2) % 3 + 3 * r) = lo + w * (0 + 3 * r) + 2 * w := by ring
    have e2 : w + (lo + w * (0 + 3 * r) + 2 * w) - w = lo + w * (2 + 3 * r) := by
      rw [show w + (lo + w * (0 + 3 * r) + 2 * w) = lo + w * (2 + 3 * r) + w by ring, Nat.add_sub_cancel]
    have e3 : w + (lo + w * (0 + 3 * r) + 2 * w) - 2 * w = lo + w * (1 + 3 * r) := by
      rw [show w + (lo + w * (0 + 3 * r) + 2 * w) = lo + w * (1 + 3 * r) + 2 * w by ring, Nat.add_sub_cancel]
    rw [e1, Nat.add_sub_cancel, e2, e3, d, d, d]
    have h1 : (0 + 3 * r) % 3 = 0 := by omega
    have h2 : (2 + 3 * r) % 3 ≠ 0 := by omega
    have h3 : (1 + 3 * r) % 3 ≠ 0 := by omega
    have h4 : lo + w * (0 + 3 * r) + 2 * w ≥ 2 * w := Nat.le_add_left _ _
    tauto
  · obtain ⟨v, rfl⟩ : ∃ v, o = v + 1 := ⟨o - 1, by omega⟩
    have e0 : (v + 1 + 2) % 3 = v := by omega
    rw [e0]
    have e1 : w + (lo + w * (v + 3 * r)) = lo + w * (v + 1 + 3 * r) := by ring
    have e2 : lo + w * (v + 1 + 3 * r) - w = lo + w * (v + 3 * r) := by
      rw [show lo + w * (v + 1 + 3 * r) = lo + w * (v + 3 * r) + w by ring, Nat.add_sub_cancel]
    rw [e1, e2, d]
    have hv : v = 0 ∨ v = 1 := by omega
    rcases hv with rfl | rfl
    · have h1 : (0 + 3 * r) % 3 = 0 := by omega
      have h2 : lo + w * (0 + 1 + 3 * r) ≥ w := by
        rw [show lo + w * (0 + 1 + 3 * r) = lo + w * (3 * r) + w by ring]; exact Nat.le_add_left _ _
      have h3 : ¬ (lo + w * (0 + 3 * r) ≥ 2 * w ∧ (lo + w * (0 + 3 * r) - 2 * w) / w % 3 = 0) := by
        rintro ⟨a, b⟩
        rcases r with _ | r
        · omega
        · rw [show lo + w * (0 + 3 * (r + 1)) = lo + w * (1 + 3 * r) + 2 * w by ring, Nat.add_sub_cancel, d] at b
          omega
      have h4 : lo + w * (0 + 3 * r) < 729 := by
        rw [show lo + w * (0 + 1 + 3 * r) = lo + w * (0 + 3 * r) + w by ring] at hi; omega
      tauto
    · have e3 : lo + w * (1 + 1 + 3 * r) - 2 * w = lo + w * (0 + 3 * r) := by
        rw [show lo + w * (1 + 1 + 3 * r) = lo + w * (0 + 3 * r) + 2 * w by ring, Nat.add_sub_cancel]
      rw [e3, d]
      have h1 : (0 + 3 * r) % 3 = 0 := by omega
      have h2 : lo + w * (1 + 1 + 3 * r) ≥ 2 * w := by
        rw [show lo + w * (1 + 1 + 3 * r) = lo + w * (3 * r) + 2 * w by ring]; exact Nat.le_add_left _ _
      have h3 : ¬ (lo + w * (1 + 3 * r) ≥ 2 * w ∧ (lo + w * (1 + 3 * r) - 2 * w) / w % 3 = 0) := by
        rintro ⟨a, b⟩
        rcases r with _ | r
        · rw [show lo + w * (1 + 3 * 0) = lo + w by ring] at a; omega
        · rw [show lo + w * (1 + 3 * (r + 1)) = lo + w * (2 + 3 * r) + 2 * w by ring, Nat.add_sub_cancel, d] at b
          omega
      have h4 : lo + w * (0 + 3 * r) < 729 := by
        rw [show lo + w * (1 + 1 + 3 * r) = lo + w * (0 + 3 * r) + 2 * w by ring] at hi; omega
      tauto

/-! ### Turns -/

/-- the twists after one more corner -/
def twist (p : Digit) (h : Nat → Nat) : Nat → Nat → Nat
  | 0 => h
  | 1 => fun n => tw1 p (h n)
  | _ => fun n => tw2 p (h n)

theorem get_act (ax : Axis) (t : Tree) (p : Digit) (l : List Digit) (h : Nat → Nat) {x : Nat} (hx : x < 7) :
    (act ax t (p :: l) h).get (dest ax x) = act ax (t.get x) l (twist p h (tw ax x)) := by
  rcases t with _ | n | ⟨a, b, c, d, e, f, g⟩
  · rfl
  · rfl
  · cases ax <;> interval_cases x <;> rfl

theorem get_act2 (ax : Axis) (t : Tree) {x : Nat} (hx : x < 7) :
    (act2 ax t).get (dest ax (dest ax x)) = act2 ax (t.get x) := by
  rcases t with _ | n | ⟨a, b, c, d, e, f, g⟩
  · rfl
  · rfl
  · cases ax <;> interval_cases x <;> rfl

theorem mem_act_go (ax : Axis) (xs : List (Nat × Nat)) (hf : Fine xs) (t : Tree) (k : Nat) (ds : List Digit)
    (hds : ds = (List.range' k xs.length).map digit) (hk : k + xs.length = 6) (lo : Nat) (hlo : lo < 3 ^ k) (h : Nat → Nat) (c : Nat)
    (hh : ∀ n, (h n).testBit (lo + 3 ^ k * code3 (xs.map Prod.snd)) = n.testBit c) :
    (act ax t ds h).mem ((turn ax xs).map Prod.fst) (lo + 3 ^ k * code3 ((turn ax xs).map Prod.snd)) =
      t.mem (xs.map Prod.fst) c := by
  induction xs generalizing t k ds lo h with
  | nil =>
    subst hds
    rcases t with _ | n | ⟨a', b', c', d', e', f', g'⟩
    · rfl
    · exact hh n
    · rfl
  | cons p xs ih =>
    obtain ⟨hp, hf'⟩ := List.forall_mem_cons.1 hf
    subst hds
    have hlen : k + 1 + xs.length = 6 := by simpa [Nat.add_assoc, Nat.add_comm 1] using hk
    have hk6 : k < 6 := by omega
    have htw : tw ax p.1 < 3 := by
      have := hp.1
      generalize p.1 = x at *
      cases ax <;> interval_cases x <;> decide
    have hC : ∀ ys : List (Nat × Nat), Fine ys → code3 (ys.map Prod.snd) < 3 ^ ys.length := by
      intro ys hys
      induction ys with
      | nil => simp [code3]
      | cons q ys ih' =>
        obtain ⟨hq, hys'⟩ := List.forall_mem_cons.1 hys
        have := ih' hys'
        simp only [List.map_cons, code3, List.length_cons, Nat.pow_succ]
        omega
    have hb : lo + 3 ^ k * (p.2 + 3 * code3 (xs.map Prod.snd)) < 729 := by
      have h1 := hC _ hf
      simp only [List.map_cons, code3] at h1
      calc lo + 3 ^ k * (p.2 + 3 * code3 (xs.map Prod.snd)) < 3 ^ k + 3 ^ k * (p.2 + 3 * code3 (xs.map Prod.snd)) := by omega
        _ = 3 ^ k * (p.2 + 3 * code3 (xs.map Prod.snd) + 1) := by ring
        _ ≤ 3 ^ k * 3 ^ (p :: xs).length := Nat.mul_le_mul_left _ h1
        _ = 3 ^ 6 := by rw [← Nat.pow_add, hk]
    have e : ∀ v C, lo + 3 ^ k * (v + 3 * C) = (lo + 3 ^ k * v) + 3 ^ (k + 1) * C := fun v C => by ring
    show ((act ax t (digit k :: (List.range' (k + 1) xs.length).map digit) h).get (dest ax p.1)).mem ((turn ax xs).map Prod.fst)
      (lo + 3 ^ k * ((p.2 + tw ax p.1) % 3 + 3 * code3 ((turn ax xs).map Prod.snd))) = (t.get p.1).mem (xs.map Prod.fst) c
    rw [get_act ax t _ _ h hp.1, e]
    refine ih hf' (t.get p.1) (k + 1) _ rfl hlen _ ?_ _ ?_
    · have h1 : (p.2 + tw ax p.1) % 3 ≤ 2 := by omega
      have h2 := Nat.mul_le_mul_left (3 ^ k) h1
      rw [Nat.pow_succ]
      omega
    · intro n
      rw [← e, ← hh n]
      show _ = (h n).testBit (lo + 3 ^ k * (p.2 + 3 * code3 (xs.map Prod.snd)))
      have h3 : tw ax p.1 = 0 ∨ tw ax p.1 = 1 ∨ tw ax p.1 = 2 := by omega
      rcases h3 with h3 | h3 | h3 <;> rw [h3]
      · rw [Nat.add_zero, Nat.mod_eq_of_lt hp.2]; rfl
      · exact testBit_tw1 hk6 (h n) hlo hp.2 hb
      · exact testBit_tw2 hk6 (h n) hlo hp.2 hb

/-- a quarter turn of a set holds the turned arrangements -/
theorem mem_act (ax : Axis) (t : Tree) {l : List (Nat × Nat)} (hl : l.length = 6) (hf : Fine l) :
    Mem (act ax t digits6 fun n => n) (turn ax l) ↔ Mem t l := by
  have h := mem_act_go ax l hf t 0 digits6 (by rw [hl]; rfl) (by omega) 0 (by decide) (fun n => n) (code3 (l.map Prod.snd))
    (fun n => by rw [Nat.pow_zero, Nat.zero_add, Nat.one_mul])
  rw [Nat.pow_zero, Nat.zero_add, Nat.one_mul] at h
  unfold Mem
  rw [h]

theorem turn1_fine {ax : Axis} {p : Nat × Nat} (h : p.1 < 7 ∧ p.2 < 3) : (turn1 ax p).1 < 7 ∧ (turn1 ax p).2 < 3 := by
  obtain ⟨x, o⟩ := p
  obtain ⟨h1, h2⟩ := h
  simp only at h1 h2
  cases ax <;> interval_cases x <;> exact ⟨by decide +revert, Nat.mod_lt _ (by decide)⟩

theorem turn1_twice {ax : Axis} {p : Nat × Nat} (h : p.1 < 7 ∧ p.2 < 3) :
    turn1 ax (turn1 ax p) = (dest ax (dest ax p.1), p.2) := by
  obtain ⟨x, o⟩ := p
  obtain ⟨h1, h2⟩ := h
  simp only at h1 h2
  cases ax <;> interval_cases x <;> interval_cases o <;> rfl

theorem turn1_four {ax : Axis} {p : Nat × Nat} (h : p.1 < 7 ∧ p.2 < 3) : turn1 ax (turn1 ax (turn1 ax (turn1 ax p))) = p := by
  obtain ⟨x, o⟩ := p
  obtain ⟨h1, h2⟩ := h
  simp only at h1 h2
  cases ax <;> interval_cases x <;> interval_cases o <;> rfl

theorem turn_fine {ax : Axis} {l : List (Nat × Nat)} (h : Fine l) : Fine (turn ax l) := by
  intro p hp
  obtain ⟨q, hq, rfl⟩ := List.mem_map.1 hp
  exact turn1_fine (h q hq)

theorem turn_length (ax : Axis) (l : List (Nat × Nat)) : (turn ax l).length = l.length := List.length_map _

theorem turn_four {ax : Axis} {l : List (Nat × Nat)} (h : Fine l) : turn ax (turn ax (turn ax (turn ax l))) = l := by
  unfold turn
  rw [List.map_map, List.map_map, List.map_map]
  conv_rhs => rw [← List.map_id l]
  exact List.map_congr_left fun p hp => turn1_four (h p hp)

theorem mem_act2_go (ax : Axis) (xs : List Nat) (hx : ∀ x ∈ xs, x < 7) (t : Tree) (c : Nat) :
    (act2 ax t).mem (xs.map fun x => dest ax (dest ax x)) c = t.mem xs c := by
  induction xs generalizing t with
  | nil =>
    rcases t with _ | n | ⟨a', b', c', d', e', f', g'⟩
    · rfl
    · rfl
    · cases ax <;> rfl
  | cons x xs ih =>
    obtain ⟨h1, h2⟩ := List.forall_mem_cons.1 hx
    show ((act2 ax t).get (dest ax (dest ax x))).mem _ c = (t.get x).mem xs c
    rw [get_act2 ax t h1]
    exact ih h2 _

theorem mem_act2 (ax : Axis) (t : Tree) {l : List (Nat × Nat)} (hf : Fine l) :
    Mem (act2 ax t) (turn ax (turn ax l)) ↔ Mem t l := by
  have e : turn ax (turn ax l) = l.map fun p => (dest ax (dest ax p.1), p.2) := by
    unfold turn
    rw [List.map_map]
    exact List.map_congr_left fun p hp => turn1_twice (hf p hp)
  have h := mem_act2_go ax (l.map Prod.fst) (fun x hx => by
    obtain ⟨p, hp, rfl⟩ := List.mem_map.1 hx
    exact (hf p hp).1) t (code3 (l.map Prod.snd))
  unfold Mem
  rw [e, ← h, List.map_map, List.map_map, List.map_map]
  rfl

/-! ### Unions -/

theorem union_nil (s : Tree) : union s .nil = s := by rcases s with _ | n | ⟨a, b, c, d, e, f, g⟩ <;> rfl

theorem Depth_get {t : Tree} {n : Nat} (h : t.Depth (n + 1)) (x : Nat) : (t.get x).Depth n := by
  rcases t with _ | m | ⟨a, b, c, d, e, f, g⟩
  · exact trivial
  · exact trivial
  · obtain ⟨h1, h2, h3, h4, h5, h6, h7⟩ := h
    match x with
    | 0 => exact h1
    | 1 => exact h2
    | 2 => exact h3
    | 3 => exact h4
    | 4 => exact h5
    | 5 => exact h6
    | 6 => exact h7
    | _ + 7 => exact trivial

theorem get_union {s t : Tree} {n : Nat} (hs : s.Depth (n + 1)) (ht : t.Depth (n + 1)) (x : Nat) :
    (union s t).get x = union (s.get x) (t.get x) := by
  rcases s with _ | m | ⟨a, b, c, d, e, f, g⟩
  · rfl
  · exact absurd hs (Nat.succ_ne_zero n)
  · rcases t with _ | m | ⟨a', b', c', d', e', f', g'⟩
    · exact (union_nil _).symm
    · exact absurd ht (Nat.succ_ne_zero n)
    · match x with
      | 0 | 1 | 2 | 3 | 4 | 5 | 6 => rfl
      | _ + 7 => rfl

theorem mem_union_go {s t : Tree} {xs : List Nat} (hs : s.Depth xs.length) (ht : t.Depth xs.length) (c : Nat) :
    (union s t).mem xs c = (s.mem xs c || t.mem xs c) := by
  induction xs generalizing s t with
  | nil =>
    rcases s with _ | n | ⟨a, b, c, d, e, f, g⟩
    · rfl
    · rcases t with _ | m | ⟨a', b', c', d', e', f', g'⟩
      · exact (Bool.or_false _).symm
      · exact Nat.testBit_or _ _ _
      · exact absurd ht id
    · exact absurd hs id
  | cons x xs ih =>
    show ((union s t).get x).mem xs c = ((s.get x).mem xs c || (t.get x).mem xs c)
    rw [get_union hs ht]
    exact ih (Depth_get hs x) (Depth_get ht x)

theorem mem_union {s t : Tree} {l : List (Nat × Nat)} (hs : s.Depth 6) (ht : t.Depth 6) (hl : l.length = 6) :
    Mem (union s t) l ↔ Mem s l ∨ Mem t l := by
  have hl' : (l.map Prod.fst).length = 6 := by rw [List.length_map, hl]
  unfold Mem
  rw [mem_union_go (by rw [hl']; exact hs) (by rw [hl']; exact ht), Bool.or_eq_true]

theorem Depth_union {s t : Tree} {n : Nat} (hs : s.Depth n) (ht : t.Depth n) : (union s t).Depth n := by
  induction s generalizing t n with
  | nil => exact ht
  | leaf m => rcases t with _ | m' | ⟨a', b', c', d', e', f', g'⟩ <;> exact hs
  | node a b c d e f g h1 h2 h3 h4 h5 h6 h7 =>
    rcases n with _ | n
    · exact absurd hs id
    · rcases t with _ | m' | ⟨a', b', c', d', e', f', g'⟩
      · exact hs
      · exact hs
      · obtain ⟨k1, k2, k3, k4, k5, k6, k7⟩ := hs
        obtain ⟨l1, l2, l3, l4, l5, l6, l7⟩ := ht
        exact ⟨h1 k1 l1, h2 k2 l2, h3 k3 l3, h4 k4 l4, h5 k5 l5, h6 k6 l6, h7 k7 l7⟩

theorem Depth_act (ax : Axis) {t : Tree} {n : Nat} (ht : t.Depth n) (l : List Digit) (h : Nat → Nat) : (act ax t l h).Depth n := by
  induction t generalizing n l h with
  | nil => exact trivial
  | leaf m => exact ht
  | node a b c d e f g h1 h2 h3 h4 h5 h6 h7 =>
    rcases n with _ | n
    · exact absurd ht id
    · obtain ⟨k1, k2, k3, k4, k5, k6, k7⟩ := ht
      rcases l with _ | ⟨p, l⟩
      · exact trivial
      · cases ax
        · exact ⟨h3 k3 _ _, h2 k2 _ _, h7 k7 _ _, h4 k4 _ _, h1 k1 _ _, h6 k6 _ _, h5 k5 _ _⟩
        · exact ⟨h5 k5 _ _, h1 k1 _ _, h3 k3 _ _, h4 k4 _ _, h6 k6 _ _, h2 k2 _ _, h7 k7 _ _⟩
        · exact ⟨h2 k2 _ _, h4 k4 _ _, h1 k1 _ _, h3 k3 _ _, h5 k5 _ _, h6 k6 _ _, h7 k7 _ _⟩

theorem Depth_act2 (ax : Axis) {t : Tree} {n : Nat} (ht : t.Depth n) : (act2 ax t).Depth n := by
  induction t generalizing n with
  | nil => exact trivial
  | leaf m => exact ht
  | node a b c d e f g h1 h2 h3 h4 h5 h6 h7 =>
    rcases n with _ | n
    · exact absurd ht id
    · obtain ⟨k1, k2, k3, k4, k5, k6, k7⟩ := ht
      cases ax
      · exact ⟨h7 k7, h2 k2, h5 k5, h4 k4, h3 k3, h6 k6, h1 k1⟩
      · exact ⟨h6 k6, h5 k5, h3 k3, h4 k4, h2 k2, h1 k1, h7 k7⟩
      · exact ⟨h4 k4, h3 k3, h2 k2, h1 k1, h5 k5, h6 k6, h7 k7⟩

/-! ### Steps -/

/-- `n` quarter turns -/
def turns (ax : Axis) : Nat → List (Nat × Nat) → List (Nat × Nat)
  | 0, l => l
  | n + 1, l => turn ax (turns ax n l)

theorem turns_fine (ax : Axis) (n : Nat) {l : List (Nat × Nat)} (hl : l.length = 6) (hf : Fine l) :
    (turns ax n l).length = 6 ∧ Fine (turns ax n l) := by
  induction n with
  | zero => exact ⟨hl, hf⟩
  | succ n ih => exact ⟨(turn_length ax _).trans ih.1, turn_fine ih.2⟩

theorem Depth_faceStep (ax : Axis) {t : Tree} (ht : t.Depth 6) : (faceStep ax t).Depth 6 :=
  Depth_union (Depth_union ht (Depth_act ax ht _ _)) (Depth_act2 ax (Depth_union ht (Depth_act ax ht _ _)))

theorem mem_faceStep (ax : Axis) {t : Tree} (ht : t.Depth 6) {l : List (Nat × Nat)} (hl : l.length = 6) (hf : Fine l) :
    Mem (faceStep ax t) l ↔ Mem t l ∨ Mem t (turns ax 1 l) ∨ Mem t (turns ax 2 l) ∨ Mem t (turns ax 3 l) := by
  have a : ∀ {l : List (Nat × Nat)}, l.length = 6 → Fine l →
      (Mem (act ax t digits6 fun n => n) l ↔ Mem t (turns ax 3 l)) := fun {l} hl hf => by
    have := mem_act ax t (l := turns ax 3 l) (turns_fine ax 3 hl hf).1 (turns_fine ax 3 hl hf).2
    have e : turn ax (turns ax 3 l) = l := turn_four hf
    rwa [e] at this
  have b : ∀ {l : List (Nat × Nat)}, l.length = 6 → Fine l → ∀ s, (Mem (act2 ax s) l ↔ Mem s (turns ax 2 l)) := fun {l} hl hf s => by
    have := mem_act2 ax s (l := turns ax 2 l) (turns_fine ax 2 hl hf).2
    have e : turn ax (turn ax (turns ax 2 l)) = l := turn_four hf
    rwa [e] at this
  have hd := Depth_act ax ht digits6 fun n => n
  have e5 : turns ax 3 (turns ax 2 l) = turns ax 1 l := by
    show turn ax (turn ax (turn ax (turn ax (turn ax l)))) = turn ax l
    rw [turn_four (turn_fine hf)]
  unfold faceStep
  rw [mem_union (Depth_union ht hd) (Depth_act2 ax (Depth_union ht hd)) hl, mem_union ht hd hl, b hl hf,
    mem_union ht hd (turns_fine ax 2 hl hf).1, a hl hf, a (turns_fine ax 2 hl hf).1 (turns_fine ax 2 hl hf).2, e5]
  tauto

theorem Depth_step {t : Tree} (ht : t.Depth 6) : (step t).Depth 6 :=
  Depth_union (Depth_faceStep _ ht) (Depth_union (Depth_faceStep _ ht) (Depth_faceStep _ ht))

/-- one step adds what is one turn away -/
theorem mem_step {t : Tree} (ht : t.Depth 6) {l : List (Nat × Nat)} (hl : l.length = 6) (hf : Fine l) :
    Mem (step t) l ↔ Mem t l ∨ ∃ ax k, 1 ≤ k ∧ k ≤ 3 ∧ Mem t (turns ax k l) := by
  unfold step
  rw [mem_union (Depth_faceStep _ ht) (Depth_union (Depth_faceStep _ ht) (Depth_faceStep _ ht)) hl,
    mem_union (Depth_faceStep _ ht) (Depth_faceStep _ ht) hl, mem_faceStep _ ht hl hf, mem_faceStep _ ht hl hf,
    mem_faceStep _ ht hl hf]
  constructor
  · rintro ((h | h | h | h) | (h | h | h | h) | (h | h | h | h))
    exacts [.inl h, .inr ⟨_, 1, by decide, by decide, h⟩, .inr ⟨_, 2, by decide, by decide, h⟩,
      .inr ⟨_, 3, by decide, by decide, h⟩, .inl h, .inr ⟨_, 1, by decide, by decide, h⟩, .inr ⟨_, 2, by decide, by decide, h⟩,
      .inr ⟨_, 3, by decide, by decide, h⟩, .inl h, .inr ⟨_, 1, by decide, by decide, h⟩, .inr ⟨_, 2, by decide, by decide, h⟩,
      .inr ⟨_, 3, by decide, by decide, h⟩]
  · rintro (h | ⟨ax, k, h1, h2, h⟩)
    · exact .inl (.inl h)
    · cases ax <;> interval_cases k <;> tauto

theorem Depth_steps (n : Nat) {t : Tree} (ht : t.Depth 6) : (steps n t).Depth 6 := by
  induction n with
  | zero => exact ht
  | succ n ih => exact Depth_step ih

/-! ### One arrangement, all arrangements -/

theorem Depth_single (xs : List Nat) (o : Nat) : (single xs o).Depth xs.length := by
  induction xs with
  | nil => exact rfl
  | cons x xs ih =>
    unfold single
    split <;> first | exact trivial | (refine ⟨?_, ?_, ?_, ?_, ?_, ?_, ?_⟩ <;> first | exact trivial | exact ih)

theorem mem_single_go (xs ys : List Nat) (hl : xs.length = ys.length) (hx : ∀ x ∈ xs, x < 7) (hy : ∀ x ∈ ys, x < 7) (o c : Nat) :
    (single xs o).mem ys c = true ↔ xs = ys ∧ o = c := by
  induction xs generalizing ys with
  | nil =>
    obtain rfl := List.length_eq_zero_iff.1 hl.symm
    show (1 <<< o).testBit c = true ↔ _
    rw [Nat.one_shiftLeft, Nat.testBit_two_pow, decide_eq_true_eq]
    simp
  | cons x xs ih =>
    rcases ys with _ | ⟨y, ys⟩
    · simp at hl
    · obtain ⟨hx1, hx2⟩ := List.forall_mem_cons.1 hx
      obtain ⟨hy1, hy2⟩ := List.forall_mem_cons.1 hy
      have hnil : ∀ zs : List Nat, Tree.nil.mem zs c = false := by
        intro zs
        induction zs with
        | nil => rfl
        | cons z zs ih' => exact ih'
      have h1 : ((single (x :: xs) o).get y) = if x = y then single xs o else .nil := by
        interval_cases x <;> interval_cases y <;> rfl
      show ((single (x :: xs) o).get y).mem ys c = true ↔ _
      rw [h1]
      by_cases h : x = y
      · rw [if_pos h, ih ys (by simpa using hl) hx2 hy2]
        simp [h]
      · rw [if_neg h, hnil]
        simp [h]

theorem code3_inj : ∀ {xs ys : List Nat}, xs.length = ys.length → (∀ x ∈ xs, x < 3) → (∀ x ∈ ys, x < 3) →
    code3 xs = code3 ys → xs = ys
  | [], [], _, _, _, _ => rfl
  | x :: xs, y :: ys, hl, hx, hy, h => by
    obtain ⟨hx1, hx2⟩ := List.forall_mem_cons.1 hx
    obtain ⟨hy1, hy2⟩ := List.forall_mem_cons.1 hy
    unfold code3 at h
    rw [code3_inj (by simpa using hl) hx2 hy2 (by omega), show x = y by omega]

/-- the set with one arrangement -/
def only (l : List (Nat × Nat)) : Tree := single (l.map Prod.fst) (code3 (l.map Prod.snd))

theorem Depth_only {l : List (Nat × Nat)} (hl : l.length = 6) : (only l).Depth 6 := by
  have := Depth_single (l.map Prod.fst) (code3 (l.map Prod.snd))
  rwa [List.length_map, hl] at this

theorem mem_only {l l' : List (Nat × Nat)} (hl : l.length = l'.length) (hf : Fine l) (hf' : Fine l') : Mem (only l) l' ↔ l = l' := by
  unfold Mem only
  rw [mem_single_go _ _ (by simpa using hl) (by simpa using fun a b h => (hf (a, b) h).1)
    (by simpa using fun a b h => (hf' (a, b) h).1)]
  constructor
  · rintro ⟨h1, h2⟩
    have h3 := code3_inj (by simpa using hl) (by simpa using fun b a h => (hf (a, b) h).2)
      (by simpa using fun b a h => (hf' (a, b) h).2) h2
    have z : ∀ l : List (Nat × Nat), l = (l.map Prod.fst).zip (l.map Prod.snd) := fun l => by
      induction l with
      | nil => rfl
      | cons p l ih => exact congrArg (p :: ·) ih
    rw [z l, h1, h3, ← z l']
  · rintro rfl
    exact ⟨rfl, rfl⟩

theorem free_iff (u x : Nat) : free u x = true ↔ u.testBit x = false := by
  unfold free Nat.testBit
  show Nat.beq ((u >>> x) &&& 1) 0 = true ↔ _
  rw [Nat.and_comm]
  constructor
  · intro h
    rw [Nat.eq_of_beq_eq_true h]
    rfl
  · intro h
    rw [bne_eq_false_iff_eq] at h
    rw [h]
    rfl

theorem full_spec {t : Tree} {xs : List Nat} {u : Nat} (h : full t u = true) (hd : t.Depth xs.length) (hx : ∀ x ∈ xs, x < 7)
    (hn : xs.Nodup) (hu : ∀ x ∈ xs, u.testBit x = false) {c : Nat} (hc : c < 729) : t.mem xs c = true := by
  induction xs generalizing t u with
  | nil =>
    rcases t with _ | n | ⟨a', b', c', d', e', f', g'⟩
    · exact absurd h Bool.false_ne_true
    · have := Nat.eq_of_beq_eq_true h
      show n.testBit c = true
      rw [this, Nat.testBit_two_pow_sub_one]
      exact decide_eq_true hc
    · exact absurd hd id
  | cons x xs ih =>
    rcases t with _ | n | ⟨a', b', c', d', e', f', g'⟩
    · exact absurd h Bool.false_ne_true
    · exact absurd hd (Nat.succ_ne_zero _)
    · obtain ⟨hx1, hx2⟩ := List.forall_mem_cons.1 hx
      obtain ⟨hn1, hn2⟩ := List.nodup_cons.1 hn
      obtain ⟨hu1, hu2⟩ := List.forall_mem_cons.1 hu
      have hfree := (free_iff u x).2 hu1
      have hu3 : ∀ y ∈ xs, (Nat.lor u (2 ^ x)).testBit y = false := by
        intro y hy
        show (u ||| 2 ^ x).testBit y = false
        rw [Nat.testBit_or, hu2 y hy, Nat.testBit_two_pow, Bool.false_or]
        exact decide_eq_false fun e => hn1 (e ▸ hy)
      have hd' := Depth_get hd x
      show ((Tree.node a' b' c' d' e' f' g').get x).mem xs c = true
      refine ih ?_ hd' hx2 hn2 hu3
      have h' : ((cond (free u 0) (full a' (Nat.lor u 1)) true) && ((cond (free u 1) (full b' (Nat.lor u 2)) true) &&
        ((cond (free u 2) (full c' (Nat.lor u 4)) true) && ((cond (free u 3) (full d' (Nat.lor u 8)) true) &&
          ((cond (free u 4) (full e' (Nat.lor u 16)) true) && ((cond (free u 5) (full f' (Nat.lor u 32)) true) &&
            (cond (free u 6) (full g' (Nat.lor u 64)) true))))))) = true := h
      simp only [Bool.and_eq_true] at h'
      obtain ⟨k0, k1, k2, k3, k4, k5, k6⟩ := h'
      interval_cases x
      · rw [hfree, cond_true] at k0; exact k0
      · rw [hfree, cond_true] at k1; exact k1
      · rw [hfree, cond_true] at k2; exact k2
      · rw [hfree, cond_true] at k3; exact k3
      · rw [hfree, cond_true] at k4; exact k4
      · rw [hfree, cond_true] at k5; exact k5
      · rw [hfree, cond_true] at k6; exact k6

theorem mem_full {t : Tree} (h : full t 0 = true) (hd : t.Depth 6) {l : List (Nat × Nat)} (hl : l.length = 6) (hf : Fine l)
    (hn : (l.map Prod.fst).Nodup) : Mem t l := by
  have hl' : (l.map Prod.fst).length = 6 := by rw [List.length_map, hl]
  refine full_spec h (by rw [hl']; exact hd) (by simpa using fun a b h => (hf (a, b) h).1) hn (fun x _ => Nat.zero_testBit x) ?_
  match l, hl with
  | [a, b, c, d, e, f], _ =>
    have ha := (hf a (by simp)).2; have hb := (hf b (by simp)).2; have hc := (hf c (by simp)).2
    have hd := (hf d (by simp)).2; have he := (hf e (by simp)).2; have hf := (hf f (by simp)).2
    simp only [List.map_cons, List.map_nil, code3]
    omega

end Barbarosa.Two
