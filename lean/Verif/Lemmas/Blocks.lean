import Verif.Lemmas.CrossBits
import Verif.Lemmas.Stages

/-!
# Sets of states as rows of bits

A state is a pair: the number of a row, and a number with `N` digits to the base `b`. A set of states is a tree of rows; the bits of a
row say which numbers belong to it. A turn exchanges rows and, inside of the rows, exchanges digits or replaces values of
digits. This is done with shifts and masks, which the kernel does fast. All functions that the kernel evaluates are
written with recursors.
-/

namespace Barbarosa.Blocks

/-- the values that are moved by the same distance -/
structure Shift where
  (vals up down : Nat)

/-- what is done to the digits: exchange two of them, or replace the values of one (five bits for each value) -/
inductive Kind
  | swap (i j : Nat)
  | tbl (i t : Nat)

/-- a change of `span` digits from digit `pos` on -/
structure Blk where
  (pos span : Nat) (shifts : List Shift) (kind : Kind)

/-- a move: the rows after it (packed with `width` bits each, the lowest nine of which count) and what it does to a row -/
structure Gen where
  (width rows : Nat) (act : Nat → Nat)

/-- a tree of rows -/
inductive Rows
  | leaf (n : Nat)
  | node (l r : Rows)

/-- every bit becomes `w` bits -/
noncomputable def widen (w V B : Nat) : Nat :=
  Nat.rec (motive := fun _ => Nat) 0 (fun d acc =>
    cond (Nat.beq (bitOf V d) 1) (Nat.lor acc (Nat.shiftLeft (Nat.sub (Nat.pow 2 w) 1) (Nat.mul d w))) acc) B

/-- the numbers of `N` digits whose `s` digits from `p` on have one of the values `V` -/
noncomputable def mask (b N p s V : Nat) : Nat :=
  Bits.spread (widen (Nat.pow b p) V (Nat.pow b s)) (Nat.pow b (Nat.add p s)) (Nat.pow b (Nat.sub (Nat.sub N p) s))

/-- the values of one shift, moved -/
noncomputable def shifted (b N : Nat) (o : Blk) (e : Shift) (n : Nat) : Nat :=
  cond (Nat.beq e.up 0) (cond (Nat.beq e.down 0) (Nat.land n (mask b N o.pos o.span e.vals))
    (Nat.shiftRight (Nat.land n (mask b N o.pos o.span e.vals)) (Nat.mul e.down (Nat.pow b o.pos))))
    (Nat.shiftLeft (Nat.land n (mask b N o.pos o.span e.vals)) (Nat.mul e.up (Nat.pow b o.pos)))

/-- one change of a row -/
noncomputable def change (b N : Nat) (o : Blk) (n : Nat) : Nat :=
  List.rec (motive := fun _ => Nat) 0 (fun e l ih =>
    List.rec (motive := fun _ => Nat) (shifted b N o e n) (fun _ _ _ => Nat.lor ih (shifted b N o e n)) l) o.shifts

/-- all changes of a row, the last one first -/
noncomputable def changes (b N : Nat) (l : List Blk) (n : Nat) : Nat :=
  List.rec (motive := fun _ => Nat) n (fun o _ ih => change b N o ih) l

/-- the row after a move -/
def Gen.row (g : Gen) (i : Nat) : Nat := Nat.land (Nat.shiftRight g.rows (Nat.mul g.width i)) 511

/-- row number `i` -/
noncomputable def Rows.get (t : Rows) : Nat → Nat :=
  Rows.rec (motive := fun _ => Nat → Nat) (fun n _ => n)
    (fun _ _ l r i => cond (Nat.beq (bitOf i 0) 0) (l (Nat.div i 2)) (r (Nat.div i 2))) t

/-- the tree of `2 ^ d` rows -/
noncomputable def build (f : Nat → Nat) (d : Nat) : Nat → Nat → Rows :=
  Nat.rec (motive := fun _ => Nat → Nat → Rows) (fun i _ => .leaf (f i))
    (fun _ ih i w => .node (ih i (Nat.mul 2 w)) (ih (Nat.add i w) (Nat.mul 2 w))) d

/-- the union of two sets -/
noncomputable def union (s : Rows) : Rows → Rows :=
  Rows.rec (motive := fun _ => Rows → Rows)
    (fun n t => Rows.rec (motive := fun _ => Rows) (fun m => .leaf (Nat.lor n m)) (fun _ _ _ _ => .leaf n) t)
    (fun l0 r0 l r t => Rows.rec (motive := fun _ => Rows) (fun _ => .node l0 r0)
      (fun l' r' _ _ => .node (l l') (r r')) t) s

/-- a set with all states that a move leads into it -/
noncomputable def turn (d : Nat) (g : Gen) (s : Rows) : Rows :=
  build (fun i => Nat.lor (s.get i) (cond (Nat.beq (s.get (g.row i)) 0) 0 (g.act (s.get (g.row i))))) d 0 1

/-- the same for some moves in turn, the last one first -/
noncomputable def turns (d : Nat) (l : List Gen) (s : Rows) : Rows :=
  List.rec (motive := fun _ => Rows) s (fun g _ ih => turn d g ih) l

/-- the set with everything that is one turn away -/
noncomputable def step (d : Nat) (l : List (List Gen)) (s : Rows) : Rows :=
  List.rec (motive := fun _ => Rows) s (fun g _ ih => union (turns d g s) ih) l

/-- `n` steps -/
noncomputable def steps (d : Nat) (l : List (List Gen)) (s : Rows) (n : Nat) : Rows :=
  Nat.rec (motive := fun _ => Rows) s (fun _ t => step d l t) n

/-- one state -/
noncomputable def single (d i v : Nat) : Rows := build (fun j => cond (Nat.beq i j) (Nat.pow 2 v) 0) d 0 1

/-- the numbers below `n` with a property -/
noncomputable def select (f : Nat → Bool) (n : Nat) : Nat :=
  Nat.rec (motive := fun _ => Nat) 0 (fun v acc => cond (f v) (Nat.lor acc (Nat.pow 2 v)) acc) n

/-- all numbers with a property are in the row -/
noncomputable def covers (s : Rows) (m : Nat → Nat) (r : Nat) : Bool :=
  allBelow r fun i => Nat.beq (Nat.land (s.get i) (m i)) (m i)

/-! ## Digits -/

/-- where the digit comes from -/
def Kind.src : Kind → Nat → Nat
  | .swap i j, k => if k = i then j else if k = j then i else k
  | .tbl _ _, k => k

/-- what becomes of its value -/
def Kind.val : Kind → Nat → Nat → Nat
  | .swap _ _, _, a => a
  | .tbl i t, k, a => if k = i then (t >>> (5 * a)) &&& 31 else a

/-- the digits of the change are among those from `p` to `p + s` -/
def Kind.within (p s : Nat) : Kind → Bool
  | .swap i j => decide (p ≤ i ∧ i < p + s ∧ p ≤ j ∧ j < p + s)
  | .tbl i _ => decide (p ≤ i ∧ i < p + s)

theorem Kind.src_out {K : Kind} {p s k : Nat} (h : K.within p s = true) (hk : k < p ∨ p + s ≤ k) : K.src k = k := by
  cases K with
  | swap i j =>
    have h := of_decide_eq_true h
    show (if k = i then j else if k = j then i else k) = k
    rw [if_neg (by omega), if_neg (by omega)]
  | tbl i t => rfl

theorem Kind.src_in {K : Kind} {p s k : Nat} (h : K.within p s = true) (h1 : p ≤ k) (h2 : k < p + s) :
    p ≤ K.src k ∧ K.src k < p + s := by
  cases K with
  | swap i j =>
    have h := of_decide_eq_true h
    show p ≤ (if k = i then j else if k = j then i else k) ∧ (if k = i then j else if k = j then i else k) < p + s
    split
    · omega
    · split <;> omega
  | tbl i t => exact ⟨h1, h2⟩

theorem Kind.val_out {K : Kind} {p s k : Nat} (h : K.within p s = true) (hk : k < p ∨ p + s ≤ k) (a : Nat) :
    K.val k a = a := by
  cases K with
  | swap i j => rfl
  | tbl i t =>
    have h := of_decide_eq_true h
    show (if k = i then (t >>> (5 * a)) &&& 31 else a) = a
    rw [if_neg (by omega)]

/-- one shift does what it should -/
noncomputable def Shift.ok (b : Nat) (o : Blk) (e : Shift) : Bool :=
  cond (Nat.beq (Nat.mul e.up e.down) 0)
    (allBelow (Nat.pow b o.span) fun d => cond (Nat.beq (bitOf e.vals d) 0) true
      (cond (Nat.ble e.down (Nat.add d e.up)) (cond (Nat.ble (Nat.add (Nat.sub (Nat.add d e.up) e.down) 1) (Nat.pow b o.span))
        (allBelow o.span fun k => Nat.beq (digit b d k)
          (o.kind.val (Nat.add o.pos k) (digit b (Nat.sub (Nat.add d e.up) e.down) (Nat.sub (o.kind.src (Nat.add o.pos k)) o.pos)))) false)
        false)) false

/-- a change does what it should -/
noncomputable def Blk.ok (b N : Nat) (o : Blk) : Bool :=
  cond (Nat.ble (Nat.add o.pos o.span) N) (cond (o.kind.within o.pos o.span)
    (List.rec (motive := fun _ => Bool) true (fun e _ ih => cond (e.ok b o) ih false) o.shifts) false) false

theorem testBit_of_bitOf {V d : Nat} (h : Nat.beq (bitOf V d) 1 = true) : V.testBit d = true := by
  have h := Nat.eq_of_beq_eq_true h
  rw [bitOf_eq] at h
  rw [Nat.testBit_eq_decide_div_mod_eq]
  exact decide_eq_true h

theorem bitOf_of_testBit {V d : Nat} (h : V.testBit d = true) : Nat.beq (bitOf V d) 0 = false := by
  rw [Nat.testBit_eq_decide_div_mod_eq] at h
  have h := of_decide_eq_true h
  have e : bitOf V d = 1 := by rw [bitOf_eq]; exact h
  rw [e]
  rfl

theorem testBit_widen {w V B i : Nat} (h : (widen w V B).testBit i = true) :
    ∃ d < B, V.testBit d = true ∧ d * w ≤ i ∧ i < d * w + w := by
  induction B with
  | zero => exact absurd h (by simp [widen])
  | succ B ih =>
    change (cond (Nat.beq (bitOf V B) 1) (widen w V B ||| ((2 ^ w - 1) <<< (B * w))) (widen w V B)).testBit i = true at h
    cases hb : Nat.beq (bitOf V B) 1 with
    | false =>
      rw [hb] at h
      obtain ⟨d, h1, h2⟩ := ih h
      exact ⟨d, by omega, h2⟩
    | true =>
      rw [hb] at h
      rw [cond_true, Nat.testBit_or, Bool.or_eq_true, Nat.testBit_shiftLeft, Bool.and_eq_true, Nat.testBit_two_pow_sub_one,
        decide_eq_true_eq, decide_eq_true_eq] at h
      rcases h with h | ⟨h1, h2⟩
      · obtain ⟨d, h1, h2⟩ := ih h
        exact ⟨d, by omega, h2⟩
      · exact ⟨B, by omega, testBit_of_bitOf hb, by omega, by omega⟩

theorem div_mod_of_parts {w B lo d hi : Nat} (hlo : lo < w) (hd : d < B) : (lo + w * (d + B * hi)) / w % B = d := by
  rw [Nat.add_mul_div_left _ _ (by omega), Nat.div_eq_of_lt hlo, Nat.zero_add, Nat.add_mul_mod_self_left, Nat.mod_eq_of_lt hd]

theorem testBit_mask {b N p s V i : Nat} (h : (mask b N p s V).testBit i = true) :
    V.testBit (i / b ^ p % b ^ s) = true := by
  change (Bits.spread (widen (b ^ p) V (b ^ s)) (b ^ (p + s)) (b ^ (N - p - s))).testBit i = true at h
  obtain ⟨x, -, h1, h2⟩ := (Bits.testBit_spread _ _ _ _).1 h
  obtain ⟨d, hd, hv, h3, h4⟩ := testBit_widen h2
  have e : i = (i - x * b ^ (p + s) - d * b ^ p) + b ^ p * (d + b ^ s * x) := by
    have : b ^ p * (d + b ^ s * x) = d * b ^ p + x * b ^ (p + s) := by rw [pow_add]; ring
    omega
  rw [e, div_mod_of_parts (by omega) hd]
  exact hv

theorem testBit_shifted {b N : Nat} {o : Blk} {e : Shift} {n v : Nat} (he : e.up * e.down = 0)
    (h : (shifted b N o e n).testBit v = true) :
    ∃ x, n.testBit x = true ∧ e.vals.testBit (x / b ^ o.pos % b ^ o.span) = true ∧
      v + e.down * b ^ o.pos = x + e.up * b ^ o.pos := by
  unfold shifted at h
  cases hu : Nat.beq e.up 0 with
  | true =>
    have hu' := Nat.eq_of_beq_eq_true hu
    rw [hu] at h
    rw [cond_true] at h
    rw [hu', Nat.zero_mul]
    cases hd : Nat.beq e.down 0 with
    | true =>
      have hd' := Nat.eq_of_beq_eq_true hd
      rw [hd] at h
      change (n &&& mask b N o.pos o.span e.vals).testBit v = true at h
      rw [Nat.testBit_and, Bool.and_eq_true] at h
      exact ⟨v, h.1, testBit_mask h.2, by rw [hd', Nat.zero_mul]⟩
    | false =>
      rw [hd] at h
      change ((n &&& mask b N o.pos o.span e.vals) >>> (e.down * b ^ o.pos)).testBit v = true at h
      rw [Nat.testBit_shiftRight, Nat.testBit_and, Bool.and_eq_true] at h
      exact ⟨_, h.1, testBit_mask h.2, Nat.add_comm _ _⟩
  | false =>
    rw [hu] at h
    have hd : e.down = 0 := (Nat.mul_eq_zero.1 he).resolve_left (Nat.ne_of_beq_eq_false hu)
    change ((n &&& mask b N o.pos o.span e.vals) <<< (e.up * b ^ o.pos)).testBit v = true at h
    rw [Nat.testBit_shiftLeft, Bool.and_eq_true, Nat.testBit_and, Bool.and_eq_true, decide_eq_true_eq] at h
    refine ⟨_, h.2.1, testBit_mask h.2.2, ?_⟩
    rw [hd, Nat.zero_mul]
    omega

/-- the list part of `Blk.ok` -/
noncomputable def oks (b : Nat) (o : Blk) (l : List Shift) : Bool :=
  List.rec (motive := fun _ => Bool) true (fun e _ ih => cond (e.ok b o) ih false) l

/-- the list part of `change` -/
noncomputable def shifteds (b N : Nat) (o : Blk) (n : Nat) (l : List Shift) : Nat :=
  List.rec (motive := fun _ => Nat) 0 (fun e l ih =>
    List.rec (motive := fun _ => Nat) (shifted b N o e n) (fun _ _ _ => Nat.lor ih (shifted b N o e n)) l) l

/-! ### Changes written out -/

theorem shifted_none {b N p s V m n : Nat} {l : List Shift} {k : Kind} (hm : m = mask b N p s V) :
    Nat.land n m = shifted b N ⟨p, s, l, k⟩ ⟨V, 0, 0⟩ n := by
  rw [hm]
  rfl

theorem shifted_up {b N p s V m n u w : Nat} {l : List Shift} {k : Kind} (hm : m = mask b N p s V)
    (hu : Nat.beq u 0 = false) (hw : w = Nat.mul u (Nat.pow b p)) :
    Nat.shiftLeft (Nat.land n m) w = shifted b N ⟨p, s, l, k⟩ ⟨V, u, 0⟩ n := by
  rw [hm, hw]
  unfold shifted
  rw [hu]
  rfl

theorem shifted_down {b N p s V m n d w : Nat} {l : List Shift} {k : Kind} (hm : m = mask b N p s V)
    (hd : Nat.beq d 0 = false) (hw : w = Nat.mul d (Nat.pow b p)) :
    Nat.shiftRight (Nat.land n m) w = shifted b N ⟨p, s, l, k⟩ ⟨V, 0, d⟩ n := by
  rw [hm, hw]
  show _ = cond (Nat.beq 0 0) (cond (Nat.beq d 0) _ _) _
  rw [hd]
  rfl

theorem shifteds_one {b N a n : Nat} {o : Blk} {e : Shift} (h : a = shifted b N o e n) :
    a = shifteds b N o n [e] := h

theorem shifteds_more {b N a a' n : Nat} {o : Blk} {e e' : Shift} {l : List Shift} (h : a' = shifteds b N o n (e' :: l))
    (h' : a = shifted b N o e n) : Nat.lor a' a = shifteds b N o n (e :: e' :: l) := by
  rw [h, h']
  rfl

theorem change_of {b N p s a n : Nat} {l : List Shift} {k : Kind} (h : a = shifteds b N ⟨p, s, l, k⟩ n l) :
    a = change b N ⟨p, s, l, k⟩ n := h

theorem cond_both {a b : Bool} (h : cond a b false = true) : a = true ∧ b = true := by
  cases a
  · cases h
  · exact ⟨rfl, h⟩

theorem testBit_shifteds {b N : Nat} {o : Blk} {n v : Nat} {l : List Shift} (ho : oks b o l = true)
    (h : (shifteds b N o n l).testBit v = true) : ∃ e, e.ok b o = true ∧ (shifted b N o e n).testBit v = true := by
  induction l with
  | nil => exact absurd h (by simp [shifteds])
  | cons e l ih =>
    obtain ⟨h1, h2⟩ := cond_both ho
    cases l with
    | nil => exact ⟨e, h1, h⟩
    | cons e' l =>
      change (shifteds b N o n (e' :: l) ||| shifted b N o e n).testBit v = true at h
      rw [Nat.testBit_or, Bool.or_eq_true] at h
      rcases h with h | h
      · exact ih h2 h
      · exact ⟨e, h1, h⟩

theorem allBelow_holds {n : Nat} {f : Nat → Bool} (h : allBelow n f = true) {p : Nat} (hp : p < n) : f p = true :=
  allBelow_spec h hp

/-- low, middle and high digits -/
theorem digit_parts {b p lo y k : Nat} (hb : 0 < b) (hlo : lo < b ^ p) :
    digit b (lo + b ^ p * y) k = if k < p then digit b lo k else digit b y (k - p) := by
  show (lo + b ^ p * y) / b ^ k % b = if k < p then lo / b ^ k % b else y / b ^ (k - p) % b
  split
  · rename_i h
    have h1 : b ^ p = b ^ k * (b * b ^ (p - k - 1)) := by
      rw [← pow_succ', ← pow_add]
      congr 1
      omega
    rw [h1, Nat.mul_assoc, Nat.add_mul_div_left _ _ (Nat.pow_pos hb), Nat.mul_assoc, Nat.add_mul_mod_self_left]
  · rename_i h
    have h1 : b ^ k = b ^ p * b ^ (k - p) := by
      rw [← pow_add]
      congr 1
      omega
    rw [h1, ← Nat.div_div_eq_div_mul, Nat.add_mul_div_left _ _ (Nat.pow_pos hb), Nat.div_eq_of_lt hlo, Nat.zero_add]

theorem digit_change {b N : Nat} (hb : 0 < b) {o : Blk} (ho : o.ok b N = true) {n v : Nat}
    (h : (change b N o n).testBit v = true) :
    ∃ x, n.testBit x = true ∧ ∀ k, digit b x k = o.kind.val k (digit b v (o.kind.src k)) := by
  unfold Blk.ok at ho
  obtain ⟨-, ho⟩ := cond_both ho
  obtain ⟨hw, ho⟩ := cond_both ho
  obtain ⟨e, he, h⟩ := testBit_shifteds ho h
  unfold Shift.ok at he
  obtain ⟨h0, he⟩ := cond_both he
  obtain ⟨x, h1, h2, h3⟩ := testBit_shifted (Nat.eq_of_beq_eq_true h0) h
  refine ⟨x, h1, ?_⟩
  have hw0 : 0 < b ^ o.pos := Nat.pow_pos hb
  have hB0 : 0 < b ^ o.span := Nat.pow_pos hb
  have hx : x = x % b ^ o.pos + b ^ o.pos * (x / b ^ o.pos % b ^ o.span + b ^ o.span * (x / b ^ o.pos / b ^ o.span)) := by
    rw [Nat.mod_add_div, Nat.mod_add_div]
  have hlo : x % b ^ o.pos < b ^ o.pos := Nat.mod_lt _ hw0
  have hd : x / b ^ o.pos % b ^ o.span < b ^ o.span := Nat.mod_lt _ hB0
  have key := allBelow_holds he hd
  generalize x % b ^ o.pos = lo at *
  generalize x / b ^ o.pos / b ^ o.span = hi at *
  generalize x / b ^ o.pos % b ^ o.span = d at *
  rw [bitOf_of_testBit h2, cond_false] at key
  obtain ⟨k1, key⟩ := cond_both key
  obtain ⟨k2, key⟩ := cond_both key
  have k1 : e.down ≤ d + e.up := Nat.le_of_ble_eq_true k1
  have k2 : d + e.up - e.down < b ^ o.span := Nat.le_of_ble_eq_true k2
  change allBelow o.span (fun k => Nat.beq (digit b d k) (o.kind.val (o.pos + k)
    (digit b (d + e.up - e.down) (o.kind.src (o.pos + k) - o.pos)))) = true at key
  have hv : v = lo + b ^ o.pos * ((d + e.up - e.down) + b ^ o.span * hi) := by
    have e1 : b ^ o.pos * ((d + e.up - e.down) + b ^ o.span * hi) + e.down * b ^ o.pos =
        b ^ o.pos * (d + b ^ o.span * hi) + e.up * b ^ o.pos := by
      obtain ⟨z, hz⟩ : ∃ z, d + e.up = z + e.down := ⟨d + e.up - e.down, by omega⟩
      rw [hz, Nat.add_sub_cancel]
      calc _ = b ^ o.pos * (z + e.down) + b ^ o.pos * (b ^ o.span * hi) := by ring
        _ = _ := by rw [← hz]; ring
    omega
  generalize d + e.up - e.down = d' at *
  intro k
  rw [hx, hv]
  rcases Nat.lt_or_ge k o.pos with hk | hk
  · rw [Kind.src_out hw (.inl hk), Kind.val_out hw (.inl hk), digit_parts hb hlo, digit_parts hb hlo, if_pos hk, if_pos hk]
  · rcases Nat.lt_or_ge k (o.pos + o.span) with hk' | hk'
    · obtain ⟨s1, s2⟩ := Kind.src_in hw hk hk'
      rw [digit_parts hb hlo, digit_parts hb hlo, if_neg (by omega), if_neg (by omega), digit_parts hb hd, digit_parts hb k2,
        if_pos (by omega), if_pos (by omega)]
      have := Nat.eq_of_beq_eq_true (allBelow_holds key (p := k - o.pos) (by omega))
      rwa [show o.pos + (k - o.pos) = k by omega] at this
    · rw [Kind.src_out hw (.inr hk'), Kind.val_out hw (.inr hk'), digit_parts hb hlo, digit_parts hb hlo, if_neg (by omega),
        if_neg (by omega), digit_parts hb hd, digit_parts hb k2, if_neg (by omega), if_neg (by omega)]

/-- where a digit comes from after all changes -/
def srcs : List Blk → Nat → Nat
  | [], k => k
  | o :: l, k => o.kind.src (srcs l k)

/-- what becomes of its value -/
def vals : List Blk → Nat → Nat → Nat
  | [], _, a => a
  | o :: l, k, a => vals l k (o.kind.val (srcs l k) a)

/-- all changes do what they should -/
noncomputable def allOk (b N : Nat) (l : List Blk) : Bool :=
  List.rec (motive := fun _ => Bool) true (fun o _ ih => cond (o.ok b N) ih false) l

theorem digit_changes {b N : Nat} (hb : 0 < b) {l : List Blk} (ho : allOk b N l = true) {n v : Nat}
    (h : (changes b N l n).testBit v = true) :
    ∃ x, n.testBit x = true ∧ ∀ k, digit b x k = vals l k (digit b v (srcs l k)) := by
  induction l generalizing v with
  | nil => exact ⟨v, h, fun k => rfl⟩
  | cons o l ih =>
    obtain ⟨h1, h2⟩ := cond_both ho
    obtain ⟨y, hy, hd⟩ := digit_change hb h1 (show (change b N o (changes b N l n)).testBit v = true from h)
    obtain ⟨x, hx, hd'⟩ := ih h2 hy
    refine ⟨x, hx, fun k => ?_⟩
    rw [hd' k, hd]
    rfl

/-! ## Rows -/

theorem get_build (f : Nat → Nat) (d i w j : Nat) (hj : j < 2 ^ d) : (build f d i w).get j = f (i + w * j) := by
  induction d generalizing i w j with
  | zero =>
    have : j = 0 := by omega
    subst this
    rfl
  | succ d ih =>
    change cond (Nat.beq (bitOf j 0) 0) ((build f d i (2 * w)).get (j / 2)) ((build f d (i + w) (2 * w)).get (j / 2)) = _
    have hj2 : j / 2 < 2 ^ d := by rw [pow_succ] at hj; omega
    have hb : bitOf j 0 = j % 2 := by rw [bitOf_eq]; show j / 2 ^ 0 % 2 = _; rw [pow_zero, Nat.div_one]
    rw [hb]
    rcases Nat.mod_two_eq_zero_or_one j with h | h
    · rw [h]
      show (build f d i (2 * w)).get (j / 2) = _
      rw [ih _ _ _ hj2]
      congr 1
      have : w * j = w * (2 * (j / 2)) := by congr 1; omega
      rw [this]
      ring
    · rw [h]
      show (build f d (i + w) (2 * w)).get (j / 2) = _
      rw [ih _ _ _ hj2]
      congr 1
      have : w * j = w * (2 * (j / 2) + 1) := by congr 1; omega
      rw [this]
      ring

theorem get_union (s t : Rows) (j v : Nat) (h : ((union s t).get j).testBit v = true) :
    (s.get j).testBit v = true ∨ (t.get j).testBit v = true := by
  induction s generalizing t j with
  | leaf n =>
    cases t with
    | leaf m =>
      change (n ||| m).testBit v = true at h
      rw [Nat.testBit_or, Bool.or_eq_true] at h
      exact h
    | node l r => exact .inl h
  | node l r ihl ihr =>
    cases t with
    | leaf m => exact .inl h
    | node l' r' =>
      change (cond (Nat.beq (bitOf j 0) 0) ((union l l').get (j / 2)) ((union r r').get (j / 2))).testBit v = true at h
      change (cond (Nat.beq (bitOf j 0) 0) (l.get (j / 2)) (r.get (j / 2))).testBit v = true ∨
        (cond (Nat.beq (bitOf j 0) 0) (l'.get (j / 2)) (r'.get (j / 2))).testBit v = true
      cases hb : Nat.beq (bitOf j 0) 0 with
      | true => rw [hb] at h; exact ihl _ _ h
      | false => rw [hb] at h; exact ihr _ _ h

/-! ## Sets of cubes -/

section

variable (R d : Nat) (D : Nat → Nat → Cube3 → Prop)

/-- every cube that is described by a member of the set has a property -/
def Holds (s : Rows) (Q : Cube3 → Prop) : Prop :=
  ∀ i < R, ∀ v, (s.get i).testBit v = true → ∀ c, D i v c → Q c

/-- the move of the rows is a move of the cube -/
def Gen.Does (g : Gen) (m : AxisMove) : Prop :=
  ∀ i < R, g.row i < R ∧ ∀ n v c, (g.act n).testBit v = true → D i v c → ∃ x, n.testBit x = true ∧ D (g.row i) x (moved c m)

/-- after some of the moves -/
def Near : List AxisMove → (Cube3 → Prop) → Cube3 → Prop
  | [], Q, c => Q c
  | m :: l, Q, c => Near l Q c ∨ Near l Q (moved c m)

/-- after at most `n` of the moves `M` -/
def Within (M : AxisMove → Prop) (T : Cube3 → Prop) (n : Nat) (c : Cube3) : Prop :=
  ∃ w : List AxisMove, (∀ m ∈ w, M m) ∧ w.length ≤ n ∧ T (movedAlg c w)

variable {R d D}

theorem turn_holds (hR : R ≤ 2 ^ d) {g : Gen} {m : AxisMove} (hg : g.Does R D m) {s : Rows} {Q : Cube3 → Prop}
    (h : Holds R D s Q) : Holds R D (turn d g s) fun c => Q c ∨ Q (moved c m) := by
  intro i hi v hv c hc
  unfold turn at hv
  rw [get_build _ _ _ _ _ (by omega), Nat.zero_add, Nat.one_mul] at hv
  change (s.get i ||| cond (Nat.beq (s.get (g.row i)) 0) 0 (g.act (s.get (g.row i)))).testBit v = true at hv
  rw [Nat.testBit_or, Bool.or_eq_true] at hv
  rcases hv with hv | hv
  · exact .inl (h i hi v hv c hc)
  · cases hb : Nat.beq (s.get (g.row i)) 0 with
    | true => rw [hb, cond_true, Nat.zero_testBit] at hv; cases hv
    | false =>
      rw [hb, cond_false] at hv
      obtain ⟨x, hx, hd⟩ := (hg i hi).2 _ v c hv hc
      exact .inr (h _ (hg i hi).1 x hx _ hd)

theorem turns_holds (hR : R ≤ 2 ^ d) {l : List (Gen × AxisMove)} (hg : ∀ p ∈ l, p.1.Does R D p.2) {s : Rows}
    {Q : Cube3 → Prop} (h : Holds R D s Q) : Holds R D (turns d (l.map Prod.fst) s) (Near (l.map Prod.snd) Q) := by
  induction l with
  | nil => exact h
  | cons p l ih =>
    exact turn_holds hR (hg p List.mem_cons_self) (ih fun q hq => hg q (List.mem_cons_of_mem _ hq))

theorem union_holds {s t : Rows} {Q : Cube3 → Prop} (hs : Holds R D s Q) (ht : Holds R D t Q) : Holds R D (union s t) Q := by
  intro i hi v hv c hc
  rcases get_union s t i v hv with h | h
  · exact hs i hi v h c hc
  · exact ht i hi v h c hc

theorem step_holds (hR : R ≤ 2 ^ d) {l : List (List (Gen × AxisMove))} (hg : ∀ f ∈ l, ∀ p ∈ f, p.1.Does R D p.2) {s : Rows}
    {Q Q' : Cube3 → Prop} (h : Holds R D s Q) (hQ : ∀ c, Q c → Q' c) (hn : ∀ f ∈ l, ∀ c, Near (f.map Prod.snd) Q c → Q' c) :
    Holds R D (step d (l.map fun f => f.map Prod.fst) s) Q' := by
  induction l with
  | nil => exact fun i hi v hv c hc => hQ c (h i hi v hv c hc)
  | cons f l ih =>
    refine union_holds ?_ (ih (fun q hq => hg q (List.mem_cons_of_mem _ hq)) fun q hq => hn q (List.mem_cons_of_mem _ hq))
    exact fun i hi v hv c hc => hn f List.mem_cons_self c
      (turns_holds hR (hg f List.mem_cons_self) h i hi v hv c hc)

/-- one more move -/
theorem Within.cons {M : AxisMove → Prop} {T : Cube3 → Prop} {n : Nat} {c : Cube3} {m : AxisMove} (hm : M m)
    (h : Within M T n (moved c m)) : Within M T (n + 1) c := by
  obtain ⟨w, h1, h2, h3⟩ := h
  exact ⟨m :: w, List.forall_mem_cons.2 ⟨hm, h1⟩, Nat.succ_le_succ h2, h3⟩

theorem Within.mono {M : AxisMove → Prop} {T : Cube3 → Prop} {n : Nat} {c : Cube3} (h : Within M T n c) :
    Within M T (n + 1) c := by
  obtain ⟨w, h1, h2, h3⟩ := h
  exact ⟨w, h1, Nat.le_succ_of_le h2, h3⟩

/-- a face: a half turn, or a half turn and a quarter turn that make up the other quarter turn -/
def Face (M : AxisMove → Prop) (l : List AxisMove) : Prop :=
  (∃ h, l = [h] ∧ M h) ∨ ∃ h q r, l = [h, q] ∧ M h ∧ M q ∧ M r ∧ ∀ c : Cube3, moved (moved c h) q = moved c r

theorem Face.near {M : AxisMove → Prop} {l : List AxisMove} (hf : Face M l) {T : Cube3 → Prop} {n : Nat} {c : Cube3}
    (h : Near l (Within M T n) c) : Within M T (n + 1) c := by
  rcases hf with ⟨a, rfl, ha⟩ | ⟨a, q, r, rfl, ha, hq, hr, e⟩
  · rcases h with h | h
    · exact Within.mono h
    · exact Within.cons ha h
  · rcases h with (h | h) | h | h
    · exact Within.mono h
    · exact Within.cons hq h
    · exact Within.cons ha h
    · refine Within.cons hr ?_
      rw [← e c]
      exact h

theorem steps_holds (hR : R ≤ 2 ^ d) {l : List (List (Gen × AxisMove))} (hg : ∀ f ∈ l, ∀ p ∈ f, p.1.Does R D p.2)
    {M : AxisMove → Prop} (hf : ∀ f ∈ l, Face M (f.map Prod.snd)) {s : Rows} {T : Cube3 → Prop} (h : Holds R D s T) (n : Nat) :
    Holds R D (steps d (l.map fun f => f.map Prod.fst) s n) (Within M T n) := by
  induction n with
  | zero => exact fun i hi v hv c hc => ⟨[], fun m hm => absurd hm List.not_mem_nil, Nat.le_refl _, h i hi v hv c hc⟩
  | succ n ih => exact step_holds hR hg ih (fun c => Within.mono) fun f hf' c => (hf f hf').near

theorem single_holds (hR : R ≤ 2 ^ d) {j u : Nat} {T : Cube3 → Prop} (h : ∀ c, D j u c → T c) : Holds R D (single d j u) T := by
  intro i hi v hv c hc
  unfold single at hv
  rw [get_build _ _ _ _ _ (by omega), Nat.zero_add, Nat.one_mul] at hv
  cases hb : Nat.beq j i with
  | false => rw [hb, cond_false, Nat.zero_testBit] at hv; cases hv
  | true =>
    rw [hb, cond_true] at hv
    have e : j = i := Nat.eq_of_beq_eq_true hb
    have e' : u = v := by
      change (2 ^ u).testBit v = true at hv
      rw [Nat.testBit_two_pow] at hv
      exact of_decide_eq_true hv
    subst e e'
    exact h c hc

end

theorem testBit_select {f : Nat → Bool} {n v : Nat} (hv : v < n) (h : f v = true) : (select f n).testBit v = true := by
  induction n with
  | zero => cases hv
  | succ n ih =>
    change (cond (f n) (select f n ||| 2 ^ n) (select f n)).testBit v = true
    rcases Nat.lt_succ_iff_lt_or_eq.1 hv with hv | rfl
    · cases f n
      · exact ih hv
      · rw [cond_true, Nat.testBit_or, ih hv, Bool.true_or]
    · rw [h, cond_true, Nat.testBit_or, Nat.testBit_two_pow_self, Bool.or_true]

theorem covered {s : Rows} {m : Nat → Nat} {r : Nat} (h : covers s m r = true) {i v : Nat} (hi : i < r)
    (hv : (m i).testBit v = true) : (s.get i).testBit v = true := by
  have h1 := Nat.eq_of_beq_eq_true (allBelow_holds h hi)
  change s.get i &&& m i = m i at h1
  rw [← h1, Nat.testBit_and, Bool.and_eq_true] at hv
  exact hv.1

end Barbarosa.Blocks
