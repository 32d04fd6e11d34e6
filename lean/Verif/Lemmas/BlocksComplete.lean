import Verif.Lemmas.Blocks

/-!
# Rows of bits: nothing is missing

`Blocks` shows that everything in a computed set belongs there. Here: everything that belongs there is in it.
-/

namespace Barbarosa.Blocks

/-! ## Changes -/

theorem bitOf_eq_one {V d : Nat} (h : V.testBit d = true) : Nat.beq (bitOf V d) 1 = true := by
  rw [Nat.testBit_eq_decide_div_mod_eq] at h
  have h := of_decide_eq_true h
  have e : bitOf V d = 1 := by rw [bitOf_eq]; exact h
  rw [e]
  rfl

theorem widen_testBit {w V B i d : Nat} (hd : d < B) (hV : V.testBit d = true) (h1 : d * w ≤ i) (h2 : i < d * w + w) :
    (widen w V B).testBit i = true := by
  induction B with
  | zero => cases hd
  | succ B ih =>
    change (cond (Nat.beq (bitOf V B) 1) (widen w V B ||| ((2 ^ w - 1) <<< (B * w))) (widen w V B)).testBit i = true
    rcases Nat.lt_succ_iff_lt_or_eq.1 hd with hd | rfl
    · cases Nat.beq (bitOf V B) 1 with
      | false => exact ih hd
      | true => rw [cond_true, Nat.testBit_or, ih hd, Bool.true_or]
    · rw [bitOf_eq_one hV, cond_true, Nat.testBit_or, Bool.or_eq_true, Nat.testBit_shiftLeft, Bool.and_eq_true,
        Nat.testBit_two_pow_sub_one, decide_eq_true_eq, decide_eq_true_eq]
      exact .inr ⟨h1, by omega⟩

theorem mask_testBit {b N p s V i : Nat} (hb : 0 < b) (hN : p + s ≤ N) (hi : i < b ^ N)
    (h : V.testBit (i / b ^ p % b ^ s) = true) : (mask b N p s V).testBit i = true := by
  show (Bits.spread (widen (b ^ p) V (b ^ s)) (b ^ (p + s)) (b ^ (N - p - s))).testBit i = true
  rw [Bits.testBit_spread]
  have hps : 0 < b ^ (p + s) := Nat.pow_pos hb
  have hp : 0 < b ^ p := Nat.pow_pos hb
  refine ⟨i / b ^ (p + s), ?_, Nat.div_mul_le_self _ _, ?_⟩
  · rw [Nat.div_lt_iff_lt_mul hps, ← pow_add]
    rwa [show N - p - s + (p + s) = N by omega]
  · have e : i - i / b ^ (p + s) * b ^ (p + s) = i % b ^ (p + s) := by
      rw [Nat.mod_eq_sub_div_mul]
    have hd : i % b ^ (p + s) / b ^ p = i / b ^ p % b ^ s := by
      rw [pow_add, Nat.mod_mul_right_div_self]
    rw [e]
    refine widen_testBit (d := i / b ^ p % b ^ s) (Nat.mod_lt _ (Nat.pow_pos hb)) h ?_ ?_
    · rw [← hd]
      exact Nat.div_mul_le_self _ _
    · rw [← hd]
      have := Nat.lt_div_mul_add hp (a := i % b ^ (p + s))
      exact this

theorem shifted_testBit {b N : Nat} {o : Blk} {e : Shift} {n v x : Nat} (he : e.up * e.down = 0) (hx : n.testBit x = true)
    (hm : (mask b N o.pos o.span e.vals).testBit x = true) (hv : v + e.down * b ^ o.pos = x + e.up * b ^ o.pos) :
    (shifted b N o e n).testBit v = true := by
  have hl : (n &&& mask b N o.pos o.span e.vals).testBit x = true := by
    rw [Nat.testBit_and, hx, hm]
    rfl
  unfold shifted
  cases hu : Nat.beq e.up 0 with
  | true =>
    have hu' := Nat.eq_of_beq_eq_true hu
    rw [cond_true]
    rw [hu', Nat.zero_mul, Nat.add_zero] at hv
    cases hd : Nat.beq e.down 0 with
    | true =>
      have hd' := Nat.eq_of_beq_eq_true hd
      rw [hd', Nat.zero_mul, Nat.add_zero] at hv
      rw [hv]
      exact hl
    | false =>
      show ((n &&& mask b N o.pos o.span e.vals) >>> (e.down * b ^ o.pos)).testBit v = true
      rw [Nat.testBit_shiftRight, Nat.add_comm, hv]
      exact hl
  | false =>
    have hd : e.down = 0 := (Nat.mul_eq_zero.1 he).resolve_left (Nat.ne_of_beq_eq_false hu)
    rw [hd, Nat.zero_mul, Nat.add_zero] at hv
    show ((n &&& mask b N o.pos o.span e.vals) <<< (e.up * b ^ o.pos)).testBit v = true
    rw [Nat.testBit_shiftLeft, Bool.and_eq_true, decide_eq_true_eq, hv, Nat.add_sub_cancel]
    exact ⟨Nat.le_add_left _ _, hl⟩

theorem shifteds_testBit {b N : Nat} {o : Blk} {n v : Nat} {l : List Shift} {e : Shift} (he : e ∈ l)
    (h : (shifted b N o e n).testBit v = true) : (shifteds b N o n l).testBit v = true := by
  induction l with
  | nil => exact absurd he List.not_mem_nil
  | cons e' l ih =>
    cases l with
    | nil =>
      rw [List.mem_singleton.1 he] at h
      exact h
    | cons e'' l =>
      show (shifteds b N o n (e'' :: l) ||| shifted b N o e' n).testBit v = true
      rw [Nat.testBit_or, Bool.or_eq_true]
      rcases List.mem_cons.1 he with rfl | he
      · exact .inr h
      · exact .inl (ih he)

/-- one of the shifts is for the value -/
noncomputable def shiftFor (d : Nat) (l : List Shift) : Bool :=
  List.rec (motive := fun _ => Bool) false (fun e _ ih => cond (Nat.beq (bitOf e.vals d) 1) true ih) l

theorem shiftFor_spec {d : Nat} {l : List Shift} (h : shiftFor d l = true) : ∃ e ∈ l, e.vals.testBit d = true := by
  induction l with
  | nil => cases h
  | cons e l ih =>
    change cond (Nat.beq (bitOf e.vals d) 1) true (shiftFor d l) = true at h
    cases hb : Nat.beq (bitOf e.vals d) 1 with
    | true => exact ⟨e, List.mem_cons_self, testBit_of_bitOf hb⟩
    | false =>
      rw [hb] at h
      obtain ⟨e', h1, h2⟩ := ih h
      exact ⟨e', List.mem_cons_of_mem _ h1, h2⟩

/-- a change leaves no value out -/
noncomputable def Blk.full (b : Nat) (o : Blk) : Bool := allBelow (Nat.pow b o.span) fun d => shiftFor d o.shifts

theorem oks_mem {b : Nat} {o : Blk} {l : List Shift} (h : oks b o l = true) {e : Shift} (he : e ∈ l) : e.ok b o = true := by
  induction l with
  | nil => exact absurd he List.not_mem_nil
  | cons e' l ih =>
    obtain ⟨h1, h2⟩ := cond_both h
    rcases List.mem_cons.1 he with rfl | he
    · exact h1
    · exact ih h2 he

theorem change_testBit {b N : Nat} (hb : 0 < b) {o : Blk} (ho : o.ok b N = true) (hf : o.full b = true) {n x : Nat}
    (hx : x < b ^ N) (h : n.testBit x = true) : ∃ v < b ^ N, (change b N o n).testBit v = true ∧
      ∀ k, digit b x k = o.kind.val k (digit b v (o.kind.src k)) := by
  unfold Blk.ok at ho
  obtain ⟨hN, ho⟩ := cond_both ho
  have hN : o.pos + o.span ≤ N := Nat.le_of_ble_eq_true hN
  obtain ⟨hw, ho⟩ := cond_both ho
  have hB0 : 0 < b ^ o.span := Nat.pow_pos hb
  obtain ⟨e, hel, hev⟩ := shiftFor_spec (allBelow_spec hf (Nat.mod_lt (x / b ^ o.pos) hB0))
  have hev : e.vals.testBit (x / b ^ o.pos % b ^ o.span) = true := hev
  have he := oks_mem ho hel
  unfold Shift.ok at he
  obtain ⟨h0, he⟩ := cond_both he
  have h0 : e.up * e.down = 0 := Nat.eq_of_beq_eq_true h0
  have hd : x / b ^ o.pos % b ^ o.span < b ^ o.span := Nat.mod_lt _ hB0
  have key := allBelow_spec he hd
  rw [bitOf_of_testBit hev, cond_false] at key
  obtain ⟨k1, key⟩ := cond_both key
  obtain ⟨k2, key⟩ := cond_both key
  have k1 : e.down ≤ x / b ^ o.pos % b ^ o.span + e.up := Nat.le_of_ble_eq_true k1
  have k2 : x / b ^ o.pos % b ^ o.span + e.up - e.down < b ^ o.span := Nat.le_of_ble_eq_true k2
  have hm := mask_testBit hb hN hx hev
  have hlo : x % b ^ o.pos < b ^ o.pos := Nat.mod_lt _ (Nat.pow_pos hb)
  have hxe : x = x % b ^ o.pos + b ^ o.pos * (x / b ^ o.pos % b ^ o.span + b ^ o.span * (x / b ^ o.pos / b ^ o.span)) := by
    rw [Nat.mod_add_div, Nat.mod_add_div]
  have hhi : x / b ^ o.pos / b ^ o.span < b ^ (N - o.pos - o.span) := by
    rw [Nat.div_div_eq_div_mul, ← pow_add, Nat.div_lt_iff_lt_mul (Nat.pow_pos hb), ← pow_add]
    rwa [show N - o.pos - o.span + (o.pos + o.span) = N by omega]
  change allBelow o.span (fun k => Nat.beq (digit b (x / b ^ o.pos % b ^ o.span) k) (o.kind.val (o.pos + k)
    (digit b (x / b ^ o.pos % b ^ o.span + e.up - e.down) (o.kind.src (o.pos + k) - o.pos)))) = true at key
  generalize x % b ^ o.pos = lo at *
  generalize x / b ^ o.pos / b ^ o.span = hi at *
  generalize x / b ^ o.pos % b ^ o.span = d at *
  have e1 : b ^ o.pos * ((d + e.up - e.down) + b ^ o.span * hi) + e.down * b ^ o.pos =
      b ^ o.pos * (d + b ^ o.span * hi) + e.up * b ^ o.pos := by
    obtain ⟨z, hz⟩ : ∃ z, d + e.up = z + e.down := ⟨d + e.up - e.down, by omega⟩
    rw [hz, Nat.add_sub_cancel]
    calc _ = b ^ o.pos * (z + e.down) + b ^ o.pos * (b ^ o.span * hi) := by ring
      _ = _ := by rw [← hz]; ring
  refine ⟨lo + b ^ o.pos * ((d + e.up - e.down) + b ^ o.span * hi), ?_, ?_, ?_⟩
  · have e2 : b ^ N = b ^ o.pos * (b ^ o.span * b ^ (N - o.pos - o.span)) := by
      rw [← pow_add, ← pow_add]
      congr 1
      omega
    have l1 : (d + e.up - e.down) + b ^ o.span * hi + 1 ≤ b ^ o.span * b ^ (N - o.pos - o.span) := by
      calc (d + e.up - e.down) + b ^ o.span * hi + 1 ≤ b ^ o.span + b ^ o.span * hi := by omega
        _ = b ^ o.span * (hi + 1) := by ring
        _ ≤ _ := Nat.mul_le_mul_left _ hhi
    calc lo + b ^ o.pos * ((d + e.up - e.down) + b ^ o.span * hi)
        < b ^ o.pos + b ^ o.pos * ((d + e.up - e.down) + b ^ o.span * hi) := by omega
      _ = b ^ o.pos * ((d + e.up - e.down) + b ^ o.span * hi + 1) := by ring
      _ ≤ b ^ o.pos * (b ^ o.span * b ^ (N - o.pos - o.span)) := Nat.mul_le_mul_left _ l1
      _ = _ := e2.symm
  · refine shifteds_testBit hel (shifted_testBit h0 h hm ?_)
    omega
  · generalize d + e.up - e.down = d' at *
    intro k
    rw [hxe]
    rcases Nat.lt_or_ge k o.pos with hk | hk
    · rw [Kind.src_out hw (.inl hk), Kind.val_out hw (.inl hk), digit_parts hb hlo, digit_parts hb hlo, if_pos hk, if_pos hk]
    · rcases Nat.lt_or_ge k (o.pos + o.span) with hk' | hk'
      · obtain ⟨s1, s2⟩ := Kind.src_in hw hk hk'
        rw [digit_parts hb hlo, digit_parts hb hlo, if_neg (by omega), if_neg (by omega), digit_parts hb hd, digit_parts hb k2,
          if_pos (by omega), if_pos (by omega)]
        have := Nat.eq_of_beq_eq_true (allBelow_spec key (p := k - o.pos) (by omega))
        rwa [show o.pos + (k - o.pos) = k by omega] at this
      · rw [Kind.src_out hw (.inr hk'), Kind.val_out hw (.inr hk'), digit_parts hb hlo, digit_parts hb hlo, if_neg (by omega),
          if_neg (by omega), digit_parts hb hd, digit_parts hb k2, if_neg (by omega), if_neg (by omega)]

/-- no change leaves a value out -/
noncomputable def allFull (b : Nat) (l : List Blk) : Bool :=
  List.rec (motive := fun _ => Bool) true (fun o _ ih => cond (o.full b) ih false) l

theorem changes_testBit {b N : Nat} (hb : 0 < b) {l : List Blk} (ho : allOk b N l = true) (hf : allFull b l = true) {n x : Nat}
    (hx : x < b ^ N) (h : n.testBit x = true) : ∃ v < b ^ N, (changes b N l n).testBit v = true ∧
      ∀ k, digit b x k = vals l k (digit b v (srcs l k)) := by
  induction l with
  | nil => exact ⟨x, hx, h, fun k => rfl⟩
  | cons o l ih =>
    obtain ⟨h1, h2⟩ := cond_both ho
    obtain ⟨f1, f2⟩ := cond_both hf
    obtain ⟨y, hy, hyb, hd⟩ := ih h2 f2
    obtain ⟨v, hv, hvb, hd'⟩ := change_testBit hb h1 f1 hy hyb
    refine ⟨v, hv, hvb, fun k => ?_⟩
    rw [hd k, hd']
    rfl

/-! ## Rows -/

/-- a tree with `2 ^ d` rows -/
def Rows.Deep : Nat → Rows → Prop
  | 0, .leaf _ => True
  | 0, .node _ _ => False
  | _ + 1, .leaf _ => False
  | d + 1, .node l r => l.Deep d ∧ r.Deep d

theorem build_deep (f : Nat → Nat) (d i w : Nat) : (build f d i w).Deep d := by
  induction d generalizing i w with
  | zero => trivial
  | succ d ih => exact ⟨ih _ _, ih _ _⟩

theorem union_deep {d : Nat} {s t : Rows} (hs : s.Deep d) (ht : t.Deep d) : (union s t).Deep d := by
  induction d generalizing s t with
  | zero =>
    cases s with
    | node => cases hs
    | leaf => cases t with
      | node => cases ht
      | leaf => trivial
  | succ d ih =>
    cases s with
    | leaf => cases hs
    | node => cases t with
      | leaf => cases ht
      | node => exact ⟨ih hs.1 ht.1, ih hs.2 ht.2⟩

theorem union_get {d : Nat} {s t : Rows} (hs : s.Deep d) (ht : t.Deep d) (j v : Nat)
    (h : (s.get j).testBit v = true ∨ (t.get j).testBit v = true) : ((union s t).get j).testBit v = true := by
  induction d generalizing s t j with
  | zero =>
    cases s with
    | node => cases hs
    | leaf n => cases t with
      | node => cases ht
      | leaf m =>
        show (n ||| m).testBit v = true
        rw [Nat.testBit_or, Bool.or_eq_true]
        exact h
  | succ d ih =>
    cases s with
    | leaf => cases hs
    | node l r => cases t with
      | leaf => cases ht
      | node l' r' =>
        change (cond (Nat.beq (bitOf j 0) 0) (l.get (j / 2)) (r.get (j / 2))).testBit v = true ∨
          (cond (Nat.beq (bitOf j 0) 0) (l'.get (j / 2)) (r'.get (j / 2))).testBit v = true at h
        show (cond (Nat.beq (bitOf j 0) 0) ((union l l').get (j / 2)) ((union r r').get (j / 2))).testBit v = true
        cases hb : Nat.beq (bitOf j 0) 0 with
        | true => rw [hb] at h; exact ih hs.1 ht.1 _ h
        | false => rw [hb] at h; exact ih hs.2 ht.2 _ h

theorem turn_deep (d : Nat) (g : Gen) (s : Rows) : (turn d g s).Deep d := build_deep _ _ _ _

theorem turns_deep {d : Nat} {s : Rows} (hs : s.Deep d) (l : List Gen) : (turns d l s).Deep d := by
  cases l with
  | nil => exact hs
  | cons g l => exact turn_deep _ _ _

theorem step_deep {d : Nat} {s : Rows} (hs : s.Deep d) (l : List (List Gen)) : (step d l s).Deep d := by
  induction l with
  | nil => exact hs
  | cons g l ih => exact union_deep (turns_deep hs g) ih

/-! ## Sets of cubes -/

section

variable (R d B : Nat) (D : Nat → Nat → Cube3 → Prop)

/-- every description of a cube with the property is in the set -/
def Complete (s : Rows) (Q : Cube3 → Prop) : Prop :=
  ∀ i < R, ∀ v < B, ∀ c, D i v c → Q c → (s.get i).testBit v = true

/-- the move of the rows leaves nothing out -/
def Gen.Finds (g : Gen) (m : AxisMove) : Prop :=
  ∀ i < R, ∀ v < B, ∀ c, D i v c → g.row i < R ∧ ∃ x < B, D (g.row i) x (moved c m) ∧
    ∀ n : Nat, n.testBit x = true → (g.act n).testBit v = true

variable {R d B D}

theorem turn_complete (hR : R ≤ 2 ^ d) {g : Gen} {m : AxisMove} (hg : g.Finds R B D m) {s : Rows} {Q : Cube3 → Prop}
    (h : Complete R B D s Q) : Complete R B D (turn d g s) fun c => Q c ∨ Q (moved c m) := by
  intro i hi v hv c hc hQ
  unfold turn
  rw [get_build _ _ _ _ _ (by omega), Nat.zero_add, Nat.one_mul]
  show (s.get i ||| cond (Nat.beq (s.get (g.row i)) 0) 0 (g.act (s.get (g.row i)))).testBit v = true
  rw [Nat.testBit_or, Bool.or_eq_true]
  rcases hQ with hQ | hQ
  · exact .inl (h i hi v hv c hc hQ)
  · obtain ⟨hr, x, hx, hd, ha⟩ := hg i hi v hv c hc
    have hb := h _ hr x hx _ hd hQ
    have hne : Nat.beq (s.get (g.row i)) 0 = false := by
      cases hb' : Nat.beq (s.get (g.row i)) 0 with
      | false => rfl
      | true =>
        rw [Nat.eq_of_beq_eq_true hb', Nat.zero_testBit] at hb
        cases hb
    rw [hne, cond_false]
    exact .inr (ha _ hb)

theorem Complete.mono {s : Rows} {Q Q' : Cube3 → Prop} (h : Complete R B D s Q) (hQ : ∀ c, Q' c → Q c) : Complete R B D s Q' :=
  fun i hi v hv c hc hq => h i hi v hv c hc (hQ c hq)

/-- one half turn of each face -/
theorem step_complete (hR : R ≤ 2 ^ d) {l : List (Gen × AxisMove)} (hg : ∀ p ∈ l, p.1.Finds R B D p.2) {s : Rows}
    (hs : s.Deep d) {Q : Cube3 → Prop} (h : Complete R B D s Q) :
    Complete R B D (step d (l.map fun p => [p.1]) s) fun c => Q c ∨ ∃ p ∈ l, Q (moved c p.2) := by
  induction l with
  | nil => exact h.mono fun c hc => hc.resolve_right fun ⟨p, hp, _⟩ => absurd hp List.not_mem_nil
  | cons p l ih =>
    intro i hi v hv c hc hQ
    refine union_get (s := turns d [p.1] s) (turns_deep hs _) (step_deep hs _) i v ?_
    have h1 := turn_complete hR (hg p List.mem_cons_self) h i hi v hv c hc
    have h2 := ih (fun q hq => hg q (List.mem_cons_of_mem _ hq)) i hi v hv c hc
    rcases hQ with hQ | ⟨q, hq, hQ⟩
    · exact .inl (h1 (.inl hQ))
    · rcases List.mem_cons.1 hq with rfl | hq
      · exact .inl (h1 (.inr hQ))
      · exact .inr (h2 (.inr ⟨q, hq, hQ⟩))

theorem steps_deep {s : Rows} (hs : s.Deep d) (l : List (List Gen)) (n : Nat) : (steps d l s n).Deep d := by
  induction n with
  | zero => exact hs
  | succ n ih => exact step_deep ih l

theorem steps_complete (hR : R ≤ 2 ^ d) {l : List (Gen × AxisMove)} (hg : ∀ p ∈ l, p.1.Finds R B D p.2) {M : AxisMove → Prop}
    (hM : ∀ m, M m → ∃ p ∈ l, p.2 = m) {s : Rows} (hs : s.Deep d) {T : Cube3 → Prop} (h : Complete R B D s T) (n : Nat) :
    Complete R B D (steps d (l.map fun p => [p.1]) s n) (Within M T n) := by
  induction n with
  | zero =>
    refine h.mono fun c ⟨w, _, h2, h3⟩ => ?_
    rw [List.length_eq_zero_iff.1 (Nat.le_zero.1 h2)] at h3
    exact h3
  | succ n ih =>
    refine (step_complete hR hg (steps_deep hs _ n) ih).mono fun c ⟨w, h1, h2, h3⟩ => ?_
    cases w with
    | nil => exact .inl ⟨[], h1, Nat.zero_le _, h3⟩
    | cons m w =>
      obtain ⟨p, hp, rfl⟩ := hM m (h1 m List.mem_cons_self)
      exact .inr ⟨p, hp, w, fun q hq => h1 q (List.mem_cons_of_mem _ hq), Nat.le_of_succ_le_succ h2, h3⟩

theorem single_complete (hR : R ≤ 2 ^ d) {j u : Nat} {T : Cube3 → Prop}
    (h : ∀ i < R, ∀ v < B, ∀ c, D i v c → T c → i = j ∧ v = u) : Complete R B D (single d j u) T := by
  intro i hi v hv c hc hT
  obtain ⟨rfl, rfl⟩ := h i hi v hv c hc hT
  unfold single
  rw [get_build _ _ _ _ _ (by omega), Nat.zero_add, Nat.one_mul, Nat.beq_refl, cond_true]
  exact Nat.testBit_two_pow_self

end

end Barbarosa.Blocks
