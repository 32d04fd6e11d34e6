import Verif.Lemmas.TwoSolve
import Verif.Lemmas.CrossCount
import Mathlib.Data.Nat.ModEq
import Mathlib.Algebra.BigOperators.Intervals
import Mathlib.Algebra.BigOperators.ModEq
import Mathlib.Data.Set.Card

/-!
# How many arrangements of the 2x2 take how many moves
-/

namespace Barbarosa.Two

/-- the bits at the multiples of 10 below 730 -/
def everyTenth : Nat := Bits.spread 1 10 73

/-- the bits whose numbers have the remainder `k` modulo 10 -/
def tenth (S k : Nat) : Nat := Nat.land (Nat.shiftRight S k) everyTenth

/-- the number of bits below 729 that are set: adding the bits whose numbers have the same remainder modulo 10, and then the
digits in base 1024, by casting out -/
def pop (S : Nat) : Nat :=
  Nat.mod (Nat.add (tenth S 0) (Nat.add (tenth S 1) (Nat.add (tenth S 2) (Nat.add (tenth S 3) (Nat.add (tenth S 4)
    (Nat.add (tenth S 5) (Nat.add (tenth S 6) (Nat.add (tenth S 7) (Nat.add (tenth S 8) (tenth S 9)))))))))) 1023

/-- the number of members, if no leaf has further bits -/
noncomputable def count (t : Tree) : Nat :=
  Tree.rec (motive := fun _ => Nat) 0 (fun n => pop (Nat.land n (Nat.sub (Nat.pow 2 729) 1)))
    (fun _ _ _ _ _ _ _ a b c d e f g => Nat.add a (Nat.add b (Nat.add c (Nat.add d (Nat.add e (Nat.add f g)))))) t

/-- the numbers of arrangements at most 0, 1, ... turns away -/
def twoCounts : List Nat := [1, 10, 64, 385, 2232, 12224, 62360, 289896, 1159968, 3047716, 3671516, 3674160]

/-- are the numbers right? -/
noncomputable def counted (l : List Nat) : Tree → Bool :=
  List.rec (motive := fun _ => Tree → Bool) (fun _ => true)
    (fun a _ f t => cond (Nat.beq (count t) a) (f (step t)) false) l

theorem all_counted : counted twoCounts (only home) = true := by decide +kernel

/-! ## Counting bits -/

theorem testBit_everyTenth (i : Nat) : everyTenth.testBit i = true ↔ i < 730 ∧ i % 10 = 0 := by
  unfold everyTenth
  rw [Bits.testBit_spread]
  simp only [Nat.testBit_one_eq_true_iff_self_eq_zero]
  constructor
  · rintro ⟨x, h1, h2, h3⟩; omega
  · rintro ⟨h1, h2⟩
    exact ⟨i / 10, by omega, by omega, by omega⟩

theorem bit_tenth (S k i : Nat) : Bits.bit (tenth S k) i = if i < 730 ∧ i % 10 = 0 then Bits.bit S (k + i) else 0 := by
  show Bits.bit ((S >>> k) &&& everyTenth) i = _
  unfold Bits.bit
  rw [Nat.testBit_and, Nat.testBit_shiftRight]
  split
  · next h => rw [(testBit_everyTenth i).2 h, Bool.and_true]
  · next h =>
    have : everyTenth.testBit i = false := by
      rw [← Bool.not_eq_true, testBit_everyTenth]
      exact h
    rw [this, Bool.and_false]
    rfl

theorem tenth_lt (S k : Nat) : tenth S k < 2 ^ (10 * 73) := by
  apply Nat.lt_pow_two_of_testBit
  intro i hi
  have h := bit_tenth S k i
  rw [if_neg (by omega)] at h
  unfold Bits.bit at h
  cases h' : (tenth S k).testBit i
  · rfl
  · rw [h'] at h; cases h

theorem pow_mod_ten (i : Nat) (h : i % 10 = 0) : 2 ^ i ≡ 1 [MOD 1023] := by
  obtain ⟨j, rfl⟩ := Nat.dvd_of_mod_eq_zero h
  rw [pow_mul]
  have : 2 ^ 10 ≡ 1 [MOD 1023] := by decide
  simpa using this.pow j

theorem sum_tens (g : Nat → Nat) (b : Nat) :
    ∑ i ∈ Finset.range (10 * b), g i = ∑ j ∈ Finset.range b, ∑ k ∈ Finset.range 10, g (10 * j + k) := by
  induction b with
  | zero => simp
  | succ b ih => rw [Nat.mul_succ, Finset.sum_range_add, ih, Finset.sum_range_succ (n := b)]

theorem tenth_mod (S k : Nat) : tenth S k ≡ ∑ j ∈ Finset.range 73, Bits.bit S (10 * j + k) [MOD 1023] := by
  have h1 := Bits.sum_bits (tenth S k) (10 * 73)
  rw [Nat.mod_eq_of_lt (tenth_lt S k)] at h1
  rw [h1]
  have h2 : ∑ i ∈ Finset.range (10 * 73), Bits.bit (tenth S k) i * 2 ^ i ≡
      ∑ i ∈ Finset.range (10 * 73), Bits.bit (tenth S k) i [MOD 1023] := by
    apply Nat.ModEq.sum
    intro i _
    rw [bit_tenth]
    split
    · next h =>
      have := (pow_mod_ten i h.2).mul_left (Bits.bit S (k + i))
      rwa [Nat.mul_one] at this
    · rw [Nat.zero_mul]
  refine h2.trans ?_
  rw [sum_tens]
  refine congrArg (· % 1023) ?_
  refine Finset.sum_congr rfl fun j hj => ?_
  rw [Finset.mem_range] at hj
  rw [Finset.sum_eq_single 0]
  · rw [bit_tenth, if_pos (by omega), show k + (10 * j + 0) = 10 * j + k by omega]
  · intro b hb h0
    rw [Finset.mem_range] at hb
    rw [bit_tenth, if_neg (by omega)]
  · intro h
    exact absurd (Finset.mem_range.2 (by decide)) h

theorem pop_eq {S : Nat} (hS : S < 2 ^ 729) : pop S = ((Finset.range 729).filter fun i => S.testBit i = true).card := by
  have h1 : pop S = (∑ k ∈ Finset.range 10, tenth S k) % 1023 := by
    simp only [Finset.sum_range_succ, Finset.sum_range_zero]
    show (tenth S 0 + (tenth S 1 + (tenth S 2 + (tenth S 3 + (tenth S 4 + (tenth S 5 + (tenth S 6 + (tenth S 7 +
      (tenth S 8 + tenth S 9))))))))) % 1023 = _
    congr 1
    ring
  have h2 : ∑ k ∈ Finset.range 10, tenth S k ≡ ∑ k ∈ Finset.range 10, ∑ j ∈ Finset.range 73, Bits.bit S (10 * j + k) [MOD 1023] :=
    Nat.ModEq.sum fun k _ => tenth_mod S k
  rw [h1, h2, Finset.sum_comm, ← sum_tens, show 10 * 73 = 729 + 1 from rfl, Finset.sum_range_add, Bits.sum_high hS, Nat.add_zero,
    Bits.sum_bits_card]
  refine Nat.mod_eq_of_lt (lt_of_le_of_lt (Finset.card_le_card (Finset.filter_subset _ _)) ?_)
  rw [Finset.card_range]
  decide

/-! ## Counting members -/

/-- the members of a tree of a given depth, as places and twists -/
def members (t : Tree) (k : Nat) : Set (List Nat × Nat) :=
  { p | p.1.length = k ∧ (∀ x ∈ p.1, x < 7) ∧ p.2 < 729 ∧ t.mem p.1 p.2 = true }

theorem finite_members (t : Tree) (k : Nat) : Finite (members t k) := by
  induction k generalizing t with
  | zero =>
    refine Finite.of_injective (β := Fin 729) (fun p => ⟨p.1.2, p.2.2.2.1⟩) ?_
    rintro ⟨⟨xs, o⟩, h1, h2, h3, h4⟩ ⟨⟨ys, o'⟩, h1', h2', h3', h4'⟩ e
    have e : o = o' := congrArg Fin.val e
    have e1 : xs = [] := List.length_eq_zero_iff.1 h1
    have e2 : ys = [] := List.length_eq_zero_iff.1 h1'
    subst e e1 e2
    rfl
  | succ k ih =>
    have := fun x : Fin 7 => ih (t.get x)
    refine Finite.of_surjective (α := Σ x : Fin 7, members (t.get x) k)
      (fun p => ⟨(p.1.val :: p.2.1.1, p.2.1.2), by
        obtain ⟨x, ⟨⟨xs, o⟩, h1, h2, h3, h4⟩⟩ := p
        exact ⟨congrArg Nat.succ h1, List.forall_mem_cons.2 ⟨x.2, h2⟩, h3, h4⟩⟩) ?_
    rintro ⟨⟨_ | ⟨x, xs⟩, o⟩, h1, h2, h3, h4⟩
    · cases h1
    · obtain ⟨hx, h2⟩ := List.forall_mem_cons.1 h2
      exact ⟨⟨⟨x, hx⟩, ⟨(xs, o), Nat.succ.inj h1, h2, h3, h4⟩⟩, rfl⟩

theorem card_members_zero (t : Tree) :
    Nat.card (members t 0) = ((Finset.range 729).filter fun o => t.bit o = true).card := by
  rw [← Nat.card_eq_finsetCard]
  refine Nat.card_congr ⟨fun p => ⟨p.1.2, ?_⟩, fun o => ⟨([], o.1), ?_⟩, ?_, ?_⟩
  · obtain ⟨⟨xs, o⟩, h1, h2, h3, h4⟩ := p
    have e1 : xs = [] := List.length_eq_zero_iff.1 h1
    subst e1
    exact Finset.mem_filter.2 ⟨Finset.mem_range.2 h3, h4⟩
  · obtain ⟨h1, h2⟩ := Finset.mem_filter.1 o.2
    exact ⟨rfl, fun x hx => absurd hx List.not_mem_nil, Finset.mem_range.1 h1, h2⟩
  · rintro ⟨⟨xs, o⟩, h1, h2, h3, h4⟩
    have e1 : xs = [] := List.length_eq_zero_iff.1 h1
    subst e1
    rfl
  · intro o
    rfl

theorem card_members_succ (t : Tree) (k : Nat) :
    Nat.card (members t (k + 1)) = ∑ x : Fin 7, Nat.card (members (t.get x) k) := by
  have := fun x : Fin 7 => finite_members (t.get x) k
  rw [← Nat.card_sigma]
  refine (Nat.card_congr (Equiv.ofBijective (fun p : Σ x : Fin 7, members (t.get x) k =>
    (⟨(p.1.val :: p.2.1.1, p.2.1.2), by
      obtain ⟨x, ⟨⟨xs, o⟩, h1, h2, h3, h4⟩⟩ := p
      exact ⟨congrArg Nat.succ h1, List.forall_mem_cons.2 ⟨x.2, h2⟩, h3, h4⟩⟩ : members t (k + 1))) ⟨?_, ?_⟩)).symm
  · rintro ⟨x, ⟨⟨xs, o⟩, h⟩⟩ ⟨y, ⟨⟨ys, o'⟩, h'⟩⟩ e
    have e : (x.val :: xs, o) = (y.val :: ys, o') := congrArg Subtype.val e
    obtain ⟨e1, rfl⟩ := Prod.mk.inj e
    obtain ⟨e2, rfl⟩ := List.cons.inj e1
    obtain rfl := Fin.ext e2
    rfl
  · rintro ⟨⟨_ | ⟨x, xs⟩, o⟩, h1, h2, h3, h4⟩
    · cases h1
    · obtain ⟨hx, h2⟩ := List.forall_mem_cons.1 h2
      exact ⟨⟨⟨x, hx⟩, ⟨(xs, o), Nat.succ.inj h1, h2, h3, h4⟩⟩, rfl⟩

theorem low_bits (n k : Nat) : Nat.land n (Nat.sub (Nat.pow 2 k) 1) = n % 2 ^ k := Nat.and_two_pow_sub_one_eq_mod n k

theorem nil_mem (xs : List Nat) (o : Nat) : Tree.nil.mem xs o = false := by
  induction xs with
  | nil => rfl
  | cons x xs ih => exact ih

theorem count_eq {t : Tree} {k : Nat} (h : t.Depth k) : count t = Nat.card (members t k) := by
  have hnil : ∀ k, Nat.card (members Tree.nil k) = 0 := by
    intro k
    have : IsEmpty (members Tree.nil k) := ⟨fun p => by
      have := p.2.2.2.2
      rw [nil_mem] at this
      cases this⟩
    exact Nat.card_of_isEmpty
  induction t generalizing k with
  | nil => exact (hnil k).symm
  | leaf n =>
    obtain rfl : k = 0 := h
    rw [card_members_zero]
    show pop (Nat.land n (Nat.sub (Nat.pow 2 729) 1)) = _
    rw [low_bits, pop_eq (Nat.mod_lt _ (Nat.two_pow_pos _))]
    refine congrArg Finset.card (Finset.filter_congr fun i hi => ?_)
    rw [Nat.testBit_mod_two_pow, decide_eq_true (Finset.mem_range.1 hi), Bool.true_and]
    rfl
  | node a b c d e f g iha ihb ihc ihd ihe ihf ihg =>
    cases k with
    | zero => exact h.elim
    | succ k =>
      obtain ⟨ha, hb, hc, hd, he, hf, hg⟩ := h
      rw [card_members_succ, Fin.sum_univ_seven]
      show count a + (count b + (count c + (count d + (count e + (count f + count g))))) =
        Nat.card (members a k) + Nat.card (members b k) + Nat.card (members c k) + Nat.card (members d k) +
        Nat.card (members e k) + Nat.card (members f k) + Nat.card (members g k)
      rw [iha ha, ihb hb, ihc hc, ihd hd, ihe he, ihf hf, ihg hg]
      ring

theorem code3_lt : ∀ {l : List Nat}, (∀ x ∈ l, x < 3) → code3 l < 3 ^ l.length
  | [], _ => by decide
  | x :: l, h => by
    obtain ⟨h1, h2⟩ := List.forall_mem_cons.1 h
    have := code3_lt h2
    unfold code3
    rw [List.length_cons, pow_succ]
    omega

theorem code3_onto (k : Nat) : ∀ o < 3 ^ k, ∃ l : List Nat, l.length = k ∧ (∀ x ∈ l, x < 3) ∧ code3 l = o := by
  induction k with
  | zero => exact fun o ho => ⟨[], rfl, fun x hx => absurd hx List.not_mem_nil, by rw [pow_zero] at ho; exact (Nat.lt_one_iff.1 ho).symm⟩
  | succ k ih =>
    intro o ho
    rw [pow_succ] at ho
    obtain ⟨l, h1, h2, h3⟩ := ih (o / 3) (by omega)
    refine ⟨o % 3 :: l, congrArg Nat.succ h1, List.forall_mem_cons.2 ⟨Nat.mod_lt _ (by decide), h2⟩, ?_⟩
    unfold code3
    omega

/-- counted as lists of places with twists -/
theorem card_lists (t : Tree) :
    Nat.card { l : List (Nat × Nat) // l.length = 6 ∧ Fine l ∧ Mem t l } = Nat.card (members t 6) := by
  refine Nat.card_congr (Equiv.ofBijective (fun l => (⟨(l.1.map Prod.fst, code3 (l.1.map Prod.snd)), ?_⟩ : members t 6)) ⟨?_, ?_⟩)
  · obtain ⟨l, h1, h2, h3⟩ := l
    refine ⟨by simpa using h1, ?_, ?_, h3⟩
    · intro x hx
      obtain ⟨p, hp, rfl⟩ := List.mem_map.1 hx
      exact (h2 p hp).1
    · have := code3_lt (l := l.map Prod.snd) (by
        intro x hx
        obtain ⟨p, hp, rfl⟩ := List.mem_map.1 hx
        exact (h2 p hp).2)
      rw [List.length_map, h1] at this
      exact this
  · rintro ⟨l, h1, h2, h3⟩ ⟨l', h1', h2', h3'⟩ e
    obtain ⟨e1, e2⟩ := Prod.mk.inj (congrArg Subtype.val e)
    have e3 : l.map Prod.snd = l'.map Prod.snd := code3_inj (by simp [h1, h1'])
      (by
        intro x hx
        obtain ⟨p, hp, rfl⟩ := List.mem_map.1 hx
        exact (h2 p hp).2)
      (by
        intro x hx
        obtain ⟨p, hp, rfl⟩ := List.mem_map.1 hx
        exact (h2' p hp).2) e2
    refine Subtype.ext ?_
    show l = l'
    rw [← List.zip_unzip l, ← List.zip_unzip l', List.unzip_eq_map, List.unzip_eq_map]
    exact congrArg₂ List.zip e1 e3
  · rintro ⟨⟨xs, o⟩, h1, h2, h3, h4⟩
    obtain ⟨os, g1, g2, g3⟩ := code3_onto 6 o h3
    have a1 : (xs.zip os).map Prod.fst = xs := List.map_fst_zip (by simp_all)
    have a2 : (xs.zip os).map Prod.snd = os := List.map_snd_zip (by simp_all)
    refine ⟨⟨xs.zip os, by simp_all, fun p hp => ?_, ?_⟩, Subtype.ext ?_⟩
    · have h := List.of_mem_zip hp
      exact ⟨h2 _ h.1, g2 _ h.2⟩
    · unfold Mem
      rw [a1, a2, g3]
      exact h4
    · show ((xs.zip os).map Prod.fst, code3 ((xs.zip os).map Prod.snd)) = (xs, o)
      rw [a1, a2, g3]

/-! ## Counting states -/

/-- every member is the description of an arrangement -/
theorem norm_exists (n : Nat) {l : List (Nat × Nat)} (hl : l.length = 6) (hf : Fine l) (h : Mem (steps n (only home)) l) :
    ∃ s : PieceSet Corner 8, Norm s ∧ digs s = l ∧ ∃ w : List AxisMove, w.length ≤ n ∧
      ∀ i, movedAlg (PieceSet.SOLVED Corner i) w = s i := by
  induction n generalizing l with
  | zero => exact ⟨PieceSet.SOLVED Corner, norm_solved, digs_home.trans ((mem_only (hl.symm ▸ rfl) home_fine hf).1 h), [],
      Nat.le_refl _, fun i => rfl⟩
  | succ n ih =>
    rcases (mem_step (Depth_steps n Depth_home) hl hf).1 h with h | ⟨ax, k, h1, h3, h⟩
    · obtain ⟨s, a1, a2, w, a3, a4⟩ := ih hl hf h
      exact ⟨s, a1, a2, w, by omega, a4⟩
    · obtain ⟨g1, g2⟩ := turns_fine ax k hl hf
      obtain ⟨s, a1, a2, w, a3, a4⟩ := ih g1 g2 h
      obtain ⟨a, ha⟩ := quarters_of (k := 4 - k) (by omega) (by omega)
      refine ⟨_, a1.moved ax a, ?_, w ++ [pos ax a], by rw [List.length_append]; exact Nat.succ_le_succ a3, fun i => ?_⟩
      · rw [digs_moved a1, a2, ha]
        interval_cases k <;> exact turn_four hf
      · rw [alg_append, a4]
        rfl

theorem card_norm (n : Nat) :
    Nat.card { s : PieceSet Corner 8 // Norm s ∧ Mem (steps n (only home)) (digs s) } = count (steps n (only home)) := by
  rw [count_eq (Depth_steps n Depth_home), ← card_lists]
  refine Nat.card_congr (Equiv.ofBijective (fun s => (⟨digs s.1, digs_length _, digs_fine s.2.1, s.2.2⟩ :
    { l : List (Nat × Nat) // l.length = 6 ∧ Fine l ∧ Mem (steps n (only home)) l })) ⟨?_, ?_⟩)
  · rintro ⟨s, hs, h⟩ ⟨t, ht, h'⟩ e
    exact Subtype.ext (digs_inj hs ht (congrArg Subtype.val e))
  · rintro ⟨l, h1, h2, h3⟩
    obtain ⟨s, a1, rfl, -⟩ := norm_exists n h1 h2 h3
    exact ⟨⟨s, a1, h3⟩, rfl⟩

/-- at most `n` moves from solved, in some attitude -/
def NearTurned (n : Nat) (s : PieceSet Corner 8) : Prop :=
  ∃ (w : List AxisMove) (rs : List AxisRotation), w.length ≤ n ∧ ∀ i, movedAlg (s i) w = rots rs (PieceSet.SOLVED Corner i)

theorem nearTurned_iff (n : Nat) (s : PieceSet Corner 8) :
    NearTurned n s ↔ ∃ (t : PieceSet Corner 8) (rs : List AxisRotation), Norm t ∧ Mem (steps n (only home)) (digs t) ∧
      ∀ i, s i = rots rs (t i) := by
  constructor
  · rintro ⟨w, rs, hw, h⟩
    obtain ⟨t, rs', h1, h2, h3⟩ := reach_mem ((reversed w).map (rotsMove (unrot rs)))
    have e : ∀ i, movedAlg (PieceSet.SOLVED Corner i) ((reversed w).map (rotsMove (unrot rs))) = rots (unrot rs) (s i) := by
      intro i
      have := movedAlg_rots (unrot rs) (rots rs (PieceSet.SOLVED Corner i)) (reversed w)
      rw [rots_unrot, ← h i, movedAlg_back] at this
      exact this
    have len : ((reversed w).map (rotsMove (unrot rs))).length = w.length := by simp [reversed]
    refine ⟨t, rs' ++ rs, h1, steps_mono Depth_home (digs_length t) (digs_fine h1) (len.trans_le hw) h2, fun i => ?_⟩
    rw [rots_append, ← h3 i, e i, rots_unrot']
  · rintro ⟨t, rs, h1, h2, h3⟩
    obtain ⟨s', a1, a2, w, a3, a4⟩ := norm_exists n (digs_length t) (digs_fine h1) h2
    obtain rfl := digs_inj a1 h1 a2
    refine ⟨(reversed w).map (rotsMove rs), rs, by simpa [reversed] using a3, fun i => ?_⟩
    rw [h3, movedAlg_rots, ← a4, movedAlg_back]

theorem card_nearTurned (n : Nat) :
    Nat.card { s : PieceSet Corner 8 // NearTurned n s } = 24 * count (steps n (only home)) := by
  rw [← card_norm, show 24 = Nat.card Corner by rw [Nat.card_eq_fintype_card]; decide +kernel, ← Nat.card_prod]
  refine (Nat.card_congr (Equiv.ofBijective
    (fun p : Corner × { s : PieceSet Corner 8 // Norm s ∧ Mem (steps n (only home)) (digs s) } =>
      (⟨fun i => rots (path p.1) (p.2.1 i), (nearTurned_iff n _).2 ⟨p.2.1, path p.1, p.2.2.1, p.2.2.2, fun i => rfl⟩⟩ :
        { s : PieceSet Corner 8 // NearTurned n s })) ⟨?_, ?_⟩)).symm
  · rintro ⟨x, t, ht, hm⟩ ⟨y, u, hu, hm'⟩ e
    have e : ∀ i, rots (path x) (t i) = rots (path y) (u i) := fun i => congrFun (congrArg Subtype.val e) i
    have e7 := e 7
    rw [ht.last, hu.last, path_ok, path_ok] at e7
    subst e7
    have et : t = u := funext fun i => by
      have := congrArg (rots (unrot (path x))) (e i)
      rwa [rots_unrot, rots_unrot] at this
    subst et
    rfl
  · rintro ⟨s, hs⟩
    obtain ⟨t, rs, h1, h2, h3⟩ := (nearTurned_iff n s).1 hs
    refine ⟨(rots rs q7, ⟨t, h1, h2⟩), Subtype.ext (funext fun i => ?_)⟩
    show rots (path (rots rs q7)) (t i) = s i
    rw [h3]
    exact (rots_eq rs (t i)).symm

theorem counted_spec : ∀ (l : List Nat) (t : Tree), counted l t = true → ∀ n < l.length, count (steps n t) = l.getD n 0
  | [], _, _, n, hn => absurd hn (Nat.not_lt_zero n)
  | a :: l, t, h, n, hn => by
    have h' : cond (Nat.beq (count t) a) (counted l (step t)) false = true := h
    cases hb : Nat.beq (count t) a with
    | false => rw [hb] at h'; cases h'
    | true =>
      rw [hb, cond_true] at h'
      cases n with
      | zero => exact Nat.eq_of_beq_eq_true hb
      | succ n =>
        have e : ∀ n, steps n (step t) = step (steps n t) := by
          intro n
          induction n with
          | zero => rfl
          | succ n ih => exact congrArg step ih
        have := counted_spec l (step t) h' n (Nat.lt_of_succ_lt_succ hn)
        rw [e] at this
        exact this

theorem card_near {n : Nat} (hn : n < 12) : Nat.card { s : PieceSet Corner 8 // NearTurned n s } = 24 * twoCounts.getD n 0 := by
  rw [card_nearTurned, counted_spec _ _ all_counted n hn]

end Barbarosa.Two
