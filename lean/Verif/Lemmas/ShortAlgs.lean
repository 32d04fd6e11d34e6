import Verif.Lemmas.ShortTable
import Verif.Lemmas.NormalForm
import Verif.Spec.ShortAlgs
import Mathlib.Data.List.Perm.Subperm
import Mathlib.Data.List.Nodup

/-!
# What the search of short algs found

The functions of `Verif.Lemmas.ShortTable` on lists of numbers are brought back to algs and cubes.
-/

namespace Barbarosa

/-! ## Trees -/

theorem blt_rec (x a n k : Nat) : (Bool.rec n k (Nat.blt x a) : Nat) = if x < a then k else n := by
  rcases h : Nat.blt x a with _ | _
  · rw [if_neg]; intro h'; rw [← Nat.blt_eq, h] at h'; exact Bool.false_ne_true h'
  · rw [Nat.blt_eq] at h; rw [if_pos h]

/-- put a key into the tree -/
def KeyTree.insert (x : Nat) : KeyTree → KeyTree
  | .leaf => .node .leaf x .leaf
  | .node l a r => if x < a then .node (l.insert x) a r else if a < x then .node l a (r.insert x) else .node l a r

theorem KeyTree.insertK_eq (x : Nat) (t : KeyTree) (k : KeyTree → Nat) : t.insertK x k = k (t.insert x) := by
  induction t generalizing k with
  | leaf => rfl
  | node l a r il ir =>
    have e : (KeyTree.node l a r).insertK x k =
        Bool.rec (Bool.rec (k (.node l a r)) (r.insertK x fun r' => k (.node l a r')) (Nat.blt a x))
          (l.insertK x fun l' => k (.node l' a r)) (Nat.blt x a) := rfl
    rw [e, il, ir, KeyTree.insert, blt_rec, blt_rec]
    split_ifs <;> rfl

theorem KeyTree.lookup_node (x : Nat) (l : KeyTree) (a : Nat) (r : KeyTree) :
    (KeyTree.node l a r).lookup x = if x < a then l.lookup x else if a < x then r.lookup x else 1 := by
  have e : (KeyTree.node l a r).lookup x =
      Bool.rec (Bool.rec 1 (r.lookup x) (Nat.blt a x)) (l.lookup x) (Nat.blt x a) := rfl
  rw [e, blt_rec, blt_rec]

theorem KeyTree.lookup_insert (x y : Nat) (t : KeyTree) : (t.insert x).lookup y = if y = x then 1 else t.lookup y := by
  induction t with
  | leaf =>
    rw [KeyTree.insert, KeyTree.lookup_node]
    have : KeyTree.leaf.lookup y = 0 := rfl
    rw [this]
    split_ifs <;> omega
  | node l a r il ir =>
    rw [KeyTree.insert]
    split_ifs with h1 h2 h3 h4 <;> simp only [KeyTree.lookup_node, il, ir] <;> (split_ifs <;> first | rfl | omega)

theorem KeyTree.size_node (l : KeyTree) (a : Nat) (r : KeyTree) : (KeyTree.node l a r).size = l.size + r.size + 1 := rfl

theorem KeyTree.size_insert (x : Nat) (t : KeyTree) : (t.insert x).size + t.lookup x = t.size + 1 := by
  induction t with
  | leaf => rfl
  | node l a r il ir =>
    rw [KeyTree.insert, KeyTree.lookup_node]
    split_ifs with h1 h2 <;> simp only [KeyTree.size_node] <;> omega

/-- put many keys into the tree -/
def KeyTree.insertAll (t : KeyTree) (l : List Nat) : KeyTree := l.foldl (fun t x => t.insert x) t

theorem KeyTree.lookup_insertAll (l : List Nat) (t : KeyTree) (y : Nat) :
    (t.insertAll l).lookup y = if y ∈ l then 1 else t.lookup y := by
  induction l generalizing t with
  | nil => rfl
  | cons x l ih =>
    show ((t.insert x).insertAll l).lookup y = _
    rw [ih, KeyTree.lookup_insert]
    simp only [List.mem_cons]
    split_ifs <;> first | rfl | simp_all

/-- the size of the tree is at most the number of keys, and equal to it only if they differ -/
theorem KeyTree.size_insertAll (l : List Nat) (t : KeyTree) (hl : ∀ x, t.lookup x ≤ 1) :
    (t.insertAll l).size ≤ t.size + l.length ∧
      ((t.insertAll l).size = t.size + l.length → l.Nodup ∧ ∀ x ∈ l, t.lookup x = 0) := by
  induction l generalizing t with
  | nil => exact ⟨le_rfl, fun _ => ⟨List.nodup_nil, by simp⟩⟩
  | cons x l ih =>
    have hs := KeyTree.size_insert x t
    have hi : ∀ y, (t.insert x).lookup y ≤ 1 := by
      intro y; rw [KeyTree.lookup_insert]; split_ifs; exacts [le_rfl, hl y]
    obtain ⟨i1, i2⟩ := ih (t.insert x) hi
    show ((t.insert x).insertAll l).size ≤ _ ∧ (((t.insert x).insertAll l).size = _ → _)
    rw [List.length_cons]
    refine ⟨by omega, fun e => ?_⟩
    obtain ⟨j1, j2⟩ := i2 (by omega)
    have h0 : t.lookup x = 0 := by omega
    refine ⟨List.nodup_cons.2 ⟨fun hm => ?_, j1⟩, fun y hy => ?_⟩
    · have := j2 x hm; rw [KeyTree.lookup_insert, if_pos rfl] at this; omega
    · rcases List.mem_cons.1 hy with rfl | hy
      · exact h0
      · have := j2 y hy
        rw [KeyTree.lookup_insert] at this
        split_ifs at this
        exact this

/-- the size of the tree is the number of different keys -/
theorem KeyTree.size_dedup (l : List Nat) (s : Finset Nat) (t : KeyTree) (hs : t.size = s.card)
    (hl : ∀ x, t.lookup x = if x ∈ s then 1 else 0) : (t.insertAll l).size = (s ∪ l.toFinset).card := by
  induction l generalizing t s with
  | nil => simp [KeyTree.insertAll, hs]
  | cons x l ih =>
    have h1 := KeyTree.size_insert x t
    show ((t.insert x).insertAll l).size = _
    rw [ih (Insert.insert x s) (t.insert x)]
    · congr 1; ext; simp
    · by_cases hx : x ∈ s
      · rw [hl, if_pos hx] at h1; rw [Finset.insert_eq_of_mem hx]; omega
      · rw [hl, if_neg hx] at h1; rw [Finset.card_insert_of_notMem hx]; omega
    · intro y
      rw [KeyTree.lookup_insert, hl]
      by_cases hy : y = x <;> simp [hy]

/-! ## Numbers -/

theorem forceK_eq (x : Nat) (k : Nat → Nat) : forceK x k = k (x - 1) := by cases x <;> rfl

/-- a turn of all pieces -/
def shortStep (t : Nat) (l : List Nat) : List Nat := l.map fun p => (t >>> p) % 512 - 1

theorem shortStepK_eq (t : Nat) (l : List Nat) (k : List Nat → Nat) : shortStepK t l k = k (shortStep t l) := by
  induction l generalizing k with
  | nil => rfl
  | cons p l ih =>
    show forceK ((t >>> p) % 512) (fun q => shortStepK t l fun qs => k (q :: qs)) = _
    rw [forceK_eq, ih]; rfl

theorem shortKey_eq (t : Nat) (l l' : List Nat) (h : l.map (fun p => (t >>> p) % 512) = l'.map (· + 1)) (acc : Nat) :
    shortKey t l acc = shortKeyOf l' acc := by
  induction l generalizing l' acc with
  | nil => cases l' with
    | nil => rfl
    | cons => simp at h
  | cons p l ih => cases l' with
    | nil => simp at h
    | cons q l' =>
      simp only [List.map_cons, List.cons.injEq] at h
      show shortKey t l (acc * 512 + (t >>> p) % 512) = shortKeyOf l' (acc * 512 + (q + 1))
      rw [h.1, ih l' h.2]

theorem short_corner : ∀ m ∈ shortMoves, ∀ c : Corner, (m.2 >>> cornerDigit c) % 512 = cornerDigit (moved c m.1) + 1 := by
  decide +kernel

theorem short_edge : ∀ m ∈ shortMoves, ∀ e : Edge, (m.2 >>> edgeDigit e) % 512 = edgeDigit (moved e m.1) + 1 := by
  decide +kernel

theorem shortDigits_moved (m : AxisMove × Nat) (hm : m ∈ shortMoves) (c : Cube3) :
    (shortDigits c).map (fun p => (m.2 >>> p) % 512) = (shortDigits (moved c m.1)).map (· + 1) := by
  have hc : ∀ i, (moved c m.1).corners i = moved (c.corners i) m.1 := fun _ => rfl
  have he : ∀ i, (moved c m.1).edges i = moved (c.edges i) m.1 := fun _ => rfl
  simp only [shortDigits, List.map_cons, List.map_nil, short_corner m hm, short_edge m hm, hc, he]

theorem shortStep_digits (m : AxisMove × Nat) (hm : m ∈ shortMoves) (c : Cube3) :
    shortStep m.2 (shortDigits c) = shortDigits (moved c m.1) := by
  have h := congrArg (List.map (· - 1)) (shortDigits_moved m hm c)
  simpa [shortStep, List.map_map, Function.comp_def] using h

/-- the key of a state -/
noncomputable def shortState (c : Cube3) : Nat := shortKeyOf (shortDigits c) 0 - 1

theorem shortKey_state (m : AxisMove × Nat) (hm : m ∈ shortMoves) (c : Cube3) :
    shortKey m.2 (shortDigits c) 0 - 1 = shortState (moved c m.1) := by
  rw [shortKey_eq _ _ _ (shortDigits_moved m hm c)]; rfl

/-! ## Algs -/

/-- the algs that are tried -/
def shortWords (after : Face → List (AxisMove × Nat)) : Nat → List (AxisMove × Nat) → List (List AxisMove)
  | 0, _ => []
  | n + 1, ms => ms.flatMap fun m => [m.1] :: (shortWords after n (after m.1.face)).map (m.1 :: ·)

theorem shortVisit_eq (after : Face → List (AxisMove × Nat)) (ha : ∀ f, ∀ m ∈ after f, m ∈ shortMoves) :
    ∀ (n : Nat) (ms : List (AxisMove × Nat)) (_ : ∀ m ∈ ms, m ∈ shortMoves) (c : Cube3) (t : KeyTree) (k : KeyTree → Nat),
      shortVisit after n ms (shortDigits c) t k =
        k (t.insertAll ((shortWords after n ms).map fun w => shortState (movedAlg c w)))
  | 0, _, _, _, _, _ => rfl
  | n + 1, [], _, _, _, _ => rfl
  | n + 1, m :: ms, hms, c, t, k => by
    have hm := hms m (by simp)
    have ih1 := fun t' => shortVisit_eq after ha (n + 1) ms (fun m h => hms m (by simp [h])) c t' k
    have e : shortVisit after (n + 1) (m :: ms) (shortDigits c) t k =
        forceK (shortKey m.2 (shortDigits c) 0) fun x => t.insertK x fun t' =>
          Nat.rec (motive := fun _ => Nat) (shortVisit after (n + 1) ms (shortDigits c) t' k)
            (fun _ _ => shortStepK m.2 (shortDigits c) fun l' => shortVisit after n (after m.1.face) l' t' fun t'' =>
              shortVisit after (n + 1) ms (shortDigits c) t'' k) n := rfl
    rw [e, forceK_eq, KeyTree.insertK_eq, shortKey_state m hm]
    have hw : shortWords after (n + 1) (m :: ms) =
        ([m.1] :: (shortWords after n (after m.1.face)).map (m.1 :: ·)) ++ shortWords after (n + 1) ms := rfl
    rw [hw]
    cases n with
    | zero => exact ih1 _
    | succ n =>
      simp only [shortStepK_eq, shortStep_digits m hm]
      rw [shortVisit_eq after ha (n + 1) (after m.1.face) (ha _)]
      rw [ih1]
      simp only [KeyTree.insertAll, List.map_append, List.map_cons, List.foldl_append, List.foldl_cons, List.map_map]
      rfl

theorem shortFind_eq (after : Face → List (AxisMove × Nat)) (ha : ∀ f, ∀ m ∈ after f, m ∈ shortMoves) (t : KeyTree) :
    ∀ (n : Nat) (ms : List (AxisMove × Nat)) (_ : ∀ m ∈ ms, m ∈ shortMoves) (c : Cube3),
      shortFind after t n ms (shortDigits c) =
        ((shortWords after n ms).map fun w => t.lookup (shortState (movedAlg c w))).sum
  | 0, _, _, _ => rfl
  | n + 1, [], _, _ => rfl
  | n + 1, m :: ms, hms, c => by
    have hm := hms m (by simp)
    have ih1 := shortFind_eq after ha t (n + 1) ms (fun m h => hms m (by simp [h])) c
    have e : shortFind after t (n + 1) (m :: ms) (shortDigits c) =
        forceK (shortKey m.2 (shortDigits c) 0) fun x => t.lookup x + (
          Nat.rec (motive := fun _ => Nat) 0
            (fun _ _ => shortStepK m.2 (shortDigits c) fun l' => shortFind after t n (after m.1.face) l') n +
              shortFind after t (n + 1) ms (shortDigits c)) := rfl
    rw [e, forceK_eq, shortKey_state m hm, ih1]
    have hw : shortWords after (n + 1) (m :: ms) =
        ([m.1] :: (shortWords after n (after m.1.face)).map (m.1 :: ·)) ++ shortWords after (n + 1) ms := rfl
    rw [hw]
    cases n with
    | zero => simp [shortWords]; rfl
    | succ n =>
      simp only [shortStepK_eq, shortStep_digits m hm]
      rw [shortFind_eq after ha t (n + 1) (after m.1.face) (ha _)]
      simp only [List.map_append, List.map_cons, List.sum_append, List.sum_cons, List.map_map]
      rw [← Nat.add_assoc]
      rfl

/-! ## Which algs are tried -/

theorem shortAfter_ok : ∀ f, ∀ m ∈ shortAfter f, m ∈ shortMoves := by decide +kernel
theorem shortHalf_ok : ∀ m ∈ shortHalfMoves, m ∈ shortMoves := by decide +kernel
theorem shortHalfAfter_ok : ∀ f, ∀ m ∈ shortHalfAfter f, m ∈ shortMoves := by decide +kernel
theorem shortMoves_all : ∀ m : AxisMove, m ∈ shortMoves.map Prod.fst := by decide +kernel
theorem shortAfter_all : ∀ (f : Face) (m : AxisMove), (f.axis = m.face.axis → f.direction = .neg ∧ m.face.direction = .pos) →
    m ∈ (shortAfter f).map Prod.fst := by decide +kernel
theorem shortHalfMoves_all : ∀ m : AxisMove, m.amount = .double → m ∈ shortHalfMoves.map Prod.fst := by decide +kernel
theorem shortHalfAfter_all : ∀ (f : Face) (m : AxisMove), m.amount = .double →
    (f.axis = m.face.axis → f.direction = .neg ∧ m.face.direction = .pos) → m ∈ (shortHalfAfter f).map Prod.fst := by decide +kernel

theorem mem_shortWords (P : AxisMove → Prop) (after : Face → List (AxisMove × Nat))
    (ha : ∀ (f : Face) (m : AxisMove), P m → (f.axis = m.face.axis → f.direction = .neg ∧ m.face.direction = .pos) →
      m ∈ (after f).map Prod.fst) :
    ∀ (n : Nat) (ms : List (AxisMove × Nat)) (m : AxisMove) (w : List AxisMove), m ∈ ms.map Prod.fst → (∀ x ∈ w, P x) →
      Ordered .neg (m :: w) → w.length < n → m :: w ∈ shortWords after n ms
  | 0, _, _, _, _, _, _, h => by omega
  | n + 1, ms, m, w, hm, hP, ho, h => by
    obtain ⟨p, hp, rfl⟩ := List.mem_map.1 hm
    refine List.mem_flatMap.2 ⟨p, hp, ?_⟩
    cases w with
    | nil => simp
    | cons x w =>
      rw [Ordered, List.isChain_cons_cons] at ho
      refine List.mem_cons_of_mem _ (List.mem_map.2 ⟨x :: w, ?_, rfl⟩)
      exact mem_shortWords P after ha n _ x w (ha _ x (hP x (by simp)) ho.1) (fun y hy => hP y (by simp [hy])) ho.2
        (by simpa using h)

/-- the ordered algs of at most this many moves -/
def orderedShort (n : Nat) : List (List AxisMove) := [] :: shortWords shortAfter n shortMoves

/-- the ordered algs of at most this many half turns -/
def orderedHalf (n : Nat) : List (List AxisMove) := [] :: shortWords shortHalfAfter n shortHalfMoves

theorem mem_orderedShort {n : Nat} {w : List AxisMove} (ho : Ordered .neg w) (hl : w.length ≤ n) : w ∈ orderedShort n := by
  cases w with
  | nil => simp [orderedShort]
  | cons m w =>
    exact List.mem_cons_of_mem _ (mem_shortWords (fun _ => True) shortAfter (fun f m _ => shortAfter_all f m) n _ m w
      (shortMoves_all m) (fun _ _ => trivial) ho (by simpa using hl))

theorem mem_orderedHalf {n : Nat} {w : List AxisMove} (ho : Ordered .neg w) (hl : w.length ≤ n)
    (hh : ∀ m ∈ w, m.amount = .double) : w ∈ orderedHalf n := by
  cases w with
  | nil => simp [orderedHalf]
  | cons m w =>
    exact List.mem_cons_of_mem _ (mem_shortWords (·.amount = .double) shortHalfAfter shortHalfAfter_all n _ m w
      (shortHalfMoves_all m (hh m (by simp))) (fun x hx => hh x (by simp [hx])) ho (by simpa using hl))

/-! ## A quarter turn first -/

/-- the ordered alg that is obviously the same -/
def orderedForm (w : List AxisMove) : List AxisMove := normalized^[w.length] w

theorem orderedForm_ordered (w : List AxisMove) : Ordered .neg (orderedForm w) := normalized_iterate _ w (by omega)
theorem orderedForm_same (w : List AxisMove) : SameObviously w (orderedForm w) := iterate_same _ w
theorem orderedForm_length (w : List AxisMove) : (orderedForm w).length ≤ w.length := iterate_length _ w

theorem cube3_same {a b : List AxisMove} (h : SameObviously a b) (c : Cube3) : movedAlg c a = movedAlg c b :=
  laws_same (axisSystems_laws ⟨Cube3⟩ (by simp [axisSystems])) h c

theorem orderedShort_three : (orderedShort 3).length = 3502 := by decide +kernel

theorem sum_ones (l : List (List AxisMove)) (p : List AxisMove → Prop) [DecidablePred p] :
    (l.map fun w => if p w then 1 else 0).sum = (l.filter (p ·)).length := by
  induction l with
  | nil => rfl
  | cons w l ih =>
    rw [List.map_cons, List.sum_cons, ih, List.filter_cons]
    by_cases h : p w
    · simp [h]; omega
    · simp [h]

/-- the state after `R` -/
def stateR : Cube3 := movedAlg Cube3.SOLVED ([⟨⟨.X, .pos⟩, .single⟩] : List AxisMove)

theorem shortState_fold (c : Cube3) : shortKeyOf (shortDigits c) 0 - 1 = shortState c := rfl

theorem insertAll_first (x : Nat) (l : List Nat) : (KeyTree.node .leaf x .leaf).insertAll l = KeyTree.leaf.insertAll (x :: l) := rfl

theorem map_orderedShort (n : Nat) (f : List AxisMove → Nat) :
    (orderedShort n).map f = f [] :: (shortWords shortAfter n shortMoves).map f := rfl

theorem map_orderedStates (n : Nat) (c : Cube3) :
    (shortState c :: (shortWords shortAfter n shortMoves).map fun x => shortState (movedAlg c x)) =
      (orderedShort n).map fun x => shortState (movedAlg c x) := rfl

theorem movedAlg_nil (c : Cube3) : movedAlg c ([] : List AxisMove) = c := rfl

theorem stateR_fold : movedAlg Cube3.SOLVED ([⟨⟨.X, .pos⟩, .single⟩] : List AxisMove) = stateR := rfl

theorem lookup_leaf (keys : List Nat) (y : Nat) : (KeyTree.leaf.insertAll keys).lookup y = if y ∈ keys then 1 else 0 := by
  rw [KeyTree.lookup_insertAll]; rfl

theorem rec_true (a b k : Nat) (hk : k ≠ 0) (x : Nat) (h : (Bool.rec 0 x (Nat.beq a b) : Nat) = k) : a = b ∧ x = k := by
  rcases hb : Nat.beq a b with _ | _
  · rw [hb] at h; exact absurd h.symm hk
  · rw [hb] at h; exact ⟨Nat.eq_of_beq_eq_true hb, h⟩

theorem size_leaf (keys : List Nat) (n : Nat) (hlen : keys.length = n) (h : (KeyTree.leaf.insertAll keys).size = n) : keys.Nodup := by
  have hsz := KeyTree.size_insertAll keys .leaf (fun _ => Nat.zero_le _)
  have hz : KeyTree.leaf.size = 0 := rfl
  exact (hsz.2 (by omega)).1

theorem shortJudge_eq (t : KeyTree) (n : Nat) (hn : n ≠ 0) (h : shortJudge t = n) : t.size = 3502 ∧ shortInTree t = n :=
  rec_true _ _ _ hn _ h

theorem shortInTree_eq (t : KeyTree) :
    shortInTree t = ((orderedShort 4).map fun w => t.lookup (shortState (movedAlg Cube3.SOLVED w))).sum := by
  rw [map_orderedShort, List.sum_cons, ← shortFind_eq shortAfter shortAfter_ok _ 4 shortMoves (fun _ h => h), movedAlg_nil, shortInTree,
    ← shortStart_eq, forceK_eq, shortState_fold, Nat.add_eq]

theorem short_quarter_counts :
    ((orderedShort 3).map fun x => shortState (movedAlg stateR x)).Nodup ∧
    ((orderedShort 4).filter fun v => shortState (movedAlg Cube3.SOLVED v) ∈
      (orderedShort 3).map fun x => shortState (movedAlg stateR x)).length = 3502 := by
  have h := shortQuarter_eq
  unfold shortQuarter at h
  rw [← shortR_eq, forceK_eq, shortVisit_eq shortAfter shortAfter_ok 3 shortMoves (fun _ h => h),
    shortState_fold, insertAll_first, map_orderedStates, stateR_fold] at h
  have hlen : ((orderedShort 3).map fun x => shortState (movedAlg stateR x)).length = 3502 := by
    rw [List.length_map, orderedShort_three]
  generalize ((orderedShort 3).map fun x => shortState (movedAlg stateR x)) = keys at h hlen ⊢
  obtain ⟨h1, h2⟩ := shortJudge_eq _ _ (by decide) h
  refine ⟨size_leaf _ _ hlen h1, ?_⟩
  rw [shortInTree_eq] at h2
  simp only [lookup_leaf] at h2
  rw [← sum_ones]
  exact h2

/-- an alg of one quarter turn and at most three moves, and an alg of at most four moves -/
theorem short_quarter {x v : List AxisMove} (hx : x ∈ orderedShort 3) (hv : v ∈ orderedShort 4)
    (h : movedAlg Cube3.SOLVED (⟨⟨.X, .pos⟩, .single⟩ :: x) = movedAlg Cube3.SOLVED v) :
    SameObviously v (⟨⟨.X, .pos⟩, .single⟩ :: x) := by
  obtain ⟨hn, hc⟩ := short_quarter_counts
  have hinj : ∀ x ∈ orderedShort 3, ∀ y ∈ orderedShort 3,
      shortState (movedAlg stateR x) = shortState (movedAlg stateR y) → x = y :=
    fun x hx y hy e => List.inj_on_of_nodup_map hn hx hy e
  have hform : ∀ x, movedAlg Cube3.SOLVED (orderedForm (⟨⟨.X, .pos⟩, .single⟩ :: x)) = movedAlg stateR x :=
    fun x => (cube3_same (orderedForm_same _) _).symm
  have hlen3 : ∀ x ∈ orderedShort 3, x.length ≤ 3 := by decide +kernel
  have hnd : ((orderedShort 3).map fun x => orderedForm (⟨⟨.X, .pos⟩, .single⟩ :: x)).Nodup := by
    refine List.Nodup.map_on (fun x hx y hy e => hinj x hx y hy ?_) (List.Nodup.of_map _ hn)
    have e' := congrArg (fun w => shortState (movedAlg Cube3.SOLVED w)) e
    simpa only [hform] using e'
  have hsub : ((orderedShort 3).map fun x => orderedForm (⟨⟨.X, .pos⟩, .single⟩ :: x)) ⊆
      (orderedShort 4).filter fun v => shortState (movedAlg Cube3.SOLVED v) ∈
        (orderedShort 3).map fun x => shortState (movedAlg stateR x) := by
    intro w hw
    obtain ⟨x, hx, rfl⟩ := List.mem_map.1 hw
    refine List.mem_filter.2 ⟨mem_orderedShort (orderedForm_ordered _) ?_, ?_⟩
    · have h1 := orderedForm_length (⟨⟨.X, .pos⟩, .single⟩ :: x)
      have h2 := hlen3 x hx
      simp only [List.length_cons] at h1
      omega
    · rw [decide_eq_true_iff, hform]
      exact List.mem_map.2 ⟨x, hx, rfl⟩
  have hp := (List.subperm_of_subset hnd hsub).perm_of_length_le (by rw [hc, List.length_map, orderedShort_three])
  have hvm : v ∈ (orderedShort 4).filter fun v => shortState (movedAlg Cube3.SOLVED v) ∈
        (orderedShort 3).map fun x => shortState (movedAlg stateR x) := by
    refine List.mem_filter.2 ⟨hv, ?_⟩
    rw [decide_eq_true_iff, ← h]
    exact List.mem_map.2 ⟨x, hx, rfl⟩
  obtain ⟨y, hy, rfl⟩ := List.mem_map.1 (hp.mem_iff.2 hvm)
  rw [hform] at h
  obtain rfl := hinj x hx y hy (congrArg shortState h)
  exact (orderedForm_same _).symm

/-! ## Half turns only -/

/-- a half turn -/
def halfMove (a : Axis) (d : Direction) : AxisMove := ⟨⟨a, d⟩, .double⟩

/-- the half turns of an axis in the order of ordered algs -/
def halfBoth (a : Axis) : List AxisMove := [halfMove a .neg, halfMove a .pos]

/-- ordered algs of four half turns that lead to the same state -/
def twins : List (List AxisMove × List AxisMove) :=
  ([(.X, .Y), (.X, .Z), (.Y, .Z)] : List (Axis × Axis)).map (fun p => (halfBoth p.2 ++ halfBoth p.1, halfBoth p.1 ++ halfBoth p.2)) ++
  ([(.X, .Y), (.X, .Z), (.Y, .X), (.Y, .Z), (.Z, .X), (.Z, .Y)] : List (Axis × Axis)).flatMap fun p =>
    ([.pos, .neg] : List Direction).map fun d =>
      ([halfMove p.1 .neg] ++ halfBoth p.2 ++ [halfMove p.1 d.flip], [halfMove p.1 .pos] ++ halfBoth p.2 ++ [halfMove p.1 d])

/-- the ordered algs of at most four half turns without one of each pair of twins -/
def halfAlgs : List (List AxisMove) := (orderedHalf 4).filter (· ∉ twins.map Prod.fst)

/-- the alg or its twin -/
def firstTwin (w : List AxisMove) : List AxisMove := ((twins.find? (·.1 = w)).map Prod.snd).getD w

theorem halfAlgs_length : halfAlgs.length = 673 := by decide +kernel

theorem twins_ok : ∀ p ∈ twins, movedAlg Cube3.SOLVED p.1 = movedAlg Cube3.SOLVED p.2 ∧ p.2 ∈ halfAlgs ∧ p.1.length = 4 ∧ p.2.length = 4 := by
  decide +kernel

theorem firstTwin_cases (w : List AxisMove) : (w ∉ twins.map Prod.fst ∧ firstTwin w = w) ∨ (w, firstTwin w) ∈ twins := by
  rcases h : twins.find? (·.1 = w) with _ | p
  · left
    refine ⟨fun hm => ?_, by rw [firstTwin, h]; rfl⟩
    obtain ⟨p, hp, e⟩ := List.mem_map.1 hm
    have := List.find?_eq_none.1 h p hp
    simp [e] at this
  · right
    have h1 := List.mem_of_find?_eq_some h
    have h2 := List.find?_some h
    simp only [decide_eq_true_eq] at h2
    have h3 : firstTwin w = p.2 := by rw [firstTwin, h]; rfl
    rw [h3, ← h2]
    exact h1

theorem firstTwin_mem {w : List AxisMove} (h : w ∈ orderedHalf 4) : firstTwin w ∈ halfAlgs := by
  rcases firstTwin_cases w with ⟨h1, h2⟩ | h1
  · rw [h2]; exact List.mem_filter.2 ⟨h, by simpa using h1⟩
  · exact (twins_ok _ h1).2.1

theorem firstTwin_state (w : List AxisMove) : movedAlg Cube3.SOLVED (firstTwin w) = movedAlg Cube3.SOLVED w := by
  rcases firstTwin_cases w with ⟨h1, h2⟩ | h1
  · rw [h2]
  · exact (twins_ok _ h1).1.symm

theorem nodup_of_card (l : List Nat) (n : Nat) (h : l.toFinset.card = n) (h' : l.length = n) : l.Nodup := by
  rw [List.card_toFinset] at h
  have := (List.dedup_sublist l).eq_of_length (by omega)
  rw [← this]; exact List.nodup_dedup l

theorem map_orderedHalfStates (n : Nat) (c : Cube3) :
    (shortState c :: (shortWords shortHalfAfter n shortHalfMoves).map fun x => shortState (movedAlg c x)) =
      (orderedHalf n).map fun x => shortState (movedAlg c x) := rfl

theorem short_half_counts : (halfAlgs.map fun w => shortState (movedAlg Cube3.SOLVED w)).Nodup := by
  have h := shortHalf_eq
  unfold shortHalf at h
  rw [← shortStart_eq, forceK_eq, shortVisit_eq shortHalfAfter shortHalfAfter_ok 4 shortHalfMoves shortHalf_ok,
    shortState_fold, insertAll_first, map_orderedHalfStates, KeyTree.size_dedup _ ∅ .leaf rfl (fun _ => rfl)] at h
  refine nodup_of_card _ 673 ?_ (by rw [List.length_map, halfAlgs_length])
  rw [← h, Finset.empty_union]
  refine congrArg Finset.card (Finset.ext fun k => ?_)
  simp only [List.mem_toFinset, List.mem_map]
  constructor
  · rintro ⟨w, hw, rfl⟩
    exact ⟨w, (List.mem_filter.1 hw).1, rfl⟩
  · rintro ⟨w, hw, rfl⟩
    exact ⟨firstTwin w, firstTwin_mem hw, by rw [firstTwin_state]⟩

/-- ordered algs of at most four half turns that lead to the same state are equal or twins -/
theorem short_half {v w : List AxisMove} (hv : v ∈ orderedHalf 4) (hw : w ∈ orderedHalf 4)
    (h : movedAlg Cube3.SOLVED v = movedAlg Cube3.SOLVED w) : firstTwin v = firstTwin w := by
  refine List.inj_on_of_nodup_map short_half_counts (firstTwin_mem hv) (firstTwin_mem hw) ?_
  rw [firstTwin_state, firstTwin_state, h]

end Barbarosa
