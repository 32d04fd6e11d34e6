import Verif.Model.Mus
import Mathlib.Data.Nat.Factorial.Basic
import Mathlib.Data.List.Count
import Mathlib.Tactic.Ring
import Mathlib.Tactic.Linarith

/-!
# Ranking and unranking of dispositions and of orientations
-/

namespace Barbarosa

theorem usize?_eq {n : Nat} (h : n < 2 ^ 64) : usize? n = some n := by
  unfold usize?; rw [if_pos h]

/-! ## Multipliers -/

/-- the multipliers, front to back -/
def multList : Nat → Nat → List Nat
  | 0, _ => []
  | n + 1, s => (s - 1).descFactorial n :: multList n (s - 1)

theorem multList_length (n : Nat) : ∀ s, (multList n s).length = n := by
  induction n with
  | zero => intro s; rfl
  | succ n ih => intro s; simp [multList, ih]

theorem desc_succ (s n : Nat) : (s + 1).descFactorial (n + 1) = (s + 1) * s.descFactorial n := Nat.succ_descFactorial_succ s n

theorem desc_mono (s n : Nat) : ∀ k, s.descFactorial n ≤ (s + k).descFactorial (n + k) := by
  intro k
  induction k with
  | zero => exact le_refl _
  | succ k ih =>
    have : (s + (k + 1)).descFactorial (n + (k + 1)) = (s + k + 1) * (s + k).descFactorial (n + k) := desc_succ _ _
    rw [this]
    calc s.descFactorial n ≤ 1 * (s + k).descFactorial (n + k) := by rw [one_mul]; exact ih
      _ ≤ _ := Nat.mul_le_mul_right _ (by omega)

theorem multipliersLoop_eq (k : Nat) : ∀ (it j : Nat), (it + k).descFactorial (j + k) < 2 ^ 64 →
    multipliersLoop k it (it.descFactorial j) (multList j it) = some (multList (j + k) (it + k)) := by
  induction k with
  | zero => intro it j _; rfl
  | succ k ih =>
    intro it j h
    have e : it.descFactorial j * (it + 1) = (it + 1).descFactorial (j + 1) := by rw [desc_succ, Nat.mul_comm]
    have h' : (it + 1 + k).descFactorial (j + 1 + k) < 2 ^ 64 := by
      rw [show it + 1 + k = it + (k + 1) by omega, show j + 1 + k = j + (k + 1) by omega]; exact h
    have hb : (it + 1).descFactorial (j + 1) < 2 ^ 64 := lt_of_le_of_lt (desc_mono _ _ k) h'
    unfold multipliersLoop
    rw [e, usize?_eq hb]
    have hm : it.descFactorial j :: multList j it = multList (j + 1) (it + 1) := rfl
    simp only [hm]
    rw [ih (it + 1) (j + 1) h']
    rw [show it + 1 + k = it + (k + 1) by omega, show j + 1 + k = j + (k + 1) by omega]

theorem dispositionMultipliers?_eq {N S : Nat} (h : N ≤ S) (hb : S.descFactorial N < 2 ^ 64) :
    dispositionMultipliers? N S = some (multList N S) := by
  unfold dispositionMultipliers?
  rw [if_pos h]
  have := multipliersLoop_eq N (S - N) 0 (by rw [Nat.sub_add_cancel h, Nat.zero_add]; exact hb)
  rw [Nat.sub_add_cancel h, Nat.zero_add] at this
  exact this

/-! ## Choices -/

/-- each choice is below the number of places that are still free -/
def ChoicesOk : Nat → List Nat → Prop
  | _, [] => True
  | s, c :: cs => c < s ∧ ChoicesOk (s - 1) cs

/-- the number of a list of choices -/
def choiceValue : Nat → List Nat → Nat
  | _, [] => 0
  | s, c :: cs => c * (s - 1).descFactorial cs.length + choiceValue (s - 1) cs

theorem ChoicesOk.length_le : ∀ {cs : List Nat} {s : Nat}, ChoicesOk s cs → cs.length ≤ s
  | [], _, _ => Nat.zero_le _
  | c :: cs, s, h => by
    have := h.2.length_le
    have := h.1
    simp only [List.length_cons]
    omega

theorem choiceValue_lt : ∀ {cs : List Nat} {s : Nat}, ChoicesOk s cs → choiceValue s cs < s.descFactorial cs.length
  | [], _, _ => by simp [choiceValue]
  | c :: cs, s, h => by
    obtain ⟨s, rfl⟩ : ∃ k, s = k + 1 := ⟨s - 1, by have := h.1; omega⟩
    have ih := choiceValue_lt h.2
    have hc := h.1
    simp only [choiceValue, List.length_cons, Nat.add_sub_cancel, desc_succ] at *
    calc c * s.descFactorial cs.length + choiceValue s cs < c * s.descFactorial cs.length + s.descFactorial cs.length := by
          omega
      _ = (c + 1) * s.descFactorial cs.length := by ring
      _ ≤ _ := Nat.mul_le_mul_right _ hc

theorem sumLoop_eq : ∀ (cs : List Nat) (s out : Nat), ChoicesOk s cs → out + choiceValue s cs < 2 ^ 64 →
    sumLoop out (cs.zip (multList cs.length s)) = some (out + choiceValue s cs)
  | [], _, _, _, _ => rfl
  | c :: cs, s, out, h, hb => by
    simp only [choiceValue] at hb
    simp only [multList, List.length_cons, List.zip_cons_cons, sumLoop]
    rw [usize?_eq (by omega)]
    simp only
    rw [usize?_eq (by omega)]
    simp only
    rw [sumLoop_eq cs (s - 1) _ h.2 (by omega)]
    simp only [choiceValue]
    congr 1
    omega

theorem deindexChoicesLoop_value : ∀ (cs : List Nat) (s : Nat), ChoicesOk s cs →
    deindexChoicesLoop (choiceValue s cs) (multList cs.length s) = some cs
  | [], _, _ => rfl
  | c :: cs, s, h => by
    have hv := choiceValue_lt h.2
    have ih := deindexChoicesLoop_value cs (s - 1) h.2
    simp only [List.length_cons, multList, deindexChoicesLoop, choiceValue]
    have hpos : 0 < (s - 1).descFactorial cs.length := by omega
    rw [if_neg (by omega)]
    have h1 : (c * (s - 1).descFactorial cs.length + choiceValue (s - 1) cs) % (s - 1).descFactorial cs.length =
        choiceValue (s - 1) cs := by
      rw [Nat.add_comm, Nat.add_mul_mod_self_right, Nat.mod_eq_of_lt hv]
    have h2 : (c * (s - 1).descFactorial cs.length + choiceValue (s - 1) cs) / (s - 1).descFactorial cs.length = c := by
      rw [Nat.add_comm, Nat.add_mul_div_right _ _ hpos, Nat.div_eq_of_lt hv, Nat.zero_add]
    rw [h1, h2, ih]

theorem deindexChoicesLoop_total : ∀ (n s index : Nat), n ≤ s → index < s.descFactorial n →
    ∃ cs, deindexChoicesLoop index (multList n s) = some cs ∧ cs.length = n ∧ ChoicesOk s cs ∧ choiceValue s cs = index
  | 0, s, index, _, h => ⟨[], rfl, rfl, trivial, by simp only [Nat.descFactorial_zero] at h; simp only [choiceValue]; omega⟩
  | n + 1, s, index, hn, h => by
    obtain ⟨s, rfl⟩ : ∃ k, s = k + 1 := ⟨s - 1, by omega⟩
    rw [desc_succ] at h
    have hpos : 0 < s.descFactorial n := Nat.descFactorial_pos.2 (by omega)
    obtain ⟨cs, h1, h2, h3, h4⟩ := deindexChoicesLoop_total n s (index % s.descFactorial n) (by omega) (Nat.mod_lt _ hpos)
    refine ⟨index / s.descFactorial n :: cs, ?_, ?_, ⟨?_, ?_⟩, ?_⟩
    · simp only [multList, deindexChoicesLoop, Nat.add_sub_cancel]
      rw [if_neg (by omega), h1]
    · simp [h2]
    · exact (Nat.div_lt_iff_lt_mul hpos).2 h
    · simpa using h3
    · simp only [choiceValue, Nat.add_sub_cancel, h2, h4]
      rw [Nat.mul_comm]
      exact Nat.div_add_mod _ _

/-- out of range: the first choice does not exist -/
theorem deindexChoicesLoop_large {n s index : Nat} (h : (s + 1).descFactorial (n + 1) ≤ index) :
    deindexChoicesLoop index (multList (n + 1) (s + 1)) = none ∨
      ∃ c cs, deindexChoicesLoop index (multList (n + 1) (s + 1)) = some (c :: cs) ∧ s + 1 ≤ c := by
  simp only [multList, deindexChoicesLoop, Nat.add_sub_cancel]
  by_cases hz : s.descFactorial n = 0
  · rw [if_pos hz]; exact Or.inl rfl
  · rw [if_neg hz]
    cases hd : deindexChoicesLoop (index % s.descFactorial n) (multList n s) with
    | none => exact Or.inl rfl
    | some rest =>
      refine Or.inr ⟨_, rest, rfl, ?_⟩
      rw [desc_succ] at h
      exact (Nat.le_div_iff_mul_le (Nat.pos_of_ne_zero hz)).2 h

/-! ## The free places -/

/-- `nthUnused?` with positions counted from `k` -/
def nthFrom (used : List Bool) (k c : Nat) : Option Nat := (((used.zipIdx k).filter fun p => !p.1)[c]?).map (·.2)

theorem nthFrom_cons_true (u : List Bool) (k c : Nat) : nthFrom (true :: u) k c = nthFrom u (k + 1) c := by
  simp [nthFrom, List.zipIdx_cons]

theorem nthFrom_cons_false_zero (u : List Bool) (k : Nat) : nthFrom (false :: u) k 0 = some k := by
  simp [nthFrom, List.zipIdx_cons]

theorem nthFrom_cons_false_succ (u : List Bool) (k c : Nat) : nthFrom (false :: u) k (c + 1) = nthFrom u (k + 1) c := by
  simp [nthFrom, List.zipIdx_cons]

/-- number of used places before `x` -/
def usedBefore (used : List Bool) (x : Nat) : Nat := ((used.take x).filter id).length

theorem usedBefore_cons_true (u : List Bool) (x : Nat) : usedBefore (true :: u) (x + 1) = usedBefore u x + 1 := by
  simp [usedBefore]

theorem usedBefore_cons_false (u : List Bool) (x : Nat) : usedBefore (false :: u) (x + 1) = usedBefore u x := by
  simp [usedBefore]

theorem usedBefore_le (u : List Bool) (x : Nat) : usedBefore u x ≤ x :=
  le_trans (List.length_filter_le _ _) (by simp)

theorem nthFrom_of_free : ∀ (u : List Bool) (k x : Nat), u[x]? = some false →
    nthFrom u k (x - usedBefore u x) = some (k + x) ∧ x - usedBefore u x < u.count false
  | [], _, x, h => by simp at h
  | true :: u, k, 0, h => by simp at h
  | false :: u, k, 0, _ => ⟨by simpa [usedBefore] using nthFrom_cons_false_zero u k, by simp⟩
  | true :: u, k, x + 1, h => by
    obtain ⟨h1, h2⟩ := nthFrom_of_free u (k + 1) x (by simpa using h)
    have := usedBefore_le u x
    rw [usedBefore_cons_true, show x + 1 - (usedBefore u x + 1) = x - usedBefore u x by omega, nthFrom_cons_true, h1]
    refine ⟨by congr 1; omega, by simpa using h2⟩
  | false :: u, k, x + 1, h => by
    obtain ⟨h1, h2⟩ := nthFrom_of_free u (k + 1) x (by simpa using h)
    have := usedBefore_le u x
    rw [usedBefore_cons_false, show x + 1 - usedBefore u x = (x - usedBefore u x) + 1 by omega, nthFrom_cons_false_succ, h1]
    refine ⟨by congr 1; omega, by simpa using h2⟩

theorem nthFrom_exists : ∀ (u : List Bool) (k c : Nat), c < u.count false →
    ∃ x, nthFrom u k c = some (k + x) ∧ u[x]? = some false ∧ x - usedBefore u x = c
  | [], _, c, h => by simp at h
  | true :: u, k, c, h => by
    obtain ⟨x, h1, h2, h3⟩ := nthFrom_exists u (k + 1) c (by simpa using h)
    refine ⟨x + 1, ?_, by simpa using h2, ?_⟩
    · rw [nthFrom_cons_true, h1]; congr 1; omega
    · rw [usedBefore_cons_true]; omega
  | false :: u, k, 0, _ => ⟨0, by simpa using nthFrom_cons_false_zero u k, by simp, by simp⟩
  | false :: u, k, c + 1, h => by
    obtain ⟨x, h1, h2, h3⟩ := nthFrom_exists u (k + 1) c (by simpa using h)
    refine ⟨x + 1, ?_, by simpa using h2, ?_⟩
    · rw [nthFrom_cons_false_succ, h1]; congr 1; omega
    · have := usedBefore_le u x
      rw [usedBefore_cons_false]; omega

theorem nthFrom_none : ∀ (u : List Bool) (k c : Nat), u.count false ≤ c → nthFrom u k c = none
  | [], _, c, _ => by simp [nthFrom]
  | true :: u, k, c, h => by
    rw [nthFrom_cons_true]; exact nthFrom_none u (k + 1) c (by simpa using h)
  | false :: u, k, 0, h => by simp at h
  | false :: u, k, c + 1, h => by
    rw [nthFrom_cons_false_succ]; exact nthFrom_none u (k + 1) c (by simpa using h)

theorem count_set : ∀ (u : List Bool) (x : Nat), u[x]? = some false → (u.set x true).count false = u.count false - 1
  | [], x, h => by simp at h
  | true :: u, 0, h => by simp at h
  | false :: u, 0, _ => by simp
  | true :: u, x + 1, h => by
    have := count_set u x (by simpa using h)
    simpa using this
  | false :: u, x + 1, h => by
    have h' : u[x]? = some false := by simpa using h
    have := count_set u x h'
    have hp : 0 < u.count false := List.count_pos_iff.2 (List.mem_of_getElem? h')
    simp only [List.set_cons_succ, List.count_cons_self, this]
    omega

/-- the input uses each free place at most once -/
def FreePlaces (used : List Bool) (l : List Nat) : Prop := l.Nodup ∧ ∀ x ∈ l, used[x]? = some false

theorem FreePlaces.tail {used : List Bool} {x : Nat} {xs : List Nat} (h : FreePlaces used (x :: xs)) :
    FreePlaces (used.set x true) xs := by
  refine ⟨(List.nodup_cons.1 h.1).2, fun y hy => ?_⟩
  have hne : x ≠ y := fun e => (List.nodup_cons.1 h.1).1 (e ▸ hy)
  rw [List.getElem?_set_ne hne]
  exact h.2 y (List.mem_cons_of_mem _ hy)

theorem choicesLoop_eq : ∀ (l : List Nat) (used : List Bool), FreePlaces used l →
    ∃ cs, choicesLoop used l = some cs ∧ cs.length = l.length ∧ ChoicesOk (used.count false) cs ∧
      permutationsLoop used cs = some l
  | [], used, _ => ⟨[], rfl, rfl, trivial, rfl⟩
  | x :: xs, used, h => by
    have hx := h.2 x (by simp)
    obtain ⟨cs, h1, h2, h3, h4⟩ := choicesLoop_eq xs (used.set x true) h.tail
    obtain ⟨g1, g2⟩ := nthFrom_of_free used 0 x hx
    have hlen : x < used.length := (List.getElem?_eq_some_iff.1 hx).1
    have g1' : nthUnused? used (x - usedBefore used x) = some x := by
      rw [Nat.zero_add] at g1; exact g1
    refine ⟨(x - usedBefore used x) :: cs, ?_, by simp [h2], ⟨g2, ?_⟩, ?_⟩
    · unfold choicesLoop
      simp only
      rw [if_pos ⟨hlen, usedBefore_le used x⟩, h1]
      rfl
    · rw [count_set used x hx] at h3; exact h3
    · unfold permutationsLoop
      rw [g1']
      simp only
      rw [h4]

theorem permutationsLoop_eq : ∀ (cs : List Nat) (used : List Bool), ChoicesOk (used.count false) cs →
    ∃ l, permutationsLoop used cs = some l ∧ l.length = cs.length ∧ FreePlaces used l ∧ choicesLoop used l = some cs
  | [], used, _ => ⟨[], rfl, rfl, ⟨List.nodup_nil, by simp⟩, rfl⟩
  | c :: cs, used, h => by
    obtain ⟨x, g1, g2, g3⟩ := nthFrom_exists used 0 c h.1
    rw [Nat.zero_add] at g1
    have g1' : nthUnused? used c = some x := g1
    obtain ⟨l, h1, h2, h3, h4⟩ := permutationsLoop_eq cs (used.set x true) (by rw [count_set used x g2]; exact h.2)
    have hlen : x < used.length := (List.getElem?_eq_some_iff.1 g2).1
    refine ⟨x :: l, ?_, by simp [h2], ⟨List.nodup_cons.2 ⟨fun hm => ?_, h3.1⟩, fun y hy => ?_⟩, ?_⟩
    · unfold permutationsLoop
      rw [g1']
      simp only
      rw [h1]
    · have := h3.2 x hm
      rw [List.getElem?_set_self hlen] at this
      simp at this
    · rcases List.mem_cons.1 hy with rfl | hy
      · exact g2
      · have hy' := h3.2 y hy
        by_cases e : x = y
        · subst e; exact g2
        · rwa [List.getElem?_set_ne e] at hy'
    · unfold choicesLoop
      simp only
      rw [if_pos ⟨hlen, usedBefore_le used x⟩, h4]
      simp only [Option.some.injEq, List.cons.injEq, and_true]
      exact g3

/-! ## Dispositions -/

theorem freePlaces_replicate {S : Nat} {l : List Nat} (h : l.Nodup) (hl : ∀ x ∈ l, x < S) :
    FreePlaces (List.replicate S false) l :=
  ⟨h, fun x hx => by simp [hl x hx]⟩

theorem position_rank {S : Nat} {l : List Nat} (h : l.Nodup) (hl : ∀ x ∈ l, x < S)
    (hb : S.descFactorial l.length < 2 ^ 64) :
    ∃ r, positionDispositionIndex? S l = some r ∧ r < S.descFactorial l.length ∧
      deindexPositions? l.length S r = some l := by
  obtain ⟨cs, h1, h2, h3, h4⟩ := choicesLoop_eq l _ (freePlaces_replicate h hl)
  rw [List.count_replicate_self] at h3
  have hle : l.length ≤ S := h2 ▸ h3.length_le
  have hv := choiceValue_lt h3
  rw [h2] at hv
  refine ⟨choiceValue S cs, ?_, hv, ?_⟩
  · unfold positionDispositionIndex? dispositionChoices?
    rw [dispositionMultipliers?_eq hle hb, h1]
    simp only
    have := sumLoop_eq cs S 0 h3 (by omega)
    rw [h2, Nat.zero_add] at this
    exact this
  · unfold deindexPositions? deindexChoices? choicesToPermutations?
    rw [dispositionMultipliers?_eq hle hb]
    simp only
    have := deindexChoicesLoop_value cs S h3
    rw [h2] at this
    rw [this]
    exact h4

theorem position_unrank {N S r : Nat} (hN : N ≤ S) (hb : S.descFactorial N < 2 ^ 64) (hr : r < S.descFactorial N) :
    ∃ l, deindexPositions? N S r = some l ∧ l.length = N ∧ l.Nodup ∧ (∀ x ∈ l, x < S) ∧
      positionDispositionIndex? S l = some r := by
  obtain ⟨cs, h1, h2, h3, h4⟩ := deindexChoicesLoop_total N S r hN hr
  obtain ⟨l, g1, g2, g3, g4⟩ := permutationsLoop_eq cs (List.replicate S false) (by rw [List.count_replicate_self]; exact h3)
  refine ⟨l, ?_, by rw [g2, h2], g3.1, fun x hx => ?_, ?_⟩
  · unfold deindexPositions? deindexChoices? choicesToPermutations?
    rw [dispositionMultipliers?_eq hN hb]
    simp only
    rw [h1]
    exact g1
  · have := (List.getElem?_eq_some_iff.1 (g3.2 x hx)).1
    simpa using this
  · unfold positionDispositionIndex? dispositionChoices?
    rw [g2, h2, dispositionMultipliers?_eq hN hb, g4]
    simp only
    have := sumLoop_eq cs S 0 h3 (by rw [h4, Nat.zero_add]; omega)
    rw [h2, Nat.zero_add, h4] at this
    exact this

theorem position_unrank_large {N S r : Nat} (hN : N ≤ S) (hb : (S + 1).descFactorial (N + 1) < 2 ^ 64)
    (hr : (S + 1).descFactorial (N + 1) ≤ r) : deindexPositions? (N + 1) (S + 1) r = none := by
  unfold deindexPositions? deindexChoices? choicesToPermutations?
  rw [dispositionMultipliers?_eq (by omega) hb]
  simp only
  rcases deindexChoicesLoop_large hr with h | ⟨c, cs, h, hc⟩
  · rw [h]
  · rw [h]
    simp only
    unfold permutationsLoop
    have : nthUnused? (List.replicate (S + 1) false) c = none :=
      nthFrom_none _ 0 c (by rw [List.count_replicate_self]; exact hc)
    rw [this]

/-! ## Orientations -/

/-- value of a list of digits, the first one least significant -/
def digitsValue (base : Nat) : List Nat → Nat
  | [] => 0
  | x :: xs => x + base * digitsValue base xs

/-- `k` digits, least significant first -/
def digitsOf (base : Nat) : Nat → Nat → List Nat
  | 0, _ => []
  | k + 1, index => index % base :: digitsOf base k (index / base)

theorem digitsOf_length (base : Nat) : ∀ k index, (digitsOf base k index).length = k
  | 0, _ => rfl
  | k + 1, index => by simp [digitsOf, digitsOf_length base k]

theorem deindexOrientationsLoop_eq (base : Nat) : ∀ (k index : Nat) (acc : List Nat),
    deindexOrientationsLoop base k index acc = (digitsOf base k index).reverse ++ acc
  | 0, _, _ => rfl
  | k + 1, index, acc => by
    simp [deindexOrientationsLoop, digitsOf, deindexOrientationsLoop_eq base k]

theorem digitsValue_lt {base : Nat} : ∀ {l : List Nat}, (∀ x ∈ l, x < base) → digitsValue base l < base ^ l.length
  | [], _ => by simp [digitsValue]
  | x :: xs, h => by
    have ih := digitsValue_lt (base := base) (l := xs) fun y hy => h y (List.mem_cons_of_mem _ hy)
    have hx := h x (by simp)
    simp only [digitsValue, List.length_cons, Nat.pow_succ]
    calc x + base * digitsValue base xs < base + base * digitsValue base xs := by omega
      _ = base * (digitsValue base xs + 1) := by ring
      _ ≤ base * base ^ xs.length := Nat.mul_le_mul_left _ ih
      _ = _ := Nat.mul_comm _ _

theorem orientationLoop_eq {base : Nat} (hpos : 0 < base) : ∀ (l : List Nat) (out mult : Nat), (∀ x ∈ l, x < base) → out < mult →
    mult * base ^ l.length < 2 ^ 64 → orientationLoop base out mult l = some (out + mult * digitsValue base l)
  | [], out, mult, _, _, _ => by simp [orientationLoop, digitsValue]
  | x :: xs, out, mult, h, ho, hb => by
    have hx := h x (by simp)
    have hxs : ∀ y ∈ xs, y < base := fun y hy => h y (List.mem_cons_of_mem _ hy)
    have hp : 1 ≤ base ^ xs.length := Nat.one_le_pow _ _ hpos
    have e : mult * base ^ (x :: xs).length = mult * base * base ^ xs.length := by
      simp only [List.length_cons, Nat.pow_succ]; ring
    rw [e] at hb
    have h1 : mult * base < 2 ^ 64 := lt_of_le_of_lt (Nat.le_mul_of_pos_right _ hp) hb
    have h2 : out + x * mult < mult * base := by nlinarith
    unfold orientationLoop
    rw [usize?_eq (by omega), usize?_eq h1]
    simp only
    rw [usize?_eq (by omega)]
    simp only
    rw [orientationLoop_eq hpos xs _ _ hxs h2 hb]
    simp only [digitsValue]
    congr 1
    ring

theorem digitsOf_value {base : Nat} : ∀ {l : List Nat}, (∀ x ∈ l, x < base) →
    digitsOf base l.length (digitsValue base l) = l
  | [], _ => rfl
  | x :: xs, h => by
    have hx := h x (by simp)
    have ih := digitsOf_value (base := base) (l := xs) fun y hy => h y (List.mem_cons_of_mem _ hy)
    have hpos : 0 < base := by omega
    simp only [List.length_cons, digitsOf, digitsValue]
    rw [Nat.add_mul_mod_self_left, Nat.mod_eq_of_lt hx, Nat.add_mul_div_left _ _ hpos, Nat.div_eq_of_lt hx, Nat.zero_add, ih]

theorem value_digitsOf {base : Nat} (hpos : 0 < base) : ∀ (k index : Nat), index < base ^ k →
    digitsValue base (digitsOf base k index) = index
  | 0, index, h => by simp only [Nat.pow_zero] at h; simp only [digitsOf, digitsValue]; omega
  | k + 1, index, h => by
    have : index / base < base ^ k := by
      rw [Nat.div_lt_iff_lt_mul hpos]; rw [Nat.pow_succ] at h; exact h
    simp only [digitsOf, digitsValue]
    rw [value_digitsOf hpos k _ this, Nat.mod_add_div]

theorem digitsOf_lt {base : Nat} (hpos : 0 < base) : ∀ (k index : Nat), ∀ x ∈ digitsOf base k index, x < base
  | 0, _, x, h => by simp [digitsOf] at h
  | k + 1, index, x, h => by
    simp only [digitsOf, List.mem_cons] at h
    rcases h with rfl | h
    · exact Nat.mod_lt _ hpos
    · exact digitsOf_lt hpos k _ x h

theorem orientation_rank {base : Nat} (hpos : 0 < base) {l : List Nat} (hl : ∀ x ∈ l, x < base)
    (hb : base ^ l.length < 2 ^ 64) :
    ∃ r, orientationPermutationIndex? base l = some r ∧ r < base ^ l.length ∧ deindexOrientations base l.length r = l := by
  have hr : ∀ x ∈ l.reverse, x < base := fun x hx => hl x (List.mem_reverse.1 hx)
  refine ⟨digitsValue base l.reverse, ?_, ?_, ?_⟩
  · unfold orientationPermutationIndex?
    rw [orientationLoop_eq hpos _ 0 1 hr (by omega) (by rw [List.length_reverse, Nat.one_mul]; exact hb)]
    simp
  · have := digitsValue_lt hr
    rwa [List.length_reverse] at this
  · unfold deindexOrientations
    rw [deindexOrientationsLoop_eq]
    have := digitsOf_value hr
    rw [List.length_reverse] at this
    rw [this]; simp

theorem orientation_unrank {base N r : Nat} (hpos : 0 < base) (hb : base ^ N < 2 ^ 64) (hr : r < base ^ N) :
    (deindexOrientations base N r).length = N ∧ (∀ x ∈ deindexOrientations base N r, x < base) ∧
      orientationPermutationIndex? base (deindexOrientations base N r) = some r := by
  have e : deindexOrientations base N r = (digitsOf base N r).reverse := by
    unfold deindexOrientations; rw [deindexOrientationsLoop_eq]; simp
  refine ⟨?_, ?_, ?_⟩
  · rw [e, List.length_reverse, digitsOf_length]
  · rw [e]; intro x hx; exact digitsOf_lt hpos N r x (List.mem_reverse.1 hx)
  · rw [e]
    unfold orientationPermutationIndex?
    rw [List.reverse_reverse, orientationLoop_eq hpos _ 0 1 (digitsOf_lt hpos N r) (by omega)
      (by rw [digitsOf_length, Nat.one_mul]; exact hb), value_digitsOf hpos N r hr]
    simp

end Barbarosa
