import Verif.Lemmas.CrossBits
import Verif.Lemmas.CrossSlots

/-!
# How far four edges can be from the cross
-/

namespace Barbarosa.Bits

/-- what a quarter turn does to the code of an edge -/
def turn (f : Face) (x : Nat) : Nat := edgeCode (moved (edgeOfCode x) (⟨f, .single⟩ : AxisMove))

/-- a quarter turn of all arrangements of a set -/
def quarter (f : Face) (S : Nat) : Nat := permAll (turn f) S

/-- the three turns of one face -/
def faceStep (S : Nat) (f : Face) : Nat :=
  quarter f S ||| quarter f (quarter f S) ||| quarter f (quarter f (quarter f S))

/-- the arrangements at most one move away from a set -/
def step (S : Nat) : Nat :=
  S ||| faceStep S Face.R ||| faceStep S Face.L ||| faceStep S Face.U ||| faceStep S Face.D ||| faceStep S Face.F ||| faceStep S Face.B

/-- the code of four edges -/
def codeE (t : Fin 4 → Edge) : Nat := code (edgeCode (t 0)) (edgeCode (t 1)) (edgeCode (t 2)) (edgeCode (t 3))

/-- the places of the cross -/
def slot (f : Face) (k : Fin 4) : Fin 12 := (crossSlots f)[k.val]'(by rw [crossSlots_length]; exact k.isLt)

/-- the cross edges at home -/
def homes (f : Face) (k : Fin 4) : Edge := PieceSet.SOLVED Edge (slot f k)

/-- the arrangements at most `n` moves away from the cross -/
def level (f : Face) : Nat → Nat
  | 0 => 1 <<< codeE (homes f)
  | n + 1 => step (level f n)

theorem edgeCode_inj {e e' : Edge} (h : edgeCode e = edgeCode e') : e = e' := by
  rw [← (edgeCode_ok e).2, h, (edgeCode_ok e').2]

theorem edgeCode_ofCode : ∀ x < 24, edgeCode (edgeOfCode x) = x := by decide +kernel

theorem turn_lt (f : Face) : ∀ x < 24, turn f x < 24 := fun _ _ => (edgeCode_ok _).1

theorem turn_code (f : Face) (e : Edge) : turn f (edgeCode e) = edgeCode (moved e (⟨f, .single⟩ : AxisMove)) := by
  unfold turn
  rw [(edgeCode_ok e).2]

theorem single_back : ∀ (f : Face) (e : Edge), moved (moved e (⟨f, .single⟩ : AxisMove)) (⟨f, .inverse⟩ : AxisMove) = e := by
  decide +kernel

theorem back_single : ∀ (f : Face) (e : Edge), moved (moved e (⟨f, .inverse⟩ : AxisMove)) (⟨f, .single⟩ : AxisMove) = e := by
  decide +kernel

theorem back_back : ∀ (f : Face) (e : Edge), moved (moved e (⟨f, .inverse⟩ : AxisMove)) (⟨f, .inverse⟩ : AxisMove) =
    moved e (⟨f, .double⟩ : AxisMove) := by
  decide +kernel

theorem back_double : ∀ (f : Face) (e : Edge), moved (moved e (⟨f, .double⟩ : AxisMove)) (⟨f, .inverse⟩ : AxisMove) =
    moved e (⟨f, .single⟩ : AxisMove) := by
  decide +kernel

theorem turn_inj (f : Face) : ∀ x < 24, ∀ y < 24, turn f x = turn f y → x = y := by
  intro x hx y hy h
  have h1 := edgeCode_inj h
  have h2 := congrArg (moved · (⟨f, .inverse⟩ : AxisMove)) h1
  simp only [single_back] at h2
  rw [← edgeCode_ofCode x hx, h2, edgeCode_ofCode y hy]

theorem codeE_inj {t t' : Fin 4 → Edge} (h : codeE t = codeE t') : t = t' := by
  have b := fun i => (edgeCode_ok (t i)).1
  have b' := fun i => (edgeCode_ok (t' i)).1
  have b0 := b 0; have b1 := b 1; have b2 := b 2; have b3 := b 3
  have c0 := b' 0; have c1 := b' 1; have c2 := b' 2; have c3 := b' 3
  unfold codeE code at h
  funext i
  apply edgeCode_inj
  match i with
  | 0 => omega
  | 1 => omega
  | 2 => omega
  | 3 => omega

/-- the arrangement belongs to the set -/
def Mem (S : Nat) (t : Fin 4 → Edge) : Prop := S.testBit (codeE t) = true

theorem mem_quarter (f : Face) (S : Nat) (t : Fin 4 → Edge) :
    Mem (quarter f S) t ↔ Mem S fun i => moved (t i) (⟨f, .inverse⟩ : AxisMove) := by
  have b := fun i => (edgeCode_ok (moved (t i) (⟨f, .inverse⟩ : AxisMove))).1
  have := testBit_permAll (S := S) (turn_lt f) (turn_inj f) (b 0) (b 1) (b 2) (b 3)
  simp only [turn_code, back_single] at this
  exact this

theorem mem_faceStep (f : Face) (S : Nat) (t : Fin 4 → Edge) :
    Mem (faceStep S f) t ↔ ∃ a : Amount, Mem S fun i => moved (t i) (⟨f, a⟩ : AxisMove) := by
  have e : Mem (faceStep S f) t ↔ (Mem (quarter f S) t ∨ Mem (quarter f (quarter f S)) t) ∨
      Mem (quarter f (quarter f (quarter f S))) t := by
    unfold faceStep Mem
    simp only [Nat.testBit_or, Bool.or_eq_true]
  rw [e]
  simp only [mem_quarter, back_back, back_double]
  constructor
  · rintro ((h | h) | h)
    exacts [⟨_, h⟩, ⟨_, h⟩, ⟨_, h⟩]
  · rintro ⟨a, h⟩
    rcases a
    exacts [.inr h, .inl (.inr h), .inl (.inl h)]

theorem face_cases : ∀ f : Face, f = Face.R ∨ f = Face.L ∨ f = Face.U ∨ f = Face.D ∨ f = Face.F ∨ f = Face.B := by decide

theorem mem_step (S : Nat) (t : Fin 4 → Edge) :
    Mem (step S) t ↔ Mem S t ∨ ∃ m : AxisMove, Mem S fun i => moved (t i) m := by
  have e : Mem (step S) t ↔ (((((Mem S t ∨ Mem (faceStep S Face.R) t) ∨ Mem (faceStep S Face.L) t) ∨ Mem (faceStep S Face.U) t) ∨
      Mem (faceStep S Face.D) t) ∨ Mem (faceStep S Face.F) t) ∨ Mem (faceStep S Face.B) t := by
    unfold step Mem
    simp only [Nat.testBit_or, Bool.or_eq_true]
  rw [e]
  simp only [mem_faceStep]
  constructor
  · rintro ((((((h | ⟨a, h⟩) | ⟨a, h⟩) | ⟨a, h⟩) | ⟨a, h⟩) | ⟨a, h⟩) | ⟨a, h⟩)
    exacts [.inl h, .inr ⟨_, h⟩, .inr ⟨_, h⟩, .inr ⟨_, h⟩, .inr ⟨_, h⟩, .inr ⟨_, h⟩, .inr ⟨_, h⟩]
  · rintro (h | ⟨⟨f, a⟩, h⟩)
    · exact .inl (.inl (.inl (.inl (.inl (.inl h)))))
    · rcases face_cases f with rfl | rfl | rfl | rfl | rfl | rfl
      · exact .inl (.inl (.inl (.inl (.inl (.inr ⟨a, h⟩)))))
      · exact .inl (.inl (.inl (.inl (.inr ⟨a, h⟩))))
      · exact .inl (.inl (.inl (.inr ⟨a, h⟩)))
      · exact .inl (.inl (.inr ⟨a, h⟩))
      · exact .inl (.inr ⟨a, h⟩)
      · exact .inr ⟨a, h⟩

theorem mem_level (f : Face) (n : Nat) (t : Fin 4 → Edge) :
    Mem (level f n) t ↔ ∃ w : List AxisMove, w.length ≤ n ∧ ∀ i, movedAlg (t i) w = homes f i := by
  induction n generalizing t with
  | zero =>
    have e : Mem (level f 0) t ↔ codeE (homes f) = codeE t := by
      unfold Mem level
      rw [Nat.one_shiftLeft, Nat.testBit_two_pow, decide_eq_true_eq]
    rw [e]
    constructor
    · intro h
      have := codeE_inj h
      subst this
      exact ⟨[], le_rfl, fun i => rfl⟩
    · rintro ⟨w, h1, h2⟩
      obtain rfl := List.length_eq_zero_iff.1 (Nat.le_zero.1 h1)
      exact congrArg codeE (funext fun i => (h2 i).symm)
  | succ n ih =>
    show Mem (step (level f n)) t ↔ _
    rw [mem_step, ih]
    simp only [ih]
    constructor
    · rintro (⟨w, h1, h2⟩ | ⟨m, w, h1, h2⟩)
      · exact ⟨w, by omega, h2⟩
      · exact ⟨m :: w, by simp only [List.length_cons]; omega, h2⟩
    · rintro ⟨w, h1, h2⟩
      rcases w with _ | ⟨m, w⟩
      · exact .inl ⟨[], by simp, h2⟩
      · exact .inr ⟨m, w, by simpa using h1, h2⟩

/-- eight moves reach everything, seven do not -/
def enough (f : Face) : Prop := (level f 8 ||| clash) = 2 ^ 331776 - 1 ∧
  (level f 7 ||| clash) &&& (2 ^ 331776 - 1) ≠ 2 ^ 331776 - 1

instance (f : Face) : Decidable (enough f) := by unfold enough; infer_instance

theorem enough_R : enough Face.R := by decide +kernel
theorem enough_L : enough Face.L := by decide +kernel
theorem enough_U : enough Face.U := by decide +kernel
theorem enough_D : enough Face.D := by decide +kernel
theorem enough_F : enough Face.F := by decide +kernel
theorem enough_B : enough Face.B := by decide +kernel

theorem enough_all (f : Face) : enough f := by
  rcases face_cases f with rfl | rfl | rfl | rfl | rfl | rfl
  exacts [enough_R, enough_L, enough_U, enough_D, enough_F, enough_B]

theorem place_of_code : ∀ e e' : Edge, edgeCode e / 2 = edgeCode e' / 2 ↔ e.position = e'.position := by decide +kernel

theorem clash_iff (t : Fin 4 → Edge) :
    clash.testBit (codeE t) = true ↔ ∃ i j, i ≠ j ∧ (t i).position = (t j).position := by
  have b := fun i => (edgeCode_ok (t i)).1
  unfold codeE
  rw [testBit_clash (b 0) (b 1) (b 2) (b 3)]
  simp only [place_of_code]
  constructor
  · rintro (h | h | h | h | h | h)
    exacts [⟨0, 1, by decide, h⟩, ⟨0, 2, by decide, h⟩, ⟨0, 3, by decide, h⟩, ⟨1, 2, by decide, h⟩, ⟨1, 3, by decide, h⟩,
      ⟨2, 3, by decide, h⟩]
  · rintro ⟨i, j, h1, h2⟩
    fin_cases i <;> fin_cases j <;> simp at h1 h2 ⊢ <;> simp [h2]

theorem codeE_lt (t : Fin 4 → Edge) : codeE t < 331776 := by
  have b := fun i => (edgeCode_ok (t i)).1
  have b0 := b 0; have b1 := b 1; have b2 := b 2; have b3 := b 3
  unfold codeE code
  omega

theorem codeE_surj {i : Nat} (hi : i < 331776) : ∃ t, codeE t = i := by
  refine ⟨fun k => edgeOfCode (i / 24 ^ k.val % 24), ?_⟩
  unfold codeE
  rw [edgeCode_ofCode _ (Nat.mod_lt _ (by decide)), edgeCode_ofCode _ (Nat.mod_lt _ (by decide)),
    edgeCode_ofCode _ (Nat.mod_lt _ (by decide)), edgeCode_ofCode _ (Nat.mod_lt _ (by decide))]
  unfold code
  show i / 24 ^ 0 % 24 + 24 * (i / 24 ^ 1 % 24 + 24 * (i / 24 ^ 2 % 24 + 24 * (i / 24 ^ 3 % 24))) = i
  omega

/-- four edges in different places are at most eight moves from home -/
theorem within_eight (f : Face) (t : Fin 4 → Edge) (ht : ∀ i j, (t i).position = (t j).position → i = j) :
    ∃ w : List AxisMove, w.length ≤ 8 ∧ ∀ i, movedAlg (t i) w = homes f i := by
  rw [← mem_level]
  have h : (level f 8 ||| clash).testBit (codeE t) = true := by
    rw [(enough_all f).1, Nat.testBit_two_pow_sub_one]
    exact decide_eq_true (codeE_lt t)
  rw [Nat.testBit_or, Bool.or_eq_true] at h
  rcases h with h | h
  · exact h
  · obtain ⟨i, j, h1, h2⟩ := (clash_iff t).1 h
    exact absurd (ht i j h2) h1

/-- and some are no less than eight -/
theorem needs_eight (f : Face) : ∃ t : Fin 4 → Edge, (∀ i j, (t i).position = (t j).position → i = j) ∧
    ∀ w : List AxisMove, (∀ i, movedAlg (t i) w = homes f i) → 8 ≤ w.length := by
  by_contra hc
  apply (enough_all f).2
  apply Nat.eq_of_testBit_eq
  intro i
  rw [Nat.testBit_and]
  by_cases hi : i < 331776
  · obtain ⟨t, rfl⟩ := codeE_surj hi
    have h1 : (2 ^ 331776 - 1).testBit (codeE t) = true := by rw [Nat.testBit_two_pow_sub_one]; exact decide_eq_true hi
    rw [h1, Bool.and_true]
    by_contra h2
    rw [Nat.testBit_or, Bool.or_eq_true, not_or] at h2
    apply hc
    refine ⟨t, fun i j e => ?_, fun w hw => ?_⟩
    · by_contra h3
      exact h2.2 ((clash_iff t).2 ⟨i, j, h3, e⟩)
    · by_contra h3
      exact h2.1 ((mem_level f 7 t).2 ⟨w, by omega, hw⟩)
  · have h1 : (2 ^ 331776 - 1).testBit i = false := by rw [Nat.testBit_two_pow_sub_one]; exact decide_eq_false hi
    rw [h1, Bool.and_false]

end Barbarosa.Bits
