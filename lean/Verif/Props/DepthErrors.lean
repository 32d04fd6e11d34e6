import Verif.Model.DepthErrors
import Verif.Props.Errors
import Verif.Props.ProgressText

/-!
# C114: wide moves that are refused
-/

namespace Barbarosa

/-- **C114** A wide move is refused exactly if it would be deeper than allowed, and the error has the depth that was asked for and the largest
one that would have been accepted, in this order. -/
theorem C114_refused (N M : Nat) (f : Face) (x : Amount) (d : Nat) (w : WideAxisMove N) (e : WideMoveCreationError) :
    (WideAxisMove.newE N f x d = .error e ↔ N < d ∧ e.given = d ∧ e.max = N) ∧
    (AxisMove.widenE ⟨f, x⟩ N d = .error e ↔ N < d ∧ e.given = d ∧ e.max = N) ∧
    ((w.setDepthE d).1 = .error e ↔ N < d ∧ e.given = d ∧ e.max = N) ∧
    (w.setMaxDepthE M = .error e ↔ M < w.depth ∧ e.given = w.depth ∧ e.max = M) := by
  obtain ⟨g, m⟩ := e
  have key : ∀ (a b : Nat), ((⟨a, b⟩ : WideMoveCreationError) = ⟨g, m⟩) ↔ g = a ∧ m = b := fun a b => by
    rw [WideMoveCreationError.mk.injEq]; exact and_congr eq_comm eq_comm
  refine ⟨?_, ?_, ?_, ?_⟩
  · unfold WideAxisMove.newE
    split <;> rename_i h <;> simp [h, key]
  · unfold AxisMove.widenE WideAxisMove.newE
    split <;> rename_i h <;> simp [h, key]
  · unfold WideAxisMove.setDepthE
    split <;> rename_i h <;> simp [h, key]
  · unfold WideAxisMove.setMaxDepthE
    split <;> rename_i h <;> simp [h, key]

/-- five layers (depth 4) on a cube that allows depth 2 -/
example : WideAxisMove.newE 2 Face.R .single 4 = .error ⟨4, 2⟩ :=
  (C114_refused 2 2 Face.R .single 4 ⟨0, ⟨Face.R, .single⟩⟩ _).1.2 ⟨by decide, rfl, rfl⟩

/-- **C114** Otherwise the move is the one that was asked for. After a refused `set_depth` it is the move that was there before, and in no case does
the turn itself change. -/
theorem C114_accepted (N M : Nat) (f : Face) (x : Amount) (d : Nat) (w : WideAxisMove N) :
    (∀ v, WideAxisMove.newE N f x d = .ok v ↔ d ≤ N ∧ v.depth = d ∧ v.face = f ∧ v.amount = x) ∧
    (∀ v, AxisMove.widenE ⟨f, x⟩ N d = .ok v ↔ d ≤ N ∧ v.depth = d ∧ v.axisMove = ⟨f, x⟩) ∧
    ((w.setDepthE d).1 = .ok () ↔ d ≤ N) ∧ (w.setDepthE d).2.axisMove = w.axisMove ∧
    (w.setDepthE d).2.depth = (if d ≤ N then d else w.depth) ∧
    (∀ v, w.setMaxDepthE M = .ok v ↔ w.depth ≤ M ∧ v.depth = w.depth ∧ v.axisMove = w.axisMove) := by
  have mk : ∀ {K : Nat} (a : Nat) (b : AxisMove) (v : WideAxisMove K), ((⟨a, b⟩ : WideAxisMove K) = v) ↔ v.depth = a ∧ v.axisMove = b :=
    fun a b v => by
      obtain ⟨p, q⟩ := v
      rw [WideAxisMove.mk.injEq]; exact and_congr eq_comm eq_comm
  have mk2 : ∀ (b : AxisMove), b = ⟨f, x⟩ ↔ b.face = f ∧ b.amount = x := fun b => by
    obtain ⟨p, q⟩ := b
    rw [AxisMove.mk.injEq]
  refine ⟨fun v => ?_, fun v => ?_, ?_, ?_, ?_, fun v => ?_⟩
  · unfold WideAxisMove.newE WideAxisMove.face WideAxisMove.amount
    split <;> rename_i h
    · simp; omega
    · simp [Nat.le_of_not_lt h, mk, mk2]
  · unfold AxisMove.widenE WideAxisMove.newE
    split <;> rename_i h
    · simp; omega
    · simp [Nat.le_of_not_lt h, mk]
  · unfold WideAxisMove.setDepthE
    split <;> rename_i h
    · simp; omega
    · simp [Nat.le_of_not_lt h]
  · unfold WideAxisMove.setDepthE
    split <;> rfl
  · unfold WideAxisMove.setDepthE
    split <;> rename_i h
    · rw [if_neg (by omega)]
    · rw [if_pos (by omega)]
  · unfold WideAxisMove.setMaxDepthE
    split <;> rename_i h
    · simp; omega
    · simp [Nat.le_of_not_lt h, mk]

/-- from `3Rw` to `2Rw`, and back in vain -/
example : ((⟨2, ⟨Face.R, .single⟩⟩ : WideAxisMove 2).setDepthE 1).2 = ⟨1, ⟨Face.R, .single⟩⟩ ∧
    ((⟨2, ⟨Face.R, .single⟩⟩ : WideAxisMove 2).setDepthE 3).2 = ⟨2, ⟨Face.R, .single⟩⟩ ∧
    (⟨2, ⟨Face.R, .single⟩⟩ : WideAxisMove 2).setMaxDepthE 1 = .error ⟨2, 1⟩ := ⟨rfl, rfl, rfl⟩

/-- **C114** After any sequence of `set_depth` the depth is the last one that was not refused, or the first if all were. -/
theorem C114_set_depth_sequence (N : Nat) (w : WideAxisMove N) (ds : List Nat) :
    let v := ds.foldl (fun w d => (w.setDepthE d).2) w
    v.axisMove = w.axisMove ∧ v.depth = ((ds.filter (· ≤ N)).getLast?).getD w.depth := by
  induction ds generalizing w with
  | nil => exact ⟨rfl, rfl⟩
  | cons d ds ih =>
    obtain ⟨h1, h2⟩ := ih (w.setDepthE d).2
    obtain ⟨-, -, -, a1, a2, -⟩ := C114_accepted N N Face.R .single d w
    simp only [List.foldl_cons] at h1 h2 ⊢
    refine ⟨h1.trans a1, h2.trans ?_⟩
    rw [a2, List.filter_cons]
    by_cases hd : d ≤ N
    · simp only [hd, decide_true, if_true, List.getLast?_cons, Option.getD_some]
    · simp only [hd, decide_false, if_false, Bool.false_eq_true]

/-- 1, then 9, then 2, then 7: the depth is 2 -/
example : (([1, 9, 2, 7].foldl (fun w d => (w.setDepthE d).2) (⟨0, ⟨Face.U, .inverse⟩⟩ : WideAxisMove 3))).depth = 2 :=
  (C114_set_depth_sequence 3 ⟨0, ⟨Face.U, .inverse⟩⟩ [1, 9, 2, 7]).2

/-- **C114** Widening an alg widens every move in place, or is refused with the error of its first move; the empty alg is never refused, however
deep. -/
theorem C114_alg (N d : Nat) (alg : List AxisMove) :
    (∀ ws, algWidenE N d alg = .ok ws ↔ (alg = [] ∨ d ≤ N) ∧ ws.map (·.axisMove) = alg ∧ ∀ w ∈ ws, w.depth = d) ∧
    (∀ e, algWidenE N d alg = .error e ↔ alg ≠ [] ∧ N < d ∧ e.given = d ∧ e.max = N) := by
  by_cases hd : d ≤ N
  · have h1 : ∀ alg : List AxisMove, algWidenE N d alg = .ok (alg.map fun m => ⟨d, m⟩) := by
      intro alg
      induction alg with
      | nil => rfl
      | cons m alg ih =>
        have hw : m.widenE N d = .ok ⟨d, m⟩ := ((C114_accepted N N m.face m.amount d ⟨0, m⟩).2.1 ⟨d, m⟩).2 ⟨hd, rfl, rfl⟩
        unfold algWidenE
        rw [hw, ih]
        rfl
    constructor
    · intro ws
      rw [h1, Except.ok.injEq]
      constructor
      · rintro rfl
        refine ⟨Or.inr hd, ?_, ?_⟩
        · rw [List.map_map]; exact List.map_id alg
        · intro w hw
          obtain ⟨m, -, rfl⟩ := List.mem_map.1 hw
          rfl
      · rintro ⟨-, rfl, h⟩
        rw [List.map_map]
        conv_rhs => rw [← List.map_id ws]
        refine List.map_congr_left fun w hw => ?_
        show (⟨d, w.axisMove⟩ : WideAxisMove N) = w
        rw [← h w hw]
    · intro e
      rw [h1]
      constructor
      · intro h; cases h
      · rintro ⟨-, h, -⟩; omega
  · cases alg with
    | nil =>
      constructor
      · intro ws
        show (Except.ok [] : Except WideMoveCreationError (List (WideAxisMove N))) = .ok ws ↔ _
        rw [Except.ok.injEq]
        constructor
        · rintro rfl
          exact ⟨Or.inl rfl, rfl, by simp⟩
        · rintro ⟨-, h, -⟩
          exact (List.map_eq_nil_iff.1 h).symm
      · intro e
        constructor
        · intro h; cases h
        · rintro ⟨h, -⟩; exact absurd rfl h
    | cons m alg =>
      have hw : m.widenE N d = .error ⟨d, N⟩ := ((C114_refused N N m.face m.amount d ⟨0, m⟩ _).2.1).2 ⟨by omega, rfl, rfl⟩
      have hA : algWidenE N d (m :: alg) = .error ⟨d, N⟩ := by
        unfold algWidenE
        rw [hw]
      constructor
      · intro ws
        rw [hA]
        constructor
        · intro h; cases h
        · rintro ⟨h | h, -⟩
          · cases h
          · exact absurd h hd
      · rintro ⟨g, k⟩
        rw [hA, Except.error.injEq, WideMoveCreationError.mk.injEq]
        constructor
        · rintro ⟨rfl, rfl⟩; exact ⟨by simp, by omega, rfl, rfl⟩
        · rintro ⟨-, -, rfl, rfl⟩; exact ⟨rfl, rfl⟩

/-- the sexy move with two layers, and with seven -/
example : algWidenE 1 1 Perms.SEXY_MOVE = .ok (Perms.SEXY_MOVE.map fun m => ⟨1, m⟩) ∧ algWidenE 1 6 Perms.SEXY_MOVE = .error ⟨6, 1⟩ ∧
    algWidenE 1 6 [] = .ok [] := ⟨rfl, rfl, rfl⟩

/-- **C114** The functions with and without the contents of the error are the same otherwise. -/
theorem C114_same (N M : Nat) (f : Face) (x : Amount) (d : Nat) (w : WideAxisMove N) (alg : List AxisMove) :
    (WideAxisMove.newE N f x d).toOption = WideAxisMove.new N f x d ∧
    (AxisMove.widenE ⟨f, x⟩ N d).toOption = AxisMove.widen ⟨f, x⟩ N d ∧
    (w.setDepthE d).1.toOption = (w.setDepth d).1.toOption ∧ (w.setDepthE d).2 = (w.setDepth d).2 ∧
    (w.setMaxDepthE M).toOption = w.setMaxDepth M ∧
    (algWidenE N d alg).toOption = algWiden alg N d := by
  refine ⟨?_, ?_, ?_, ?_, ?_, ?_⟩
  · unfold WideAxisMove.newE WideAxisMove.new; split <;> rfl
  · unfold AxisMove.widenE AxisMove.widen WideAxisMove.newE WideAxisMove.new; split <;> rfl
  · unfold WideAxisMove.setDepthE WideAxisMove.setDepth; split <;> rfl
  · unfold WideAxisMove.setDepthE WideAxisMove.setDepth; split <;> rfl
  · unfold WideAxisMove.setMaxDepthE WideAxisMove.setMaxDepth; split <;> rfl
  · obtain ⟨h1, h2⟩ := C44_alg_widen N d alg
    cases h : algWidenE N d alg with
    | error e =>
      obtain ⟨a, b, -⟩ := ((C114_alg N d alg).2 e).1 h
      exact (h2.2 ⟨a, b⟩).symm
    | ok ws =>
      obtain ⟨a, b, c⟩ := ((C114_alg N d alg).1 ws).1 h
      rcases a with rfl | a
      · rw [List.map_eq_nil_iff.1 b]; rfl
      · rw [h1 a, ← h1 a]
        have : algWidenE N d alg = .ok (alg.map fun m => ⟨d, m⟩) :=
          ((C114_alg N d alg).1 _).2 ⟨Or.inr a, by rw [List.map_map]; exact List.map_id alg, by simp⟩
        rw [h] at this
        rw [h1 a, Except.ok.inj this]
        rfl

example : (algWidenE 2 3 Perms.T).toOption = algWiden Perms.T 2 3 := (C114_same 2 2 Face.R .single 3 ⟨0, ⟨Face.R, .single⟩⟩ Perms.T).2.2.2.2.2

/-- **C114** The message tells both numbers: two errors with the same text are equal. -/
theorem C114_message (a b : WideMoveCreationError) : a.message = b.message ↔ a = b := by
  refine ⟨fun h => ?_, fun h => by rw [h]⟩
  obtain ⟨g, m⟩ := a
  obtain ⟨g', m'⟩ := b
  unfold WideMoveCreationError.message excededDepthMessage at h
  simp only [List.append_assoc] at h
  have h := List.append_cancel_left h
  have hc : ∀ n, ',' ∉ Nat.toDigits 10 n := fun n => not_mem_digits (by decide)
  obtain ⟨e1, e2⟩ := append_sep_inj (hc g) (hc g') h
  have e3 := List.append_cancel_right (List.append_cancel_left (as := [' ', 'm', 'a', 'x', ':', ' ']) e2)
  rw [digits_inj e1, digits_inj e3]

example : (WideMoveCreationError.mk 4 2).message = "Exceded maximum depth (given: 4, max: 2)".toList ∧
    (WideMoveCreationError.mk 4 2).message ≠ (WideMoveCreationError.mk 2 4).message :=
  ⟨by decide +kernel, fun h => absurd ((C114_message _ _).1 h) (by decide)⟩

/-- **C114** Reading a wide move that is too deep fails with the text of the error that `new` gives for the same move, behind the words of the
parser. -/
theorem C114_parser (num : Char → Bool) (hn : NumberClass num) (N : Nat) (s : List Char) (d : Nat) (m : AxisMove)
    (hs : SpellsWide s d m) (pestText : List Char) (e : WideMoveCreationError)
    (he : WideAxisMove.newE N m.face m.amount d = .error e) :
    ∃ e', (parse num s : Outcome (WideAxisMove N)) = .err e' ∧
      e'.message pestText = "Statically uknown error: ".toList ++ e.message := by
  obtain ⟨h1, rfl, rfl⟩ := ((C114_refused N N m.face m.amount d ⟨0, m⟩ e).1).1 he
  obtain ⟨e', h2, h3⟩ := (C104_deep_message num hn e.max s e.given m hs h1 pestText).1
  exact ⟨e', h2, h3⟩

/-- `3Uw'` where two layers more are the most -/
example : ∃ e', (parse asciiNumber "3Uw'".toList : Outcome (WideAxisMove 2)) = .err e' ∧
    e'.message [] = "Statically uknown error: ".toList ++ (WideMoveCreationError.mk 3 2).message := ⟨.uknown 3 2, by decide +kernel⟩

end Barbarosa
