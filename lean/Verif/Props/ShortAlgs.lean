import Verif.Lemmas.ShortAlgs
import Verif.Props.NormalForm
import Verif.Props.Symmetry

/-!
# Property C110: which short algs do the same
-/

namespace Barbarosa

open Amount Face

/-! ## Obviously the same -/

theorem SameObviously.append_right {a b : List AxisMove} (h : SameObviously a b) (w : List AxisMove) : SameObviously (a ++ w) (b ++ w) := by
  induction h with
  | rel a b h => exact .rel _ _ (simplifies_append h w)
  | refl a => exact .refl _
  | symm _ _ _ ih => exact ih.symm
  | trans _ _ _ _ _ ih1 ih2 => exact ih1.trans ih2

theorem insert_half (m : AxisMove) (hm : m.amount = .double) : ∀ (b : List AxisMove), Ordered .neg b → (∀ x ∈ b, x.amount = .double) →
    ∃ b', Ordered .neg b' ∧ SameObviously (m :: b) b' ∧ b'.length ≤ b.length + 1 ∧ ∀ x ∈ b', x.amount = .double
  | [], _, _ => ⟨[m], by simp [Ordered], same_refl _, by simp, by simpa using hm⟩
  | x :: b, hb, hh => by
    obtain ⟨⟨a, d⟩, am⟩ := m
    obtain ⟨⟨a', d'⟩, am'⟩ := x
    obtain rfl : am = .double := hm
    obtain rfl : am' = .double := hh ⟨⟨a', d'⟩, am'⟩ (by simp)
    by_cases ha : a = a'
    · subst ha
      by_cases hd : d = d'
      · subst hd
        refine ⟨b, List.IsChain.tail hb, ?_, by simp; omega, fun y hy => hh y (by simp [hy])⟩
        exact .rel _ _ (Simplifies.cancel [] b ⟨a, d⟩ .double .double (by decide))
      · cases d with
        | neg =>
          obtain rfl : d' = .pos := by cases d' <;> simp_all
          refine ⟨⟨⟨a, .neg⟩, .double⟩ :: ⟨⟨a, .pos⟩, .double⟩ :: b, ?_, same_refl _, by simp, by simpa using hh⟩
          exact List.isChain_cons_cons.2 ⟨fun _ => ⟨rfl, rfl⟩, hb⟩
        | pos =>
          obtain rfl : d' = .neg := by cases d' <;> simp_all
          have hex : SameObviously (⟨⟨a, .pos⟩, .double⟩ :: ⟨⟨a, .neg⟩, .double⟩ :: b) (⟨⟨a, .neg⟩, .double⟩ :: ⟨⟨a, .pos⟩, .double⟩ :: b) :=
            .rel _ _ (Simplifies.exchange [] b ⟨⟨a, .pos⟩, .double⟩ ⟨⟨a, .neg⟩, .double⟩ rfl)
          cases b with
          | nil =>
            exact ⟨_, by simp [Ordered]; rfl, hex, by simp, by simp⟩
          | cons y b =>
            obtain ⟨⟨a', e⟩, am⟩ := y
            obtain rfl : am = .double := hh ⟨⟨a', e⟩, am⟩ (by simp)
            have hy := (List.isChain_cons_cons.1 hb).1
            have hb' := (List.isChain_cons_cons.1 hb).2
            by_cases ha : a = a'
            · subst ha
              obtain rfl : e = .pos := (hy rfl).2
              refine ⟨⟨⟨a, .neg⟩, .double⟩ :: b, ?_, ?_, by simp, fun z hz => hh z (by simp at hz ⊢; tauto)⟩
              · refine List.isChain_cons.2 ⟨fun z hz hza => ?_, hb'.tail⟩
                have := (List.isChain_cons.1 hb').1 z hz hza
                simp at this
              · refine hex.trans (.rel _ _ ?_)
                exact Simplifies.cancel [⟨⟨a, .neg⟩, .double⟩] b ⟨a, .pos⟩ .double .double (by decide)
            · refine ⟨_, ?_, hex, by simp, fun z hz => ?_⟩
              · exact List.isChain_cons_cons.2 ⟨fun _ => ⟨rfl, rfl⟩, List.isChain_cons_cons.2 ⟨fun h => absurd h ha, hb'⟩⟩
              · rcases List.mem_cons.1 hz with rfl | hz
                · rfl
                · rcases List.mem_cons.1 hz with rfl | hz
                  · rfl
                  · exact hh z (List.mem_cons_of_mem _ hz)
    · exact ⟨⟨⟨a, d⟩, .double⟩ :: ⟨⟨a', d'⟩, .double⟩ :: b, List.isChain_cons_cons.2 ⟨fun h => absurd h ha, hb⟩, same_refl _, by simp,
        by simpa using hh⟩

theorem half_ordered : ∀ (a : List AxisMove), (∀ x ∈ a, x.amount = .double) →
    ∃ b, Ordered .neg b ∧ SameObviously a b ∧ b.length ≤ a.length ∧ ∀ x ∈ b, x.amount = .double
  | [], _ => ⟨[], by simp [Ordered], same_refl _, by simp, by simp⟩
  | m :: a, h => by
    obtain ⟨b, h1, h2, h3, h4⟩ := half_ordered a fun x hx => h x (by simp [hx])
    obtain ⟨b', g1, g2, g3, g4⟩ := insert_half m (h m (by simp)) b h1 h4
    exact ⟨b', g1, (h2.cons m).trans g2, by simp; omega, g4⟩

theorem SameObviously.append_left {a b : List AxisMove} (w : List AxisMove) (h : SameObviously a b) : SameObviously (w ++ a) (w ++ b) := by
  induction w with
  | nil => exact h
  | cons m w ih => exact ih.cons m

theorem reversed_append (a b : List AxisMove) : reversed (a ++ b) = reversed b ++ reversed a := (C02_reversed_append a b).1

theorem same_reversed {a b : List AxisMove} (h : SameObviously a b) : SameObviously (reversed a) (reversed b) := by
  induction h with
  | rel a b h =>
    refine .rel _ _ ?_
    cases h with
    | exchange u v m m' h =>
      simp only [reversed_append]
      have := Simplifies.exchange (reversed v) (reversed u) (Move.inverse m') (Move.inverse m) h.symm
      simpa [reversed] using this
    | merge u v f x y z h =>
      have key : ∀ x y z : Amount, (quarterTurns x + quarterTurns y) % 4 = quarterTurns z →
        (quarterTurns (y.mul .neg) + quarterTurns (x.mul .neg)) % 4 = quarterTurns (z.mul .neg) := by decide
      have := Simplifies.merge (reversed v) (reversed u) f _ _ _ (key x y z h)
      simpa [reversed, Move.inverse, AxisMove.inverse] using this
    | cancel u v f x y h =>
      have key : ∀ x y : Amount, (quarterTurns x + quarterTurns y) % 4 = 0 →
        (quarterTurns (y.mul .neg) + quarterTurns (x.mul .neg)) % 4 = 0 := by decide
      have := Simplifies.cancel (reversed v) (reversed u) f _ _ (key x y h)
      simpa [reversed, Move.inverse, AxisMove.inverse] using this
  | refl a => exact .refl _
  | symm _ _ _ ih => exact ih.symm
  | trans _ _ _ _ _ ih1 ih2 => exact ih1.trans ih2

theorem same_rotated {a b : List AxisMove} (h : SameObviously a b) (r : AxisRotation) :
    SameObviously (a.map (rotated · r)) (b.map (rotated · r)) := by
  induction h with
  | rel a b h =>
    refine .rel _ _ ?_
    cases h with
    | exchange u v m m' h =>
      have key : ∀ (f g : Face) (r : AxisRotation), f.axis = g.axis → (rotated f r).axis = (rotated g r).axis := by decide +kernel
      have := Simplifies.exchange (u.map (rotated · r)) (v.map (rotated · r)) (rotated m r) (rotated m' r) (key _ _ r h)
      simpa using this
    | merge u v f x y z h =>
      have := Simplifies.merge (u.map (rotated · r)) (v.map (rotated · r)) (rotated f r) x y z h
      simpa [rotated, AxisMove.rotated] using this
    | cancel u v f x y h =>
      have := Simplifies.cancel (u.map (rotated · r)) (v.map (rotated · r)) (rotated f r) x y h
      simpa [rotated, AxisMove.rotated] using this
  | refl a => exact .refl _
  | symm _ _ _ ih => exact ih.symm
  | trans _ _ _ _ _ ih1 ih2 => exact ih1.trans ih2

theorem same_undo : ∀ p : List AxisMove, SameObviously (p ++ reversed p) []
  | [] => same_refl _
  | m :: p => by
    have e : m :: p ++ reversed (m :: p) = ([m] ++ (p ++ reversed p)) ++ [Move.inverse m] := by simp [reversed]
    rw [e]
    refine ((((same_undo p).append_left [m]).append_right [Move.inverse m])).trans (.rel _ _ ?_)
    have key : ∀ x : Amount, (quarterTurns x + quarterTurns (x.mul .neg)) % 4 = 0 := by decide
    exact Simplifies.cancel [] [] m.face m.amount _ (key _)

theorem same_undo' (p : List AxisMove) : SameObviously (reversed p ++ p) [] := by
  have := same_undo (reversed p)
  rwa [reversed_reversed_axis] at this

theorem same_of_quotient {a b : List AxisMove} (h : SameObviously (a ++ reversed b) []) : SameObviously a b := by
  have h1 := (same_undo' b).append_left a
  rw [List.append_nil, ← List.append_assoc] at h1
  exact h1.symm.trans (h.append_right b)

theorem same_cyclic {p q : List AxisMove} (h : SameObviously (q ++ p) []) : SameObviously (p ++ q) [] := by
  have h1 := (same_undo p).append_left (p ++ q)
  have h2 := (h.append_left p).append_right (reversed p)
  simp only [List.append_nil, List.append_assoc] at h1 h2
  exact (h1.symm.trans (by simpa using h2)).trans (same_undo p)

/-! ## Algs that do nothing -/

/-- the cube and its moves -/
abbrev rot3 : RotSys := ⟨⟨Cube3, AxisMove⟩, rotated, fun _ => True⟩

theorem rot3_mem : rot3 ∈ rotSystems := by simp [rotSystems]

theorem agree3 (a b : List AxisMove) :
    movedAlg Cube3.SOLVED a = movedAlg Cube3.SOLVED b ↔ ∀ c : Cube3, movedAlg c a = movedAlg c b :=
  (rotSystems_good rot3 rot3_mem).agree a b

theorem undo3 (c : Cube3) (w : List AxisMove) : movedAlg (movedAlg c w) (reversed w) = c ∧ movedAlg (movedAlg c (reversed w)) w = c :=
  C02_alg_then_reversed ⟨Cube3, AxisMove⟩ (by simp [moveSystems]) w c

/-- the alg does nothing -/
def DoesNothing (w : List AxisMove) : Prop := movedAlg Cube3.SOLVED w = Cube3.SOLVED

theorem nothing_iff (a b : List AxisMove) : DoesNothing (a ++ reversed b) ↔ movedAlg Cube3.SOLVED a = movedAlg Cube3.SOLVED b := by
  rw [DoesNothing, alg_append]
  constructor
  · intro h
    have := (undo3 (movedAlg Cube3.SOLVED a) b).2
    rw [h] at this; exact this.symm
  · intro h; rw [h]; exact (undo3 _ b).1

theorem nothing_cyclic {p q : List AxisMove} (h : DoesNothing (p ++ q)) : DoesNothing (q ++ p) := by
  have h1 := (agree3 (p ++ q) []).1 h (movedAlg Cube3.SOLVED q)
  have h2 := (undo3 (movedAlg (movedAlg Cube3.SOLVED q) p) q).1
  rw [← alg_append _ p q, h1] at h2
  rw [DoesNothing, alg_append, ← h2]
  exact (undo3 _ q).1

theorem nothing_rotated {w : List AxisMove} (h : DoesNothing w) (r : AxisRotation) : DoesNothing (w.map (rotated · r)) :=
  (C100_same_state rot3 rot3_mem [r] w []).1.2 h

theorem nothing_reversed {w : List AxisMove} (h : DoesNothing w) : DoesNothing (reversed w) :=
  (C100_same_state rot3 rot3_mem [] w []).2.2 h

/-- an alg of at most eight moves that begins with `R` and does nothing is obviously nothing -/
theorem quarter_first (y : List AxisMove) (hl : y.length ≤ 7) (h : DoesNothing (⟨.R, .single⟩ :: y)) :
    SameObviously (⟨.R, .single⟩ :: y) [] := by
  have e : (⟨.R, .single⟩ :: y : List AxisMove) = (⟨.R, .single⟩ :: y.take 3) ++ reversed (reversed (y.drop 3)) := by
    rw [reversed_reversed_axis, List.cons_append, List.take_append_drop]
  rw [e, nothing_iff] at h
  have hx : orderedForm (y.take 3) ∈ orderedShort 3 := mem_orderedShort (orderedForm_ordered _)
    ((orderedForm_length _).trans (by simp))
  have hv : orderedForm (reversed (y.drop 3)) ∈ orderedShort 4 := mem_orderedShort (orderedForm_ordered _)
    ((orderedForm_length _).trans (by rw [(C02_reversed_append (y.drop 3) []).2, List.length_drop]; omega))
  have s1 := (orderedForm_same (y.take 3)).cons ⟨.R, .single⟩
  have s2 := orderedForm_same (reversed (y.drop 3))
  have s3 := short_quarter hx hv (by rw [← cube3_same s2, ← h]; exact (cube3_same s1 _).symm)
  rw [e]
  exact (((s1.trans s3.symm).trans s2.symm).append_right _).trans (same_undo _)

/-- an alg of at most eight moves with a quarter turn that does nothing is obviously nothing -/
theorem quarter_somewhere (w : List AxisMove) (hl : w.length ≤ 8) (hq : ∃ m ∈ w, m.amount ≠ .double) (h : DoesNothing w) :
    SameObviously w [] := by
  obtain ⟨m, hm, hq⟩ := hq
  obtain ⟨p, q, rfl⟩ := List.append_of_mem hm
  refine same_cyclic ?_
  have h1 := nothing_cyclic h
  have hlen : (q ++ p).length ≤ 7 := by simp at hl ⊢; omega
  rw [List.cons_append] at h1 ⊢
  generalize q ++ p = y at h1 hlen ⊢
  have key : ∀ f : Face, ∃ r : AxisRotation, rotated f r = .R := by decide +kernel
  obtain ⟨r, hr⟩ := key m.face
  suffices hs : SameObviously ((m :: y).map (rotated · r)) [] by
    have := same_rotated hs r.inverse
    rw [List.map_map, show (fun x : AxisMove => rotated x r.inverse) ∘ (fun x => rotated x r) = id from
      funext fun x => (rotated_back x r).1, List.map_id] at this
    exact this
  have h2 := nothing_rotated h1 r
  have em : rotated m r = ⟨.R, m.amount⟩ := by rw [← hr]; rfl
  rw [List.map_cons, em] at h2 ⊢
  have hlen2 : (y.map (rotated · r)).length ≤ 7 := by simpa using hlen
  generalize y.map (rotated · r) = z at h2 hlen2 ⊢
  rcases ha : m.amount with _ | _ | _
  · rw [ha] at h2; exact quarter_first z hlen2 h2
  · exact absurd ha hq
  · rw [ha] at h2
    have h3 := nothing_reversed h2
    have e : reversed (⟨.R, .inverse⟩ :: z : List AxisMove) = reversed z ++ [⟨.R, .single⟩] := by
      simp [reversed, Move.inverse, AxisMove.inverse, Amount.mul]
    rw [e] at h3
    have h4 := quarter_first (reversed z) (by rw [(C02_reversed_append z []).2]; exact hlen2) (nothing_cyclic h3)
    have h5 := same_cyclic (p := reversed z) (q := [⟨.R, .single⟩]) h4
    rw [← e] at h5
    have h6 := same_reversed h5
    rw [reversed_reversed_axis] at h6
    exact h6

/-! ## Exchanging pairs of half turns -/

theorem SameObviously.pairs {a b : List AxisMove} (h : SameObviously a b) : SameUpToPairs a b := by
  induction h with
  | rel a b h => exact .rel _ _ (.obvious h)
  | refl a => exact .refl _
  | symm _ _ _ ih => exact .symm _ _ ih
  | trans _ _ _ _ _ ih1 ih2 => exact .trans _ _ _ ih1 ih2

theorem SameUpToPairs.symm {a b : List AxisMove} (h : SameUpToPairs a b) : SameUpToPairs b a := Relation.EqvGen.symm _ _ h
theorem SameUpToPairs.trans {a b c : List AxisMove} (h : SameUpToPairs a b) (h' : SameUpToPairs b c) : SameUpToPairs a c :=
  Relation.EqvGen.trans _ _ _ h h'

theorem SameUpToPairs.around {a b : List AxisMove} (h : SameUpToPairs a b) (u v : List AxisMove) :
    SameUpToPairs (u ++ a ++ v) (u ++ b ++ v) := by
  induction h with
  | rel a b h =>
    cases h with
    | obvious h =>
      have h' : SameObviously a b := .rel _ _ h
      exact ((h'.append_left u).append_right v).pairs
    | pairs u' v' x y =>
      refine .rel _ _ ?_
      have := SimplifiesPairs.pairs (u ++ u') (v' ++ v) x y
      simpa only [List.append_assoc] using this
  | refl a => exact .refl _
  | symm _ _ _ ih => exact ih.symm
  | trans _ _ _ _ _ ih1 ih2 => exact ih1.trans ih2

theorem halfBoth_pair (a : Axis) : SameObviously (halfBoth a) (halfPair a) :=
  .rel _ _ (Simplifies.exchange [] [] (halfMove a .neg) (halfMove a .pos) rfl)

theorem pairs_commute (a b : Axis) : SameUpToPairs (halfBoth a ++ halfBoth b) (halfBoth b ++ halfBoth a) := by
  have h (a b : Axis) : SameObviously (halfBoth a ++ halfBoth b) (halfPair a ++ halfPair b) :=
    ((halfBoth_pair a).append_right _).trans ((halfBoth_pair b).append_left _)
  have := SimplifiesPairs.pairs [] [] a b
  simp only [List.nil_append, List.append_nil] at this
  exact ((h a b).pairs.trans (.rel _ _ this)).trans (h b a).symm.pairs

theorem pairs_between (a b : Axis) (d : Direction) :
    SameUpToPairs ([halfMove a .neg] ++ halfBoth b ++ [halfMove a d.flip]) ([halfMove a .pos] ++ halfBoth b ++ [halfMove a d]) := by
  have h1 : SameObviously [halfMove a d.flip] (halfBoth a ++ [halfMove a d]) := by
    have c1 : SameObviously [halfMove a d.flip] ([halfMove a d.flip] ++ [halfMove a d, halfMove a d]) :=
      SameObviously.symm (.rel _ _ (Simplifies.cancel [halfMove a d.flip] [] ⟨a, d⟩ .double .double (by decide)))
    refine c1.trans ?_
    cases d with
    | neg => exact .rel _ _ (Simplifies.exchange [] [halfMove a .neg] (halfMove a .pos) (halfMove a .neg) rfl)
    | pos => exact same_refl _
  have h2 : SameObviously ([halfMove a .neg] ++ halfBoth a) [halfMove a .pos] :=
    .rel _ _ (Simplifies.cancel [] [halfMove a .pos] ⟨a, .neg⟩ .double .double (by decide))
  have s1 := (h1.append_left ([halfMove a .neg] ++ halfBoth b)).pairs
  have s2 := (pairs_commute b a).around [halfMove a .neg] [halfMove a d]
  have s3 := (h2.append_right (halfBoth b ++ [halfMove a d])).pairs
  simp only [List.append_assoc] at s1 s2 s3 ⊢
  exact (s1.trans s2).trans s3

theorem twins_same : ∀ p ∈ twins, SameUpToPairs p.1 p.2 := by
  intro p hp
  rcases List.mem_append.1 hp with h | h
  · obtain ⟨q, -, rfl⟩ := List.mem_map.1 h
    exact pairs_commute q.2 q.1
  · obtain ⟨q, -, h⟩ := List.mem_flatMap.1 h
    obtain ⟨d, -, rfl⟩ := List.mem_map.1 h
    exact pairs_between q.1 q.2 d

theorem firstTwin_same (w : List AxisMove) : SameUpToPairs w (firstTwin w) := by
  rcases firstTwin_cases w with ⟨-, h2⟩ | h1
  · rw [h2]; exact (same_refl w).pairs
  · exact twins_same _ h1

theorem pairs_effect {a b : List AxisMove} (h : SameUpToPairs a b) (c : Cube3) : movedAlg c a = movedAlg c b := by
  induction h generalizing c with
  | rel a b h =>
    cases h with
    | obvious h => exact cube3_same (.rel _ _ h) c
    | pairs u v x y =>
      have key : ∀ x y : Axis, movedAlg Cube3.SOLVED (halfPair x ++ halfPair y) = movedAlg Cube3.SOLVED (halfPair y ++ halfPair x) := by
        decide +kernel
      have := (agree3 _ _).1 (key x y) (movedAlg c u)
      simp only [alg_append] at this ⊢
      rw [this]
  | refl a => rfl
  | symm _ _ _ ih => exact (ih c).symm
  | trans _ _ _ _ _ ih1 ih2 => exact (ih1 c).trans (ih2 c)

theorem half_amounts {w : List AxisMove} (h : ∀ x ∈ w, x.amount = .double) : ∀ x ∈ reversed w, x.amount = .double := by
  intro m hm
  unfold reversed at hm
  rw [List.mem_map] at hm
  obtain ⟨x, hx, rfl⟩ := hm
  have := h x (List.mem_reverse.1 hx)
  show x.amount.mul .neg = .double
  rw [this]; rfl

/-- an alg of at most eight half turns that does nothing -/
theorem half_nothing (w : List AxisMove) (hh : ∀ x ∈ w, x.amount = .double) (hl : w.length ≤ 8) (h : DoesNothing w) :
    SameUpToPairs w [] ∧ (w.length ≤ 7 → SameObviously w []) := by
  have e : w = w.take 4 ++ reversed (reversed (w.drop 4)) := by rw [reversed_reversed_axis, List.take_append_drop]
  have hst := h
  rw [e, nothing_iff] at hst
  obtain ⟨u, u1, u2, u3, u4⟩ := half_ordered (w.take 4) fun x hx => hh x (List.mem_of_mem_take hx)
  obtain ⟨v, v1, v2, v3, v4⟩ := half_ordered (reversed (w.drop 4)) (half_amounts fun x hx => hh x (List.mem_of_mem_drop hx))
  have hlu : u.length ≤ 4 := u3.trans (by simp)
  have hlv : v.length ≤ w.length - 4 := v3.trans (by rw [(C02_reversed_append (w.drop 4) []).2, List.length_drop])
  have ht := short_half (mem_orderedHalf u1 hlu u4) (mem_orderedHalf v1 (by omega) v4)
    (by rw [← cube3_same u2, ← cube3_same v2, hst])
  constructor
  · have s1 : SameUpToPairs (w.take 4) (reversed (w.drop 4)) := by
      refine (u2.pairs.trans (firstTwin_same u)).trans ?_
      rw [ht]
      exact (v2.pairs.trans (firstTwin_same v)).symm
    have s2 := s1.around [] (w.drop 4)
    rw [List.nil_append, List.nil_append, List.take_append_drop] at s2
    exact s2.trans (same_undo' _).pairs
  · intro hl7
    have hv : firstTwin v = v := by
      rcases firstTwin_cases v with ⟨-, h2⟩ | h1
      · exact h2
      · have := (twins_ok _ h1).2.2.1; simp only at this; omega
    have hu : firstTwin u = u := by
      rcases firstTwin_cases u with ⟨-, h2⟩ | h1
      · exact h2
      · have := (twins_ok _ h1).2.2.2; simp only at this; rw [ht, hv] at this; omega
    rw [hu, hv] at ht
    subst ht
    have s2 := (u2.trans v2.symm).append_right (w.drop 4)
    rw [List.take_append_drop] at s2
    exact s2.trans (same_undo' _)

/-! ## Counting -/

theorem shortWords_ordered (after : Face → List (AxisMove × Nat))
    (ha : ∀ (f : Face), ∀ m ∈ after f, f.axis = m.1.face.axis → f.direction = .neg ∧ m.1.face.direction = .pos) :
    ∀ (n : Nat) (ms : List (AxisMove × Nat)) (w : List AxisMove), w ∈ shortWords after n ms →
      Ordered .neg w ∧ w.length ≤ n ∧ ∃ m ∈ ms, w.head? = some m.1
  | 0, _, _, h => by simp [shortWords] at h
  | n + 1, ms, w, h => by
    obtain ⟨m, hm, h⟩ := List.mem_flatMap.1 h
    rcases List.mem_cons.1 h with rfl | h
    · exact ⟨by simp [Ordered], by simp, m, hm, rfl⟩
    · obtain ⟨v, hv, rfl⟩ := List.mem_map.1 h
      obtain ⟨h1, h2, x, hx, h3⟩ := shortWords_ordered after ha n _ v hv
      refine ⟨List.isChain_cons.2 ⟨fun y hy => ?_, h1⟩, by simpa using h2, m, hm, rfl⟩
      rw [h3] at hy
      obtain rfl : x.1 = y := by simpa using hy
      exact ha _ x hx

theorem shortWords_nodup (after : Face → List (AxisMove × Nat)) (ha : ∀ f, ((after f).map Prod.fst).Nodup) :
    ∀ (n : Nat) (ms : List (AxisMove × Nat)), (ms.map Prod.fst).Nodup → (shortWords after n ms).Nodup
  | 0, _, _ => List.nodup_nil
  | n + 1, ms, h => by
    have hne : ∀ (n : Nat) (ms : List (AxisMove × Nat)), [] ∉ shortWords after n ms := by
      intro n ms h
      cases n with
      | zero => simp [shortWords] at h
      | succ n => obtain ⟨m, -, h⟩ := List.mem_flatMap.1 h; simp at h
    refine List.nodup_flatMap.2 ⟨fun m _ => List.nodup_cons.2 ⟨fun hm => ?_, ?_⟩, ?_⟩
    · obtain ⟨v, hv, e⟩ := List.mem_map.1 hm
      obtain rfl : v = [] := by simpa using e
      exact hne _ _ hv
    · exact List.Nodup.map (fun a b e => by simpa using e) (shortWords_nodup after ha n _ (ha _))
    · have : ms.Pairwise fun a b => a.1 ≠ b.1 := List.pairwise_map.1 h
      refine this.imp fun {a b} hab w h1 h2 => hab ?_
      have key : ∀ m : AxisMove × Nat, w ∈ [m.1] :: (shortWords after n (after m.1.face)).map (m.1 :: ·) → w.head? = some m.1 := by
        intro m hm
        rcases List.mem_cons.1 hm with rfl | hm
        · rfl
        · obtain ⟨v, -, rfl⟩ := List.mem_map.1 hm; rfl
      have := (key a h1).symm.trans (key b h2)
      simpa using this

theorem orderedShort_ok (n : Nat) : (orderedShort n).Nodup ∧ ∀ w, w ∈ orderedShort n ↔ Ordered .neg w ∧ w.length ≤ n := by
  have ha : ∀ (f : Face), ∀ m ∈ shortAfter f, f.axis = m.1.face.axis → f.direction = .neg ∧ m.1.face.direction = .pos := by
    decide +kernel
  refine ⟨List.nodup_cons.2 ⟨fun h => ?_, ?_⟩, fun w => ⟨fun h => ?_, fun h => mem_orderedShort h.1 h.2⟩⟩
  · obtain ⟨-, -, m, -, h⟩ := shortWords_ordered shortAfter ha n _ _ h
    simp at h
  · exact shortWords_nodup shortAfter (by decide +kernel) n _ (by decide +kernel)
  · rcases List.mem_cons.1 h with rfl | h
    · exact ⟨by simp [Ordered], by simp⟩
    · obtain ⟨h1, h2, -⟩ := shortWords_ordered shortAfter ha n _ _ h
      exact ⟨h1, h2⟩

theorem orderedShort_lengths : (orderedShort 0).length = 1 ∧ (orderedShort 1).length = 19 ∧ (orderedShort 2).length = 262 := by
  decide +kernel

set_option maxRecDepth 100000 in
theorem orderedShort_four : (orderedShort 4).length = 46756 := by decide +kernel

theorem statesWithin_ordered (n : Nat) : StatesWithin n = (movedAlg Cube3.SOLVED ·) '' {w | w ∈ orderedShort n} := by
  ext c
  constructor
  · rintro ⟨w, hw, rfl⟩
    exact ⟨orderedForm w, mem_orderedShort (orderedForm_ordered w) ((orderedForm_length w).trans hw), (cube3_same (orderedForm_same w) _).symm⟩
  · rintro ⟨w, hw, rfl⟩
    exact ⟨w, (((orderedShort_ok n).2 w).1 hw).2, rfl⟩

theorem ncard_list {α : Type} (l : List α) (h : l.Nodup) : {w | w ∈ l}.ncard = l.length := by
  classical
  rw [show {w | w ∈ l} = (l.toFinset : Set α) by ext; simp, Set.ncard_coe_finset, List.toFinset_card_of_nodup h]

/-! ## C110 -/

/-- **C110** Two algs of the 3x3 that have at most eight moves together, a quarter turn among them, lead to the same state only if that is
obvious: by exchanging neighbouring moves of one axis and by merging or cancelling neighbouring moves of one face. -/
theorem C110_with_quarter_turn (a b : List AxisMove) (hl : a.length + b.length ≤ 8) (hq : ∃ m ∈ a ++ b, m.amount ≠ .double) :
    movedAlg Cube3.SOLVED a = movedAlg Cube3.SOLVED b ↔ SameObviously a b := by
  refine ⟨fun h => same_of_quotient (quarter_somewhere _ ?_ ?_ ((nothing_iff a b).2 h)), fun h => cube3_same h _⟩
  · rw [List.length_append, (C02_reversed_append b []).2]; exact hl
  · obtain ⟨m, hm, hq⟩ := hq
    rcases List.mem_append.1 hm with hm | hm
    · exact ⟨m, List.mem_append_left _ hm, hq⟩
    · refine ⟨Move.inverse m, List.mem_append_right _ (List.mem_map.2 ⟨m, List.mem_reverse.2 hm, rfl⟩), ?_⟩
      have key : ∀ x : Amount, x ≠ .double → x.mul .neg ≠ .double := by decide
      exact key _ hq

/-- `R U R' U'` and `U R U' R'` are different, since they are not obviously the same -/
example : movedAlg Cube3.SOLVED ([⟨.R, single⟩, ⟨.U, single⟩, ⟨.R, inverse⟩, ⟨.U, inverse⟩] : List AxisMove) ≠
    movedAlg Cube3.SOLVED ([⟨.U, single⟩, ⟨.R, single⟩, ⟨.U, inverse⟩, ⟨.R, inverse⟩] : List AxisMove) := by
  rw [Ne, C110_with_quarter_turn _ _ (by decide) ⟨⟨.R, single⟩, by decide, by decide⟩, ← C103_canonical _ _ 2 (by decide) (by decide)]
  decide +kernel

/-- **C110** Two algs of the 3x3 that have at most seven moves together lead to the same state only if that is obvious. -/
theorem C110_seven_moves (a b : List AxisMove) (hl : a.length + b.length ≤ 7) :
    movedAlg Cube3.SOLVED a = movedAlg Cube3.SOLVED b ↔ SameObviously a b := by
  by_cases hq : ∃ m ∈ a ++ b, m.amount ≠ .double
  · exact C110_with_quarter_turn a b (by omega) hq
  · refine ⟨fun h => same_of_quotient ((half_nothing _ ?_ ?_ ((nothing_iff a b).2 h)).2 ?_), fun h => cube3_same h _⟩
    · push Not at hq
      intro x hx
      rcases List.mem_append.1 hx with hx | hx
      · exact hq x (List.mem_append_left _ hx)
      · exact half_amounts (fun y hy => hq y (List.mem_append_right _ hy)) x hx
    all_goals rw [List.length_append, (C02_reversed_append b []).2]; omega

/-- `R2 U2 R2 U2` is not `U2 R2 U2` -/
example : movedAlg Cube3.SOLVED ([⟨.R, double⟩, ⟨.U, double⟩, ⟨.R, double⟩, ⟨.U, double⟩] : List AxisMove) ≠
    movedAlg Cube3.SOLVED ([⟨.U, double⟩, ⟨.R, double⟩, ⟨.U, double⟩] : List AxisMove) := by
  rw [Ne, C110_seven_moves _ _ (by decide), ← C103_canonical _ _ 2 (by decide) (by decide)]
  decide +kernel

/-- **C110** So `normalized`, applied four times, tells such algs apart: the states are equal exactly when the normal forms are. -/
theorem C110_normal_forms_decide (a b : List AxisMove) (hl : a.length + b.length ≤ 7) :
    movedAlg Cube3.SOLVED a = movedAlg Cube3.SOLVED b ↔ normalized^[4] a = normalized^[4] b := by
  rw [C110_seven_moves a b hl, C103_canonical a b 4 (by omega) (by omega)]

example : movedAlg Cube3.SOLVED ([⟨.R, single⟩, ⟨.L, double⟩, ⟨.R, single⟩, ⟨.U, single⟩] : List AxisMove) =
    movedAlg Cube3.SOLVED ([⟨.L, double⟩, ⟨.R, double⟩, ⟨.U, single⟩] : List AxisMove) := by
  rw [C110_normal_forms_decide _ _ (by decide)]
  decide +kernel

/-- **C110** For at most eight moves together there is one more reason: the half turns of both faces of an axis can be exchanged with those
of another axis. -/
theorem C110_eight_moves (a b : List AxisMove) (hl : a.length + b.length ≤ 8) :
    movedAlg Cube3.SOLVED a = movedAlg Cube3.SOLVED b ↔ SameUpToPairs a b := by
  refine ⟨fun h => ?_, fun h => pairs_effect h _⟩
  by_cases hq : ∃ m ∈ a ++ b, m.amount ≠ .double
  · exact ((C110_with_quarter_turn a b hl hq).1 h).pairs
  · have hn := (nothing_iff a b).2 h
    have hs : SameUpToPairs (a ++ reversed b) [] := by
      refine (half_nothing _ ?_ ?_ hn).1
      · push Not at hq
        intro x hx
        rcases List.mem_append.1 hx with hx | hx
        · exact hq x (List.mem_append_left _ hx)
        · exact half_amounts (fun y hy => hq y (List.mem_append_right _ hy)) x hx
      · rw [List.length_append, (C02_reversed_append b []).2]; exact hl
    have h1 := ((same_undo' b).append_left a).pairs
    have h2 := hs.around [] b
    rw [List.append_nil, ← List.append_assoc] at h1
    exact h1.symm.trans h2

/-- `R2 U2 D2 R2` is `L2 U2 D2 L2` -/
example : SameUpToPairs [⟨.R, double⟩, ⟨.U, double⟩, ⟨.D, double⟩, ⟨.R, double⟩]
    [⟨.L, double⟩, ⟨.U, double⟩, ⟨.D, double⟩, ⟨.L, double⟩] :=
  (C110_eight_moves _ _ (by decide)).1 (by decide +kernel)

/-- **C110** That reason is needed, and seven moves are the limit: `R2 L2 U2 D2` and `U2 D2 R2 L2` have the same effect on every state, but
they are not obviously the same. -/
theorem C110_first_coincidence :
    (∀ c : Cube3, movedAlg c (halfPair .X ++ halfPair .Y) = movedAlg c (halfPair .Y ++ halfPair .X)) ∧
    (halfPair .X ++ halfPair .Y).length = 4 ∧ ¬ SameObviously (halfPair .X ++ halfPair .Y) (halfPair .Y ++ halfPair .X) := by
  refine ⟨fun c => pairs_effect (.rel _ _ (.pairs [] [] .X .Y)) c, rfl, ?_⟩
  rw [← C103_canonical _ _ 2 (by decide) (by decide)]
  decide +kernel

theorem ordered_inj {n : Nat} (hn : n ≤ 3) : Set.InjOn (movedAlg Cube3.SOLVED ·) {w : List AxisMove | w ∈ orderedShort n} := by
  intro v hv w hw h
  obtain ⟨v1, v2⟩ := ((orderedShort_ok n).2 v).1 hv
  obtain ⟨w1, w2⟩ := ((orderedShort_ok n).2 w).1 hw
  exact ordered_unique v1 w1 ((C110_seven_moves v w (by omega)).1 h)

theorem statesWithin_four : StatesWithin 4 = (movedAlg Cube3.SOLVED ·) '' ({w | w ∈ orderedShort 4} \ {w | w ∈ twins.map Prod.fst}) := by
  rw [statesWithin_ordered]
  ext c
  constructor
  · rintro ⟨w, hw, rfl⟩
    rcases firstTwin_cases w with ⟨h, -⟩ | h
    · exact ⟨w, ⟨hw, h⟩, rfl⟩
    · obtain ⟨h1, h2, -⟩ := twins_ok _ h
      refine ⟨firstTwin w, ⟨?_, ?_⟩, h1.symm⟩
      · have key : ∀ p ∈ twins, Ordered .neg p.2 ∧ p.2.length ≤ 4 := by unfold Ordered; decide +kernel
        exact ((orderedShort_ok 4).2 _).2 (key _ h)
      · have := (List.mem_filter.1 h2).2
        simpa using this
  · rintro ⟨w, ⟨hw, -⟩, rfl⟩
    exact ⟨w, hw, rfl⟩

theorem four_inj : Set.InjOn (movedAlg Cube3.SOLVED ·) ({w : List AxisMove | w ∈ orderedShort 4} \ {w | w ∈ twins.map Prod.fst}) := by
  rintro v ⟨hv, hv'⟩ w ⟨hw, hw'⟩ h
  obtain ⟨v1, v2⟩ := ((orderedShort_ok 4).2 v).1 hv
  obtain ⟨w1, w2⟩ := ((orderedShort_ok 4).2 w).1 hw
  by_cases hq : ∃ m ∈ v ++ w, m.amount ≠ .double
  · exact ordered_unique v1 w1 ((C110_with_quarter_turn v w (by omega) hq).1 h)
  · push Not at hq
    have h1 := short_half (mem_orderedHalf v1 v2 fun m hm => hq m (List.mem_append_left _ hm))
      (mem_orderedHalf w1 w2 fun m hm => hq m (List.mem_append_right _ hm)) h
    have key : ∀ w : List AxisMove, w ∉ twins.map Prod.fst → firstTwin w = w := by
      intro w hw
      rcases firstTwin_cases w with ⟨-, h⟩ | h
      · exact h
      · exact absurd (List.mem_map.2 ⟨_, h, rfl⟩) hw
    rwa [key v hv', key w hw'] at h1

/-- **C110** How many states of the 3x3 are at most 0, 1, 2, 3 and 4 moves from solved. -/
theorem C110_counts : (StatesWithin 0).ncard = 1 ∧ (StatesWithin 1).ncard = 19 ∧ (StatesWithin 2).ncard = 262 ∧
    (StatesWithin 3).ncard = 3502 ∧ (StatesWithin 4).ncard = 46741 := by
  have h3 : ∀ n ≤ 3, (StatesWithin n).ncard = (orderedShort n).length := by
    intro n hn
    rw [statesWithin_ordered, Set.InjOn.ncard_image (ordered_inj hn), ncard_list _ (orderedShort_ok n).1]
  obtain ⟨l0, l1, l2⟩ := orderedShort_lengths
  refine ⟨(h3 0 (by omega)).trans l0, (h3 1 (by omega)).trans l1, (h3 2 (by omega)).trans l2, (h3 3 (by omega)).trans orderedShort_three, ?_⟩
  have hn : (twins.map Prod.fst).Nodup := by decide +kernel
  have hsub : {w | w ∈ twins.map Prod.fst} ⊆ {w | w ∈ orderedShort 4} := by
    intro w hw
    have key : ∀ w ∈ twins.map Prod.fst, Ordered .neg w ∧ w.length ≤ 4 := by unfold Ordered; decide +kernel
    exact ((orderedShort_ok 4).2 w).2 (key w hw)
  rw [statesWithin_four, Set.InjOn.ncard_image four_inj, Set.ncard_sdiff hsub (List.finite_toSet _), ncard_list _ hn,
    ncard_list _ (orderedShort_ok 4).1, orderedShort_four]
  rfl

end Barbarosa
