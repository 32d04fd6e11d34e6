import Verif.Lemmas.NormalForm
import Verif.Props.Algs
import Verif.Props.Geometry

/-!
# Property C103: algs that are obviously the same have the same normal form
-/

namespace Barbarosa

open Amount Face

/-! ## Sorting an alg without redundancy -/

theorem Simplifies.cons {a b : List AxisMove} (h : Simplifies a b) (m : AxisMove) : Simplifies (m :: a) (m :: b) := by
  cases h with
  | exchange u v x y h => exact Simplifies.exchange (m :: u) v x y h
  | merge u v f x y z h => exact Simplifies.merge (m :: u) v f x y z h
  | cancel u v f x y h => exact Simplifies.cancel (m :: u) v f x y h

theorem SameObviously.cons {a b : List AxisMove} (h : SameObviously a b) (m : AxisMove) : SameObviously (m :: a) (m :: b) := by
  induction h with
  | rel a b h => exact .rel _ _ (h.cons m)
  | refl a => exact .refl _
  | symm _ _ _ ih => exact ih.symm
  | trans _ _ _ _ _ ih1 ih2 => exact ih1.trans ih2

theorem Reduced.tail {m : AxisMove} {l : List AxisMove} (h : Reduced (m :: l)) : Reduced l := by
  intro i j hij hj hf
  obtain ⟨k, hk, h1, h2, h3⟩ := h (i + 1) (j + 1) (by omega) (by simpa using hj) (by simpa using hf)
  obtain ⟨k, rfl⟩ : ∃ k', k = k' + 1 := ⟨k - 1, by omega⟩
  exact ⟨k, by simpa using hk, by omega, by omega, by simpa using h3⟩

theorem Reduced.second {m m' : AxisMove} {l : List AxisMove} (h : Reduced (m :: m' :: l)) : m.face ≠ m'.face := by
  intro e
  obtain ⟨k, -, h1, h2, -⟩ := h 0 1 (by omega) (by simp) e
  omega

theorem Reduced.third {m m' m'' : AxisMove} {l : List AxisMove} (h : Reduced (m :: m' :: m'' :: l))
    (h1 : m.face.axis = m'.face.axis) : m''.face.axis ≠ m'.face.axis := by
  intro h2
  have n1 := h.second
  have n2 := h.tail.second
  have n3 : m.face = m''.face := by
    have key : ∀ f g k : Face, f.axis = g.axis → k.axis = g.axis → f ≠ g → g ≠ k → f = k := by decide
    exact key _ _ _ h1 h2 n1 n2
  obtain ⟨k, hk, k1, k2, k3⟩ := h 0 2 (by omega) (by simp) n3
  obtain rfl : k = 1 := by omega
  exact k3 h2.symm

theorem ordered_cons_of_head {d : Direction} {m : AxisMove} {b : List AxisMove} (h : Ordered d b)
    (hm : ∀ x ∈ b.head?, m.face.axis = x.face.axis → m.face.direction = d ∧ x.face.direction = d.flip) : Ordered d (m :: b) :=
  List.isChain_cons.2 ⟨hm, h⟩

/-- an alg without redundancy becomes ordered by exchanging neighbours -/
theorem sort_reduced (d : Direction) : ∀ (n : Nat) (a : List AxisMove), a.length ≤ n → Reduced a →
    ∃ b, Ordered d b ∧ b.length = a.length ∧ SameObviously a b ∧ b.head?.map (·.face.axis) = a.head?.map (·.face.axis)
  | _, [], _, _ => ⟨[], by simp [Ordered], rfl, same_refl _, rfl⟩
  | _, [m], _, _ => ⟨[m], by simp [Ordered], rfl, same_refl _, rfl⟩
  | 0, _ :: _ :: _, h, _ => by simp at h
  | n + 1, m :: m' :: l, h, hr => by
    simp only [List.length_cons] at h
    by_cases hax : m.face.axis = m'.face.axis
    · obtain ⟨b, b1, b2, b3, b4⟩ := sort_reduced d n l (by omega) hr.tail.tail
      have hb : ∀ x ∈ b.head?, x.face.axis ≠ m'.face.axis := by
        intro x hx
        rw [Option.mem_def] at hx
        rw [hx] at b4
        rcases l with _ | ⟨m'', l⟩
        · simp at b4
        · simp only [Option.map_some, List.head?_cons, Option.some.injEq] at b4
          rw [b4]
          exact hr.third hax
      have hdir : (m.face.direction = d ∧ m'.face.direction = d.flip) ∨ (m'.face.direction = d ∧ m.face.direction = d.flip) := by
        have key : ∀ (f g : Face) (d : Direction), f.axis = g.axis → f ≠ g →
            (f.direction = d ∧ g.direction = d.flip) ∨ (g.direction = d ∧ f.direction = d.flip) := by decide
        exact key _ _ d hax hr.second
      rcases hdir with hd | hd
      · refine ⟨m :: m' :: b, ?_, by simp [b2], (b3.cons m').cons m, rfl⟩
        refine ordered_cons_of_head (ordered_cons_of_head b1 fun x hx e => absurd e.symm (hb x hx)) fun x hx _ => ?_
        simp only [List.head?_cons, Option.mem_some_iff] at hx
        subst hx
        exact hd
      · refine ⟨m' :: m :: b, ?_, by simp [b2], ((b3.cons m').cons m).trans (.rel _ _ (.exchange [] b m m' hax)), ?_⟩
        · refine ordered_cons_of_head (ordered_cons_of_head b1 fun x hx e => absurd (e.symm.trans hax) (hb x hx)) fun x hx _ => ?_
          simp only [List.head?_cons, Option.mem_some_iff] at hx
          subst hx
          exact hd
        · simp [hax]
    · obtain ⟨b, b1, b2, b3, b4⟩ := sort_reduced d n (m' :: l) (by simp only [List.length_cons]; omega) hr.tail
      refine ⟨m :: b, ordered_cons_of_head b1 fun x hx e => ?_, by simp [b2], b3.cons m, rfl⟩
      rw [Option.mem_def] at hx
      rw [hx] at b4
      simp only [Option.map_some, List.head?_cons, Option.some.injEq] at b4
      exact absurd (e.trans b4) hax

/-- the opposite face -/
def oppositeMove (m : AxisMove) : AxisMove := ⟨⟨m.face.axis, m.face.direction.flip⟩, m.amount⟩

theorem oppositeMove_twice : ∀ m, oppositeMove (oppositeMove m) = m := by decide +kernel

theorem opposite_same {a b : List AxisMove} (h : SameObviously a b) : SameObviously (a.map oppositeMove) (b.map oppositeMove) := by
  induction h with
  | rel a b h =>
    refine .rel _ _ ?_
    cases h with
    | exchange u v x y h => simpa using Simplifies.exchange (u.map oppositeMove) (v.map oppositeMove) (oppositeMove x) (oppositeMove y) h
    | merge u v f x y z h =>
      simpa [oppositeMove] using Simplifies.merge (u.map oppositeMove) (v.map oppositeMove) ⟨f.axis, f.direction.flip⟩ x y z h
    | cancel u v f x y h => simpa [oppositeMove] using Simplifies.cancel (u.map oppositeMove) (v.map oppositeMove) ⟨f.axis, f.direction.flip⟩ x y h
  | refl a => exact .refl _
  | symm _ _ _ ih => exact ih.symm
  | trans _ _ _ _ _ ih1 ih2 => exact ih1.trans ih2

theorem opposite_ordered {a : List AxisMove} (h : Ordered .pos a) : Ordered .neg (a.map oppositeMove) := by
  unfold Ordered at h ⊢
  rw [List.isChain_map]
  refine h.imp fun x y hxy e => ?_
  obtain ⟨h1, h2⟩ := hxy e
  simp only [oppositeMove, h1, h2]
  decide

theorem shortest_tail {m : AxisMove} {l : List AxisMove} (h : ∀ b, SameObviously (m :: l) b → (m :: l).length ≤ b.length) :
    ∀ b, SameObviously l b → l.length ≤ b.length := by
  intro b hb
  have := h _ (hb.cons m)
  simpa using this

theorem shortest_no_partner : ∀ (j : Nat) (m : AxisMove) (l : List AxisMove) (_ : ∀ b, SameObviously (m :: l) b → (m :: l).length ≤ b.length)
    (hj : j < l.length) (_ : m.face = l[j].face) (_ : ∀ k (hk : k < j), l[k].face.axis = m.face.axis), False
  | _, _, [], _, hj, _, _ => by simp at hj
  | 0, m, m' :: l, h, _, hf, _ => by
    obtain ⟨f, x⟩ := m
    obtain ⟨g, y⟩ := m'
    simp only [List.getElem_cons_zero] at hf
    subst hf
    have key : ∀ x y : Amount, (quarterTurns x + quarterTurns y) % 4 = 0 ∨ ∃ z, (quarterTurns x + quarterTurns y) % 4 = quarterTurns z := by
      decide
    rcases key x y with hz | ⟨z, hz⟩
    · have := h l (.rel _ _ (.cancel [] l f x y hz))
      simp only [List.length_cons] at this
      omega
    · have := h (⟨f, z⟩ :: l) (.rel _ _ (.merge [] l f x y z hz))
      simp only [List.length_cons] at this
      omega
  | j + 1, m, m' :: l, h, hj, hf, hb => by
    have h0 := hb 0 (by omega)
    simp only [List.getElem_cons_zero] at h0
    refine shortest_no_partner j m l (shortest_tail (m := m') fun b hb => ?_) (by simpa using hj) (by simpa using hf) fun k hk => ?_
    · have := h b (SameObviously.trans (.rel _ _ (.exchange [] l m m' h0.symm)) hb)
      simpa using this
    · simpa using hb (k + 1) (by omega)

theorem reduced_of_shortest : ∀ a : List AxisMove, (∀ b, SameObviously a b → a.length ≤ b.length) → Reduced a
  | [], _ => by intro i j _ hj; simp at hj
  | m :: l, h => by
    have ih := reduced_of_shortest l (shortest_tail h)
    intro i j hij hj hf
    obtain ⟨j, rfl⟩ : ∃ j', j = j' + 1 := ⟨j - 1, by omega⟩
    rcases i with _ | i
    · by_contra hc
      push Not at hc
      refine shortest_no_partner j m l h (by simpa using hj) (by simpa using hf) fun k hk => ?_
      have := hc (k + 1) (by simp only [List.length_cons] at hj ⊢; omega) (by omega) (by omega)
      have hf' : m.face = (l[j]'(by simpa using hj)).face := by simpa using hf
      rw [hf']
      simpa using this
    · obtain ⟨k, hk, h1, h2, h3⟩ := ih i j (by omega) (by simpa using hj) (by simpa using hf)
      exact ⟨k + 1, by simpa using hk, by omega, by omega, by simpa using h3⟩

/-! ## The property -/

/-- **C103** `normalized` only does what is obvious: its result can be reached by exchanging neighbouring moves of one axis, merging
neighbouring moves of one face and leaving out those that undo each other. -/
theorem C103_only_obvious (a : List AxisMove) : SameObviously a (normalized a) := normalized_same a

/-- `R L R` becomes `L R2` -/
example : SameObviously [⟨R, single⟩, ⟨L, single⟩, ⟨R, single⟩] [⟨L, single⟩, ⟨R, double⟩] := by
  have := C103_only_obvious [⟨R, single⟩, ⟨L, single⟩, ⟨R, single⟩]
  rwa [show normalized [⟨R, single⟩, ⟨L, single⟩, ⟨R, single⟩] = [⟨L, single⟩, ⟨R, double⟩] from by decide +kernel] at this

/-- **C103** Normalising as often as C35 asks for gives a canonical form: two algs get the same one exactly if they are obviously the
same. -/
theorem C103_canonical (a b : List AxisMove) (k : Nat) (ha : a.length ≤ 2 * k) (hb : b.length ≤ 2 * k) :
    normalized^[k] a = normalized^[k] b ↔ SameObviously a b := by
  constructor
  · intro h
    have h1 := iterate_same k a
    rw [h] at h1
    exact h1.trans (iterate_same k b).symm
  · intro h
    exact ordered_unique (normalized_iterate k a ha) (normalized_iterate k b hb)
      (((iterate_same k a).symm.trans h).trans (iterate_same k b))

/-- so `R L` and `L R` are obviously the same, `R U` and `U R` are not -/
example : SameObviously [⟨R, single⟩, ⟨L, single⟩] [⟨L, single⟩, ⟨R, single⟩] ∧
    ¬ SameObviously [⟨R, single⟩, ⟨U, single⟩] [⟨U, single⟩, ⟨R, single⟩] := by
  rw [← C103_canonical _ _ 1 (by decide) (by decide), ← C103_canonical _ _ 1 (by decide) (by decide)]
  decide +kernel

/-- **C103** The canonical form is the shortest of all algs that are obviously the same. -/
theorem C103_shortest (a b : List AxisMove) (k : Nat) (ha : a.length ≤ 2 * k) (h : SameObviously a b) :
    (normalized^[k] a).length ≤ b.length := by
  have h1 := normalized_iterate (k + b.length) a (by omega)
  have h2 := (C103_canonical a b (k + b.length) (by omega) (by omega)).2 h
  have h3 := ordered_unique (normalized_iterate k a ha) h1 ((iterate_same k a).symm.trans (iterate_same _ a))
  rw [h3, h2]
  exact iterate_length _ b

/-- the alg of C35 cannot be made shorter than `L R2` -/
example (b : List AxisMove) (h : SameObviously [⟨R, single⟩, ⟨F, single⟩, ⟨F, inverse⟩, ⟨R, single⟩, ⟨L, single⟩] b) : 2 ≤ b.length := by
  have := C103_shortest _ b 3 (by decide) h
  rwa [show (normalized^[3] [⟨R, single⟩, ⟨F, single⟩, ⟨F, inverse⟩, ⟨R, single⟩, ⟨L, single⟩]).length = 2 from by decide +kernel] at this

/-- **C103** An alg has no redundancy in the sense of C35 and C36 exactly if no shorter alg is obviously the same. -/
theorem C103_reduced_iff (a : List AxisMove) : Reduced a ↔ ∀ b, SameObviously a b → a.length ≤ b.length := by
  constructor
  · intro ha b hb
    obtain ⟨c, c1, c2, c3, -⟩ := sort_reduced .neg a.length a le_rfl ha
    have h1 := ordered_unique c1 (normalized_iterate a.length a (by omega)) (c3.symm.trans (iterate_same _ a))
    rw [← c2, h1]
    exact C103_shortest a b _ (by omega) hb
  · intro h
    exact reduced_of_shortest a h

/-- `U D U2` does have redundancy, and `U' D` is shorter -/
example : ¬ Reduced [⟨U, single⟩, ⟨D, single⟩, ⟨U, double⟩] := by
  rw [C103_reduced_iff]
  intro h
  have := h _ (C103_only_obvious _)
  revert this
  decide +kernel

/-- **C103** So random algs cannot be shortened in an obvious way. -/
theorem C103_random_shortest (n : Nat) (a b : List AxisMove) (h : RandomAlg n a) (hb : SameObviously a b) : n ≤ b.length := by
  obtain ⟨h1, h2, -⟩ := C36_no_redundancy n a h
  rw [← h1]
  exact (C103_reduced_iff a).1 h2 b hb

/-- `R L U` cannot be shortened -/
example (b : List AxisMove) (hb : SameObviously [⟨R, single⟩, ⟨L, single⟩, ⟨U, single⟩] b) : 3 ≤ b.length :=
  C103_random_shortest 3 _ b ((C36_random_alg 3 _).2 ⟨rfl, by unfold Ordered; decide⟩) hb

/-- **C103** Every alg is obviously the same as exactly one alg that `Alg::random` can return (for some length). -/
theorem C103_random_represents (a : List AxisMove) : ∃! b, (∃ n, RandomAlg n b) ∧ SameObviously a b := by
  have hr := (normalized_iterate a.length a (by omega)).reduced
  obtain ⟨b, b1, -, b3, -⟩ := sort_reduced .pos _ _ le_rfl hr
  refine ⟨b, ⟨⟨_, (C36_random_alg _ b).2 ⟨rfl, b1⟩⟩, (iterate_same a.length a).trans b3⟩, ?_⟩
  rintro c ⟨⟨n, hn⟩, hc⟩
  have h1 := ((C36_random_alg n c).1 hn).2
  have h2 := ordered_unique (opposite_ordered h1) (opposite_ordered b1)
    (opposite_same (hc.symm.trans ((iterate_same a.length a).trans b3)))
  have h3 := congrArg (List.map oppositeMove) h2
  simpa [List.map_map, Function.comp_def, oppositeMove_twice] using h3

/-- different random algs are not obviously the same -/
example (a b : List AxisMove) (n k : Nat) (ha : RandomAlg n a) (hb : RandomAlg k b) (h : SameObviously a b) : a = b :=
  (C103_random_represents a).unique ⟨⟨n, ha⟩, same_refl a⟩ ⟨⟨k, hb⟩, h⟩

/-- **C103** Algs that are obviously the same have the same effect on every state of every cube; the converse is false: the T perm twice
does nothing, but that is not obvious. -/
theorem C103_effect :
    (∀ s ∈ axisSystems, ∀ (a b : List AxisMove), SameObviously a b → ∀ c : s.C, movedAlg c a = movedAlg c b) ∧
    (∀ c : Cube3, movedAlg c (Perms.T ++ Perms.T) = movedAlg c ([] : List AxisMove)) ∧ ¬ SameObviously (Perms.T ++ Perms.T) [] := by
  refine ⟨fun s hs a b h c => laws_same (axisSystems_laws s hs) h c, ?_, ?_⟩
  · exact fun c => (C55_orders c).2.1
  · rw [← C103_canonical _ _ 14 (by decide) (by decide)]
    decide +kernel

/-- opposite faces exchanged, on any 5x5 -/
example (c : Cube5) : movedAlg c [(⟨R, single⟩ : AxisMove), ⟨L, double⟩] = movedAlg c [(⟨L, double⟩ : AxisMove), ⟨R, single⟩] :=
  C103_effect.1 ⟨Cube5⟩ (by simp [axisSystems]) _ _ (.rel _ _ (.exchange [] [] ⟨R, single⟩ ⟨L, double⟩ rfl)) c

end Barbarosa
