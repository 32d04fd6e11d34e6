import Verif.Model.Hashing
import Verif.Props.PieceSet
import Verif.Model.NonRedundant
import Mathlib.Algebra.BigOperators.Fin

/-!
# C111: states as keys of hash tables
-/

namespace Barbarosa

/-- No value is fed like the beginning of another: what Rust asks of `Hash` besides agreeing with `==`. In particular different values
are fed differently. -/
def PrefixFree {T : Type} (f : T → List Word) : Prop := ∀ x y, f x <+: f y → x = y

/-- the same in a form that can be put together -/
def Separable {T : Type} (f : T → List Word) : Prop := ∀ x y r s, f x ++ r = f y ++ s → x = y ∧ r = s

theorem separable_iff {T : Type} (f : T → List Word) : Separable f ↔ PrefixFree f := by
  constructor
  · rintro h x y ⟨r, e⟩
    exact (h x y r [] (by rw [e, List.append_nil])).1
  · intro h x y r s e
    have hxy : x = y := by
      rcases List.prefix_or_prefix_of_prefix (⟨r, rfl⟩ : f x <+: f x ++ r) (e ▸ ⟨s, rfl⟩ : f y <+: f x ++ r) with h1 | h1
      · exact h x y h1
      · exact (h y x h1).symm
    subst hxy
    exact ⟨rfl, List.append_cancel_left e⟩

theorem Separable.append {A B T : Type} {f : A → List Word} {g : B → List Word} (hf : Separable f) (hg : Separable g)
    (a : T → A) (b : T → B) (hab : ∀ x y, a x = a y → b x = b y → x = y) : Separable fun x => f (a x) ++ g (b x) := by
  intro x y r s e
  simp only [List.append_assoc] at e
  obtain ⟨h1, e⟩ := hf _ _ _ _ e
  obtain ⟨h2, e⟩ := hg _ _ _ _ e
  exact ⟨hab x y h1 h2, e⟩

theorem Separable.list {T : Type} {f : T → List Word} (hf : Separable f) :
    ∀ (l m : List T), l.length = m.length → ∀ r s, l.flatMap f ++ r = m.flatMap f ++ s → l = m ∧ r = s
  | [], [], _, r, s, e => ⟨rfl, by simpa using e⟩
  | x :: l, y :: m, hl, r, s, e => by
    simp only [List.flatMap_cons, List.append_assoc] at e
    obtain ⟨rfl, e'⟩ := hf _ _ _ _ e
    obtain ⟨rfl, e''⟩ := hf.list l m (by simpa using hl) _ _ e'
    exact ⟨rfl, e''⟩

theorem Separable.set {P : Type} {n : Nat} {f : P → List Word} (hf : Separable f) :
    Separable (PieceSet.words f : PieceSet P n → List Word) := by
  intro x y r s e
  unfold PieceSet.words at e
  simp only [List.cons_append, List.cons.injEq, true_and] at e
  obtain ⟨h1, h2⟩ := hf.list _ _ (by simp [PieceSet.toList]) _ _ e
  exact ⟨List.ofFn_injective h1, h2⟩

theorem axis_separable : Separable Axis.words := (separable_iff _).2 (by unfold PrefixFree; decide)
theorem direction_separable : Separable Direction.words := (separable_iff _).2 (by unfold PrefixFree; decide)
theorem bool_separable : Separable boolWords := (separable_iff _).2 (by unfold PrefixFree; decide)
theorem face_separable : Separable Face.words := (separable_iff _).2 (by unfold PrefixFree; decide +kernel)

/-- **C111** Whatever can be a key is fed without ambiguity, if `nalgebra` feeds vectors so: axes, directions, faces, pieces of all kinds,
sets of pieces, and the cubes 2x2, 3x3 and 4x4. -/
theorem C111_prefix_free (vector2 : Vec2 → List Word) (vector : Vec3 → List Word) (h2 : PrefixFree vector2) (h3 : PrefixFree vector) :
    (PrefixFree Axis.words ∧ PrefixFree Direction.words ∧ PrefixFree Face.words) ∧
    (PrefixFree (Corner.words vector) ∧ PrefixFree (Edge.words vector2) ∧ PrefixFree (Wing.words vector2) ∧
      PrefixFree (CenterCorner.words vector) ∧ PrefixFree CenterEdge.words ∧ PrefixFree CenterWing.words) ∧
    (∀ (P : Type) (n : Nat) (f : P → List Word), PrefixFree f → PrefixFree (PieceSet.words f : PieceSet P n → List Word)) ∧
    PrefixFree (Cube2.words vector) ∧ PrefixFree (Cube3.words vector2 vector) ∧ PrefixFree (Cube4.words vector2 vector) := by
  rw [← separable_iff] at h2 h3
  have corner : Separable (Corner.words vector) :=
    h3.append axis_separable Corner.position Corner.orientationAxis (by rintro ⟨_, _⟩ ⟨_, _⟩ rfl rfl; rfl)
  have edge : Separable (Edge.words vector2) :=
    axis_separable.append (h2.append bool_separable (fun x : Vec2 × Bool => x.1) (fun x => x.2) (by rintro ⟨_, _⟩ ⟨_, _⟩ rfl rfl; rfl))
      Edge.normalAxis (fun e => (e.slicePosition, e.oriented)) (by
        rintro ⟨_, _, _⟩ ⟨_, _, _⟩ rfl e
        cases e; rfl)
  have wing : Separable (Wing.words vector2) := by
    rintro ⟨x⟩ ⟨y⟩ r s e
    obtain ⟨rfl, e'⟩ := edge _ _ _ _ e
    exact ⟨rfl, e'⟩
  have center : Separable (CenterCorner.words vector) :=
    h3.append axis_separable CenterCorner.position CenterCorner.axis (by rintro ⟨_, _⟩ ⟨_, _⟩ rfl rfl; rfl)
  have centerEdge : Separable CenterEdge.words :=
    face_separable.append (direction_separable.append direction_separable (fun x : Direction × Direction => x.1) (fun x => x.2)
        (by rintro ⟨_, _⟩ ⟨_, _⟩ rfl rfl; rfl))
      CenterEdge.mainFace (fun e => (e.handedness, e.sideDirection)) (by
        rintro ⟨_, _, _⟩ ⟨_, _, _⟩ rfl e
        cases e; rfl)
  have centerWing : Separable CenterWing.words :=
    centerEdge.append bool_separable CenterWing.correspondingCenterEdge CenterWing.pseudoOriented (by rintro ⟨_, _⟩ ⟨_, _⟩ rfl rfl; rfl)
  have cube2 : Separable (Cube2.words vector) := by
    rintro ⟨x⟩ ⟨y⟩ r s e
    obtain ⟨rfl, e'⟩ := corner.set _ _ _ _ e
    exact ⟨rfl, e'⟩
  have cube3 : Separable (Cube3.words vector2 vector) :=
    edge.set.append corner.set Cube3.edges Cube3.corners (by rintro ⟨_, _⟩ ⟨_, _⟩ rfl rfl; rfl)
  have cube4 : Separable (Cube4.words vector2 vector) :=
    corner.set.append (wing.set.append center.set (fun x : PieceSet Wing 24 × PieceSet CenterCorner 24 => x.1) (fun x => x.2)
        (by rintro ⟨_, _⟩ ⟨_, _⟩ rfl rfl; rfl))
      Cube4.corners (fun e => (e.wings, e.centers)) (by
        rintro ⟨_, _, _⟩ ⟨_, _, _⟩ rfl e
        cases e; rfl)
  simp only [← separable_iff]
  exact ⟨⟨axis_separable, direction_separable, face_separable⟩, ⟨corner, edge, wing, center, centerEdge, centerWing⟩,
    fun _ _ _ hf => hf.set, cube2, cube3, cube4⟩

/-- what `nalgebra` feeds: the numbers of rows and columns, then the entries (not in /repo) -/
def nalgebraWords2 (v : Vec2) : List Word := [.usize 2, .usize 1] ++ v.x.words ++ v.y.words
/-- what `nalgebra` feeds: the numbers of rows and columns, then the entries (not in /repo) -/
def nalgebraWords3 (v : Vec3) : List Word := [.usize 3, .usize 1] ++ v.x.words ++ v.y.words ++ v.z.words

/-- the hypotheses hold for `nalgebra` -/
theorem nalgebra_prefixFree : PrefixFree nalgebraWords2 ∧ PrefixFree nalgebraWords3 := by
  unfold PrefixFree; constructor <;> decide +kernel

/-- a wing is not fed like another, and a set of four corners not like the beginning of another set -/
example : PrefixFree (Wing.words nalgebraWords2) ∧ PrefixFree (PieceSet.words (Corner.words nalgebraWords3) : PieceSet Corner 4 → List Word) :=
  have h := C111_prefix_free _ _ nalgebra_prefixFree.1 nalgebra_prefixFree.2
  ⟨h.2.1.2.2.1, h.2.2.1 _ _ _ h.2.1.1⟩

/-- **C111** Two states are equal exactly if they have the same hash with every hasher: equal states always have, and for different
states some hasher tells them apart. -/
theorem C111_hash (vector2 : Vec2 → List Word) (vector : Vec3 → List Word) (h2 : PrefixFree vector2) (h3 : PrefixFree vector) :
    (∀ a b : Cube2, a = b ↔ ∀ (σ : Type) (h : Hasher σ), h.hash (a.words vector) = h.hash (b.words vector)) ∧
    (∀ a b : Cube3, a = b ↔ ∀ (σ : Type) (h : Hasher σ), h.hash (a.words vector2 vector) = h.hash (b.words vector2 vector)) ∧
    (∀ a b : Cube4, a = b ↔ ∀ (σ : Type) (h : Hasher σ), h.hash (a.words vector2 vector) = h.hash (b.words vector2 vector)) := by
  have key : ∀ {T : Type} {f : T → List Word}, PrefixFree f → ∀ a b : T,
      a = b ↔ ∀ (σ : Type) (h : Hasher σ), h.hash (f a) = h.hash (f b) := by
    intro T f hf a b
    refine ⟨fun e _ _ => by rw [e], fun h => ?_⟩
    have step : ∀ (l acc : List Word), l.foldl (fun s w => s ++ [w]) acc = acc ++ l := by
      intro l
      induction l with
      | nil => simp
      | cons x l ih => intro acc; rw [List.foldl_cons, ih]; simp
    have := h (List Word) ⟨[], fun s w => s ++ [w], fun s => if s = f a then 0 else 1⟩
    simp only [Hasher.hash, step, List.nil_append, if_true] at this
    refine hf a b ⟨[], ?_⟩
    rw [List.append_nil]
    by_contra hne
    rw [if_neg (Ne.symm hne)] at this
    cases this
  obtain ⟨-, -, -, c2, c3, c4⟩ := C111_prefix_free vector2 vector h2 h3
  exact ⟨key c2, key c3, key c4⟩

/-- a hasher that tells the solved 3x3 from the one with the T perm -/
example : ∃ (σ : Type) (h : Hasher σ), h.hash (Cube3.SOLVED.words nalgebraWords2 nalgebraWords3) ≠
    h.hash ((movedAlg Cube3.SOLVED Perms.T).words nalgebraWords2 nalgebraWords3) := by
  by_contra hne
  push Not at hne
  have := ((C111_hash _ _ nalgebra_prefixFree.1 nalgebra_prefixFree.2).2.1 _ _).2 hne
  exact absurd this (by decide +kernel)

/-- the table after putting in some states one after the other -/
def Buckets.inserted {T σ : Type} [DecidableEq T] (h : Hasher σ) (count : Nat) (words : T → List Word) (xs : List T) : Buckets T :=
  xs.foldl (fun t x => t.insert h count words x) fun _ => []

/-- **C111** A hash table, with any hasher and any number of buckets, contains exactly the states put in, each once, however often they are
put in: for each state that is in there is exactly one entry in all buckets together. -/
theorem C111_table {T σ : Type} [DecidableEq T] (h : Hasher σ) (count : Nat) (words : T → List Word) (xs : List T) (x : T) :
    ((Buckets.inserted h count words xs).contains h count words x = true ↔ x ∈ xs) ∧
    (∀ k, (Buckets.inserted h count words xs k).Nodup) ∧
    (∀ k, x ∈ Buckets.inserted h count words xs k ↔ x ∈ xs ∧ k = h.hash (words x) % count) := by
  have key : ∀ (xs : List T) (t : Buckets T) (done : List T), (∀ k, (t k).Nodup) →
      (∀ x k, x ∈ t k ↔ x ∈ done ∧ k = h.hash (words x) % count) →
      (∀ k, (xs.foldl (fun t x => t.insert h count words x) t k).Nodup) ∧
      ∀ x k, x ∈ xs.foldl (fun t x => t.insert h count words x) t k ↔ x ∈ done ++ xs ∧ k = h.hash (words x) % count := by
    intro xs
    induction xs with
    | nil => intro t done h1 h2; simpa using ⟨h1, h2⟩
    | cons y ys ih =>
      intro t done h1 h2
      have := ih (t.insert h count words y) (done ++ [y]) ?_ ?_
      · simpa [List.append_assoc] using this
      · intro k
        unfold Buckets.insert Buckets.contains
        by_cases hn : y ∈ t (h.hash (words y) % count)
        · rw [if_pos (by simpa using hn)]
          exact h1 k
        · rw [if_neg (by simpa using hn)]
          split
          · rename_i hk; subst hk; exact List.nodup_cons.2 ⟨hn, h1 _⟩
          · exact h1 k
      · intro x k
        unfold Buckets.insert Buckets.contains
        by_cases hy : y ∈ t (h.hash (words y) % count)
        · rw [if_pos (by simpa using hy), h2]
          rw [h2] at hy
          constructor
          · rintro ⟨a, b⟩; exact ⟨List.mem_append_left _ a, b⟩
          · rintro ⟨a, b⟩
            rcases List.mem_append.1 a with a | a
            · exact ⟨a, b⟩
            · rw [List.mem_singleton.1 a] at b ⊢; exact ⟨hy.1, b⟩
        · rw [if_neg (by simpa using hy)]
          split
          · rename_i hk
            rw [List.mem_cons, h2, List.mem_append, List.mem_singleton]
            constructor
            · rintro (rfl | ⟨a, b⟩)
              · exact ⟨.inr rfl, hk⟩
              · exact ⟨.inl a, b⟩
            · rintro ⟨a | a, b⟩
              · exact .inr ⟨a, b⟩
              · exact .inl a
          · rename_i hk
            rw [h2, List.mem_append, List.mem_singleton]
            constructor
            · rintro ⟨a, b⟩; exact ⟨.inl a, b⟩
            · rintro ⟨a | rfl, b⟩
              · exact ⟨a, b⟩
              · exact absurd b hk
  obtain ⟨h1, h2⟩ := key xs (fun _ => []) [] (by simp) (by simp)
  refine ⟨?_, h1, fun k => ?_⟩
  · unfold Buckets.contains
    rw [decide_eq_true_eq]
    show x ∈ Buckets.inserted h count words xs _ ↔ _
    unfold Buckets.inserted
    rw [h2]
    simp
  · have := h2 x k
    rw [List.nil_append] at this
    exact this

/-- with a hasher that only counts the words and seven buckets, after R, R', R again: the state after R is found, the one after R2 is not -/
example : let h : Hasher Nat := ⟨0, fun n _ => n + 1, fun n => n⟩
    let w := Cube3.words nalgebraWords2 nalgebraWords3
    let r (x : Amount) : Cube3 := moved Cube3.SOLVED (⟨Face.R, x⟩ : AxisMove)
    let t := Buckets.inserted h 7 w [r .single, r .inverse, r .single]
    t.contains h 7 w (r .single) = true ∧ ¬ t.contains h 7 w (r .double) = true :=
  ⟨(C111_table _ _ _ _ _).1.2 (by decide +kernel), fun h => absurd ((C111_table _ _ _ _ _).1.1 h) (by decide +kernel)⟩

/-- **C111** Every state of one size takes the same number of words: 49, 122 and 339 with the words of `nalgebra`. -/
theorem C111_lengths :
    (∀ c : Cube2, (c.words nalgebraWords3).length = 49) ∧
    (∀ c : Cube3, (c.words nalgebraWords2 nalgebraWords3).length = 122) ∧
    (∀ c : Cube4, (c.words nalgebraWords2 nalgebraWords3).length = 339) := by
  have corner : ∀ c, (Corner.words nalgebraWords3 c).length = 6 := by decide +kernel
  have edge : ∀ c, (Edge.words nalgebraWords2 c).length = 6 := by decide +kernel
  have wing : ∀ c, (Wing.words nalgebraWords2 c).length = 6 := by decide +kernel
  have center : ∀ c, (CenterCorner.words nalgebraWords3 c).length = 6 := by decide +kernel
  have set : ∀ {P : Type} {n : Nat} {f : P → List Word}, (∀ p, (f p).length = 6) → ∀ s : PieceSet P n, (s.words f).length = 6 * n + 1 := by
    intro P n f hf s
    simp only [PieceSet.words, List.length_cons, List.length_flatMap, hf, List.map_const', List.sum_replicate, PieceSet.toList,
      List.length_ofFn, smul_eq_mul]
    omega
  refine ⟨fun c => ?_, fun c => ?_, fun c => ?_⟩
  · simp only [Cube2.words, set corner]
  · simp only [Cube3.words, List.length_append, set corner, set edge]
  · simp only [Cube4.words, List.length_append, set corner, set wing, set center]

/-- after a turn -/
example : ((moved Cube3.SOLVED (⟨Face.R, .single⟩ : AxisMove)).words nalgebraWords2 nalgebraWords3).length = 122 := C111_lengths.2.1 _

end Barbarosa
