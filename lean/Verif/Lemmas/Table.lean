import Verif.Model.Mus
import Verif.Spec.Mus

/-!
# The breadth first sweep computes exact distances
-/

namespace Barbarosa

/-- What the sweep needs to know about a numbering -/
structure TableLaws (T : Type) [Deindexable T] [Movable T AxisMove] (Good : T → Prop) (start : T) : Prop where
  index : ∀ s, Good s → ∃ r, Deindexable.index? s = some r ∧ r < Deindexable.TOTAL_SET_SIZE T ∧ Deindexable.fromIndex? r = some s
  unindex : ∀ r, r < Deindexable.TOTAL_SET_SIZE T →
    ∃ s : T, Deindexable.fromIndex? r = some s ∧ Good s ∧ Deindexable.index? s = some r
  moved : ∀ s (m : AxisMove), Good s → Good (moved s m)
  all : ∀ m, m ∈ AxisMove.all
  start_good : Good start
  start_index : Deindexable.index? start = some 0

section
variable {T : Type} [Deindexable T] [Movable T AxisMove] {Good : T → Prop} {start : T}

/-- `c'` arises from `c` by writing `d` into unset entries of neighbours of sources -/
def Grow (src : T → Prop) (d : Nat) (c c' : List Nat) : Prop :=
  c'.length = c.length ∧ ∀ j e, c[j]? = some e → ∃ e', c'[j]? = some e' ∧
    (e' = e ∨ (e = 255 ∧ e' = d ∧ ∃ s m, src s ∧ Deindexable.index? (moved s (m : AxisMove)) = some j))

theorem Grow.refl (src : T → Prop) (d : Nat) (c : List Nat) : Grow src d c c := ⟨rfl, fun _ e h => ⟨e, h, Or.inl rfl⟩⟩

theorem Grow.trans {src : T → Prop} {d : Nat} (hd : d ≠ 255) {a b c : List Nat} (h1 : Grow src d a b) (h2 : Grow src d b c) :
    Grow src d a c := by
  refine ⟨h2.1.trans h1.1, fun j e he => ?_⟩
  obtain ⟨e1, g1, k1⟩ := h1.2 j e he
  obtain ⟨e2, g2, k2⟩ := h2.2 j e1 g1
  refine ⟨e2, g2, ?_⟩
  rcases k1 with rfl | ⟨hk, rfl, hx⟩
  · exact k2
  · rcases k2 with rfl | ⟨h255, _, _⟩
    · exact Or.inr ⟨hk, rfl, hx⟩
    · exact absurd h255 hd

/-- entries that are set stay set -/
theorem Grow.set {src : T → Prop} {d : Nat} (hd : d ≠ 255) {a b : List Nat} (h : Grow src d a b) {j : Nat}
    (hj : ∃ e, a[j]? = some e ∧ e ≠ 255) : ∃ e, b[j]? = some e ∧ e ≠ 255 := by
  obtain ⟨e, he, hne⟩ := hj
  obtain ⟨e', h1, h2⟩ := h.2 j e he
  refine ⟨e', h1, ?_⟩
  rcases h2 with rfl | ⟨_, rfl, _⟩
  · exact hne
  · exact hd

theorem successorsLoop_spec (laws : TableLaws T Good start) {src : T → Prop} {d : Nat} (hd : d ≠ 255) {s : T} (hs : src s)
    (hg : Good s) : ∀ (ms : List AxisMove) (c : List Nat), c.length = Deindexable.TOTAL_SET_SIZE T →
      ∃ c', successorsLoop s d ms c = some c' ∧ Grow src d c c' ∧
        ∀ m ∈ ms, ∃ j e, Deindexable.index? (moved s m) = some j ∧ c'[j]? = some e ∧ e ≠ 255
  | [], c, _ => ⟨c, rfl, Grow.refl _ _ _, by simp⟩
  | m :: ms, c, hc => by
    obtain ⟨j, hj, hjt, _⟩ := laws.index _ (laws.moved s m hg)
    have hjc : j < c.length := by rw [hc]; exact hjt
    unfold successorsLoop
    rw [hj]
    simp only
    rw [List.getElem?_eq_getElem hjc]
    simp only
    have hstep : Grow src d c (if (entryGet c[j]).isNone then c.set j d else c) ∧
        ∃ e, (if (entryGet c[j]).isNone then c.set j d else c)[j]? = some e ∧ e ≠ 255 := by
      by_cases h : c[j] = 255
      · have hn : (entryGet c[j]).isNone = true := by simp [entryGet, h]
        rw [if_pos hn]
        refine ⟨⟨List.length_set, fun i e hi => ?_⟩, d, ?_, hd⟩
        · by_cases hij : j = i
          · subst hij
            rw [List.getElem?_set_self hjc]
            rw [List.getElem?_eq_getElem hjc] at hi
            refine ⟨d, rfl, Or.inr ⟨?_, rfl, s, m, hs, hj⟩⟩
            rw [← Option.some.inj hi]; exact h
          · rw [List.getElem?_set_ne hij]
            exact ⟨e, hi, Or.inl rfl⟩
        · rw [List.getElem?_set_self hjc]
      · have hn : ¬ (entryGet c[j]).isNone = true := by simp [entryGet, h]
        rw [if_neg hn]
        exact ⟨Grow.refl _ _ _, _, List.getElem?_eq_getElem hjc, h⟩
    obtain ⟨c', h1, h2, h3⟩ := successorsLoop_spec laws hd hs hg ms (if (entryGet c[j]).isNone then c.set j d else c)
      (by rw [hstep.1.1, hc])
    refine ⟨c', h1, hstep.1.trans hd h2, fun m' hm' => ?_⟩
    rcases List.mem_cons.1 hm' with rfl | hm'
    · obtain ⟨e, he, hne⟩ := h2.set hd hstep.2
      exact ⟨j, e, hj, he, hne⟩
    · exact h3 m' hm'

theorem neighboursLoop_spec (laws : TableLaws T Good start) {d : Nat} (hd : d + 1 < 255) {c0 : List Nat} :
    ∀ (k i : Nat) (c : List Nat), i + k = Deindexable.TOTAL_SET_SIZE T → c.length = Deindexable.TOTAL_SET_SIZE T →
      Grow (fun s : T => Good s ∧ ∃ i, Deindexable.index? s = some i ∧ c0[i]? = some d) (d + 1) c0 c →
      ∃ c', neighboursLoop T (d + 1) k i c = some c' ∧
        Grow (fun s : T => Good s ∧ ∃ i, Deindexable.index? s = some i ∧ c0[i]? = some d) (d + 1) c c' ∧
        ∀ i', i ≤ i' → ∀ s : T, Good s → Deindexable.index? s = some i' → c0[i']? = some d → ∀ m : AxisMove,
          ∃ j e, Deindexable.index? (moved s m) = some j ∧ c'[j]? = some e ∧ e ≠ 255
  | 0, i, c, hk, hc, hgrow => by
    refine ⟨c, rfl, Grow.refl _ _ _, fun i' hi' s _ _ h0 => ?_⟩
    have : c0.length ≤ i' := by have := hgrow.1; omega
    rw [List.getElem?_eq_none this] at h0
    cases h0
  | k + 1, i, c, hk, hc, hgrow => by
    have hic : i < c.length := by omega
    have hd1 : d + 1 ≠ 255 := by omega
    have hic0 : i < c0.length := by have := hgrow.1; omega
    obtain ⟨s, hs1, hs2, hs3⟩ := laws.unindex i (by omega)
    unfold neighboursLoop
    rw [List.getElem?_eq_getElem hic]
    simp only [Nat.add_sub_cancel]
    obtain ⟨e', he', hcase⟩ := hgrow.2 i c0[i] (List.getElem?_eq_getElem hic0)
    rw [List.getElem?_eq_getElem hic] at he'
    have he' : c[i] = e' := Option.some.inj he'
    by_cases h : entryGet c[i] = some d
    · rw [if_pos h, hs1]
      simp only
      have hcd : c[i] = d := by
        unfold entryGet at h
        split at h
        · cases h
        · exact Option.some.inj h
      have hc0 : c0[i]? = some d := by
        rw [List.getElem?_eq_getElem hic0]
        rcases hcase with h' | ⟨_, h', _⟩
        · rw [← h', ← he', hcd]
        · omega
      obtain ⟨c1, h1, h2, h3⟩ := successorsLoop_spec laws hd1
        (src := fun s : T => Good s ∧ ∃ i, Deindexable.index? s = some i ∧ c0[i]? = some d) (s := s) ⟨hs2, i, hs3, hc0⟩ hs2
        AxisMove.all c hc
      rw [h1]
      simp only
      obtain ⟨c2, g1, g2, g3⟩ := neighboursLoop_spec laws hd k (i + 1) c1 (by omega) (by rw [h2.1, hc]) (hgrow.trans hd1 h2)
      refine ⟨c2, g1, h2.trans hd1 g2, fun i' hi' s' hs' hidx h0 m => ?_⟩
      by_cases hii : i = i'
      · subst hii
        obtain ⟨r, hr, _, hr2⟩ := laws.index s' hs'
        rw [hidx] at hr
        cases hr
        rw [hs1] at hr2
        cases hr2
        obtain ⟨j, e, hj, he, hne⟩ := h3 m (laws.all m)
        obtain ⟨e2, he2, hne2⟩ := g2.set hd1 ⟨e, he, hne⟩
        exact ⟨j, e2, hj, he2, hne2⟩
      · exact g3 i' (by omega) s' hs' hidx h0 m
    · rw [if_neg h]
      obtain ⟨c2, g1, g2, g3⟩ := neighboursLoop_spec laws hd k (i + 1) c (by omega) hc hgrow
      refine ⟨c2, g1, g2, fun i' hi' s' hs' hidx h0 m => ?_⟩
      by_cases hii : i = i'
      · subst hii
        exfalso
        apply h
        rw [List.getElem?_eq_getElem hic0] at h0
        have h0 := Option.some.inj h0
        have : c[i] = d := by
          rcases hcase with h' | ⟨h', _, _⟩
          · rw [he', h', h0]
          · omega
        rw [this]
        unfold entryGet
        rw [if_neg (by omega)]
      · exact g3 i' (by omega) s' hs' hidx h0 m

/-- all distances up to `d` are in the table, all other entries are unset -/
def UpTo (Good : T → Prop) (start : T) (c : List Nat) (d : Nat) : Prop :=
  c.length = Deindexable.TOTAL_SET_SIZE T ∧ ∀ s i, Good s → Deindexable.index? s = some i →
    ∃ e, c[i]? = some e ∧ ((e ≤ d ∧ MinTurns start s e) ∨
      (e = 255 ∧ ∀ alg : List AxisMove, movedAlg start alg = s → d < alg.length))

theorem good_alg (laws : TableLaws T Good start) (alg : List AxisMove) : Good (movedAlg start alg) := by
  unfold movedAlg
  suffices ∀ s, Good s → Good (alg.foldl moved s) from this start laws.start_good
  induction alg with
  | nil => intro s h; exact h
  | cons m ms ih => intro s h; exact ih _ (laws.moved s m h)

theorem UpTo.step (laws : TableLaws T Good start) {c : List Nat} {d : Nat} (hd : d + 1 < 255) (h : UpTo Good start c d) :
    ∃ c', cacheNeighboursAtDepth? T c (d + 1) = some c' ∧ UpTo Good start c' (d + 1) := by
  obtain ⟨c', h1, h2, h3⟩ := neighboursLoop_spec laws hd (c0 := c) (Deindexable.TOTAL_SET_SIZE T) 0 c (by omega) h.1
    (Grow.refl _ _ _)
  refine ⟨c', h1, by rw [h2.1, h.1], fun s i hs hi => ?_⟩
  obtain ⟨e, he, hcase⟩ := h.2 s i hs hi
  obtain ⟨e', he', hgrow⟩ := h2.2 i e he
  refine ⟨e', he', ?_⟩
  rcases hcase with ⟨hed, hmin⟩ | ⟨rfl, hfar⟩
  · rcases hgrow with rfl | ⟨h255, _, _⟩
    · exact Or.inl ⟨by omega, hmin⟩
    · omega
  · rcases hgrow with rfl | ⟨_, rfl, t, m, ⟨ht, ti, hti, hct⟩, hj⟩
    · refine Or.inr ⟨rfl, fun alg halg => ?_⟩
      have hlen := hfar alg halg
      by_contra hcon
      have hlen' : alg.length = d + 1 := by omega
      obtain ⟨w, m, rfl⟩ : ∃ w m, alg = w ++ [m] := by
        rcases List.eq_nil_or_concat alg with rfl | ⟨w, m, rfl⟩
        · simp at hlen
        · exact ⟨w, m, by simp⟩
      have hm : moved (movedAlg start w) m = s := by
        have : movedAlg start (w ++ [m]) = moved (movedAlg start w) m := by simp [movedAlg]
        rw [← this]; exact halg
      have hw : w.length = d := by simp at hlen'; exact hlen'
      have hgood := good_alg laws w
      obtain ⟨wi, hwi, _, _⟩ := laws.index _ hgood
      obtain ⟨we, hwe, hwcase⟩ := h.2 _ wi hgood hwi
      rcases hwcase with ⟨hwed, ⟨⟨v, hv1, hv2⟩, _⟩⟩ | ⟨_, hwfar⟩
      · have hwe' : we = d := by
          by_contra hne
          have := hfar (v ++ [m]) (by
            have e : movedAlg start (v ++ [m]) = moved (movedAlg start v) m := by simp [movedAlg]
            rw [e, hv2, hm])
          simp at this
          omega
        rw [hwe'] at hwe
        obtain ⟨j, ej, hj, hej, hne⟩ := h3 wi (Nat.zero_le _) _ hgood hwi hwe m
        rw [hm, hi] at hj
        cases hj
        rw [he'] at hej
        cases hej
        exact hne rfl
      · have := hwfar w rfl
        omega
    · left
      refine ⟨le_refl _, ?_, fun alg halg => hfar alg halg⟩
      obtain ⟨te, hte, htcase⟩ := h.2 t ti ht hti
      rw [hct] at hte
      cases hte
      rcases htcase with ⟨_, ⟨⟨v, hv1, hv2⟩, _⟩⟩ | ⟨h255, _⟩
      · refine ⟨v ++ [m], by simp [hv1], ?_⟩
        have e : movedAlg start (v ++ [m]) = moved (movedAlg start v) m := by simp [movedAlg]
        rw [e, hv2]
        obtain ⟨r, hr, _, hr2⟩ := laws.index _ (laws.moved t m ht)
        obtain ⟨r', hr', _, hr2'⟩ := laws.index s hs
        rw [hj] at hr
        rw [hi] at hr'
        cases hr
        cases hr'
        rw [hr2] at hr2'
        exact Option.some.inj hr2'
      · omega

theorem UpTo.initial (laws : TableLaws T Good start) (hpos : 0 < Deindexable.TOTAL_SET_SIZE T) :
    UpTo Good start ((List.replicate (Deindexable.TOTAL_SET_SIZE T) 255).set 0 0) 0 := by
  refine ⟨by simp, fun s i hs hi => ?_⟩
  obtain ⟨r, hr, hrt, hr2⟩ := laws.index s hs
  rw [hi] at hr
  cases hr
  by_cases h0 : i = 0
  · subst h0
    refine ⟨0, by rw [List.getElem?_set_self (by simpa using hpos)], Or.inl ⟨le_refl _, ⟨[], rfl, ?_⟩, fun _ _ => Nat.zero_le _⟩⟩
    obtain ⟨q, hq, _, hq2⟩ := laws.index start laws.start_good
    rw [laws.start_index] at hq
    cases hq
    rw [hr2] at hq2
    exact (Option.some.inj hq2).symm
  · refine ⟨255, ?_, Or.inr ⟨rfl, fun alg halg => ?_⟩⟩
    · rw [List.getElem?_set_ne (fun e => h0 e.symm)]
      simp [hrt]
    · rcases alg with _ | ⟨m, ms⟩
      · exfalso
        apply h0
        have : start = s := halg
        rw [← this, laws.start_index] at hi
        exact (Option.some.inj hi).symm
      · simp

theorem buildLoop_spec (laws : TableLaws T Good start) {B : Nat} (hB : B < 254)
    (hreach : ∀ s, Good s → ∃ alg : List AxisMove, alg.length ≤ B ∧ movedAlg start alg = s) :
    ∀ (left d : Nat) (c : List Nat), left + d = 254 → d ≤ B → UpTo Good start c d →
      ∃ c', buildLoop T left (d + 1) c = some c' ∧ c'.length = Deindexable.TOTAL_SET_SIZE T ∧
        ∀ s i, Good s → Deindexable.index? s = some i → ∃ e, c'[i]? = some e ∧ e ≤ B ∧ MinTurns start s e
  | 0, d, c, hl, hdB, _ => by omega
  | left + 1, d, c, hl, hdB, h => by
    unfold buildLoop
    by_cases hfull : amountCached c = Deindexable.TOTAL_SET_SIZE T
    · rw [if_pos hfull]
      refine ⟨c, rfl, h.1, fun s i hs hi => ?_⟩
      obtain ⟨e, he, hcase⟩ := h.2 s i hs hi
      refine ⟨e, he, ?_⟩
      rcases hcase with hx | ⟨rfl, _⟩
      · exact ⟨by omega, hx.2⟩
      · exfalso
        unfold amountCached at hfull
        rw [← h.1, List.length_filter_eq_length_iff] at hfull
        have := hfull 255 (List.mem_of_getElem? he)
        simp [entryGet] at this
    · rw [if_neg hfull]
      obtain ⟨c', h1, h2⟩ := h.step laws (by omega)
      rw [h1]
      simp only
      by_cases hd : d = B
      · exfalso
        apply hfull
        unfold amountCached
        rw [← h.1, List.length_filter_eq_length_iff]
        intro e he
        obtain ⟨i, hi⟩ := List.mem_iff_getElem?.1 he
        have hit : i < Deindexable.TOTAL_SET_SIZE T := by
          rw [← h.1]; exact (List.getElem?_eq_some_iff.1 hi).1
        obtain ⟨s, _, hs2, hs3⟩ := laws.unindex i hit
        obtain ⟨e', he', hcase⟩ := h.2 s i hs2 hs3
        rw [hi] at he'
        cases he'
        rcases hcase with ⟨hle, _⟩ | ⟨_, hfar⟩
        · have : e ≠ 255 := by omega
          simp [entryGet, this]
        · obtain ⟨alg, ha1, ha2⟩ := hreach s hs2
          have := hfar alg ha2
          omega
      · exact buildLoop_spec laws hB hreach left (d + 1) c' (by omega) (by omega) h2

theorem buildTable?_spec (laws : TableLaws T Good start) {B : Nat} (hB : B < 254)
    (hreach : ∀ s, Good s → ∃ alg : List AxisMove, alg.length ≤ B ∧ movedAlg start alg = s) :
    ∃ c, buildTable? T = some c ∧ c.length = Deindexable.TOTAL_SET_SIZE T ∧
      ∀ s i, Good s → Deindexable.index? s = some i → ∃ e, c[i]? = some e ∧ e ≤ B ∧ MinTurns start s e := by
  have hpos : 0 < Deindexable.TOTAL_SET_SIZE T := by
    obtain ⟨_, _, h, _⟩ := laws.index start laws.start_good; omega
  unfold buildTable?
  rw [if_pos hpos]
  exact buildLoop_spec laws hB hreach 254 0 _ (by omega) (by omega) (UpTo.initial laws hpos)

end

end Barbarosa
