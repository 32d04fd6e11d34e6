import Verif.Lemmas.Ranking
import Verif.Lemmas.Sampling

/-!
# The numbering of corner arrangements and of half edge arrangements is a bijection
-/

namespace Barbarosa

/-! ## Lists and arrays -/

theorem mapM_some {α β : Type} (g : α → Option β) (h : α → β) : ∀ l : List α, (∀ x ∈ l, g x = some (h x)) →
    l.mapM g = some (l.map h)
  | [], _ => rfl
  | x :: xs, hl => by
    rw [List.mapM_cons, hl x (by simp), mapM_some g h xs fun y hy => hl y (List.mem_cons_of_mem _ hy)]
    rfl

theorem arrayOf?_ofFn {α : Type} {n : Nat} (f : Fin n → α) : arrayOf? n (List.ofFn f) = some f := by
  unfold arrayOf?
  rw [dif_pos (List.length_ofFn)]
  congr 1
  funext i
  simp

theorem zipApply_length {α β : Type} (f : α → β → α) : ∀ (as : List α) (bs : List β), (zipApply f as bs).length = as.length
  | [], _ => rfl
  | _ :: _, [] => rfl
  | a :: as, b :: bs => by simp [zipApply, zipApply_length f as bs]

theorem zipApply_getElem? {α β : Type} (f : α → β → α) : ∀ (as : List α) (bs : List β) (i : Nat),
    (zipApply f as bs)[i]? = match as[i]?, bs[i]? with
      | some a, some b => some (f a b)
      | some a, none => some a
      | none, _ => none
  | [], bs, i => by simp [zipApply]
  | a :: as, [], i => by
    simp only [zipApply, List.getElem?_nil]
    cases (a :: as)[i]? <;> rfl
  | a :: as, b :: bs, 0 => by simp [zipApply]
  | a :: as, b :: bs, i + 1 => by
    simp only [zipApply, List.getElem?_cons_succ]
    exact zipApply_getElem? f as bs i

/-- a list of the right length is an array -/
theorem exists_ofFn {α : Type} {n : Nat} {l : List α} (h : l.length = n) : ∃ f : Fin n → α, l = List.ofFn f := by
  subst h
  exact ⟨l.get, (List.ofFn_get l).symm⟩

theorem zipApply_ofFn {α β : Type} {n k : Nat} (f : α → β → α) (a : Fin n → α) (b : Fin k → β) :
    zipApply f (List.ofFn a) (List.ofFn b) = List.ofFn fun i : Fin n => if h : i.val < k then f (a i) (b ⟨i.val, h⟩) else a i := by
  refine List.ext_getElem? fun i => ?_
  rw [zipApply_getElem?]
  by_cases hn : i < n
  · by_cases hk : i < k
    · simp [hn, hk]
    · simp [hn, hk]
  · simp [hn]

/-! ## Position numbers -/

section
variable {P : Type} {n : Nat} [PieceSetDescriptor P n] [LawfulDescriptor P n]

/-- the number of the position of a piece -/
noncomputable def placeOf (p : P) : Fin n :=
  (Equiv.ofBijective _ (LawfulDescriptor.ref_bij (P := P) (n := n))).symm (Piece.position p)

theorem ref_placeOf (p : P) : PieceSetDescriptor.REFERENCE_POSITIONS (P := P) (placeOf (n := n) p) = Piece.position p :=
  (Equiv.ofBijective _ (LawfulDescriptor.ref_bij (P := P) (n := n))).apply_symm_apply (Piece.position p)

theorem placeOf_eq {p : P} {i : Fin n} (h : Piece.position p = PieceSetDescriptor.REFERENCE_POSITIONS (P := P) i) :
    placeOf (n := n) p = i :=
  LawfulDescriptor.ref_bij.1 (by rw [ref_placeOf, h])

theorem positionIndex?_eq (p : P) : positionIndex? (n := n) p = some (placeOf p) := by
  unfold positionIndex?
  rw [← ref_placeOf (n := n) p]
  exact PieceSet.refIndex?_eq _

theorem positionIndices?_eq {k : Nat} (s : Fin k → P) :
    positionIndices? (n := n) s = some (List.ofFn fun i => (placeOf (n := n) (s i)).val) := by
  unfold positionIndices?
  rw [mapM_some _ (fun p => (placeOf (n := n) p).val) _ fun p _ => by rw [positionIndex?_eq]; rfl, List.map_ofFn]
  rfl

theorem placeOf_nodup {k : Nat} {s : Fin k → P} (h : Function.Injective fun i => Piece.position (s i)) :
    (List.ofFn fun i => (placeOf (n := n) (s i)).val).Nodup := by
  rw [List.nodup_ofFn]
  intro i j hij
  apply h
  have : placeOf (n := n) (s i) = placeOf (s j) := Fin.ext hij
  show Piece.position (s i) = Piece.position (s j)
  rw [← ref_placeOf (n := n), this, ref_placeOf]

theorem placeOf_solved (i : Fin n) : placeOf (n := n) (PieceSetDescriptor.SOLVED (P := P) i) = i :=
  placeOf_eq (LawfulDescriptor.solved_pos i)

end

theorem atIndex_val {P : Type} {n : Nat} (s : PieceSet P n) (i : Fin n) : s.atIndex i.val = some (s i) := by
  simp [PieceSet.atIndex]

/-! ## Half edges -/

theorem edge_rebuild : ∀ (e : Edge) (i : Fin 12), Piece.position e = Edge.REFERENCE_POSITIONS i →
    (if e.orientationIndex ≠ 0 then (Cube3.SOLVED.edges i).flip else Cube3.SOLVED.edges i) = e := by decide +kernel

theorem edge_orientationIndex_lt : ∀ e : Edge, e.orientationIndex < 2 := by decide +kernel

theorem edge_build : ∀ (i : Fin 12) (o : Fin 2),
    (if o.val ≠ 0 then (Cube3.SOLVED.edges i).flip else Cube3.SOLVED.edges i).orientationIndex = o.val ∧
      Piece.position (if o.val ≠ 0 then (Cube3.SOLVED.edges i).flip else Cube3.SOLVED.edges i) = Edge.REFERENCE_POSITIONS i := by
  decide +kernel

theorem desc_12_6 : Nat.descFactorial 12 6 = 665280 := by decide +kernel
theorem desc_8_8 : Nat.descFactorial 8 8 = 40320 := by decide +kernel

theorem total_edges : Deindexable.TOTAL_SET_SIZE HalfEdgesMUS = 665280 * 64 := by decide +kernel
theorem total_corners : Deindexable.TOTAL_SET_SIZE CornersMUS = 40320 * 2187 := by decide +kernel

theorem combineIndex?_eq {size p o : Nat} (h : p * size + o < 2 ^ 64) :
    combineIndex? size (some p) (some o) = some (p * size + o) := by
  unfold combineIndex?
  simp only
  rw [usize?_eq (by omega)]
  simp only
  rw [usize?_eq h]

theorem halfEdges_fromIndex? {r : Nat} {places orientations : List Nat} (hp : deindexPositions? 6 12 (r / 2 ^ 6) = some places)
    (hl : places.length = 6) (hlt : ∀ x ∈ places, x < 12) (ho : deindexOrientations 2 6 (r % 2 ^ 6) = orientations)
    (hol : orientations.length = 6) : ∃ (f : Fin 6 → Fin 12) (g : Fin 6 → Nat), places = List.ofFn (fun i => (f i).val) ∧
      orientations = List.ofFn g ∧
      HalfEdgesMUS.fromIndex? r = some fun i => if g i ≠ 0 then (Cube3.SOLVED.edges (f i)).flip else Cube3.SOLVED.edges (f i) := by
  obtain ⟨f0, rfl⟩ := exists_ofFn hl
  obtain ⟨g, rfl⟩ := exists_ofFn hol
  have hf : ∀ i, f0 i < 12 := fun i => hlt _ (List.mem_ofFn.2 ⟨i, rfl⟩)
  refine ⟨fun i => ⟨f0 i, hf i⟩, g, rfl, rfl, ?_⟩
  unfold HalfEdgesMUS.fromIndex?
  rw [hp]
  simp only
  have hm : (List.ofFn f0).mapM (fun i => Cube3.SOLVED.edges.atIndex i) =
      some (List.ofFn fun i => Cube3.SOLVED.edges ⟨f0 i, hf i⟩) := by
    rw [mapM_some _ (fun i => if h : i < 12 then Cube3.SOLVED.edges ⟨i, h⟩ else Cube3.SOLVED.edges 0)]
    · rw [List.map_ofFn]
      congr 2
      funext i
      simp [hf i]
    · intro x hx
      have := hlt x hx
      simp [PieceSet.atIndex, this]
  rw [hm, ho]
  simp only
  rw [zipApply_ofFn, arrayOf?_ofFn]
  congr 1
  funext i
  simp

theorem halfEdges_orientation (s : HalfEdgesMUS) :
    HalfEdgesMUS.orientationIndex? s = orientationPermutationIndex? 2 (List.ofFn fun i => (s i).orientationIndex) := by
  unfold HalfEdgesMUS.orientationIndex?
  rw [List.map_ofFn]
  rfl

theorem halfEdges_position (s : HalfEdgesMUS) :
    HalfEdgesMUS.positionIndex? s = positionDispositionIndex? 12 (List.ofFn fun i => (placeOf (n := 12) (s i)).val) := by
  unfold HalfEdgesMUS.positionIndex?
  rw [positionIndices?_eq]

/-- no two of the pieces share a position -/
def Apart {P : Type} {k : Nat} [Piece P] (s : Fin k → P) : Prop := Function.Injective fun i => Piece.position (s i)

theorem halfEdges_index {s : HalfEdgesMUS} (h : Apart s) : ∃ r, Deindexable.index? s = some r ∧
    r < Deindexable.TOTAL_SET_SIZE HalfEdgesMUS ∧ Deindexable.fromIndex? r = some s := by
  have hnd := placeOf_nodup (n := 12) h
  have hlt : ∀ x ∈ List.ofFn fun i => (placeOf (n := 12) (s i)).val, x < 12 := by
    intro x hx
    rw [List.mem_ofFn] at hx
    obtain ⟨i, rfl⟩ := hx
    exact (placeOf (n := 12) (s i)).isLt
  have holt : ∀ x ∈ List.ofFn fun i => (s i).orientationIndex, x < 2 := by
    intro x hx
    rw [List.mem_ofFn] at hx
    obtain ⟨i, rfl⟩ := hx
    exact edge_orientationIndex_lt _
  obtain ⟨p, hp1, hp2, hp3⟩ := position_rank hnd hlt (by rw [List.length_ofFn, desc_12_6]; decide)
  obtain ⟨o, ho1, ho2, ho3⟩ := orientation_rank (by decide) holt (by rw [List.length_ofFn]; decide)
  rw [List.length_ofFn] at hp2 hp3 ho2 ho3
  rw [desc_12_6] at hp2
  have hdiv : (p * 2 ^ 6 + o) / 2 ^ 6 = p := by omega
  have hmod : (p * 2 ^ 6 + o) % 2 ^ 6 = o := by omega
  refine ⟨p * 2 ^ 6 + o, ?_, ?_, ?_⟩
  · show combineIndex? (2 ^ 6) (HalfEdgesMUS.positionIndex? s) (HalfEdgesMUS.orientationIndex? s) = _
    rw [halfEdges_position, halfEdges_orientation, hp1, ho1, combineIndex?_eq]
    omega
  · rw [total_edges]; omega
  · obtain ⟨f, g, hf, hg, hr⟩ := halfEdges_fromIndex? (r := p * 2 ^ 6 + o) (by rw [hdiv]; exact hp3) List.length_ofFn hlt
      (by rw [hmod]; exact ho3) List.length_ofFn
    show HalfEdgesMUS.fromIndex? _ = _
    rw [hr]
    refine congrArg some (funext fun i => ?_)
    have e1 : placeOf (n := 12) (s i) = f i := Fin.ext (congrFun (List.ofFn_injective hf) i)
    have e2 : (s i).orientationIndex = g i := congrFun (List.ofFn_injective hg) i
    have := edge_rebuild (s i) (f i) (by rw [← e1]; exact (ref_placeOf (P := Edge) (n := 12) (s i)).symm)
    rw [e2] at this
    exact this

theorem halfEdges_unindex {r : Nat} (h : r < Deindexable.TOTAL_SET_SIZE HalfEdgesMUS) :
    ∃ s : HalfEdgesMUS, Deindexable.fromIndex? r = some s ∧ Apart s ∧ Deindexable.index? s = some r := by
  rw [total_edges] at h
  obtain ⟨l, hl1, hl2, hl3, hl4, hl5⟩ := position_unrank (N := 6) (S := 12) (r := r / 2 ^ 6) (by decide)
    (by rw [desc_12_6]; decide) (by rw [desc_12_6]; omega)
  obtain ⟨ho1, ho2, ho3⟩ := orientation_unrank (base := 2) (N := 6) (r := r % 2 ^ 6) (by decide) (by decide)
    (Nat.mod_lt _ (by decide))
  obtain ⟨f, g, hf, hg, hr⟩ := halfEdges_fromIndex? hl1 hl2 hl4 rfl ho1
  have hg2 : ∀ i, g i < 2 := fun i => ho2 _ (by rw [hg]; exact List.mem_ofFn.2 ⟨i, rfl⟩)
  have hb := fun i => edge_build (f i) ⟨g i, hg2 i⟩
  have hplace : ∀ i, placeOf (n := 12) (if g i ≠ 0 then (Cube3.SOLVED.edges (f i)).flip else Cube3.SOLVED.edges (f i)) = f i :=
    fun i => placeOf_eq (hb i).2
  refine ⟨_, hr, ?_, ?_⟩
  · intro i j hij
    have hij' : placeOf (n := 12) (if g i ≠ 0 then (Cube3.SOLVED.edges (f i)).flip else Cube3.SOLVED.edges (f i)) =
        placeOf (if g j ≠ 0 then (Cube3.SOLVED.edges (f j)).flip else Cube3.SOLVED.edges (f j)) :=
      placeOf_eq (by rw [ref_placeOf]; exact hij)
    rw [hplace, hplace] at hij'
    rw [hf, List.nodup_ofFn] at hl3
    exact hl3 (congrArg Fin.val hij')
  · show combineIndex? (2 ^ 6) (HalfEdgesMUS.positionIndex? _) (HalfEdgesMUS.orientationIndex? _) = _
    rw [halfEdges_position, halfEdges_orientation]
    have e1 : (List.ofFn fun i => (placeOf (n := 12)
        (if g i ≠ 0 then (Cube3.SOLVED.edges (f i)).flip else Cube3.SOLVED.edges (f i))).val) = l := by
      rw [hf]; congr 1; funext i; rw [hplace]
    have e2 : (List.ofFn fun i =>
        (if g i ≠ 0 then (Cube3.SOLVED.edges (f i)).flip else Cube3.SOLVED.edges (f i)).orientationIndex) =
          deindexOrientations 2 6 (r % 2 ^ 6) := by
      rw [hg]; congr 1; funext i; exact (hb i).1
    rw [e1, e2, hl5, ho3, combineIndex?_eq (by omega)]
    congr 1
    omega

/-! ## Corners -/

theorem corner_rebuild : ∀ (c : Corner) (i : Fin 8), Piece.position c = Corner.REFERENCE_POSITIONS i →
    Corner.twist^[c.orientationIndex] (Cube3.SOLVED.corners i) = c := by decide +kernel

theorem corner_orientationIndex_lt : ∀ c : Corner, c.orientationIndex < 3 := by decide +kernel

theorem corner_build : ∀ (i : Fin 8) (o : Fin 3),
    (Corner.twist^[o.val] (Cube3.SOLVED.corners i)).orientationIndex = o.val ∧
      Piece.position (Corner.twist^[o.val] (Cube3.SOLVED.corners i)) = Corner.REFERENCE_POSITIONS i := by
  decide +kernel

/-- the arrangement `from_index` starts with: places `f`, twists `g` for all but the last corner -/
def cornersWith (f : Fin 8 → Fin 8) (g : Fin 7 → Nat) : CornersMUS := fun i =>
  if h : i.val < 7 then Corner.twist^[g ⟨i.val, h⟩] (Cube3.SOLVED.corners (f i)) else Cube3.SOLVED.corners (f i)

/-- the last corner twisted so that the orientations add up to a multiple of three -/
def fixLast (s : CornersMUS) : CornersMUS := fun i =>
  if i = 7 then Corner.twist^[(-∑ i, cornerTrit (s i)).val] (s i) else s i

theorem fixLast_eq (s : CornersMUS) : fixCornerMultiplicity? s = some (fixLast s) :=
  fixCornerMultiplicity?_eq ⟨Cube3.SOLVED.edges, s⟩

theorem fixLast_sum (s : CornersMUS) : ∑ i, cornerTrit (fixLast s i) = 0 := by
  have := fixUp_trits false false (-∑ i, cornerTrit (s i)) ⟨Cube3.SOLVED.edges, s⟩
  rw [add_neg_cancel] at this
  exact this

theorem fixLast_position (s : CornersMUS) (i : Fin 8) : Piece.position (fixLast s i) = Piece.position (s i) := by
  unfold fixLast
  split
  · exact twists_position _ _
  · rfl

theorem new_ok {P : Type} {n : Nat} [DecidableEq P] [PieceSetDescriptor P n] {s : PieceSet P n} (h : s.Valid) :
    PieceSet.new s = .ok s := by
  unfold PieceSet.new
  rw [(PieceSet.validate_eq_none s).2 h]

theorem corners_fromIndex? {r : Nat} {places orientations : List Nat} (hp : deindexPositions? 8 8 (r / 3 ^ 7) = some places)
    (hl : places.length = 8) (hnd : places.Nodup) (hlt : ∀ x ∈ places, x < 8)
    (ho : deindexOrientations 3 7 (r % 3 ^ 7) = orientations)
    (hol : orientations.length = 7) (holt : ∀ x ∈ orientations, x < 3) :
    ∃ (f : Fin 8 → Fin 8) (g : Fin 7 → Nat), places = List.ofFn (fun i => (f i).val) ∧
      orientations = List.ofFn g ∧ (∀ i, Piece.position (cornersWith f g i) = Corner.REFERENCE_POSITIONS (f i)) ∧
      (∀ i : Fin 7, (cornersWith f g ⟨i.val, by omega⟩).orientationIndex = g i) ∧ Apart (cornersWith f g) ∧
      CornersMUS.fromIndex? r = some (fixLast (cornersWith f g)) := by
  obtain ⟨f0, rfl⟩ := exists_ofFn hl
  obtain ⟨g, rfl⟩ := exists_ofFn hol
  have hf : ∀ i, f0 i < 8 := fun i => hlt _ (List.mem_ofFn.2 ⟨i, rfl⟩)
  have hg : ∀ i, g i < 3 := fun i => holt _ (List.mem_ofFn.2 ⟨i, rfl⟩)
  have hpos : ∀ i, Piece.position (cornersWith (fun i => ⟨f0 i, hf i⟩) g i) = Corner.REFERENCE_POSITIONS ⟨f0 i, hf i⟩ := by
    intro i
    unfold cornersWith
    split
    next h => exact (corner_build ⟨f0 i, hf i⟩ ⟨g ⟨i.val, h⟩, hg _⟩).2
    next h => exact (corner_build ⟨f0 i, hf i⟩ 0).2
  have hap : Apart (cornersWith (fun i => ⟨f0 i, hf i⟩) g) := by
    intro i j hij
    simp only [hpos] at hij
    have := LawfulDescriptor.ref_bij (P := Corner).1 hij
    rw [List.nodup_ofFn] at hnd
    exact hnd (congrArg Fin.val this)
  refine ⟨fun i => ⟨f0 i, hf i⟩, g, rfl, rfl, hpos, ?_, hap, ?_⟩
  · intro i
    have : (cornersWith (fun i => ⟨f0 i, hf i⟩) g ⟨i.val, by omega⟩) =
        Corner.twist^[g i] (Cube3.SOLVED.corners ⟨f0 ⟨i.val, by omega⟩, hf _⟩) := by
      unfold cornersWith
      rw [dif_pos i.isLt]
    rw [this]
    exact (corner_build ⟨f0 ⟨i.val, by omega⟩, hf _⟩ ⟨g i, hg i⟩).1
  · unfold CornersMUS.fromIndex?
    rw [hp]
    simp only
    have hm : (List.ofFn f0).mapM (fun i => Cube3.SOLVED.corners.atIndex i) =
        some (List.ofFn fun i => Cube3.SOLVED.corners ⟨f0 i, hf i⟩) := by
      rw [mapM_some _ (fun i => if h : i < 8 then Cube3.SOLVED.corners ⟨i, h⟩ else Cube3.SOLVED.corners 0)]
      · rw [List.map_ofFn]
        congr 2
        funext i
        simp [hf i]
      · intro x hx
        have := hlt x hx
        simp [PieceSet.atIndex, this]
    rw [hm, ho]
    simp only
    rw [zipApply_ofFn, arrayOf?_ofFn]
    simp only
    have := new_ok (s := (cornersWith (fun i => ⟨f0 i, hf i⟩) g : PieceSet Corner 8)) hap
    unfold cornersWith at this
    simp only at this
    rw [this]
    simp only
    exact fixLast_eq _

theorem take_ofFn {α : Type} {n k : Nat} (h : k ≤ n) (s : Fin n → α) :
    (List.ofFn s).take k = List.ofFn fun i : Fin k => s ⟨i.val, by omega⟩ := by
  refine List.ext_getElem? fun i => ?_
  rw [List.getElem?_take]
  by_cases hi : i < k
  · simp [hi, show i < n by omega]
  · simp [hi]

theorem corners_orientation (s : CornersMUS) : CornersMUS.orientationIndex? s =
    orientationPermutationIndex? 3 (List.ofFn fun i : Fin 7 => (s ⟨i.val, by omega⟩).orientationIndex) := by
  unfold CornersMUS.orientationIndex?
  rw [take_ofFn (by decide), List.map_ofFn]
  rfl

theorem corners_position (s : CornersMUS) :
    CornersMUS.positionIndex? s = positionDispositionIndex? 8 (List.ofFn fun i => (placeOf (n := 8) (s i)).val) := by
  unfold CornersMUS.positionIndex?
  rw [positionIndices?_eq]

theorem trit_determines : ∀ c d : Corner, c.position = d.position → cornerTrit c = cornerTrit d → c = d := by decide +kernel

/-- arrangements that agree on places, on the first seven orientations and on the sum are equal -/
theorem corners_ext {s t : CornersMUS} (hp : ∀ i, Piece.position (s i) = Piece.position (t i))
    (ho : ∀ i : Fin 7, (s ⟨i.val, by omega⟩).orientationIndex = (t ⟨i.val, by omega⟩).orientationIndex)
    (hs : ∑ i, cornerTrit (s i) = ∑ i, cornerTrit (t i)) : s = t := by
  have ht : ∀ i : Fin 7, cornerTrit (s (Fin.castSucc i)) = cornerTrit (t (Fin.castSucc i)) := fun i => by
    unfold cornerTrit
    exact congrArg _ (ho i)
  have hlast : cornerTrit (s (Fin.last 7)) = cornerTrit (t (Fin.last 7)) := by
    rw [Fin.sum_univ_castSucc (f := fun i => cornerTrit (s i)), Fin.sum_univ_castSucc (f := fun i => cornerTrit (t i)),
      Finset.sum_congr rfl fun i _ => ht i] at hs
    exact add_left_cancel hs
  funext i
  refine trit_determines _ _ (hp i) ?_
  refine Fin.lastCases ?_ (fun i => ?_) i
  · exact hlast
  · exact ht i

theorem corners_index {s : CornersMUS} (h : Apart s) : ∃ r, Deindexable.index? s = some r ∧
    r < Deindexable.TOTAL_SET_SIZE CornersMUS ∧ ∃ t : CornersMUS, Deindexable.fromIndex? r = some t ∧
      (∑ i, cornerTrit (t i) = 0) ∧ (∀ i, Piece.position (t i) = Piece.position (s i)) ∧
      ∀ i : Fin 7, t ⟨i.val, by omega⟩ = s ⟨i.val, by omega⟩ := by
  have hnd := placeOf_nodup (n := 8) h
  have hlt : ∀ x ∈ List.ofFn fun i => (placeOf (n := 8) (s i)).val, x < 8 := by
    intro x hx
    rw [List.mem_ofFn] at hx
    obtain ⟨i, rfl⟩ := hx
    exact (placeOf (n := 8) (s i)).isLt
  have holt : ∀ x ∈ List.ofFn fun i : Fin 7 => (s ⟨i.val, by omega⟩).orientationIndex, x < 3 := by
    intro x hx
    rw [List.mem_ofFn] at hx
    obtain ⟨i, rfl⟩ := hx
    exact corner_orientationIndex_lt _
  obtain ⟨p, hp1, hp2, hp3⟩ := position_rank hnd hlt (by rw [List.length_ofFn, desc_8_8]; decide)
  obtain ⟨o, ho1, ho2, ho3⟩ := orientation_rank (by decide) holt (by rw [List.length_ofFn]; decide)
  rw [List.length_ofFn] at hp2 hp3 ho2 ho3
  rw [desc_8_8] at hp2
  have hdiv : (p * 3 ^ 7 + o) / 3 ^ 7 = p := by omega
  have hmod : (p * 3 ^ 7 + o) % 3 ^ 7 = o := by omega
  refine ⟨p * 3 ^ 7 + o, ?_, ?_, ?_⟩
  · show combineIndex? (3 ^ 7) (CornersMUS.positionIndex? s) (CornersMUS.orientationIndex? s) = _
    rw [corners_position, corners_orientation, hp1, ho1, combineIndex?_eq]
    omega
  · rw [total_corners]; omega
  · obtain ⟨f, g, hf, hg, hpos, hori, _, hr⟩ := corners_fromIndex? (r := p * 3 ^ 7 + o) (by rw [hdiv]; exact hp3)
      List.length_ofFn hnd hlt (by rw [hmod]; exact ho3) List.length_ofFn holt
    have e1 : ∀ i, placeOf (n := 8) (s i) = f i := fun i => Fin.ext (congrFun (List.ofFn_injective hf) i)
    have e2 : ∀ i : Fin 7, (s ⟨i.val, by omega⟩).orientationIndex = g i := congrFun (List.ofFn_injective hg)
    have hposs : ∀ i, Piece.position (fixLast (cornersWith f g) i) = Piece.position (s i) := by
      intro i
      rw [fixLast_position, hpos, ← e1]
      exact ref_placeOf (P := Corner) (n := 8) (s i)
    refine ⟨_, hr, fixLast_sum _, hposs, fun i => ?_⟩
    have hne : (⟨i.val, by omega⟩ : Fin 8) ≠ 7 := fun e => by have := congrArg Fin.val e; simp at this; omega
    refine trit_determines _ _ (hposs _) ?_
    unfold cornerTrit fixLast
    rw [if_neg hne, hori, e2]

/-- the corner arrangements the tables are about: no two corners share a position, the twists add up to a multiple of three -/
def CornersGood (s : CornersMUS) : Prop := Apart s ∧ 3 ∣ ∑ i, (s i).orientationIndex

theorem corners_index_good {s : CornersMUS} (h : CornersGood s) : ∃ r, Deindexable.index? s = some r ∧
    r < Deindexable.TOTAL_SET_SIZE CornersMUS ∧ Deindexable.fromIndex? r = some s := by
  obtain ⟨r, h1, h2, t, h3, h4, h5, h6⟩ := corners_index h.1
  refine ⟨r, h1, h2, ?_⟩
  rw [h3]
  congr 1
  refine corners_ext h5 (fun i => by rw [h6]) ?_
  rw [h4, (twists_iff s).1 h.2]

theorem corners_unindex {r : Nat} (h : r < Deindexable.TOTAL_SET_SIZE CornersMUS) :
    ∃ s : CornersMUS, Deindexable.fromIndex? r = some s ∧ CornersGood s ∧ Deindexable.index? s = some r := by
  rw [total_corners] at h
  obtain ⟨l, hl1, hl2, hl3, hl4, hl5⟩ := position_unrank (N := 8) (S := 8) (r := r / 3 ^ 7) (by decide)
    (by rw [desc_8_8]; decide) (by rw [desc_8_8]; omega)
  obtain ⟨ho1, ho2, ho3⟩ := orientation_unrank (base := 3) (N := 7) (r := r % 3 ^ 7) (by decide) (by decide)
    (Nat.mod_lt _ (by decide))
  obtain ⟨f, g, hf, hg, hpos, hori, hap, hr⟩ := corners_fromIndex? hl1 hl2 hl3 hl4 rfl ho1 ho2
  have hplace : ∀ i, placeOf (n := 8) (fixLast (cornersWith f g) i) = f i :=
    fun i => placeOf_eq (by rw [fixLast_position]; exact hpos i)
  refine ⟨_, hr, ⟨?_, (twists_iff _).2 (fixLast_sum _)⟩, ?_⟩
  · intro i j hij
    apply hap
    simp only [fixLast_position] at hij
    exact hij
  · show combineIndex? (3 ^ 7) (CornersMUS.positionIndex? _) (CornersMUS.orientationIndex? _) = _
    rw [corners_position, corners_orientation]
    have e1 : (List.ofFn fun i => (placeOf (n := 8) (fixLast (cornersWith f g) i)).val) = l := by
      rw [hf]; congr 1; funext i; rw [hplace]
    have e2 : (List.ofFn fun i : Fin 7 => (fixLast (cornersWith f g) ⟨i.val, by omega⟩).orientationIndex) =
          deindexOrientations 3 7 (r % 3 ^ 7) := by
      rw [hg]; congr 1; funext i
      have hne : (⟨i.val, by omega⟩ : Fin 8) ≠ 7 := fun e => by have := congrArg Fin.val e; simp at this; omega
      unfold fixLast
      rw [if_neg hne, hori]
    rw [e1, e2, hl5, ho3, combineIndex?_eq (by omega)]
    congr 1
    omega

end Barbarosa
