import Verif.Lemmas.Stickers
import Verif.Props.PieceSet
import Mathlib.Tactic.FinCases

/-!
# C05, C18, C51: stickers

What a 3x3 looks like is read off the picture that the crate draws (`Cube3.shows`, `Spec/Stickers.lean`).
-/

namespace Barbarosa

open PieceSet

/-! ## C05 -/

/-- **C05** A turn carries every one of the 54 facelets to exactly one of the 54 facelets, and every facelet is reached
from exactly one: `Carries` is a permutation of the facelets. -/
theorem C05_turn_permutes (m : AxisMove) :
    (∀ s : Facelet, s.OnCube → ∃! s' : Facelet, s'.OnCube ∧ Facelet.Carries m s s') ∧
    (∀ s' : Facelet, s'.OnCube → ∃! s : Facelet, s.OnCube ∧ Facelet.Carries m s s') := by
  have det : ∀ s s₁ s₂ : Facelet, Facelet.Carries m s s₁ → Facelet.Carries m s s₂ → s₁ = s₂ := by
    intro s s₁ s₂ h₁ h₂
    unfold Facelet.Carries at h₁ h₂
    by_cases hl : s.InLayer m
    · rw [if_pos hl] at h₁ h₂
      cases s₁; cases s₂
      simp only [Facelet.mk.injEq] at *
      exact ⟨h₁.1.trans h₂.1.symm, (turnFace_unique m _ _ h₁.2).trans (turnFace_unique m _ _ h₂.2).symm⟩
    · rw [if_neg hl] at h₁ h₂
      rw [h₁, h₂]
  have tot : ∀ m : AxisMove, ∀ s ∈ Facelet.all, ∃ s' ∈ Facelet.all, Facelet.Carries m s s' := by decide +kernel
  have sur : ∀ m : AxisMove, ∀ s' ∈ Facelet.all, ∃ s ∈ Facelet.all, Facelet.Carries m s s' ∧
      ∀ t ∈ Facelet.all, Facelet.Carries m t s' → t = s := by decide +kernel
  constructor
  · intro s hs
    obtain ⟨s', h1, h2⟩ := tot m s (s.mem_all.mpr hs)
    exact ⟨s', ⟨s'.mem_all.mp h1, h2⟩, fun t ht => det s _ _ ht.2 h2⟩
  · intro s' hs
    obtain ⟨s, h1, h2, h3⟩ := sur m s' (s'.mem_all.mpr hs)
    exact ⟨s, ⟨s.mem_all.mp h1, h2⟩, fun t ht => h3 t (t.mem_all.mpr ht.1) ht.2⟩

/-- where the front sticker of a corner goes when U is turned -/
example : ∃! s' : Facelet, s'.OnCube ∧ Facelet.Carries ⟨.U, .single⟩ ⟨⟨1, 1, 1⟩, .F⟩ s' :=
  (C05_turn_permutes ⟨.U, .single⟩).1 _ (by decide)

/-- **C05** After a move on a valid 3x3 the picture shows at facelet `s'` exactly the colour that was shown at the
facelet `s` which the physical turn of the layer carries to `s'`. -/
theorem C05_move (c : Cube3) (hc : c.valid) (m : AxisMove) (s s' : Facelet) (hs : s.OnCube) (h : Facelet.Carries m s s') :
    ∃ col, c.shows s = some col ∧ (moved c m).shows s' = some col := by
  have hv : (moved c m).valid := C08_cubes.2.1 c [m] hc
  simp only [Cube3.valid, validate_eq_none] at hc hv
  rcases sticker_or_centre c hc.2 hc.1 s hs with hcen | ⟨col, hcol⟩
  · refine ⟨⟨s.face⟩, cube3_shows_centre c hc.2 hc.1 s hs hcen, ?_⟩
    have hs' := carries_onCube m s s' hs h
    have : s' = s := by
      unfold Facelet.Carries at h
      by_cases hl : s.InLayer m
      · rw [if_pos hl] at h
        have := centre_carries s (s.mem_all.mpr hs) hcen m hl s'.face h.2
        rw [this.2] at h
        cases s; cases s'
        simp only [Facelet.mk.injEq] at *
        exact ⟨h.1, this.1⟩
      · rw [if_neg hl] at h
        exact h
    subst this
    exact cube3_shows_centre _ hv.2 hv.1 s' hs hcen
  · exact ⟨col, cube3_shows c hc.2 hc.1 s col hcol, cube3_shows _ hv.2 hv.1 s' col (sticker_carries c m s s' col hcol h)⟩

/-- R carries the sticker of the upper front right corner that is on F to U -/
example : ∃ col, (movedAlg Cube3.SOLVED Perms.T).shows ⟨⟨1, 1, 1⟩, .F⟩ = some col ∧
    (moved (movedAlg Cube3.SOLVED Perms.T) (⟨.R, .single⟩ : AxisMove)).shows ⟨⟨1, 1, -1⟩, .U⟩ = some col :=
  C05_move _ (C08_cubes.2.1 Cube3.SOLVED Perms.T C08_solved_valid.2.1) _ _ _ (by decide) (by decide)

/-- the facelets that an alg carries one facelet to: the turns one after the other -/
def CarriesAlg : List AxisMove → Facelet → Facelet → Prop
  | [], s, s' => s = s'
  | m :: l, s, s' => ∃ t, Facelet.Carries m s t ∧ CarriesAlg l t s'

/-- **C05** The same for algs of every length. -/
theorem C05_alg (alg : List AxisMove) (c : Cube3) (hc : c.valid) (s s' : Facelet) (hs : s.OnCube)
    (h : CarriesAlg alg s s') : ∃ col, c.shows s = some col ∧ (movedAlg c alg).shows s' = some col := by
  induction alg generalizing c s with
  | nil =>
    obtain rfl : s = s' := h
    simp only [Cube3.valid, validate_eq_none] at hc
    rcases sticker_or_centre c hc.2 hc.1 s hs with hcen | ⟨col, hcol⟩
    · exact ⟨_, cube3_shows_centre c hc.2 hc.1 s hs hcen, cube3_shows_centre c hc.2 hc.1 s hs hcen⟩
    · exact ⟨_, cube3_shows c hc.2 hc.1 s col hcol, cube3_shows c hc.2 hc.1 s col hcol⟩
  | cons m l ih =>
    obtain ⟨t, h1, h2⟩ := h
    obtain ⟨col, e1, e2⟩ := C05_move c hc m s t hs h1
    obtain ⟨col', e3, e4⟩ := ih (moved c m) (C08_cubes.2.1 c [m] hc) t (carries_onCube m s t hs h1) h2
    refine ⟨col, e1, ?_⟩
    rw [e2] at e3
    rw [show movedAlg c (m :: l) = movedAlg (moved c m) l from rfl, e4, ← e3]

/-- Hypotheses met: on the scrambled cube after `R`, the move `U` carries the front sticker of the upper front edge to
the left face, and the picture follows. -/
example : ∃ c : Cube3, c.valid ∧ c = moved Cube3.SOLVED (⟨.R, .single⟩ : AxisMove) ∧
    Facelet.OnCube ⟨⟨1, 1, 1⟩, .F⟩ ∧ Facelet.Carries ⟨.U, .single⟩ ⟨⟨1, 1, 1⟩, .F⟩ ⟨⟨-1, 1, 1⟩, .L⟩ ∧
    c.shows ⟨⟨1, 1, 1⟩, .F⟩ = some ⟨.D⟩ ∧ (moved c (⟨.U, .single⟩ : AxisMove)).shows ⟨⟨-1, 1, 1⟩, .L⟩ = some ⟨.D⟩ :=
  ⟨_, C08_cubes.2.1 Cube3.SOLVED [⟨.R, .single⟩] C08_solved_valid.2.1, rfl, by decide +kernel, by decide +kernel,
    by decide +kernel, by decide +kernel⟩

/-! ## C51 -/

/-- **C51** Drawing a valid 3x3 never panics. The stickers written are the 48 non-centre facelets, each exactly once.
Each facelet shows the sticker written there, each centre the colour of its face. -/
theorem C51_drawing (c : Cube3) (hc : c.valid) :
    ∃ u, Unfolded.ofCube3? c = some u ∧
      (c.stickers.map Prod.fst).Perm (Facelet.all.filter fun s => !decide s.IsCentre) ∧
      (∀ w ∈ c.stickers, u.shows w.1 = some w.2) ∧
      ∀ s : Facelet, s.OnCube → s.IsCentre → u.shows s = some ⟨s.face⟩ := by
  simp only [Cube3.valid, validate_eq_none] at hc
  obtain ⟨u, h1, h2, h3⟩ := picture c hc.2 hc.1
  exact ⟨u, h1, stickers_perm c hc.2 hc.1, h2, h3⟩

/-- a scrambled cube -/
example : ∃ u, Unfolded.ofCube3? (movedAlg Cube3.SOLVED Perms.SEXY_MOVE) = some u ∧ u.shows ⟨⟨0, 1, 0⟩, .U⟩ = some ⟨.U⟩ := by
  obtain ⟨u, h1, -, -, h2⟩ := C51_drawing (movedAlg Cube3.SOLVED Perms.SEXY_MOVE) (C08_cubes.2.1 _ _ C08_solved_valid.2.1)
  exact ⟨u, h1, h2 _ (by decide) (by decide)⟩

/-- `Facelet.all` lists the 54 facelets of the cube, each once. -/
theorem C51_facelets : Facelet.all.length = 54 ∧ Facelet.all.Nodup ∧ ∀ s : Facelet, s ∈ Facelet.all ↔ s.OnCube :=
  ⟨by decide +kernel, by decide +kernel, Facelet.mem_all⟩

/-- one of them, and a point inside -/
example : (⟨⟨1, 1, 0⟩, .U⟩ : Facelet) ∈ Facelet.all ∧ (⟨⟨1, 0, 0⟩, .U⟩ : Facelet) ∉ Facelet.all :=
  ⟨(C51_facelets.2.2 _).2 (by decide), fun h => absurd ((C51_facelets.2.2 _).1 h) (by decide)⟩

theorem shows_same_sticker {c d : Cube3} (hc : c.corners.Valid) (he : c.edges.Valid) (hc' : d.corners.Valid)
    (he' : d.edges.Valid) (h : ∀ s : Facelet, s.OnCube → c.shows s = d.shows s) (s : Facelet) (col : Color)
    (hs : (s, col) ∈ c.stickers) : (s, col) ∈ d.stickers := by
  have ok := stickers_on_cube c _ hs
  rcases sticker_or_centre d hc' he' s ok.1 with hcen | ⟨col', hcol'⟩
  · exact absurd hcen ok.2
  · have h1 := h s ok.1
    rw [cube3_shows c hc he s col hs, cube3_shows d hc' he' s col' hcol'] at h1
    rw [Option.some.inj h1]
    exact hcol'

/-- **C51** Two valid 3x3 cubes that look the same on all facelets are equal. -/
theorem C51_picture_injective (c d : Cube3) (hc : c.valid) (hd : d.valid)
    (h : ∀ s : Facelet, s.OnCube → c.shows s = d.shows s) : c = d := by
  simp only [Cube3.valid, validate_eq_none] at hc hd
  have key := fun s col => shows_same_sticker hc.2 hc.1 hd.2 hd.1 h s col
  have hcor : c.corners = d.corners := by
    funext i
    obtain ⟨j, hj⟩ := hd.2.bijective.2 (c.corners i).position
    replace hj : (d.corners j).position = (c.corners i).position := hj
    have hsub : ∀ x ∈ (c.corners i).colors (Corner.REFERENCE_POSITIONS i),
        x ∈ (d.corners j).colors (Corner.REFERENCE_POSITIONS j) := by
      rintro ⟨f, col⟩ hx
      have := key ⟨cornerPoint (c.corners i).position, f⟩ col ((mem_stickers _ _ _).mpr (Or.inl ⟨i, rfl, hx⟩))
      rcases (mem_stickers _ _ _).mp this with ⟨k, h1, h2⟩ | ⟨k, h1, -⟩
      · have : (d.corners k).position = (d.corners j).position := by
          rw [hj]; exact (cornerPoint_inj _ _ h1).symm
        rw [hd.2 this] at h2
        exact h2
      · exact absurd h1 (cornerPoint_ne_edgePoint _ _)
    rcases hci : c.corners i with ⟨p, a⟩
    rcases hdj : d.corners j with ⟨q, b⟩
    rw [hci, hdj] at hsub hj
    obtain rfl : q = p := hj
    obtain ⟨rfl, e⟩ := corner_colors_inj _ _ _ _ _ hsub
    have : i = j := LawfulDescriptor.ref_bij (P := Corner).1 e
    subst this
    exact hdj.symm
  have hedg : c.edges = d.edges := by
    funext i
    obtain ⟨j, hj⟩ := hd.1.bijective.2 (c.edges i).position
    replace hj : (d.edges j).position = (c.edges i).position := hj
    have hsub : ∀ x ∈ (c.edges i).colors (Edge.REFERENCE_POSITIONS i),
        x ∈ (d.edges j).colors (Edge.REFERENCE_POSITIONS j) := by
      rintro ⟨f, col⟩ hx
      have := key ⟨edgePoint (c.edges i).position, f⟩ col ((mem_stickers _ _ _).mpr (Or.inr ⟨i, rfl, hx⟩))
      rcases (mem_stickers _ _ _).mp this with ⟨k, h1, -⟩ | ⟨k, h1, h2⟩
      · exact absurd h1.symm (cornerPoint_ne_edgePoint _ _)
      · have : (d.edges k).position = (d.edges j).position := by
          rw [hj]; exact (edgePoint_inj _ _ h1).symm
        rw [hd.1 this] at h2
        exact h2
    rcases hci : c.edges i with ⟨n, s, a⟩
    rcases hdj : d.edges j with ⟨n', s', b⟩
    rw [hci, hdj] at hsub hj
    obtain ⟨rfl, rfl⟩ : n' = n ∧ s' = s := Prod.mk.inj hj
    obtain ⟨rfl, e⟩ := edge_colors_inj (n', s') _ _ _ _ hsub
    have : i = j := LawfulDescriptor.ref_bij (P := Edge).1 e
    subst this
    exact hdj.symm
  exact Cube3.ext hedg hcor

/-- after the sexy move some facelet looks different -/
example : ¬ ∀ s : Facelet, s.OnCube → (movedAlg Cube3.SOLVED Perms.SEXY_MOVE).shows s = Cube3.SOLVED.shows s :=
  fun h => absurd (C51_picture_injective _ _ (C08_cubes.2.1 _ _ C08_solved_valid.2.1) C08_solved_valid.2.1 h) (by decide +kernel)

theorem sq_ext (a b : Square 3) (h : a 0 0 = b 0 0 ∧ a 0 1 = b 0 1 ∧ a 0 2 = b 0 2 ∧ a 1 0 = b 1 0 ∧ a 1 1 = b 1 1 ∧
    a 1 2 = b 1 2 ∧ a 2 0 = b 2 0 ∧ a 2 1 = b 2 1 ∧ a 2 2 = b 2 2) : a = b := by
  obtain ⟨h1, h2, h3, h4, h5, h6, h7, h8, h9⟩ := h
  funext i j
  fin_cases i <;> fin_cases j <;> assumption

theorem write_inj (u v : Unfolded 3) (h : u.write = v.write) : u = v := by
  have key : ∀ f : Face, u.square f = v.square f := by
    have fr : List.finRange 3 = [0, 1, 2] := by decide
    simp only [Unfolded.write, Square.write, Square.rowToks, fr, List.flatMap_cons, List.flatMap_nil, List.map_cons,
      List.map_nil, List.cons_append, List.nil_append, List.replicate, List.append_nil,
      List.cons.injEq, Tok.cell.injEq, true_and, and_true] at h
    obtain ⟨u00, u01, u02, u10, u11, u12, u20, u21, u22, l00, l01, l02, f00, f01, f02, r00, r01, r02, l10, l11, l12, f10,
      f11, f12, r10, r11, r12, l20, l21, l22, f20, f21, f22, r20, r21, r22, d00, d01, d02, d10, d11, d12, d20, d21,
      d22, b00, b01, b02, b10, b11, b12, b20, b21, b22⟩ := h
    intro f
    rcases f with ⟨_ | _ | _, _ | _⟩
    · exact sq_ext _ _ ⟨r00, r01, r02, r10, r11, r12, r20, r21, r22⟩
    · exact sq_ext _ _ ⟨l00, l01, l02, l10, l11, l12, l20, l21, l22⟩
    · exact sq_ext _ _ ⟨u00, u01, u02, u10, u11, u12, u20, u21, u22⟩
    · exact sq_ext _ _ ⟨d00, d01, d02, d10, d11, d12, d20, d21, d22⟩
    · exact sq_ext _ _ ⟨f00, f01, f02, f10, f11, f12, f20, f21, f22⟩
    · exact sq_ext _ _ ⟨b00, b01, b02, b10, b11, b12, b20, b21, b22⟩
  funext k
  fin_cases k
  · exact key .R
  · exact key .U
  · exact key .F
  · exact key .L
  · exact key .D
  · exact key .B

/-- **C51** `Display` never panics on valid cubes and prints different valid cubes differently; the six background
colours that are sent to the terminal are different. -/
theorem C51_display_injective :
    (∀ c : Cube3, c.valid → ∃ t, c.display? = some t) ∧
    (∀ c d : Cube3, c.valid → d.valid → c.display? = d.display? → c = d) ∧
    (∀ a b : Face, Color.rgb ⟨a⟩ = Color.rgb ⟨b⟩ → a = b) := by
  refine ⟨fun c hc => ?_, fun c d hc hd h => ?_, by decide +kernel⟩
  · obtain ⟨u, h, -⟩ := C51_drawing c hc
    exact ⟨u.write, by unfold Cube3.display?; rw [h]; rfl⟩
  · obtain ⟨u, h1, -⟩ := C51_drawing c hc
    obtain ⟨v, h2, -⟩ := C51_drawing d hd
    unfold Cube3.display? at h
    rw [h1, h2] at h
    have := write_inj u v (Option.some.inj h)
    apply C51_picture_injective c d hc hd
    intro s _
    unfold Cube3.shows
    rw [h1, h2, this]

example : (movedAlg Cube3.SOLVED Perms.T).display? ≠ Cube3.SOLVED.display? := fun h =>
  absurd (C51_display_injective.2.1 _ _ (C08_cubes.2.1 Cube3.SOLVED Perms.T C08_solved_valid.2.1) C08_solved_valid.2.1 h) (by decide +kernel)

/-- **C51** The printed net folds up: along every line where two squares of the net touch (U above F above D above B, and
L, F, R side by side), facelets printed next to each other belong to the same cubelet. -/
theorem C51_net_folds :
    (∀ s ∈ Facelet.all, ∀ t ∈ Facelet.all, ∀ i : Fin 3,
      (s.face, t.face) ∈ [(Face.U, Face.F), (.F, .D), (.D, .B)] →
      Square.indices 3 (s.point.x, s.point.y, s.point.z) s.face = some (2, i) →
      Square.indices 3 (t.point.x, t.point.y, t.point.z) t.face = some (0, i) → s.point = t.point) ∧
    (∀ s ∈ Facelet.all, ∀ t ∈ Facelet.all, ∀ i : Fin 3,
      (s.face, t.face) ∈ [(Face.L, Face.F), (.F, .R)] →
      Square.indices 3 (s.point.x, s.point.y, s.point.z) s.face = some (i, 2) →
      Square.indices 3 (t.point.x, t.point.y, t.point.z) t.face = some (i, 0) → s.point = t.point) := by
  constructor <;> decide +kernel

/-- Hypotheses met: a valid cube whose picture is not the solved one. -/
example : ∃ c : Cube3, c.valid ∧ c.display? ≠ Cube3.SOLVED.display? :=
  ⟨movedAlg Cube3.SOLVED [(⟨.R, .single⟩ : AxisMove), ⟨.U, .double⟩],
    C08_cubes.2.1 _ _ C08_solved_valid.2.1, by decide +kernel⟩

/-! ## C18 -/

theorem corners_isSolved_iff (s : PieceSet Corner 8) : s.isSolved = true ↔ s = PieceSet.SOLVED Corner := by
  unfold isSolved
  rw [iterWithPos_eq, List.all_eq_true]
  constructor
  · intro h
    funext i
    have := h (PieceSetDescriptor.REFERENCE_POSITIONS (P := Corner) i, s i) (List.mem_ofFn.mpr ⟨i, rfl⟩)
    replace this : ((s i).position == Corner.REFERENCE_POSITIONS i && (s i).isOriented) = true := this
    simp only [Bool.and_eq_true, beq_iff_eq, Corner.isOriented] at this
    show s i = ⟨Corner.REFERENCE_POSITIONS i, Corner.ORIENTED_AXIS⟩
    rw [← this.1, ← this.2]
  · rintro rfl x hx
    rw [List.mem_ofFn] at hx
    obtain ⟨i, rfl⟩ := hx
    revert i
    decide

theorem edges_isSolved_iff (s : PieceSet Edge 12) : s.isSolved = true ↔ s = PieceSet.SOLVED Edge := by
  unfold isSolved
  rw [iterWithPos_eq, List.all_eq_true]
  constructor
  · intro h
    funext i
    have := h (PieceSetDescriptor.REFERENCE_POSITIONS (P := Edge) i, s i) (List.mem_ofFn.mpr ⟨i, rfl⟩)
    replace this : ((s i).position == Edge.REFERENCE_POSITIONS i && (s i).oriented) = true := this
    simp only [Bool.and_eq_true, beq_iff_eq, Edge.position] at this
    show s i = ⟨(Edge.REFERENCE_POSITIONS i).1, (Edge.REFERENCE_POSITIONS i).2, true⟩
    rw [← this.1, ← this.2]
  · rintro rfl x hx
    rw [List.mem_ofFn] at hx
    obtain ⟨i, rfl⟩ := hx
    revert i
    decide

/-- **C18** `is_solved` of the 3x3 (2x2) is true exactly when every piece is at its home position with the home
orientation, and `PieceSet::is_solved` is equality with `SOLVED`. -/
theorem C18_pieces :
    (∀ c : Cube3, Cube.isSolved c = true ↔
      (∀ i, (c.corners i).position = Corner.REFERENCE_POSITIONS i ∧ (c.corners i).orientationAxis = .Y) ∧
      ∀ i, (c.edges i).position = Edge.REFERENCE_POSITIONS i ∧ (c.edges i).oriented = true) ∧
    (∀ c : Cube2, Cube.isSolved c = true ↔
      ∀ i, (c.corners i).position = Corner.REFERENCE_POSITIONS i ∧ (c.corners i).orientationAxis = .Y) ∧
    (∀ s : PieceSet Corner 8, s.isSolved = true ↔ s = PieceSet.SOLVED Corner) ∧
    (∀ s : PieceSet Edge 12, s.isSolved = true ↔ s = PieceSet.SOLVED Edge) := by
  have hcor : ∀ s : PieceSet Corner 8, s = PieceSet.SOLVED Corner ↔
      ∀ i, (s i).position = Corner.REFERENCE_POSITIONS i ∧ (s i).orientationAxis = .Y := by
    intro s
    constructor
    · rintro rfl i
      exact ⟨rfl, rfl⟩
    · intro h
      funext i
      obtain ⟨h1, h2⟩ := h i
      show s i = ⟨Corner.REFERENCE_POSITIONS i, .Y⟩
      rw [← h1, ← h2]
  have hedg : ∀ s : PieceSet Edge 12, s = PieceSet.SOLVED Edge ↔
      ∀ i, (s i).position = Edge.REFERENCE_POSITIONS i ∧ (s i).oriented = true := by
    intro s
    constructor
    · rintro rfl i
      exact ⟨rfl, rfl⟩
    · intro h
      funext i
      obtain ⟨h1, h2⟩ := h i
      show s i = ⟨(Edge.REFERENCE_POSITIONS i).1, (Edge.REFERENCE_POSITIONS i).2, true⟩
      rw [← h1, ← h2]
      rfl
  refine ⟨fun c => ?_, fun c => ?_, corners_isSolved_iff, edges_isSolved_iff⟩
  · rw [← hcor, ← hedg]
    show decide (c = Cube3.SOLVED) = true ↔ _
    rw [decide_eq_true_iff, Cube3.ext_iff, and_comm]
    rfl
  · rw [← hcor]
    show decide (c = ⟨PieceSet.SOLVED Corner⟩) = true ↔ _
    rw [decide_eq_true_iff, Cube2.ext_iff]

/-- a turned face -/
example : Cube.isSolved (moved Cube3.SOLVED (⟨.R, .double⟩ : AxisMove)) = false ∧
    ¬ ∀ i, ((moved Cube3.SOLVED (⟨.R, .double⟩ : AxisMove)).corners i).position = Corner.REFERENCE_POSITIONS i := by decide +kernel

theorem solved_shows : ∀ s ∈ Facelet.all, Cube3.SOLVED.shows s = some ⟨s.face⟩ := by decide +kernel

/-- **C18** For valid states, `is_solved` is true exactly when every one of the 54 facelets shows the colour of its
face. -/
theorem C18_facelets (c : Cube3) (hc : c.valid) :
    Cube.isSolved c = true ↔ ∀ s : Facelet, s.OnCube → c.shows s = some ⟨s.face⟩ := by
  show decide (c = Cube3.SOLVED) = true ↔ _
  rw [decide_eq_true_iff]
  constructor
  · rintro rfl s hs
    exact solved_shows s (s.mem_all.mpr hs)
  · intro h
    refine C51_picture_injective c Cube3.SOLVED hc C08_solved_valid.2.1 fun s hs => ?_
    rw [h s hs, solved_shows s (s.mem_all.mpr hs)]

/-- Both sides of the equivalence occur: a scrambled valid cube is not solved, and undoing the scramble solves it. -/
example : Cube.isSolved (movedAlg Cube3.SOLVED [(⟨.F, .single⟩ : AxisMove), ⟨.L, .double⟩]) = false ∧
    Cube.isSolved (movedAlg Cube3.SOLVED [(⟨.F, .single⟩ : AxisMove), ⟨.L, .double⟩, ⟨.L, .double⟩, ⟨.F, .inverse⟩]) = true := by
  decide +kernel

end Barbarosa
