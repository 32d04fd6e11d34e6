import Verif.Lemmas.ReachStates
import Verif.Props.Meaning
import Verif.Props.Reduction

/-!
# C71, C72: which states of the big cubes can be reached

C71: the 4x4 and the 6x6. C72: the 5x5 and the 7x7.
-/

namespace Barbarosa

open Equiv Orbit

/-! ## C71: even cubes -/

theorem reversed_wf {N : Nat} (alg : List (WideAxisMove N)) (h : ∀ m ∈ alg, m.WF) : ∀ m ∈ reversed alg, m.WF := by
  intro m hm
  obtain ⟨a, ha, rfl⟩ := List.mem_map.1 hm
  exact h a (List.mem_reverse.1 ha)

theorem lift_depth {alg : List (WideAxisMove 1)} (h : ∀ m ∈ alg, m.WF) : ∀ m ∈ alg.map liftMove, m.depth ≤ 1 := by
  intro m hm
  obtain ⟨a, ha, rfl⟩ := List.mem_map.1 hm
  exact h a ha

theorem unlift {W : List (WideAxisMove 2)} (h : ∀ m ∈ W, m.depth ≤ 1) :
    ∃ alg : List (WideAxisMove 1), (∀ m ∈ alg, m.WF) ∧ alg.map liftMove = W := by
  refine ⟨W.map fun m => ⟨m.depth, m.axisMove⟩, fun m hm => ?_, ?_⟩
  · obtain ⟨a, ha, rfl⟩ := List.mem_map.1 hm
    exact h a ha
  · rw [List.map_map]
    exact List.map_id W

theorem atDepth_axisMove (D : Nat) (u : List AxisMove) : (atDepth D 0 u).map (·.axisMove) = u := by
  unfold atDepth
  rw [List.map_map]
  exact List.map_id u

theorem atDepth_depth (D : Nat) (u : List AxisMove) : ∀ m ∈ atDepth D 0 u, m.depth ≤ 0 := by
  intro m hm
  obtain ⟨a, -, rfl⟩ := List.mem_map.1 hm
  exact Nat.le_refl 0

/-- **C71** A state of the 4x4 can be obtained from the solved one by turns of one or two layers if and only if it obeys the
laws: corners as on a 2x2, wings anywhere, and centers permuted with the parity of the corners. The same states can be brought to the
state `SOLVED`. -/
theorem C71_cube4 (c : Cube4) :
    (c.Reachable ↔ c.Lawful) ∧
    ((∃ alg : List (WideAxisMove 1), (∀ m ∈ alg, m.WF) ∧ movedAlg c alg = Cube.SOLVED) ↔ c.Lawful) := by
  have rl : c.Reachable ↔ c.Lawful := by
    constructor
    · rintro ⟨alg, hw, rfl⟩
      rw [cube4_word]
      obtain ⟨τ, hτ, e⟩ := word_corners_solved (alg.map liftMove)
      have hd : ∀ m ∈ alg.map liftMove, m.depth ≤ 2 := fun m hm => (lift_depth hw m hm).trans (by decide)
      obtain ⟨ω, -, σ, -, -, -, h1, -, h2, -, -, -, h3, -⟩ := centers_of_word _ hd τ e
      refine ⟨?_, ⟨ω, h1⟩, ⟨τ, σ, hτ, h2, h3⟩⟩
      have := ((C17_reachable_iff _).1.1 ⟨_, cube2_word Cube.SOLVED (alg.map liftMove)⟩).twists
      exact this
    · rintro ⟨h1, ⟨ω, hω⟩, ⟨τ, σ, hτ, hσ, hs⟩⟩
      obtain ⟨u, hu⟩ := (C17_reachable_iff ⟨c.corners⟩).1.2 ⟨⟨τ, hτ⟩, h1⟩
      rw [← atDepth_axisMove 2 u, cube2_word] at hu
      obtain ⟨τ', hτ', e⟩ := word_corners_solved (atDepth 2 0 u)
      have hc : (fun i => evalWord (atDepth 2 0 u) .corner (PieceSet.SOLVED Corner i)) = c.corners := congrArg Cube2.corners hu
      rw [hc] at hτ'
      cases hτ.unique hτ'
      obtain ⟨W, hW, g1, -, g3, g4⟩ := word_of_centers1 (atDepth 2 0 u)
        (fun m hm => (atDepth_depth 2 u m hm).trans (by decide)) τ e hω hσ hs
      obtain ⟨alg, ha, rfl⟩ := unlift hW
      refine ⟨alg, ha, ?_⟩
      rw [cube4_word]
      refine Cube4.ext ?_ g3 g4
      show (fun i => evalWord (alg.map liftMove) .corner (PieceSet.SOLVED Corner i)) = c.corners
      rw [g1]
      exact hc
  refine ⟨rl, Iff.trans ⟨?_, ?_⟩ rl⟩
  · rintro ⟨alg, hw, h⟩
    refine ⟨reversed alg, reversed_wf alg hw, ?_⟩
    rw [← h]
    exact (C02_alg_then_reversed ⟨Cube4, WideAxisMove 1⟩ (by simp [moveSystems]) alg c).1
  · rintro ⟨alg, hw, rfl⟩
    exact ⟨reversed alg, reversed_wf alg hw,
      (C02_alg_then_reversed ⟨Cube4, WideAxisMove 1⟩ (by simp [moveSystems]) alg _).1⟩

/-- **C71** The same for the 6x6: the center corners of both kinds are permuted with the parity of the corners, both mirror images of
center wings with the parity of corners and all wings together. -/
theorem C71_cube6 (c : Cube6) :
    (c.Reachable ↔ c.Lawful) ∧
    ((∃ alg : List (WideAxisMove 2), (∀ m ∈ alg, m.WF) ∧ movedAlg c alg = Cube.SOLVED) ↔ c.Lawful) := by
  have rl : c.Reachable ↔ c.Lawful := by
    constructor
    · rintro ⟨alg, hw, rfl⟩
      rw [cube6_word]
      obtain ⟨τ, hτ, e⟩ := word_corners_solved alg
      exact ⟨((C17_reachable_iff _).1.1 ⟨_, cube2_word Cube.SOLVED alg⟩).twists, τ, hτ, centers_of_word alg hw τ e⟩
    · rintro ⟨h1, ⟨τ, hτ, hs⟩⟩
      obtain ⟨u, hu⟩ := (C17_reachable_iff ⟨c.corners⟩).1.2 ⟨⟨τ, hτ⟩, h1⟩
      rw [← atDepth_axisMove 2 u, cube2_word] at hu
      obtain ⟨τ', hτ', e⟩ := word_corners_solved (atDepth 2 0 u)
      have hc : (fun i => evalWord (atDepth 2 0 u) .corner (PieceSet.SOLVED Corner i)) = c.corners := congrArg Cube2.corners hu
      rw [hc] at hτ'
      cases hτ.unique hτ'
      obtain ⟨W, hW, g1, -, g3, g4, g5, g6, g7⟩ := word_of_centers (atDepth 2 0 u)
        (fun m hm => (atDepth_depth 2 u m hm).trans (by decide)) τ e hs
      refine ⟨W, hW, ?_⟩
      rw [cube6_word]
      refine Cube6.ext ?_ g3 g4 g5 g6 g7
      show (fun i => evalWord W .corner (PieceSet.SOLVED Corner i)) = c.corners
      rw [g1]
      exact hc
  refine ⟨rl, Iff.trans ⟨?_, ?_⟩ rl⟩
  · rintro ⟨alg, hw, h⟩
    refine ⟨reversed alg, reversed_wf alg hw, ?_⟩
    rw [← h]
    exact (C02_alg_then_reversed ⟨Cube6, WideAxisMove 2⟩ (by simp [moveSystems]) alg c).1
  · rintro ⟨alg, hw, rfl⟩
    exact ⟨reversed alg, reversed_wf alg hw,
      (C02_alg_then_reversed ⟨Cube6, WideAxisMove 2⟩ (by simp [moveSystems]) alg _).1⟩

/-- after three layers of R have been turned -/
example : (movedAlg (Cube.SOLVED : Cube6) [(⟨2, ⟨Face.R, .single⟩⟩ : WideAxisMove 2)]).Lawful :=
  (C71_cube6 _).1.1 ⟨_, by decide, rfl⟩

/-! ### Equal centers -/

/-- a permutation of the given parity that exchanges at most two things -/
def swapIf {α : Type} [DecidableEq α] (s : ℤˣ) (a b : α) : Perm α := if s = 1 then 1 else Equiv.swap a b

theorem sign_swapIf {α : Type} [DecidableEq α] [Fintype α] (s : ℤˣ) {a b : α} (h : a ≠ b) : Perm.sign (swapIf s a b) = s := by
  unfold swapIf
  split_ifs with hs
  · simp [hs]
  · rw [Perm.sign_swap h]
    exact ((Int.units_eq_one_or s).resolve_left hs).symm

theorem swapIf_face {α β : Type} [DecidableEq α] (s : ℤˣ) {a b : α} (g : α → β) (h : g a = g b) (i : α) : g (swapIf s a b i) = g i := by
  unfold swapIf
  split_ifs
  · rfl
  · rw [Equiv.swap_apply_def]
    split_ifs with h1 h2
    · rw [h1, h]
    · rw [h2, h]
    · rfl

/-- **C71** As centers of the same face look alike, parity is no obstacle: a 4x4 that was taken apart and put together in any way
can be brought to uniform faces if and only if the twists of its corners add up to a multiple of three. Then `is_solved` accepts it. -/
theorem C71_cube4_uniform (c : Cube4) (hc : c.corners.Valid) (hw : c.wings.Valid) (hz : c.centers.Valid) :
    ((∃ alg : List (WideAxisMove 1), (∀ m ∈ alg, m.WF) ∧ (movedAlg c alg).FacesUniform) ↔
      3 ∣ ∑ i, (c.corners i).orientationIndex) ∧
    ∀ alg : List (WideAxisMove 1), (movedAlg c alg).FacesUniform → Cube.isSolved (movedAlg c alg) = true := by
  refine ⟨⟨?_, fun h => ?_⟩, fun alg h => (C19_partial.1 _).1 h⟩
  · rintro ⟨alg, -, h⟩
    have hs : (⟨c.corners⟩ : Cube2).Solvable := ⟨_, (C66_core.1 c alg).symm.trans (congrArg Cube2.mk h.corners)⟩
    exact ((C17_reachable_iff _).2.1.1 hs).twists
  · obtain ⟨τ, hτ⟩ := hc.arranged
    obtain ⟨ω, hω⟩ := hw.arranged
    obtain ⟨σ, hσ⟩ := hz.arranged
    let s : Perm (Fin 24) := swapIf (Perm.sign τ * Perm.sign σ) 0 2
    have hl : (⟨c.corners, c.wings, fun i => c.centers (s i)⟩ : Cube4).Lawful := by
      refine ⟨h, ⟨ω, hω⟩, τ, σ * s, hτ, fun i => hσ (s i), ?_⟩
      rw [Perm.sign_mul, sign_swapIf _ (by decide), mul_comm, mul_assoc, unit_sq, mul_one]
    obtain ⟨alg, ha, e⟩ := (C71_cube4 _).2.2 hl
    rw [cube4_word] at e
    refine ⟨alg, ha, ?_⟩
    rw [cube4_word]
    refine ⟨congrArg Cube4.corners e, congrArg Cube4.wings e, fun i => ?_⟩
    have := congrFun (congrArg Cube4.centers e) (s.symm i)
    simp only [Equiv.apply_symm_apply] at this
    show CenterCorner.mainFace (evalWord (alg.map liftMove) .cc1 (c.centers i)) = _
    rw [this]
    have := swapIf_face (Perm.sign τ * Perm.sign σ) (fun i => (CenterCorner.SOLVED i).mainFace) (a := 0) (b := 2) (by decide)
      (s.symm i)
    have e2 : s (s.symm i) = i := Equiv.apply_symm_apply s i
    exact this.symm.trans (congrArg (fun i => (CenterCorner.SOLVED i).mainFace) e2)

/-- two centers of different faces exchanged: the state cannot be reached, but all faces can get one colour -/
example : ∃ alg : List (WideAxisMove 1), (∀ m ∈ alg, m.WF) ∧
    (movedAlg (⟨PieceSet.SOLVED Corner, PieceSet.SOLVED Wing, fun i => CenterCorner.SOLVED (Equiv.swap 0 8 i)⟩ : Cube4) alg).FacesUniform :=
  (C71_cube4_uniform _ (by unfold PieceSet.Valid Function.Injective; decide +kernel)
    (by unfold PieceSet.Valid Function.Injective; decide +kernel) (by unfold PieceSet.Valid Function.Injective; decide +kernel)).1.2
    (by decide +kernel)

theorem swapIf_coe {α : Type} [DecidableEq α] {p : α → Prop} (s : ℤˣ) (a b i : { x : α // p x }) :
    (swapIf s a b i).1 = swapIf s a.1 b.1 i.1 := by
  unfold swapIf
  split_ifs
  · rfl
  · rw [Equiv.swap_apply_def, Equiv.swap_apply_def]
    simp only [Subtype.ext_iff]
    split_ifs <;> rfl

theorem swapIf_ne {α : Type} [DecidableEq α] (s : ℤˣ) {a b i : α} (ha : i ≠ a) (hb : i ≠ b) : swapIf s a b i = i := by
  unfold swapIf
  split_ifs
  · rfl
  · exact Equiv.swap_apply_of_ne_of_ne ha hb

/-- **C71** The same for the 6x6, if no center wing is in the place of its mirror image. -/
theorem C71_cube6_uniform (c : Cube6) (hc : c.corners.Valid) (hw1 : c.wings1.Valid) (hw2 : c.wings2.Valid)
    (hz1 : c.centerCorners1.Valid) (hz2 : c.centerCorners2.Valid) (hz3 : c.centerWings.Valid)
    (hand : ∀ i, (c.centerWings i).rightHanded = (CenterWing.SOLVED i).rightHanded) :
    ((∃ alg : List (WideAxisMove 2), (∀ m ∈ alg, m.WF) ∧ (movedAlg c alg).FacesUniform) ↔
      3 ∣ ∑ i, (c.corners i).orientationIndex) ∧
    ∀ alg : List (WideAxisMove 2), (movedAlg c alg).FacesUniform → Cube.isSolved (movedAlg c alg) = true := by
  refine ⟨⟨?_, fun h => ?_⟩, fun alg h => (C19_partial.2.2.1 _).1 h⟩
  · rintro ⟨alg, -, h⟩
    have hs : (⟨c.corners⟩ : Cube2).Solvable := ⟨_, (C66_core.2.2.1 c alg).symm.trans (congrArg Cube2.mk h.corners)⟩
    exact ((C17_reachable_iff _).2.1.1 hs).twists
  · obtain ⟨τ, hτ⟩ := hc.arranged
    obtain ⟨ω₁, hω₁⟩ := hw1.arranged
    obtain ⟨ω₂, hω₂⟩ := hw2.arranged
    obtain ⟨σ₁, hσ₁⟩ := hz1.arranged
    obtain ⟨σ₂, hσ₂⟩ := hz2.arranged
    obtain ⟨χ, hχ⟩ := hz3.arranged
    have hχ' : ∀ i, c.centerWings i = CenterWing.SOLVED (χ i) := hχ
    have pr : ∀ (b : Bool) (i : Fin 48), (CenterWing.SOLVED (χ i)).rightHanded = b ↔ (CenterWing.SOLVED i).rightHanded = b := by
      intro b i
      rw [← hχ', hand]
    let ρ := χ.subtypePerm (p := fun i => (CenterWing.SOLVED i).rightHanded = true) (pr true)
    let l := χ.subtypePerm (p := fun i => (CenterWing.SOLVED i).rightHanded = false) (pr false)
    let t := Perm.sign τ * Perm.sign ω₁ * Perm.sign ω₂
    let s₁ : Perm (Fin 24) := swapIf (Perm.sign τ * Perm.sign σ₁) 0 2
    let s₂ : Perm (Fin 24) := swapIf (Perm.sign τ * Perm.sign σ₂) 0 2
    let sR : Perm { i : Fin 48 // (CenterWing.SOLVED i).rightHanded = true } :=
      swapIf (t * Perm.sign ρ) ⟨24, by decide⟩ ⟨36, by decide⟩
    let sL : Perm { i : Fin 48 // (CenterWing.SOLVED i).rightHanded = false } :=
      swapIf (t * Perm.sign l) ⟨0, by decide⟩ ⟨12, by decide⟩
    let s₃ : Perm (Fin 48) := swapIf (t * Perm.sign ρ) 24 36 * swapIf (t * Perm.sign l) 0 12
    have r3 : ∀ i : { i : Fin 48 // (CenterWing.SOLVED i).rightHanded = true }, s₃ i.1 = (sR i).1 := by
      intro i
      have : ∀ i : Fin 48, (CenterWing.SOLVED i).rightHanded = true → i ≠ 0 ∧ i ≠ 12 := by decide +kernel
      rw [swapIf_coe, Perm.mul_apply, swapIf_ne _ (this i.1 i.2).1 (this i.1 i.2).2]
    have l3 : ∀ i : { i : Fin 48 // (CenterWing.SOLVED i).rightHanded = false }, s₃ i.1 = (sL i).1 := by
      intro i
      have : ∀ i : Fin 48, (CenterWing.SOLVED i).rightHanded = false → i ≠ 24 ∧ i ≠ 36 := by decide +kernel
      have e : s₃ i.1 = swapIf (t * Perm.sign ρ) 24 36 (sL i).1 := by rw [swapIf_coe, Perm.mul_apply]
      rw [e, swapIf_ne _ (this _ (sL i).2).1 (this _ (sL i).2).2]
    have fix : ∀ a b : ℤˣ, b * (a * b) = a := by decide
    have hl : (⟨c.corners, c.wings1, c.wings2, fun i => c.centerCorners1 (s₁ i), fun i => c.centerCorners2 (s₂ i),
        fun i => c.centerWings (s₃ i)⟩ : Cube6).Lawful := by
      refine ⟨h, τ, hτ, ω₁, ω₂, σ₁ * s₁, σ₂ * s₂, ρ * sR, l * sL, hω₁, hω₂, fun i => hσ₁ (s₁ i), fun i => hσ₂ (s₂ i), ?_, ?_,
        ?_, ?_, ?_, ?_⟩
      · intro i
        show c.centerWings (s₃ i.1) = _
        rw [r3, hχ']
        rfl
      · intro i
        show c.centerWings (s₃ i.1) = _
        rw [l3, hχ']
        rfl
      · rw [Perm.sign_mul, sign_swapIf _ (by decide), fix]
      · rw [Perm.sign_mul, sign_swapIf _ (by decide), fix]
      · rw [Perm.sign_mul, sign_swapIf _ (by decide), fix]
      · rw [Perm.sign_mul, sign_swapIf _ (by decide), fix]
    obtain ⟨alg, ha, e⟩ := (C71_cube6 _).2.2 hl
    rw [cube6_word] at e
    refine ⟨alg, ha, ?_⟩
    rw [cube6_word]
    have cc : ∀ (u : ℤˣ) (i : Fin 24), (CenterCorner.SOLVED ((swapIf u 0 2).symm i)).mainFace = (CenterCorner.SOLVED i).mainFace := by
      intro u i
      have := swapIf_face u (fun i => (CenterCorner.SOLVED i).mainFace) (a := 0) (b := 2) (by decide) ((swapIf u 0 2).symm i)
      rw [Equiv.apply_symm_apply] at this
      exact this.symm
    refine ⟨congrArg Cube6.corners e, congrArg Cube6.wings1 e, congrArg Cube6.wings2 e, fun i => ?_, fun i => ?_, fun i => ?_⟩
    · have := congrFun (congrArg Cube6.centerCorners1 e) (s₁.symm i)
      simp only [Equiv.apply_symm_apply] at this
      show CenterCorner.mainFace (evalWord alg .cc1 (c.centerCorners1 i)) = _
      rw [this]
      exact cc _ i
    · have := congrFun (congrArg Cube6.centerCorners2 e) (s₂.symm i)
      simp only [Equiv.apply_symm_apply] at this
      show CenterCorner.mainFace (evalWord alg .cc2 (c.centerCorners2 i)) = _
      rw [this]
      exact cc _ i
    · have := congrFun (congrArg Cube6.centerWings e) (s₃.symm i)
      simp only [Equiv.apply_symm_apply] at this
      show CenterWing.mainFace (cwRun alg (c.centerWings i)) = _
      rw [this]
      have f1 : ∀ j, (CenterWing.SOLVED (s₃ j)).mainFace = (CenterWing.SOLVED j).mainFace := by
        intro j
        rw [Perm.mul_apply]
        have := swapIf_face (t * Perm.sign ρ) (fun i => (CenterWing.SOLVED i).mainFace) (a := 24) (b := 36) (by decide)
        rw [this]
        exact swapIf_face (t * Perm.sign l) (fun i => (CenterWing.SOLVED i).mainFace) (a := 0) (b := 12) (by decide) j
      have := f1 (s₃.symm i)
      rw [Equiv.apply_symm_apply] at this
      exact this.symm

/-- two wings exchanged -/
example : ∃ alg : List (WideAxisMove 2), (∀ m ∈ alg, m.WF) ∧
    (movedAlg ({ (Cube.SOLVED : Cube6) with wings1 := fun i => Wing.SOLVED (Equiv.swap 0 8 i) }) alg).FacesUniform :=
  (C71_cube6_uniform _ (by unfold PieceSet.Valid Function.Injective; decide +kernel)
    (by unfold PieceSet.Valid Function.Injective; decide +kernel) (by unfold PieceSet.Valid Function.Injective; decide +kernel)
    (by unfold PieceSet.Valid Function.Injective; decide +kernel) (by unfold PieceSet.Valid Function.Injective; decide +kernel)
    (by unfold PieceSet.Valid Function.Injective; decide +kernel) (by decide +kernel)).1.2 (by decide +kernel)

/-! ### Counting -/

theorem card_even24 : Nat.card (alternatingGroup (Fin 24)) = Nat.factorial 24 / 2 := by
  rw [nat_card_alternatingGroup, Nat.card_eq_fintype_card, Fintype.card_fin]

/-- a permutation of parity `u` from an even one -/
def ofEven {α : Type} [DecidableEq α] [Fintype α] (u : ℤˣ) (a b : α) (σ : alternatingGroup α) : Perm α := swapIf u a b * σ.1

theorem ofEven_sign {α : Type} [DecidableEq α] [Fintype α] (u : ℤˣ) {a b : α} (h : a ≠ b) (σ : alternatingGroup α) :
    Perm.sign (ofEven u a b σ) = u := by
  rw [ofEven, Perm.sign_mul, sign_swapIf _ h, Perm.mem_alternatingGroup.1 σ.2, mul_one]

theorem ofEven_inj {α : Type} [DecidableEq α] [Fintype α] (u : ℤˣ) (a b : α) {σ σ' : alternatingGroup α}
    (h : ofEven u a b σ = ofEven u a b σ') : σ = σ' := Subtype.ext (mul_left_cancel h)

theorem ofEven_surj {α : Type} [DecidableEq α] [Fintype α] {u : ℤˣ} {a b : α} (h : a ≠ b) {σ : Perm α} (hs : Perm.sign σ = u) :
    ∃ σ', ofEven u a b σ' = σ :=
  ⟨⟨(swapIf u a b)⁻¹ * σ, by
    rw [Perm.mem_alternatingGroup, Perm.sign_mul, Perm.sign_inv, sign_swapIf _ h, hs, unit_sq]⟩, mul_inv_cancel_left _ _⟩

/-- the parity of the corners of a state of the 2x2 -/
noncomputable def cornerSign (c : { c : Cube2 // c.Reachable }) : ℤˣ :=
  Perm.sign ((C17_reachable_iff c.1).1.1 c.2).arranged.choose

theorem cornerSign_eq (c : { c : Cube2 // c.Reachable }) {τ : Perm (Fin 8)} (h : c.1.corners.Arranged τ) :
    cornerSign c = Perm.sign τ := by
  have := ((C17_reachable_iff c.1).1.1 c.2).arranged.choose_spec
  unfold cornerSign
  rw [h.unique this]

/-- **C71** The number of states of the 4x4 (with all centers told apart and the cube as a whole in any of its 24 positions). -/
theorem C71_cube4_number :
    Nat.card { c : Cube4 // c.Reachable } = 88179840 * (Nat.factorial 24 * (Nat.factorial 24 / 2)) := by
  let F : { c : Cube2 // c.Reachable } × Perm (Fin 24) × alternatingGroup (Fin 24) → { c : Cube4 // c.Reachable } :=
    fun x => ⟨⟨x.1.1.corners, fun i => Wing.SOLVED (x.2.1 i),
      fun i => CenterCorner.SOLVED (ofEven (cornerSign x.1) 0 1 x.2.2 i)⟩, (C71_cube4 _).1.2 (by
        have hl := (C17_reachable_iff x.1.1).1.1 x.1.2
        obtain ⟨τ, hτ⟩ := hl.arranged
        exact ⟨hl.twists, ⟨x.2.1, fun i => rfl⟩, τ, ofEven (cornerSign x.1) 0 1 x.2.2, hτ, fun i => rfl,
          (ofEven_sign _ (by decide) _).trans (cornerSign_eq x.1 hτ)⟩)⟩
  have hF : Function.Bijective F := by
    constructor
    · rintro ⟨c, ω, σ⟩ ⟨c', ω', σ'⟩ h
      have h' := congrArg Subtype.val h
      have h1 : c = c' := Subtype.ext (Cube2.ext (congrArg Cube4.corners h'))
      subst h1
      have h2 : ω = ω' := Equiv.ext fun i => wingEquiv.injective (congrFun (congrArg Cube4.wings h') i)
      have h3 : σ = σ' := ofEven_inj (cornerSign c) 0 1
        (Equiv.ext fun i => ccEquiv.injective (congrFun (congrArg Cube4.centers h') i))
      rw [h2, h3]
    · rintro ⟨c, hc⟩
      obtain ⟨h1, ⟨ω, hω⟩, τ, σ, hτ, hσ, hs⟩ := (C71_cube4 c).1.1 hc
      have h2 : (⟨c.corners⟩ : Cube2).Reachable := (C17_reachable_iff _).1.2 ⟨⟨τ, hτ⟩, h1⟩
      have hu := cornerSign_eq ⟨⟨c.corners⟩, h2⟩ hτ
      obtain ⟨σ', e⟩ := ofEven_surj (a := 0) (b := 1) (by decide) (hs.trans hu.symm)
      exact ⟨⟨⟨⟨c.corners⟩, h2⟩, ω, σ'⟩, Subtype.ext (Cube4.ext rfl (funext fun i => (hω i).symm)
        (funext fun i => (congrArg (fun s : Perm (Fin 24) => CenterCorner.SOLVED (s i)) e).trans (hσ i).symm))⟩
  rw [← Nat.card_congr (Equiv.ofBijective F hF), Nat.card_prod, Nat.card_prod, C68_number_of_states.1, Nat.card_perm,
    card_even24, Nat.card_eq_fintype_card, Fintype.card_fin]

theorem card_evenCW (b : Bool) :
    Nat.card (alternatingGroup { i : Fin 48 // (CenterWing.SOLVED i).rightHanded = b }) = Nat.factorial 24 / 2 := by
  have hc : Fintype.card { i : Fin 48 // (CenterWing.SOLVED i).rightHanded = b } = 24 := by revert b; decide +kernel
  have : Nontrivial { i : Fin 48 // (CenterWing.SOLVED i).rightHanded = b } := by
    rw [← Fintype.one_lt_card_iff_nontrivial, hc]; decide
  rw [nat_card_alternatingGroup, Nat.card_eq_fintype_card, hc]

/-- the possible centers and wings of a 6x6 or 7x7 whose corners are permuted with a given parity -/
abbrev Inner := Perm (Fin 24) × Perm (Fin 24) × alternatingGroup (Fin 24) × alternatingGroup (Fin 24) ×
  alternatingGroup { i : Fin 48 // (CenterWing.SOLVED i).rightHanded = true } ×
  alternatingGroup { i : Fin 48 // (CenterWing.SOLVED i).rightHanded = false }

namespace Inner

/-- the parity of the center wings -/
noncomputable def cwSign (u : ℤˣ) (x : Inner) : ℤˣ := u * Perm.sign x.1 * Perm.sign x.2.1

/-- the right-handed center wings -/
noncomputable def right (u : ℤˣ) (x : Inner) : Perm { i : Fin 48 // (CenterWing.SOLVED i).rightHanded = true } :=
  ofEven (cwSign u x) ⟨24, by decide⟩ ⟨36, by decide⟩ x.2.2.2.2.1

/-- the left-handed center wings -/
noncomputable def left (u : ℤˣ) (x : Inner) : Perm { i : Fin 48 // (CenterWing.SOLVED i).rightHanded = false } :=
  ofEven (cwSign u x) ⟨0, by decide⟩ ⟨12, by decide⟩ x.2.2.2.2.2

/-- all center wings -/
noncomputable def cw (u : ℤˣ) (x : Inner) : PieceSet CenterWing 48 := fun i =>
  if h : (CenterWing.SOLVED i).rightHanded = true then CenterWing.SOLVED (right u x ⟨i, h⟩).1
  else CenterWing.SOLVED (left u x ⟨i, by simpa using h⟩).1

theorem cw_right (u : ℤˣ) (x : Inner) : CenterWingsArranged (cw u x) true (right u x) := fun i => dif_pos i.2

theorem cw_left (u : ℤˣ) (x : Inner) : CenterWingsArranged (cw u x) false (left u x) := fun i =>
  dif_neg (by rw [i.2]; decide)

theorem arranged_unique {s : PieceSet CenterWing 48} {b : Bool} {ρ ρ' : Perm { i : Fin 48 // (CenterWing.SOLVED i).rightHanded = b }}
    (h : CenterWingsArranged s b ρ) (h' : CenterWingsArranged s b ρ') : ρ = ρ' :=
  Equiv.ext fun i => Subtype.ext ((LawfulDescriptor.ref_bij (P := CenterWing) (n := 48)).1 ((h i).symm.trans (h' i)))

theorem arranged_ext {s s' : PieceSet CenterWing 48} {ρ l} (h1 : CenterWingsArranged s true ρ) (h2 : CenterWingsArranged s false l)
    (h1' : CenterWingsArranged s' true ρ) (h2' : CenterWingsArranged s' false l) : s = s' := by
  funext i
  cases h : (CenterWing.SOLVED i).rightHanded
  · exact (h2 ⟨i, h⟩).trans (h2' ⟨i, h⟩).symm
  · exact (h1 ⟨i, h⟩).trans (h1' ⟨i, h⟩).symm

theorem lawful (τ : Perm (Fin 8)) (x : Inner) : CentersLawful τ (fun i => Wing.SOLVED (x.1 i)) (fun i => Wing.SOLVED (x.2.1 i))
    (fun i => CenterCorner.SOLVED (ofEven (Perm.sign τ) 0 1 x.2.2.1 i))
    (fun i => CenterCorner.SOLVED (ofEven (Perm.sign τ) 0 1 x.2.2.2.1 i)) (cw (Perm.sign τ) x) :=
  ⟨_, _, _, _, _, _, fun _ => rfl, fun _ => rfl, fun _ => rfl, fun _ => rfl, cw_right _ x, cw_left _ x,
    ofEven_sign _ (by decide) _, ofEven_sign _ (by decide) _, ofEven_sign _ (by decide) _, ofEven_sign _ (by decide) _⟩

theorem ext {u : ℤˣ} {x y : Inner} (h1 : (fun i => Wing.SOLVED (x.1 i)) = fun i => Wing.SOLVED (y.1 i))
    (h2 : (fun i => Wing.SOLVED (x.2.1 i)) = fun i => Wing.SOLVED (y.2.1 i))
    (h3 : (fun i => CenterCorner.SOLVED (ofEven u 0 1 x.2.2.1 i)) = fun i => CenterCorner.SOLVED (ofEven u 0 1 y.2.2.1 i))
    (h4 : (fun i => CenterCorner.SOLVED (ofEven u 0 1 x.2.2.2.1 i)) = fun i => CenterCorner.SOLVED (ofEven u 0 1 y.2.2.2.1 i))
    (h5 : cw u x = cw u y) : x = y := by
  obtain ⟨a, b, c, d, e, f⟩ := x
  obtain ⟨a', b', c', d', e', f'⟩ := y
  have e1 : a = a' := Equiv.ext fun i => wingEquiv.injective (congrFun h1 i)
  have e2 : b = b' := Equiv.ext fun i => wingEquiv.injective (congrFun h2 i)
  have e3 : c = c' := ofEven_inj u 0 1 (Equiv.ext fun i => ccEquiv.injective (congrFun h3 i))
  have e4 : d = d' := ofEven_inj u 0 1 (Equiv.ext fun i => ccEquiv.injective (congrFun h4 i))
  subst e1 e2 e3 e4
  have r := arranged_unique (cw_right u _) (h5 ▸ cw_right u (a, b, c, d, e', f'))
  have l := arranged_unique (cw_left u _) (h5 ▸ cw_left u (a, b, c, d, e', f'))
  have e5 : e = e' := ofEven_inj _ _ _ r
  have e6 : f = f' := ofEven_inj _ _ _ l
  rw [e5, e6]

theorem surj {τ : Perm (Fin 8)} {w1 w2 : PieceSet Wing 24} {c1 c2 : PieceSet CenterCorner 24} {s : PieceSet CenterWing 48}
    (h : CentersLawful τ w1 w2 c1 c2 s) : ∃ x : Inner, (fun i => Wing.SOLVED (x.1 i)) = w1 ∧ (fun i => Wing.SOLVED (x.2.1 i)) = w2 ∧
      (fun i => CenterCorner.SOLVED (ofEven (Perm.sign τ) 0 1 x.2.2.1 i)) = c1 ∧
      (fun i => CenterCorner.SOLVED (ofEven (Perm.sign τ) 0 1 x.2.2.2.1 i)) = c2 ∧ cw (Perm.sign τ) x = s := by
  obtain ⟨ω₁, ω₂, σ₁, σ₂, ρ, l, h1, h2, h3, h4, h5, h6, s1, s2, s3, s4⟩ := h
  have n1 : (⟨24, by decide⟩ : { i : Fin 48 // (CenterWing.SOLVED i).rightHanded = true }) ≠ ⟨36, by decide⟩ := by decide
  have n2 : (⟨0, by decide⟩ : { i : Fin 48 // (CenterWing.SOLVED i).rightHanded = false }) ≠ ⟨12, by decide⟩ := by decide
  obtain ⟨c, e1⟩ := ofEven_surj (a := (0 : Fin 24)) (b := 1) (by decide) s1
  obtain ⟨d, e2⟩ := ofEven_surj (a := (0 : Fin 24)) (b := 1) (by decide) s2
  obtain ⟨e, e3⟩ := ofEven_surj (a := ⟨24, by decide⟩) (b := ⟨36, by decide⟩) n1 s3
  obtain ⟨f, e4⟩ := ofEven_surj (a := ⟨0, by decide⟩) (b := ⟨12, by decide⟩) n2 s4
  refine ⟨(ω₁, ω₂, c, d, e, f), funext fun i => (h1 i).symm, funext fun i => (h2 i).symm,
    funext fun i => (congrArg (fun s : Perm (Fin 24) => CenterCorner.SOLVED (s i)) e1).trans (h3 i).symm,
    funext fun i => (congrArg (fun s : Perm (Fin 24) => CenterCorner.SOLVED (s i)) e2).trans (h4 i).symm, ?_⟩
  refine arranged_ext (cw_right _ _) (cw_left _ _) (ρ := right (Perm.sign τ) (ω₁, ω₂, c, d, e, f))
    (l := left (Perm.sign τ) (ω₁, ω₂, c, d, e, f)) ?_ ?_
  · exact (show right (Perm.sign τ) (ω₁, ω₂, c, d, e, f) = ρ from e3) ▸ h5
  · exact (show left (Perm.sign τ) (ω₁, ω₂, c, d, e, f) = l from e4) ▸ h6

theorem card : Nat.card Inner = Nat.factorial 24 ^ 2 * (Nat.factorial 24 / 2) ^ 4 := by
  have h : Nat.card (Perm (Fin 24)) = Nat.factorial 24 := by rw [Nat.card_perm, Nat.card_eq_fintype_card, Fintype.card_fin]
  rw [Inner, Nat.card_prod, Nat.card_prod, Nat.card_prod, Nat.card_prod, Nat.card_prod, h, card_even24, card_evenCW, card_evenCW]
  generalize Nat.factorial 24 = n
  ring

end Inner

/-- **C71** The number of states of the 6x6. -/
theorem C71_cube6_number :
    Nat.card { c : Cube6 // c.Reachable } = 88179840 * (Nat.factorial 24 ^ 2 * (Nat.factorial 24 / 2) ^ 4) := by
  let F : { c : Cube2 // c.Reachable } × Inner → { c : Cube6 // c.Reachable } :=
    fun x => ⟨⟨x.1.1.corners, fun i => Wing.SOLVED (x.2.1 i), fun i => Wing.SOLVED (x.2.2.1 i),
      fun i => CenterCorner.SOLVED (ofEven (cornerSign x.1) 0 1 x.2.2.2.1 i),
      fun i => CenterCorner.SOLVED (ofEven (cornerSign x.1) 0 1 x.2.2.2.2.1 i), Inner.cw (cornerSign x.1) x.2⟩,
      (C71_cube6 _).1.2 (by
        have hl := (C17_reachable_iff x.1.1).1.1 x.1.2
        obtain ⟨τ, hτ⟩ := hl.arranged
        refine ⟨hl.twists, τ, hτ, ?_⟩
        rw [cornerSign_eq x.1 hτ]
        exact Inner.lawful τ x.2)⟩
  have hF : Function.Bijective F := by
    constructor
    · rintro ⟨c, x⟩ ⟨c', y⟩ h
      have h' := congrArg Subtype.val h
      have h1 : c = c' := Subtype.ext (Cube2.ext (congrArg Cube6.corners h'))
      subst h1
      have hx : x = y := Inner.ext (u := cornerSign c) (congrArg Cube6.wings1 h') (congrArg Cube6.wings2 h') (congrArg Cube6.centerCorners1 h')
        (congrArg Cube6.centerCorners2 h') (congrArg Cube6.centerWings h')
      rw [hx]
    · rintro ⟨c, hc⟩
      obtain ⟨h1, τ, hτ, hs⟩ := (C71_cube6 c).1.1 hc
      have h2 : (⟨c.corners⟩ : Cube2).Reachable := (C17_reachable_iff _).1.2 ⟨⟨τ, hτ⟩, h1⟩
      obtain ⟨x, x1, x2, x3, x4, x5⟩ := Inner.surj hs
      rw [← cornerSign_eq ⟨⟨c.corners⟩, h2⟩ hτ] at x3 x4 x5
      exact ⟨⟨⟨⟨c.corners⟩, h2⟩, x⟩, Subtype.ext (Cube6.ext rfl x1 x2 x3 x4 x5)⟩
  rw [← Nat.card_congr (Equiv.ofBijective F hF), Nat.card_prod, C68_number_of_states.1, Inner.card]

/-! ### Examples -/

example : (movedAlg (Cube.SOLVED : Cube4) [(⟨1, ⟨Face.R, .single⟩⟩ : WideAxisMove 1)]).Lawful :=
  (C71_cube4 _).1.1 ⟨_, by decide, rfl⟩

/-- two wings exchanged and nothing else: can be reached (the "edge parity" of the 4x4) -/
example : (⟨PieceSet.SOLVED Corner, fun i => Wing.SOLVED (Equiv.swap 0 1 i), PieceSet.SOLVED CenterCorner⟩ : Cube4).Reachable :=
  (C71_cube4 _).1.2 ⟨by decide +kernel, ⟨Equiv.swap 0 1, fun _ => rfl⟩, 1, 1, fun _ => rfl, fun _ => rfl, rfl⟩

/-- two centers exchanged and nothing else: cannot be reached -/
example : ¬ (⟨PieceSet.SOLVED Corner, PieceSet.SOLVED Wing, fun i => CenterCorner.SOLVED (Equiv.swap 0 1 i)⟩ : Cube4).Reachable := by
  rw [(C71_cube4 _).1]
  rintro ⟨-, -, τ, σ, h1, h2, h3⟩
  have e1 : τ = 1 := h1.unique (fun _ => rfl)
  have e2 : σ = Equiv.swap 0 1 := h2.unique (fun _ => rfl)
  rw [e1, e2, Perm.sign_swap (by decide)] at h3
  exact absurd h3 (by decide)

/-- one corner twisted: uniform faces cannot be reached -/
example : ¬ ∃ alg : List (WideAxisMove 1), (∀ m ∈ alg, m.WF) ∧
    (movedAlg (⟨Function.update (PieceSet.SOLVED Corner) 0 (PieceSet.SOLVED Corner 0).twist, PieceSet.SOLVED Wing,
      PieceSet.SOLVED CenterCorner⟩ : Cube4) alg).FacesUniform := by
  rw [(C71_cube4_uniform _ (PieceSet.Valid.of_pos PieceSet.solved_valid (by decide +kernel)) PieceSet.solved_valid PieceSet.solved_valid).1]
  decide +kernel

/-! ## C72: odd cubes -/

theorem markedFaces_moved (e : Edge) (m : AxisMove) (c : CenterEdge) (M d nd : Nat) (h : nd ≤ M) :
    ((c.mainFace, c.sideFace) = e.markedFaces → ((DepthPiece.moved nd 0 c (⟨d, m⟩ : WideAxisMove M) : CenterEdge).mainFace,
      (DepthPiece.moved nd 0 c (⟨d, m⟩ : WideAxisMove M) : CenterEdge).sideFace) = (moved e m).markedFaces) ∧
    ((c.mainFace, c.sideFace) = e.markedFaces.swap → ((DepthPiece.moved nd 0 c (⟨d, m⟩ : WideAxisMove M) : CenterEdge).mainFace,
      (DepthPiece.moved nd 0 c (⟨d, m⟩ : WideAxisMove M) : CenterEdge).sideFace) = (moved e m).markedFaces.swap) := by
  have key : ∀ (c : CenterEdge), (DepthPiece.moved nd 0 c (⟨d, m⟩ : WideAxisMove M) : CenterEdge) =
      DepthPiece.moved 0 0 c (⟨0, m⟩ : WideAxisMove 0) := by
    intro c
    unfold DepthPiece.moved
    simp only [DepthPiece.isInWideMove, WideAxisMove.face, h, and_true, Nat.le_refl]
  rw [key]
  have : ∀ (e : Edge) (m : AxisMove) (c : CenterEdge),
    ((c.mainFace, c.sideFace) = e.markedFaces → ((DepthPiece.moved 0 0 c (⟨0, m⟩ : WideAxisMove 0) : CenterEdge).mainFace,
      (DepthPiece.moved 0 0 c (⟨0, m⟩ : WideAxisMove 0) : CenterEdge).sideFace) = (moved e m).markedFaces) ∧
    ((c.mainFace, c.sideFace) = e.markedFaces.swap → ((DepthPiece.moved 0 0 c (⟨0, m⟩ : WideAxisMove 0) : CenterEdge).mainFace,
      (DepthPiece.moved 0 0 c (⟨0, m⟩ : WideAxisMove 0) : CenterEdge).sideFace) = (moved e m).markedFaces.swap) := by
    decide +kernel
  exact this e m c

theorem centerEdges_moved {s : PieceSet CenterEdge 24} {e : PieceSet Edge 12} (h : CenterEdgesFollow s e) (m : AxisMove) (M d nd : Nat)
    (hn : nd ≤ M) : CenterEdgesFollow (DepthPieceSet.moved nd 0 s (⟨d, m⟩ : WideAxisMove M)) (e.moved m) := fun i j =>
  ⟨fun hi => (markedFaces_moved (e j) m (s i) M d nd hn).1 ((h i j).1 hi),
    fun hi => (markedFaces_moved (e j) m (s i) M d nd hn).2 ((h i j).2 hi)⟩

theorem follow_solved : CenterEdgesFollow (PieceSet.SOLVED CenterEdge) (PieceSet.SOLVED Edge) := fun _ _ => ⟨id, id⟩

theorem follow_unique {s t : PieceSet CenterEdge 24} {e : PieceSet Edge 12} (h : CenterEdgesFollow s e) (h' : CenterEdgesFollow t e) :
    s = t := by
  have ex : ∀ i, ∃ j, ((CenterEdge.SOLVED i).mainFace, (CenterEdge.SOLVED i).sideFace) = (PieceSet.SOLVED Edge j).markedFaces ∨
      ((CenterEdge.SOLVED i).mainFace, (CenterEdge.SOLVED i).sideFace) = (PieceSet.SOLVED Edge j).markedFaces.swap := by
    decide +kernel
  have inj : ∀ c c' : CenterEdge, (c.mainFace, c.sideFace) = (c'.mainFace, c'.sideFace) → c = c' := by decide +kernel
  funext i
  obtain ⟨j, hj | hj⟩ := ex i
  · exact inj _ _ (((h i j).1 hj).trans ((h' i j).1 hj).symm)
  · exact inj _ _ (((h i j).2 hj).trans ((h' i j).2 hj).symm)

theorem follow5 (c : Cube5) (h : CenterEdgesFollow c.cornerEdges c.edges) (alg : List (WideAxisMove 1)) :
    CenterEdgesFollow (movedAlg c alg).cornerEdges (movedAlg c alg).edges := by
  induction alg generalizing c with
  | nil => exact h
  | cons m l ih => exact ih _ (centerEdges_moved h m.axisMove 1 m.depth 1 (by decide))

theorem follow7 (c : Cube7) (h : CenterEdgesFollow c.centerEdges1 c.edges) (h' : CenterEdgesFollow c.centerEdges2 c.edges)
    (alg : List (WideAxisMove 2)) : CenterEdgesFollow (movedAlg c alg).centerEdges1 (movedAlg c alg).edges ∧
      CenterEdgesFollow (movedAlg c alg).centerEdges2 (movedAlg c alg).edges := by
  induction alg generalizing c with
  | nil => exact ⟨h, h'⟩
  | cons m l ih =>
    exact ih _ (centerEdges_moved h m.axisMove 2 m.depth 1 (by decide)) (centerEdges_moved h' m.axisMove 2 m.depth 2 (by decide))

/-- **C72** is false: on the 5x5 and the 7x7 of this crate no legal moves separate the center edges from the edges beside them.
Whenever the edges are home, all center edges are. (On a real 5x5 they can be permuted in any even way while everything else stays.) -/
theorem C72_center_edges_stuck :
    (∀ alg : List (WideAxisMove 1), CenterEdgesFollow (movedAlg (Cube.SOLVED : Cube5) alg).cornerEdges
        (movedAlg (Cube.SOLVED : Cube5) alg).edges ∧
      ((movedAlg (Cube.SOLVED : Cube5) alg).edges = PieceSet.SOLVED Edge →
        (movedAlg (Cube.SOLVED : Cube5) alg).cornerEdges = PieceSet.SOLVED CenterEdge)) ∧
    ∀ alg : List (WideAxisMove 2), (CenterEdgesFollow (movedAlg (Cube.SOLVED : Cube7) alg).centerEdges1
        (movedAlg (Cube.SOLVED : Cube7) alg).edges ∧ CenterEdgesFollow (movedAlg (Cube.SOLVED : Cube7) alg).centerEdges2
        (movedAlg (Cube.SOLVED : Cube7) alg).edges) ∧
      ((movedAlg (Cube.SOLVED : Cube7) alg).edges = PieceSet.SOLVED Edge →
        (movedAlg (Cube.SOLVED : Cube7) alg).centerEdges1 = PieceSet.SOLVED CenterEdge ∧
        (movedAlg (Cube.SOLVED : Cube7) alg).centerEdges2 = PieceSet.SOLVED CenterEdge) := by
  refine ⟨fun alg => ?_, fun alg => ?_⟩
  · have f := follow5 Cube.SOLVED follow_solved alg
    exact ⟨f, fun h => follow_unique (h ▸ f) follow_solved⟩
  · have f := follow7 Cube.SOLVED follow_solved follow_solved alg
    exact ⟨f, fun h => ⟨follow_unique (h ▸ f.1) follow_solved, follow_unique (h ▸ f.2) follow_solved⟩⟩

/-- **C72**, what holds for the 5x5: exactly those states can be reached in which corners and edges are a solvable 3x3, the center
corners are permuted with the parity of the corners, and the center edges are beside the stickers they started beside. Missing: the
center edges should be independent of the edges (`C72_center_edges_stuck`). -/
theorem C72_cube5_partial (c : Cube5) :
    c.Reachable ↔ c.LawfulButCenterEdges ∧ CenterEdgesFollow c.cornerEdges c.edges := by
  constructor
  · rintro ⟨alg, hw, rfl⟩
    obtain ⟨w1, w2, w3⟩ := cube5_word Cube.SOLVED alg
    obtain ⟨τ, hτ, e⟩ := word_corners_solved (alg.map liftMove)
    have hd : ∀ m ∈ alg.map liftMove, m.depth ≤ 2 := fun m hm => (lift_depth hw m hm).trans (by decide)
    obtain ⟨-, -, σ, -, -, -, -, -, h2, -, -, -, h3, -⟩ := centers_of_word _ hd τ e
    refine ⟨⟨?_, τ, σ, ?_, ?_, h3⟩, follow5 Cube.SOLVED follow_solved alg⟩
    · exact (C66_odd _).1.1 ⟨alg, rfl⟩
    · rw [w1]; exact hτ
    · rw [w3]; exact h2
  · rintro ⟨⟨h1, ⟨τ, σ, hτ, hσ, hs⟩⟩, hf⟩
    obtain ⟨u, hu⟩ := (C15_reachable_iff ⟨c.edges, c.corners⟩).1.2 h1
    rw [← atDepth_axisMove 2 u, cube3_word] at hu
    obtain ⟨τ', hτ', e⟩ := word_corners_solved (atDepth 2 0 u)
    have hc : (fun i => evalWord (atDepth 2 0 u) .corner (PieceSet.SOLVED Corner i)) = c.corners := congrArg Cube3.corners hu
    have he : (fun i => evalWord (atDepth 2 0 u) .edge (PieceSet.SOLVED Edge i)) = c.edges := congrArg Cube3.edges hu
    rw [hc] at hτ'
    cases hτ.unique hτ'
    obtain ⟨W, hW, g1, g2, -, g4⟩ := word_of_centers1 (w1 := PieceSet.SOLVED Wing) (ω := 1) (atDepth 2 0 u)
      (fun m hm => (atDepth_depth 2 u m hm).trans (by decide)) τ e (fun _ => rfl) hσ hs
    obtain ⟨alg, ha, rfl⟩ := unlift hW
    obtain ⟨w1, w2, w3⟩ := cube5_word Cube.SOLVED alg
    have e1 : (movedAlg (Cube.SOLVED : Cube5) alg).edges = c.edges := by rw [w2, g2]; exact he
    refine ⟨alg, ha, Cube5.ext ?_ e1 ?_ ?_⟩
    · rw [w1, g1]; exact hc
    · rw [w3]; exact g4
    · have f := follow5 Cube.SOLVED follow_solved alg
      rw [e1] at f
      exact follow_unique f hf

/-- **C72**, what holds for the 7x7. Missing: as for the 5x5. -/
theorem C72_cube7_partial (c : Cube7) :
    c.Reachable ↔ c.LawfulButCenterEdges ∧ CenterEdgesFollow c.centerEdges1 c.edges ∧ CenterEdgesFollow c.centerEdges2 c.edges := by
  constructor
  · rintro ⟨alg, hw, rfl⟩
    obtain ⟨w1, w2, w3, w4, w5, w6, w7⟩ := cube7_word Cube.SOLVED alg
    obtain ⟨τ, hτ, e⟩ := word_corners_solved alg
    refine ⟨⟨?_, τ, ?_, ?_⟩, follow7 Cube.SOLVED follow_solved follow_solved alg⟩
    · exact (C66_odd _).2.1 ⟨alg, rfl⟩
    · rw [w1]; exact hτ
    · rw [w3, w4, w5, w6, w7]; exact centers_of_word alg hw τ e
  · rintro ⟨⟨h1, ⟨τ, hτ, hs⟩⟩, hf, hf'⟩
    obtain ⟨u, hu⟩ := (C15_reachable_iff ⟨c.edges, c.corners⟩).1.2 h1
    rw [← atDepth_axisMove 2 u, cube3_word] at hu
    obtain ⟨τ', hτ', e⟩ := word_corners_solved (atDepth 2 0 u)
    have hc : (fun i => evalWord (atDepth 2 0 u) .corner (PieceSet.SOLVED Corner i)) = c.corners := congrArg Cube3.corners hu
    have he : (fun i => evalWord (atDepth 2 0 u) .edge (PieceSet.SOLVED Edge i)) = c.edges := congrArg Cube3.edges hu
    rw [hc] at hτ'
    cases hτ.unique hτ'
    obtain ⟨W, hW, g1, g2, g3, g4, g5, g6, g7⟩ := word_of_centers (atDepth 2 0 u)
      (fun m hm => (atDepth_depth 2 u m hm).trans (by decide)) τ e hs
    obtain ⟨w1, w2, w3, w4, w5, w6, w7⟩ := cube7_word Cube.SOLVED W
    have e1 : (movedAlg (Cube.SOLVED : Cube7) W).edges = c.edges := by rw [w2, g2]; exact he
    have f := follow7 Cube.SOLVED follow_solved follow_solved W
    rw [e1] at f
    refine ⟨W, hW, Cube7.ext ?_ e1 ?_ ?_ ?_ ?_ ?_ (follow_unique f.1 hf) (follow_unique f.2 hf')⟩
    · rw [w1, g1]; exact hc
    · rw [w3]; exact g3
    · rw [w4]; exact g4
    · rw [w5]; exact g5
    · rw [w6]; exact g6
    · rw [w7]; exact g7

/-- after two layers of R have been turned -/
example : CenterEdgesFollow (movedAlg (Cube.SOLVED : Cube7) [(⟨1, ⟨Face.R, .single⟩⟩ : WideAxisMove 2)]).centerEdges1
    (movedAlg (Cube.SOLVED : Cube7) [(⟨1, ⟨Face.R, .single⟩⟩ : WideAxisMove 2)]).edges :=
  ((C72_cube7_partial _).1 ⟨_, by decide, rfl⟩).2.1

/-- the place of the center edge with this main and side face -/
def centerEdgeOf (p : Face × Face) : CenterEdge :=
  (List.ofFn CenterEdge.SOLVED).find? (fun c => (c.mainFace, c.sideFace) == p) |>.getD (CenterEdge.SOLVED 0)

theorem centerEdgeOf_faces : ∀ e : Edge, ((centerEdgeOf e.markedFaces).mainFace, (centerEdgeOf e.markedFaces).sideFace) = e.markedFaces ∧
    ((centerEdgeOf e.markedFaces.swap).mainFace, (centerEdgeOf e.markedFaces.swap).sideFace) = e.markedFaces.swap := by
  decide +kernel

theorem marked_inj : ∀ j k : Fin 12, ((PieceSet.SOLVED Edge j).markedFaces = (PieceSet.SOLVED Edge k).markedFaces → j = k) ∧
    (PieceSet.SOLVED Edge j).markedFaces ≠ (PieceSet.SOLVED Edge k).markedFaces.swap := by
  decide +kernel

theorem follow_exists (e : PieceSet Edge 12) : ∃ s, CenterEdgesFollow s e := by
  have ex : ∀ i, ∃ j, ((CenterEdge.SOLVED i).mainFace, (CenterEdge.SOLVED i).sideFace) = (PieceSet.SOLVED Edge j).markedFaces ∨
      ((CenterEdge.SOLVED i).mainFace, (CenterEdge.SOLVED i).sideFace) = (PieceSet.SOLVED Edge j).markedFaces.swap := by
    decide +kernel
  have pt : ∀ i, ∃ c : CenterEdge, ∀ j,
      (((CenterEdge.SOLVED i).mainFace, (CenterEdge.SOLVED i).sideFace) = (PieceSet.SOLVED Edge j).markedFaces →
        (c.mainFace, c.sideFace) = (e j).markedFaces) ∧
      (((CenterEdge.SOLVED i).mainFace, (CenterEdge.SOLVED i).sideFace) = (PieceSet.SOLVED Edge j).markedFaces.swap →
        (c.mainFace, c.sideFace) = (e j).markedFaces.swap) := by
    intro i
    obtain ⟨j, hj | hj⟩ := ex i
    · refine ⟨centerEdgeOf (e j).markedFaces, fun k => ⟨fun hk => ?_, fun hk => ?_⟩⟩
      · rw [(marked_inj j k).1 (hj.symm.trans hk)] ; exact (centerEdgeOf_faces _).1
      · exact absurd (hj.symm.trans hk) (marked_inj j k).2
    · refine ⟨centerEdgeOf (e j).markedFaces.swap, fun k => ⟨fun hk => ?_, fun hk => ?_⟩⟩
      · exact absurd (hk.symm.trans hj) (marked_inj k j).2
      · have hh := (marked_inj j k).1 (Prod.swap_injective (hj.symm.trans hk))
        rw [hh]; exact (centerEdgeOf_faces _).2
  choose f hf using pt
  exact ⟨f, hf⟩

/-- the center edges beside these edges -/
noncomputable def followers (e : PieceSet Edge 12) : PieceSet CenterEdge 24 := (follow_exists e).choose

theorem followers_follow (e : PieceSet Edge 12) : CenterEdgesFollow (followers e) e := (follow_exists e).choose_spec

theorem lawful3_arranged {c : Cube3} (h : c.Lawful) : ∃ τ, c.corners.Arranged τ := by
  obtain ⟨_, τ, _, h, _⟩ := h.parity
  exact ⟨τ, h⟩

/-- the parity of the corners of a state of the 3x3 -/
noncomputable def cornerSign3 (c : { c : Cube3 // c.Reachable }) : ℤˣ :=
  Perm.sign (lawful3_arranged ((C15_reachable_iff c.1).1.1 c.2)).choose

theorem cornerSign3_eq (c : { c : Cube3 // c.Reachable }) {τ : Perm (Fin 8)} (h : c.1.corners.Arranged τ) :
    cornerSign3 c = Perm.sign τ := by
  have := (lawful3_arranged ((C15_reachable_iff c.1).1.1 c.2)).choose_spec
  unfold cornerSign3
  rw [h.unique this]

/-- **C72**, the number of states the 5x5 of this crate can take: the states of the 3x3 times the even permutations of the center
corners. Missing: 24!/2 arrangements of the center edges and 24! of the wings. -/
theorem C72_cube5_number_partial :
    Nat.card { c : Cube5 // c.Reachable } = 43252003274489856000 * (Nat.factorial 24 / 2) := by
  let F : { c : Cube3 // c.Reachable } × alternatingGroup (Fin 24) → { c : Cube5 // c.Reachable } :=
    fun x => ⟨⟨x.1.1.corners, x.1.1.edges, fun i => CenterCorner.SOLVED (ofEven (cornerSign3 x.1) 0 1 x.2 i),
      followers x.1.1.edges⟩, (C72_cube5_partial _).2 (by
        have hl := (C15_reachable_iff x.1.1).1.1 x.1.2
        obtain ⟨τ, hτ⟩ := lawful3_arranged hl
        exact ⟨⟨hl, τ, ofEven (cornerSign3 x.1) 0 1 x.2, hτ, fun i => rfl,
          (ofEven_sign _ (by decide) _).trans (cornerSign3_eq x.1 hτ)⟩, followers_follow _⟩)⟩
  have hF : Function.Bijective F := by
    constructor
    · rintro ⟨c, σ⟩ ⟨c', σ'⟩ h
      have h' := congrArg Subtype.val h
      have h1 : c = c' := Subtype.ext (Cube3.ext (congrArg Cube5.edges h') (congrArg Cube5.corners h'))
      subst h1
      have h3 : σ = σ' := ofEven_inj (cornerSign3 c) 0 1
        (Equiv.ext fun i => ccEquiv.injective (congrFun (congrArg Cube5.cornerCenters h') i))
      rw [h3]
    · rintro ⟨c, hc⟩
      obtain ⟨⟨hl, τ, σ, hτ, hσ, hs⟩, hf⟩ := (C72_cube5_partial c).1 hc
      have h2 : (⟨c.edges, c.corners⟩ : Cube3).Reachable := (C15_reachable_iff _).1.2 hl
      have hu := cornerSign3_eq ⟨⟨c.edges, c.corners⟩, h2⟩ hτ
      obtain ⟨σ', e⟩ := ofEven_surj (a := 0) (b := 1) (by decide) (hs.trans hu.symm)
      exact ⟨⟨⟨⟨c.edges, c.corners⟩, h2⟩, σ'⟩, Subtype.ext (Cube5.ext rfl rfl
        (funext fun i => (congrArg (fun s : Perm (Fin 24) => CenterCorner.SOLVED (s i)) e).trans (hσ i).symm)
        (follow_unique (followers_follow _) hf))⟩
  rw [← Nat.card_congr (Equiv.ofBijective F hF), Nat.card_prod, C16_number_of_states, card_even24]

/-- **C72**, the number of states the 7x7 of this crate can take. Missing: 24!/2 arrangements of either kind of center edge. -/
theorem C72_cube7_number_partial :
    Nat.card { c : Cube7 // c.Reachable } = 43252003274489856000 * (Nat.factorial 24 ^ 2 * (Nat.factorial 24 / 2) ^ 4) := by
  let F : { c : Cube3 // c.Reachable } × Inner → { c : Cube7 // c.Reachable } :=
    fun x => ⟨⟨x.1.1.corners, x.1.1.edges, fun i => Wing.SOLVED (x.2.1 i), fun i => Wing.SOLVED (x.2.2.1 i),
      fun i => CenterCorner.SOLVED (ofEven (cornerSign3 x.1) 0 1 x.2.2.2.1 i),
      fun i => CenterCorner.SOLVED (ofEven (cornerSign3 x.1) 0 1 x.2.2.2.2.1 i), Inner.cw (cornerSign3 x.1) x.2,
      followers x.1.1.edges, followers x.1.1.edges⟩, (C72_cube7_partial _).2 (by
        have hl := (C15_reachable_iff x.1.1).1.1 x.1.2
        obtain ⟨τ, hτ⟩ := lawful3_arranged hl
        refine ⟨⟨hl, τ, hτ, ?_⟩, followers_follow _, followers_follow _⟩
        rw [cornerSign3_eq x.1 hτ]
        exact Inner.lawful τ x.2)⟩
  have hF : Function.Bijective F := by
    constructor
    · rintro ⟨c, x⟩ ⟨c', y⟩ h
      have h' := congrArg Subtype.val h
      have h1 : c = c' := Subtype.ext (Cube3.ext (congrArg Cube7.edges h') (congrArg Cube7.corners h'))
      subst h1
      have hx : x = y := Inner.ext (u := cornerSign3 c) (congrArg Cube7.wings1 h') (congrArg Cube7.wings2 h')
        (congrArg Cube7.centerCorners1 h') (congrArg Cube7.centerCorners2 h') (congrArg Cube7.centerWings h')
      rw [hx]
    · rintro ⟨c, hc⟩
      obtain ⟨⟨hl, τ, hτ, hs⟩, hf, hf'⟩ := (C72_cube7_partial c).1 hc
      have h2 : (⟨c.edges, c.corners⟩ : Cube3).Reachable := (C15_reachable_iff _).1.2 hl
      obtain ⟨x, x1, x2, x3, x4, x5⟩ := Inner.surj hs
      rw [← cornerSign3_eq ⟨⟨c.edges, c.corners⟩, h2⟩ hτ] at x3 x4 x5
      exact ⟨⟨⟨⟨c.edges, c.corners⟩, h2⟩, x⟩, Subtype.ext (Cube7.ext rfl rfl x1 x2 x3 x4 x5
        (follow_unique (followers_follow _) hf) (follow_unique (followers_follow _) hf'))⟩
  rw [← Nat.card_congr (Equiv.ofBijective F hF), Nat.card_prod, C16_number_of_states, Inner.card]

/-! ### Examples -/

/-- a 3-cycle of the center edges alone: every real 5x5 can do it, this one cannot -/
example : ¬ (⟨PieceSet.SOLVED Corner, PieceSet.SOLVED Edge, PieceSet.SOLVED CenterCorner,
    fun i => CenterEdge.SOLVED ((Equiv.swap 0 4 * Equiv.swap 4 8 : Perm (Fin 24)) i)⟩ : Cube5).Reachable := by
  rintro ⟨alg, -, h⟩
  have h1 := (C72_center_edges_stuck.1 alg).2 (by rw [h])
  rw [h] at h1
  exact absurd (congrFun h1 0) (by decide +kernel)

/-- three center corners of the 5x5 exchanged and nothing else -/
example : (⟨PieceSet.SOLVED Corner, PieceSet.SOLVED Edge,
    fun i => CenterCorner.SOLVED ((Equiv.swap 0 4 * Equiv.swap 4 8 : Perm (Fin 24)) i), PieceSet.SOLVED CenterEdge⟩ : Cube5).Reachable :=
  (C72_cube5_partial _).2 ⟨⟨(C15_reachable_iff _).1.1 ⟨[], rfl⟩, 1, Equiv.swap 0 4 * Equiv.swap 4 8, fun _ => rfl, fun _ => rfl,
    by decide +kernel⟩, follow_solved⟩

/-- after `1R1 0U2` the edges are elsewhere, and the center edges have gone with them -/
example : CenterEdgesFollow
    (movedAlg (Cube.SOLVED : Cube7) [(⟨1, ⟨Face.R, .single⟩⟩ : WideAxisMove 2), ⟨0, ⟨Face.U, .double⟩⟩]).centerEdges1
    (movedAlg (Cube.SOLVED : Cube7) [(⟨1, ⟨Face.R, .single⟩⟩ : WideAxisMove 2), ⟨0, ⟨Face.U, .double⟩⟩]).edges ∧
    (movedAlg (Cube.SOLVED : Cube7) [(⟨1, ⟨Face.R, .single⟩⟩ : WideAxisMove 2), ⟨0, ⟨Face.U, .double⟩⟩]).edges ≠
      PieceSet.SOLVED Edge :=
  ⟨(C72_center_edges_stuck.2 _).1.1, by decide +kernel⟩

end Barbarosa
