import Verif.Lemmas.Reach

/-!
# From permutations of orbits to states of the cubes
-/

namespace Barbarosa

open Equiv Orbit

/-! ## Parities of the moves -/

theorem sign_gen_cc : ∀ (k : Orbit), k = .cc1 ∨ k = .cc2 → ∀ (d : Fin 3) (f : Face) (x : Amount),
    Perm.sign (gen ⟨d, ⟨f, x⟩⟩ k) = Perm.sign (gen ⟨d, ⟨f, x⟩⟩ .corner) := by
  decide +kernel

theorem sign_gen_cw : ∀ (k : Orbit), k = .cwR ∨ k = .cwL → ∀ (d : Fin 3) (f : Face) (x : Amount),
    Perm.sign (gen ⟨d, ⟨f, x⟩⟩ k) = Perm.sign (gen ⟨d, ⟨f, x⟩⟩ .corner) * Perm.sign (gen ⟨d, ⟨f, x⟩⟩ .wing1) *
      Perm.sign (gen ⟨d, ⟨f, x⟩⟩ .wing2) := by
  decide +kernel

theorem sign_gen_corner : ∀ (f : Face) (x : Amount), Perm.sign (gen ⟨0, ⟨f, x⟩⟩ .corner) = (-1) ^ x.toNat := by
  decide +kernel

/-- the parities that the algs keep -/
theorem word_signs (w : List (WideAxisMove 2)) (hw : ∀ m ∈ w, m.depth ≤ 2) :
    Perm.sign (evalWord w .cc1) = Perm.sign (evalWord w .corner) ∧
    Perm.sign (evalWord w .cc2) = Perm.sign (evalWord w .corner) ∧
    Perm.sign (evalWord w .cwR) =
      Perm.sign (evalWord w .corner) * Perm.sign (evalWord w .wing1) * Perm.sign (evalWord w .wing2) ∧
    Perm.sign (evalWord w .cwL) =
      Perm.sign (evalWord w .corner) * Perm.sign (evalWord w .wing1) * Perm.sign (evalWord w .wing2) := by
  induction w with
  | nil => simp [evalWord]
  | cons m w ih =>
    obtain ⟨i1, i2, i3, i4⟩ := ih fun x hx => hw x (List.mem_cons_of_mem _ hx)
    obtain ⟨d, f, x⟩ := m
    have hd : d < 3 := Nat.lt_succ_of_le (hw _ List.mem_cons_self)
    have c1 := sign_gen_cc .cc1 (.inl rfl) ⟨d, hd⟩ f x
    have c2 := sign_gen_cc .cc2 (.inr rfl) ⟨d, hd⟩ f x
    have c3 := sign_gen_cw .cwR (.inl rfl) ⟨d, hd⟩ f x
    have c4 := sign_gen_cw .cwL (.inr rfl) ⟨d, hd⟩ f x
    simp only at c1 c2 c3 c4
    simp only [evalWord, Pi.mul_apply, Perm.sign_mul, i1, i2, i3, i4, c1, c2, c3, c4, true_and]
    constructor <;> ac_rfl

/-! ## All permitted permutations are made -/

theorem even_mem1 (k : Orbit) (hk : k = .wing1 ∨ k = .cc1) (a : Perm (Pc k)) (ha : Perm.sign a = 1) :
    (Pi.mulSingle k a : BigPerm) ∈ Γ 1 := even_of_tables (tables1 k hk) a ha

theorem even_mem2 (k : Orbit) (hc : k ≠ .corner) (he : k ≠ .edge) (a : Perm (Pc k)) (ha : Perm.sign a = 1) :
    (Pi.mulSingle k a : BigPerm) ∈ Γ 2 := even_of_tables (tables2 k hc he) a ha

/-- the second layer alone -/
def slice1 : List (WideAxisMove 2) := [18, 2].map wideOfCode
/-- the third layer alone -/
def slice2 : List (WideAxisMove 2) := [36, 20].map wideOfCode

theorem slice1_mem : evalWord slice1 ∈ Γ 1 := word_mem 1 _ (codes_depth 1 _ (by decide))
theorem slice1_mem2 : evalWord slice1 ∈ Γ 2 := word_mem 2 _ (codes_depth 2 _ (by decide))
theorem slice2_mem : evalWord slice2 ∈ Γ 2 := word_mem 2 _ (codes_depth 2 _ (by decide))

theorem slice_fix : ∀ w ∈ [slice1, slice2], (∀ x, runWord .corner w x = x) ∧ ∀ x, runWord .edge w x = x := by decide +kernel

theorem slice1_fix : evalWord slice1 .corner = 1 ∧ evalWord slice1 .edge = 1 := by
  have := slice_fix slice1 (by simp)
  exact ⟨Equiv.ext fun x => (evalWord_apply _ _ _).trans (this.1 x), Equiv.ext fun x => (evalWord_apply _ _ _).trans (this.2 x)⟩

theorem slice2_fix : evalWord slice2 .corner = 1 ∧ evalWord slice2 .edge = 1 := by
  have := slice_fix slice2 (by simp)
  exact ⟨Equiv.ext fun x => (evalWord_apply _ _ _).trans (this.1 x), Equiv.ext fun x => (evalWord_apply _ _ _).trans (this.2 x)⟩

theorem slice1_sign : ∀ k : Orbit, Perm.sign (evalWord slice1 k) = if k = .wing1 ∨ k = .cwR ∨ k = .cwL then -1 else 1 := by
  decide +kernel

theorem slice2_sign : ∀ k : Orbit, Perm.sign (evalWord slice2 k) = if k = .wing2 ∨ k = .cwR ∨ k = .cwL then -1 else 1 := by
  decide +kernel

theorem mem_even2 (γ : BigPerm) (hc : γ .corner = 1) (he : γ .edge = 1)
    (h : ∀ k, k ≠ .corner → k ≠ .edge → Perm.sign (γ k) = 1) : γ ∈ Γ 2 := by
  have e : γ = Pi.mulSingle .wing1 (γ .wing1) * Pi.mulSingle .wing2 (γ .wing2) * Pi.mulSingle .cc1 (γ .cc1) *
      Pi.mulSingle .cc2 (γ .cc2) * Pi.mulSingle .cwR (γ .cwR) * Pi.mulSingle .cwL (γ .cwL) := by
    funext k
    cases k <;> simp [Pi.mulSingle_eq_of_ne, hc, he]
  rw [e]
  refine mul_mem (mul_mem (mul_mem (mul_mem (mul_mem ?_ ?_) ?_) ?_) ?_) ?_ <;>
    exact even_mem2 _ (by decide) (by decide) _ (h _ (by decide) (by decide))

theorem unit_sq (u : ℤˣ) : u * u = 1 := Int.units_mul_self u

/-- Every permutation of wings and centers with the right parities is made by an alg that does not touch corners and edges. -/
theorem mem_core2 (γ : BigPerm) (hc : γ .corner = 1) (he : γ .edge = 1) (h1 : Perm.sign (γ .cc1) = 1)
    (h2 : Perm.sign (γ .cc2) = 1) (hr : Perm.sign (γ .cwR) = Perm.sign (γ .wing1) * Perm.sign (γ .wing2))
    (hl : Perm.sign (γ .cwL) = Perm.sign (γ .wing1) * Perm.sign (γ .wing2)) : γ ∈ Γ 2 := by
  have step : ∀ γ : BigPerm, γ .corner = 1 → γ .edge = 1 → Perm.sign (γ .cc1) = 1 → Perm.sign (γ .cc2) = 1 →
      Perm.sign (γ .wing1) = 1 → Perm.sign (γ .cwR) = Perm.sign (γ .wing2) → Perm.sign (γ .cwL) = Perm.sign (γ .wing2) →
      γ ∈ Γ 2 := by
    intro γ hc he h1 h2 hw hr hl
    rcases Int.units_eq_one_or (Perm.sign (γ .wing2)) with h | h
    · exact mem_even2 γ hc he fun k h1' h2' => by cases k <;> simp_all
    · have := mem_even2 (γ * evalWord slice2) (by simp [hc, slice2_fix.1]) (by simp [he, slice2_fix.2])
        (fun k h1' h2' => by
          have hs := slice2_sign k
          rw [Pi.mul_apply, Perm.sign_mul, hs]
          cases k <;> simp_all)
      exact (Subgroup.mul_mem_cancel_right _ slice2_mem).1 this
  rcases Int.units_eq_one_or (Perm.sign (γ .wing1)) with h | h
  · exact step γ hc he h1 h2 h (by simpa [h] using hr) (by simpa [h] using hl)
  · have s := slice1_sign
    have := step (γ * evalWord slice1) (by simp [hc, slice1_fix.1]) (by simp [he, slice1_fix.2])
      (by simp [s, h1]) (by simp [s, h2]) (by simp [s, h]) (by simp [s, h, hr]) (by simp [s, h, hl])
    exact (Subgroup.mul_mem_cancel_right _ slice1_mem2).1 this

/-- the same with turns of at most two layers, for the pieces of the 4x4 -/
theorem mem_core1 (a : Perm (Pc .wing1)) (b : Perm (Pc .cc1)) (hb : Perm.sign b = 1) :
    ∃ γ ∈ Γ 1, γ .corner = 1 ∧ γ .edge = 1 ∧ γ .wing1 = a ∧ γ .cc1 = b := by
  have step : ∀ (a : Perm (Pc .wing1)) (b : Perm (Pc .cc1)), Perm.sign a = 1 → Perm.sign b = 1 →
      ∃ γ ∈ Γ 1, γ .corner = 1 ∧ γ .edge = 1 ∧ γ .wing1 = a ∧ γ .cc1 = b := by
    intro a b ha hb
    refine ⟨Pi.mulSingle .wing1 a * Pi.mulSingle .cc1 b,
      mul_mem (even_mem1 _ (.inl rfl) a ha) (even_mem1 _ (.inr rfl) b hb), ?_, ?_, ?_, ?_⟩ <;>
      simp [Pi.mulSingle_eq_of_ne]
  rcases Int.units_eq_one_or (Perm.sign a) with h | h
  · exact step a b h hb
  · have s := slice1_sign
    obtain ⟨γ, hγ, g1, g2, g3, g4⟩ := step (a * (evalWord slice1 .wing1)⁻¹) (b * (evalWord slice1 .cc1)⁻¹)
      (by simp [s, h]) (by simp [s, hb])
    exact ⟨γ * evalWord slice1, mul_mem hγ slice1_mem, by simp [g1, slice1_fix.1], by simp [g2, slice1_fix.2],
      by simp [g3], by simp [g4]⟩

/-! ## Corners -/

theorem corners_amount (s : PieceSet Corner 8) (f : Face) :
    s.moved (⟨f, .double⟩ : AxisMove) = (s.moved (⟨f, .single⟩ : AxisMove)).moved (⟨f, .single⟩ : AxisMove) ∧
    s.moved (⟨f, .inverse⟩ : AxisMove) =
      ((s.moved (⟨f, .single⟩ : AxisMove)).moved (⟨f, .single⟩ : AxisMove)).moved (⟨f, .single⟩ : AxisMove) := by
  have h : ∀ (c : Corner) (f : Face), moved c (⟨f, .double⟩ : AxisMove) =
      moved (moved c (⟨f, .single⟩ : AxisMove)) (⟨f, .single⟩ : AxisMove) ∧
      moved c (⟨f, .inverse⟩ : AxisMove) =
        moved (moved (moved c (⟨f, .single⟩ : AxisMove)) (⟨f, .single⟩ : AxisMove)) (⟨f, .single⟩ : AxisMove) := by
    decide +kernel
  exact ⟨funext fun i => (h (s i) f).1, funext fun i => (h (s i) f).2⟩

theorem arranged_corners {s : PieceSet Corner 8} {τ : Perm (Fin 8)} (h : s.Arranged τ) (m : AxisMove) :
    ∃ τ', (s.moved m).Arranged τ' ∧ Perm.sign τ' = (-1) ^ m.amount.toNat * Perm.sign τ := by
  obtain ⟨f, x⟩ := m
  have h1 := arranged_corners_single h f
  have h2 := arranged_corners_single h1 f
  have h3 := arranged_corners_single h2 f
  have hs := sign_cornerTurn f
  cases x
  · exact ⟨_, h1, by simp [hs, Amount.toNat]⟩
  · exact ⟨_, (corners_amount s f).1 ▸ h2, by simp [hs, Amount.toNat]⟩
  · exact ⟨_, (corners_amount s f).2 ▸ h3, by simp [hs, Amount.toNat, pow_succ]⟩

theorem word_corners (w : List (WideAxisMove 2)) {s : PieceSet Corner 8} {τ : Perm (Fin 8)} (h : s.Arranged τ) :
    ∃ τ' : Perm (Fin 8), PieceSet.Arranged (P := Corner) (fun i => evalWord w .corner (s i)) τ' ∧
      Perm.sign τ' = Perm.sign (evalWord w .corner) * Perm.sign τ := by
  induction w generalizing s τ with
  | nil => exact ⟨τ, h, by simp [evalWord]⟩
  | cons m w ih =>
    obtain ⟨τ₁, h1, e1⟩ := arranged_corners h m.axisMove
    obtain ⟨τ₂, h2, e2⟩ := ih h1
    refine ⟨τ₂, h2, ?_⟩
    obtain ⟨d, f, x⟩ := m
    have hg : gen ⟨d, ⟨f, x⟩⟩ .corner = gen ⟨0, ⟨f, x⟩⟩ .corner := by ext y; rfl
    rw [e2, e1]
    simp only [evalWord, Pi.mul_apply, Perm.sign_mul, hg, sign_gen_corner, mul_assoc]

theorem word_corners_solved (w : List (WideAxisMove 2)) :
    ∃ τ : Perm (Fin 8), PieceSet.Arranged (P := Corner) (fun i => evalWord w .corner (PieceSet.SOLVED Corner i)) τ ∧
      Perm.sign τ = Perm.sign (evalWord w .corner) := by
  have h : (PieceSet.SOLVED Corner : PieceSet Corner 8).Arranged 1 := fun i => rfl
  obtain ⟨τ, h1, e⟩ := word_corners w h
  exact ⟨τ, h1, by simpa using e⟩

/-! ## Pieces whose position is the piece itself -/

/-- the homes of the wings -/
noncomputable def wingEquiv : Fin 24 ≃ Wing :=
  Equiv.ofBijective Wing.SOLVED (LawfulDescriptor.ref_bij (P := Wing) (n := 24))
/-- the homes of the center corners -/
noncomputable def ccEquiv : Fin 24 ≃ CenterCorner :=
  Equiv.ofBijective CenterCorner.SOLVED (LawfulDescriptor.ref_bij (P := CenterCorner) (n := 24))
/-- the homes of the center wings of one kind -/
noncomputable def cwEquiv (b : Bool) :
    { i : Fin 48 // (CenterWing.SOLVED i).rightHanded = b } ≃ { c : CenterWing // c.rightHanded = b } :=
  Equiv.subtypeEquiv (Equiv.ofBijective CenterWing.SOLVED (LawfulDescriptor.ref_bij (P := CenterWing) (n := 48)))
    (fun _ => Iff.rfl)

theorem arranged_of_perm {α P : Type} (e : α ≃ P) (γ : Perm P) (i : α) :
    γ (e i) = e (e.symm.permCongr γ i) := by simp [Equiv.permCongr_apply]

theorem sign_of_equiv {α P : Type} [Fintype α] [DecidableEq α] [Fintype P] [DecidableEq P] (e : α ≃ P) (γ : Perm P) :
    Perm.sign (e.symm.permCongr γ) = Perm.sign γ := Perm.sign_permCongr _ _

/-- an alg of wide moves on a center wing of either kind -/
def cwRun : List (WideAxisMove 2) → CenterWing → CenterWing
  | [], x => x
  | m :: w, x => cwRun w (DepthPiece.moved 1 2 x m)

theorem cwRun_right (w : List (WideAxisMove 2)) (c : { c : CenterWing // c.rightHanded = true }) :
    (evalWord w .cwR c).1 = cwRun w c.1 := by
  induction w generalizing c with
  | nil => rfl
  | cons m w ih => exact ih ⟨_, (cw_moved_hand _ _).trans c.2⟩

theorem cwRun_left (w : List (WideAxisMove 2)) (c : { c : CenterWing // c.rightHanded = false }) :
    (evalWord w .cwL c).1 = cwRun w c.1 := by
  induction w generalizing c with
  | nil => rfl
  | cons m w ih => exact ih ⟨_, (cw_moved_hand _ _).trans c.2⟩

/-- wings and centers after an alg -/
theorem centers_of_word (w : List (WideAxisMove 2)) (hw : ∀ m ∈ w, m.depth ≤ 2) (τ : Perm (Fin 8))
    (hτ : Perm.sign τ = Perm.sign (evalWord w .corner)) :
    CentersLawful τ (fun i => evalWord w .wing1 (Wing.SOLVED i)) (fun i => evalWord w .wing2 (Wing.SOLVED i))
      (fun i => evalWord w .cc1 (CenterCorner.SOLVED i)) (fun i => evalWord w .cc2 (CenterCorner.SOLVED i))
      (fun i => cwRun w (CenterWing.SOLVED i)) := by
  obtain ⟨s1, s2, s3, s4⟩ := word_signs w hw
  have a1 := sign_of_equiv (P := Wing) wingEquiv (evalWord w .wing1)
  have a2 := sign_of_equiv (P := Wing) wingEquiv (evalWord w .wing2)
  have a3 := sign_of_equiv (P := CenterCorner) ccEquiv (evalWord w .cc1)
  have a4 := sign_of_equiv (P := CenterCorner) ccEquiv (evalWord w .cc2)
  have a5 := sign_of_equiv (P := { c : CenterWing // c.rightHanded = true }) (cwEquiv true) (evalWord w .cwR)
  have a6 := sign_of_equiv (P := { c : CenterWing // c.rightHanded = false }) (cwEquiv false) (evalWord w .cwL)
  refine ⟨_, _, _, _, _, _, fun i => arranged_of_perm (P := Wing) wingEquiv (evalWord w .wing1) i,
    fun i => arranged_of_perm (P := Wing) wingEquiv (evalWord w .wing2) i,
    fun i => arranged_of_perm (P := CenterCorner) ccEquiv (evalWord w .cc1) i,
    fun i => arranged_of_perm (P := CenterCorner) ccEquiv (evalWord w .cc2) i, fun i => ?_, fun i => ?_,
    a3.trans (s1.trans hτ.symm), a4.trans (s2.trans hτ.symm), a5.trans (s3.trans ?_), a6.trans (s4.trans ?_)⟩
  · have h := cwRun_right w (cwEquiv true i)
    exact h.symm.trans (congrArg Subtype.val
      (arranged_of_perm (P := { c : CenterWing // c.rightHanded = true }) (cwEquiv true) (evalWord w .cwR) i))
  · have h := cwRun_left w (cwEquiv false i)
    exact h.symm.trans (congrArg Subtype.val
      (arranged_of_perm (P := { c : CenterWing // c.rightHanded = false }) (cwEquiv false) (evalWord w .cwL) i))
  · rw [hτ]; exact congrArg₂ _ (congrArg _ a1.symm) a2.symm
  · rw [hτ]; exact congrArg₂ _ (congrArg _ a1.symm) a2.symm

theorem toWord (D : Nat) (γ : BigPerm) (h : γ ∈ Γ D) (U : List (WideAxisMove 2)) (hU : ∀ m ∈ U, m.depth ≤ D) :
    ∃ v : List (WideAxisMove 2), (∀ m ∈ U ++ v, m.depth ≤ D) ∧ evalWord (U ++ v) = γ * evalWord U := by
  obtain ⟨v, hv, e⟩ := mem_word D γ h
  exact ⟨v, fun m hm => (List.mem_append.1 hm).elim (hU m) (hv m), by rw [evalWord_append, e]⟩

/-- what is left to do in orbit `k` after `U` when the pieces are to be arranged by `σ` -/
def rest {α : Type} (k : Orbit) (e : α ≃ Pc k) (U : List (WideAxisMove 2)) (σ : Perm α) : Perm (Pc k) :=
  e.permCongr σ * (evalWord U k)⁻¹

theorem rest_apply {α : Type} (k : Orbit) (e : α ≃ Pc k) (U : List (WideAxisMove 2)) (σ : Perm α) (i : α) :
    (rest k e U σ * evalWord U k) (e i) = e (σ i) := by simp [rest, Equiv.permCongr_apply]

theorem rest_sign {α : Type} [Fintype α] [DecidableEq α] (k : Orbit) (e : α ≃ Pc k) (U : List (WideAxisMove 2)) (σ : Perm α) :
    Perm.sign (rest k e U σ) = Perm.sign σ * Perm.sign (evalWord U k) := by
  rw [rest, Perm.sign_mul, Perm.sign_inv, Perm.sign_permCongr]

/-- every lawful arrangement of wings and centers is the result of an alg, whatever lawful thing was done before to corners
and edges -/
theorem word_of_centers (U : List (WideAxisMove 2)) (hU : ∀ m ∈ U, m.depth ≤ 2) (τ : Perm (Fin 8))
    (hτ : Perm.sign τ = Perm.sign (evalWord U .corner)) {w1 w2 : PieceSet Wing 24} {c1 c2 : PieceSet CenterCorner 24}
    {cw : PieceSet CenterWing 48} (h : CentersLawful τ w1 w2 c1 c2 cw) :
    ∃ W : List (WideAxisMove 2), (∀ m ∈ W, m.depth ≤ 2) ∧ evalWord W .corner = evalWord U .corner ∧
      evalWord W .edge = evalWord U .edge ∧
      (fun i => evalWord W .wing1 (Wing.SOLVED i)) = w1 ∧ (fun i => evalWord W .wing2 (Wing.SOLVED i)) = w2 ∧
      (fun i => evalWord W .cc1 (CenterCorner.SOLVED i)) = c1 ∧ (fun i => evalWord W .cc2 (CenterCorner.SOLVED i)) = c2 ∧
      (fun i => cwRun W (CenterWing.SOLVED i)) = cw := by
  obtain ⟨ω₁, ω₂, σ₁, σ₂, ρ, l, h1, h2, h3, h4, h5, h6, s1, s2, s3, s4⟩ := h
  obtain ⟨u1, u2, u3, u4⟩ := word_signs U hU
  let γ : BigPerm := fun
    | .corner => 1
    | .edge => 1
    | .wing1 => rest .wing1 wingEquiv U ω₁
    | .wing2 => rest .wing2 wingEquiv U ω₂
    | .cc1 => rest .cc1 ccEquiv U σ₁
    | .cc2 => rest .cc2 ccEquiv U σ₂
    | .cwR => rest .cwR (cwEquiv true) U ρ
    | .cwL => rest .cwL (cwEquiv false) U l
  have g1 : Perm.sign (γ .cc1) = 1 := by
    have := rest_sign .cc1 ccEquiv U σ₁
    rw [u1, s1, hτ, unit_sq] at this
    exact this
  have g2 : Perm.sign (γ .cc2) = 1 := by
    have := rest_sign .cc2 ccEquiv U σ₂
    rw [u2, s2, hτ, unit_sq] at this
    exact this
  have g3 : Perm.sign (γ .wing1) = Perm.sign ω₁ * Perm.sign (evalWord U .wing1) := rest_sign .wing1 wingEquiv U ω₁
  have g4 : Perm.sign (γ .wing2) = Perm.sign ω₂ * Perm.sign (evalWord U .wing2) := rest_sign .wing2 wingEquiv U ω₂
  have mix : ∀ a b c d e : ℤˣ, a * b * c * (a * d * e) = b * d * (c * e) := by decide
  have g5 : Perm.sign (γ .cwR) = Perm.sign (γ .wing1) * Perm.sign (γ .wing2) := by
    have := rest_sign .cwR (cwEquiv true) U ρ
    rw [u3, s3, hτ, mix] at this
    rw [g3, g4]
    exact this
  have g6 : Perm.sign (γ .cwL) = Perm.sign (γ .wing1) * Perm.sign (γ .wing2) := by
    have := rest_sign .cwL (cwEquiv false) U l
    rw [u4, s4, hτ, mix] at this
    rw [g3, g4]
    exact this
  obtain ⟨v, hv, e⟩ := toWord 2 γ (mem_core2 γ rfl rfl g1 g2 g5 g6) U hU
  refine ⟨U ++ v, hv, ?_, ?_, funext fun i => ?_, funext fun i => ?_, funext fun i => ?_, funext fun i => ?_, funext fun i => ?_⟩
  · rw [e]; exact one_mul _
  · rw [e]; exact one_mul _
  · rw [e]; exact (rest_apply .wing1 wingEquiv U ω₁ i).trans (h1 i).symm
  · rw [e]; exact (rest_apply .wing2 wingEquiv U ω₂ i).trans (h2 i).symm
  · rw [e]; exact (rest_apply .cc1 ccEquiv U σ₁ i).trans (h3 i).symm
  · rw [e]; exact (rest_apply .cc2 ccEquiv U σ₂ i).trans (h4 i).symm
  · cases hi : (CenterWing.SOLVED i).rightHanded
    · rw [← cwRun_left (U ++ v) ⟨CenterWing.SOLVED i, hi⟩, e]
      exact (congrArg Subtype.val (rest_apply .cwL (cwEquiv false) U l ⟨i, hi⟩)).trans (h6 ⟨i, hi⟩).symm
    · rw [← cwRun_right (U ++ v) ⟨CenterWing.SOLVED i, hi⟩, e]
      exact (congrArg Subtype.val (rest_apply .cwR (cwEquiv true) U ρ ⟨i, hi⟩)).trans (h5 ⟨i, hi⟩).symm

/-- the same with turns of at most two layers, for the pieces of the 4x4 -/
theorem word_of_centers1 (U : List (WideAxisMove 2)) (hU : ∀ m ∈ U, m.depth ≤ 1) (τ : Perm (Fin 8))
    (hτ : Perm.sign τ = Perm.sign (evalWord U .corner)) {w1 : PieceSet Wing 24} {c1 : PieceSet CenterCorner 24}
    {ω σ : Perm (Fin 24)} (hw : w1.Arranged ω) (hc : c1.Arranged σ) (hs : Perm.sign σ = Perm.sign τ) :
    ∃ W : List (WideAxisMove 2), (∀ m ∈ W, m.depth ≤ 1) ∧ evalWord W .corner = evalWord U .corner ∧
      evalWord W .edge = evalWord U .edge ∧
      (fun i => evalWord W .wing1 (Wing.SOLVED i)) = w1 ∧ (fun i => evalWord W .cc1 (CenterCorner.SOLVED i)) = c1 := by
  obtain ⟨u1, -⟩ := word_signs U fun m hm => (hU m hm).trans (by decide)
  have hb : Perm.sign (rest .cc1 ccEquiv U σ) = 1 := by rw [rest_sign .cc1 ccEquiv U σ, u1, hs, hτ, unit_sq]
  obtain ⟨γ, hγ, g1, g2, g3, g4⟩ := mem_core1 (rest .wing1 wingEquiv U ω) _ hb
  obtain ⟨v, hv, e⟩ := toWord 1 γ hγ U hU
  refine ⟨U ++ v, hv, ?_, ?_, funext fun i => ?_, funext fun i => ?_⟩
  · rw [e, Pi.mul_apply, g1, one_mul]
  · rw [e, Pi.mul_apply, g2, one_mul]
  · rw [e, Pi.mul_apply, g3]
    exact (rest_apply .wing1 wingEquiv U ω i).trans (hw i).symm
  · rw [e, Pi.mul_apply, g4]
    exact (rest_apply .cc1 ccEquiv U σ i).trans (hc i).symm

/-! ## States of the cubes -/

/-- a move of the 4x4 or 5x5 as a move of a bigger cube -/
def liftMove (m : WideAxisMove 1) : WideAxisMove 2 := ⟨m.depth, m.axisMove⟩

theorem cube4_word (c : Cube4) (w : List (WideAxisMove 1)) :
    movedAlg c w = ⟨fun i => evalWord (w.map liftMove) .corner (c.corners i), fun i => evalWord (w.map liftMove) .wing1 (c.wings i),
      fun i => evalWord (w.map liftMove) .cc1 (c.centers i)⟩ := by
  induction w generalizing c with
  | nil => rfl
  | cons m w ih => exact ih (moved c m)

theorem cube5_word (c : Cube5) (w : List (WideAxisMove 1)) :
    (movedAlg c w).corners = (fun i => evalWord (w.map liftMove) .corner (c.corners i)) ∧
    (movedAlg c w).edges = (fun i => evalWord (w.map liftMove) .edge (c.edges i)) ∧
    (movedAlg c w).cornerCenters = (fun i => evalWord (w.map liftMove) .cc1 (c.cornerCenters i)) := by
  induction w generalizing c with
  | nil => exact ⟨rfl, rfl, rfl⟩
  | cons m w ih => exact ih (moved c m)

theorem cube6_word (c : Cube6) (w : List (WideAxisMove 2)) :
    movedAlg c w = ⟨fun i => evalWord w .corner (c.corners i), fun i => evalWord w .wing1 (c.wings1 i),
      fun i => evalWord w .wing2 (c.wings2 i), fun i => evalWord w .cc1 (c.centerCorners1 i),
      fun i => evalWord w .cc2 (c.centerCorners2 i), fun i => cwRun w (c.centerWings i)⟩ := by
  induction w generalizing c with
  | nil => rfl
  | cons m w ih => exact ih (moved c m)

theorem cube7_word (c : Cube7) (w : List (WideAxisMove 2)) :
    (movedAlg c w).corners = (fun i => evalWord w .corner (c.corners i)) ∧
    (movedAlg c w).edges = (fun i => evalWord w .edge (c.edges i)) ∧
    (movedAlg c w).wings1 = (fun i => evalWord w .wing1 (c.wings1 i)) ∧
    (movedAlg c w).wings2 = (fun i => evalWord w .wing2 (c.wings2 i)) ∧
    (movedAlg c w).centerCorners1 = (fun i => evalWord w .cc1 (c.centerCorners1 i)) ∧
    (movedAlg c w).centerCorners2 = (fun i => evalWord w .cc2 (c.centerCorners2 i)) ∧
    (movedAlg c w).centerWings = (fun i => cwRun w (c.centerWings i)) := by
  induction w generalizing c with
  | nil => exact ⟨rfl, rfl, rfl, rfl, rfl, rfl, rfl⟩
  | cons m w ih => exact ih (moved c m)

theorem cube2_word (c : Cube2) (w : List (WideAxisMove 2)) :
    movedAlg c (w.map (·.axisMove)) = ⟨fun i => evalWord w .corner (c.corners i)⟩ := by
  induction w generalizing c with
  | nil => rfl
  | cons m w ih => exact ih (moved c m.axisMove)

theorem cube3_word (c : Cube3) (w : List (WideAxisMove 2)) :
    movedAlg c (w.map (·.axisMove)) = ⟨fun i => evalWord w .edge (c.edges i), fun i => evalWord w .corner (c.corners i)⟩ := by
  induction w generalizing c with
  | nil => rfl
  | cons m w ih => exact ih (moved c m.axisMove)

end Barbarosa
