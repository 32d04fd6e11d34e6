import Verif.Lemmas.Orders24
import Verif.Props.Reach

/-!
# C106: how often an alg has to be repeated on the big cubes

On the 4x4 no alg has to be repeated more than 765765 times until everything is back, on the 5x5 of this crate no more than
180180 times, on the 6x6 and the 7x7 no more than 5354228880 times, and there are algs for which it has to be that often.
-/

namespace Barbarosa

open Equiv (Perm)

/-! ## Repeating -/

/-- pieces that have no orientation are only permuted -/
theorem iterate_plain {P ι : Type} (S : ι → P) (F : P → P) (σ : Perm ι) (h : ∀ i, F (S i) = S (σ i)) (n : Nat) (i : ι) :
    F^[n] (S i) = S ((σ ^ n) i) := by
  induction n with
  | zero => rfl
  | succ n ih => rw [Function.iterate_succ_apply', ih, h, pow_succ', Perm.mul_apply]

theorem iterate_plain_iff {P ι : Type} (S : ι → P) (hS : Function.Injective S) (F : P → P) (σ : Perm ι)
    (h : ∀ i, F (S i) = S (σ i)) (n : Nat) : (∀ i, F^[n] (S i) = S i) ↔ orderOf σ ∣ n := by
  rw [orderOf_dvd_iff_pow_eq_one]
  constructor
  · exact fun e => Equiv.ext fun i => hS ((iterate_plain S F σ h n i).symm.trans (e i))
  · intro e i; rw [iterate_plain S F σ h n i, e]; rfl

theorem iterate_corners {F : Corner → Corner} (hF : Blind F) {τ : Perm (Fin 8)}
    (hτ : PieceSet.Arranged (fun i => F (PieceSet.SOLVED Corner i)) τ) {n : Nat} (h : 3 * orderOf τ ∣ n) (i : Fin 8) :
    F^[n] (PieceSet.SOLVED Corner i) = PieceSet.SOLVED Corner i :=
  iterate_of_dvd (iterate_home F hF.iterate corner_turns τ hτ 3 corner_turn_three i) h

theorem iterate_edges {F : Edge → Edge} (hF : Blind F) {σ : Perm (Fin 12)}
    (hσ : PieceSet.Arranged (fun i => F (PieceSet.SOLVED Edge i)) σ) {n : Nat} (h : 2 * orderOf σ ∣ n) (i : Fin 12) :
    F^[n] (PieceSet.SOLVED Edge i) = PieceSet.SOLVED Edge i :=
  iterate_of_dvd (iterate_home F hF.iterate edge_turns σ hσ 2 edge_turn_two i) h

/-! ### piece by piece -/

theorem cube4_iter {a : List (WideAxisMove 1)} {f : Corner → Corner} {w : Wing → Wing} {t : CenterCorner → CenterCorner}
    (h : ∀ c : Cube4, movedAlg c a = ⟨fun i => f (c.corners i), fun i => w (c.wings i), fun i => t (c.centers i)⟩) (n : Nat) (c : Cube4) :
    movedAlg c (List.replicate n a).flatten =
      ⟨fun i => f^[n] (c.corners i), fun i => w^[n] (c.wings i), fun i => t^[n] (c.centers i)⟩ := by
  rw [movedAlg_repeat]
  induction n with
  | zero => rfl
  | succ n ih =>
    rw [Function.iterate_succ_apply', ih]
    simp only [Function.iterate_succ_apply']
    exact h _

theorem cube5_iter {a : List (WideAxisMove 1)} {f : Corner → Corner} {e : Edge → Edge} {t : CenterCorner → CenterCorner}
    {u : CenterEdge → CenterEdge} (h : ∀ c : Cube5, movedAlg c a =
      ⟨fun i => f (c.corners i), fun i => e (c.edges i), fun i => t (c.cornerCenters i), fun i => u (c.cornerEdges i)⟩) (n : Nat) (c : Cube5) :
    movedAlg c (List.replicate n a).flatten = ⟨fun i => f^[n] (c.corners i), fun i => e^[n] (c.edges i),
      fun i => t^[n] (c.cornerCenters i), fun i => u^[n] (c.cornerEdges i)⟩ := by
  rw [movedAlg_repeat]
  induction n with
  | zero => rfl
  | succ n ih =>
    rw [Function.iterate_succ_apply', ih]
    simp only [Function.iterate_succ_apply']
    exact h _

theorem cube6_iter {a : List (WideAxisMove 2)} {f : Corner → Corner} {w1 w2 : Wing → Wing} {t1 t2 : CenterCorner → CenterCorner}
    {v : CenterWing → CenterWing} (h : ∀ c : Cube6, movedAlg c a = ⟨fun i => f (c.corners i), fun i => w1 (c.wings1 i),
      fun i => w2 (c.wings2 i), fun i => t1 (c.centerCorners1 i), fun i => t2 (c.centerCorners2 i), fun i => v (c.centerWings i)⟩)
    (n : Nat) (c : Cube6) :
    movedAlg c (List.replicate n a).flatten = ⟨fun i => f^[n] (c.corners i), fun i => w1^[n] (c.wings1 i),
      fun i => w2^[n] (c.wings2 i), fun i => t1^[n] (c.centerCorners1 i), fun i => t2^[n] (c.centerCorners2 i),
      fun i => v^[n] (c.centerWings i)⟩ := by
  rw [movedAlg_repeat]
  induction n with
  | zero => rfl
  | succ n ih =>
    rw [Function.iterate_succ_apply', ih]
    simp only [Function.iterate_succ_apply']
    exact h _

theorem cube7_iter {a : List (WideAxisMove 2)} {f : Corner → Corner} {e : Edge → Edge} {w1 w2 : Wing → Wing}
    {t1 t2 : CenterCorner → CenterCorner} {v : CenterWing → CenterWing} {u1 u2 : CenterEdge → CenterEdge}
    (h : ∀ c : Cube7, movedAlg c a = ⟨fun i => f (c.corners i), fun i => e (c.edges i), fun i => w1 (c.wings1 i),
      fun i => w2 (c.wings2 i), fun i => t1 (c.centerCorners1 i), fun i => t2 (c.centerCorners2 i), fun i => v (c.centerWings i),
      fun i => u1 (c.centerEdges1 i), fun i => u2 (c.centerEdges2 i)⟩) (n : Nat) (c : Cube7) :
    movedAlg c (List.replicate n a).flatten = ⟨fun i => f^[n] (c.corners i), fun i => e^[n] (c.edges i), fun i => w1^[n] (c.wings1 i),
      fun i => w2^[n] (c.wings2 i), fun i => t1^[n] (c.centerCorners1 i), fun i => t2^[n] (c.centerCorners2 i),
      fun i => v^[n] (c.centerWings i), fun i => u1^[n] (c.centerEdges1 i), fun i => u2^[n] (c.centerEdges2 i)⟩ := by
  rw [movedAlg_repeat]
  induction n with
  | zero => rfl
  | succ n ih =>
    rw [Function.iterate_succ_apply', ih]
    simp only [Function.iterate_succ_apply']
    exact h _

theorem iterate_wings {w : Wing → Wing} {ω : Perm (Fin 24)} (h : PieceSet.Arranged (fun i => w (PieceSet.SOLVED Wing i)) ω) (n : Nat) :
    (∀ i, w^[n] (PieceSet.SOLVED Wing i) = PieceSet.SOLVED Wing i) ↔ orderOf ω ∣ n :=
  iterate_plain_iff (PieceSet.SOLVED Wing) (LawfulDescriptor.ref_bij (P := Wing) (n := 24)).1 w ω h n

theorem iterate_centerCorners {t : CenterCorner → CenterCorner} {σ : Perm (Fin 24)}
    (h : PieceSet.Arranged (fun i => t (PieceSet.SOLVED CenterCorner i)) σ) (n : Nat) :
    (∀ i, t^[n] (PieceSet.SOLVED CenterCorner i) = PieceSet.SOLVED CenterCorner i) ↔ orderOf σ ∣ n :=
  iterate_plain_iff (PieceSet.SOLVED CenterCorner) (LawfulDescriptor.ref_bij (P := CenterCorner) (n := 24)).1 t σ h n

theorem iterate_centerWings {v : CenterWing → CenterWing} {ρ : Perm { i : Fin 48 // (CenterWing.SOLVED i).rightHanded = true }}
    {l : Perm { i : Fin 48 // (CenterWing.SOLVED i).rightHanded = false }}
    (hρ : CenterWingsArranged (fun i => v (PieceSet.SOLVED CenterWing i)) true ρ)
    (hl : CenterWingsArranged (fun i => v (PieceSet.SOLVED CenterWing i)) false l) (n : Nat) :
    (∀ i, v^[n] (PieceSet.SOLVED CenterWing i) = PieceSet.SOLVED CenterWing i) ↔ orderOf ρ ∣ n ∧ orderOf l ∣ n := by
  have inj : Function.Injective (PieceSet.SOLVED CenterWing) := (LawfulDescriptor.ref_bij (P := CenterWing) (n := 48)).1
  rw [← iterate_plain_iff (fun i : { i : Fin 48 // (CenterWing.SOLVED i).rightHanded = true } => PieceSet.SOLVED CenterWing i.1)
      (inj.comp Subtype.val_injective) v ρ hρ,
    ← iterate_plain_iff (fun i : { i : Fin 48 // (CenterWing.SOLVED i).rightHanded = false } => PieceSet.SOLVED CenterWing i.1)
      (inj.comp Subtype.val_injective) v l hl]
  constructor
  · exact fun h => ⟨fun i => h i.1, fun i => h i.1⟩
  · rintro ⟨h1, h2⟩ i
    cases h : (CenterWing.SOLVED i).rightHanded
    · exact h2 ⟨i, h⟩
    · exact h1 ⟨i, h⟩

/-! ## At most -/

/-- **C106** Every alg, repeated a certain number of times which is at most 765765, leaves every state of the 4x4 as it is. -/
theorem C106_cube4_at_most (a : List (WideAxisMove 1)) (ha : ∀ m ∈ a, m.WF) :
    ∃ n, 0 < n ∧ n ≤ 765765 ∧ ∀ c : Cube4, movedAlg c (List.replicate n a).flatten = c := by
  obtain ⟨-, ⟨ω, hω⟩, τ, σ, hτ, hσ, hs⟩ := (C71_cube4 _).1.1 ⟨a, ha, rfl⟩
  obtain ⟨f, w, t, hf, h⟩ := cube4_uniform.alg a
  rw [show movedAlg _ a = _ from h _] at hω hτ hσ
  have hle := codes_765765 (order_code τ (n := 8) (by omega) (by simp)) (order_code σ (n := 24) (by omega) (by simp))
    (order_code ω (n := 24) (by omega) (by simp)) (orderCode_parity hs)
  simp only [orderCode_half] at hle
  refine ⟨_, Nat.lcm_pos (Nat.lcm_pos (Nat.mul_pos (by omega) (orderOf_pos τ)) (orderOf_pos σ)) (orderOf_pos ω), hle, ?_⟩
  refine ((C84_repeat ⟨Cube4, WideAxisMove 1⟩ (by simp [cubeSystems]) a).2 _ (Cube.SOLVED : Cube4) C08_solved_valid.2.2.1).1 ?_
  refine (cube4_iter h _ _).trans (Cube4.ext (funext fun i => ?_) (funext fun i => ?_) (funext fun i => ?_))
  · exact iterate_corners hf hτ ((Nat.dvd_lcm_left _ _).trans (Nat.dvd_lcm_left _ _)) i
  · exact (iterate_wings hω _).2 (Nat.dvd_lcm_right _ _) i
  · exact (iterate_centerCorners hσ _).2 ((Nat.dvd_lcm_right _ _).trans (Nat.dvd_lcm_left _ _)) i

/-- two layers of R, then one of U -/
example : ∃ n, 0 < n ∧ n ≤ 765765 ∧ ∀ c : Cube4,
    movedAlg c (List.replicate n [(⟨1, ⟨.R, .single⟩⟩ : WideAxisMove 1), ⟨0, ⟨.U, .single⟩⟩]).flatten = c :=
  C106_cube4_at_most _ (by decide)

/-- the center edges of the 5x5 are home when the edges are -/
theorem cube5_home {a : List (WideAxisMove 1)} (h1 : (movedAlg (Cube.SOLVED : Cube5) a).corners = PieceSet.SOLVED Corner)
    (h2 : (movedAlg (Cube.SOLVED : Cube5) a).edges = PieceSet.SOLVED Edge)
    (h3 : (movedAlg (Cube.SOLVED : Cube5) a).cornerCenters = PieceSet.SOLVED CenterCorner) :
    movedAlg (Cube.SOLVED : Cube5) a = Cube.SOLVED :=
  Cube5.ext h1 h2 h3 ((C72_center_edges_stuck.1 a).2 h2)

/-- **C106** Every alg, repeated a certain number of times which is at most 180180, leaves every state of the 5x5 as it is. -/
theorem C106_cube5_at_most (a : List (WideAxisMove 1)) (ha : ∀ m ∈ a, m.WF) :
    ∃ n, 0 < n ∧ n ≤ 180180 ∧ ∀ c : Cube5, movedAlg c (List.replicate n a).flatten = c := by
  obtain ⟨⟨⟨⟨ε, τ, hε, hτ, hs'⟩, -, -⟩, τ', σ, hτ', hσ, hs⟩, -⟩ := (C72_cube5_partial _).1 ⟨a, ha, rfl⟩
  cases hτ'.unique hτ
  obtain ⟨f, e, t, u, hf, he, h⟩ := cube5_uniform.alg a
  simp only [show movedAlg _ a = _ from h _] at hε hτ hσ
  have hle := codes_180180
  simp only [List.all_eq_true] at hle
  have hle := hle _ (order_code τ (n := 8) (by omega) (by simp)) _ (order_code σ (n := 24) (by omega) (by simp))
  rw [orderCode_parity hs, bne_self_eq_false, Bool.false_or, List.all_eq_true] at hle
  have hle := hle _ (order_code ε (n := 12) (by omega) (by simp))
  rw [orderCode_parity hs', bne_self_eq_false, Bool.false_or] at hle
  have hle := Nat.le_of_ble_eq_true hle
  simp only [orderCode_half] at hle
  refine ⟨_, Nat.lcm_pos (Nat.lcm_pos (Nat.mul_pos (by omega) (orderOf_pos τ)) (orderOf_pos σ))
    (Nat.mul_pos (by omega) (orderOf_pos ε)), hle, ?_⟩
  refine ((C84_repeat ⟨Cube5, WideAxisMove 1⟩ (by simp [cubeSystems]) a).2 _ (Cube.SOLVED : Cube5) C08_solved_valid.2.2.2.1).1 ?_
  refine cube5_home ?_ ?_ ?_
  · rw [cube5_iter h]
    exact funext (iterate_corners hf hτ ((Nat.dvd_lcm_left _ _).trans (Nat.dvd_lcm_left _ _)))
  · rw [cube5_iter h]
    exact funext (iterate_edges he hε (Nat.dvd_lcm_right _ _))
  · rw [cube5_iter h]
    exact funext ((iterate_centerCorners hσ _).2 ((Nat.dvd_lcm_right _ _).trans (Nat.dvd_lcm_left _ _)))

/-- the same alg -/
example : ∃ n, 0 < n ∧ n ≤ 180180 ∧ ∀ c : Cube5,
    movedAlg c (List.replicate n [(⟨1, ⟨.R, .single⟩⟩ : WideAxisMove 1), ⟨0, ⟨.U, .single⟩⟩]).flatten = c :=
  C106_cube5_at_most _ (by decide)

/-! ## All at once -/

theorem order_dvd {ι : Type} [Fintype ι] [DecidableEq ι] (h : Fintype.card ι ≤ 24) (σ : Perm ι) : orderOf σ ∣ 5354228880 := by
  have := codes_24.1 _ (order_code σ (n := 24) (by omega) h)
  rwa [orderCode_half] at this

theorem order_corners_dvd (τ : Perm (Fin 8)) : 3 * orderOf τ ∣ 5354228880 := by
  have := codes_24.2.1 _ (order_code τ (n := 8) (by omega) (by simp))
  rwa [orderCode_half] at this

theorem order_edges_dvd (τ : Perm (Fin 12)) : 2 * orderOf τ ∣ 5354228880 := by
  have := codes_24.2.2 _ (order_code τ (n := 12) (by omega) (by simp))
  rwa [orderCode_half] at this

theorem card_hand (b : Bool) : Fintype.card { i : Fin 48 // (CenterWing.SOLVED i).rightHanded = b } = 24 := by
  cases b <;> decide +kernel

theorem cube4_home_of_dvd (a : List (WideAxisMove 1)) (ha : ∀ m ∈ a, m.WF) {n : Nat} (hn : 5354228880 ∣ n) (c : Cube4) :
    movedAlg c (List.replicate n a).flatten = c := by
  obtain ⟨-, ⟨ω, hω⟩, τ, σ, hτ, hσ, hs⟩ := (C71_cube4 _).1.1 ⟨a, ha, rfl⟩
  obtain ⟨f, w, t, hf, h⟩ := cube4_uniform.alg a
  rw [show movedAlg _ a = _ from h _] at hω hτ hσ
  refine ((C84_repeat ⟨Cube4, WideAxisMove 1⟩ (by simp [cubeSystems]) a).2 _ (Cube.SOLVED : Cube4) C08_solved_valid.2.2.1).1 ?_ c
  refine (cube4_iter h _ _).trans (Cube4.ext (funext fun i => ?_) (funext fun i => ?_) (funext fun i => ?_))
  · exact iterate_corners hf hτ ((order_corners_dvd τ).trans hn) i
  · exact (iterate_wings hω _).2 ((order_dvd (by simp) ω).trans hn) i
  · exact (iterate_centerCorners hσ _).2 ((order_dvd (by simp) σ).trans hn) i

theorem cube5_home_of_dvd (a : List (WideAxisMove 1)) (ha : ∀ m ∈ a, m.WF) {n : Nat} (hn : 5354228880 ∣ n) (c : Cube5) :
    movedAlg c (List.replicate n a).flatten = c := by
  obtain ⟨⟨⟨⟨ε, τ, hε, hτ, -⟩, -, -⟩, -, σ, -, hσ, -⟩, -⟩ := (C72_cube5_partial _).1 ⟨a, ha, rfl⟩
  obtain ⟨f, e, t, u, hf, he, h⟩ := cube5_uniform.alg a
  simp only [show movedAlg _ a = _ from h _] at hε hτ hσ
  refine ((C84_repeat ⟨Cube5, WideAxisMove 1⟩ (by simp [cubeSystems]) a).2 _ (Cube.SOLVED : Cube5) C08_solved_valid.2.2.2.1).1 ?_ c
  refine cube5_home ?_ ?_ ?_
  · rw [cube5_iter h]; exact funext (iterate_corners hf hτ ((order_corners_dvd τ).trans hn))
  · rw [cube5_iter h]; exact funext (iterate_edges he hε ((order_edges_dvd ε).trans hn))
  · rw [cube5_iter h]; exact funext ((iterate_centerCorners hσ _).2 ((order_dvd (by simp) σ).trans hn))

theorem cube6_home_of_dvd (a : List (WideAxisMove 2)) (ha : ∀ m ∈ a, m.WF) {n : Nat} (hn : 5354228880 ∣ n) (c : Cube6) :
    movedAlg c (List.replicate n a).flatten = c := by
  obtain ⟨-, τ, hτ, ω₁, ω₂, σ₁, σ₂, ρ, l, h1, h2, h3, h4, h5, h6, -⟩ := (C71_cube6 _).1.1 ⟨a, ha, rfl⟩
  obtain ⟨f, w1, w2, t1, t2, v, hf, h⟩ := cube6_uniform.alg a
  rw [show movedAlg _ a = _ from h _] at hτ h1 h2 h3 h4 h5 h6
  refine ((C84_repeat ⟨Cube6, WideAxisMove 2⟩ (by simp [cubeSystems]) a).2 _ (Cube.SOLVED : Cube6) C08_solved_valid.2.2.2.2.1).1 ?_ c
  refine (cube6_iter h _ _).trans (Cube6.ext (funext fun i => ?_) (funext fun i => ?_) (funext fun i => ?_) (funext fun i => ?_)
    (funext fun i => ?_) (funext fun i => ?_))
  · exact iterate_corners hf hτ ((order_corners_dvd τ).trans hn) i
  · exact (iterate_wings h1 _).2 ((order_dvd (by simp) ω₁).trans hn) i
  · exact (iterate_wings h2 _).2 ((order_dvd (by simp) ω₂).trans hn) i
  · exact (iterate_centerCorners h3 _).2 ((order_dvd (by simp) σ₁).trans hn) i
  · exact (iterate_centerCorners h4 _).2 ((order_dvd (by simp) σ₂).trans hn) i
  · exact (iterate_centerWings h5 h6 _).2 ⟨(order_dvd (card_hand _).le ρ).trans hn, (order_dvd (card_hand _).le l).trans hn⟩ i

/-- the center edges of the 7x7 are home when the edges are -/
theorem cube7_home {a : List (WideAxisMove 2)} (h1 : (movedAlg (Cube.SOLVED : Cube7) a).corners = PieceSet.SOLVED Corner)
    (h2 : (movedAlg (Cube.SOLVED : Cube7) a).edges = PieceSet.SOLVED Edge)
    (h3 : (movedAlg (Cube.SOLVED : Cube7) a).wings1 = PieceSet.SOLVED Wing)
    (h4 : (movedAlg (Cube.SOLVED : Cube7) a).wings2 = PieceSet.SOLVED Wing)
    (h5 : (movedAlg (Cube.SOLVED : Cube7) a).centerCorners1 = PieceSet.SOLVED CenterCorner)
    (h6 : (movedAlg (Cube.SOLVED : Cube7) a).centerCorners2 = PieceSet.SOLVED CenterCorner)
    (h7 : (movedAlg (Cube.SOLVED : Cube7) a).centerWings = PieceSet.SOLVED CenterWing) :
    movedAlg (Cube.SOLVED : Cube7) a = Cube.SOLVED :=
  Cube7.ext h1 h2 h3 h4 h5 h6 h7 ((C72_center_edges_stuck.2 a).2 h2).1 ((C72_center_edges_stuck.2 a).2 h2).2

theorem cube7_home_of_dvd (a : List (WideAxisMove 2)) (ha : ∀ m ∈ a, m.WF) {n : Nat} (hn : 5354228880 ∣ n) (c : Cube7) :
    movedAlg c (List.replicate n a).flatten = c := by
  obtain ⟨⟨⟨⟨ε, -, hε, -, -⟩, -, -⟩, τ, hτ, ω₁, ω₂, σ₁, σ₂, ρ, l, h1, h2, h3, h4, h5, h6, -⟩, -⟩ :=
    (C72_cube7_partial _).1 ⟨a, ha, rfl⟩
  obtain ⟨f, e, w1, w2, t1, t2, v, u1, u2, hf, he, h⟩ := cube7_uniform.alg a
  simp only [show movedAlg _ a = _ from h _] at hε hτ h1 h2 h3 h4 h5 h6
  refine ((C84_repeat ⟨Cube7, WideAxisMove 2⟩ (by simp [cubeSystems]) a).2 _ (Cube.SOLVED : Cube7) C08_solved_valid.2.2.2.2.2).1 ?_ c
  refine cube7_home ?_ ?_ ?_ ?_ ?_ ?_ ?_
  · rw [cube7_iter h]; exact funext (iterate_corners hf hτ ((order_corners_dvd τ).trans hn))
  · rw [cube7_iter h]; exact funext (iterate_edges he hε ((order_edges_dvd ε).trans hn))
  · rw [cube7_iter h]; exact funext ((iterate_wings h1 _).2 ((order_dvd (by simp) ω₁).trans hn))
  · rw [cube7_iter h]; exact funext ((iterate_wings h2 _).2 ((order_dvd (by simp) ω₂).trans hn))
  · rw [cube7_iter h]; exact funext ((iterate_centerCorners h3 _).2 ((order_dvd (by simp) σ₁).trans hn))
  · rw [cube7_iter h]; exact funext ((iterate_centerCorners h4 _).2 ((order_dvd (by simp) σ₂).trans hn))
  · rw [cube7_iter h]
    exact funext ((iterate_centerWings h5 h6 _).2 ⟨(order_dvd (card_hand _).le ρ).trans hn, (order_dvd (card_hand _).le l).trans hn⟩)

/-! ## The numbers are reached -/

/-- a permutation from one of its powers that does nothing -/
def permOf {ι : Type} (f : ι → ι) (N : Nat) (h : ∀ i, f^[N] (f i) = i) : Perm ι where
  toFun := f
  invFun := f^[N]
  left_inv := h
  right_inv i := by rw [← Function.iterate_succ_apply' f N i, Function.iterate_succ_apply]; exact h i

theorem permOf_pow {ι : Type} {f : ι → ι} {N : Nat} (h : ∀ i, f^[N] (f i) = i) (n : Nat) (i : ι) : (permOf f N h ^ n) i = f^[n] i := by
  induction n with
  | zero => rfl
  | succ n ih => rw [pow_succ', Perm.mul_apply, ih, Function.iterate_succ_apply']; rfl

theorem permOf_order {ι : Type} {f : ι → ι} {N : Nat} (h : ∀ i, f^[N] (f i) = i) {a b : Nat} (i j : ι)
    (hi : f^[a] i = i ∧ 0 < a ∧ ∀ k < a, 0 < k → f^[k] i ≠ i) (hj : f^[b] j = j ∧ 0 < b ∧ ∀ k < b, 0 < k → f^[k] j ≠ j)
    (hN : N + 1 ∣ Nat.lcm a b) : orderOf (permOf f N h) = N + 1 := by
  refine Nat.dvd_antisymm (orderOf_dvd_of_pow_eq_one (Equiv.ext fun i => ?_)) (hN.trans (Nat.lcm_dvd ?_ ?_))
  · rw [permOf_pow, Function.iterate_succ_apply]; exact h i
  · refine dvd_of_iterate hi ?_
    rw [← permOf_pow h, pow_orderOf_eq_one]; rfl
  · refine dvd_of_iterate hj ?_
    rw [← permOf_pow h, pow_orderOf_eq_one]; rfl

theorem sign_of_odd_order {ι : Type} [Fintype ι] [DecidableEq ι] {σ : Perm ι} {n : Nat} (h : σ ^ n = 1) (hn : Odd n) :
    Perm.sign σ = 1 := by
  rcases Int.units_eq_one_or (Perm.sign σ) with e | e
  · exact e
  · have := congrArg Perm.sign h
    rw [map_pow, e, hn.neg_one_pow, map_one] at this
    exact absurd this (by decide)

/-- a cycle of `a` things and one of `b` things -/
def twoCycles (a b : Nat) (i : Fin 24) : Fin 24 :=
  if i.1 < a then Fin.ofNat 24 (if i.1 + 1 < a then i.1 + 1 else 0)
  else if i.1 < a + b then Fin.ofNat 24 (if i.1 + 1 < a + b then i.1 + 1 else a)
  else i

def cycles23 : Perm (Fin 24) := permOf (twoCycles 23 1) 22 (by decide +kernel)
def cycles95 : Perm (Fin 24) := permOf (twoCycles 19 5) 94 (by decide +kernel)
def cycles119 : Perm (Fin 24) := permOf (twoCycles 17 7) 118 (by decide +kernel)
def cycles143 : Perm (Fin 24) := permOf (twoCycles 13 11) 142 (by decide +kernel)
def cycles16 : Perm (Fin 24) := permOf (twoCycles 16 1) 15 (by decide +kernel)

theorem order_cycles23 : orderOf cycles23 = 23 := permOf_order _ 0 23 (a := 23) (b := 1) (by decide +kernel) (by decide +kernel) (by decide)
theorem order_cycles95 : orderOf cycles95 = 95 := permOf_order _ 0 19 (a := 19) (b := 5) (by decide +kernel) (by decide +kernel) (by decide)
theorem order_cycles119 : orderOf cycles119 = 119 := permOf_order _ 0 17 (a := 17) (b := 7) (by decide +kernel) (by decide +kernel) (by decide)
theorem order_cycles143 : orderOf cycles143 = 143 := permOf_order _ 0 13 (a := 13) (b := 11) (by decide +kernel) (by decide +kernel) (by decide)
theorem order_cycles16 : orderOf cycles16 = 16 := permOf_order _ 0 16 (a := 16) (b := 1) (by decide +kernel) (by decide +kernel) (by decide)

theorem even_of_order {σ : Perm (Fin 24)} {n : Nat} (h : orderOf σ = n) (hn : Odd n) : Perm.sign σ = 1 :=
  sign_of_odd_order (h ▸ pow_orderOf_eq_one σ) hn

/-- what `R U2 D' B D'` does to the corners -/
def longCorners : PieceSet Corner 8 := (movedAlg Cube3.SOLVED longOrder).corners

/-- and to the edges -/
def longEdges : PieceSet Edge 12 := (movedAlg Cube3.SOLVED longOrder).edges

theorem long_lawful : (⟨longEdges, longCorners⟩ : Cube3).Lawful := (C15_reachable_iff _).1.1 ⟨longOrder, rfl⟩

/-- where the corners go -/
def longTau (i : Fin 8) : Fin 8 := ((List.finRange 8).find? fun j =>
  decide (Piece.position (movedAlg (PieceSet.SOLVED Corner i) longOrder) = PieceSetDescriptor.REFERENCE_POSITIONS (P := Corner) j)).getD 0

theorem long_even : ∃ τ, longCorners.Arranged τ ∧ Perm.sign τ = 1 := by
  have h : ∀ i, longTau^[14] (longTau i) = i := by decide +kernel
  have p : ∀ i, Piece.position (movedAlg (PieceSet.SOLVED Corner i) longOrder) =
    PieceSetDescriptor.REFERENCE_POSITIONS (P := Corner) (longTau i) := by decide +kernel
  generalize longTau = f at h p
  refine ⟨permOf f 14 h, fun i => ?_, sign_of_odd_order (n := 15) (Equiv.ext fun i => ?_) (by decide)⟩
  · rw [longCorners, cube3_corners_alg, show Cube3.SOLVED.corners = PieceSet.SOLVED Corner from rfl]; exact p i
  · rw [permOf_pow, Function.iterate_succ_apply]; exact h i

theorem solved_corners_cover : Covers (PieceSet.SOLVED Corner) := covers_of_valid corner_turns C08_solved_valid.1
theorem solved_edges_cover : Covers (PieceSet.SOLVED Edge) := covers_of_valid edge_turns C08_solved_valid.2.1.1

theorem long_corners {f : Corner → Corner} (hf : Blind f) (h : (fun i => f (PieceSet.SOLVED Corner i)) = longCorners) (n : Nat) :
    (∀ i, f^[n] (PieceSet.SOLVED Corner i) = PieceSet.SOLVED Corner i) ↔ 45 ∣ n := by
  have e : f = (movedAlg · longOrder) := by
    refine hf.eq_of_covers solved_corners_cover (blind_alg corner_blind longOrder 1) fun i => ?_
    exact (congrFun h i).trans (cube3_corners_alg Cube3.SOLVED longOrder i)
  subst e
  rw [← (C101_reached n).2]
  refine Iff.symm (Iff.trans (Eq.congr_left (cube2_corners_alg Cube3.SOLVED _)) ?_)
  rw [Cube2.ext_iff, funext_iff]
  simp only [cube3_corners_alg]
  simp only [movedAlg_repeat]
  exact Iff.rfl

theorem long_edges {f : Corner → Corner} {e : Edge → Edge} (hf : Blind f) (he : Blind e)
    (h : (fun i => f (PieceSet.SOLVED Corner i)) = longCorners) (h' : (fun i => e (PieceSet.SOLVED Edge i)) = longEdges) (n : Nat) :
    ((∀ i, f^[n] (PieceSet.SOLVED Corner i) = PieceSet.SOLVED Corner i) ∧
      ∀ i, e^[n] (PieceSet.SOLVED Edge i) = PieceSet.SOLVED Edge i) ↔ 1260 ∣ n := by
  have e1 : f = (movedAlg · longOrder) := by
    refine hf.eq_of_covers solved_corners_cover (blind_alg corner_blind longOrder 1) fun i => ?_
    exact (congrFun h i).trans (cube3_corners_alg Cube3.SOLVED longOrder i)
  have e2 : e = (movedAlg · longOrder) := by
    refine he.eq_of_covers solved_edges_cover (blind_alg edge_blind longOrder 1) fun i => ?_
    exact (congrFun h' i).trans (cube3_edges_alg Cube3.SOLVED longOrder i)
  subst e1 e2
  rw [← (C101_reached n).1, Cube3.ext_iff, funext_iff, funext_iff]
  simp only [cube3_edges_alg, cube3_corners_alg]
  simp only [movedAlg_repeat]
  exact and_comm

/-- algs of the 4x4 with a given effect on wings and centers -/
theorem cube4_alg (ω σ : Perm (Fin 24)) (hσ : Perm.sign σ = 1) : ∃ a : List (WideAxisMove 1), (∀ m ∈ a, m.WF) ∧
    ∀ n, movedAlg (Cube.SOLVED : Cube4) (List.replicate n a).flatten = Cube.SOLVED ↔ 45 ∣ n ∧ orderOf ω ∣ n ∧ orderOf σ ∣ n := by
  obtain ⟨τ, hτ, hs⟩ := long_even
  obtain ⟨a, ha, e⟩ := (C71_cube4 ⟨longCorners, fun i => Wing.SOLVED (ω i), fun i => CenterCorner.SOLVED (σ i)⟩).1.2
    ⟨long_lawful.twists, ⟨ω, fun _ => rfl⟩, τ, σ, hτ, fun _ => rfl, hσ.trans hs.symm⟩
  refine ⟨a, ha, fun n => ?_⟩
  obtain ⟨f, w, t, hf, h⟩ := cube4_uniform.alg a
  obtain ⟨e1, e2, e3⟩ := Cube4.ext_iff.1 ((h Cube.SOLVED).symm.trans e)
  rw [cube4_iter h, Cube4.ext_iff, funext_iff, funext_iff, funext_iff, ← long_corners hf e1,
    ← iterate_wings (w := w) (ω := ω) (fun i => congrFun e2 i), ← iterate_centerCorners (t := t) (σ := σ) (fun i => congrFun e3 i)]
  exact Iff.rfl

/-- **C106** There is an alg that brings the 4x4 back exactly after every 765765 repetitions. -/
theorem C106_cube4_reached : ∃ a : List (WideAxisMove 1), (∀ m ∈ a, m.WF) ∧
    ∀ n, movedAlg (Cube.SOLVED : Cube4) (List.replicate n a).flatten = Cube.SOLVED ↔ 765765 ∣ n := by
  obtain ⟨a, ha, h⟩ := cube4_alg cycles119 cycles143 (even_of_order order_cycles143 (by decide))
  refine ⟨a, ha, fun n => ?_⟩
  rw [h, order_cycles119, order_cycles143]
  omega

/-- algs of the 5x5 with a given effect on the centers -/
theorem cube5_alg (σ : Perm (Fin 24)) (hσ : Perm.sign σ = 1) : ∃ a : List (WideAxisMove 1), (∀ m ∈ a, m.WF) ∧
    ∀ n, movedAlg (Cube.SOLVED : Cube5) (List.replicate n a).flatten = Cube.SOLVED ↔ 1260 ∣ n ∧ orderOf σ ∣ n := by
  obtain ⟨τ, hτ, hs⟩ := long_even
  obtain ⟨s, hfol⟩ := follow_exists longEdges
  obtain ⟨a, ha, e⟩ := (C72_cube5_partial ⟨longCorners, longEdges, fun i => CenterCorner.SOLVED (σ i), s⟩).2
    ⟨⟨long_lawful, τ, σ, hτ, fun _ => rfl, hσ.trans hs.symm⟩, hfol⟩
  refine ⟨a, ha, fun n => ?_⟩
  obtain ⟨f, d, t, u, hf, hd, h⟩ := cube5_uniform.alg a
  obtain ⟨e1, e2, e3, -⟩ := Cube5.ext_iff.1 ((h Cube.SOLVED).symm.trans e)
  rw [← long_edges hf hd e1 e2, ← iterate_centerCorners (t := t) (σ := σ) (fun i => congrFun e3 i)]
  constructor
  · intro hn
    rw [cube5_iter h, Cube5.ext_iff] at hn
    exact ⟨⟨fun i => congrFun hn.1 i, fun i => congrFun hn.2.1 i⟩, fun i => congrFun hn.2.2.1 i⟩
  · rintro ⟨⟨g1, g2⟩, g3⟩
    refine cube5_home ?_ ?_ ?_
    · rw [cube5_iter h]; exact funext g1
    · rw [cube5_iter h]; exact funext g2
    · rw [cube5_iter h]; exact funext g3

/-- **C106** There is an alg that brings the 5x5 back exactly after every 180180 repetitions. -/
theorem C106_cube5_reached : ∃ a : List (WideAxisMove 1), (∀ m ∈ a, m.WF) ∧
    ∀ n, movedAlg (Cube.SOLVED : Cube5) (List.replicate n a).flatten = Cube.SOLVED ↔ 180180 ∣ n := by
  obtain ⟨a, ha, h⟩ := cube5_alg cycles143 (even_of_order order_cycles143 (by decide))
  refine ⟨a, ha, fun n => ?_⟩
  rw [h, order_cycles143]
  omega

/-- center wings arranged by a permutation of each kind -/
def wingsBy (ρ : Perm { i : Fin 48 // (CenterWing.SOLVED i).rightHanded = true })
    (l : Perm { i : Fin 48 // (CenterWing.SOLVED i).rightHanded = false }) : PieceSet CenterWing 48 := fun i =>
  if h : (CenterWing.SOLVED i).rightHanded = true then CenterWing.SOLVED (ρ ⟨i, h⟩).1
  else CenterWing.SOLVED (l ⟨i, by simpa using h⟩).1

/-- the center wings of one kind, numbered -/
noncomputable def handEquiv (b : Bool) : Fin 24 ≃ { i : Fin 48 // (CenterWing.SOLVED i).rightHanded = b } :=
  Fintype.equivOfCardEq ((Fintype.card_fin 24).trans (card_hand b).symm)

theorem order_permCongr {α β : Type} (e : α ≃ β) (σ : Perm α) : orderOf (e.permCongr σ) = orderOf σ := by
  exact orderOf_injective (e.permCongrHom.toMonoidHom) e.permCongrHom.injective σ

/-- wings and centers of the 6x6 and the 7x7 with all the orders that are needed -/
theorem inner_lawful {τ : Perm (Fin 8)} (hs : Perm.sign τ = 1) : CentersLawful τ (fun i => Wing.SOLVED (cycles16 i))
    (fun i => Wing.SOLVED (cycles16 i)) (fun i => CenterCorner.SOLVED (cycles23 i)) (fun i => CenterCorner.SOLVED (cycles95 i))
    (wingsBy ((handEquiv true).permCongr cycles119) ((handEquiv false).permCongr cycles143)) := by
  refine ⟨cycles16, cycles16, cycles23, cycles95, (handEquiv true).permCongr cycles119, (handEquiv false).permCongr cycles143,
    fun _ => rfl, fun _ => rfl, fun _ => rfl, fun _ => rfl, fun i => dif_pos i.2, fun i => dif_neg (by rw [i.2]; decide), ?_, ?_, ?_, ?_⟩
  · rw [hs, even_of_order order_cycles23 (by decide)]
  · rw [hs, even_of_order order_cycles95 (by decide)]
  · rw [hs, Perm.sign_permCongr, even_of_order order_cycles119 (by decide), one_mul, Int.units_mul_self]
  · rw [hs, Perm.sign_permCongr, even_of_order order_cycles143 (by decide), one_mul, Int.units_mul_self]

/-- **C106** There is an alg that brings the 6x6 back exactly after every 5354228880 repetitions. -/
theorem C106_cube6_reached : ∃ a : List (WideAxisMove 2), (∀ m ∈ a, m.WF) ∧
    ∀ n, movedAlg (Cube.SOLVED : Cube6) (List.replicate n a).flatten = Cube.SOLVED ↔ 5354228880 ∣ n := by
  obtain ⟨τ, hτ, hs⟩ := long_even
  obtain ⟨a, ha, e⟩ := (C71_cube6 ⟨longCorners, fun i => Wing.SOLVED (cycles16 i), fun i => Wing.SOLVED (cycles16 i),
    fun i => CenterCorner.SOLVED (cycles23 i), fun i => CenterCorner.SOLVED (cycles95 i),
    wingsBy ((handEquiv true).permCongr cycles119) ((handEquiv false).permCongr cycles143)⟩).1.2
    ⟨long_lawful.twists, τ, hτ, inner_lawful hs⟩
  refine ⟨a, ha, fun n => ⟨fun hn => ?_, fun hn => cube6_home_of_dvd a ha hn _⟩⟩
  obtain ⟨f, w1, w2, t1, t2, v, hf, h⟩ := cube6_uniform.alg a
  obtain ⟨e1, e2, -, e4, e5, e6⟩ := Cube6.ext_iff.1 ((h Cube.SOLVED).symm.trans e)
  rw [cube6_iter h, Cube6.ext_iff] at hn
  obtain ⟨n1, n2, -, n4, n5, n6⟩ := hn
  have d1 := (long_corners hf e1 n).1 fun i => congrFun n1 i
  have d2 := (iterate_wings (w := w1) (ω := cycles16) (fun i => congrFun e2 i) n).1 fun i => congrFun n2 i
  have d4 := (iterate_centerCorners (t := t1) (σ := cycles23) (fun i => congrFun e4 i) n).1 fun i => congrFun n4 i
  have d5 := (iterate_centerCorners (t := t2) (σ := cycles95) (fun i => congrFun e5 i) n).1 fun i => congrFun n5 i
  have d6 := (iterate_centerWings (v := v) (ρ := (handEquiv true).permCongr cycles119) (l := (handEquiv false).permCongr cycles143)
    (fun i => (congrFun e6 i.1).trans (dif_pos i.2)) (fun i => (congrFun e6 i.1).trans (dif_neg (by rw [i.2]; decide))) n).1
    fun i => congrFun n6 i
  rw [order_permCongr, order_permCongr] at d6
  rw [order_cycles16] at d2
  rw [order_cycles23] at d4
  rw [order_cycles95] at d5
  rw [order_cycles119, order_cycles143] at d6
  exact (show 5354228880 ∣ Nat.lcm 45 (Nat.lcm 16 (Nat.lcm 23 (Nat.lcm 95 (Nat.lcm 119 143)))) by decide +kernel).trans
    (Nat.lcm_dvd d1 (Nat.lcm_dvd d2 (Nat.lcm_dvd d4 (Nat.lcm_dvd d5 (Nat.lcm_dvd d6.1 d6.2)))))

/-- **C106** There is an alg that brings the 7x7 back exactly after every 5354228880 repetitions. -/
theorem C106_cube7_reached : ∃ a : List (WideAxisMove 2), (∀ m ∈ a, m.WF) ∧
    ∀ n, movedAlg (Cube.SOLVED : Cube7) (List.replicate n a).flatten = Cube.SOLVED ↔ 5354228880 ∣ n := by
  obtain ⟨τ, hτ, hs⟩ := long_even
  obtain ⟨s, hfol⟩ := follow_exists longEdges
  obtain ⟨a, ha, e⟩ := (C72_cube7_partial ⟨longCorners, longEdges, fun i => Wing.SOLVED (cycles16 i), fun i => Wing.SOLVED (cycles16 i),
    fun i => CenterCorner.SOLVED (cycles23 i), fun i => CenterCorner.SOLVED (cycles95 i),
    wingsBy ((handEquiv true).permCongr cycles119) ((handEquiv false).permCongr cycles143), s, s⟩).2
    ⟨⟨long_lawful, τ, hτ, inner_lawful hs⟩, hfol, hfol⟩
  refine ⟨a, ha, fun n => ⟨fun hn => ?_, fun hn => cube7_home_of_dvd a ha hn _⟩⟩
  obtain ⟨f, d, w1, w2, t1, t2, v, u1, u2, hf, hd, h⟩ := cube7_uniform.alg a
  obtain ⟨e1, -, e2, -, e4, e5, e6, -⟩ := Cube7.ext_iff.1 ((h Cube.SOLVED).symm.trans e)
  rw [cube7_iter h, Cube7.ext_iff] at hn
  obtain ⟨n1, -, n2, -, n4, n5, n6, -⟩ := hn
  have d1 := (long_corners hf e1 n).1 fun i => congrFun n1 i
  have d2 := (iterate_wings (w := w1) (ω := cycles16) (fun i => congrFun e2 i) n).1 fun i => congrFun n2 i
  have d4 := (iterate_centerCorners (t := t1) (σ := cycles23) (fun i => congrFun e4 i) n).1 fun i => congrFun n4 i
  have d5 := (iterate_centerCorners (t := t2) (σ := cycles95) (fun i => congrFun e5 i) n).1 fun i => congrFun n5 i
  have d6 := (iterate_centerWings (v := v) (ρ := (handEquiv true).permCongr cycles119) (l := (handEquiv false).permCongr cycles143)
    (fun i => (congrFun e6 i.1).trans (dif_pos i.2)) (fun i => (congrFun e6 i.1).trans (dif_neg (by rw [i.2]; decide))) n).1
    fun i => congrFun n6 i
  rw [order_permCongr, order_permCongr] at d6
  rw [order_cycles16] at d2
  rw [order_cycles23] at d4
  rw [order_cycles95] at d5
  rw [order_cycles119, order_cycles143] at d6
  exact (show 5354228880 ∣ Nat.lcm 45 (Nat.lcm 16 (Nat.lcm 23 (Nat.lcm 95 (Nat.lcm 119 143)))) by decide +kernel).trans
    (Nat.lcm_dvd d1 (Nat.lcm_dvd d2 (Nat.lcm_dvd d4 (Nat.lcm_dvd d5 (Nat.lcm_dvd d6.1 d6.2)))))

/-- **C106** 5354228880 repetitions of any alg leave every state of the cubes from 4x4 to 7x7 as it is. On each of these sizes it
is the least number that does so for all algs: every other one is a multiple. -/
theorem C106_all_at_once :
    (∀ a : List (WideAxisMove 1), (∀ m ∈ a, m.WF) →
      (∀ c : Cube4, movedAlg c (List.replicate 5354228880 a).flatten = c) ∧
      ∀ c : Cube5, movedAlg c (List.replicate 5354228880 a).flatten = c) ∧
    (∀ a : List (WideAxisMove 2), (∀ m ∈ a, m.WF) →
      (∀ c : Cube6, movedAlg c (List.replicate 5354228880 a).flatten = c) ∧
      ∀ c : Cube7, movedAlg c (List.replicate 5354228880 a).flatten = c) ∧
    ∀ n, ((∀ a : List (WideAxisMove 1), (∀ m ∈ a, m.WF) → movedAlg (Cube.SOLVED : Cube4) (List.replicate n a).flatten = Cube.SOLVED) ∨
      (∀ a : List (WideAxisMove 1), (∀ m ∈ a, m.WF) → movedAlg (Cube.SOLVED : Cube5) (List.replicate n a).flatten = Cube.SOLVED) ∨
      (∀ a : List (WideAxisMove 2), (∀ m ∈ a, m.WF) → movedAlg (Cube.SOLVED : Cube6) (List.replicate n a).flatten = Cube.SOLVED) ∨
      ∀ a : List (WideAxisMove 2), (∀ m ∈ a, m.WF) → movedAlg (Cube.SOLVED : Cube7) (List.replicate n a).flatten = Cube.SOLVED) →
      5354228880 ∣ n := by
  refine ⟨fun a ha => ⟨cube4_home_of_dvd a ha (dvd_refl _), cube5_home_of_dvd a ha (dvd_refl _)⟩,
    fun a ha => ⟨cube6_home_of_dvd a ha (dvd_refl _), cube7_home_of_dvd a ha (dvd_refl _)⟩, fun n hn => ?_⟩
  have o23 := even_of_order order_cycles23 (by decide)
  have o95 := even_of_order order_cycles95 (by decide)
  have o119 := even_of_order order_cycles119 (by decide)
  have o143 := even_of_order order_cycles143 (by decide)
  rcases hn with hn | hn | hn | hn
  · obtain ⟨a, ha, h⟩ := cube4_alg cycles119 cycles143 o143
    obtain ⟨b, hb, h'⟩ := cube4_alg cycles16 cycles23 o23
    obtain ⟨c, hc, h''⟩ := cube4_alg cycles16 cycles95 o95
    obtain ⟨d1, d2, d3⟩ := (h n).1 (hn a ha)
    obtain ⟨-, d4, d5⟩ := (h' n).1 (hn b hb)
    obtain ⟨-, -, d6⟩ := (h'' n).1 (hn c hc)
    rw [order_cycles119] at d2
    rw [order_cycles143] at d3
    rw [order_cycles16] at d4
    rw [order_cycles23] at d5
    rw [order_cycles95] at d6
    exact (show 5354228880 ∣ Nat.lcm 45 (Nat.lcm 16 (Nat.lcm 23 (Nat.lcm 95 (Nat.lcm 119 143)))) by decide +kernel).trans
      (Nat.lcm_dvd d1 (Nat.lcm_dvd d4 (Nat.lcm_dvd d5 (Nat.lcm_dvd d6 (Nat.lcm_dvd d2 d3)))))
  · have get : ∀ σ : Perm (Fin 24), Perm.sign σ = 1 → orderOf σ ∣ n := fun σ hσ => by
      obtain ⟨a, ha, h⟩ := cube5_alg σ hσ
      exact ((h n).1 (hn a ha)).2
    have d2 := get _ o119
    have d3 := get _ o143
    have d5 := get _ o23
    have d6 := get _ o95
    have d1 : 55440 ∣ n := C101_all_at_once.2.2 n fun a => by
      have h := congrArg Cube5.core (hn (atDepth 1 0 a) fun m hm => (atDepth_depth 1 a m hm).trans (by decide))
      rw [C66_core.2.1] at h
      rw [List.map_flatten, List.map_replicate, atDepth_axisMove] at h
      exact h
    rw [order_cycles119] at d2
    rw [order_cycles143] at d3
    rw [order_cycles23] at d5
    rw [order_cycles95] at d6
    exact (show 5354228880 ∣ Nat.lcm 55440 (Nat.lcm 23 (Nat.lcm 95 (Nat.lcm 119 143))) by decide +kernel).trans
      (Nat.lcm_dvd d1 (Nat.lcm_dvd d5 (Nat.lcm_dvd d6 (Nat.lcm_dvd d2 d3))))
  · obtain ⟨a, ha, h⟩ := C106_cube6_reached
    exact (h n).1 (hn a ha)
  · obtain ⟨a, ha, h⟩ := C106_cube7_reached
    exact (h n).1 (hn a ha)

/-- the hypothesis of the last part is met by 5354228880 itself, and 765765 does not meet it -/
example : (∀ a : List (WideAxisMove 1), (∀ m ∈ a, m.WF) →
      movedAlg (Cube.SOLVED : Cube4) (List.replicate 5354228880 a).flatten = Cube.SOLVED) ∧
    ¬ ∀ a : List (WideAxisMove 1), (∀ m ∈ a, m.WF) →
      movedAlg (Cube.SOLVED : Cube4) (List.replicate 765765 a).flatten = Cube.SOLVED :=
  ⟨fun a ha => (C106_all_at_once.1 a ha).1 Cube.SOLVED, fun h => absurd (C106_all_at_once.2.2 765765 (.inl h)) (by decide)⟩

/-- three layers of R, then two of U, on the 7x7 -/
example (c : Cube7) : movedAlg c (List.replicate 5354228880
    [(⟨2, ⟨.R, .single⟩⟩ : WideAxisMove 2), ⟨1, ⟨.U, .single⟩⟩]).flatten = c :=
  (C106_all_at_once.2.1 _ (by decide)).2 c

end Barbarosa
