import Verif.Props.Effects

/-!
# C120: algs with nothing in common, on every cube

The cubes of all sizes with all kinds of moves they accept (`cubeSystems`). What two algs have in common is seen on one cube.
-/

namespace Barbarosa

open PieceSet

/-- the pieces of a cube, each with the number of its array and its place in the array -/
class Parts (C : Type) where
  Part : Type
  /-- the piece is the same on both cubes: in the same place and turned the same way -/
  same : Part → C → C → Prop

instance : Parts Cube2 := ⟨Fin 8, fun i c d => c.corners i = d.corners i⟩
instance : Parts Cube3 where
  Part := Fin 12 ⊕ Fin 8
  same
    | .inl i => fun c d => c.edges i = d.edges i
    | .inr i => fun c d => c.corners i = d.corners i
instance : Parts Cube4 where
  Part := Fin 8 ⊕ Fin 24 ⊕ Fin 24
  same
    | .inl i => fun c d => c.corners i = d.corners i
    | .inr (.inl i) => fun c d => c.wings i = d.wings i
    | .inr (.inr i) => fun c d => c.centers i = d.centers i
instance : Parts Cube5 where
  Part := Fin 8 ⊕ Fin 12 ⊕ Fin 24 ⊕ Fin 24
  same
    | .inl i => fun c d => c.corners i = d.corners i
    | .inr (.inl i) => fun c d => c.edges i = d.edges i
    | .inr (.inr (.inl i)) => fun c d => c.cornerCenters i = d.cornerCenters i
    | .inr (.inr (.inr i)) => fun c d => c.cornerEdges i = d.cornerEdges i
instance : Parts Cube6 where
  Part := Fin 8 ⊕ Fin 24 ⊕ Fin 24 ⊕ Fin 24 ⊕ Fin 24 ⊕ Fin 48
  same
    | .inl i => fun c d => c.corners i = d.corners i
    | .inr (.inl i) => fun c d => c.wings1 i = d.wings1 i
    | .inr (.inr (.inl i)) => fun c d => c.wings2 i = d.wings2 i
    | .inr (.inr (.inr (.inl i))) => fun c d => c.centerCorners1 i = d.centerCorners1 i
    | .inr (.inr (.inr (.inr (.inl i)))) => fun c d => c.centerCorners2 i = d.centerCorners2 i
    | .inr (.inr (.inr (.inr (.inr i)))) => fun c d => c.centerWings i = d.centerWings i
instance : Parts Cube7 where
  Part := Fin 8 ⊕ Fin 12 ⊕ Fin 24 ⊕ Fin 24 ⊕ Fin 24 ⊕ Fin 24 ⊕ Fin 48 ⊕ Fin 24 ⊕ Fin 24
  same
    | .inl i => fun c d => c.corners i = d.corners i
    | .inr (.inl i) => fun c d => c.edges i = d.edges i
    | .inr (.inr (.inl i)) => fun c d => c.wings1 i = d.wings1 i
    | .inr (.inr (.inr (.inl i))) => fun c d => c.wings2 i = d.wings2 i
    | .inr (.inr (.inr (.inr (.inl i)))) => fun c d => c.centerCorners1 i = d.centerCorners1 i
    | .inr (.inr (.inr (.inr (.inr (.inl i))))) => fun c d => c.centerCorners2 i = d.centerCorners2 i
    | .inr (.inr (.inr (.inr (.inr (.inr (.inl i)))))) => fun c d => c.centerWings i = d.centerWings i
    | .inr (.inr (.inr (.inr (.inr (.inr (.inr (.inl i))))))) => fun c d => c.centerEdges1 i = d.centerEdges1 i
    | .inr (.inr (.inr (.inr (.inr (.inr (.inr (.inr i))))))) => fun c d => c.centerEdges2 i = d.centerEdges2 i

/-- nothing is left out: cubes are equal if all parts are -/
theorem parts_complete :
    (∀ c d : Cube2, (∀ k, Parts.same k c d) ↔ c = d) ∧ (∀ c d : Cube3, (∀ k, Parts.same k c d) ↔ c = d) ∧
    (∀ c d : Cube4, (∀ k, Parts.same k c d) ↔ c = d) ∧ (∀ c d : Cube5, (∀ k, Parts.same k c d) ↔ c = d) ∧
    (∀ c d : Cube6, (∀ k, Parts.same k c d) ↔ c = d) ∧ (∀ c d : Cube7, (∀ k, Parts.same k c d) ↔ c = d) := by
  refine ⟨fun c d => ⟨fun h => ?_, fun h k => ?_⟩, fun c d => ⟨fun h => ?_, fun h k => ?_⟩, fun c d => ⟨fun h => ?_, fun h k => ?_⟩,
    fun c d => ⟨fun h => ?_, fun h k => ?_⟩, fun c d => ⟨fun h => ?_, fun h k => ?_⟩, fun c d => ⟨fun h => ?_, fun h k => ?_⟩⟩
  · exact Cube2.ext (funext h)
  · subst h; rfl
  · exact Cube3.ext (funext fun i => h (.inl i)) (funext fun i => h (.inr i))
  · subst h; rcases k with k | k <;> rfl
  · exact Cube4.ext (funext fun i => h (.inl i)) (funext fun i => h (.inr (.inl i))) (funext fun i => h (.inr (.inr i)))
  · subst h; rcases k with k | k | k <;> rfl
  · exact Cube5.ext (funext fun i => h (.inl i)) (funext fun i => h (.inr (.inl i))) (funext fun i => h (.inr (.inr (.inl i))))
      (funext fun i => h (.inr (.inr (.inr i))))
  · subst h; rcases k with k | k | k | k <;> rfl
  · exact Cube6.ext (funext fun i => h (.inl i)) (funext fun i => h (.inr (.inl i))) (funext fun i => h (.inr (.inr (.inl i))))
      (funext fun i => h (.inr (.inr (.inr (.inl i))))) (funext fun i => h (.inr (.inr (.inr (.inr (.inl i))))))
      (funext fun i => h (.inr (.inr (.inr (.inr (.inr i))))))
  · subst h; rcases k with k | k | k | k | k | k <;> rfl
  · exact Cube7.ext (funext fun i => h (.inl i)) (funext fun i => h (.inr (.inl i))) (funext fun i => h (.inr (.inr (.inl i))))
      (funext fun i => h (.inr (.inr (.inr (.inl i))))) (funext fun i => h (.inr (.inr (.inr (.inr (.inl i))))))
      (funext fun i => h (.inr (.inr (.inr (.inr (.inr (.inl i)))))))
      (funext fun i => h (.inr (.inr (.inr (.inr (.inr (.inr (.inl i))))))))
      (funext fun i => h (.inr (.inr (.inr (.inr (.inr (.inr (.inr (.inl i)))))))))
      (funext fun i => h (.inr (.inr (.inr (.inr (.inr (.inr (.inr (.inr i)))))))))
  · subst h; rcases k with k | k | k | k | k | k | k | k | k <;> rfl

theorem pieces_commute {P : Type} {n : Nat} [Turnable P] {f g : P → P} (hf : Blind f) (hg : Blind g)
    (fi : Function.Injective f) (gi : Function.Injective g) {s : PieceSet P n} (cov : Covers s)
    (h : ∀ i, f (s i) = s i ∨ g (s i) = s i) (x : P) : g (f x) = f (g x) := by
  have all : ∀ x, f x = x ∨ g x = x := fun x => by
    obtain ⟨i, k, -, rfl⟩ := cov x
    rcases h i with e | e
    · exact .inl (by rw [hf.iterate, e])
    · exact .inr (by rw [hg.iterate, e])
  by_cases hx : f x = x
  · by_cases hy : g x = x
    · rw [hx, hy, hx]
    · rcases all (g x) with e | e
      · rw [hx, e]
      · exact absurd (gi e) hy
  · have hy := (all x).resolve_left hx
    rcases all (f x) with e | e
    · exact absurd (fi e) hx
    · rw [hy, e]

/-- maps that change no part in common commute -/
class PartsCommute (C : Type) [HasValid C] [PieceByPiece C] [Parts C] : Prop where
  commute : ∀ {F G : C → C} {c₀ : C}, PieceByPiece.Uniform F → PieceByPiece.Uniform G → Function.Injective F → Function.Injective G →
    HasValid.valid c₀ → (∀ k, Parts.same k (F c₀) c₀ ∨ Parts.same k (G c₀) c₀) → ∀ c, G (F c) = F (G c)

instance : PartsCommute Cube2 where
  commute := by
    rintro F G c₀ ⟨f₁, hf₁, eF⟩ ⟨f₂, hf₂, eG⟩ Fi Gi hv hk c
    have v_corners : c₀.corners.validate = none := hv
    simp only [eF, eG] at hk ⊢
    have inj : ∀ H : Cube2 → Cube2, Function.Injective H → ∀ c d, H c = H d → c = d := fun H h c d e => h e
    refine Cube2.ext (funext fun i => pieces_commute hf₁ hf₂
      (fun x y h => congrFun (congrArg Cube2.corners (inj _ Fi { c with corners := fun _ => x } { c with corners := fun _ => y } (by simp only [eF, h]))) 0)
      (fun x y h => congrFun (congrArg Cube2.corners (inj _ Gi { c with corners := fun _ => x } { c with corners := fun _ => y } (by simp only [eG, h]))) 0)
      (covers_of_valid corner_turns v_corners) hk _)

instance : PartsCommute Cube3 where
  commute := by
    rintro F G c₀ ⟨f₁, e₁, hf₁, he₁, eF⟩ ⟨f₂, e₂, hf₂, he₂, eG⟩ Fi Gi hv hk c
    obtain ⟨v_edges, v_corners⟩ := hv
    simp only [eF, eG] at hk ⊢
    have inj : ∀ H : Cube3 → Cube3, Function.Injective H → ∀ c d, H c = H d → c = d := fun H h c d e => h e
    refine Cube3.ext (funext fun i => pieces_commute he₁ he₂
      (fun x y h => congrFun (congrArg Cube3.edges (inj _ Fi { c with edges := fun _ => x } { c with edges := fun _ => y } (by simp only [eF, h]))) 0)
      (fun x y h => congrFun (congrArg Cube3.edges (inj _ Gi { c with edges := fun _ => x } { c with edges := fun _ => y } (by simp only [eG, h]))) 0)
      (covers_of_valid edge_turns v_edges) (fun i => hk (.inl i)) _)
      (funext fun i => pieces_commute hf₁ hf₂
      (fun x y h => congrFun (congrArg Cube3.corners (inj _ Fi { c with corners := fun _ => x } { c with corners := fun _ => y } (by simp only [eF, h]))) 0)
      (fun x y h => congrFun (congrArg Cube3.corners (inj _ Gi { c with corners := fun _ => x } { c with corners := fun _ => y } (by simp only [eG, h]))) 0)
      (covers_of_valid corner_turns v_corners) (fun i => hk (.inr i)) _)

instance : PartsCommute Cube4 where
  commute := by
    rintro F G c₀ ⟨f₁, w₁, t₁, hf₁, eF⟩ ⟨f₂, w₂, t₂, hf₂, eG⟩ Fi Gi hv hk c
    obtain ⟨v_corners, v_wings, v_centers⟩ := hv
    simp only [eF, eG] at hk ⊢
    have inj : ∀ H : Cube4 → Cube4, Function.Injective H → ∀ c d, H c = H d → c = d := fun H h c d e => h e
    refine Cube4.ext (funext fun i => pieces_commute hf₁ hf₂
      (fun x y h => congrFun (congrArg Cube4.corners (inj _ Fi { c with corners := fun _ => x } { c with corners := fun _ => y } (by simp only [eF, h]))) 0)
      (fun x y h => congrFun (congrArg Cube4.corners (inj _ Gi { c with corners := fun _ => x } { c with corners := fun _ => y } (by simp only [eG, h]))) 0)
      (covers_of_valid corner_turns v_corners) (fun i => hk (.inl i)) _)
      (funext fun i => pieces_commute (blind_wing _) (blind_wing _)
      (fun x y h => congrFun (congrArg Cube4.wings (inj _ Fi { c with wings := fun _ => x } { c with wings := fun _ => y } (by simp only [eF, h]))) 0)
      (fun x y h => congrFun (congrArg Cube4.wings (inj _ Gi { c with wings := fun _ => x } { c with wings := fun _ => y } (by simp only [eG, h]))) 0)
      (covers_of_valid wing_turns v_wings) (fun i => hk (.inr (.inl i))) _)
      (funext fun i => pieces_commute (blind_centerCorner _) (blind_centerCorner _)
      (fun x y h => congrFun (congrArg Cube4.centers (inj _ Fi { c with centers := fun _ => x } { c with centers := fun _ => y } (by simp only [eF, h]))) 0)
      (fun x y h => congrFun (congrArg Cube4.centers (inj _ Gi { c with centers := fun _ => x } { c with centers := fun _ => y } (by simp only [eG, h]))) 0)
      (covers_of_valid centerCorner_turns v_centers) (fun i => hk (.inr (.inr i))) _)

instance : PartsCommute Cube5 where
  commute := by
    rintro F G c₀ ⟨f₁, e₁, t₁, u₁, hf₁, he₁, eF⟩ ⟨f₂, e₂, t₂, u₂, hf₂, he₂, eG⟩ Fi Gi hv hk c
    obtain ⟨v_corners, v_edges, v_cornerCenters, v_cornerEdges⟩ := hv
    simp only [eF, eG] at hk ⊢
    have inj : ∀ H : Cube5 → Cube5, Function.Injective H → ∀ c d, H c = H d → c = d := fun H h c d e => h e
    refine Cube5.ext (funext fun i => pieces_commute hf₁ hf₂
      (fun x y h => congrFun (congrArg Cube5.corners (inj _ Fi { c with corners := fun _ => x } { c with corners := fun _ => y } (by simp only [eF, h]))) 0)
      (fun x y h => congrFun (congrArg Cube5.corners (inj _ Gi { c with corners := fun _ => x } { c with corners := fun _ => y } (by simp only [eG, h]))) 0)
      (covers_of_valid corner_turns v_corners) (fun i => hk (.inl i)) _)
      (funext fun i => pieces_commute he₁ he₂
      (fun x y h => congrFun (congrArg Cube5.edges (inj _ Fi { c with edges := fun _ => x } { c with edges := fun _ => y } (by simp only [eF, h]))) 0)
      (fun x y h => congrFun (congrArg Cube5.edges (inj _ Gi { c with edges := fun _ => x } { c with edges := fun _ => y } (by simp only [eG, h]))) 0)
      (covers_of_valid edge_turns v_edges) (fun i => hk (.inr (.inl i))) _)
      (funext fun i => pieces_commute (blind_centerCorner _) (blind_centerCorner _)
      (fun x y h => congrFun (congrArg Cube5.cornerCenters (inj _ Fi { c with cornerCenters := fun _ => x } { c with cornerCenters := fun _ => y } (by simp only [eF, h]))) 0)
      (fun x y h => congrFun (congrArg Cube5.cornerCenters (inj _ Gi { c with cornerCenters := fun _ => x } { c with cornerCenters := fun _ => y } (by simp only [eG, h]))) 0)
      (covers_of_valid centerCorner_turns v_cornerCenters) (fun i => hk (.inr (.inr (.inl i)))) _)
      (funext fun i => pieces_commute (blind_centerEdge _) (blind_centerEdge _)
      (fun x y h => congrFun (congrArg Cube5.cornerEdges (inj _ Fi { c with cornerEdges := fun _ => x } { c with cornerEdges := fun _ => y } (by simp only [eF, h]))) 0)
      (fun x y h => congrFun (congrArg Cube5.cornerEdges (inj _ Gi { c with cornerEdges := fun _ => x } { c with cornerEdges := fun _ => y } (by simp only [eG, h]))) 0)
      (covers_of_valid centerEdge_turns v_cornerEdges) (fun i => hk (.inr (.inr (.inr i)))) _)

instance : PartsCommute Cube6 where
  commute := by
    rintro F G c₀ ⟨f₁, w1₁, w2₁, t1₁, t2₁, v₁, hf₁, eF⟩ ⟨f₂, w1₂, w2₂, t1₂, t2₂, v₂, hf₂, eG⟩ Fi Gi hv hk c
    obtain ⟨v_corners, v_wings1, v_wings2, v_centerCorners1, v_centerCorners2, v_centerWings⟩ := hv
    simp only [eF, eG] at hk ⊢
    have inj : ∀ H : Cube6 → Cube6, Function.Injective H → ∀ c d, H c = H d → c = d := fun H h c d e => h e
    refine Cube6.ext (funext fun i => pieces_commute hf₁ hf₂
      (fun x y h => congrFun (congrArg Cube6.corners (inj _ Fi { c with corners := fun _ => x } { c with corners := fun _ => y } (by simp only [eF, h]))) 0)
      (fun x y h => congrFun (congrArg Cube6.corners (inj _ Gi { c with corners := fun _ => x } { c with corners := fun _ => y } (by simp only [eG, h]))) 0)
      (covers_of_valid corner_turns v_corners) (fun i => hk (.inl i)) _)
      (funext fun i => pieces_commute (blind_wing _) (blind_wing _)
      (fun x y h => congrFun (congrArg Cube6.wings1 (inj _ Fi { c with wings1 := fun _ => x } { c with wings1 := fun _ => y } (by simp only [eF, h]))) 0)
      (fun x y h => congrFun (congrArg Cube6.wings1 (inj _ Gi { c with wings1 := fun _ => x } { c with wings1 := fun _ => y } (by simp only [eG, h]))) 0)
      (covers_of_valid wing_turns v_wings1) (fun i => hk (.inr (.inl i))) _)
      (funext fun i => pieces_commute (blind_wing _) (blind_wing _)
      (fun x y h => congrFun (congrArg Cube6.wings2 (inj _ Fi { c with wings2 := fun _ => x } { c with wings2 := fun _ => y } (by simp only [eF, h]))) 0)
      (fun x y h => congrFun (congrArg Cube6.wings2 (inj _ Gi { c with wings2 := fun _ => x } { c with wings2 := fun _ => y } (by simp only [eG, h]))) 0)
      (covers_of_valid wing_turns v_wings2) (fun i => hk (.inr (.inr (.inl i)))) _)
      (funext fun i => pieces_commute (blind_centerCorner _) (blind_centerCorner _)
      (fun x y h => congrFun (congrArg Cube6.centerCorners1 (inj _ Fi { c with centerCorners1 := fun _ => x } { c with centerCorners1 := fun _ => y } (by simp only [eF, h]))) 0)
      (fun x y h => congrFun (congrArg Cube6.centerCorners1 (inj _ Gi { c with centerCorners1 := fun _ => x } { c with centerCorners1 := fun _ => y } (by simp only [eG, h]))) 0)
      (covers_of_valid centerCorner_turns v_centerCorners1) (fun i => hk (.inr (.inr (.inr (.inl i))))) _)
      (funext fun i => pieces_commute (blind_centerCorner _) (blind_centerCorner _)
      (fun x y h => congrFun (congrArg Cube6.centerCorners2 (inj _ Fi { c with centerCorners2 := fun _ => x } { c with centerCorners2 := fun _ => y } (by simp only [eF, h]))) 0)
      (fun x y h => congrFun (congrArg Cube6.centerCorners2 (inj _ Gi { c with centerCorners2 := fun _ => x } { c with centerCorners2 := fun _ => y } (by simp only [eG, h]))) 0)
      (covers_of_valid centerCorner_turns v_centerCorners2) (fun i => hk (.inr (.inr (.inr (.inr (.inl i)))))) _)
      (funext fun i => pieces_commute (blind_centerWing _) (blind_centerWing _)
      (fun x y h => congrFun (congrArg Cube6.centerWings (inj _ Fi { c with centerWings := fun _ => x } { c with centerWings := fun _ => y } (by simp only [eF, h]))) 0)
      (fun x y h => congrFun (congrArg Cube6.centerWings (inj _ Gi { c with centerWings := fun _ => x } { c with centerWings := fun _ => y } (by simp only [eG, h]))) 0)
      (covers_of_valid centerWing_turns v_centerWings) (fun i => hk (.inr (.inr (.inr (.inr (.inr i)))))) _)

instance : PartsCommute Cube7 where
  commute := by
    rintro F G c₀ ⟨f₁, e₁, w1₁, w2₁, t1₁, t2₁, v₁, u1₁, u2₁, hf₁, he₁, eF⟩ ⟨f₂, e₂, w1₂, w2₂, t1₂, t2₂, v₂, u1₂, u2₂, hf₂, he₂, eG⟩ Fi Gi hv hk c
    obtain ⟨v_corners, v_edges, v_wings1, v_wings2, v_centerCorners1, v_centerCorners2, v_centerWings, v_centerEdges1, v_centerEdges2⟩ := hv
    simp only [eF, eG] at hk ⊢
    have inj : ∀ H : Cube7 → Cube7, Function.Injective H → ∀ c d, H c = H d → c = d := fun H h c d e => h e
    refine Cube7.ext (funext fun i => pieces_commute hf₁ hf₂
      (fun x y h => congrFun (congrArg Cube7.corners (inj _ Fi { c with corners := fun _ => x } { c with corners := fun _ => y } (by simp only [eF, h]))) 0)
      (fun x y h => congrFun (congrArg Cube7.corners (inj _ Gi { c with corners := fun _ => x } { c with corners := fun _ => y } (by simp only [eG, h]))) 0)
      (covers_of_valid corner_turns v_corners) (fun i => hk (.inl i)) _)
      (funext fun i => pieces_commute he₁ he₂
      (fun x y h => congrFun (congrArg Cube7.edges (inj _ Fi { c with edges := fun _ => x } { c with edges := fun _ => y } (by simp only [eF, h]))) 0)
      (fun x y h => congrFun (congrArg Cube7.edges (inj _ Gi { c with edges := fun _ => x } { c with edges := fun _ => y } (by simp only [eG, h]))) 0)
      (covers_of_valid edge_turns v_edges) (fun i => hk (.inr (.inl i))) _)
      (funext fun i => pieces_commute (blind_wing _) (blind_wing _)
      (fun x y h => congrFun (congrArg Cube7.wings1 (inj _ Fi { c with wings1 := fun _ => x } { c with wings1 := fun _ => y } (by simp only [eF, h]))) 0)
      (fun x y h => congrFun (congrArg Cube7.wings1 (inj _ Gi { c with wings1 := fun _ => x } { c with wings1 := fun _ => y } (by simp only [eG, h]))) 0)
      (covers_of_valid wing_turns v_wings1) (fun i => hk (.inr (.inr (.inl i)))) _)
      (funext fun i => pieces_commute (blind_wing _) (blind_wing _)
      (fun x y h => congrFun (congrArg Cube7.wings2 (inj _ Fi { c with wings2 := fun _ => x } { c with wings2 := fun _ => y } (by simp only [eF, h]))) 0)
      (fun x y h => congrFun (congrArg Cube7.wings2 (inj _ Gi { c with wings2 := fun _ => x } { c with wings2 := fun _ => y } (by simp only [eG, h]))) 0)
      (covers_of_valid wing_turns v_wings2) (fun i => hk (.inr (.inr (.inr (.inl i))))) _)
      (funext fun i => pieces_commute (blind_centerCorner _) (blind_centerCorner _)
      (fun x y h => congrFun (congrArg Cube7.centerCorners1 (inj _ Fi { c with centerCorners1 := fun _ => x } { c with centerCorners1 := fun _ => y } (by simp only [eF, h]))) 0)
      (fun x y h => congrFun (congrArg Cube7.centerCorners1 (inj _ Gi { c with centerCorners1 := fun _ => x } { c with centerCorners1 := fun _ => y } (by simp only [eG, h]))) 0)
      (covers_of_valid centerCorner_turns v_centerCorners1) (fun i => hk (.inr (.inr (.inr (.inr (.inl i)))))) _)
      (funext fun i => pieces_commute (blind_centerCorner _) (blind_centerCorner _)
      (fun x y h => congrFun (congrArg Cube7.centerCorners2 (inj _ Fi { c with centerCorners2 := fun _ => x } { c with centerCorners2 := fun _ => y } (by simp only [eF, h]))) 0)
      (fun x y h => congrFun (congrArg Cube7.centerCorners2 (inj _ Gi { c with centerCorners2 := fun _ => x } { c with centerCorners2 := fun _ => y } (by simp only [eG, h]))) 0)
      (covers_of_valid centerCorner_turns v_centerCorners2) (fun i => hk (.inr (.inr (.inr (.inr (.inr (.inl i))))))) _)
      (funext fun i => pieces_commute (blind_centerWing _) (blind_centerWing _)
      (fun x y h => congrFun (congrArg Cube7.centerWings (inj _ Fi { c with centerWings := fun _ => x } { c with centerWings := fun _ => y } (by simp only [eF, h]))) 0)
      (fun x y h => congrFun (congrArg Cube7.centerWings (inj _ Gi { c with centerWings := fun _ => x } { c with centerWings := fun _ => y } (by simp only [eG, h]))) 0)
      (covers_of_valid centerWing_turns v_centerWings) (fun i => hk (.inr (.inr (.inr (.inr (.inr (.inr (.inl i)))))))) _)
      (funext fun i => pieces_commute (blind_centerEdge _) (blind_centerEdge _)
      (fun x y h => congrFun (congrArg Cube7.centerEdges1 (inj _ Fi { c with centerEdges1 := fun _ => x } { c with centerEdges1 := fun _ => y } (by simp only [eF, h]))) 0)
      (fun x y h => congrFun (congrArg Cube7.centerEdges1 (inj _ Gi { c with centerEdges1 := fun _ => x } { c with centerEdges1 := fun _ => y } (by simp only [eG, h]))) 0)
      (covers_of_valid centerEdge_turns v_centerEdges1) (fun i => hk (.inr (.inr (.inr (.inr (.inr (.inr (.inr (.inl i))))))))) _)
      (funext fun i => pieces_commute (blind_centerEdge _) (blind_centerEdge _)
      (fun x y h => congrFun (congrArg Cube7.centerEdges2 (inj _ Fi { c with centerEdges2 := fun _ => x } { c with centerEdges2 := fun _ => y } (by simp only [eF, h]))) 0)
      (fun x y h => congrFun (congrArg Cube7.centerEdges2 (inj _ Gi { c with centerEdges2 := fun _ => x } { c with centerEdges2 := fun _ => y } (by simp only [eG, h]))) 0)
      (covers_of_valid centerEdge_turns v_centerEdges2) (fun i => hk (.inr (.inr (.inr (.inr (.inr (.inr (.inr (.inr i))))))))) _)

/-- a cube with its parts and one of the move types it accepts -/
structure PartSys where
  sys : CubeSys
  [parts : Parts sys.C]

attribute [instance] PartSys.parts

/-- the systems of `cubeSystems`, with the parts of the cubes -/
def partSystems : List PartSys :=
  [⟨⟨Cube2, AxisMove⟩⟩, ⟨⟨Cube3, AxisMove⟩⟩, ⟨⟨Cube4, AxisMove⟩⟩, ⟨⟨Cube5, AxisMove⟩⟩, ⟨⟨Cube6, AxisMove⟩⟩, ⟨⟨Cube7, AxisMove⟩⟩,
   ⟨⟨Cube2, WideAxisMove 0⟩⟩, ⟨⟨Cube3, WideAxisMove 0⟩⟩, ⟨⟨Cube4, WideAxisMove 0⟩⟩, ⟨⟨Cube5, WideAxisMove 0⟩⟩,
   ⟨⟨Cube6, WideAxisMove 0⟩⟩, ⟨⟨Cube7, WideAxisMove 0⟩⟩,
   ⟨⟨Cube2, QuarterAxisMove⟩⟩, ⟨⟨Cube3, QuarterAxisMove⟩⟩, ⟨⟨Cube4, QuarterAxisMove⟩⟩, ⟨⟨Cube5, QuarterAxisMove⟩⟩,
   ⟨⟨Cube6, QuarterAxisMove⟩⟩, ⟨⟨Cube7, QuarterAxisMove⟩⟩,
   ⟨⟨Cube2, NonRedundantAxisMove⟩⟩, ⟨⟨Cube3, NonRedundantAxisMove⟩⟩, ⟨⟨Cube4, NonRedundantAxisMove⟩⟩,
   ⟨⟨Cube5, NonRedundantAxisMove⟩⟩, ⟨⟨Cube6, NonRedundantAxisMove⟩⟩, ⟨⟨Cube7, NonRedundantAxisMove⟩⟩,
   ⟨⟨Cube4, WideAxisMove 1⟩⟩, ⟨⟨Cube5, WideAxisMove 1⟩⟩, ⟨⟨Cube6, WideAxisMove 1⟩⟩, ⟨⟨Cube7, WideAxisMove 1⟩⟩,
   ⟨⟨Cube6, WideAxisMove 2⟩⟩, ⟨⟨Cube7, WideAxisMove 2⟩⟩]

theorem partSystems_complete : partSystems.map (·.sys) = cubeSystems := rfl

theorem alg_injective (s : CubeSys) (hs : s ∈ cubeSystems) (a : List s.M) : Function.Injective fun d : s.C => movedAlg d a := by
  have hm : (⟨s.C, s.M⟩ : MoveSys) ∈ moveSystems := by
    rw [← cubeSystems_complete.1]
    exact List.mem_map.2 ⟨s, hs, rfl⟩
  intro c d h
  have h1 := (C02_alg_then_reversed ⟨s.C, s.M⟩ hm a c).1
  have h2 := (C02_alg_then_reversed ⟨s.C, s.M⟩ hm a d).1
  simp only at h
  rw [← h1, ← h2]
  exact congrArg (fun x => movedAlg x (reversed a)) h

theorem MovesUniform.commute {C M : Type} [HasValid C] [PieceByPiece C] [Parts C] [PartsCommute C] [Movable C M] (h : MovesUniform C M)
    (inj : ∀ a : List M, Function.Injective fun d : C => movedAlg d a) (c₀ : C) (h₀ : HasValid.valid c₀) (a b : List M)
    (hk : ∀ k, Parts.same k (movedAlg c₀ a) c₀ ∨ Parts.same k (movedAlg c₀ b) c₀) (c : C) : movedAlg c (a ++ b) = movedAlg c (b ++ a) := by
  have e : ∀ u v : List M, movedAlg c (u ++ v) = movedAlg (movedAlg c u) v := fun u v => List.foldl_append
  rw [e, e]
  exact PartsCommute.commute (F := fun c => movedAlg c a) (G := fun c => movedAlg c b) (h.alg a) (h.alg b) (inj a) (inj b) h₀ hk c

theorem nothing_in_common : ∀ s ∈ partSystems, (∀ a : List s.sys.M, Function.Injective fun d : s.sys.C => movedAlg d a) →
    ∀ c₀ : s.sys.C, HasValid.valid c₀ → ∀ a b : List s.sys.M,
    (∀ k, Parts.same k (movedAlg c₀ a) c₀ ∨ Parts.same k (movedAlg c₀ b) c₀) → ∀ c : s.sys.C, movedAlg c (a ++ b) = movedAlg c (b ++ a) := by
  simp only [partSystems, List.forall_mem_cons, List.not_mem_nil, false_imp_iff, implies_true, and_true]
  exact ⟨cube2_uniform.commute, cube3_uniform.commute, cube4_axis_uniform.commute, cube5_axis_uniform.commute,
    cube6_axis_uniform.commute, cube7_axis_uniform.commute,
    cube2_uniform.wide0.commute, cube3_uniform.wide0.commute, cube4_axis_uniform.wide0.commute, cube5_axis_uniform.wide0.commute,
    cube6_axis_uniform.wide0.commute, cube7_axis_uniform.wide0.commute,
    cube2_uniform.quarter.commute, cube3_uniform.quarter.commute, cube4_axis_uniform.quarter.commute,
    cube5_axis_uniform.quarter.commute, cube6_axis_uniform.quarter.commute, cube7_axis_uniform.quarter.commute,
    cube2_uniform.nonRedundant.commute, cube3_uniform.nonRedundant.commute, cube4_axis_uniform.nonRedundant.commute,
    cube5_axis_uniform.nonRedundant.commute, cube6_axis_uniform.nonRedundant.commute, cube7_axis_uniform.nonRedundant.commute,
    cube4_uniform.commute, cube5_uniform.commute, cube6_wide1_uniform.commute, cube7_wide1_uniform.commute,
    cube6_uniform.commute, cube7_uniform.commute⟩

/-- **C120** On every size and for every kind of moves: if no piece of one valid cube, for example of the solved one, is changed by both
of two algs, then on every cube they can be done in either order, and doing both and undoing both in the same order does
nothing. -/
theorem C120_every_size (s : PartSys) (hs : s ∈ partSystems) (c₀ : s.sys.C) (h₀ : HasValid.valid c₀) (a b : List s.sys.M)
    (hk : ∀ k, Parts.same k (movedAlg c₀ a) c₀ ∨ Parts.same k (movedAlg c₀ b) c₀) (c : s.sys.C) :
    movedAlg c (a ++ b) = movedAlg c (b ++ a) ∧ movedAlg c (a ++ b ++ reversed a ++ reversed b) = c := by
  have hs' : s.sys ∈ cubeSystems := by
    rw [← partSystems_complete]
    exact List.mem_map.2 ⟨s, hs, rfl⟩
  have hm : (⟨s.sys.C, s.sys.M⟩ : MoveSys) ∈ moveSystems := by
    rw [← cubeSystems_complete.1]
    exact List.mem_map.2 ⟨s.sys, hs', rfl⟩
  have e : ∀ (c : s.sys.C) (u v : List s.sys.M), movedAlg c (u ++ v) = movedAlg (movedAlg c u) v := fun _ _ _ => List.foldl_append
  have h := nothing_in_common s hs (alg_injective s.sys hs') c₀ h₀ a b hk
  refine ⟨h c, ?_⟩
  rw [e, e, h c, e]
  have h1 := (C02_alg_then_reversed ⟨s.sys.C, s.sys.M⟩ hm a (movedAlg c b)).1
  have h2 := (C02_alg_then_reversed ⟨s.sys.C, s.sys.M⟩ hm b c).1
  exact (congrArg (fun x => movedAlg x (reversed b)) h1).trans h2

instance (k : Parts.Part Cube4) (c d : Cube4) : Decidable (Parts.same k c d) :=
  match k with
  | .inl i => inferInstanceAs (Decidable (c.corners i = d.corners i))
  | .inr (.inl i) => inferInstanceAs (Decidable (c.wings i = d.wings i))
  | .inr (.inr i) => inferInstanceAs (Decidable (c.centers i = d.centers i))

/-- on the 4x4 the T perm, made with the outer layers, and both lower layers -/
example (c : Cube4) : let a := Perms.T.map fun m => (⟨0, m⟩ : WideAxisMove 1)
    movedAlg c (a ++ [⟨1, ⟨Face.D, .single⟩⟩]) = movedAlg c ([⟨1, ⟨Face.D, .single⟩⟩] ++ a) ∧ movedAlg (Cube.SOLVED : Cube4) a ≠ Cube.SOLVED := by
  refine ⟨(C120_every_size ⟨⟨Cube4, WideAxisMove 1⟩⟩ (by simp [partSystems]) (Cube.SOLVED : Cube4) C08_solved_valid.2.2.1
    (Perms.T.map fun m => (⟨0, m⟩ : WideAxisMove 1)) [⟨1, ⟨Face.D, .single⟩⟩] ?_ c).1, by decide +kernel⟩
  rintro (k | k | k) <;> revert k <;> decide +kernel

/-! ## How many pieces an alg changes -/

/-- how many pieces of two arrays differ -/
def differing {P : Type} {n : Nat} [DecidableEq P] (s t : PieceSet P n) : Nat := (Finset.univ.filter fun i => s i ≠ t i).card

/-- how many pieces differ on two cubes, for each of the arrays in the order of the fields -/
class Differences (C : Type) where
  differences : C → C → List Nat

export Differences (differences)

instance : Differences Cube2 := ⟨fun c d => [differing c.corners d.corners]⟩
instance : Differences Cube3 := ⟨fun c d => [differing c.edges d.edges, differing c.corners d.corners]⟩
instance : Differences Cube4 := ⟨fun c d => [differing c.corners d.corners, differing c.wings d.wings, differing c.centers d.centers]⟩
instance : Differences Cube5 := ⟨fun c d => [differing c.corners d.corners, differing c.edges d.edges, differing c.cornerCenters d.cornerCenters, differing c.cornerEdges d.cornerEdges]⟩
instance : Differences Cube6 := ⟨fun c d => [differing c.corners d.corners, differing c.wings1 d.wings1, differing c.wings2 d.wings2, differing c.centerCorners1 d.centerCorners1, differing c.centerCorners2 d.centerCorners2, differing c.centerWings d.centerWings]⟩
instance : Differences Cube7 := ⟨fun c d => [differing c.corners d.corners, differing c.edges d.edges, differing c.wings1 d.wings1, differing c.wings2 d.wings2, differing c.centerCorners1 d.centerCorners1, differing c.centerCorners2 d.centerCorners2, differing c.centerWings d.centerWings, differing c.centerEdges1 d.centerEdges1, differing c.centerEdges2 d.centerEdges2]⟩

theorem differing_zero {P : Type} {n : Nat} [DecidableEq P] (s t : PieceSet P n) : differing s t = 0 ↔ s = t := by
  unfold differing
  rw [Finset.card_eq_zero, Finset.filter_eq_empty_iff]
  exact ⟨fun h => funext fun i => not_not.1 (h (Finset.mem_univ i)), fun h i _ => not_not.2 (congrFun h i)⟩

/-- no array is left out: cubes are equal if no piece of any array differs -/
theorem differences_complete :
    (∀ c d : Cube2, (∀ x ∈ differences c d, x = 0) ↔ c = d) ∧
    (∀ c d : Cube3, (∀ x ∈ differences c d, x = 0) ↔ c = d) ∧
    (∀ c d : Cube4, (∀ x ∈ differences c d, x = 0) ↔ c = d) ∧
    (∀ c d : Cube5, (∀ x ∈ differences c d, x = 0) ↔ c = d) ∧
    (∀ c d : Cube6, (∀ x ∈ differences c d, x = 0) ↔ c = d) ∧
    (∀ c d : Cube7, (∀ x ∈ differences c d, x = 0) ↔ c = d) := by
  refine ⟨fun c d => ?_, fun c d => ?_, fun c d => ?_, fun c d => ?_, fun c d => ?_, fun c d => ?_⟩ <;>
    simp only [differences, List.forall_mem_cons, List.not_mem_nil, false_imp_iff, implies_true, and_true, differing_zero]
  · exact Cube2.ext_iff.symm
  · exact Cube3.ext_iff.symm
  · exact Cube4.ext_iff.symm
  · exact Cube5.ext_iff.symm
  · exact Cube6.ext_iff.symm
  · exact Cube7.ext_iff.symm

/-- what is used of the pieces besides `Blind`: turning a piece leaves it in its place, and can be undone -/
structure TurnedInPlace (P : Type) (n : Nat) [DecidableEq P] [PieceSetDescriptor P n] [Turnable P] : Prop where
  turns : ∀ p q : P, Piece.position p = Piece.position q → ∃ k < 3, p = Turnable.turn^[k] q
  place : ∀ x : P, Piece.position (Turnable.turn x) = Piece.position x
  inj : Function.Injective (Turnable.turn : P → P)

theorem corner_inPlace : TurnedInPlace Corner 8 := ⟨corner_turns, fun _ => rfl, by unfold Function.Injective; decide +kernel⟩
theorem edge_inPlace : TurnedInPlace Edge 12 := ⟨edge_turns, fun _ => rfl, by unfold Function.Injective; decide +kernel⟩
theorem wing_inPlace : TurnedInPlace Wing 24 := ⟨wing_turns, fun _ => rfl, Function.injective_id⟩
theorem centerCorner_inPlace : TurnedInPlace CenterCorner 24 := ⟨centerCorner_turns, fun _ => rfl, Function.injective_id⟩
theorem centerEdge_inPlace : TurnedInPlace CenterEdge 24 := ⟨centerEdge_turns, fun _ => rfl, Function.injective_id⟩
theorem centerWing_inPlace : TurnedInPlace CenterWing 48 := ⟨centerWing_turns, fun _ => rfl, Function.injective_id⟩

/-- the number of pieces of a valid array that are changed does not depend on the array -/
theorem differing_blind {P : Type} {n : Nat} [DecidableEq P] [PieceSetDescriptor P n] [LawfulDescriptor P n] [Turnable P]
    (law : TurnedInPlace P n) {f : P → P} (hf : Blind f) {s t : PieceSet P n} (hs : s.validate = none) (ht : t.validate = none) :
    differing s (fun i => f (s i)) = differing t (fun i => f (t i)) := by
  classical
  have stay : ∀ (k : Nat) (x : P), Piece.position (Turnable.turn^[k] x) = Piece.position x := fun k x => by
    induction k with
    | zero => rfl
    | succ k ih => rw [Function.iterate_succ_apply', law.place, ih]
  obtain ⟨Q, hQ⟩ : ∃ Q : Piece.Position P → Prop, ∀ x : P, x ≠ f x ↔ Q (Piece.position x) := by
    refine ⟨fun p => ∃ y : P, Piece.position y = p ∧ y ≠ f y, fun x => ⟨fun h => ⟨x, rfl, h⟩, fun ⟨y, e, h⟩ h' => h ?_⟩⟩
    obtain ⟨k, -, rfl⟩ := law.turns y x e
    rw [hf.iterate, ← h']
  obtain ⟨σ, hσ⟩ := ((validate_eq_none s).1 hs).arranged
  obtain ⟨τ, hτ⟩ := ((validate_eq_none t).1 ht).arranged
  unfold differing
  rw [Finset.filter_congr fun i _ => hQ (s i), Finset.filter_congr fun i _ => hQ (t i), Finset.card_filter, Finset.card_filter,
    Arranged.sum hσ fun p => if Q p then 1 else 0, Arranged.sum hτ fun p => if Q p then 1 else 0]

theorem differing_injective {P : Type} {n : Nat} [DecidableEq P] {g : P → P} (gi : Function.Injective g) (s t : PieceSet P n) :
    differing s t = differing (fun i => g (s i)) (fun i => g (t i)) := by
  unfold differing
  exact congrArg _ (Finset.filter_congr fun i _ => not_congr gi.eq_iff.symm)

/-- reversible maps that do not look at how a piece is turned keep arrays valid -/
theorem validate_injective {P : Type} {n : Nat} [DecidableEq P] [PieceSetDescriptor P n] [LawfulDescriptor P n] [Turnable P]
    (law : TurnedInPlace P n) {f : P → P} (hf : Blind f) (fi : Function.Injective f) {s : PieceSet P n} (hs : s.validate = none) :
    PieceSet.validate (fun i => f (s i) : PieceSet P n) = none := by
  have stay : ∀ (k : Nat) (x : P), Piece.position (Turnable.turn^[k] x) = Piece.position x := fun k x => by
    induction k with
    | zero => rfl
    | succ k ih => rw [Function.iterate_succ_apply', law.place, ih]
  rw [validate_eq_none] at hs ⊢
  intro i j h
  obtain ⟨k, -, e⟩ := law.turns _ _ h
  rw [← hf.iterate] at e
  exact hs ((congrArg Piece.position (fi e)).trans (stay k _))

/-- how the differences behave under maps that move the pieces one by one -/
class DifferencesLaw (C : Type) [HasValid C] [PieceByPiece C] [Differences C] : Prop where
  same : ∀ {F : C → C} {c d : C}, PieceByPiece.Uniform F → HasValid.valid c → HasValid.valid d → differences c (F c) = differences d (F d)
  moved : ∀ {G : C → C}, PieceByPiece.Uniform G → Function.Injective G → ∀ c d : C, differences c d = differences (G c) (G d)
  kept : ∀ {G : C → C}, PieceByPiece.Uniform G → Function.Injective G → ∀ c : C, HasValid.valid c → HasValid.valid (G c)

instance : DifferencesLaw Cube2 where
  same := by
    rintro F c d ⟨f, hf, eF⟩ hc hd
    have c_corners : c.corners.validate = none := hc
    have d_corners : d.corners.validate = none := hd
    rw [eF, eF]
    show [_] = [_]
    rw [differing_blind corner_inPlace hf c_corners d_corners]
  moved := by
    rintro G ⟨f, hf, eG⟩ Gi c d
    have inj : ∀ c d, G c = G d → c = d := fun c d e => Gi e
    rw [eG, eG]
    show [_] = [_]
    rw [differing_injective (g := f) (fun x y h => congrFun (congrArg Cube2.corners (inj { c with corners := fun _ => x } { c with corners := fun _ => y } (by simp only [eG, h]))) 0) c.corners d.corners]
  kept := by
    rintro G ⟨f, hf, eG⟩ Gi c hc
    have inj : ∀ c d, G c = G d → c = d := fun c d e => Gi e
    rw [eG]
    exact validate_injective corner_inPlace hf (fun x y h => congrFun (congrArg Cube2.corners (inj { c with corners := fun _ => x } { c with corners := fun _ => y } (by simp only [eG, h]))) 0) hc

instance : DifferencesLaw Cube3 where
  same := by
    rintro F c d ⟨f, e, hf, he, eF⟩ hc hd
    obtain ⟨c_edges, c_corners⟩ := hc
    obtain ⟨d_edges, d_corners⟩ := hd
    rw [eF, eF]
    show [_, _] = [_, _]
    rw [differing_blind edge_inPlace he c_edges d_edges,
      differing_blind corner_inPlace hf c_corners d_corners]
  moved := by
    rintro G ⟨f, e, hf, he, eG⟩ Gi c d
    have inj : ∀ c d, G c = G d → c = d := fun c d e => Gi e
    rw [eG, eG]
    show [_, _] = [_, _]
    rw [differing_injective (g := e) (fun x y h => congrFun (congrArg Cube3.edges (inj { c with edges := fun _ => x } { c with edges := fun _ => y } (by simp only [eG, h]))) 0) c.edges d.edges,
      differing_injective (g := f) (fun x y h => congrFun (congrArg Cube3.corners (inj { c with corners := fun _ => x } { c with corners := fun _ => y } (by simp only [eG, h]))) 0) c.corners d.corners]
  kept := by
    rintro G ⟨f, e, hf, he, eG⟩ Gi c hc
    obtain ⟨h_edges, h_corners⟩ := hc
    have inj : ∀ c d, G c = G d → c = d := fun c d e => Gi e
    rw [eG]
    refine ⟨?_, ?_⟩
    · exact validate_injective edge_inPlace he (fun x y h => congrFun (congrArg Cube3.edges (inj { c with edges := fun _ => x } { c with edges := fun _ => y } (by simp only [eG, h]))) 0) h_edges
    · exact validate_injective corner_inPlace hf (fun x y h => congrFun (congrArg Cube3.corners (inj { c with corners := fun _ => x } { c with corners := fun _ => y } (by simp only [eG, h]))) 0) h_corners

instance : DifferencesLaw Cube4 where
  same := by
    rintro F c d ⟨f, w, t, hf, eF⟩ hc hd
    obtain ⟨c_corners, c_wings, c_centers⟩ := hc
    obtain ⟨d_corners, d_wings, d_centers⟩ := hd
    rw [eF, eF]
    show [_, _, _] = [_, _, _]
    rw [differing_blind corner_inPlace hf c_corners d_corners,
      differing_blind wing_inPlace (blind_wing w) c_wings d_wings,
      differing_blind centerCorner_inPlace (blind_centerCorner t) c_centers d_centers]
  moved := by
    rintro G ⟨f, w, t, hf, eG⟩ Gi c d
    have inj : ∀ c d, G c = G d → c = d := fun c d e => Gi e
    rw [eG, eG]
    show [_, _, _] = [_, _, _]
    rw [differing_injective (g := f) (fun x y h => congrFun (congrArg Cube4.corners (inj { c with corners := fun _ => x } { c with corners := fun _ => y } (by simp only [eG, h]))) 0) c.corners d.corners,
      differing_injective (g := w) (fun x y h => congrFun (congrArg Cube4.wings (inj { c with wings := fun _ => x } { c with wings := fun _ => y } (by simp only [eG, h]))) 0) c.wings d.wings,
      differing_injective (g := t) (fun x y h => congrFun (congrArg Cube4.centers (inj { c with centers := fun _ => x } { c with centers := fun _ => y } (by simp only [eG, h]))) 0) c.centers d.centers]
  kept := by
    rintro G ⟨f, w, t, hf, eG⟩ Gi c hc
    obtain ⟨h_corners, h_wings, h_centers⟩ := hc
    have inj : ∀ c d, G c = G d → c = d := fun c d e => Gi e
    rw [eG]
    refine ⟨?_, ?_, ?_⟩
    · exact validate_injective corner_inPlace hf (fun x y h => congrFun (congrArg Cube4.corners (inj { c with corners := fun _ => x } { c with corners := fun _ => y } (by simp only [eG, h]))) 0) h_corners
    · exact validate_injective wing_inPlace (blind_wing w) (fun x y h => congrFun (congrArg Cube4.wings (inj { c with wings := fun _ => x } { c with wings := fun _ => y } (by simp only [eG, h]))) 0) h_wings
    · exact validate_injective centerCorner_inPlace (blind_centerCorner t) (fun x y h => congrFun (congrArg Cube4.centers (inj { c with centers := fun _ => x } { c with centers := fun _ => y } (by simp only [eG, h]))) 0) h_centers

instance : DifferencesLaw Cube5 where
  same := by
    rintro F c d ⟨f, e, t, u, hf, he, eF⟩ hc hd
    obtain ⟨c_corners, c_edges, c_cornerCenters, c_cornerEdges⟩ := hc
    obtain ⟨d_corners, d_edges, d_cornerCenters, d_cornerEdges⟩ := hd
    rw [eF, eF]
    show [_, _, _, _] = [_, _, _, _]
    rw [differing_blind corner_inPlace hf c_corners d_corners,
      differing_blind edge_inPlace he c_edges d_edges,
      differing_blind centerCorner_inPlace (blind_centerCorner t) c_cornerCenters d_cornerCenters,
      differing_blind centerEdge_inPlace (blind_centerEdge u) c_cornerEdges d_cornerEdges]
  moved := by
    rintro G ⟨f, e, t, u, hf, he, eG⟩ Gi c d
    have inj : ∀ c d, G c = G d → c = d := fun c d e => Gi e
    rw [eG, eG]
    show [_, _, _, _] = [_, _, _, _]
    rw [differing_injective (g := f) (fun x y h => congrFun (congrArg Cube5.corners (inj { c with corners := fun _ => x } { c with corners := fun _ => y } (by simp only [eG, h]))) 0) c.corners d.corners,
      differing_injective (g := e) (fun x y h => congrFun (congrArg Cube5.edges (inj { c with edges := fun _ => x } { c with edges := fun _ => y } (by simp only [eG, h]))) 0) c.edges d.edges,
      differing_injective (g := t) (fun x y h => congrFun (congrArg Cube5.cornerCenters (inj { c with cornerCenters := fun _ => x } { c with cornerCenters := fun _ => y } (by simp only [eG, h]))) 0) c.cornerCenters d.cornerCenters,
      differing_injective (g := u) (fun x y h => congrFun (congrArg Cube5.cornerEdges (inj { c with cornerEdges := fun _ => x } { c with cornerEdges := fun _ => y } (by simp only [eG, h]))) 0) c.cornerEdges d.cornerEdges]
  kept := by
    rintro G ⟨f, e, t, u, hf, he, eG⟩ Gi c hc
    obtain ⟨h_corners, h_edges, h_cornerCenters, h_cornerEdges⟩ := hc
    have inj : ∀ c d, G c = G d → c = d := fun c d e => Gi e
    rw [eG]
    refine ⟨?_, ?_, ?_, ?_⟩
    · exact validate_injective corner_inPlace hf (fun x y h => congrFun (congrArg Cube5.corners (inj { c with corners := fun _ => x } { c with corners := fun _ => y } (by simp only [eG, h]))) 0) h_corners
    · exact validate_injective edge_inPlace he (fun x y h => congrFun (congrArg Cube5.edges (inj { c with edges := fun _ => x } { c with edges := fun _ => y } (by simp only [eG, h]))) 0) h_edges
    · exact validate_injective centerCorner_inPlace (blind_centerCorner t) (fun x y h => congrFun (congrArg Cube5.cornerCenters (inj { c with cornerCenters := fun _ => x } { c with cornerCenters := fun _ => y } (by simp only [eG, h]))) 0) h_cornerCenters
    · exact validate_injective centerEdge_inPlace (blind_centerEdge u) (fun x y h => congrFun (congrArg Cube5.cornerEdges (inj { c with cornerEdges := fun _ => x } { c with cornerEdges := fun _ => y } (by simp only [eG, h]))) 0) h_cornerEdges

instance : DifferencesLaw Cube6 where
  same := by
    rintro F c d ⟨f, w1, w2, t1, t2, v, hf, eF⟩ hc hd
    obtain ⟨c_corners, c_wings1, c_wings2, c_centerCorners1, c_centerCorners2, c_centerWings⟩ := hc
    obtain ⟨d_corners, d_wings1, d_wings2, d_centerCorners1, d_centerCorners2, d_centerWings⟩ := hd
    rw [eF, eF]
    show [_, _, _, _, _, _] = [_, _, _, _, _, _]
    rw [differing_blind corner_inPlace hf c_corners d_corners,
      differing_blind wing_inPlace (blind_wing w1) c_wings1 d_wings1,
      differing_blind wing_inPlace (blind_wing w2) c_wings2 d_wings2,
      differing_blind centerCorner_inPlace (blind_centerCorner t1) c_centerCorners1 d_centerCorners1,
      differing_blind centerCorner_inPlace (blind_centerCorner t2) c_centerCorners2 d_centerCorners2,
      differing_blind centerWing_inPlace (blind_centerWing v) c_centerWings d_centerWings]
  moved := by
    rintro G ⟨f, w1, w2, t1, t2, v, hf, eG⟩ Gi c d
    have inj : ∀ c d, G c = G d → c = d := fun c d e => Gi e
    rw [eG, eG]
    show [_, _, _, _, _, _] = [_, _, _, _, _, _]
    rw [differing_injective (g := f) (fun x y h => congrFun (congrArg Cube6.corners (inj { c with corners := fun _ => x } { c with corners := fun _ => y } (by simp only [eG, h]))) 0) c.corners d.corners,
      differing_injective (g := w1) (fun x y h => congrFun (congrArg Cube6.wings1 (inj { c with wings1 := fun _ => x } { c with wings1 := fun _ => y } (by simp only [eG, h]))) 0) c.wings1 d.wings1,
      differing_injective (g := w2) (fun x y h => congrFun (congrArg Cube6.wings2 (inj { c with wings2 := fun _ => x } { c with wings2 := fun _ => y } (by simp only [eG, h]))) 0) c.wings2 d.wings2,
      differing_injective (g := t1) (fun x y h => congrFun (congrArg Cube6.centerCorners1 (inj { c with centerCorners1 := fun _ => x } { c with centerCorners1 := fun _ => y } (by simp only [eG, h]))) 0) c.centerCorners1 d.centerCorners1,
      differing_injective (g := t2) (fun x y h => congrFun (congrArg Cube6.centerCorners2 (inj { c with centerCorners2 := fun _ => x } { c with centerCorners2 := fun _ => y } (by simp only [eG, h]))) 0) c.centerCorners2 d.centerCorners2,
      differing_injective (g := v) (fun x y h => congrFun (congrArg Cube6.centerWings (inj { c with centerWings := fun _ => x } { c with centerWings := fun _ => y } (by simp only [eG, h]))) 0) c.centerWings d.centerWings]
  kept := by
    rintro G ⟨f, w1, w2, t1, t2, v, hf, eG⟩ Gi c hc
    obtain ⟨h_corners, h_wings1, h_wings2, h_centerCorners1, h_centerCorners2, h_centerWings⟩ := hc
    have inj : ∀ c d, G c = G d → c = d := fun c d e => Gi e
    rw [eG]
    refine ⟨?_, ?_, ?_, ?_, ?_, ?_⟩
    · exact validate_injective corner_inPlace hf (fun x y h => congrFun (congrArg Cube6.corners (inj { c with corners := fun _ => x } { c with corners := fun _ => y } (by simp only [eG, h]))) 0) h_corners
    · exact validate_injective wing_inPlace (blind_wing w1) (fun x y h => congrFun (congrArg Cube6.wings1 (inj { c with wings1 := fun _ => x } { c with wings1 := fun _ => y } (by simp only [eG, h]))) 0) h_wings1
    · exact validate_injective wing_inPlace (blind_wing w2) (fun x y h => congrFun (congrArg Cube6.wings2 (inj { c with wings2 := fun _ => x } { c with wings2 := fun _ => y } (by simp only [eG, h]))) 0) h_wings2
    · exact validate_injective centerCorner_inPlace (blind_centerCorner t1) (fun x y h => congrFun (congrArg Cube6.centerCorners1 (inj { c with centerCorners1 := fun _ => x } { c with centerCorners1 := fun _ => y } (by simp only [eG, h]))) 0) h_centerCorners1
    · exact validate_injective centerCorner_inPlace (blind_centerCorner t2) (fun x y h => congrFun (congrArg Cube6.centerCorners2 (inj { c with centerCorners2 := fun _ => x } { c with centerCorners2 := fun _ => y } (by simp only [eG, h]))) 0) h_centerCorners2
    · exact validate_injective centerWing_inPlace (blind_centerWing v) (fun x y h => congrFun (congrArg Cube6.centerWings (inj { c with centerWings := fun _ => x } { c with centerWings := fun _ => y } (by simp only [eG, h]))) 0) h_centerWings

instance : DifferencesLaw Cube7 where
  same := by
    rintro F c d ⟨f, e, w1, w2, t1, t2, v, u1, u2, hf, he, eF⟩ hc hd
    obtain ⟨c_corners, c_edges, c_wings1, c_wings2, c_centerCorners1, c_centerCorners2, c_centerWings, c_centerEdges1, c_centerEdges2⟩ := hc
    obtain ⟨d_corners, d_edges, d_wings1, d_wings2, d_centerCorners1, d_centerCorners2, d_centerWings, d_centerEdges1, d_centerEdges2⟩ := hd
    rw [eF, eF]
    show [_, _, _, _, _, _, _, _, _] = [_, _, _, _, _, _, _, _, _]
    rw [differing_blind corner_inPlace hf c_corners d_corners,
      differing_blind edge_inPlace he c_edges d_edges,
      differing_blind wing_inPlace (blind_wing w1) c_wings1 d_wings1,
      differing_blind wing_inPlace (blind_wing w2) c_wings2 d_wings2,
      differing_blind centerCorner_inPlace (blind_centerCorner t1) c_centerCorners1 d_centerCorners1,
      differing_blind centerCorner_inPlace (blind_centerCorner t2) c_centerCorners2 d_centerCorners2,
      differing_blind centerWing_inPlace (blind_centerWing v) c_centerWings d_centerWings,
      differing_blind centerEdge_inPlace (blind_centerEdge u1) c_centerEdges1 d_centerEdges1,
      differing_blind centerEdge_inPlace (blind_centerEdge u2) c_centerEdges2 d_centerEdges2]
  moved := by
    rintro G ⟨f, e, w1, w2, t1, t2, v, u1, u2, hf, he, eG⟩ Gi c d
    have inj : ∀ c d, G c = G d → c = d := fun c d e => Gi e
    rw [eG, eG]
    show [_, _, _, _, _, _, _, _, _] = [_, _, _, _, _, _, _, _, _]
    rw [differing_injective (g := f) (fun x y h => congrFun (congrArg Cube7.corners (inj { c with corners := fun _ => x } { c with corners := fun _ => y } (by simp only [eG, h]))) 0) c.corners d.corners,
      differing_injective (g := e) (fun x y h => congrFun (congrArg Cube7.edges (inj { c with edges := fun _ => x } { c with edges := fun _ => y } (by simp only [eG, h]))) 0) c.edges d.edges,
      differing_injective (g := w1) (fun x y h => congrFun (congrArg Cube7.wings1 (inj { c with wings1 := fun _ => x } { c with wings1 := fun _ => y } (by simp only [eG, h]))) 0) c.wings1 d.wings1,
      differing_injective (g := w2) (fun x y h => congrFun (congrArg Cube7.wings2 (inj { c with wings2 := fun _ => x } { c with wings2 := fun _ => y } (by simp only [eG, h]))) 0) c.wings2 d.wings2,
      differing_injective (g := t1) (fun x y h => congrFun (congrArg Cube7.centerCorners1 (inj { c with centerCorners1 := fun _ => x } { c with centerCorners1 := fun _ => y } (by simp only [eG, h]))) 0) c.centerCorners1 d.centerCorners1,
      differing_injective (g := t2) (fun x y h => congrFun (congrArg Cube7.centerCorners2 (inj { c with centerCorners2 := fun _ => x } { c with centerCorners2 := fun _ => y } (by simp only [eG, h]))) 0) c.centerCorners2 d.centerCorners2,
      differing_injective (g := v) (fun x y h => congrFun (congrArg Cube7.centerWings (inj { c with centerWings := fun _ => x } { c with centerWings := fun _ => y } (by simp only [eG, h]))) 0) c.centerWings d.centerWings,
      differing_injective (g := u1) (fun x y h => congrFun (congrArg Cube7.centerEdges1 (inj { c with centerEdges1 := fun _ => x } { c with centerEdges1 := fun _ => y } (by simp only [eG, h]))) 0) c.centerEdges1 d.centerEdges1,
      differing_injective (g := u2) (fun x y h => congrFun (congrArg Cube7.centerEdges2 (inj { c with centerEdges2 := fun _ => x } { c with centerEdges2 := fun _ => y } (by simp only [eG, h]))) 0) c.centerEdges2 d.centerEdges2]
  kept := by
    rintro G ⟨f, e, w1, w2, t1, t2, v, u1, u2, hf, he, eG⟩ Gi c hc
    obtain ⟨h_corners, h_edges, h_wings1, h_wings2, h_centerCorners1, h_centerCorners2, h_centerWings, h_centerEdges1, h_centerEdges2⟩ := hc
    have inj : ∀ c d, G c = G d → c = d := fun c d e => Gi e
    rw [eG]
    refine ⟨?_, ?_, ?_, ?_, ?_, ?_, ?_, ?_, ?_⟩
    · exact validate_injective corner_inPlace hf (fun x y h => congrFun (congrArg Cube7.corners (inj { c with corners := fun _ => x } { c with corners := fun _ => y } (by simp only [eG, h]))) 0) h_corners
    · exact validate_injective edge_inPlace he (fun x y h => congrFun (congrArg Cube7.edges (inj { c with edges := fun _ => x } { c with edges := fun _ => y } (by simp only [eG, h]))) 0) h_edges
    · exact validate_injective wing_inPlace (blind_wing w1) (fun x y h => congrFun (congrArg Cube7.wings1 (inj { c with wings1 := fun _ => x } { c with wings1 := fun _ => y } (by simp only [eG, h]))) 0) h_wings1
    · exact validate_injective wing_inPlace (blind_wing w2) (fun x y h => congrFun (congrArg Cube7.wings2 (inj { c with wings2 := fun _ => x } { c with wings2 := fun _ => y } (by simp only [eG, h]))) 0) h_wings2
    · exact validate_injective centerCorner_inPlace (blind_centerCorner t1) (fun x y h => congrFun (congrArg Cube7.centerCorners1 (inj { c with centerCorners1 := fun _ => x } { c with centerCorners1 := fun _ => y } (by simp only [eG, h]))) 0) h_centerCorners1
    · exact validate_injective centerCorner_inPlace (blind_centerCorner t2) (fun x y h => congrFun (congrArg Cube7.centerCorners2 (inj { c with centerCorners2 := fun _ => x } { c with centerCorners2 := fun _ => y } (by simp only [eG, h]))) 0) h_centerCorners2
    · exact validate_injective centerWing_inPlace (blind_centerWing v) (fun x y h => congrFun (congrArg Cube7.centerWings (inj { c with centerWings := fun _ => x } { c with centerWings := fun _ => y } (by simp only [eG, h]))) 0) h_centerWings
    · exact validate_injective centerEdge_inPlace (blind_centerEdge u1) (fun x y h => congrFun (congrArg Cube7.centerEdges1 (inj { c with centerEdges1 := fun _ => x } { c with centerEdges1 := fun _ => y } (by simp only [eG, h]))) 0) h_centerEdges1
    · exact validate_injective centerEdge_inPlace (blind_centerEdge u2) (fun x y h => congrFun (congrArg Cube7.centerEdges2 (inj { c with centerEdges2 := fun _ => x } { c with centerEdges2 := fun _ => y } (by simp only [eG, h]))) 0) h_centerEdges2

/-- a cube with its arrays and one of the move types it accepts -/
structure CountSys where
  sys : CubeSys
  [counts : Differences sys.C]

attribute [instance] CountSys.counts

/-- the systems of `cubeSystems`, with the arrays of the cubes -/
def countSystems : List CountSys :=
  [⟨⟨Cube2, AxisMove⟩⟩, ⟨⟨Cube3, AxisMove⟩⟩, ⟨⟨Cube4, AxisMove⟩⟩, ⟨⟨Cube5, AxisMove⟩⟩, ⟨⟨Cube6, AxisMove⟩⟩, ⟨⟨Cube7, AxisMove⟩⟩,
   ⟨⟨Cube2, WideAxisMove 0⟩⟩, ⟨⟨Cube3, WideAxisMove 0⟩⟩, ⟨⟨Cube4, WideAxisMove 0⟩⟩, ⟨⟨Cube5, WideAxisMove 0⟩⟩,
   ⟨⟨Cube6, WideAxisMove 0⟩⟩, ⟨⟨Cube7, WideAxisMove 0⟩⟩,
   ⟨⟨Cube2, QuarterAxisMove⟩⟩, ⟨⟨Cube3, QuarterAxisMove⟩⟩, ⟨⟨Cube4, QuarterAxisMove⟩⟩, ⟨⟨Cube5, QuarterAxisMove⟩⟩,
   ⟨⟨Cube6, QuarterAxisMove⟩⟩, ⟨⟨Cube7, QuarterAxisMove⟩⟩,
   ⟨⟨Cube2, NonRedundantAxisMove⟩⟩, ⟨⟨Cube3, NonRedundantAxisMove⟩⟩, ⟨⟨Cube4, NonRedundantAxisMove⟩⟩,
   ⟨⟨Cube5, NonRedundantAxisMove⟩⟩, ⟨⟨Cube6, NonRedundantAxisMove⟩⟩, ⟨⟨Cube7, NonRedundantAxisMove⟩⟩,
   ⟨⟨Cube4, WideAxisMove 1⟩⟩, ⟨⟨Cube5, WideAxisMove 1⟩⟩, ⟨⟨Cube6, WideAxisMove 1⟩⟩, ⟨⟨Cube7, WideAxisMove 1⟩⟩,
   ⟨⟨Cube6, WideAxisMove 2⟩⟩, ⟨⟨Cube7, WideAxisMove 2⟩⟩]

theorem countSystems_complete : countSystems.map (·.sys) = cubeSystems := rfl

theorem MovesUniform.counts {C M : Type} [HasValid C] [PieceByPiece C] [Differences C] [DifferencesLaw C] [Movable C M] (h : MovesUniform C M)
    (inj : ∀ a : List M, Function.Injective fun d : C => movedAlg d a) (a : List M) :
    (∀ c d : C, HasValid.valid c → HasValid.valid d → differences c (movedAlg c a) = differences d (movedAlg d a)) ∧
    (∀ c d : C, differences c d = differences (movedAlg c a) (movedAlg d a)) ∧ ∀ c : C, HasValid.valid c → HasValid.valid (movedAlg c a) :=
  ⟨fun _ _ hc hd => DifferencesLaw.same (F := fun c => movedAlg c a) (h.alg a) hc hd,
    fun c d => DifferencesLaw.moved (G := fun c => movedAlg c a) (h.alg a) (inj a) c d,
    fun c hc => DifferencesLaw.kept (G := fun c => movedAlg c a) (h.alg a) (inj a) c hc⟩

theorem counts_alg : ∀ s ∈ countSystems, (∀ a : List s.sys.M, Function.Injective fun d : s.sys.C => movedAlg d a) → ∀ a : List s.sys.M,
    (∀ c d : s.sys.C, HasValid.valid c → HasValid.valid d → differences c (movedAlg c a) = differences d (movedAlg d a)) ∧
    (∀ c d : s.sys.C, differences c d = differences (movedAlg c a) (movedAlg d a)) ∧
    ∀ c : s.sys.C, HasValid.valid c → HasValid.valid (movedAlg c a) := by
  simp only [countSystems, List.forall_mem_cons, List.not_mem_nil, false_imp_iff, implies_true, and_true]
  exact ⟨cube2_uniform.counts, cube3_uniform.counts, cube4_axis_uniform.counts, cube5_axis_uniform.counts,
    cube6_axis_uniform.counts, cube7_axis_uniform.counts,
    cube2_uniform.wide0.counts, cube3_uniform.wide0.counts, cube4_axis_uniform.wide0.counts, cube5_axis_uniform.wide0.counts,
    cube6_axis_uniform.wide0.counts, cube7_axis_uniform.wide0.counts,
    cube2_uniform.quarter.counts, cube3_uniform.quarter.counts, cube4_axis_uniform.quarter.counts,
    cube5_axis_uniform.quarter.counts, cube6_axis_uniform.quarter.counts, cube7_axis_uniform.quarter.counts,
    cube2_uniform.nonRedundant.counts, cube3_uniform.nonRedundant.counts, cube4_axis_uniform.nonRedundant.counts,
    cube5_axis_uniform.nonRedundant.counts, cube6_axis_uniform.nonRedundant.counts, cube7_axis_uniform.nonRedundant.counts,
    cube4_uniform.counts, cube5_uniform.counts, cube6_wide1_uniform.counts, cube7_wide1_uniform.counts,
    cube6_uniform.counts, cube7_uniform.counts⟩

/-- **C120** On every size and for every kind of moves: how many pieces of each kind an alg changes is the same on all valid cubes,
solvable or not; and with set-up moves before it that are undone afterwards it changes as many of each kind. -/
theorem C120_setup_every_size (s : CountSys) (hs : s ∈ countSystems) (a b : List s.sys.M) (c d : s.sys.C) (hc : HasValid.valid c)
    (hd : HasValid.valid d) :
    differences c (movedAlg c a) = differences d (movedAlg d a) ∧
    differences c (movedAlg c (b ++ a ++ reversed b)) = differences d (movedAlg d a) := by
  have hs' : s.sys ∈ cubeSystems := by
    rw [← countSystems_complete]
    exact List.mem_map.2 ⟨s, hs, rfl⟩
  have hm : (⟨s.sys.C, s.sys.M⟩ : MoveSys) ∈ moveSystems := by
    rw [← cubeSystems_complete.1]
    exact List.mem_map.2 ⟨s.sys, hs', rfl⟩
  have e : ∀ (c : s.sys.C) (u v : List s.sys.M), movedAlg c (u ++ v) = movedAlg (movedAlg c u) v := fun _ _ _ => List.foldl_append
  have h := counts_alg s hs (alg_injective s.sys hs')
  refine ⟨(h a).1 c d hc hd, ?_⟩
  have h2 := (C02_alg_then_reversed ⟨s.sys.C, s.sys.M⟩ hm b (movedAlg c (b ++ a))).2
  have h3 : movedAlg (movedAlg c (b ++ a ++ reversed b)) b = movedAlg c (b ++ a) := by
    rw [e c (b ++ a)]
    exact h2
  rw [(h b).2.1 c _, h3, e]
  exact (h a).1 _ d ((h b).2.2 c hc) hd

/-- on the 4x4 the T perm with set-up moves, some of them of two layers, changes two corners, four wings and the four centers of one face -/
example (c : Cube4) (hc : HasValid.valid c) :
    differences c (movedAlg c ([(⟨1, ⟨Face.R, .single⟩⟩ : WideAxisMove 1), ⟨0, ⟨Face.F, .inverse⟩⟩] ++
      (Perms.T.map fun m => (⟨0, m⟩ : WideAxisMove 1)) ++ reversed [⟨1, ⟨Face.R, .single⟩⟩, ⟨0, ⟨Face.F, .inverse⟩⟩])) = [2, 4, 4] :=
  (C120_setup_every_size ⟨⟨Cube4, WideAxisMove 1⟩⟩ (by simp [countSystems]) _ _ c (Cube.SOLVED : Cube4) hc C08_solved_valid.2.2.1).2.trans
    (by decide +kernel)

/-- **C08** On every size and for every kind of moves, algs bring valid cubes to valid cubes, and only valid cubes. -/
theorem C08_every_size (s : CountSys) (hs : s ∈ countSystems) (a : List s.sys.M) (c : s.sys.C) :
    HasValid.valid (movedAlg c a) ↔ HasValid.valid c := by
  have hs' : s.sys ∈ cubeSystems := by
    rw [← countSystems_complete]
    exact List.mem_map.2 ⟨s, hs, rfl⟩
  have hm : (⟨s.sys.C, s.sys.M⟩ : MoveSys) ∈ moveSystems := by
    rw [← cubeSystems_complete.1]
    exact List.mem_map.2 ⟨s.sys, hs', rfl⟩
  have h := counts_alg s hs (alg_injective s.sys hs')
  refine ⟨fun h' => ?_, (h a).2.2 c⟩
  have h2 := (h (reversed a)).2.2 _ h'
  rwa [← (C02_alg_then_reversed ⟨s.sys.C, s.sys.M⟩ hm a c).1]

/-- a cube with twice the same corner stays invalid -/
example (a : List (WideAxisMove 2)) : ¬ HasValid.valid (movedAlg ({ (Cube.SOLVED : Cube7) with corners := fun _ => (Cube.SOLVED : Cube7).corners 0 }) a) :=
  fun h => absurd ((C08_every_size ⟨⟨Cube7, WideAxisMove 2⟩⟩ (by simp [countSystems]) a _).1 h).1 (by decide +kernel)

end Barbarosa
