import Mathlib.GroupTheory.GroupAction.Jordan
import Mathlib.GroupTheory.SpecificGroups.Alternating
import Mathlib.Algebra.Group.Subgroup.Lattice

/-!
# Groups of permutations that contain a 3-cycle of one kind of pieces

Pure group theory: used for the states of the big cubes that can be reached.
-/

namespace Barbarosa

open Equiv

/-- A set of permutations that takes every point to `x₀`, and every other point to `x₁` while fixing `x₀`, acts
2-transitively. -/
theorem two_transitive {α : Type} [DecidableEq α] (G : Subgroup (Perm α)) (x₀ x₁ : α)
    (h0 : ∀ x, ∃ g ∈ G, g x = x₀) (h1 : ∀ x, x ≠ x₀ → ∃ g ∈ G, g x₀ = x₀ ∧ g x = x₁) :
    MulAction.IsMultiplyPretransitive G α 2 := by
  have key : ∀ a b : α, a ≠ b → ∃ g ∈ G, g a = x₀ ∧ g b = x₁ := by
    intro a b hab
    obtain ⟨g, hg, ga⟩ := h0 a
    obtain ⟨k, hk, k0, kb⟩ := h1 (g b) (fun e => hab (g.injective (ga.trans e.symm)))
    exact ⟨k * g, G.mul_mem hk hg, by simp [ga, k0], by simp [kb]⟩
  rw [MulAction.is_two_pretransitive_iff]
  intro a b c d hab hcd
  obtain ⟨g, hg, ga, gb⟩ := key a b hab
  obtain ⟨k, hk, kc, kd⟩ := key c d hcd
  refine ⟨⟨k⁻¹ * g, G.mul_mem (G.inv_mem hk) hg⟩, ?_, ?_⟩
  · change (k⁻¹ * g) a = c
    rw [Perm.mul_apply, ga, ← kc]; simp
  · change (k⁻¹ * g) b = d
    rw [Perm.mul_apply, gb, ← kd]; simp

/-- `Γ` acts on `α` through `p`, and `ι` embeds the permutations of `α` as a direct factor. If the action is 2-transitive and
`Γ` contains a 3-cycle of `α` alone, it contains every even permutation of `α` alone. -/
theorem even_mem {G : Type} [Group G] {α : Type} [Fintype α] [DecidableEq α] (Γ : Subgroup G) (p : G →* Perm α)
    (ι : Perm α →* G) (hp : ∀ a, p (ι a) = a) (hc : ∀ g a, g * ι a * g⁻¹ = ι (p g * a * (p g)⁻¹))
    (h5 : 5 ≤ Fintype.card α) (x₀ x₁ : α) (h0 : ∀ x, ∃ g ∈ Γ, p g x = x₀)
    (h1 : ∀ x, x ≠ x₀ → ∃ g ∈ Γ, p g x₀ = x₀ ∧ p g x = x₁)
    {t : Perm α} (ht : t.IsThreeCycle) (htΓ : ι t ∈ Γ) (a : Perm α) (ha : Perm.sign a = 1) : ι a ∈ Γ := by
  have htr : MulAction.IsMultiplyPretransitive (Γ.map p) α 2 := by
    refine two_transitive _ x₀ x₁ (fun x => ?_) (fun x hx => ?_)
    · obtain ⟨g, hg, e⟩ := h0 x
      exact ⟨p g, Subgroup.mem_map_of_mem p hg, e⟩
    · obtain ⟨g, hg, e⟩ := h1 x hx
      exact ⟨p g, Subgroup.mem_map_of_mem p hg, e⟩
  have hpre := MulAction.isPreprimitive_of_is_two_pretransitive htr
  have hle : alternatingGroup α ≤ Γ.map p :=
    Equiv.Perm.alternatingGroup_le_of_isPreprimitive_of_isThreeCycle_mem hpre ht ⟨ι t, htΓ, hp t⟩
  have h3 : ∀ s : Perm α, s.IsThreeCycle → ι s ∈ Γ := by
    intro s hs
    have hconj := alternatingGroup.isThreeCycle_isConj (by rwa [Nat.card_eq_fintype_card])
      (σ := ⟨t, ht.mem_alternatingGroup⟩) (τ := ⟨s, hs.mem_alternatingGroup⟩) ht hs
    obtain ⟨c, hc'⟩ := isConj_iff.1 hconj
    have e : (c : Perm α) * t * (c : Perm α)⁻¹ = s := congrArg Subtype.val hc'
    obtain ⟨g, hg, pg⟩ := hle c.2
    rw [← e, ← pg, ← hc]
    exact Γ.mul_mem (Γ.mul_mem hg htΓ) (Γ.inv_mem hg)
  have hcl : alternatingGroup α ≤ Γ.comap ι := by
    rw [← Equiv.Perm.closure_three_cycles_eq_alternating, Subgroup.closure_le]
    exact fun s hs => h3 s hs
  exact hcl (Equiv.Perm.mem_alternatingGroup.2 ha)

end Barbarosa
