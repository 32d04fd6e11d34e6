import Verif.Lemmas.Heuristics

/-!
# The heuristic of `solve_cross_fast` is at most one too high
-/

namespace Barbarosa.Bits

/-- the number of moves the edge number `k` of the cross needs, by its code -/
def need (f : Face) (k : Fin 4) (x : Nat) : Nat := Edge.minMovesToSolve (Edge.REFERENCE_POSITIONS (slot f k)) (edgeOfCode x)

/-- the codes whose digit of weight `w` needs `a` moves -/
def needs (f : Face) (k : Fin 4) (Z w a : Nat) : Nat :=
  unions (fun x => Z <<< (x * w)) 0 ((List.range 24).filter fun x => need f k x == a)

/-- the codes whose edges need `v` moves or more together -/
def heavy (f : Face) (v : Nat) : Nat :=
  unions (fun a => unions (fun b => unions (fun c => unions (fun d =>
      needs f 0 (zeroDigit 0) 1 a &&& needs f 1 (zeroDigit 1) 24 b &&& needs f 2 (zeroDigit 2) 576 c &&& needs f 3 (zeroDigit 3) 13824 d)
    0 ((List.range 4).filter fun d => v ≤ a + b + c + d)) 0 (List.range 4)) 0 (List.range 4)) 0 (List.range 4)

theorem testBit_needs {f : Face} {k : Fin 4} {Z w a i : Nat} (hZ : IsZero Z w) (hw : IsWeight w) (hi : i < 331776) :
    (needs f k Z w a).testBit i = true ↔ need f k (i / w % 24) = a := by
  unfold needs
  rw [testBit_unions]
  simp only [Nat.zero_testBit, Bool.false_eq_true, false_or, List.mem_filter, List.mem_range, beq_iff_eq]
  constructor
  · rintro ⟨x, ⟨h1, h2⟩, h3⟩
    rw [testBit_shiftZero hZ hw h1 hi] at h3
    rwa [h3]
  · intro h
    exact ⟨i / w % 24, ⟨Nat.mod_lt _ (by decide), h⟩, (testBit_shiftZero hZ hw (Nat.mod_lt _ (by decide)) hi).2 rfl⟩

theorem mem_heavy (f : Face) (v : Nat) (t : Fin 4 → Edge) : Mem (heavy f v) t ↔
    v ≤ ∑ k, Edge.minMovesToSolve (Edge.REFERENCE_POSITIONS (slot f k)) (t k) := by
  obtain ⟨z0, z1, z2, z3⟩ := zeroDigit_ok
  have b := fun i => (edgeCode_ok (t i)).1
  have b0 := b 0; have b1 := b 1; have b2 := b 2; have b3 := b 3
  have hi := codeE_lt t
  have w0 : IsWeight 1 := .inl rfl
  have w1 : IsWeight 24 := .inr (.inl rfl)
  have w2 : IsWeight 576 := .inr (.inr (.inl rfl))
  have w3 : IsWeight 13824 := .inr (.inr (.inr rfl))
  have d0 : codeE t / 1 % 24 = edgeCode (t 0) := by unfold codeE code; omega
  have d1 : codeE t / 24 % 24 = edgeCode (t 1) := by unfold codeE code; omega
  have d2 : codeE t / 576 % 24 = edgeCode (t 2) := by unfold codeE code; omega
  have d3 : codeE t / 13824 % 24 = edgeCode (t 3) := by unfold codeE code; omega
  have hn : ∀ k e, need f k (edgeCode e) = Edge.minMovesToSolve (Edge.REFERENCE_POSITIONS (slot f k)) e := fun k e => by
    unfold need
    rw [(edgeCode_ok e).2]
  have l := fun k => minMoves_le (Edge.REFERENCE_POSITIONS (slot f k)) (t k)
  have l0 := l 0; have l1 := l 1; have l2 := l 2; have l3 := l 3
  unfold Mem heavy
  simp only [testBit_unions, Nat.zero_testBit, Bool.false_eq_true, false_or, Nat.testBit_and, Bool.and_eq_true, List.mem_range,
    List.mem_filter, decide_eq_true_eq, testBit_needs z0 w0 hi, testBit_needs z1 w1 hi, testBit_needs z2 w2 hi,
    testBit_needs z3 w3 hi, d0, d1, d2, d3, hn]
  rw [Fin.sum_univ_four]
  constructor
  · rintro ⟨a, h1, b, h2, c, h3, d, ⟨h4, h5⟩, ⟨⟨rfl, rfl⟩, rfl⟩, rfl⟩
    exact h5
  · intro h
    exact ⟨_, by omega, _, by omega, _, by omega, _, ⟨by omega, h⟩, ⟨⟨rfl, rfl⟩, rfl⟩, rfl⟩

/-- nothing needs more than twice its distance plus two -/
def light (f : Face) : Prop := level f 2 &&& heavy f 7 = 0 ∧ level f 3 &&& heavy f 9 = 0 ∧ level f 4 &&& heavy f 11 = 0

instance (f : Face) : Decidable (light f) := by unfold light; infer_instance

theorem light_R : light Face.R := by decide +kernel
theorem light_L : light Face.L := by decide +kernel
theorem light_U : light Face.U := by decide +kernel
theorem light_D : light Face.D := by decide +kernel
theorem light_F : light Face.F := by decide +kernel
theorem light_B : light Face.B := by decide +kernel

theorem light_all (f : Face) : light f := by
  rcases face_cases f with rfl | rfl | rfl | rfl | rfl | rfl
  exacts [light_R, light_L, light_U, light_D, light_F, light_B]

theorem need_le (f : Face) (t : Fin 4 → Edge) (w : List AxisMove) (h : ∀ k, movedAlg (t k) w = homes f k) :
    ∑ k, Edge.minMovesToSolve (Edge.REFERENCE_POSITIONS (slot f k)) (t k) ≤ 2 * w.length + 2 := by
  have hl : ∀ k, Edge.minMovesToSolve (Edge.REFERENCE_POSITIONS (slot f k)) (t k) ≤ w.length := fun k =>
    minMoves_lower _ _ _ (by rw [h k]; exact solved_edge _)
  have l := fun k => minMoves_le (Edge.REFERENCE_POSITIONS (slot f k)) (t k)
  have key : ∀ n v, level f n &&& heavy f v = 0 → w.length ≤ n →
      ∑ k, Edge.minMovesToSolve (Edge.REFERENCE_POSITIONS (slot f k)) (t k) < v := by
    intro n v h0 hn
    by_contra hc
    have h1 := (mem_heavy f v t).2 (not_lt.1 hc)
    have h2 := (mem_level f n t).2 ⟨w, hn, h⟩
    unfold Mem at h1 h2
    have h3 : (level f n &&& heavy f v).testBit (codeE t) = true := by rw [Nat.testBit_and, h1, h2]; rfl
    rw [h0, Nat.zero_testBit] at h3
    exact Bool.false_ne_true h3
  obtain ⟨a2, a3, a4⟩ := light_all f
  have k2 := key _ _ a2
  have k3 := key _ _ a3
  have k4 := key _ _ a4
  rw [Fin.sum_univ_four] at *
  have l0 := l 0; have l1 := l 1; have l2 := l 2; have l3 := l 3
  have h0 := hl 0; have h1 := hl 1; have h2 := hl 2; have h3 := hl 3
  by_cases c1 : w.length ≤ 1
  · omega
  by_cases c2 : w.length ≤ 2
  · have := k2 c2; omega
  by_cases c3 : w.length ≤ 3
  · have := k3 c3; omega
  by_cases c4 : w.length ≤ 4
  · have := k4 c4; omega
  omega

end Barbarosa.Bits
