import Verif.Lemmas.FloatCode

/-!
# C98: pictures with the floating point arithmetic of the machine
-/

namespace Barbarosa

open Fl

namespace Square

theorem quantum32_le {t : ℚ} (k : ℤ) (hk : -126 ≤ k) (h0 : 0 < t) (h : t < 2 ^ (k + 1)) : quantum binary32 t ≤ 2 ^ (k - 23) := by
  have : Int.log 2 t < k + 1 := (Int.lt_zpow_iff_log_lt (by norm_num) h0).1 (by exact_mod_cast h)
  unfold quantum
  refine zpow_le_zpow_right₀ (by norm_num) ?_
  simp only [binary32]
  push_cast
  omega

theorem roundMag32_zero : roundMag binary32 0 = 0 := by
  unfold roundMag
  simp [show roundEven 0 = 0 by decide +kernel]

/-- rounding a number below `2 ^ 22` is off by at most 1/8 -/
theorem round32_small {t : ℚ} (h0 : 0 ≤ t) (h : t < 2 ^ 22) (zs : Bool) :
    ∃ s m, round binary32 zs t = .fin s m ∧ 0 ≤ m ∧ m ≤ t + 1 / 8 ∧ |Fl.val (.fin s m : F32) - t| ≤ 1 / 8 := by
  have ht : |t| = t := abs_of_nonneg h0
  have err : |t - roundMag binary32 t| ≤ 1 / 8 := by
    rcases h0.eq_or_lt with h0 | h0
    · rw [← h0, roundMag32_zero]; norm_num
    · have q := quantum32_le 21 (by norm_num) h0 (by norm_num; norm_num at h; exact h)
      have := roundMag_near binary32 t
      norm_num at q
      linarith
  have hm := roundMag_nonneg binary32 h0
  have hle : roundMag binary32 t ≤ t + 1 / 8 := by have := (abs_le.1 err).1; linarith
  have hlt : roundMag binary32 t < 2 ^ (binary32.emax + 1) := by
    have : ((2 : ℚ) ^ 22 + 1) < 2 ^ (binary32.emax + 1) := by
      have h1 : (2 : ℚ) ^ (23 : ℤ) < 2 ^ (binary32.emax + 1) := zpow_lt_zpow_right₀ (by norm_num) (by decide)
      refine lt_trans ?_ h1
      norm_num
    linarith
  refine ⟨if t = 0 then zs else decide (t < 0), roundMag binary32 t, ?_, hm, hle, ?_⟩
  · unfold Fl.round; simp only [ht, if_pos hlt]
  · by_cases hz : t = 0
    · subst hz
      rw [roundMag32_zero]
      simp only [Fl.val, neg_zero, ite_self]; norm_num
    · have : ¬ t < 0 := not_lt.2 h0
      simp only [if_neg hz, this, decide_false, Fl.val]
      rw [abs_sub_comm]
      simpa using err

/-- the index of a coordinate of a piece -/
theorem transformCoord32_eq (N : Nat) (hN : N ≤ 6291455) {x : F32} {X : ℤ} (hx : x.Is X) (hX : |X| ≤ 1) :
    transformCoord32 N x = transformCoord N X := by
  obtain ⟨X0, X1⟩ := abs_le.1 hX
  have h1 : (lit binary32 1).Is ((1 : ℤ) : ℚ) := by
    have := lit_is32 (q := 1) 1 (by simp) (by norm_num); simpa using this
  have h3 : (lit binary32 3).Is 3 := lit_is32 (q := 3) 3 (by simp) (by norm_num)
  have a1 : (x.add (lit binary32 1)).Is (X + 1 : ℤ) := addInt_is32 hx h1 (by rw [abs_of_nonneg (by omega)]; omega)
  have a2 : (ofInt binary32 (N : ℤ)).Is ((N : ℤ) : ℚ) := ofInt_is32 (by rw [abs_of_nonneg (by omega)]; omega)
  have k0 : 0 ≤ (X + 1) * (N : ℤ) := mul_nonneg (by omega) (by omega)
  have k1 : (X + 1) * (N : ℤ) ≤ 12582910 := by nlinarith
  have a3 : ((x.add (lit binary32 1)).mul (ofInt binary32 (N : ℤ))).Is ((X + 1) * (N : ℤ) : ℤ) :=
    mulInt_is32 a1 a2 (by rw [abs_of_nonneg k0]; omega)
  obtain ⟨zs, e⟩ := a3.div h3 (by norm_num)
  have k0' : (0 : ℚ) ≤ ((X + 1) * (N : ℤ) : ℤ) := by exact_mod_cast k0
  have k1' : (((X + 1) * (N : ℤ) : ℤ) : ℚ) ≤ 12582910 := by exact_mod_cast k1
  obtain ⟨s, m, hr, m0, m1, herr⟩ := round32_small (t := (((X + 1) * (N : ℤ) : ℤ) : ℚ) / 3) (by positivity) (by linarith) zs
  have m2 : m < 2 ^ 63 := by linarith
  unfold transformCoord32
  simp only [e, hr]
  refine (cell32 N s m0 m2).trans ?_
  rw [← (C83_integer_coordinates N).1 X, ← C83_rounding_errors N X (Fl.val (.fin s m : F32) - (((X + 1) * (N : ℤ) : ℤ) : ℚ) / 3)
    (by linarith)]
  congr 1
  push_cast
  ring

theorem basisVector_small (f : Face) : SmallVec (basisVector f) := by
  rcases f with ⟨a, d⟩
  revert a d
  unfold SmallVec; decide +kernel

/-- of a vector of `basis` only one component is not zero -/
theorem dot_basis_small (p : Int × Int × Int) (hp : SmallVec p) (f : Face) : |dot p (basisVector f)| ≤ 1 := by
  obtain ⟨x, y, z⟩ := p
  obtain ⟨h1, h2, h3⟩ := hp
  simp only at h1 h2 h3
  rcases f with ⟨_ | _ | _, _ | _⟩ <;> simp [dot, basisVector, Direction.scalar] <;> assumption

theorem dot32_is {p : Int × Int × Int} (hp : SmallVec p) (f : Face) :
    (dot32 (.ofInts p) (.ofInts (basisVector f))).Is (dot p (basisVector f) : ℤ) := by
  have one : ∀ x y : ℤ, |x| ≤ 1 → |y| ≤ 1 → ((ofInt binary32 x).mul (ofInt binary32 y)).Is (x * y : ℤ) ∧ |x * y| ≤ 1 := by
    intro x y hx hy
    have hxy : |x * y| ≤ 1 := by rw [abs_mul]; exact mul_le_one₀ hx (abs_nonneg _) hy
    exact ⟨mulInt_is32 (ofInt_is32 (by omega)) (ofInt_is32 (by omega)) (by omega), hxy⟩
  have hb := basisVector_small f
  obtain ⟨x1, x2⟩ := one _ _ hp.1 hb.1
  obtain ⟨y1, y2⟩ := one _ _ hp.2.1 hb.2.1
  obtain ⟨z1, z2⟩ := one _ _ hp.2.2 hb.2.2
  have s1 := abs_add_le (p.1 * (basisVector f).1) (p.2.1 * (basisVector f).2.1)
  have s2 := abs_add_le (p.1 * (basisVector f).1 + p.2.1 * (basisVector f).2.1) (p.2.2 * (basisVector f).2.2)
  exact addInt_is32 (addInt_is32 x1 y1 (by omega)) z1 (by omega)

theorem indices32_eq (N : Nat) (hN : N ≤ 6291455) {p : Int × Int × Int} (hp : SmallVec p) (f : Face) :
    indices32 N (.ofInts p) f = indices N p f := by
  unfold indices32 indices
  simp only
  rw [transformCoord32_eq N hN (dot32_is hp _) (dot_basis_small p hp _),
    transformCoord32_eq N hN (dot32_is hp _) (dot_basis_small p hp _)]
  rfl

end Square

open Square

theorem drawPiece32?_eq {N : Nat} (hN : N ≤ 6291455) {P : Type} [Piece P] [Colored P] [Coordinates P]
    (hP : ∀ p : Piece.Position P, SmallVec (Coordinates.coordinatesPos (P := P) p)) (u : Unfolded N) (x : Piece.Position P × P) :
    u.drawPiece32? x = u.drawPiece? x := by
  unfold Unfolded.drawPiece32? Unfolded.drawPiece?
  congr 1
  funext u fc
  unfold Unfolded.setAt32? Unfolded.setAt?
  rw [indices32_eq N hN (hP _)]
  rfl

/-- **C98** Colours are looked up at the coordinates of pieces in the same cell as with exact arithmetic, and the picture of a cube of
any size up to 6291455 is the same, for every cube. -/
theorem C98_pictures (N : Nat) (hN : N ≤ 6291455) :
    (∀ (s : Square N) (p : Edge.Pos) (f : Face), s.at32? (.ofInts (Edge.coordinatesPos p)) f = s.at? (Edge.coordinatesPos p) f) ∧
    (∀ (s : Square N) (p : Vec3) (f : Face), s.at32? (.ofInts (Corner.coordinatesPos p)) f = s.at? (Corner.coordinatesPos p) f) ∧
    ∀ c : Cube3, Unfolded.drawn32? N c = Unfolded.drawn? N c := by
  refine ⟨fun s p f => ?_, fun s p f => ?_, fun c => ?_⟩
  · unfold at32? at?; exact congrArg _ (indices32_eq N hN (edge_smallVec p) f)
  · unfold at32? at?; exact congrArg _ (indices32_eq N hN (corner_smallVec p) f)
  · have e : ∀ u : Unfolded N, u.populateWith32? c.edges = u.populateWith? c.edges := fun u => by
      unfold Unfolded.populateWith32? Unfolded.populateWith?
      congr 1
      funext u x
      exact drawPiece32?_eq hN edge_smallVec u x
    have k : ∀ u : Unfolded N, u.populateWith32? c.corners = u.populateWith? c.corners := fun u => by
      unfold Unfolded.populateWith32? Unfolded.populateWith?
      congr 1
      funext u x
      exact drawPiece32?_eq hN corner_smallVec u x
    unfold Unfolded.drawn32? Unfolded.drawn?
    rw [k]
    cases (Unfolded.default N).populateWith? c.corners with
    | none => rfl
    | some u => exact e u

/-- the 3x3 drawn as a 7x7 -/
example (c : Cube3) : Unfolded.drawn32? 7 c = Unfolded.drawn? 7 c := (C98_pictures 7 (by decide)).2.2 c

/-- **C98** Displaying a cube: the picture of size 3 is the one of C51. -/
theorem C98_display (c : Cube3) : (Unfolded.drawn32? 3 c).map Unfolded.write = c.display? := by
  rw [(C98_pictures 3 (by norm_num)).2.2]
  unfold Cube3.display? Unfolded.drawn? Unfolded.ofCube3?
  cases (Unfolded.default 3).populateWith? c.corners <;> rfl

example : (Unfolded.drawn32? 3 (movedAlg Cube3.SOLVED Perms.T)).map Unfolded.write = (movedAlg Cube3.SOLVED Perms.T).display? :=
  C98_display _

/-- **C98** The bound on the size is needed: three squares further the last coordinate falls into the wrong cell. -/
theorem C98_pictures_limit :
    (transformCoord32 6291458 (ofInt binary32 1)).map Fin.val = some 4194306 ∧
    (transformCoord 6291458 1).map Fin.val = some 4194305 := by decide +kernel

/-- **C98** What `Square::at` says about points too far outside fails for points that are not numbers or infinitely far away: they are
in the first cell. -/
theorem C98_not_a_number (N : Nat) (hN : 0 < N) (s : Square N) :
    s.at32? ⟨.nan, .nan, .nan⟩ Face.U = some (s ⟨0, hN⟩ ⟨0, hN⟩) ∧
    s.at32? ⟨ofInt binary32 0, .inf false, ofInt binary32 0⟩ Face.U = some (s ⟨0, hN⟩ ⟨0, hN⟩) := by
  have hnan : transformCoord32 N .nan = some ⟨0, hN⟩ := by
    unfold transformCoord32
    have h0 : asUsize (Fl.roundAway (((Fl.nan : F32).add (lit binary32 1)).mul (ofInt binary32 N) |>.div (lit binary32 3))) = 0 := rfl
    have h1 : (Fl.roundAway (((Fl.nan : F32).add (lit binary32 1)).mul (ofInt binary32 N) |>.div (lit binary32 3))).lt
      (lit binary32 0) = false := rfl
    simp only [h1, h0, dif_pos hN]
    rfl
  have key : ∀ p : Vec32, dot32 p (.ofInts (basisVector .F)) = .nan → dot32 p (.ofInts (basisVector .R)) = .nan →
      s.at32? p Face.U = some (s ⟨0, hN⟩ ⟨0, hN⟩) := by
    intro p h1 h2
    have hi : indices32 N p Face.U = some (⟨0, hN⟩, ⟨0, hN⟩) := by
      show (match transformCoord32 N (dot32 p (.ofInts (basisVector .F))) with
        | none => none
        | some x =>
          match transformCoord32 N (dot32 p (.ofInts (basisVector .R))) with
          | none => none
          | some y => some (x, y)) = _
      rw [h1, h2, hnan]
    unfold at32?
    rw [hi]
    rfl
  exact ⟨key _ (by decide +kernel) (by decide +kernel), key _ (by decide +kernel) (by decide +kernel)⟩

/-- a point infinitely far away in another direction is outside, and so is a finite one -/
example : (Square.new 3 ⟨Face.U⟩).at32? ⟨.inf false, ofInt binary32 0, ofInt binary32 0⟩ Face.U = none ∧
    (Square.new 3 ⟨Face.U⟩).at32? ⟨ofInt binary32 2, ofInt binary32 0, ofInt binary32 0⟩ Face.U = none ∧
    (Square.new 3 ⟨Face.U⟩).at32? ⟨ofInt binary32 1, .inf true, ofInt binary32 1⟩ Face.D = some ⟨Face.U⟩ := by decide +kernel

/-- **C98** The bytes that are printed for a colour are those of exact arithmetic. -/
theorem C98_rgb (f : Face) : (Color.mk f).rgb32 = (((Color.mk f).rgb.1 : ℤ), ((Color.mk f).rgb.2.1 : ℤ), ((Color.mk f).rgb.2.2 : ℤ)) := by
  rcases f with ⟨a, d⟩
  revert a d
  decide +kernel

example : (Color.mk Face.R).rgb32.1 = ((Color.mk Face.R).rgb.1 : ℤ) := by rw [C98_rgb]

/-! ## Points that are not integers -/

theorem fin_is {fmt : FloatFormat} (s : Bool) {m : ℚ} (h : 0 ≤ m) : (fin s m : Fl fmt).Is (Fl.val (fin s m : Fl fmt)) := by
  cases s
  · refine ⟨false, by simp [Fl.val, abs_of_nonneg h], fun _ => ?_⟩
    simp [Fl.val, h]
  · refine ⟨true, by simp [Fl.val, abs_of_nonneg h], fun h' => ?_⟩
    have : 0 < m := lt_of_le_of_ne h fun e => h' (by simp [Fl.val, ← e])
    simp [Fl.val, this]

/-- how much one operation can be off -/
theorem round32_error {q : ℚ} (hq : |q| < 2 ^ 127) (zs : Bool) :
    ∃ s m, round binary32 zs q = .fin s m ∧ 0 ≤ m ∧ |Fl.val (.fin s m : F32) - q| ≤ |q| / 2 ^ 24 + 1 / 2 ^ 150 := by
  have h0 := abs_nonneg q
  have err : |(|q|) - roundMag binary32 (|q|)| ≤ |q| / 2 ^ 24 + 1 / 2 ^ 150 := by
    rcases h0.eq_or_lt with h0 | h0
    · rw [← h0, Square.roundMag32_zero]; norm_num
    · refine (roundMag_near binary32 (|q|)).trans ?_
      have h1 : (2 : ℚ) ^ Int.log 2 |q| ≤ |q| := by
        have := Int.zpow_log_le_self (b := 2) (r := |q|) (by norm_num) h0
        exact_mod_cast this
      have h2 : quantum binary32 |q| ≤ |q| / 2 ^ 23 + 1 / 2 ^ 149 := by
        unfold quantum
        have e : ((binary32.prec : ℤ) - 1) = 23 := by decide
        rw [e]
        rcases max_choice (Int.log 2 |q|) binary32.emin with h | h <;> rw [h]
        · rw [zpow_sub₀ (by norm_num)]
          have : (2 : ℚ) ^ Int.log 2 |q| / 2 ^ (23 : ℤ) ≤ |q| / 2 ^ 23 := by
            rw [show (2 : ℚ) ^ (23 : ℤ) = 2 ^ 23 by norm_num]
            gcongr
          have : (0 : ℚ) < 1 / 2 ^ 149 := by positivity
          linarith
        · have : (2 : ℚ) ^ (binary32.emin - 23) = 1 / 2 ^ 149 := by
            rw [show binary32.emin - 23 = -(149 : ℕ) by decide, zpow_neg, zpow_natCast, one_div]
          rw [this]
          have : (0 : ℚ) ≤ |q| / 2 ^ 23 := by positivity
          linarith
      rw [show (2 : ℚ) ^ 150 = 2 ^ 149 * 2 by norm_num, show (2 : ℚ) ^ 24 = 2 ^ 23 * 2 by norm_num, ← div_div, ← div_div]
      linarith
  have hm := roundMag_nonneg binary32 h0
  have hlt : roundMag binary32 |q| < 2 ^ (binary32.emax + 1) := by
    have h1 := (abs_le.1 err).1
    have h2 : (2 : ℚ) ^ (binary32.emax + 1) = 2 ^ 127 * 2 := by
      rw [show binary32.emax + 1 = ((127 + 1 : ℕ) : ℤ) by decide, zpow_natCast, pow_succ]
    have h3 : |q| / 2 ^ 24 ≤ |q| / 2 := by gcongr; norm_num
    have h4 : (1 : ℚ) / 2 ^ 150 ≤ 1 := by norm_num
    have h5 : (4 : ℚ) ≤ 2 ^ 127 := by norm_num
    rw [h2]
    linarith
  refine ⟨if q = 0 then zs else decide (q < 0), roundMag binary32 |q|, ?_, hm, ?_⟩
  · unfold Fl.round; simp only [if_pos hlt]
  · by_cases hz : q = 0
    · subst hz
      rw [abs_zero, Square.roundMag32_zero]
      simp only [Fl.val, neg_zero, ite_self]; norm_num
    · simp only [if_neg hz, Fl.val]
      rcases lt_or_gt_of_ne hz with h | h
      · simp only [h, decide_true, if_true]
        rw [abs_of_neg h] at err ⊢
        rwa [show -roundMag binary32 (-q) - q = -q - roundMag binary32 (-q) by ring]
      · simp only [h.not_gt, decide_false, Bool.false_eq_true, if_false]
        rw [abs_of_pos h] at err ⊢
        rwa [abs_sub_comm]

/-- the scaled coordinate with its error -/
theorem scaled32 (N : Nat) (hN : N ≤ 2 ^ 24) {x : F32} {v : ℚ} (hx : x.Is v) (hv : |v| ≤ 2 ^ 60) :
    ∃ s m, (((x.add (lit binary32 1)).mul (ofInt binary32 N)).div (lit binary32 3)) = .fin s m ∧ 0 ≤ m ∧ m < 2 ^ 100 ∧
      |Fl.val (.fin s m : F32) - (v + 1) * N / 3| ≤ |(v + 1) * N / 3| / 2 ^ 22 + 1 / 2 ^ 120 := by
  have h1 : (lit binary32 1).Is 1 := lit_is32 (q := 1) 1 (by simp) (by norm_num)
  have h3 : (lit binary32 3).Is 3 := lit_is32 (q := 3) 3 (by simp) (by norm_num)
  have hNi : (ofInt binary32 (N : ℤ)).Is ((N : ℤ) : ℚ) := ofInt_is32 (by rw [abs_of_nonneg (by omega)]; omega)
  have hN' : (N : ℚ) ≤ 2 ^ 24 := by exact_mod_cast hN
  have hN0 : (0 : ℚ) ≤ N := by positivity
  rw [Int.cast_natCast] at hNi
  obtain ⟨z1, e1⟩ := hx.add h1
  have hv1 : |v + 1| ≤ 2 ^ 60 + 1 := (abs_add_le _ _).trans (by rw [abs_one]; linarith)
  obtain ⟨s1, m1, r1, g1, a1⟩ := round32_error (q := v + 1) (lt_of_le_of_lt hv1 (by norm_num)) z1
  set A := Fl.val (.fin s1 m1 : F32) with hA
  obtain ⟨z2, e2⟩ := (fin_is (fmt := binary32) s1 g1).mul hNi
  rw [← hA] at e2
  have bA : |A| ≤ |v + 1| + (|v + 1| / 2 ^ 24 + 1 / 2 ^ 150) := by
    have := abs_add_le (v + 1) (A - (v + 1))
    rw [show v + 1 + (A - (v + 1)) = A by ring] at this
    linarith
  have bAN : |A * N| ≤ (|v + 1| + (|v + 1| / 2 ^ 24 + 1 / 2 ^ 150)) * N := by
    rw [abs_mul, abs_of_nonneg hN0]; gcongr
  have bAN' : |A * N| < 2 ^ 90 := by
    have : (|v + 1| + (|v + 1| / 2 ^ 24 + 1 / 2 ^ 150)) * N ≤ (2 ^ 62) * 2 ^ 24 := by
      gcongr
      have : |v + 1| / 2 ^ 24 ≤ |v + 1| / 1 := by gcongr; norm_num
      norm_num at this ⊢
      norm_num at hv1
      linarith
    refine lt_of_le_of_lt (bAN.trans this) (by norm_num)
  obtain ⟨s2, m2, r2, g2, a2⟩ := round32_error (q := A * N) (bAN'.trans (by norm_num)) z2
  set B := Fl.val (.fin s2 m2 : F32) with hB
  obtain ⟨z3, e3⟩ := (fin_is (fmt := binary32) s2 g2).div h3 (by norm_num)
  rw [← hB] at e3
  have bB : |B| ≤ |A * N| + (|A * N| / 2 ^ 24 + 1 / 2 ^ 150) := by
    have := abs_add_le (A * N) (B - A * N)
    rw [show A * N + (B - A * N) = B by ring] at this
    linarith
  have bB3 : |B / 3| = |B| / 3 := by rw [abs_div, abs_of_pos (by norm_num : (0 : ℚ) < 3)]
  have bB' : |B / 3| < 2 ^ 92 := by
    rw [bB3]
    have : |A * N| / 2 ^ 24 ≤ |A * N| / 1 := by gcongr; norm_num
    norm_num at this bAN' ⊢
    norm_num at bB
    linarith
  obtain ⟨s3, m3, r3, g3, a3⟩ := round32_error (q := B / 3) (bB'.trans (by norm_num)) z3
  refine ⟨s3, m3, by rw [e1, r1, e2, r2, e3, r3], g3, ?_, ?_⟩
  · have hm : |Fl.val (.fin s3 m3 : F32)| = m3 := by
      unfold Fl.val
      cases s3 <;> simp [abs_of_nonneg g3]
    have := abs_add_le (B / 3) (Fl.val (.fin s3 m3 : F32) - B / 3)
    rw [show B / 3 + (Fl.val (.fin s3 m3 : F32) - B / 3) = Fl.val (.fin s3 m3 : F32) by ring, hm] at this
    have h9 : |B / 3| / 2 ^ 24 ≤ |B / 3| / 1 := by gcongr; norm_num
    norm_num at this bB' h9 a3 ⊢
    linarith
  · set Cc := Fl.val (.fin s3 m3 : F32)
    -- A N = a N + d1, B = A N + d2, C = B / 3 + d3
    set a := |v + 1| * N with ha
    have ha0 : 0 ≤ a := by positivity
    have d1 : |A * N - (v + 1) * N| ≤ a / 2 ^ 24 + N / 2 ^ 150 := by
      rw [← sub_mul, abs_mul, abs_of_nonneg hN0]
      calc |A - (v + 1)| * N ≤ (|v + 1| / 2 ^ 24 + 1 / 2 ^ 150) * N := by gcongr
        _ = a / 2 ^ 24 + N / 2 ^ 150 := by rw [ha]; ring
    have bAN2 : |A * N| ≤ a + a / 2 ^ 24 + N / 2 ^ 150 := by
      refine bAN.trans (le_of_eq ?_)
      rw [ha]; ring
    have t : |(v + 1) * N / 3| = a / 3 := by
      rw [abs_div, abs_mul, abs_of_nonneg hN0, abs_of_pos (by norm_num : (0 : ℚ) < 3)]
    rw [t]
    have tot : |Cc - (v + 1) * N / 3| ≤ |Cc - B / 3| + |B - A * N| / 3 + |A * N - (v + 1) * N| / 3 := by
      have e : Cc - (v + 1) * N / 3 = (Cc - B / 3) + ((B - A * N) / 3 + (A * N - (v + 1) * N) / 3) := by ring
      rw [e]
      refine (abs_add_le _ _).trans ?_
      have := abs_add_le ((B - A * N) / 3) ((A * N - (v + 1) * N) / 3)
      rw [abs_div, abs_div, abs_of_pos (by norm_num : (0 : ℚ) < 3)] at this
      linarith
    rw [bB3] at a3
    have hN' : (N : ℚ) ≤ 16777216 := by norm_num at hN' ⊢; exact_mod_cast hN'
    norm_num at tot a1 a2 a3 d1 bAN2 bB ⊢
    linarith

namespace Square

/-- `cell32` for numbers of any size -/
theorem cell32_any (N : Nat) (hN : N < 2 ^ 63) (s : Bool) {m : ℚ} (h0 : 0 ≤ m) :
    (if (Fl.roundAway (.fin s m : F32)).lt (lit binary32 0) then none
      else if h : asUsize (Fl.roundAway (.fin s m)) < N then some ⟨asUsize (Fl.roundAway (.fin s m)), h⟩
      else none) = cellOf? N (Fl.val (.fin s m : F32)) := by
  by_cases hm : m < 2 ^ 63
  · exact cell32 N s h0 hm
  · push Not at hm
    have hN' : (N : ℚ) < 2 ^ 63 := by exact_mod_cast hN
    have hnone : cellOf? N (Fl.val (.fin s m : F32)) = none := by
      rw [← Option.not_isSome_iff_eq_none, cellOf?_isSome]
      rintro ⟨h1, h2⟩
      unfold Fl.val at h1 h2
      cases s
      · simp only [Bool.false_eq_true, if_false] at h1 h2; linarith
      · simp only [if_true] at h1 h2; linarith
    rw [hnone]
    have n0 : 2 ^ 63 ≤ ⌊m + 1 / 2⌋ := by
      rw [Int.le_floor]; push_cast; linarith
    cases s
    · have hu : ¬ asUsize (Fl.roundAway (.fin false m : F32)) < N := by
        unfold asUsize Fl.roundAway Fl.toInt
        simp only [Int.floor_intCast, Bool.false_eq_true, if_false]
        omega
      rw [dif_neg hu, ite_self]
    · have hl : (Fl.roundAway (.fin true m : F32)).lt (lit binary32 0) = true := by
        obtain ⟨t, ht, -⟩ : (lit binary32 0).Is 0 := lit_is32 (q := 0) 0 (by simp) (by norm_num)
        rw [ht]
        unfold Fl.roundAway Fl.lt Fl.val
        simp only [abs_zero, neg_zero, ite_self, if_true, decide_eq_true_eq]
        have : (0 : ℚ) < ⌊m + 1 / 2⌋ := by exact_mod_cast (by omega : 0 < ⌊m + 1 / 2⌋)
        linarith
      rw [hl, if_pos rfl]

/-- **C98** `Square::at` returns the closest cell up to rounding errors: on a picture of size `N` up to `2 ^ 24`, a coordinate that is scaled
to `t` lands in a cell whose number differs from `t` by at most `1/2 + N / 2 ^ 21`; and only coordinates outside, or that close to the
border, have no cell. -/
theorem C98_nearest (N : Nat) (h0 : 0 < N) (hN : N ≤ 2 ^ 24) {x : F32} {v : ℚ} (hx : x.Is v) (hv : |v| ≤ 2 ^ 60) :
    (∀ i, transformCoord32 N x = some i → |(v + 1) * N / 3 - i.val| ≤ 1 / 2 + N / 2 ^ 21) ∧
    (transformCoord32 N x = none → (v + 1) * N / 3 ≤ -(1 / 2) + N / 2 ^ 21 ∨ N - 1 / 2 - N / 2 ^ 21 ≤ (v + 1) * N / 3) := by
  obtain ⟨s, m, e, m0, m1, herr⟩ := scaled32 N hN hx hv
  have hN1 : (1 : ℚ) ≤ N := by exact_mod_cast h0
  have cell : transformCoord32 N x = cellOf? N (Fl.val (.fin s m : F32)) := by
    unfold transformCoord32
    simp only [e]
    exact cell32_any N (lt_of_le_of_lt hN (by norm_num)) s m0
  rw [cell]
  generalize (v + 1) * (N : ℚ) / 3 = t at herr
  generalize Fl.val (.fin s m : F32) = C at herr
  obtain ⟨g1, g2⟩ := abs_le.1 herr
  constructor
  · intro i hi
    obtain ⟨i1, i2, i3⟩ := (cellOf?_eq_some N C i).1 hi
    have iN : (i.val : ℚ) + 1 ≤ N := by exact_mod_cast i.isLt
    have i0 : (0 : ℚ) ≤ i.val := by positivity
    have ht : |t| ≤ 3 / 2 * N := by
      have hC : |C| ≤ N := abs_le.2 ⟨by linarith, by linarith⟩
      have := abs_add_le C (t - C)
      rw [show C + (t - C) = t by ring, abs_sub_comm] at this
      norm_num at herr
      linarith
    rw [abs_le]
    norm_num at g1 g2 ⊢
    constructor <;> linarith
  · intro hn
    by_contra hc
    push Not at hc
    obtain ⟨c1, c2⟩ := hc
    have ht : |t| ≤ N := by
      have : (0 : ℚ) ≤ N / 2 ^ 21 := by positivity
      rw [abs_le]; constructor <;> linarith
    have : (cellOf? N C).isSome := by
      rw [cellOf?_isSome]
      norm_num at g1 g2 c1 c2 ⊢
      constructor <;> linarith
    rw [hn] at this
    cases this

/-- the points of the tests in `unfolded/test.rs`, in `f32` -/
example : let x : ℚ → F32 := lit binary32
    let at' : (N : Nat) → F32 → F32 → F32 → Option (Nat × Nat) := fun N a b c =>
      (indices32 N ⟨a, b, c⟩ Face.U).map fun ij => (ij.1.val, ij.2.val)
    at' 3 (x (-1)) (x (-1)) (x (-1)) = some (0, 0) ∧ at' 3 (x (-3 / 2)) (x (-1)) (x (-1)) = none ∧
    at' 3 ((x (-3 / 2)).add (x (1 / 10000))) (x (-1)) (x (-1)) = some (0, 0) ∧
    at' 4 (x (-1)) (x (-1)) (x (-1)) = some (0, 0) ∧ at' 4 (x (33 / 100)) (x 1) (x (33 / 100)) = some (2, 2) ∧
    at' 4 (x (1 / 2)) (x 1) (x (1 / 2)) = some (2, 2) ∧ at' 4 (x 1) (x 1) (x 1) = some (3, 3) ∧
    at' 4 (x (-1375 / 1000)) (x (-1)) (x (-1)) = none ∧ (at' 4 (x (-1374 / 1000)) (x (-1)) (x (-1))).isSome = true := by
  decide +kernel

end Square

end Barbarosa
