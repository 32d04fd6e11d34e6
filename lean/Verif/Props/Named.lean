import Verif.Props.Stickers
import Verif.Props.Parser
import Verif.Model.NonRedundant

/-!
# C63: what the named algs do
-/

namespace Barbarosa

/-- Names of places: the cubelet on the given faces -/
def cubelet (faces : List Face) : Z3 := faces.foldl (fun p f => ⟨p.x + f.normal.x, p.y + f.normal.y, p.z + f.normal.z⟩) ⟨0, 0, 0⟩

/-- Some cubelets are carried somewhere else like turns of a face would do, everything else stays. -/
def Transports (l : List (Z3 × AxisMove)) (s s' : Facelet) : Prop :=
  match l.find? fun x => decide (x.1 = s.point) with
  | some (_, m) => s'.point = turnOf m s.point ∧ s'.face.normal = turnOf m s.face.normal
  | none => s' = s

instance (l : List (Z3 × AxisMove)) (s s' : Facelet) : Decidable (Transports l s s') := by
  unfold Transports
  split <;> infer_instance

/-- On every valid cube, the sticker at `s` before the alg is at `s'` after it. -/
def DoesTo (alg : List AxisMove) (s s' : Facelet) : Prop :=
  ∀ c : Cube3, c.valid → ∃ col, c.shows s = some col ∧ (movedAlg c alg).shows s' = some col

/-- where one turn carries a facelet, computed -/
def carryOne (m : AxisMove) (s : Facelet) : Option Facelet := Facelet.all.find? fun t => decide (Facelet.Carries m s t)

/-- where an alg carries a facelet, computed -/
def carryAll : List AxisMove → Facelet → Option Facelet
  | [], s => some s
  | m :: l, s => (carryOne m s).bind (carryAll l)

theorem carryAll_carries (alg : List AxisMove) : ∀ s s', carryAll alg s = some s' → CarriesAlg alg s s' := by
  induction alg with
  | nil => intro s s' h; cases h; rfl
  | cons m l ih =>
    intro s s' h
    simp only [carryAll] at h
    cases h1 : carryOne m s with
    | none => rw [h1] at h; cases h
    | some t =>
      rw [h1] at h
      have := List.find?_some h1
      exact ⟨t, by simpa using this, ih t s' h⟩

/-- it is enough to follow the 54 facelets -/
theorem doesTo_of_table {alg : List AxisMove} {l : List (Z3 × AxisMove)}
    (h : ∀ s ∈ Facelet.all, ∀ s' ∈ Facelet.all, Transports l s s' → carryAll alg s = some s')
    {s s' : Facelet} (hs : s.OnCube) (hs' : s'.OnCube) (ht : Transports l s s') : DoesTo alg s s' := fun c hc =>
  C05_alg alg c hc s s' hs (carryAll_carries alg s s' (h s (s.mem_all.2 hs) s' (s'.mem_all.2 hs') ht))

/-- `pll::T`: RUF and RUB are exchanged, RU and LU are exchanged (keeping their stickers on U up) -/
def tPerm : List (Z3 × AxisMove) :=
  [(cubelet [.R, .U, .F], ⟨.U, .inverse⟩), (cubelet [.R, .U, .B], ⟨.U, .single⟩),
   (cubelet [.R, .U], ⟨.U, .double⟩), (cubelet [.L, .U], ⟨.U, .double⟩)]

/-- `pll::J`: RU and UF are exchanged, RUF and RUB are exchanged -/
def jPerm : List (Z3 × AxisMove) :=
  [(cubelet [.R, .U, .F], ⟨.U, .inverse⟩), (cubelet [.R, .U, .B], ⟨.U, .single⟩),
   (cubelet [.R, .U], ⟨.U, .single⟩), (cubelet [.U, .F], ⟨.U, .inverse⟩)]

/-- what `pll::U` does: the edges RU, BU, LU go round (the documentation names corners instead) -/
def uPerm : List (Z3 × AxisMove) :=
  [(cubelet [.R, .U], ⟨.U, .inverse⟩), (cubelet [.U, .B], ⟨.U, .inverse⟩), (cubelet [.L, .U], ⟨.U, .double⟩)]

/-- **C63** The T perm exchanges RUF with RUB and RU with LU, as documented, on every valid 3x3; nothing else moves. -/
theorem C63_T (s s' : Facelet) (hs : s.OnCube) (hs' : s'.OnCube) (h : Transports tPerm s s') : DoesTo Perms.T s s' :=
  doesTo_of_table (by decide +kernel) hs hs' h

/-- the sticker of the corner right-up-front that is on F goes to the corner behind it -/
example : DoesTo Perms.T ⟨⟨1, 1, 1⟩, .F⟩ ⟨⟨1, 1, -1⟩, .R⟩ := C63_T _ _ (by decide) (by decide) (by decide)

/-- **C63** The J perm exchanges RU with UF and RUF with RUB, as documented, on every valid 3x3; nothing else moves. -/
theorem C63_J (s s' : Facelet) (hs : s.OnCube) (hs' : s'.OnCube) (h : Transports jPerm s s') : DoesTo Perms.J s s' :=
  doesTo_of_table (by decide +kernel) hs hs' h

/-- the sticker of the edge in front that is on F goes to the edge on the right -/
example : DoesTo Perms.J ⟨⟨0, 1, 1⟩, .F⟩ ⟨⟨1, 1, 0⟩, .R⟩ := C63_J _ _ (by decide) (by decide) (by decide)

/-- **C63** The U perm cycles the edges RU → BU → LU → RU on every valid 3x3; nothing else moves. Missing: the documented cycle
RUF → RUB → RUL, which is not what happens (`C63_U_no_corners`). -/
theorem C63_U_partial (s s' : Facelet) (hs : s.OnCube) (hs' : s'.OnCube) (h : Transports uPerm s s') : DoesTo Perms.U s s' :=
  doesTo_of_table (by decide +kernel) hs hs' h

/-- the sticker of the left edge that is on L goes to the right edge -/
example : DoesTo Perms.U ⟨⟨-1, 1, 0⟩, .L⟩ ⟨⟨1, 1, 0⟩, .R⟩ := C63_U_partial _ _ (by decide) (by decide) (by decide)

/-- **C63** is false for the U perm: no corner moves (on any cube, valid or not), and there is no piece RUL. -/
theorem C63_U_no_corners (c : Cube3) : (movedAlg c Perms.U).corners = c.corners ∧
    cubelet [.R, .U, .L] = cubelet [.U] ∧ ∀ i, (Corner.REFERENCE_POSITIONS i).point ≠ cubelet [.R, .U, .L] := by
  have key : ∀ k : Corner, movedAlg k Perms.U = k := by decide +kernel
  have proj : ∀ (alg : List AxisMove) (c : Cube3), (movedAlg c alg).corners = fun i => movedAlg (c.corners i) alg := by
    intro alg
    induction alg with
    | nil => intro c; rfl
    | cons m l ih => intro c; exact ih (moved c m)
  refine ⟨?_, by decide +kernel, by decide +kernel⟩
  rw [proj]
  funext i
  exact key _

/-- **C63** The descriptions are permutations of the 54 facelets: each facelet is carried to one facelet. -/
theorem C63_complete (l : List (Z3 × AxisMove)) (hl : l ∈ [tPerm, jPerm, uPerm]) (s : Facelet) (hs : s.OnCube) :
    ∃! s' : Facelet, s'.OnCube ∧ Transports l s s' := by
  have h : ∀ l ∈ [tPerm, jPerm, uPerm], ∀ s ∈ Facelet.all, ∃ s' ∈ Facelet.all, Transports l s s' ∧
      ∀ t ∈ Facelet.all, Transports l s t → t = s' := by decide +kernel
  obtain ⟨s', h1, h2, h3⟩ := h l hl s (s.mem_all.2 hs)
  exact ⟨s', ⟨s'.mem_all.1 h1, h2⟩, fun t ht => h3 t (t.mem_all.2 ht.1) ht.2⟩

/-- what the J perm does to the front sticker of UF is told, and nothing else is told about it -/
example : ∃! s' : Facelet, s'.OnCube ∧ Transports jPerm ⟨⟨0, 1, 1⟩, .F⟩ s' := C63_complete jPerm (by simp) _ (by decide)

/-- **C63** The texts in `perms.rs` parse, so the `unwrap`s in the lazy initialisers never panic, and to these moves. -/
theorem C63_texts (num : Char → Bool) :
    (parse num "R U R' U'".toList : Outcome (List AxisMove)) = .ok Perms.SEXY_MOVE ∧
    (parse num "R U R' U' R' F R2 U' R' U' R U R' F'".toList : Outcome (List AxisMove)) = .ok Perms.T ∧
    (parse num "R2 U' R' U' R U R U R U' R".toList : Outcome (List AxisMove)) = .ok Perms.U ∧
    (parse num "R U R' F' R U R' U' R' F R2 U' R' U'".toList : Outcome (List AxisMove)) = .ok Perms.J := by
  have e1 : "R U R' U'".toList = algDisplay AxisMove.display Perms.SEXY_MOVE := by decide +kernel
  have e2 : "R U R' U' R' F R2 U' R' U' R U R' F'".toList = algDisplay AxisMove.display Perms.T := by decide +kernel
  have e3 : "R2 U' R' U' R U R U R U' R".toList = algDisplay AxisMove.display Perms.U := by decide +kernel
  have e4 : "R U R' F' R U R' U' R' F R2 U' R' U'".toList = algDisplay AxisMove.display Perms.J := by decide +kernel
  rw [e1, e2, e3, e4]
  exact ⟨C41_alg num _, C41_alg num _, C41_alg num _, C41_alg num _⟩

/-- the front sticker of RUF goes to the right of RUB by the T perm; the front sticker of UF is not moved by it -/
example : Facelet.OnCube ⟨⟨1, 1, 1⟩, .F⟩ ∧ Transports tPerm ⟨⟨1, 1, 1⟩, .F⟩ ⟨⟨1, 1, -1⟩, .R⟩ ∧
    Transports tPerm ⟨⟨0, 1, 1⟩, .F⟩ ⟨⟨0, 1, 1⟩, .F⟩ ∧ Transports jPerm ⟨⟨0, 1, 1⟩, .F⟩ ⟨⟨1, 1, 0⟩, .R⟩ ∧
    Transports uPerm ⟨⟨-1, 1, 0⟩, .L⟩ ⟨⟨1, 1, 0⟩, .R⟩ := by decide +kernel

end Barbarosa
