import Verif.Model.Gen.Map
import Verif.Model.FloatRun

/-! The positions written by the generated blocks depend on the node indices only. -/

set_option autoImplicit false

namespace Meshless

/-- numbers without content -/
inductive Nil | mk
namespace Nil
instance : Add Nil := ⟨fun _ _ => .mk⟩
instance : Sub Nil := ⟨fun _ _ => .mk⟩
instance : Mul Nil := ⟨fun _ _ => .mk⟩
instance : Div Nil := ⟨fun _ _ => .mk⟩
instance : Neg Nil := ⟨fun _ => .mk⟩
instance : OfNat Nil 1 := ⟨.mk⟩
instance : OfNat Nil 2 := ⟨.mk⟩
instance : OfNat Nil 4 := ⟨.mk⟩
instance : OfNat Nil 8 := ⟨.mk⟩
instance : OfScientific Nil := ⟨fun _ _ _ => .mk⟩
end Nil

/-- the position of an increment -/
def pos2 {K : Type*} (t : ℤ × ℤ × K) : ℤ × ℤ := (t.1, t.2.1)

section
set_option linter.unusedSectionVars false
variable {K : Type*} [Add K] [Sub K] [Mul K] [Div K] [Neg K] [OfNat K 1] [OfNat K 2] [OfNat K 4] [OfNat K 8] [OfScientific K]

theorem k0Entries_at (e : K0Env K) : (k0Entries e).map pos2 = (k0Entries (e.map fun _ => Nil.mk)).map pos2 := by
  have hi1_0 : (k0_i1_0 e).map pos2 = (k0_i1_0 (e.map fun _ => Nil.mk)).map pos2 := rfl
  have hi1_1 : (k0_i1_1 e).map pos2 = (k0_i1_1 (e.map fun _ => Nil.mk)).map pos2 := rfl
  have hi1_3 : (k0_i1_3 e).map pos2 = (k0_i1_3 (e.map fun _ => Nil.mk)).map pos2 := rfl
  have hi1_4 : (k0_i1_4 e).map pos2 = (k0_i1_4 (e.map fun _ => Nil.mk)).map pos2 := rfl
  have hi2_0 : (k0_i2_0 e).map pos2 = (k0_i2_0 (e.map fun _ => Nil.mk)).map pos2 := rfl
  have hi2_1 : (k0_i2_1 e).map pos2 = (k0_i2_1 (e.map fun _ => Nil.mk)).map pos2 := rfl
  have hi2_3 : (k0_i2_3 e).map pos2 = (k0_i2_3 (e.map fun _ => Nil.mk)).map pos2 := rfl
  have hi2_4 : (k0_i2_4 e).map pos2 = (k0_i2_4 (e.map fun _ => Nil.mk)).map pos2 := rfl
  have hi3_0 : (k0_i3_0 e).map pos2 = (k0_i3_0 (e.map fun _ => Nil.mk)).map pos2 := rfl
  have hi3_1 : (k0_i3_1 e).map pos2 = (k0_i3_1 (e.map fun _ => Nil.mk)).map pos2 := rfl
  have hi3_3 : (k0_i3_3 e).map pos2 = (k0_i3_3 (e.map fun _ => Nil.mk)).map pos2 := rfl
  have hi3_4 : (k0_i3_4 e).map pos2 = (k0_i3_4 (e.map fun _ => Nil.mk)).map pos2 := rfl
  have hi4_0 : (k0_i4_0 e).map pos2 = (k0_i4_0 (e.map fun _ => Nil.mk)).map pos2 := rfl
  have hi4_1 : (k0_i4_1 e).map pos2 = (k0_i4_1 (e.map fun _ => Nil.mk)).map pos2 := rfl
  have hi4_3 : (k0_i4_3 e).map pos2 = (k0_i4_3 (e.map fun _ => Nil.mk)).map pos2 := rfl
  have hi4_4 : (k0_i4_4 e).map pos2 = (k0_i4_4 (e.map fun _ => Nil.mk)).map pos2 := rfl
  simp only [k0Entries, List.map_append, hi1_0, hi1_1, hi1_3, hi1_4, hi2_0, hi2_1, hi2_3, hi2_4, hi3_0, hi3_1, hi3_3, hi3_4, hi4_0, hi4_1, hi4_3, hi4_4]
theorem kGEntries_at (e : KGEnv K) : (kGEntries e).map pos2 = (kGEntries (e.map fun _ => Nil.mk)).map pos2 := rfl
theorem cellSEntries_at (e : CellSEnv K) : (cellSEntries e).map pos2 = (cellSEntries (e.map fun _ => Nil.mk)).map pos2 := rfl
theorem cellNSEntries_at (e : CellNSEnv K) : (cellNSEntries e).map pos2 = (cellNSEntries (e.map fun _ => Nil.mk)).map pos2 := rfl
theorem edgeBEntries_at (e : EdgeBEnv K) : (edgeBEntries e).map pos2 = (edgeBEntries (e.map fun _ => Nil.mk)).map pos2 := rfl
theorem edgeIEntries_at (e : EdgeIEnv K) : (edgeIEntries e).map pos2 = (edgeIEntries (e.map fun _ => Nil.mk)).map pos2 := by
  have hi1_2 : (edgeI_i1_2 e).map pos2 = (edgeI_i1_2 (e.map fun _ => Nil.mk)).map pos2 := rfl
  have hi1_3 : (edgeI_i1_3 e).map pos2 = (edgeI_i1_3 (e.map fun _ => Nil.mk)).map pos2 := rfl
  have hi1_4 : (edgeI_i1_4 e).map pos2 = (edgeI_i1_4 (e.map fun _ => Nil.mk)).map pos2 := rfl
  have hi2_2 : (edgeI_i2_2 e).map pos2 = (edgeI_i2_2 (e.map fun _ => Nil.mk)).map pos2 := rfl
  have hi2_3 : (edgeI_i2_3 e).map pos2 = (edgeI_i2_3 (e.map fun _ => Nil.mk)).map pos2 := rfl
  have hi2_4 : (edgeI_i2_4 e).map pos2 = (edgeI_i2_4 (e.map fun _ => Nil.mk)).map pos2 := rfl
  have hi3_2 : (edgeI_i3_2 e).map pos2 = (edgeI_i3_2 (e.map fun _ => Nil.mk)).map pos2 := rfl
  have hi3_3 : (edgeI_i3_3 e).map pos2 = (edgeI_i3_3 (e.map fun _ => Nil.mk)).map pos2 := rfl
  have hi3_4 : (edgeI_i3_4 e).map pos2 = (edgeI_i3_4 (e.map fun _ => Nil.mk)).map pos2 := rfl
  have hi4_2 : (edgeI_i4_2 e).map pos2 = (edgeI_i4_2 (e.map fun _ => Nil.mk)).map pos2 := rfl
  have hi4_3 : (edgeI_i4_3 e).map pos2 = (edgeI_i4_3 (e.map fun _ => Nil.mk)).map pos2 := rfl
  have hi4_4 : (edgeI_i4_4 e).map pos2 = (edgeI_i4_4 (e.map fun _ => Nil.mk)).map pos2 := rfl
  simp only [edgeIEntries, List.map_append, hi1_2, hi1_3, hi1_4, hi2_2, hi2_3, hi2_4, hi3_2, hi3_3, hi3_4, hi4_2, hi4_3, hi4_4]
end

/-- all pairs of rows and columns -/
def prodPos (l : List ℤ) : List (ℤ × ℤ) := l.flatMap fun r => l.map fun c => (r, c)
/-- the rows of the w, phix, phiy freedoms of three nodes -/
def rows3 (a b c : ℤ) : List ℤ := [a*5+2, a*5+3, a*5+4, b*5+2, b*5+3, b*5+4, c*5+2, c*5+3, c*5+4]
/-- the rows of the w, phix, phiy freedoms of four nodes -/
def rows4 (a b c d : ℤ) : List ℤ := rows3 a b c ++ [d*5+2, d*5+3, d*5+4]

theorem cellS_prod (e : CellSEnv Nil) : (cellSEntries e).map pos2 = prodPos (rows3 e.i1 e.i2 e.i3) := rfl
theorem cellNS_prod (e : CellNSEnv Nil) : (cellNSEntries e).map pos2 = prodPos (rows3 e.i1 e.i2 e.i3) := rfl
theorem edgeB_prod (e : EdgeBEnv Nil) : (edgeBEntries e).map pos2 = prodPos (rows3 e.i1 e.i2 e.i3) := rfl
set_option maxRecDepth 4000 in
theorem edgeI_prod (e : EdgeIEnv Nil) : (edgeIEntries e).map pos2 = prodPos (rows4 e.i1 e.i2 e.i3 e.i4) := rfl

theorem mem_prodPos {l : List ℤ} {p : ℤ × ℤ} : p ∈ prodPos l ↔ p.1 ∈ l ∧ p.2 ∈ l := by
  obtain ⟨r, c⟩ := p
  simp [prodPos]

theorem rows3_swap (a b c x : ℤ) : x ∈ rows3 b a c ↔ x ∈ rows3 a b c := by
  simp only [rows3, List.mem_cons, List.not_mem_nil, or_false]; tauto
theorem rows4_swap (a b c d x : ℤ) : x ∈ rows4 b a c d ↔ x ∈ rows4 a b c d := by
  simp only [rows4, List.mem_append, rows3_swap]

end Meshless
