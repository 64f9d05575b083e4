import Verif.Lemmas.IeeeLim

/-! GENERATED by /verif/tools/genieee.py: the increments of Model/Gen/CellS.lean computed in floating-point formats, group by group. -/

set_option autoImplicit false
set_option maxRecDepth 10000

namespace Meshless

variable {ι : Type*} {φ : ι → Fmt}

private theorem cellS_i1_2_x (i : ι) (e : CellSEnv (Tr φ)) : (cellS_i1_2 e).map (fun t => (t.1, t.2.1, (t.2.2.x i : Fo (φ i)))) = cellS_i1_2 (K := Fo (φ i)) (e.map fun y => (y.x i : Fo (φ i))) := rfl
private theorem cellS_i1_2_l (e : CellSEnv (Tr φ)) : (cellS_i1_2 e).map (fun t => (t.1, t.2.1, t.2.2.l)) = cellS_i1_2 (e.map fun x => x.l) := rfl
private theorem cellS_i1_3_x (i : ι) (e : CellSEnv (Tr φ)) : (cellS_i1_3 e).map (fun t => (t.1, t.2.1, (t.2.2.x i : Fo (φ i)))) = cellS_i1_3 (K := Fo (φ i)) (e.map fun y => (y.x i : Fo (φ i))) := rfl
private theorem cellS_i1_3_l (e : CellSEnv (Tr φ)) : (cellS_i1_3 e).map (fun t => (t.1, t.2.1, t.2.2.l)) = cellS_i1_3 (e.map fun x => x.l) := rfl
private theorem cellS_i1_4_x (i : ι) (e : CellSEnv (Tr φ)) : (cellS_i1_4 e).map (fun t => (t.1, t.2.1, (t.2.2.x i : Fo (φ i)))) = cellS_i1_4 (K := Fo (φ i)) (e.map fun y => (y.x i : Fo (φ i))) := rfl
private theorem cellS_i1_4_l (e : CellSEnv (Tr φ)) : (cellS_i1_4 e).map (fun t => (t.1, t.2.1, t.2.2.l)) = cellS_i1_4 (e.map fun x => x.l) := rfl
private theorem cellS_i2_2_x (i : ι) (e : CellSEnv (Tr φ)) : (cellS_i2_2 e).map (fun t => (t.1, t.2.1, (t.2.2.x i : Fo (φ i)))) = cellS_i2_2 (K := Fo (φ i)) (e.map fun y => (y.x i : Fo (φ i))) := rfl
private theorem cellS_i2_2_l (e : CellSEnv (Tr φ)) : (cellS_i2_2 e).map (fun t => (t.1, t.2.1, t.2.2.l)) = cellS_i2_2 (e.map fun x => x.l) := rfl
private theorem cellS_i2_3_x (i : ι) (e : CellSEnv (Tr φ)) : (cellS_i2_3 e).map (fun t => (t.1, t.2.1, (t.2.2.x i : Fo (φ i)))) = cellS_i2_3 (K := Fo (φ i)) (e.map fun y => (y.x i : Fo (φ i))) := rfl
private theorem cellS_i2_3_l (e : CellSEnv (Tr φ)) : (cellS_i2_3 e).map (fun t => (t.1, t.2.1, t.2.2.l)) = cellS_i2_3 (e.map fun x => x.l) := rfl
private theorem cellS_i2_4_x (i : ι) (e : CellSEnv (Tr φ)) : (cellS_i2_4 e).map (fun t => (t.1, t.2.1, (t.2.2.x i : Fo (φ i)))) = cellS_i2_4 (K := Fo (φ i)) (e.map fun y => (y.x i : Fo (φ i))) := rfl
private theorem cellS_i2_4_l (e : CellSEnv (Tr φ)) : (cellS_i2_4 e).map (fun t => (t.1, t.2.1, t.2.2.l)) = cellS_i2_4 (e.map fun x => x.l) := rfl
private theorem cellS_i3_2_x (i : ι) (e : CellSEnv (Tr φ)) : (cellS_i3_2 e).map (fun t => (t.1, t.2.1, (t.2.2.x i : Fo (φ i)))) = cellS_i3_2 (K := Fo (φ i)) (e.map fun y => (y.x i : Fo (φ i))) := rfl
private theorem cellS_i3_2_l (e : CellSEnv (Tr φ)) : (cellS_i3_2 e).map (fun t => (t.1, t.2.1, t.2.2.l)) = cellS_i3_2 (e.map fun x => x.l) := rfl
private theorem cellS_i3_3_x (i : ι) (e : CellSEnv (Tr φ)) : (cellS_i3_3 e).map (fun t => (t.1, t.2.1, (t.2.2.x i : Fo (φ i)))) = cellS_i3_3 (K := Fo (φ i)) (e.map fun y => (y.x i : Fo (φ i))) := rfl
private theorem cellS_i3_3_l (e : CellSEnv (Tr φ)) : (cellS_i3_3 e).map (fun t => (t.1, t.2.1, t.2.2.l)) = cellS_i3_3 (e.map fun x => x.l) := rfl
private theorem cellS_i3_4_x (i : ι) (e : CellSEnv (Tr φ)) : (cellS_i3_4 e).map (fun t => (t.1, t.2.1, (t.2.2.x i : Fo (φ i)))) = cellS_i3_4 (K := Fo (φ i)) (e.map fun y => (y.x i : Fo (φ i))) := rfl
private theorem cellS_i3_4_l (e : CellSEnv (Tr φ)) : (cellS_i3_4 e).map (fun t => (t.1, t.2.1, t.2.2.l)) = cellS_i3_4 (e.map fun x => x.l) := rfl

private theorem cellSEntries_x (i : ι) (e : CellSEnv (Tr φ)) : (cellSEntries e).map (fun t => (t.1, t.2.1, (t.2.2.x i : Fo (φ i)))) = cellSEntries (K := Fo (φ i)) (e.map fun y => (y.x i : Fo (φ i))) := by
  unfold cellSEntries
  simp only [List.map_append, cellS_i1_2_x, cellS_i1_3_x, cellS_i1_4_x, cellS_i2_2_x, cellS_i2_3_x, cellS_i2_4_x, cellS_i3_2_x, cellS_i3_3_x, cellS_i3_4_x]

private theorem cellSEntries_l (e : CellSEnv (Tr φ)) : (cellSEntries e).map (fun t => (t.1, t.2.1, t.2.2.l)) = cellSEntries (e.map fun y => y.l) := by
  unfold cellSEntries
  simp only [List.map_append, cellS_i1_2_l, cellS_i1_3_l, cellS_i1_4_l, cellS_i2_2_l, cellS_i2_3_l, cellS_i2_4_l, cellS_i3_2_l, cellS_i3_3_l, cellS_i3_4_l]

private noncomputable def tr {c : CellSEnv (ι → Flo)} {e : CellSEnv ℝ} (h : CellSEnv.Rel (Lim φ) c e) (hAc : e.Ac ≠ 0) (hAc1 : e.Ac1 ≠ 0) (hAc2 : e.Ac2 ≠ 0) (hAc3 : e.Ac3 ≠ 0) : CellSEnv (Tr φ) :=
  { CellSEnv.ofRel Tr.ofLim h with Ac := Tr.ofLimNz _ _ h.Ac hAc, Ac1 := Tr.ofLimNz _ _ h.Ac1 hAc1, Ac2 := Tr.ofLimNz _ _ h.Ac2 hAc2, Ac3 := Tr.ofLimNz _ _ h.Ac3 hAc3 }

private def fl0 : CellSEnv Tr.Flag := { i1 := 0, i2 := 0, i3 := 0, Ac := ⟨true, true⟩, Ac1 := ⟨true, true⟩, Ac2 := ⟨true, true⟩, Ac3 := ⟨true, true⟩, E44 := ⟨true, false⟩, E45 := ⟨true, false⟩, E55 := ⟨true, false⟩, a1 := ⟨true, false⟩, b1 := ⟨true, false⟩, c1 := ⟨true, false⟩, d1 := ⟨true, false⟩, a2 := ⟨true, false⟩, b2 := ⟨true, false⟩, c2 := ⟨true, false⟩, d2 := ⟨true, false⟩, a3 := ⟨true, false⟩, b3 := ⟨true, false⟩, c3 := ⟨true, false⟩, d3 := ⟨true, false⟩ }

private theorem cellS_i1_2_n {c : CellSEnv (ι → Flo)} {e : CellSEnv ℝ} (h : CellSEnv.Rel (Lim φ) c e) (hAc : e.Ac ≠ 0) (hAc1 : e.Ac1 ≠ 0) (hAc2 : e.Ac2 ≠ 0) (hAc3 : e.Ac3 ≠ 0) : (cellS_i1_2 (tr h hAc hAc1 hAc2 hAc3)).map (fun t => t.2.2.flag) = (cellS_i1_2 fl0).map (fun t => t.2.2) := rfl
private theorem cellS_i1_2_b : (cellS_i1_2 fl0).all (fun t => t.2.2.ok) = true := by decide +kernel
private theorem cellS_i1_3_n {c : CellSEnv (ι → Flo)} {e : CellSEnv ℝ} (h : CellSEnv.Rel (Lim φ) c e) (hAc : e.Ac ≠ 0) (hAc1 : e.Ac1 ≠ 0) (hAc2 : e.Ac2 ≠ 0) (hAc3 : e.Ac3 ≠ 0) : (cellS_i1_3 (tr h hAc hAc1 hAc2 hAc3)).map (fun t => t.2.2.flag) = (cellS_i1_3 fl0).map (fun t => t.2.2) := rfl
private theorem cellS_i1_3_b : (cellS_i1_3 fl0).all (fun t => t.2.2.ok) = true := by decide +kernel
private theorem cellS_i1_4_n {c : CellSEnv (ι → Flo)} {e : CellSEnv ℝ} (h : CellSEnv.Rel (Lim φ) c e) (hAc : e.Ac ≠ 0) (hAc1 : e.Ac1 ≠ 0) (hAc2 : e.Ac2 ≠ 0) (hAc3 : e.Ac3 ≠ 0) : (cellS_i1_4 (tr h hAc hAc1 hAc2 hAc3)).map (fun t => t.2.2.flag) = (cellS_i1_4 fl0).map (fun t => t.2.2) := rfl
private theorem cellS_i1_4_b : (cellS_i1_4 fl0).all (fun t => t.2.2.ok) = true := by decide +kernel
private theorem cellS_i2_2_n {c : CellSEnv (ι → Flo)} {e : CellSEnv ℝ} (h : CellSEnv.Rel (Lim φ) c e) (hAc : e.Ac ≠ 0) (hAc1 : e.Ac1 ≠ 0) (hAc2 : e.Ac2 ≠ 0) (hAc3 : e.Ac3 ≠ 0) : (cellS_i2_2 (tr h hAc hAc1 hAc2 hAc3)).map (fun t => t.2.2.flag) = (cellS_i2_2 fl0).map (fun t => t.2.2) := rfl
private theorem cellS_i2_2_b : (cellS_i2_2 fl0).all (fun t => t.2.2.ok) = true := by decide +kernel
private theorem cellS_i2_3_n {c : CellSEnv (ι → Flo)} {e : CellSEnv ℝ} (h : CellSEnv.Rel (Lim φ) c e) (hAc : e.Ac ≠ 0) (hAc1 : e.Ac1 ≠ 0) (hAc2 : e.Ac2 ≠ 0) (hAc3 : e.Ac3 ≠ 0) : (cellS_i2_3 (tr h hAc hAc1 hAc2 hAc3)).map (fun t => t.2.2.flag) = (cellS_i2_3 fl0).map (fun t => t.2.2) := rfl
private theorem cellS_i2_3_b : (cellS_i2_3 fl0).all (fun t => t.2.2.ok) = true := by decide +kernel
private theorem cellS_i2_4_n {c : CellSEnv (ι → Flo)} {e : CellSEnv ℝ} (h : CellSEnv.Rel (Lim φ) c e) (hAc : e.Ac ≠ 0) (hAc1 : e.Ac1 ≠ 0) (hAc2 : e.Ac2 ≠ 0) (hAc3 : e.Ac3 ≠ 0) : (cellS_i2_4 (tr h hAc hAc1 hAc2 hAc3)).map (fun t => t.2.2.flag) = (cellS_i2_4 fl0).map (fun t => t.2.2) := rfl
private theorem cellS_i2_4_b : (cellS_i2_4 fl0).all (fun t => t.2.2.ok) = true := by decide +kernel
private theorem cellS_i3_2_n {c : CellSEnv (ι → Flo)} {e : CellSEnv ℝ} (h : CellSEnv.Rel (Lim φ) c e) (hAc : e.Ac ≠ 0) (hAc1 : e.Ac1 ≠ 0) (hAc2 : e.Ac2 ≠ 0) (hAc3 : e.Ac3 ≠ 0) : (cellS_i3_2 (tr h hAc hAc1 hAc2 hAc3)).map (fun t => t.2.2.flag) = (cellS_i3_2 fl0).map (fun t => t.2.2) := rfl
private theorem cellS_i3_2_b : (cellS_i3_2 fl0).all (fun t => t.2.2.ok) = true := by decide +kernel
private theorem cellS_i3_3_n {c : CellSEnv (ι → Flo)} {e : CellSEnv ℝ} (h : CellSEnv.Rel (Lim φ) c e) (hAc : e.Ac ≠ 0) (hAc1 : e.Ac1 ≠ 0) (hAc2 : e.Ac2 ≠ 0) (hAc3 : e.Ac3 ≠ 0) : (cellS_i3_3 (tr h hAc hAc1 hAc2 hAc3)).map (fun t => t.2.2.flag) = (cellS_i3_3 fl0).map (fun t => t.2.2) := rfl
private theorem cellS_i3_3_b : (cellS_i3_3 fl0).all (fun t => t.2.2.ok) = true := by decide +kernel
private theorem cellS_i3_4_n {c : CellSEnv (ι → Flo)} {e : CellSEnv ℝ} (h : CellSEnv.Rel (Lim φ) c e) (hAc : e.Ac ≠ 0) (hAc1 : e.Ac1 ≠ 0) (hAc2 : e.Ac2 ≠ 0) (hAc3 : e.Ac3 ≠ 0) : (cellS_i3_4 (tr h hAc hAc1 hAc2 hAc3)).map (fun t => t.2.2.flag) = (cellS_i3_4 fl0).map (fun t => t.2.2) := rfl
private theorem cellS_i3_4_b : (cellS_i3_4 fl0).all (fun t => t.2.2.ok) = true := by decide +kernel

/-- the increments computed from numbers with limits have the exact increments as limits -/
theorem cellSEntries_lim {c : CellSEnv (ι → Flo)} {e : CellSEnv ℝ} (h : CellSEnv.Rel (Lim φ) c e) (hAc : e.Ac ≠ 0) (hAc1 : e.Ac1 ≠ 0) (hAc2 : e.Ac2 ≠ 0) (hAc3 : e.Ac3 ≠ 0) :
    LimL φ (fun i => cellSEntries (K := Fo (φ i)) (c.map fun x => (x i : Fo (φ i)))) (cellSEntries e) := by
  refine Tr.limL (cellSEntries (tr h hAc hAc1 hAc2 hAc3)) (fun i => ?_) ?_ ?_
  · rw [cellSEntries_x]; congr 1; obtain ⟨⟩ := c; obtain ⟨⟩ := e
    obtain rfl := h.i1
    obtain rfl := h.i2
    obtain rfl := h.i3
    rfl
  · rw [cellSEntries_l]; rfl
  · intro t ht
    unfold cellSEntries at ht
    simp only [List.mem_append] at ht
    rcases ht with (((((((h1 | h1) | h1) | h1) | h1) | h1) | h1) | h1) | h1
    · exact Tr.of_flag (cellS_i1_2_n h hAc hAc1 hAc2 hAc3) cellS_i1_2_b h1
    · exact Tr.of_flag (cellS_i1_3_n h hAc hAc1 hAc2 hAc3) cellS_i1_3_b h1
    · exact Tr.of_flag (cellS_i1_4_n h hAc hAc1 hAc2 hAc3) cellS_i1_4_b h1
    · exact Tr.of_flag (cellS_i2_2_n h hAc hAc1 hAc2 hAc3) cellS_i2_2_b h1
    · exact Tr.of_flag (cellS_i2_3_n h hAc hAc1 hAc2 hAc3) cellS_i2_3_b h1
    · exact Tr.of_flag (cellS_i2_4_n h hAc hAc1 hAc2 hAc3) cellS_i2_4_b h1
    · exact Tr.of_flag (cellS_i3_2_n h hAc hAc1 hAc2 hAc3) cellS_i3_2_b h1
    · exact Tr.of_flag (cellS_i3_3_n h hAc hAc1 hAc2 hAc3) cellS_i3_3_b h1
    · exact Tr.of_flag (cellS_i3_4_n h hAc hAc1 hAc2 hAc3) cellS_i3_4_b h1

end Meshless
