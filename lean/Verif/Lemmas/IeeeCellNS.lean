import Verif.Lemmas.IeeeLim

/-! GENERATED by /verif/tools/genieee.py: the increments of Model/Gen/CellNS.lean computed in floating-point formats, group by group. -/

set_option autoImplicit false
set_option maxRecDepth 10000

namespace Meshless

variable {ι : Type*} {φ : ι → Fmt}

private theorem cellNS_i1_2_x (i : ι) (e : CellNSEnv (Tr φ)) : (cellNS_i1_2 e).map (fun t => (t.1, t.2.1, (t.2.2.x i : Fo (φ i)))) = cellNS_i1_2 (K := Fo (φ i)) (e.map fun y => (y.x i : Fo (φ i))) := rfl
private theorem cellNS_i1_2_l (e : CellNSEnv (Tr φ)) : (cellNS_i1_2 e).map (fun t => (t.1, t.2.1, t.2.2.l)) = cellNS_i1_2 (e.map fun x => x.l) := rfl
private theorem cellNS_i1_3_x (i : ι) (e : CellNSEnv (Tr φ)) : (cellNS_i1_3 e).map (fun t => (t.1, t.2.1, (t.2.2.x i : Fo (φ i)))) = cellNS_i1_3 (K := Fo (φ i)) (e.map fun y => (y.x i : Fo (φ i))) := rfl
private theorem cellNS_i1_3_l (e : CellNSEnv (Tr φ)) : (cellNS_i1_3 e).map (fun t => (t.1, t.2.1, t.2.2.l)) = cellNS_i1_3 (e.map fun x => x.l) := rfl
private theorem cellNS_i1_4_x (i : ι) (e : CellNSEnv (Tr φ)) : (cellNS_i1_4 e).map (fun t => (t.1, t.2.1, (t.2.2.x i : Fo (φ i)))) = cellNS_i1_4 (K := Fo (φ i)) (e.map fun y => (y.x i : Fo (φ i))) := rfl
private theorem cellNS_i1_4_l (e : CellNSEnv (Tr φ)) : (cellNS_i1_4 e).map (fun t => (t.1, t.2.1, t.2.2.l)) = cellNS_i1_4 (e.map fun x => x.l) := rfl
private theorem cellNS_i2_2_x (i : ι) (e : CellNSEnv (Tr φ)) : (cellNS_i2_2 e).map (fun t => (t.1, t.2.1, (t.2.2.x i : Fo (φ i)))) = cellNS_i2_2 (K := Fo (φ i)) (e.map fun y => (y.x i : Fo (φ i))) := rfl
private theorem cellNS_i2_2_l (e : CellNSEnv (Tr φ)) : (cellNS_i2_2 e).map (fun t => (t.1, t.2.1, t.2.2.l)) = cellNS_i2_2 (e.map fun x => x.l) := rfl
private theorem cellNS_i2_3_x (i : ι) (e : CellNSEnv (Tr φ)) : (cellNS_i2_3 e).map (fun t => (t.1, t.2.1, (t.2.2.x i : Fo (φ i)))) = cellNS_i2_3 (K := Fo (φ i)) (e.map fun y => (y.x i : Fo (φ i))) := rfl
private theorem cellNS_i2_3_l (e : CellNSEnv (Tr φ)) : (cellNS_i2_3 e).map (fun t => (t.1, t.2.1, t.2.2.l)) = cellNS_i2_3 (e.map fun x => x.l) := rfl
private theorem cellNS_i2_4_x (i : ι) (e : CellNSEnv (Tr φ)) : (cellNS_i2_4 e).map (fun t => (t.1, t.2.1, (t.2.2.x i : Fo (φ i)))) = cellNS_i2_4 (K := Fo (φ i)) (e.map fun y => (y.x i : Fo (φ i))) := rfl
private theorem cellNS_i2_4_l (e : CellNSEnv (Tr φ)) : (cellNS_i2_4 e).map (fun t => (t.1, t.2.1, t.2.2.l)) = cellNS_i2_4 (e.map fun x => x.l) := rfl
private theorem cellNS_i3_2_x (i : ι) (e : CellNSEnv (Tr φ)) : (cellNS_i3_2 e).map (fun t => (t.1, t.2.1, (t.2.2.x i : Fo (φ i)))) = cellNS_i3_2 (K := Fo (φ i)) (e.map fun y => (y.x i : Fo (φ i))) := rfl
private theorem cellNS_i3_2_l (e : CellNSEnv (Tr φ)) : (cellNS_i3_2 e).map (fun t => (t.1, t.2.1, t.2.2.l)) = cellNS_i3_2 (e.map fun x => x.l) := rfl
private theorem cellNS_i3_3_x (i : ι) (e : CellNSEnv (Tr φ)) : (cellNS_i3_3 e).map (fun t => (t.1, t.2.1, (t.2.2.x i : Fo (φ i)))) = cellNS_i3_3 (K := Fo (φ i)) (e.map fun y => (y.x i : Fo (φ i))) := rfl
private theorem cellNS_i3_3_l (e : CellNSEnv (Tr φ)) : (cellNS_i3_3 e).map (fun t => (t.1, t.2.1, t.2.2.l)) = cellNS_i3_3 (e.map fun x => x.l) := rfl
private theorem cellNS_i3_4_x (i : ι) (e : CellNSEnv (Tr φ)) : (cellNS_i3_4 e).map (fun t => (t.1, t.2.1, (t.2.2.x i : Fo (φ i)))) = cellNS_i3_4 (K := Fo (φ i)) (e.map fun y => (y.x i : Fo (φ i))) := rfl
private theorem cellNS_i3_4_l (e : CellNSEnv (Tr φ)) : (cellNS_i3_4 e).map (fun t => (t.1, t.2.1, t.2.2.l)) = cellNS_i3_4 (e.map fun x => x.l) := rfl

private theorem cellNSEntries_x (i : ι) (e : CellNSEnv (Tr φ)) : (cellNSEntries e).map (fun t => (t.1, t.2.1, (t.2.2.x i : Fo (φ i)))) = cellNSEntries (K := Fo (φ i)) (e.map fun y => (y.x i : Fo (φ i))) := by
  unfold cellNSEntries
  simp only [List.map_append, cellNS_i1_2_x, cellNS_i1_3_x, cellNS_i1_4_x, cellNS_i2_2_x, cellNS_i2_3_x, cellNS_i2_4_x, cellNS_i3_2_x, cellNS_i3_3_x, cellNS_i3_4_x]

private theorem cellNSEntries_l (e : CellNSEnv (Tr φ)) : (cellNSEntries e).map (fun t => (t.1, t.2.1, t.2.2.l)) = cellNSEntries (e.map fun y => y.l) := by
  unfold cellNSEntries
  simp only [List.map_append, cellNS_i1_2_l, cellNS_i1_3_l, cellNS_i1_4_l, cellNS_i2_2_l, cellNS_i2_3_l, cellNS_i2_4_l, cellNS_i3_2_l, cellNS_i3_3_l, cellNS_i3_4_l]

private noncomputable def tr {c : CellNSEnv (ι → Flo)} {e : CellNSEnv ℝ} (h : CellNSEnv.Rel (Lim φ) c e) (hAc : e.Ac ≠ 0) : CellNSEnv (Tr φ) :=
  { CellNSEnv.ofRel Tr.ofLim h with Ac := Tr.ofLimNz _ _ h.Ac hAc }

private def fl0 : CellNSEnv Tr.Flag := { i1 := 0, i2 := 0, i3 := 0, Ac := ⟨true, true⟩, E44 := ⟨true, false⟩, E45 := ⟨true, false⟩, E55 := ⟨true, false⟩, a1 := ⟨true, false⟩, b1 := ⟨true, false⟩, c1 := ⟨true, false⟩, d1 := ⟨true, false⟩ }

private theorem cellNS_i1_2_n {c : CellNSEnv (ι → Flo)} {e : CellNSEnv ℝ} (h : CellNSEnv.Rel (Lim φ) c e) (hAc : e.Ac ≠ 0) : (cellNS_i1_2 (tr h hAc)).map (fun t => t.2.2.flag) = (cellNS_i1_2 fl0).map (fun t => t.2.2) := rfl
private theorem cellNS_i1_2_b : (cellNS_i1_2 fl0).all (fun t => t.2.2.ok) = true := by decide +kernel
private theorem cellNS_i1_3_n {c : CellNSEnv (ι → Flo)} {e : CellNSEnv ℝ} (h : CellNSEnv.Rel (Lim φ) c e) (hAc : e.Ac ≠ 0) : (cellNS_i1_3 (tr h hAc)).map (fun t => t.2.2.flag) = (cellNS_i1_3 fl0).map (fun t => t.2.2) := rfl
private theorem cellNS_i1_3_b : (cellNS_i1_3 fl0).all (fun t => t.2.2.ok) = true := by decide +kernel
private theorem cellNS_i1_4_n {c : CellNSEnv (ι → Flo)} {e : CellNSEnv ℝ} (h : CellNSEnv.Rel (Lim φ) c e) (hAc : e.Ac ≠ 0) : (cellNS_i1_4 (tr h hAc)).map (fun t => t.2.2.flag) = (cellNS_i1_4 fl0).map (fun t => t.2.2) := rfl
private theorem cellNS_i1_4_b : (cellNS_i1_4 fl0).all (fun t => t.2.2.ok) = true := by decide +kernel
private theorem cellNS_i2_2_n {c : CellNSEnv (ι → Flo)} {e : CellNSEnv ℝ} (h : CellNSEnv.Rel (Lim φ) c e) (hAc : e.Ac ≠ 0) : (cellNS_i2_2 (tr h hAc)).map (fun t => t.2.2.flag) = (cellNS_i2_2 fl0).map (fun t => t.2.2) := rfl
private theorem cellNS_i2_2_b : (cellNS_i2_2 fl0).all (fun t => t.2.2.ok) = true := by decide +kernel
private theorem cellNS_i2_3_n {c : CellNSEnv (ι → Flo)} {e : CellNSEnv ℝ} (h : CellNSEnv.Rel (Lim φ) c e) (hAc : e.Ac ≠ 0) : (cellNS_i2_3 (tr h hAc)).map (fun t => t.2.2.flag) = (cellNS_i2_3 fl0).map (fun t => t.2.2) := rfl
private theorem cellNS_i2_3_b : (cellNS_i2_3 fl0).all (fun t => t.2.2.ok) = true := by decide +kernel
private theorem cellNS_i2_4_n {c : CellNSEnv (ι → Flo)} {e : CellNSEnv ℝ} (h : CellNSEnv.Rel (Lim φ) c e) (hAc : e.Ac ≠ 0) : (cellNS_i2_4 (tr h hAc)).map (fun t => t.2.2.flag) = (cellNS_i2_4 fl0).map (fun t => t.2.2) := rfl
private theorem cellNS_i2_4_b : (cellNS_i2_4 fl0).all (fun t => t.2.2.ok) = true := by decide +kernel
private theorem cellNS_i3_2_n {c : CellNSEnv (ι → Flo)} {e : CellNSEnv ℝ} (h : CellNSEnv.Rel (Lim φ) c e) (hAc : e.Ac ≠ 0) : (cellNS_i3_2 (tr h hAc)).map (fun t => t.2.2.flag) = (cellNS_i3_2 fl0).map (fun t => t.2.2) := rfl
private theorem cellNS_i3_2_b : (cellNS_i3_2 fl0).all (fun t => t.2.2.ok) = true := by decide +kernel
private theorem cellNS_i3_3_n {c : CellNSEnv (ι → Flo)} {e : CellNSEnv ℝ} (h : CellNSEnv.Rel (Lim φ) c e) (hAc : e.Ac ≠ 0) : (cellNS_i3_3 (tr h hAc)).map (fun t => t.2.2.flag) = (cellNS_i3_3 fl0).map (fun t => t.2.2) := rfl
private theorem cellNS_i3_3_b : (cellNS_i3_3 fl0).all (fun t => t.2.2.ok) = true := by decide +kernel
private theorem cellNS_i3_4_n {c : CellNSEnv (ι → Flo)} {e : CellNSEnv ℝ} (h : CellNSEnv.Rel (Lim φ) c e) (hAc : e.Ac ≠ 0) : (cellNS_i3_4 (tr h hAc)).map (fun t => t.2.2.flag) = (cellNS_i3_4 fl0).map (fun t => t.2.2) := rfl
private theorem cellNS_i3_4_b : (cellNS_i3_4 fl0).all (fun t => t.2.2.ok) = true := by decide +kernel

/-- the increments computed from numbers with limits have the exact increments as limits -/
theorem cellNSEntries_lim {c : CellNSEnv (ι → Flo)} {e : CellNSEnv ℝ} (h : CellNSEnv.Rel (Lim φ) c e) (hAc : e.Ac ≠ 0) :
    LimL φ (fun i => cellNSEntries (K := Fo (φ i)) (c.map fun x => (x i : Fo (φ i)))) (cellNSEntries e) := by
  refine Tr.limL (cellNSEntries (tr h hAc)) (fun i => ?_) ?_ ?_
  · rw [cellNSEntries_x]; congr 1; obtain ⟨⟩ := c; obtain ⟨⟩ := e
    obtain rfl := h.i1
    obtain rfl := h.i2
    obtain rfl := h.i3
    rfl
  · rw [cellNSEntries_l]; rfl
  · intro t ht
    unfold cellNSEntries at ht
    simp only [List.mem_append] at ht
    rcases ht with (((((((h1 | h1) | h1) | h1) | h1) | h1) | h1) | h1) | h1
    · exact Tr.of_flag (cellNS_i1_2_n h hAc) cellNS_i1_2_b h1
    · exact Tr.of_flag (cellNS_i1_3_n h hAc) cellNS_i1_3_b h1
    · exact Tr.of_flag (cellNS_i1_4_n h hAc) cellNS_i1_4_b h1
    · exact Tr.of_flag (cellNS_i2_2_n h hAc) cellNS_i2_2_b h1
    · exact Tr.of_flag (cellNS_i2_3_n h hAc) cellNS_i2_3_b h1
    · exact Tr.of_flag (cellNS_i2_4_n h hAc) cellNS_i2_4_b h1
    · exact Tr.of_flag (cellNS_i3_2_n h hAc) cellNS_i3_2_b h1
    · exact Tr.of_flag (cellNS_i3_3_n h hAc) cellNS_i3_3_b h1
    · exact Tr.of_flag (cellNS_i3_4_n h hAc) cellNS_i3_4_b h1

end Meshless
