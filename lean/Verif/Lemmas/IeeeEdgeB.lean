import Verif.Lemmas.IeeeLim

/-! GENERATED by /verif/tools/genieee.py: the increments of Model/Gen/EdgeB.lean computed in floating-point formats, group by group. -/

set_option autoImplicit false
set_option maxRecDepth 10000

namespace Meshless

variable {ι : Type*} {φ : ι → Fmt}

private theorem edgeB_i1_2_x (i : ι) (e : EdgeBEnv (Tr φ)) : (edgeB_i1_2 e).map (fun t => (t.1, t.2.1, (t.2.2.x i : Fo (φ i)))) = edgeB_i1_2 (K := Fo (φ i)) (e.map fun y => (y.x i : Fo (φ i))) := rfl
private theorem edgeB_i1_2_l (e : EdgeBEnv (Tr φ)) : (edgeB_i1_2 e).map (fun t => (t.1, t.2.1, t.2.2.l)) = edgeB_i1_2 (e.map fun x => x.l) := rfl
private theorem edgeB_i1_3_x (i : ι) (e : EdgeBEnv (Tr φ)) : (edgeB_i1_3 e).map (fun t => (t.1, t.2.1, (t.2.2.x i : Fo (φ i)))) = edgeB_i1_3 (K := Fo (φ i)) (e.map fun y => (y.x i : Fo (φ i))) := rfl
private theorem edgeB_i1_3_l (e : EdgeBEnv (Tr φ)) : (edgeB_i1_3 e).map (fun t => (t.1, t.2.1, t.2.2.l)) = edgeB_i1_3 (e.map fun x => x.l) := rfl
private theorem edgeB_i1_4_x (i : ι) (e : EdgeBEnv (Tr φ)) : (edgeB_i1_4 e).map (fun t => (t.1, t.2.1, (t.2.2.x i : Fo (φ i)))) = edgeB_i1_4 (K := Fo (φ i)) (e.map fun y => (y.x i : Fo (φ i))) := rfl
private theorem edgeB_i1_4_l (e : EdgeBEnv (Tr φ)) : (edgeB_i1_4 e).map (fun t => (t.1, t.2.1, t.2.2.l)) = edgeB_i1_4 (e.map fun x => x.l) := rfl
private theorem edgeB_i2_2_x (i : ι) (e : EdgeBEnv (Tr φ)) : (edgeB_i2_2 e).map (fun t => (t.1, t.2.1, (t.2.2.x i : Fo (φ i)))) = edgeB_i2_2 (K := Fo (φ i)) (e.map fun y => (y.x i : Fo (φ i))) := rfl
private theorem edgeB_i2_2_l (e : EdgeBEnv (Tr φ)) : (edgeB_i2_2 e).map (fun t => (t.1, t.2.1, t.2.2.l)) = edgeB_i2_2 (e.map fun x => x.l) := rfl
private theorem edgeB_i2_3_x (i : ι) (e : EdgeBEnv (Tr φ)) : (edgeB_i2_3 e).map (fun t => (t.1, t.2.1, (t.2.2.x i : Fo (φ i)))) = edgeB_i2_3 (K := Fo (φ i)) (e.map fun y => (y.x i : Fo (φ i))) := rfl
private theorem edgeB_i2_3_l (e : EdgeBEnv (Tr φ)) : (edgeB_i2_3 e).map (fun t => (t.1, t.2.1, t.2.2.l)) = edgeB_i2_3 (e.map fun x => x.l) := rfl
private theorem edgeB_i2_4_x (i : ι) (e : EdgeBEnv (Tr φ)) : (edgeB_i2_4 e).map (fun t => (t.1, t.2.1, (t.2.2.x i : Fo (φ i)))) = edgeB_i2_4 (K := Fo (φ i)) (e.map fun y => (y.x i : Fo (φ i))) := rfl
private theorem edgeB_i2_4_l (e : EdgeBEnv (Tr φ)) : (edgeB_i2_4 e).map (fun t => (t.1, t.2.1, t.2.2.l)) = edgeB_i2_4 (e.map fun x => x.l) := rfl
private theorem edgeB_i3_2_x (i : ι) (e : EdgeBEnv (Tr φ)) : (edgeB_i3_2 e).map (fun t => (t.1, t.2.1, (t.2.2.x i : Fo (φ i)))) = edgeB_i3_2 (K := Fo (φ i)) (e.map fun y => (y.x i : Fo (φ i))) := rfl
private theorem edgeB_i3_2_l (e : EdgeBEnv (Tr φ)) : (edgeB_i3_2 e).map (fun t => (t.1, t.2.1, t.2.2.l)) = edgeB_i3_2 (e.map fun x => x.l) := rfl
private theorem edgeB_i3_3_x (i : ι) (e : EdgeBEnv (Tr φ)) : (edgeB_i3_3 e).map (fun t => (t.1, t.2.1, (t.2.2.x i : Fo (φ i)))) = edgeB_i3_3 (K := Fo (φ i)) (e.map fun y => (y.x i : Fo (φ i))) := rfl
private theorem edgeB_i3_3_l (e : EdgeBEnv (Tr φ)) : (edgeB_i3_3 e).map (fun t => (t.1, t.2.1, t.2.2.l)) = edgeB_i3_3 (e.map fun x => x.l) := rfl
private theorem edgeB_i3_4_x (i : ι) (e : EdgeBEnv (Tr φ)) : (edgeB_i3_4 e).map (fun t => (t.1, t.2.1, (t.2.2.x i : Fo (φ i)))) = edgeB_i3_4 (K := Fo (φ i)) (e.map fun y => (y.x i : Fo (φ i))) := rfl
private theorem edgeB_i3_4_l (e : EdgeBEnv (Tr φ)) : (edgeB_i3_4 e).map (fun t => (t.1, t.2.1, t.2.2.l)) = edgeB_i3_4 (e.map fun x => x.l) := rfl

private theorem edgeBEntries_x (i : ι) (e : EdgeBEnv (Tr φ)) : (edgeBEntries e).map (fun t => (t.1, t.2.1, (t.2.2.x i : Fo (φ i)))) = edgeBEntries (K := Fo (φ i)) (e.map fun y => (y.x i : Fo (φ i))) := by
  unfold edgeBEntries
  simp only [List.map_append, edgeB_i1_2_x, edgeB_i1_3_x, edgeB_i1_4_x, edgeB_i2_2_x, edgeB_i2_3_x, edgeB_i2_4_x, edgeB_i3_2_x, edgeB_i3_3_x, edgeB_i3_4_x]

private theorem edgeBEntries_l (e : EdgeBEnv (Tr φ)) : (edgeBEntries e).map (fun t => (t.1, t.2.1, t.2.2.l)) = edgeBEntries (e.map fun y => y.l) := by
  unfold edgeBEntries
  simp only [List.map_append, edgeB_i1_2_l, edgeB_i1_3_l, edgeB_i1_4_l, edgeB_i2_2_l, edgeB_i2_3_l, edgeB_i2_4_l, edgeB_i3_2_l, edgeB_i3_3_l, edgeB_i3_4_l]

private noncomputable def tr {c : EdgeBEnv (ι → Flo)} {e : EdgeBEnv ℝ} (h : EdgeBEnv.Rel (Lim φ) c e) (hAc : e.Ac ≠ 0) : EdgeBEnv (Tr φ) :=
  { EdgeBEnv.ofRel Tr.ofLim h with Ac := Tr.ofLimNz _ _ h.Ac hAc }

private def fl0 : EdgeBEnv Tr.Flag := { i1 := 0, i2 := 0, i3 := 0, Ac := ⟨true, true⟩, E44 := ⟨true, false⟩, E45 := ⟨true, false⟩, E55 := ⟨true, false⟩, a1 := ⟨true, false⟩, b1 := ⟨true, false⟩, c1 := ⟨true, false⟩, d1 := ⟨true, false⟩ }

private theorem edgeB_i1_2_n {c : EdgeBEnv (ι → Flo)} {e : EdgeBEnv ℝ} (h : EdgeBEnv.Rel (Lim φ) c e) (hAc : e.Ac ≠ 0) : (edgeB_i1_2 (tr h hAc)).map (fun t => t.2.2.flag) = (edgeB_i1_2 fl0).map (fun t => t.2.2) := rfl
private theorem edgeB_i1_2_b : (edgeB_i1_2 fl0).all (fun t => t.2.2.ok) = true := by decide +kernel
private theorem edgeB_i1_3_n {c : EdgeBEnv (ι → Flo)} {e : EdgeBEnv ℝ} (h : EdgeBEnv.Rel (Lim φ) c e) (hAc : e.Ac ≠ 0) : (edgeB_i1_3 (tr h hAc)).map (fun t => t.2.2.flag) = (edgeB_i1_3 fl0).map (fun t => t.2.2) := rfl
private theorem edgeB_i1_3_b : (edgeB_i1_3 fl0).all (fun t => t.2.2.ok) = true := by decide +kernel
private theorem edgeB_i1_4_n {c : EdgeBEnv (ι → Flo)} {e : EdgeBEnv ℝ} (h : EdgeBEnv.Rel (Lim φ) c e) (hAc : e.Ac ≠ 0) : (edgeB_i1_4 (tr h hAc)).map (fun t => t.2.2.flag) = (edgeB_i1_4 fl0).map (fun t => t.2.2) := rfl
private theorem edgeB_i1_4_b : (edgeB_i1_4 fl0).all (fun t => t.2.2.ok) = true := by decide +kernel
private theorem edgeB_i2_2_n {c : EdgeBEnv (ι → Flo)} {e : EdgeBEnv ℝ} (h : EdgeBEnv.Rel (Lim φ) c e) (hAc : e.Ac ≠ 0) : (edgeB_i2_2 (tr h hAc)).map (fun t => t.2.2.flag) = (edgeB_i2_2 fl0).map (fun t => t.2.2) := rfl
private theorem edgeB_i2_2_b : (edgeB_i2_2 fl0).all (fun t => t.2.2.ok) = true := by decide +kernel
private theorem edgeB_i2_3_n {c : EdgeBEnv (ι → Flo)} {e : EdgeBEnv ℝ} (h : EdgeBEnv.Rel (Lim φ) c e) (hAc : e.Ac ≠ 0) : (edgeB_i2_3 (tr h hAc)).map (fun t => t.2.2.flag) = (edgeB_i2_3 fl0).map (fun t => t.2.2) := rfl
private theorem edgeB_i2_3_b : (edgeB_i2_3 fl0).all (fun t => t.2.2.ok) = true := by decide +kernel
private theorem edgeB_i2_4_n {c : EdgeBEnv (ι → Flo)} {e : EdgeBEnv ℝ} (h : EdgeBEnv.Rel (Lim φ) c e) (hAc : e.Ac ≠ 0) : (edgeB_i2_4 (tr h hAc)).map (fun t => t.2.2.flag) = (edgeB_i2_4 fl0).map (fun t => t.2.2) := rfl
private theorem edgeB_i2_4_b : (edgeB_i2_4 fl0).all (fun t => t.2.2.ok) = true := by decide +kernel
private theorem edgeB_i3_2_n {c : EdgeBEnv (ι → Flo)} {e : EdgeBEnv ℝ} (h : EdgeBEnv.Rel (Lim φ) c e) (hAc : e.Ac ≠ 0) : (edgeB_i3_2 (tr h hAc)).map (fun t => t.2.2.flag) = (edgeB_i3_2 fl0).map (fun t => t.2.2) := rfl
private theorem edgeB_i3_2_b : (edgeB_i3_2 fl0).all (fun t => t.2.2.ok) = true := by decide +kernel
private theorem edgeB_i3_3_n {c : EdgeBEnv (ι → Flo)} {e : EdgeBEnv ℝ} (h : EdgeBEnv.Rel (Lim φ) c e) (hAc : e.Ac ≠ 0) : (edgeB_i3_3 (tr h hAc)).map (fun t => t.2.2.flag) = (edgeB_i3_3 fl0).map (fun t => t.2.2) := rfl
private theorem edgeB_i3_3_b : (edgeB_i3_3 fl0).all (fun t => t.2.2.ok) = true := by decide +kernel
private theorem edgeB_i3_4_n {c : EdgeBEnv (ι → Flo)} {e : EdgeBEnv ℝ} (h : EdgeBEnv.Rel (Lim φ) c e) (hAc : e.Ac ≠ 0) : (edgeB_i3_4 (tr h hAc)).map (fun t => t.2.2.flag) = (edgeB_i3_4 fl0).map (fun t => t.2.2) := rfl
private theorem edgeB_i3_4_b : (edgeB_i3_4 fl0).all (fun t => t.2.2.ok) = true := by decide +kernel

/-- the increments computed from numbers with limits have the exact increments as limits -/
theorem edgeBEntries_lim {c : EdgeBEnv (ι → Flo)} {e : EdgeBEnv ℝ} (h : EdgeBEnv.Rel (Lim φ) c e) (hAc : e.Ac ≠ 0) :
    LimL φ (fun i => edgeBEntries (K := Fo (φ i)) (c.map fun x => (x i : Fo (φ i)))) (edgeBEntries e) := by
  refine Tr.limL (edgeBEntries (tr h hAc)) (fun i => ?_) ?_ ?_
  · rw [edgeBEntries_x]; congr 1; obtain ⟨⟩ := c; obtain ⟨⟩ := e
    obtain rfl := h.i1
    obtain rfl := h.i2
    obtain rfl := h.i3
    rfl
  · rw [edgeBEntries_l]; rfl
  · intro t ht
    unfold edgeBEntries at ht
    simp only [List.mem_append] at ht
    rcases ht with (((((((h1 | h1) | h1) | h1) | h1) | h1) | h1) | h1) | h1
    · exact Tr.of_flag (edgeB_i1_2_n h hAc) edgeB_i1_2_b h1
    · exact Tr.of_flag (edgeB_i1_3_n h hAc) edgeB_i1_3_b h1
    · exact Tr.of_flag (edgeB_i1_4_n h hAc) edgeB_i1_4_b h1
    · exact Tr.of_flag (edgeB_i2_2_n h hAc) edgeB_i2_2_b h1
    · exact Tr.of_flag (edgeB_i2_3_n h hAc) edgeB_i2_3_b h1
    · exact Tr.of_flag (edgeB_i2_4_n h hAc) edgeB_i2_4_b h1
    · exact Tr.of_flag (edgeB_i3_2_n h hAc) edgeB_i3_2_b h1
    · exact Tr.of_flag (edgeB_i3_3_n h hAc) edgeB_i3_3_b h1
    · exact Tr.of_flag (edgeB_i3_4_n h hAc) edgeB_i3_4_b h1

end Meshless
