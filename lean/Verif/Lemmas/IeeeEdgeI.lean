import Verif.Lemmas.IeeeLim

/-! GENERATED by /verif/tools/genieee.py: the increments of Model/Gen/EdgeI.lean computed in floating-point formats, group by group. -/

set_option autoImplicit false
set_option maxRecDepth 10000

namespace Meshless

variable {ι : Type*} {φ : ι → Fmt}

private theorem edgeI_i1_2_x (i : ι) (e : EdgeIEnv (Tr φ)) : (edgeI_i1_2 e).map (fun t => (t.1, t.2.1, (t.2.2.x i : Fo (φ i)))) = edgeI_i1_2 (K := Fo (φ i)) (e.map fun y => (y.x i : Fo (φ i))) := rfl
private theorem edgeI_i1_2_l (e : EdgeIEnv (Tr φ)) : (edgeI_i1_2 e).map (fun t => (t.1, t.2.1, t.2.2.l)) = edgeI_i1_2 (e.map fun x => x.l) := rfl
private theorem edgeI_i1_3_x (i : ι) (e : EdgeIEnv (Tr φ)) : (edgeI_i1_3 e).map (fun t => (t.1, t.2.1, (t.2.2.x i : Fo (φ i)))) = edgeI_i1_3 (K := Fo (φ i)) (e.map fun y => (y.x i : Fo (φ i))) := rfl
private theorem edgeI_i1_3_l (e : EdgeIEnv (Tr φ)) : (edgeI_i1_3 e).map (fun t => (t.1, t.2.1, t.2.2.l)) = edgeI_i1_3 (e.map fun x => x.l) := rfl
private theorem edgeI_i1_4_x (i : ι) (e : EdgeIEnv (Tr φ)) : (edgeI_i1_4 e).map (fun t => (t.1, t.2.1, (t.2.2.x i : Fo (φ i)))) = edgeI_i1_4 (K := Fo (φ i)) (e.map fun y => (y.x i : Fo (φ i))) := rfl
private theorem edgeI_i1_4_l (e : EdgeIEnv (Tr φ)) : (edgeI_i1_4 e).map (fun t => (t.1, t.2.1, t.2.2.l)) = edgeI_i1_4 (e.map fun x => x.l) := rfl
private theorem edgeI_i2_2_x (i : ι) (e : EdgeIEnv (Tr φ)) : (edgeI_i2_2 e).map (fun t => (t.1, t.2.1, (t.2.2.x i : Fo (φ i)))) = edgeI_i2_2 (K := Fo (φ i)) (e.map fun y => (y.x i : Fo (φ i))) := rfl
private theorem edgeI_i2_2_l (e : EdgeIEnv (Tr φ)) : (edgeI_i2_2 e).map (fun t => (t.1, t.2.1, t.2.2.l)) = edgeI_i2_2 (e.map fun x => x.l) := rfl
private theorem edgeI_i2_3_x (i : ι) (e : EdgeIEnv (Tr φ)) : (edgeI_i2_3 e).map (fun t => (t.1, t.2.1, (t.2.2.x i : Fo (φ i)))) = edgeI_i2_3 (K := Fo (φ i)) (e.map fun y => (y.x i : Fo (φ i))) := rfl
private theorem edgeI_i2_3_l (e : EdgeIEnv (Tr φ)) : (edgeI_i2_3 e).map (fun t => (t.1, t.2.1, t.2.2.l)) = edgeI_i2_3 (e.map fun x => x.l) := rfl
private theorem edgeI_i2_4_x (i : ι) (e : EdgeIEnv (Tr φ)) : (edgeI_i2_4 e).map (fun t => (t.1, t.2.1, (t.2.2.x i : Fo (φ i)))) = edgeI_i2_4 (K := Fo (φ i)) (e.map fun y => (y.x i : Fo (φ i))) := rfl
private theorem edgeI_i2_4_l (e : EdgeIEnv (Tr φ)) : (edgeI_i2_4 e).map (fun t => (t.1, t.2.1, t.2.2.l)) = edgeI_i2_4 (e.map fun x => x.l) := rfl
private theorem edgeI_i3_2_x (i : ι) (e : EdgeIEnv (Tr φ)) : (edgeI_i3_2 e).map (fun t => (t.1, t.2.1, (t.2.2.x i : Fo (φ i)))) = edgeI_i3_2 (K := Fo (φ i)) (e.map fun y => (y.x i : Fo (φ i))) := rfl
private theorem edgeI_i3_2_l (e : EdgeIEnv (Tr φ)) : (edgeI_i3_2 e).map (fun t => (t.1, t.2.1, t.2.2.l)) = edgeI_i3_2 (e.map fun x => x.l) := rfl
private theorem edgeI_i3_3_x (i : ι) (e : EdgeIEnv (Tr φ)) : (edgeI_i3_3 e).map (fun t => (t.1, t.2.1, (t.2.2.x i : Fo (φ i)))) = edgeI_i3_3 (K := Fo (φ i)) (e.map fun y => (y.x i : Fo (φ i))) := rfl
private theorem edgeI_i3_3_l (e : EdgeIEnv (Tr φ)) : (edgeI_i3_3 e).map (fun t => (t.1, t.2.1, t.2.2.l)) = edgeI_i3_3 (e.map fun x => x.l) := rfl
private theorem edgeI_i3_4_x (i : ι) (e : EdgeIEnv (Tr φ)) : (edgeI_i3_4 e).map (fun t => (t.1, t.2.1, (t.2.2.x i : Fo (φ i)))) = edgeI_i3_4 (K := Fo (φ i)) (e.map fun y => (y.x i : Fo (φ i))) := rfl
private theorem edgeI_i3_4_l (e : EdgeIEnv (Tr φ)) : (edgeI_i3_4 e).map (fun t => (t.1, t.2.1, t.2.2.l)) = edgeI_i3_4 (e.map fun x => x.l) := rfl
private theorem edgeI_i4_2_x (i : ι) (e : EdgeIEnv (Tr φ)) : (edgeI_i4_2 e).map (fun t => (t.1, t.2.1, (t.2.2.x i : Fo (φ i)))) = edgeI_i4_2 (K := Fo (φ i)) (e.map fun y => (y.x i : Fo (φ i))) := rfl
private theorem edgeI_i4_2_l (e : EdgeIEnv (Tr φ)) : (edgeI_i4_2 e).map (fun t => (t.1, t.2.1, t.2.2.l)) = edgeI_i4_2 (e.map fun x => x.l) := rfl
private theorem edgeI_i4_3_x (i : ι) (e : EdgeIEnv (Tr φ)) : (edgeI_i4_3 e).map (fun t => (t.1, t.2.1, (t.2.2.x i : Fo (φ i)))) = edgeI_i4_3 (K := Fo (φ i)) (e.map fun y => (y.x i : Fo (φ i))) := rfl
private theorem edgeI_i4_3_l (e : EdgeIEnv (Tr φ)) : (edgeI_i4_3 e).map (fun t => (t.1, t.2.1, t.2.2.l)) = edgeI_i4_3 (e.map fun x => x.l) := rfl
private theorem edgeI_i4_4_x (i : ι) (e : EdgeIEnv (Tr φ)) : (edgeI_i4_4 e).map (fun t => (t.1, t.2.1, (t.2.2.x i : Fo (φ i)))) = edgeI_i4_4 (K := Fo (φ i)) (e.map fun y => (y.x i : Fo (φ i))) := rfl
private theorem edgeI_i4_4_l (e : EdgeIEnv (Tr φ)) : (edgeI_i4_4 e).map (fun t => (t.1, t.2.1, t.2.2.l)) = edgeI_i4_4 (e.map fun x => x.l) := rfl

private theorem edgeIEntries_x (i : ι) (e : EdgeIEnv (Tr φ)) : (edgeIEntries e).map (fun t => (t.1, t.2.1, (t.2.2.x i : Fo (φ i)))) = edgeIEntries (K := Fo (φ i)) (e.map fun y => (y.x i : Fo (φ i))) := by
  unfold edgeIEntries
  simp only [List.map_append, edgeI_i1_2_x, edgeI_i1_3_x, edgeI_i1_4_x, edgeI_i2_2_x, edgeI_i2_3_x, edgeI_i2_4_x, edgeI_i3_2_x, edgeI_i3_3_x, edgeI_i3_4_x, edgeI_i4_2_x, edgeI_i4_3_x, edgeI_i4_4_x]

private theorem edgeIEntries_l (e : EdgeIEnv (Tr φ)) : (edgeIEntries e).map (fun t => (t.1, t.2.1, t.2.2.l)) = edgeIEntries (e.map fun y => y.l) := by
  unfold edgeIEntries
  simp only [List.map_append, edgeI_i1_2_l, edgeI_i1_3_l, edgeI_i1_4_l, edgeI_i2_2_l, edgeI_i2_3_l, edgeI_i2_4_l, edgeI_i3_2_l, edgeI_i3_3_l, edgeI_i3_4_l, edgeI_i4_2_l, edgeI_i4_3_l, edgeI_i4_4_l]

private noncomputable def tr {c : EdgeIEnv (ι → Flo)} {e : EdgeIEnv ℝ} (h : EdgeIEnv.Rel (Lim φ) c e) (hAc : e.Ac ≠ 0) (hAc1 : e.Ac1 ≠ 0) (hAc2 : e.Ac2 ≠ 0) : EdgeIEnv (Tr φ) :=
  { EdgeIEnv.ofRel Tr.ofLim h with Ac := Tr.ofLimNz _ _ h.Ac hAc, Ac1 := Tr.ofLimNz _ _ h.Ac1 hAc1, Ac2 := Tr.ofLimNz _ _ h.Ac2 hAc2 }

private def fl0 : EdgeIEnv Tr.Flag := { i1 := 0, i2 := 0, i3 := 0, i4 := 0, Ac := ⟨true, true⟩, Ac1 := ⟨true, true⟩, Ac2 := ⟨true, true⟩, E44 := ⟨true, false⟩, E45 := ⟨true, false⟩, E55 := ⟨true, false⟩, a1 := ⟨true, false⟩, b1 := ⟨true, false⟩, c1 := ⟨true, false⟩, d1 := ⟨true, false⟩, a2 := ⟨true, false⟩, b2 := ⟨true, false⟩, c2 := ⟨true, false⟩, d2 := ⟨true, false⟩ }

private theorem edgeI_i1_2_n {c : EdgeIEnv (ι → Flo)} {e : EdgeIEnv ℝ} (h : EdgeIEnv.Rel (Lim φ) c e) (hAc : e.Ac ≠ 0) (hAc1 : e.Ac1 ≠ 0) (hAc2 : e.Ac2 ≠ 0) : (edgeI_i1_2 (tr h hAc hAc1 hAc2)).map (fun t => t.2.2.flag) = (edgeI_i1_2 fl0).map (fun t => t.2.2) := rfl
private theorem edgeI_i1_2_b : (edgeI_i1_2 fl0).all (fun t => t.2.2.ok) = true := by decide +kernel
private theorem edgeI_i1_3_n {c : EdgeIEnv (ι → Flo)} {e : EdgeIEnv ℝ} (h : EdgeIEnv.Rel (Lim φ) c e) (hAc : e.Ac ≠ 0) (hAc1 : e.Ac1 ≠ 0) (hAc2 : e.Ac2 ≠ 0) : (edgeI_i1_3 (tr h hAc hAc1 hAc2)).map (fun t => t.2.2.flag) = (edgeI_i1_3 fl0).map (fun t => t.2.2) := rfl
private theorem edgeI_i1_3_b : (edgeI_i1_3 fl0).all (fun t => t.2.2.ok) = true := by decide +kernel
private theorem edgeI_i1_4_n {c : EdgeIEnv (ι → Flo)} {e : EdgeIEnv ℝ} (h : EdgeIEnv.Rel (Lim φ) c e) (hAc : e.Ac ≠ 0) (hAc1 : e.Ac1 ≠ 0) (hAc2 : e.Ac2 ≠ 0) : (edgeI_i1_4 (tr h hAc hAc1 hAc2)).map (fun t => t.2.2.flag) = (edgeI_i1_4 fl0).map (fun t => t.2.2) := rfl
private theorem edgeI_i1_4_b : (edgeI_i1_4 fl0).all (fun t => t.2.2.ok) = true := by decide +kernel
private theorem edgeI_i2_2_n {c : EdgeIEnv (ι → Flo)} {e : EdgeIEnv ℝ} (h : EdgeIEnv.Rel (Lim φ) c e) (hAc : e.Ac ≠ 0) (hAc1 : e.Ac1 ≠ 0) (hAc2 : e.Ac2 ≠ 0) : (edgeI_i2_2 (tr h hAc hAc1 hAc2)).map (fun t => t.2.2.flag) = (edgeI_i2_2 fl0).map (fun t => t.2.2) := rfl
private theorem edgeI_i2_2_b : (edgeI_i2_2 fl0).all (fun t => t.2.2.ok) = true := by decide +kernel
private theorem edgeI_i2_3_n {c : EdgeIEnv (ι → Flo)} {e : EdgeIEnv ℝ} (h : EdgeIEnv.Rel (Lim φ) c e) (hAc : e.Ac ≠ 0) (hAc1 : e.Ac1 ≠ 0) (hAc2 : e.Ac2 ≠ 0) : (edgeI_i2_3 (tr h hAc hAc1 hAc2)).map (fun t => t.2.2.flag) = (edgeI_i2_3 fl0).map (fun t => t.2.2) := rfl
private theorem edgeI_i2_3_b : (edgeI_i2_3 fl0).all (fun t => t.2.2.ok) = true := by decide +kernel
private theorem edgeI_i2_4_n {c : EdgeIEnv (ι → Flo)} {e : EdgeIEnv ℝ} (h : EdgeIEnv.Rel (Lim φ) c e) (hAc : e.Ac ≠ 0) (hAc1 : e.Ac1 ≠ 0) (hAc2 : e.Ac2 ≠ 0) : (edgeI_i2_4 (tr h hAc hAc1 hAc2)).map (fun t => t.2.2.flag) = (edgeI_i2_4 fl0).map (fun t => t.2.2) := rfl
private theorem edgeI_i2_4_b : (edgeI_i2_4 fl0).all (fun t => t.2.2.ok) = true := by decide +kernel
private theorem edgeI_i3_2_n {c : EdgeIEnv (ι → Flo)} {e : EdgeIEnv ℝ} (h : EdgeIEnv.Rel (Lim φ) c e) (hAc : e.Ac ≠ 0) (hAc1 : e.Ac1 ≠ 0) (hAc2 : e.Ac2 ≠ 0) : (edgeI_i3_2 (tr h hAc hAc1 hAc2)).map (fun t => t.2.2.flag) = (edgeI_i3_2 fl0).map (fun t => t.2.2) := rfl
private theorem edgeI_i3_2_b : (edgeI_i3_2 fl0).all (fun t => t.2.2.ok) = true := by decide +kernel
private theorem edgeI_i3_3_n {c : EdgeIEnv (ι → Flo)} {e : EdgeIEnv ℝ} (h : EdgeIEnv.Rel (Lim φ) c e) (hAc : e.Ac ≠ 0) (hAc1 : e.Ac1 ≠ 0) (hAc2 : e.Ac2 ≠ 0) : (edgeI_i3_3 (tr h hAc hAc1 hAc2)).map (fun t => t.2.2.flag) = (edgeI_i3_3 fl0).map (fun t => t.2.2) := rfl
private theorem edgeI_i3_3_b : (edgeI_i3_3 fl0).all (fun t => t.2.2.ok) = true := by decide +kernel
private theorem edgeI_i3_4_n {c : EdgeIEnv (ι → Flo)} {e : EdgeIEnv ℝ} (h : EdgeIEnv.Rel (Lim φ) c e) (hAc : e.Ac ≠ 0) (hAc1 : e.Ac1 ≠ 0) (hAc2 : e.Ac2 ≠ 0) : (edgeI_i3_4 (tr h hAc hAc1 hAc2)).map (fun t => t.2.2.flag) = (edgeI_i3_4 fl0).map (fun t => t.2.2) := rfl
private theorem edgeI_i3_4_b : (edgeI_i3_4 fl0).all (fun t => t.2.2.ok) = true := by decide +kernel
private theorem edgeI_i4_2_n {c : EdgeIEnv (ι → Flo)} {e : EdgeIEnv ℝ} (h : EdgeIEnv.Rel (Lim φ) c e) (hAc : e.Ac ≠ 0) (hAc1 : e.Ac1 ≠ 0) (hAc2 : e.Ac2 ≠ 0) : (edgeI_i4_2 (tr h hAc hAc1 hAc2)).map (fun t => t.2.2.flag) = (edgeI_i4_2 fl0).map (fun t => t.2.2) := rfl
private theorem edgeI_i4_2_b : (edgeI_i4_2 fl0).all (fun t => t.2.2.ok) = true := by decide +kernel
private theorem edgeI_i4_3_n {c : EdgeIEnv (ι → Flo)} {e : EdgeIEnv ℝ} (h : EdgeIEnv.Rel (Lim φ) c e) (hAc : e.Ac ≠ 0) (hAc1 : e.Ac1 ≠ 0) (hAc2 : e.Ac2 ≠ 0) : (edgeI_i4_3 (tr h hAc hAc1 hAc2)).map (fun t => t.2.2.flag) = (edgeI_i4_3 fl0).map (fun t => t.2.2) := rfl
private theorem edgeI_i4_3_b : (edgeI_i4_3 fl0).all (fun t => t.2.2.ok) = true := by decide +kernel
private theorem edgeI_i4_4_n {c : EdgeIEnv (ι → Flo)} {e : EdgeIEnv ℝ} (h : EdgeIEnv.Rel (Lim φ) c e) (hAc : e.Ac ≠ 0) (hAc1 : e.Ac1 ≠ 0) (hAc2 : e.Ac2 ≠ 0) : (edgeI_i4_4 (tr h hAc hAc1 hAc2)).map (fun t => t.2.2.flag) = (edgeI_i4_4 fl0).map (fun t => t.2.2) := rfl
private theorem edgeI_i4_4_b : (edgeI_i4_4 fl0).all (fun t => t.2.2.ok) = true := by decide +kernel

/-- the increments computed from numbers with limits have the exact increments as limits -/
theorem edgeIEntries_lim {c : EdgeIEnv (ι → Flo)} {e : EdgeIEnv ℝ} (h : EdgeIEnv.Rel (Lim φ) c e) (hAc : e.Ac ≠ 0) (hAc1 : e.Ac1 ≠ 0) (hAc2 : e.Ac2 ≠ 0) :
    LimL φ (fun i => edgeIEntries (K := Fo (φ i)) (c.map fun x => (x i : Fo (φ i)))) (edgeIEntries e) := by
  refine Tr.limL (edgeIEntries (tr h hAc hAc1 hAc2)) (fun i => ?_) ?_ ?_
  · rw [edgeIEntries_x]; congr 1; obtain ⟨⟩ := c; obtain ⟨⟩ := e
    obtain rfl := h.i1
    obtain rfl := h.i2
    obtain rfl := h.i3
    obtain rfl := h.i4
    rfl
  · rw [edgeIEntries_l]; rfl
  · intro t ht
    unfold edgeIEntries at ht
    simp only [List.mem_append] at ht
    rcases ht with ((((((((((h1 | h1) | h1) | h1) | h1) | h1) | h1) | h1) | h1) | h1) | h1) | h1
    · exact Tr.of_flag (edgeI_i1_2_n h hAc hAc1 hAc2) edgeI_i1_2_b h1
    · exact Tr.of_flag (edgeI_i1_3_n h hAc hAc1 hAc2) edgeI_i1_3_b h1
    · exact Tr.of_flag (edgeI_i1_4_n h hAc hAc1 hAc2) edgeI_i1_4_b h1
    · exact Tr.of_flag (edgeI_i2_2_n h hAc hAc1 hAc2) edgeI_i2_2_b h1
    · exact Tr.of_flag (edgeI_i2_3_n h hAc hAc1 hAc2) edgeI_i2_3_b h1
    · exact Tr.of_flag (edgeI_i2_4_n h hAc hAc1 hAc2) edgeI_i2_4_b h1
    · exact Tr.of_flag (edgeI_i3_2_n h hAc hAc1 hAc2) edgeI_i3_2_b h1
    · exact Tr.of_flag (edgeI_i3_3_n h hAc hAc1 hAc2) edgeI_i3_3_b h1
    · exact Tr.of_flag (edgeI_i3_4_n h hAc hAc1 hAc2) edgeI_i3_4_b h1
    · exact Tr.of_flag (edgeI_i4_2_n h hAc hAc1 hAc2) edgeI_i4_2_b h1
    · exact Tr.of_flag (edgeI_i4_3_n h hAc hAc1 hAc2) edgeI_i4_3_b h1
    · exact Tr.of_flag (edgeI_i4_4_n h hAc hAc1 hAc2) edgeI_i4_4_b h1

end Meshless
