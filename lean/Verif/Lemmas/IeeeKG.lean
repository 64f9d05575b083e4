import Verif.Lemmas.IeeeLim

/-! GENERATED by /verif/tools/genieee.py: the increments of Model/Gen/KG.lean computed in floating-point formats, group by group. -/

set_option autoImplicit false
set_option maxRecDepth 10000

namespace Meshless

variable {ι : Type*} {φ : ι → Fmt}

private theorem kG_i1_2_x (i : ι) (e : KGEnv (Tr φ)) : (kG_i1_2 e).map (fun t => (t.1, t.2.1, (t.2.2.x i : Fo (φ i)))) = kG_i1_2 (K := Fo (φ i)) (e.map fun y => (y.x i : Fo (φ i))) := rfl
private theorem kG_i1_2_l (e : KGEnv (Tr φ)) : (kG_i1_2 e).map (fun t => (t.1, t.2.1, t.2.2.l)) = kG_i1_2 (e.map fun x => x.l) := rfl
private theorem kG_i2_2_x (i : ι) (e : KGEnv (Tr φ)) : (kG_i2_2 e).map (fun t => (t.1, t.2.1, (t.2.2.x i : Fo (φ i)))) = kG_i2_2 (K := Fo (φ i)) (e.map fun y => (y.x i : Fo (φ i))) := rfl
private theorem kG_i2_2_l (e : KGEnv (Tr φ)) : (kG_i2_2 e).map (fun t => (t.1, t.2.1, t.2.2.l)) = kG_i2_2 (e.map fun x => x.l) := rfl
private theorem kG_i3_2_x (i : ι) (e : KGEnv (Tr φ)) : (kG_i3_2 e).map (fun t => (t.1, t.2.1, (t.2.2.x i : Fo (φ i)))) = kG_i3_2 (K := Fo (φ i)) (e.map fun y => (y.x i : Fo (φ i))) := rfl
private theorem kG_i3_2_l (e : KGEnv (Tr φ)) : (kG_i3_2 e).map (fun t => (t.1, t.2.1, t.2.2.l)) = kG_i3_2 (e.map fun x => x.l) := rfl
private theorem kG_i4_2_x (i : ι) (e : KGEnv (Tr φ)) : (kG_i4_2 e).map (fun t => (t.1, t.2.1, (t.2.2.x i : Fo (φ i)))) = kG_i4_2 (K := Fo (φ i)) (e.map fun y => (y.x i : Fo (φ i))) := rfl
private theorem kG_i4_2_l (e : KGEnv (Tr φ)) : (kG_i4_2 e).map (fun t => (t.1, t.2.1, t.2.2.l)) = kG_i4_2 (e.map fun x => x.l) := rfl

private theorem kGEntries_x (i : ι) (e : KGEnv (Tr φ)) : (kGEntries e).map (fun t => (t.1, t.2.1, (t.2.2.x i : Fo (φ i)))) = kGEntries (K := Fo (φ i)) (e.map fun y => (y.x i : Fo (φ i))) := by
  unfold kGEntries
  simp only [List.map_append, kG_i1_2_x, kG_i2_2_x, kG_i3_2_x, kG_i4_2_x]

private theorem kGEntries_l (e : KGEnv (Tr φ)) : (kGEntries e).map (fun t => (t.1, t.2.1, t.2.2.l)) = kGEntries (e.map fun y => y.l) := by
  unfold kGEntries
  simp only [List.map_append, kG_i1_2_l, kG_i2_2_l, kG_i3_2_l, kG_i4_2_l]

private noncomputable def tr {c : KGEnv (ι → Flo)} {e : KGEnv ℝ} (h : KGEnv.Rel (Lim φ) c e) (hAc : e.Ac ≠ 0) : KGEnv (Tr φ) :=
  { KGEnv.ofRel Tr.ofLim h with Ac := Tr.ofLimNz _ _ h.Ac hAc }

private def fl0 : KGEnv Tr.Flag := { i1 := 0, i2 := 0, i3 := 0, i4 := 0, Ac := ⟨true, true⟩, Nxx := ⟨true, false⟩, Nxy := ⟨true, false⟩, Nyy := ⟨true, false⟩, f11 := ⟨true, false⟩, f12 := ⟨true, false⟩, f13 := ⟨true, false⟩, f14 := ⟨true, false⟩, f21 := ⟨true, false⟩, f22 := ⟨true, false⟩, f23 := ⟨true, false⟩, f24 := ⟨true, false⟩, f31 := ⟨true, false⟩, f32 := ⟨true, false⟩, f33 := ⟨true, false⟩, f34 := ⟨true, false⟩, f41 := ⟨true, false⟩, f42 := ⟨true, false⟩, f43 := ⟨true, false⟩, f44 := ⟨true, false⟩, le1 := ⟨true, false⟩, le2 := ⟨true, false⟩, le3 := ⟨true, false⟩, le4 := ⟨true, false⟩, nx1 := ⟨true, false⟩, nx2 := ⟨true, false⟩, nx3 := ⟨true, false⟩, nx4 := ⟨true, false⟩, ny1 := ⟨true, false⟩, ny2 := ⟨true, false⟩, ny3 := ⟨true, false⟩, ny4 := ⟨true, false⟩ }

private theorem kG_i1_2_n {c : KGEnv (ι → Flo)} {e : KGEnv ℝ} (h : KGEnv.Rel (Lim φ) c e) (hAc : e.Ac ≠ 0) : (kG_i1_2 (tr h hAc)).map (fun t => t.2.2.flag) = (kG_i1_2 fl0).map (fun t => t.2.2) := rfl
private theorem kG_i1_2_b : (kG_i1_2 fl0).all (fun t => t.2.2.ok) = true := by decide +kernel
private theorem kG_i2_2_n {c : KGEnv (ι → Flo)} {e : KGEnv ℝ} (h : KGEnv.Rel (Lim φ) c e) (hAc : e.Ac ≠ 0) : (kG_i2_2 (tr h hAc)).map (fun t => t.2.2.flag) = (kG_i2_2 fl0).map (fun t => t.2.2) := rfl
private theorem kG_i2_2_b : (kG_i2_2 fl0).all (fun t => t.2.2.ok) = true := by decide +kernel
private theorem kG_i3_2_n {c : KGEnv (ι → Flo)} {e : KGEnv ℝ} (h : KGEnv.Rel (Lim φ) c e) (hAc : e.Ac ≠ 0) : (kG_i3_2 (tr h hAc)).map (fun t => t.2.2.flag) = (kG_i3_2 fl0).map (fun t => t.2.2) := rfl
private theorem kG_i3_2_b : (kG_i3_2 fl0).all (fun t => t.2.2.ok) = true := by decide +kernel
private theorem kG_i4_2_n {c : KGEnv (ι → Flo)} {e : KGEnv ℝ} (h : KGEnv.Rel (Lim φ) c e) (hAc : e.Ac ≠ 0) : (kG_i4_2 (tr h hAc)).map (fun t => t.2.2.flag) = (kG_i4_2 fl0).map (fun t => t.2.2) := rfl
private theorem kG_i4_2_b : (kG_i4_2 fl0).all (fun t => t.2.2.ok) = true := by decide +kernel

/-- the increments computed from numbers with limits have the exact increments as limits -/
theorem kGEntries_lim {c : KGEnv (ι → Flo)} {e : KGEnv ℝ} (h : KGEnv.Rel (Lim φ) c e) (hAc : e.Ac ≠ 0) :
    LimL φ (fun i => kGEntries (K := Fo (φ i)) (c.map fun x => (x i : Fo (φ i)))) (kGEntries e) := by
  refine Tr.limL (kGEntries (tr h hAc)) (fun i => ?_) ?_ ?_
  · rw [kGEntries_x]; congr 1; obtain ⟨⟩ := c; obtain ⟨⟩ := e
    obtain rfl := h.i1
    obtain rfl := h.i2
    obtain rfl := h.i3
    obtain rfl := h.i4
    rfl
  · rw [kGEntries_l]; rfl
  · intro t ht
    unfold kGEntries at ht
    simp only [List.mem_append] at ht
    rcases ht with ((h1 | h1) | h1) | h1
    · exact Tr.of_flag (kG_i1_2_n h hAc) kG_i1_2_b h1
    · exact Tr.of_flag (kG_i2_2_n h hAc) kG_i2_2_b h1
    · exact Tr.of_flag (kG_i3_2_n h hAc) kG_i3_2_b h1
    · exact Tr.of_flag (kG_i4_2_n h hAc) kG_i4_2_b h1

end Meshless
