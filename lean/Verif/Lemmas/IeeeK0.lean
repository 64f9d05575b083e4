import Verif.Lemmas.IeeeLim

/-! GENERATED by /verif/tools/genieee.py: the increments of Model/Gen/K0.lean computed in floating-point formats, group by group. -/

set_option autoImplicit false
set_option maxRecDepth 10000

namespace Meshless

variable {ι : Type*} {φ : ι → Fmt}

private theorem k0_i1_0_x (i : ι) (e : K0Env (Tr φ)) : (k0_i1_0 e).map (fun t => (t.1, t.2.1, (t.2.2.x i : Fo (φ i)))) = k0_i1_0 (K := Fo (φ i)) (e.map fun y => (y.x i : Fo (φ i))) := rfl
private theorem k0_i1_0_l (e : K0Env (Tr φ)) : (k0_i1_0 e).map (fun t => (t.1, t.2.1, t.2.2.l)) = k0_i1_0 (e.map fun x => x.l) := rfl
private theorem k0_i1_1_x (i : ι) (e : K0Env (Tr φ)) : (k0_i1_1 e).map (fun t => (t.1, t.2.1, (t.2.2.x i : Fo (φ i)))) = k0_i1_1 (K := Fo (φ i)) (e.map fun y => (y.x i : Fo (φ i))) := rfl
private theorem k0_i1_1_l (e : K0Env (Tr φ)) : (k0_i1_1 e).map (fun t => (t.1, t.2.1, t.2.2.l)) = k0_i1_1 (e.map fun x => x.l) := rfl
private theorem k0_i1_3_x (i : ι) (e : K0Env (Tr φ)) : (k0_i1_3 e).map (fun t => (t.1, t.2.1, (t.2.2.x i : Fo (φ i)))) = k0_i1_3 (K := Fo (φ i)) (e.map fun y => (y.x i : Fo (φ i))) := rfl
private theorem k0_i1_3_l (e : K0Env (Tr φ)) : (k0_i1_3 e).map (fun t => (t.1, t.2.1, t.2.2.l)) = k0_i1_3 (e.map fun x => x.l) := rfl
private theorem k0_i1_4_x (i : ι) (e : K0Env (Tr φ)) : (k0_i1_4 e).map (fun t => (t.1, t.2.1, (t.2.2.x i : Fo (φ i)))) = k0_i1_4 (K := Fo (φ i)) (e.map fun y => (y.x i : Fo (φ i))) := rfl
private theorem k0_i1_4_l (e : K0Env (Tr φ)) : (k0_i1_4 e).map (fun t => (t.1, t.2.1, t.2.2.l)) = k0_i1_4 (e.map fun x => x.l) := rfl
private theorem k0_i2_0_x (i : ι) (e : K0Env (Tr φ)) : (k0_i2_0 e).map (fun t => (t.1, t.2.1, (t.2.2.x i : Fo (φ i)))) = k0_i2_0 (K := Fo (φ i)) (e.map fun y => (y.x i : Fo (φ i))) := rfl
private theorem k0_i2_0_l (e : K0Env (Tr φ)) : (k0_i2_0 e).map (fun t => (t.1, t.2.1, t.2.2.l)) = k0_i2_0 (e.map fun x => x.l) := rfl
private theorem k0_i2_1_x (i : ι) (e : K0Env (Tr φ)) : (k0_i2_1 e).map (fun t => (t.1, t.2.1, (t.2.2.x i : Fo (φ i)))) = k0_i2_1 (K := Fo (φ i)) (e.map fun y => (y.x i : Fo (φ i))) := rfl
private theorem k0_i2_1_l (e : K0Env (Tr φ)) : (k0_i2_1 e).map (fun t => (t.1, t.2.1, t.2.2.l)) = k0_i2_1 (e.map fun x => x.l) := rfl
private theorem k0_i2_3_x (i : ι) (e : K0Env (Tr φ)) : (k0_i2_3 e).map (fun t => (t.1, t.2.1, (t.2.2.x i : Fo (φ i)))) = k0_i2_3 (K := Fo (φ i)) (e.map fun y => (y.x i : Fo (φ i))) := rfl
private theorem k0_i2_3_l (e : K0Env (Tr φ)) : (k0_i2_3 e).map (fun t => (t.1, t.2.1, t.2.2.l)) = k0_i2_3 (e.map fun x => x.l) := rfl
private theorem k0_i2_4_x (i : ι) (e : K0Env (Tr φ)) : (k0_i2_4 e).map (fun t => (t.1, t.2.1, (t.2.2.x i : Fo (φ i)))) = k0_i2_4 (K := Fo (φ i)) (e.map fun y => (y.x i : Fo (φ i))) := rfl
private theorem k0_i2_4_l (e : K0Env (Tr φ)) : (k0_i2_4 e).map (fun t => (t.1, t.2.1, t.2.2.l)) = k0_i2_4 (e.map fun x => x.l) := rfl
private theorem k0_i3_0_x (i : ι) (e : K0Env (Tr φ)) : (k0_i3_0 e).map (fun t => (t.1, t.2.1, (t.2.2.x i : Fo (φ i)))) = k0_i3_0 (K := Fo (φ i)) (e.map fun y => (y.x i : Fo (φ i))) := rfl
private theorem k0_i3_0_l (e : K0Env (Tr φ)) : (k0_i3_0 e).map (fun t => (t.1, t.2.1, t.2.2.l)) = k0_i3_0 (e.map fun x => x.l) := rfl
private theorem k0_i3_1_x (i : ι) (e : K0Env (Tr φ)) : (k0_i3_1 e).map (fun t => (t.1, t.2.1, (t.2.2.x i : Fo (φ i)))) = k0_i3_1 (K := Fo (φ i)) (e.map fun y => (y.x i : Fo (φ i))) := rfl
private theorem k0_i3_1_l (e : K0Env (Tr φ)) : (k0_i3_1 e).map (fun t => (t.1, t.2.1, t.2.2.l)) = k0_i3_1 (e.map fun x => x.l) := rfl
private theorem k0_i3_3_x (i : ι) (e : K0Env (Tr φ)) : (k0_i3_3 e).map (fun t => (t.1, t.2.1, (t.2.2.x i : Fo (φ i)))) = k0_i3_3 (K := Fo (φ i)) (e.map fun y => (y.x i : Fo (φ i))) := rfl
private theorem k0_i3_3_l (e : K0Env (Tr φ)) : (k0_i3_3 e).map (fun t => (t.1, t.2.1, t.2.2.l)) = k0_i3_3 (e.map fun x => x.l) := rfl
private theorem k0_i3_4_x (i : ι) (e : K0Env (Tr φ)) : (k0_i3_4 e).map (fun t => (t.1, t.2.1, (t.2.2.x i : Fo (φ i)))) = k0_i3_4 (K := Fo (φ i)) (e.map fun y => (y.x i : Fo (φ i))) := rfl
private theorem k0_i3_4_l (e : K0Env (Tr φ)) : (k0_i3_4 e).map (fun t => (t.1, t.2.1, t.2.2.l)) = k0_i3_4 (e.map fun x => x.l) := rfl
private theorem k0_i4_0_x (i : ι) (e : K0Env (Tr φ)) : (k0_i4_0 e).map (fun t => (t.1, t.2.1, (t.2.2.x i : Fo (φ i)))) = k0_i4_0 (K := Fo (φ i)) (e.map fun y => (y.x i : Fo (φ i))) := rfl
private theorem k0_i4_0_l (e : K0Env (Tr φ)) : (k0_i4_0 e).map (fun t => (t.1, t.2.1, t.2.2.l)) = k0_i4_0 (e.map fun x => x.l) := rfl
private theorem k0_i4_1_x (i : ι) (e : K0Env (Tr φ)) : (k0_i4_1 e).map (fun t => (t.1, t.2.1, (t.2.2.x i : Fo (φ i)))) = k0_i4_1 (K := Fo (φ i)) (e.map fun y => (y.x i : Fo (φ i))) := rfl
private theorem k0_i4_1_l (e : K0Env (Tr φ)) : (k0_i4_1 e).map (fun t => (t.1, t.2.1, t.2.2.l)) = k0_i4_1 (e.map fun x => x.l) := rfl
private theorem k0_i4_3_x (i : ι) (e : K0Env (Tr φ)) : (k0_i4_3 e).map (fun t => (t.1, t.2.1, (t.2.2.x i : Fo (φ i)))) = k0_i4_3 (K := Fo (φ i)) (e.map fun y => (y.x i : Fo (φ i))) := rfl
private theorem k0_i4_3_l (e : K0Env (Tr φ)) : (k0_i4_3 e).map (fun t => (t.1, t.2.1, t.2.2.l)) = k0_i4_3 (e.map fun x => x.l) := rfl
private theorem k0_i4_4_x (i : ι) (e : K0Env (Tr φ)) : (k0_i4_4 e).map (fun t => (t.1, t.2.1, (t.2.2.x i : Fo (φ i)))) = k0_i4_4 (K := Fo (φ i)) (e.map fun y => (y.x i : Fo (φ i))) := rfl
private theorem k0_i4_4_l (e : K0Env (Tr φ)) : (k0_i4_4 e).map (fun t => (t.1, t.2.1, t.2.2.l)) = k0_i4_4 (e.map fun x => x.l) := rfl

private theorem k0Entries_x (i : ι) (e : K0Env (Tr φ)) : (k0Entries e).map (fun t => (t.1, t.2.1, (t.2.2.x i : Fo (φ i)))) = k0Entries (K := Fo (φ i)) (e.map fun y => (y.x i : Fo (φ i))) := by
  unfold k0Entries
  simp only [List.map_append, k0_i1_0_x, k0_i1_1_x, k0_i1_3_x, k0_i1_4_x, k0_i2_0_x, k0_i2_1_x, k0_i2_3_x, k0_i2_4_x, k0_i3_0_x, k0_i3_1_x, k0_i3_3_x, k0_i3_4_x, k0_i4_0_x, k0_i4_1_x, k0_i4_3_x, k0_i4_4_x]

private theorem k0Entries_l (e : K0Env (Tr φ)) : (k0Entries e).map (fun t => (t.1, t.2.1, t.2.2.l)) = k0Entries (e.map fun y => y.l) := by
  unfold k0Entries
  simp only [List.map_append, k0_i1_0_l, k0_i1_1_l, k0_i1_3_l, k0_i1_4_l, k0_i2_0_l, k0_i2_1_l, k0_i2_3_l, k0_i2_4_l, k0_i3_0_l, k0_i3_1_l, k0_i3_3_l, k0_i3_4_l, k0_i4_0_l, k0_i4_1_l, k0_i4_3_l, k0_i4_4_l]

private noncomputable def tr {c : K0Env (ι → Flo)} {e : K0Env ℝ} (h : K0Env.Rel (Lim φ) c e) (hAc : e.Ac ≠ 0) : K0Env (Tr φ) :=
  { K0Env.ofRel Tr.ofLim h with Ac := Tr.ofLimNz _ _ h.Ac hAc }

private def fl0 : K0Env Tr.Flag := { i1 := 0, i2 := 0, i3 := 0, i4 := 0, Ac := ⟨true, true⟩, A11 := ⟨true, false⟩, A12 := ⟨true, false⟩, A16 := ⟨true, false⟩, A22 := ⟨true, false⟩, A26 := ⟨true, false⟩, A66 := ⟨true, false⟩, B11 := ⟨true, false⟩, B12 := ⟨true, false⟩, B16 := ⟨true, false⟩, B22 := ⟨true, false⟩, B26 := ⟨true, false⟩, B66 := ⟨true, false⟩, D11 := ⟨true, false⟩, D12 := ⟨true, false⟩, D16 := ⟨true, false⟩, D22 := ⟨true, false⟩, D26 := ⟨true, false⟩, D66 := ⟨true, false⟩, f11 := ⟨true, false⟩, f12 := ⟨true, false⟩, f13 := ⟨true, false⟩, f14 := ⟨true, false⟩, f21 := ⟨true, false⟩, f22 := ⟨true, false⟩, f23 := ⟨true, false⟩, f24 := ⟨true, false⟩, f31 := ⟨true, false⟩, f32 := ⟨true, false⟩, f33 := ⟨true, false⟩, f34 := ⟨true, false⟩, f41 := ⟨true, false⟩, f42 := ⟨true, false⟩, f43 := ⟨true, false⟩, f44 := ⟨true, false⟩, le1 := ⟨true, false⟩, le2 := ⟨true, false⟩, le3 := ⟨true, false⟩, le4 := ⟨true, false⟩, nx1 := ⟨true, false⟩, nx2 := ⟨true, false⟩, nx3 := ⟨true, false⟩, nx4 := ⟨true, false⟩, ny1 := ⟨true, false⟩, ny2 := ⟨true, false⟩, ny3 := ⟨true, false⟩, ny4 := ⟨true, false⟩ }

private theorem k0_i1_0_n {c : K0Env (ι → Flo)} {e : K0Env ℝ} (h : K0Env.Rel (Lim φ) c e) (hAc : e.Ac ≠ 0) : (k0_i1_0 (tr h hAc)).map (fun t => t.2.2.flag) = (k0_i1_0 fl0).map (fun t => t.2.2) := rfl
private theorem k0_i1_0_b : (k0_i1_0 fl0).all (fun t => t.2.2.ok) = true := by decide +kernel
private theorem k0_i1_1_n {c : K0Env (ι → Flo)} {e : K0Env ℝ} (h : K0Env.Rel (Lim φ) c e) (hAc : e.Ac ≠ 0) : (k0_i1_1 (tr h hAc)).map (fun t => t.2.2.flag) = (k0_i1_1 fl0).map (fun t => t.2.2) := rfl
private theorem k0_i1_1_b : (k0_i1_1 fl0).all (fun t => t.2.2.ok) = true := by decide +kernel
private theorem k0_i1_3_n {c : K0Env (ι → Flo)} {e : K0Env ℝ} (h : K0Env.Rel (Lim φ) c e) (hAc : e.Ac ≠ 0) : (k0_i1_3 (tr h hAc)).map (fun t => t.2.2.flag) = (k0_i1_3 fl0).map (fun t => t.2.2) := rfl
private theorem k0_i1_3_b : (k0_i1_3 fl0).all (fun t => t.2.2.ok) = true := by decide +kernel
private theorem k0_i1_4_n {c : K0Env (ι → Flo)} {e : K0Env ℝ} (h : K0Env.Rel (Lim φ) c e) (hAc : e.Ac ≠ 0) : (k0_i1_4 (tr h hAc)).map (fun t => t.2.2.flag) = (k0_i1_4 fl0).map (fun t => t.2.2) := rfl
private theorem k0_i1_4_b : (k0_i1_4 fl0).all (fun t => t.2.2.ok) = true := by decide +kernel
private theorem k0_i2_0_n {c : K0Env (ι → Flo)} {e : K0Env ℝ} (h : K0Env.Rel (Lim φ) c e) (hAc : e.Ac ≠ 0) : (k0_i2_0 (tr h hAc)).map (fun t => t.2.2.flag) = (k0_i2_0 fl0).map (fun t => t.2.2) := rfl
private theorem k0_i2_0_b : (k0_i2_0 fl0).all (fun t => t.2.2.ok) = true := by decide +kernel
private theorem k0_i2_1_n {c : K0Env (ι → Flo)} {e : K0Env ℝ} (h : K0Env.Rel (Lim φ) c e) (hAc : e.Ac ≠ 0) : (k0_i2_1 (tr h hAc)).map (fun t => t.2.2.flag) = (k0_i2_1 fl0).map (fun t => t.2.2) := rfl
private theorem k0_i2_1_b : (k0_i2_1 fl0).all (fun t => t.2.2.ok) = true := by decide +kernel
private theorem k0_i2_3_n {c : K0Env (ι → Flo)} {e : K0Env ℝ} (h : K0Env.Rel (Lim φ) c e) (hAc : e.Ac ≠ 0) : (k0_i2_3 (tr h hAc)).map (fun t => t.2.2.flag) = (k0_i2_3 fl0).map (fun t => t.2.2) := rfl
private theorem k0_i2_3_b : (k0_i2_3 fl0).all (fun t => t.2.2.ok) = true := by decide +kernel
private theorem k0_i2_4_n {c : K0Env (ι → Flo)} {e : K0Env ℝ} (h : K0Env.Rel (Lim φ) c e) (hAc : e.Ac ≠ 0) : (k0_i2_4 (tr h hAc)).map (fun t => t.2.2.flag) = (k0_i2_4 fl0).map (fun t => t.2.2) := rfl
private theorem k0_i2_4_b : (k0_i2_4 fl0).all (fun t => t.2.2.ok) = true := by decide +kernel
private theorem k0_i3_0_n {c : K0Env (ι → Flo)} {e : K0Env ℝ} (h : K0Env.Rel (Lim φ) c e) (hAc : e.Ac ≠ 0) : (k0_i3_0 (tr h hAc)).map (fun t => t.2.2.flag) = (k0_i3_0 fl0).map (fun t => t.2.2) := rfl
private theorem k0_i3_0_b : (k0_i3_0 fl0).all (fun t => t.2.2.ok) = true := by decide +kernel
private theorem k0_i3_1_n {c : K0Env (ι → Flo)} {e : K0Env ℝ} (h : K0Env.Rel (Lim φ) c e) (hAc : e.Ac ≠ 0) : (k0_i3_1 (tr h hAc)).map (fun t => t.2.2.flag) = (k0_i3_1 fl0).map (fun t => t.2.2) := rfl
private theorem k0_i3_1_b : (k0_i3_1 fl0).all (fun t => t.2.2.ok) = true := by decide +kernel
private theorem k0_i3_3_n {c : K0Env (ι → Flo)} {e : K0Env ℝ} (h : K0Env.Rel (Lim φ) c e) (hAc : e.Ac ≠ 0) : (k0_i3_3 (tr h hAc)).map (fun t => t.2.2.flag) = (k0_i3_3 fl0).map (fun t => t.2.2) := rfl
private theorem k0_i3_3_b : (k0_i3_3 fl0).all (fun t => t.2.2.ok) = true := by decide +kernel
private theorem k0_i3_4_n {c : K0Env (ι → Flo)} {e : K0Env ℝ} (h : K0Env.Rel (Lim φ) c e) (hAc : e.Ac ≠ 0) : (k0_i3_4 (tr h hAc)).map (fun t => t.2.2.flag) = (k0_i3_4 fl0).map (fun t => t.2.2) := rfl
private theorem k0_i3_4_b : (k0_i3_4 fl0).all (fun t => t.2.2.ok) = true := by decide +kernel
private theorem k0_i4_0_n {c : K0Env (ι → Flo)} {e : K0Env ℝ} (h : K0Env.Rel (Lim φ) c e) (hAc : e.Ac ≠ 0) : (k0_i4_0 (tr h hAc)).map (fun t => t.2.2.flag) = (k0_i4_0 fl0).map (fun t => t.2.2) := rfl
private theorem k0_i4_0_b : (k0_i4_0 fl0).all (fun t => t.2.2.ok) = true := by decide +kernel
private theorem k0_i4_1_n {c : K0Env (ι → Flo)} {e : K0Env ℝ} (h : K0Env.Rel (Lim φ) c e) (hAc : e.Ac ≠ 0) : (k0_i4_1 (tr h hAc)).map (fun t => t.2.2.flag) = (k0_i4_1 fl0).map (fun t => t.2.2) := rfl
private theorem k0_i4_1_b : (k0_i4_1 fl0).all (fun t => t.2.2.ok) = true := by decide +kernel
private theorem k0_i4_3_n {c : K0Env (ι → Flo)} {e : K0Env ℝ} (h : K0Env.Rel (Lim φ) c e) (hAc : e.Ac ≠ 0) : (k0_i4_3 (tr h hAc)).map (fun t => t.2.2.flag) = (k0_i4_3 fl0).map (fun t => t.2.2) := rfl
private theorem k0_i4_3_b : (k0_i4_3 fl0).all (fun t => t.2.2.ok) = true := by decide +kernel
private theorem k0_i4_4_n {c : K0Env (ι → Flo)} {e : K0Env ℝ} (h : K0Env.Rel (Lim φ) c e) (hAc : e.Ac ≠ 0) : (k0_i4_4 (tr h hAc)).map (fun t => t.2.2.flag) = (k0_i4_4 fl0).map (fun t => t.2.2) := rfl
private theorem k0_i4_4_b : (k0_i4_4 fl0).all (fun t => t.2.2.ok) = true := by decide +kernel

/-- the increments computed from numbers with limits have the exact increments as limits -/
theorem k0Entries_lim {c : K0Env (ι → Flo)} {e : K0Env ℝ} (h : K0Env.Rel (Lim φ) c e) (hAc : e.Ac ≠ 0) :
    LimL φ (fun i => k0Entries (K := Fo (φ i)) (c.map fun x => (x i : Fo (φ i)))) (k0Entries e) := by
  refine Tr.limL (k0Entries (tr h hAc)) (fun i => ?_) ?_ ?_
  · rw [k0Entries_x]; congr 1; obtain ⟨⟩ := c; obtain ⟨⟩ := e
    obtain rfl := h.i1
    obtain rfl := h.i2
    obtain rfl := h.i3
    obtain rfl := h.i4
    rfl
  · rw [k0Entries_l]; rfl
  · intro t ht
    unfold k0Entries at ht
    simp only [List.mem_append] at ht
    rcases ht with ((((((((((((((h1 | h1) | h1) | h1) | h1) | h1) | h1) | h1) | h1) | h1) | h1) | h1) | h1) | h1) | h1) | h1
    · exact Tr.of_flag (k0_i1_0_n h hAc) k0_i1_0_b h1
    · exact Tr.of_flag (k0_i1_1_n h hAc) k0_i1_1_b h1
    · exact Tr.of_flag (k0_i1_3_n h hAc) k0_i1_3_b h1
    · exact Tr.of_flag (k0_i1_4_n h hAc) k0_i1_4_b h1
    · exact Tr.of_flag (k0_i2_0_n h hAc) k0_i2_0_b h1
    · exact Tr.of_flag (k0_i2_1_n h hAc) k0_i2_1_b h1
    · exact Tr.of_flag (k0_i2_3_n h hAc) k0_i2_3_b h1
    · exact Tr.of_flag (k0_i2_4_n h hAc) k0_i2_4_b h1
    · exact Tr.of_flag (k0_i3_0_n h hAc) k0_i3_0_b h1
    · exact Tr.of_flag (k0_i3_1_n h hAc) k0_i3_1_b h1
    · exact Tr.of_flag (k0_i3_3_n h hAc) k0_i3_3_b h1
    · exact Tr.of_flag (k0_i3_4_n h hAc) k0_i3_4_b h1
    · exact Tr.of_flag (k0_i4_0_n h hAc) k0_i4_0_b h1
    · exact Tr.of_flag (k0_i4_1_n h hAc) k0_i4_1_b h1
    · exact Tr.of_flag (k0_i4_3_n h hAc) k0_i4_3_b h1
    · exact Tr.of_flag (k0_i4_4_n h hAc) k0_i4_4_b h1

end Meshless
