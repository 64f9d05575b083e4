import Verif.Model.Gen.Map
import Verif.Lemmas.Graded

/-! GENERATED by /verif/tools/gengrade.py: the units of the increments of Model/Gen/CellNS.lean, group by group. -/

set_option autoImplicit false
set_option maxRecDepth 10000

namespace Meshless

variable {R : Rounding} {s f ε : ℝ} [Grading R s f ε]

/-- the same row and column numbers; the data in the other units -/
structure CellNSEnv.Graded (s f ε : ℝ) (a b : CellNSEnv ℝ) : Prop where
  i1 : b.i1 = a.i1
  i2 : b.i2 = a.i2
  i3 : b.i3 = a.i3
  Ac : Gd s f ε Dg.A a.Ac b.Ac
  E44 : Gd s f ε Dg.P a.E44 b.E44
  E45 : Gd s f ε Dg.P a.E45 b.E45
  E55 : Gd s f ε Dg.P a.E55 b.E55
  a1 : Gd s f ε Dg.X a.a1 b.a1
  b1 : Gd s f ε Dg.X a.b1 b.b1
  c1 : Gd s f ε Dg.X a.c1 b.c1
  d1 : Gd s f ε Dg.X a.d1 b.d1

private def gr {a b : CellNSEnv ℝ} (h : CellNSEnv.Graded s f ε a b) : CellNSEnv (Gr R s f ε) where
  i1 := a.i1
  i2 := a.i2
  i3 := a.i3
  Ac := Gr.of Dg.A h.Ac
  E44 := Gr.of Dg.P h.E44
  E45 := Gr.of Dg.P h.E45
  E55 := Gr.of Dg.P h.E55
  a1 := Gr.of Dg.X h.a1
  b1 := Gr.of Dg.X h.b1
  c1 := Gr.of Dg.X h.c1
  d1 := Gr.of Dg.X h.d1

private def cnt : CellNSEnv Gr.Cnt := { i1 := 0, i2 := 0, i3 := 0, Ac := ⟨Dg.A, true⟩, E44 := ⟨Dg.P, true⟩, E45 := ⟨Dg.P, true⟩, E55 := ⟨Dg.P, true⟩, a1 := ⟨Dg.X, true⟩, b1 := ⟨Dg.X, true⟩, c1 := ⟨Dg.X, true⟩, d1 := ⟨Dg.X, true⟩ }

private theorem cellNS_i1_2_c (e : CellNSEnv (Gr R s f ε)) : (cellNS_i1_2 e).map (fun t => (t.1, t.2.1, (t.2.2.c : Fl R))) = cellNS_i1_2 (K := Fl R) (e.map fun x => (x.c : Fl R)) := rfl
private theorem cellNS_i1_2_d (e : CellNSEnv (Gr R s f ε)) : (cellNS_i1_2 e).map (fun t => (t.1, t.2.1, (t.2.2.d : Fl R))) = cellNS_i1_2 (K := Fl R) (e.map fun x => (x.d : Fl R)) := rfl
private theorem cellNS_i1_2_n {a b : CellNSEnv ℝ} (h : CellNSEnv.Graded s f ε a b) : (cellNS_i1_2 (gr (R := R) h)).map (fun t => (t.1 % 5, t.2.1 % 5, t.2.2.cnt)) = (cellNS_i1_2 cnt).map (fun t => (t.1 % 5, t.2.1 % 5, t.2.2)) := by
  simp only [cellNS_i1_2, List.map_cons, List.map_nil, Int.mul_add_emod_self_right]
  rfl
private theorem cellNS_i1_2_b : (cellNS_i1_2 cnt).all (fun t => t.2.2.ok && t.2.2.g.same (entryDg (t.1 % 5) (t.2.1 % 5))) = true := by decide +kernel
private theorem cellNS_i1_3_c (e : CellNSEnv (Gr R s f ε)) : (cellNS_i1_3 e).map (fun t => (t.1, t.2.1, (t.2.2.c : Fl R))) = cellNS_i1_3 (K := Fl R) (e.map fun x => (x.c : Fl R)) := rfl
private theorem cellNS_i1_3_d (e : CellNSEnv (Gr R s f ε)) : (cellNS_i1_3 e).map (fun t => (t.1, t.2.1, (t.2.2.d : Fl R))) = cellNS_i1_3 (K := Fl R) (e.map fun x => (x.d : Fl R)) := rfl
private theorem cellNS_i1_3_n {a b : CellNSEnv ℝ} (h : CellNSEnv.Graded s f ε a b) : (cellNS_i1_3 (gr (R := R) h)).map (fun t => (t.1 % 5, t.2.1 % 5, t.2.2.cnt)) = (cellNS_i1_3 cnt).map (fun t => (t.1 % 5, t.2.1 % 5, t.2.2)) := by
  simp only [cellNS_i1_3, List.map_cons, List.map_nil, Int.mul_add_emod_self_right]
  rfl
private theorem cellNS_i1_3_b : (cellNS_i1_3 cnt).all (fun t => t.2.2.ok && t.2.2.g.same (entryDg (t.1 % 5) (t.2.1 % 5))) = true := by decide +kernel
private theorem cellNS_i1_4_c (e : CellNSEnv (Gr R s f ε)) : (cellNS_i1_4 e).map (fun t => (t.1, t.2.1, (t.2.2.c : Fl R))) = cellNS_i1_4 (K := Fl R) (e.map fun x => (x.c : Fl R)) := rfl
private theorem cellNS_i1_4_d (e : CellNSEnv (Gr R s f ε)) : (cellNS_i1_4 e).map (fun t => (t.1, t.2.1, (t.2.2.d : Fl R))) = cellNS_i1_4 (K := Fl R) (e.map fun x => (x.d : Fl R)) := rfl
private theorem cellNS_i1_4_n {a b : CellNSEnv ℝ} (h : CellNSEnv.Graded s f ε a b) : (cellNS_i1_4 (gr (R := R) h)).map (fun t => (t.1 % 5, t.2.1 % 5, t.2.2.cnt)) = (cellNS_i1_4 cnt).map (fun t => (t.1 % 5, t.2.1 % 5, t.2.2)) := by
  simp only [cellNS_i1_4, List.map_cons, List.map_nil, Int.mul_add_emod_self_right]
  rfl
private theorem cellNS_i1_4_b : (cellNS_i1_4 cnt).all (fun t => t.2.2.ok && t.2.2.g.same (entryDg (t.1 % 5) (t.2.1 % 5))) = true := by decide +kernel
private theorem cellNS_i2_2_c (e : CellNSEnv (Gr R s f ε)) : (cellNS_i2_2 e).map (fun t => (t.1, t.2.1, (t.2.2.c : Fl R))) = cellNS_i2_2 (K := Fl R) (e.map fun x => (x.c : Fl R)) := rfl
private theorem cellNS_i2_2_d (e : CellNSEnv (Gr R s f ε)) : (cellNS_i2_2 e).map (fun t => (t.1, t.2.1, (t.2.2.d : Fl R))) = cellNS_i2_2 (K := Fl R) (e.map fun x => (x.d : Fl R)) := rfl
private theorem cellNS_i2_2_n {a b : CellNSEnv ℝ} (h : CellNSEnv.Graded s f ε a b) : (cellNS_i2_2 (gr (R := R) h)).map (fun t => (t.1 % 5, t.2.1 % 5, t.2.2.cnt)) = (cellNS_i2_2 cnt).map (fun t => (t.1 % 5, t.2.1 % 5, t.2.2)) := by
  simp only [cellNS_i2_2, List.map_cons, List.map_nil, Int.mul_add_emod_self_right]
  rfl
private theorem cellNS_i2_2_b : (cellNS_i2_2 cnt).all (fun t => t.2.2.ok && t.2.2.g.same (entryDg (t.1 % 5) (t.2.1 % 5))) = true := by decide +kernel
private theorem cellNS_i2_3_c (e : CellNSEnv (Gr R s f ε)) : (cellNS_i2_3 e).map (fun t => (t.1, t.2.1, (t.2.2.c : Fl R))) = cellNS_i2_3 (K := Fl R) (e.map fun x => (x.c : Fl R)) := rfl
private theorem cellNS_i2_3_d (e : CellNSEnv (Gr R s f ε)) : (cellNS_i2_3 e).map (fun t => (t.1, t.2.1, (t.2.2.d : Fl R))) = cellNS_i2_3 (K := Fl R) (e.map fun x => (x.d : Fl R)) := rfl
private theorem cellNS_i2_3_n {a b : CellNSEnv ℝ} (h : CellNSEnv.Graded s f ε a b) : (cellNS_i2_3 (gr (R := R) h)).map (fun t => (t.1 % 5, t.2.1 % 5, t.2.2.cnt)) = (cellNS_i2_3 cnt).map (fun t => (t.1 % 5, t.2.1 % 5, t.2.2)) := by
  simp only [cellNS_i2_3, List.map_cons, List.map_nil, Int.mul_add_emod_self_right]
  rfl
private theorem cellNS_i2_3_b : (cellNS_i2_3 cnt).all (fun t => t.2.2.ok && t.2.2.g.same (entryDg (t.1 % 5) (t.2.1 % 5))) = true := by decide +kernel
private theorem cellNS_i2_4_c (e : CellNSEnv (Gr R s f ε)) : (cellNS_i2_4 e).map (fun t => (t.1, t.2.1, (t.2.2.c : Fl R))) = cellNS_i2_4 (K := Fl R) (e.map fun x => (x.c : Fl R)) := rfl
private theorem cellNS_i2_4_d (e : CellNSEnv (Gr R s f ε)) : (cellNS_i2_4 e).map (fun t => (t.1, t.2.1, (t.2.2.d : Fl R))) = cellNS_i2_4 (K := Fl R) (e.map fun x => (x.d : Fl R)) := rfl
private theorem cellNS_i2_4_n {a b : CellNSEnv ℝ} (h : CellNSEnv.Graded s f ε a b) : (cellNS_i2_4 (gr (R := R) h)).map (fun t => (t.1 % 5, t.2.1 % 5, t.2.2.cnt)) = (cellNS_i2_4 cnt).map (fun t => (t.1 % 5, t.2.1 % 5, t.2.2)) := by
  simp only [cellNS_i2_4, List.map_cons, List.map_nil, Int.mul_add_emod_self_right]
  rfl
private theorem cellNS_i2_4_b : (cellNS_i2_4 cnt).all (fun t => t.2.2.ok && t.2.2.g.same (entryDg (t.1 % 5) (t.2.1 % 5))) = true := by decide +kernel
private theorem cellNS_i3_2_c (e : CellNSEnv (Gr R s f ε)) : (cellNS_i3_2 e).map (fun t => (t.1, t.2.1, (t.2.2.c : Fl R))) = cellNS_i3_2 (K := Fl R) (e.map fun x => (x.c : Fl R)) := rfl
private theorem cellNS_i3_2_d (e : CellNSEnv (Gr R s f ε)) : (cellNS_i3_2 e).map (fun t => (t.1, t.2.1, (t.2.2.d : Fl R))) = cellNS_i3_2 (K := Fl R) (e.map fun x => (x.d : Fl R)) := rfl
private theorem cellNS_i3_2_n {a b : CellNSEnv ℝ} (h : CellNSEnv.Graded s f ε a b) : (cellNS_i3_2 (gr (R := R) h)).map (fun t => (t.1 % 5, t.2.1 % 5, t.2.2.cnt)) = (cellNS_i3_2 cnt).map (fun t => (t.1 % 5, t.2.1 % 5, t.2.2)) := by
  simp only [cellNS_i3_2, List.map_cons, List.map_nil, Int.mul_add_emod_self_right]
  rfl
private theorem cellNS_i3_2_b : (cellNS_i3_2 cnt).all (fun t => t.2.2.ok && t.2.2.g.same (entryDg (t.1 % 5) (t.2.1 % 5))) = true := by decide +kernel
private theorem cellNS_i3_3_c (e : CellNSEnv (Gr R s f ε)) : (cellNS_i3_3 e).map (fun t => (t.1, t.2.1, (t.2.2.c : Fl R))) = cellNS_i3_3 (K := Fl R) (e.map fun x => (x.c : Fl R)) := rfl
private theorem cellNS_i3_3_d (e : CellNSEnv (Gr R s f ε)) : (cellNS_i3_3 e).map (fun t => (t.1, t.2.1, (t.2.2.d : Fl R))) = cellNS_i3_3 (K := Fl R) (e.map fun x => (x.d : Fl R)) := rfl
private theorem cellNS_i3_3_n {a b : CellNSEnv ℝ} (h : CellNSEnv.Graded s f ε a b) : (cellNS_i3_3 (gr (R := R) h)).map (fun t => (t.1 % 5, t.2.1 % 5, t.2.2.cnt)) = (cellNS_i3_3 cnt).map (fun t => (t.1 % 5, t.2.1 % 5, t.2.2)) := by
  simp only [cellNS_i3_3, List.map_cons, List.map_nil, Int.mul_add_emod_self_right]
  rfl
private theorem cellNS_i3_3_b : (cellNS_i3_3 cnt).all (fun t => t.2.2.ok && t.2.2.g.same (entryDg (t.1 % 5) (t.2.1 % 5))) = true := by decide +kernel
private theorem cellNS_i3_4_c (e : CellNSEnv (Gr R s f ε)) : (cellNS_i3_4 e).map (fun t => (t.1, t.2.1, (t.2.2.c : Fl R))) = cellNS_i3_4 (K := Fl R) (e.map fun x => (x.c : Fl R)) := rfl
private theorem cellNS_i3_4_d (e : CellNSEnv (Gr R s f ε)) : (cellNS_i3_4 e).map (fun t => (t.1, t.2.1, (t.2.2.d : Fl R))) = cellNS_i3_4 (K := Fl R) (e.map fun x => (x.d : Fl R)) := rfl
private theorem cellNS_i3_4_n {a b : CellNSEnv ℝ} (h : CellNSEnv.Graded s f ε a b) : (cellNS_i3_4 (gr (R := R) h)).map (fun t => (t.1 % 5, t.2.1 % 5, t.2.2.cnt)) = (cellNS_i3_4 cnt).map (fun t => (t.1 % 5, t.2.1 % 5, t.2.2)) := by
  simp only [cellNS_i3_4, List.map_cons, List.map_nil, Int.mul_add_emod_self_right]
  rfl
private theorem cellNS_i3_4_b : (cellNS_i3_4 cnt).all (fun t => t.2.2.ok && t.2.2.g.same (entryDg (t.1 % 5) (t.2.1 % 5))) = true := by decide +kernel

private theorem cellNSEntries_c (e : CellNSEnv (Gr R s f ε)) : (cellNSEntries e).map (fun t => (t.1, t.2.1, (t.2.2.c : Fl R))) = cellNSEntries (K := Fl R) (e.map fun x => (x.c : Fl R)) := by
  unfold cellNSEntries
  simp only [List.map_append, cellNS_i1_2_c, cellNS_i1_3_c, cellNS_i1_4_c, cellNS_i2_2_c, cellNS_i2_3_c, cellNS_i2_4_c, cellNS_i3_2_c, cellNS_i3_3_c, cellNS_i3_4_c]

private theorem cellNSEntries_d (e : CellNSEnv (Gr R s f ε)) : (cellNSEntries e).map (fun t => (t.1, t.2.1, (t.2.2.d : Fl R))) = cellNSEntries (K := Fl R) (e.map fun x => (x.d : Fl R)) := by
  unfold cellNSEntries
  simp only [List.map_append, cellNS_i1_2_d, cellNS_i1_3_d, cellNS_i1_4_d, cellNS_i2_2_d, cellNS_i2_3_d, cellNS_i2_4_d, cellNS_i3_2_d, cellNS_i3_3_d, cellNS_i3_4_d]

/-- the increments in the other units -/
theorem cellNSEntries_graded {a b : CellNSEnv ℝ} (h : CellNSEnv.Graded s f ε a b) :
    ∃ L : List (ℤ × ℤ × Gr R s f ε), L.map (fun t => (t.1, t.2.1, (t.2.2.c : Fl R))) = cellNSEntries (K := Fl R) a ∧
      L.map (fun t => (t.1, t.2.1, (t.2.2.d : Fl R))) = cellNSEntries (K := Fl R) b ∧ ∀ t ∈ L, Gd s f ε (entryDg (t.1 % 5) (t.2.1 % 5)) t.2.2.c t.2.2.d := by
  refine ⟨cellNSEntries (gr (R := R) h), ?_, ?_, ?_⟩
  · rw [cellNSEntries_c]; rfl
  · rw [cellNSEntries_d]; congr 1; obtain ⟨⟩ := a; obtain ⟨⟩ := b
    obtain rfl := h.i1
    obtain rfl := h.i2
    obtain rfl := h.i3
    rfl
  · intro t ht
    unfold cellNSEntries at ht
    simp only [List.mem_append] at ht
    rcases ht with (((((((h1 | h1) | h1) | h1) | h1) | h1) | h1) | h1) | h1
    · exact Gr.of_cnt (cellNS_i1_2_n h) cellNS_i1_2_b h1
    · exact Gr.of_cnt (cellNS_i1_3_n h) cellNS_i1_3_b h1
    · exact Gr.of_cnt (cellNS_i1_4_n h) cellNS_i1_4_b h1
    · exact Gr.of_cnt (cellNS_i2_2_n h) cellNS_i2_2_b h1
    · exact Gr.of_cnt (cellNS_i2_3_n h) cellNS_i2_3_b h1
    · exact Gr.of_cnt (cellNS_i2_4_n h) cellNS_i2_4_b h1
    · exact Gr.of_cnt (cellNS_i3_2_n h) cellNS_i3_2_b h1
    · exact Gr.of_cnt (cellNS_i3_3_n h) cellNS_i3_3_b h1
    · exact Gr.of_cnt (cellNS_i3_4_n h) cellNS_i3_4_b h1

end Meshless
