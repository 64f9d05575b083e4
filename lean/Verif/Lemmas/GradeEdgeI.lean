import Verif.Model.Gen.Map
import Verif.Lemmas.Graded

/-! GENERATED by /verif/tools/gengrade.py: the units of the increments of Model/Gen/EdgeI.lean, group by group. -/

set_option autoImplicit false
set_option maxRecDepth 10000

namespace Meshless

variable {R : Rounding} {s f ε : ℝ} [Grading R s f ε]

/-- the same row and column numbers; the data in the other units -/
structure EdgeIEnv.Graded (s f ε : ℝ) (a b : EdgeIEnv ℝ) : Prop where
  i1 : b.i1 = a.i1
  i2 : b.i2 = a.i2
  i3 : b.i3 = a.i3
  i4 : b.i4 = a.i4
  Ac : Gd s f ε Dg.A a.Ac b.Ac
  Ac1 : Gd s f ε Dg.A a.Ac1 b.Ac1
  Ac2 : Gd s f ε Dg.A a.Ac2 b.Ac2
  E44 : Gd s f ε Dg.P a.E44 b.E44
  E45 : Gd s f ε Dg.P a.E45 b.E45
  E55 : Gd s f ε Dg.P a.E55 b.E55
  a1 : Gd s f ε Dg.L a.a1 b.a1
  b1 : Gd s f ε Dg.L a.b1 b.b1
  c1 : Gd s f ε Dg.L a.c1 b.c1
  d1 : Gd s f ε Dg.L a.d1 b.d1
  a2 : Gd s f ε Dg.L a.a2 b.a2
  b2 : Gd s f ε Dg.L a.b2 b.b2
  c2 : Gd s f ε Dg.L a.c2 b.c2
  d2 : Gd s f ε Dg.L a.d2 b.d2

private def gr {a b : EdgeIEnv ℝ} (h : EdgeIEnv.Graded s f ε a b) : EdgeIEnv (Gr R s f ε) where
  i1 := a.i1
  i2 := a.i2
  i3 := a.i3
  i4 := a.i4
  Ac := Gr.of Dg.A h.Ac
  Ac1 := Gr.of Dg.A h.Ac1
  Ac2 := Gr.of Dg.A h.Ac2
  E44 := Gr.of Dg.P h.E44
  E45 := Gr.of Dg.P h.E45
  E55 := Gr.of Dg.P h.E55
  a1 := Gr.of Dg.L h.a1
  b1 := Gr.of Dg.L h.b1
  c1 := Gr.of Dg.L h.c1
  d1 := Gr.of Dg.L h.d1
  a2 := Gr.of Dg.L h.a2
  b2 := Gr.of Dg.L h.b2
  c2 := Gr.of Dg.L h.c2
  d2 := Gr.of Dg.L h.d2

private def cnt : EdgeIEnv Gr.Cnt := { i1 := 0, i2 := 0, i3 := 0, i4 := 0, Ac := ⟨Dg.A, true⟩, Ac1 := ⟨Dg.A, true⟩, Ac2 := ⟨Dg.A, true⟩, E44 := ⟨Dg.P, true⟩, E45 := ⟨Dg.P, true⟩, E55 := ⟨Dg.P, true⟩, a1 := ⟨Dg.L, true⟩, b1 := ⟨Dg.L, true⟩, c1 := ⟨Dg.L, true⟩, d1 := ⟨Dg.L, true⟩, a2 := ⟨Dg.L, true⟩, b2 := ⟨Dg.L, true⟩, c2 := ⟨Dg.L, true⟩, d2 := ⟨Dg.L, true⟩ }

private theorem edgeI_i1_2_c (e : EdgeIEnv (Gr R s f ε)) : (edgeI_i1_2 e).map (fun t => (t.1, t.2.1, (t.2.2.c : Fl R))) = edgeI_i1_2 (K := Fl R) (e.map fun x => (x.c : Fl R)) := rfl
private theorem edgeI_i1_2_d (e : EdgeIEnv (Gr R s f ε)) : (edgeI_i1_2 e).map (fun t => (t.1, t.2.1, (t.2.2.d : Fl R))) = edgeI_i1_2 (K := Fl R) (e.map fun x => (x.d : Fl R)) := rfl
private theorem edgeI_i1_2_n {a b : EdgeIEnv ℝ} (h : EdgeIEnv.Graded s f ε a b) : (edgeI_i1_2 (gr (R := R) h)).map (fun t => (t.1 % 5, t.2.1 % 5, t.2.2.cnt)) = (edgeI_i1_2 cnt).map (fun t => (t.1 % 5, t.2.1 % 5, t.2.2)) := by
  simp only [edgeI_i1_2, List.map_cons, List.map_nil, Int.mul_add_emod_self_right]
  rfl
private theorem edgeI_i1_2_b : (edgeI_i1_2 cnt).all (fun t => t.2.2.ok && t.2.2.g.same (entryDg' (t.1 % 5) (t.2.1 % 5))) = true := by decide +kernel
private theorem edgeI_i1_3_c (e : EdgeIEnv (Gr R s f ε)) : (edgeI_i1_3 e).map (fun t => (t.1, t.2.1, (t.2.2.c : Fl R))) = edgeI_i1_3 (K := Fl R) (e.map fun x => (x.c : Fl R)) := rfl
private theorem edgeI_i1_3_d (e : EdgeIEnv (Gr R s f ε)) : (edgeI_i1_3 e).map (fun t => (t.1, t.2.1, (t.2.2.d : Fl R))) = edgeI_i1_3 (K := Fl R) (e.map fun x => (x.d : Fl R)) := rfl
private theorem edgeI_i1_3_n {a b : EdgeIEnv ℝ} (h : EdgeIEnv.Graded s f ε a b) : (edgeI_i1_3 (gr (R := R) h)).map (fun t => (t.1 % 5, t.2.1 % 5, t.2.2.cnt)) = (edgeI_i1_3 cnt).map (fun t => (t.1 % 5, t.2.1 % 5, t.2.2)) := by
  simp only [edgeI_i1_3, List.map_cons, List.map_nil, Int.mul_add_emod_self_right]
  rfl
private theorem edgeI_i1_3_b : (edgeI_i1_3 cnt).all (fun t => t.2.2.ok && t.2.2.g.same (entryDg' (t.1 % 5) (t.2.1 % 5))) = true := by decide +kernel
private theorem edgeI_i1_4_c (e : EdgeIEnv (Gr R s f ε)) : (edgeI_i1_4 e).map (fun t => (t.1, t.2.1, (t.2.2.c : Fl R))) = edgeI_i1_4 (K := Fl R) (e.map fun x => (x.c : Fl R)) := rfl
private theorem edgeI_i1_4_d (e : EdgeIEnv (Gr R s f ε)) : (edgeI_i1_4 e).map (fun t => (t.1, t.2.1, (t.2.2.d : Fl R))) = edgeI_i1_4 (K := Fl R) (e.map fun x => (x.d : Fl R)) := rfl
private theorem edgeI_i1_4_n {a b : EdgeIEnv ℝ} (h : EdgeIEnv.Graded s f ε a b) : (edgeI_i1_4 (gr (R := R) h)).map (fun t => (t.1 % 5, t.2.1 % 5, t.2.2.cnt)) = (edgeI_i1_4 cnt).map (fun t => (t.1 % 5, t.2.1 % 5, t.2.2)) := by
  simp only [edgeI_i1_4, List.map_cons, List.map_nil, Int.mul_add_emod_self_right]
  rfl
private theorem edgeI_i1_4_b : (edgeI_i1_4 cnt).all (fun t => t.2.2.ok && t.2.2.g.same (entryDg' (t.1 % 5) (t.2.1 % 5))) = true := by decide +kernel
private theorem edgeI_i2_2_c (e : EdgeIEnv (Gr R s f ε)) : (edgeI_i2_2 e).map (fun t => (t.1, t.2.1, (t.2.2.c : Fl R))) = edgeI_i2_2 (K := Fl R) (e.map fun x => (x.c : Fl R)) := rfl
private theorem edgeI_i2_2_d (e : EdgeIEnv (Gr R s f ε)) : (edgeI_i2_2 e).map (fun t => (t.1, t.2.1, (t.2.2.d : Fl R))) = edgeI_i2_2 (K := Fl R) (e.map fun x => (x.d : Fl R)) := rfl
private theorem edgeI_i2_2_n {a b : EdgeIEnv ℝ} (h : EdgeIEnv.Graded s f ε a b) : (edgeI_i2_2 (gr (R := R) h)).map (fun t => (t.1 % 5, t.2.1 % 5, t.2.2.cnt)) = (edgeI_i2_2 cnt).map (fun t => (t.1 % 5, t.2.1 % 5, t.2.2)) := by
  simp only [edgeI_i2_2, List.map_cons, List.map_nil, Int.mul_add_emod_self_right]
  rfl
private theorem edgeI_i2_2_b : (edgeI_i2_2 cnt).all (fun t => t.2.2.ok && t.2.2.g.same (entryDg' (t.1 % 5) (t.2.1 % 5))) = true := by decide +kernel
private theorem edgeI_i2_3_c (e : EdgeIEnv (Gr R s f ε)) : (edgeI_i2_3 e).map (fun t => (t.1, t.2.1, (t.2.2.c : Fl R))) = edgeI_i2_3 (K := Fl R) (e.map fun x => (x.c : Fl R)) := rfl
private theorem edgeI_i2_3_d (e : EdgeIEnv (Gr R s f ε)) : (edgeI_i2_3 e).map (fun t => (t.1, t.2.1, (t.2.2.d : Fl R))) = edgeI_i2_3 (K := Fl R) (e.map fun x => (x.d : Fl R)) := rfl
private theorem edgeI_i2_3_n {a b : EdgeIEnv ℝ} (h : EdgeIEnv.Graded s f ε a b) : (edgeI_i2_3 (gr (R := R) h)).map (fun t => (t.1 % 5, t.2.1 % 5, t.2.2.cnt)) = (edgeI_i2_3 cnt).map (fun t => (t.1 % 5, t.2.1 % 5, t.2.2)) := by
  simp only [edgeI_i2_3, List.map_cons, List.map_nil, Int.mul_add_emod_self_right]
  rfl
private theorem edgeI_i2_3_b : (edgeI_i2_3 cnt).all (fun t => t.2.2.ok && t.2.2.g.same (entryDg' (t.1 % 5) (t.2.1 % 5))) = true := by decide +kernel
private theorem edgeI_i2_4_c (e : EdgeIEnv (Gr R s f ε)) : (edgeI_i2_4 e).map (fun t => (t.1, t.2.1, (t.2.2.c : Fl R))) = edgeI_i2_4 (K := Fl R) (e.map fun x => (x.c : Fl R)) := rfl
private theorem edgeI_i2_4_d (e : EdgeIEnv (Gr R s f ε)) : (edgeI_i2_4 e).map (fun t => (t.1, t.2.1, (t.2.2.d : Fl R))) = edgeI_i2_4 (K := Fl R) (e.map fun x => (x.d : Fl R)) := rfl
private theorem edgeI_i2_4_n {a b : EdgeIEnv ℝ} (h : EdgeIEnv.Graded s f ε a b) : (edgeI_i2_4 (gr (R := R) h)).map (fun t => (t.1 % 5, t.2.1 % 5, t.2.2.cnt)) = (edgeI_i2_4 cnt).map (fun t => (t.1 % 5, t.2.1 % 5, t.2.2)) := by
  simp only [edgeI_i2_4, List.map_cons, List.map_nil, Int.mul_add_emod_self_right]
  rfl
private theorem edgeI_i2_4_b : (edgeI_i2_4 cnt).all (fun t => t.2.2.ok && t.2.2.g.same (entryDg' (t.1 % 5) (t.2.1 % 5))) = true := by decide +kernel
private theorem edgeI_i3_2_c (e : EdgeIEnv (Gr R s f ε)) : (edgeI_i3_2 e).map (fun t => (t.1, t.2.1, (t.2.2.c : Fl R))) = edgeI_i3_2 (K := Fl R) (e.map fun x => (x.c : Fl R)) := rfl
private theorem edgeI_i3_2_d (e : EdgeIEnv (Gr R s f ε)) : (edgeI_i3_2 e).map (fun t => (t.1, t.2.1, (t.2.2.d : Fl R))) = edgeI_i3_2 (K := Fl R) (e.map fun x => (x.d : Fl R)) := rfl
private theorem edgeI_i3_2_n {a b : EdgeIEnv ℝ} (h : EdgeIEnv.Graded s f ε a b) : (edgeI_i3_2 (gr (R := R) h)).map (fun t => (t.1 % 5, t.2.1 % 5, t.2.2.cnt)) = (edgeI_i3_2 cnt).map (fun t => (t.1 % 5, t.2.1 % 5, t.2.2)) := by
  simp only [edgeI_i3_2, List.map_cons, List.map_nil, Int.mul_add_emod_self_right]
  rfl
private theorem edgeI_i3_2_b : (edgeI_i3_2 cnt).all (fun t => t.2.2.ok && t.2.2.g.same (entryDg' (t.1 % 5) (t.2.1 % 5))) = true := by decide +kernel
private theorem edgeI_i3_3_c (e : EdgeIEnv (Gr R s f ε)) : (edgeI_i3_3 e).map (fun t => (t.1, t.2.1, (t.2.2.c : Fl R))) = edgeI_i3_3 (K := Fl R) (e.map fun x => (x.c : Fl R)) := rfl
private theorem edgeI_i3_3_d (e : EdgeIEnv (Gr R s f ε)) : (edgeI_i3_3 e).map (fun t => (t.1, t.2.1, (t.2.2.d : Fl R))) = edgeI_i3_3 (K := Fl R) (e.map fun x => (x.d : Fl R)) := rfl
private theorem edgeI_i3_3_n {a b : EdgeIEnv ℝ} (h : EdgeIEnv.Graded s f ε a b) : (edgeI_i3_3 (gr (R := R) h)).map (fun t => (t.1 % 5, t.2.1 % 5, t.2.2.cnt)) = (edgeI_i3_3 cnt).map (fun t => (t.1 % 5, t.2.1 % 5, t.2.2)) := by
  simp only [edgeI_i3_3, List.map_cons, List.map_nil, Int.mul_add_emod_self_right]
  rfl
private theorem edgeI_i3_3_b : (edgeI_i3_3 cnt).all (fun t => t.2.2.ok && t.2.2.g.same (entryDg' (t.1 % 5) (t.2.1 % 5))) = true := by decide +kernel
private theorem edgeI_i3_4_c (e : EdgeIEnv (Gr R s f ε)) : (edgeI_i3_4 e).map (fun t => (t.1, t.2.1, (t.2.2.c : Fl R))) = edgeI_i3_4 (K := Fl R) (e.map fun x => (x.c : Fl R)) := rfl
private theorem edgeI_i3_4_d (e : EdgeIEnv (Gr R s f ε)) : (edgeI_i3_4 e).map (fun t => (t.1, t.2.1, (t.2.2.d : Fl R))) = edgeI_i3_4 (K := Fl R) (e.map fun x => (x.d : Fl R)) := rfl
private theorem edgeI_i3_4_n {a b : EdgeIEnv ℝ} (h : EdgeIEnv.Graded s f ε a b) : (edgeI_i3_4 (gr (R := R) h)).map (fun t => (t.1 % 5, t.2.1 % 5, t.2.2.cnt)) = (edgeI_i3_4 cnt).map (fun t => (t.1 % 5, t.2.1 % 5, t.2.2)) := by
  simp only [edgeI_i3_4, List.map_cons, List.map_nil, Int.mul_add_emod_self_right]
  rfl
private theorem edgeI_i3_4_b : (edgeI_i3_4 cnt).all (fun t => t.2.2.ok && t.2.2.g.same (entryDg' (t.1 % 5) (t.2.1 % 5))) = true := by decide +kernel
private theorem edgeI_i4_2_c (e : EdgeIEnv (Gr R s f ε)) : (edgeI_i4_2 e).map (fun t => (t.1, t.2.1, (t.2.2.c : Fl R))) = edgeI_i4_2 (K := Fl R) (e.map fun x => (x.c : Fl R)) := rfl
private theorem edgeI_i4_2_d (e : EdgeIEnv (Gr R s f ε)) : (edgeI_i4_2 e).map (fun t => (t.1, t.2.1, (t.2.2.d : Fl R))) = edgeI_i4_2 (K := Fl R) (e.map fun x => (x.d : Fl R)) := rfl
private theorem edgeI_i4_2_n {a b : EdgeIEnv ℝ} (h : EdgeIEnv.Graded s f ε a b) : (edgeI_i4_2 (gr (R := R) h)).map (fun t => (t.1 % 5, t.2.1 % 5, t.2.2.cnt)) = (edgeI_i4_2 cnt).map (fun t => (t.1 % 5, t.2.1 % 5, t.2.2)) := by
  simp only [edgeI_i4_2, List.map_cons, List.map_nil, Int.mul_add_emod_self_right]
  rfl
private theorem edgeI_i4_2_b : (edgeI_i4_2 cnt).all (fun t => t.2.2.ok && t.2.2.g.same (entryDg' (t.1 % 5) (t.2.1 % 5))) = true := by decide +kernel
private theorem edgeI_i4_3_c (e : EdgeIEnv (Gr R s f ε)) : (edgeI_i4_3 e).map (fun t => (t.1, t.2.1, (t.2.2.c : Fl R))) = edgeI_i4_3 (K := Fl R) (e.map fun x => (x.c : Fl R)) := rfl
private theorem edgeI_i4_3_d (e : EdgeIEnv (Gr R s f ε)) : (edgeI_i4_3 e).map (fun t => (t.1, t.2.1, (t.2.2.d : Fl R))) = edgeI_i4_3 (K := Fl R) (e.map fun x => (x.d : Fl R)) := rfl
private theorem edgeI_i4_3_n {a b : EdgeIEnv ℝ} (h : EdgeIEnv.Graded s f ε a b) : (edgeI_i4_3 (gr (R := R) h)).map (fun t => (t.1 % 5, t.2.1 % 5, t.2.2.cnt)) = (edgeI_i4_3 cnt).map (fun t => (t.1 % 5, t.2.1 % 5, t.2.2)) := by
  simp only [edgeI_i4_3, List.map_cons, List.map_nil, Int.mul_add_emod_self_right]
  rfl
private theorem edgeI_i4_3_b : (edgeI_i4_3 cnt).all (fun t => t.2.2.ok && t.2.2.g.same (entryDg' (t.1 % 5) (t.2.1 % 5))) = true := by decide +kernel
private theorem edgeI_i4_4_c (e : EdgeIEnv (Gr R s f ε)) : (edgeI_i4_4 e).map (fun t => (t.1, t.2.1, (t.2.2.c : Fl R))) = edgeI_i4_4 (K := Fl R) (e.map fun x => (x.c : Fl R)) := rfl
private theorem edgeI_i4_4_d (e : EdgeIEnv (Gr R s f ε)) : (edgeI_i4_4 e).map (fun t => (t.1, t.2.1, (t.2.2.d : Fl R))) = edgeI_i4_4 (K := Fl R) (e.map fun x => (x.d : Fl R)) := rfl
private theorem edgeI_i4_4_n {a b : EdgeIEnv ℝ} (h : EdgeIEnv.Graded s f ε a b) : (edgeI_i4_4 (gr (R := R) h)).map (fun t => (t.1 % 5, t.2.1 % 5, t.2.2.cnt)) = (edgeI_i4_4 cnt).map (fun t => (t.1 % 5, t.2.1 % 5, t.2.2)) := by
  simp only [edgeI_i4_4, List.map_cons, List.map_nil, Int.mul_add_emod_self_right]
  rfl
private theorem edgeI_i4_4_b : (edgeI_i4_4 cnt).all (fun t => t.2.2.ok && t.2.2.g.same (entryDg' (t.1 % 5) (t.2.1 % 5))) = true := by decide +kernel

private theorem edgeIEntries_c (e : EdgeIEnv (Gr R s f ε)) : (edgeIEntries e).map (fun t => (t.1, t.2.1, (t.2.2.c : Fl R))) = edgeIEntries (K := Fl R) (e.map fun x => (x.c : Fl R)) := by
  unfold edgeIEntries
  simp only [List.map_append, edgeI_i1_2_c, edgeI_i1_3_c, edgeI_i1_4_c, edgeI_i2_2_c, edgeI_i2_3_c, edgeI_i2_4_c, edgeI_i3_2_c, edgeI_i3_3_c, edgeI_i3_4_c, edgeI_i4_2_c, edgeI_i4_3_c, edgeI_i4_4_c]

private theorem edgeIEntries_d (e : EdgeIEnv (Gr R s f ε)) : (edgeIEntries e).map (fun t => (t.1, t.2.1, (t.2.2.d : Fl R))) = edgeIEntries (K := Fl R) (e.map fun x => (x.d : Fl R)) := by
  unfold edgeIEntries
  simp only [List.map_append, edgeI_i1_2_d, edgeI_i1_3_d, edgeI_i1_4_d, edgeI_i2_2_d, edgeI_i2_3_d, edgeI_i2_4_d, edgeI_i3_2_d, edgeI_i3_3_d, edgeI_i3_4_d, edgeI_i4_2_d, edgeI_i4_3_d, edgeI_i4_4_d]

/-- the increments in the other units -/
theorem edgeIEntries_graded {a b : EdgeIEnv ℝ} (h : EdgeIEnv.Graded s f ε a b) :
    ∃ L : List (ℤ × ℤ × Gr R s f ε), L.map (fun t => (t.1, t.2.1, (t.2.2.c : Fl R))) = edgeIEntries (K := Fl R) a ∧
      L.map (fun t => (t.1, t.2.1, (t.2.2.d : Fl R))) = edgeIEntries (K := Fl R) b ∧ ∀ t ∈ L, Gd s f ε (entryDg' (t.1 % 5) (t.2.1 % 5)) t.2.2.c t.2.2.d := by
  refine ⟨edgeIEntries (gr (R := R) h), ?_, ?_, ?_⟩
  · rw [edgeIEntries_c]; rfl
  · rw [edgeIEntries_d]; congr 1; obtain ⟨⟩ := a; obtain ⟨⟩ := b
    obtain rfl := h.i1
    obtain rfl := h.i2
    obtain rfl := h.i3
    obtain rfl := h.i4
    rfl
  · intro t ht
    unfold edgeIEntries at ht
    simp only [List.mem_append] at ht
    rcases ht with ((((((((((h1 | h1) | h1) | h1) | h1) | h1) | h1) | h1) | h1) | h1) | h1) | h1
    · exact Gr.of_cnt (edgeI_i1_2_n h) edgeI_i1_2_b h1
    · exact Gr.of_cnt (edgeI_i1_3_n h) edgeI_i1_3_b h1
    · exact Gr.of_cnt (edgeI_i1_4_n h) edgeI_i1_4_b h1
    · exact Gr.of_cnt (edgeI_i2_2_n h) edgeI_i2_2_b h1
    · exact Gr.of_cnt (edgeI_i2_3_n h) edgeI_i2_3_b h1
    · exact Gr.of_cnt (edgeI_i2_4_n h) edgeI_i2_4_b h1
    · exact Gr.of_cnt (edgeI_i3_2_n h) edgeI_i3_2_b h1
    · exact Gr.of_cnt (edgeI_i3_3_n h) edgeI_i3_3_b h1
    · exact Gr.of_cnt (edgeI_i3_4_n h) edgeI_i3_4_b h1
    · exact Gr.of_cnt (edgeI_i4_2_n h) edgeI_i4_2_b h1
    · exact Gr.of_cnt (edgeI_i4_3_n h) edgeI_i4_3_b h1
    · exact Gr.of_cnt (edgeI_i4_4_n h) edgeI_i4_4_b h1

end Meshless
