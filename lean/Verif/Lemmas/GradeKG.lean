import Verif.Model.Gen.Map
import Verif.Lemmas.Graded

/-! GENERATED by /verif/tools/gengrade.py: the units of the increments of Model/Gen/KG.lean, group by group. -/

set_option autoImplicit false
set_option maxRecDepth 10000

namespace Meshless

variable {R : Rounding} {s f ε : ℝ} [Grading R s f ε]

/-- the same row and column numbers; the data in the other units -/
structure KGEnv.Graded (s f ε : ℝ) (a b : KGEnv ℝ) : Prop where
  i1 : b.i1 = a.i1
  i2 : b.i2 = a.i2
  i3 : b.i3 = a.i3
  i4 : b.i4 = a.i4
  Ac : Gd s f ε Dg.A a.Ac b.Ac
  Nxx : Gd s f ε Dg.P a.Nxx b.Nxx
  Nxy : Gd s f ε Dg.P a.Nxy b.Nxy
  Nyy : Gd s f ε Dg.P a.Nyy b.Nyy
  f11 : Gd s f ε 1 a.f11 b.f11
  f12 : Gd s f ε 1 a.f12 b.f12
  f13 : Gd s f ε 1 a.f13 b.f13
  f14 : Gd s f ε 1 a.f14 b.f14
  f21 : Gd s f ε 1 a.f21 b.f21
  f22 : Gd s f ε 1 a.f22 b.f22
  f23 : Gd s f ε 1 a.f23 b.f23
  f24 : Gd s f ε 1 a.f24 b.f24
  f31 : Gd s f ε 1 a.f31 b.f31
  f32 : Gd s f ε 1 a.f32 b.f32
  f33 : Gd s f ε 1 a.f33 b.f33
  f34 : Gd s f ε 1 a.f34 b.f34
  f41 : Gd s f ε 1 a.f41 b.f41
  f42 : Gd s f ε 1 a.f42 b.f42
  f43 : Gd s f ε 1 a.f43 b.f43
  f44 : Gd s f ε 1 a.f44 b.f44
  le1 : Gd s f ε Dg.L a.le1 b.le1
  le2 : Gd s f ε Dg.L a.le2 b.le2
  le3 : Gd s f ε Dg.L a.le3 b.le3
  le4 : Gd s f ε Dg.L a.le4 b.le4
  nx1 : Gd s f ε Dg.N a.nx1 b.nx1
  nx2 : Gd s f ε Dg.N a.nx2 b.nx2
  nx3 : Gd s f ε Dg.N a.nx3 b.nx3
  nx4 : Gd s f ε Dg.N a.nx4 b.nx4
  ny1 : Gd s f ε Dg.N a.ny1 b.ny1
  ny2 : Gd s f ε Dg.N a.ny2 b.ny2
  ny3 : Gd s f ε Dg.N a.ny3 b.ny3
  ny4 : Gd s f ε Dg.N a.ny4 b.ny4

private def gr {a b : KGEnv ℝ} (h : KGEnv.Graded s f ε a b) : KGEnv (Gr R s f ε) where
  i1 := a.i1
  i2 := a.i2
  i3 := a.i3
  i4 := a.i4
  Ac := Gr.of Dg.A h.Ac
  Nxx := Gr.of Dg.P h.Nxx
  Nxy := Gr.of Dg.P h.Nxy
  Nyy := Gr.of Dg.P h.Nyy
  f11 := Gr.of 1 h.f11
  f12 := Gr.of 1 h.f12
  f13 := Gr.of 1 h.f13
  f14 := Gr.of 1 h.f14
  f21 := Gr.of 1 h.f21
  f22 := Gr.of 1 h.f22
  f23 := Gr.of 1 h.f23
  f24 := Gr.of 1 h.f24
  f31 := Gr.of 1 h.f31
  f32 := Gr.of 1 h.f32
  f33 := Gr.of 1 h.f33
  f34 := Gr.of 1 h.f34
  f41 := Gr.of 1 h.f41
  f42 := Gr.of 1 h.f42
  f43 := Gr.of 1 h.f43
  f44 := Gr.of 1 h.f44
  le1 := Gr.of Dg.L h.le1
  le2 := Gr.of Dg.L h.le2
  le3 := Gr.of Dg.L h.le3
  le4 := Gr.of Dg.L h.le4
  nx1 := Gr.of Dg.N h.nx1
  nx2 := Gr.of Dg.N h.nx2
  nx3 := Gr.of Dg.N h.nx3
  nx4 := Gr.of Dg.N h.nx4
  ny1 := Gr.of Dg.N h.ny1
  ny2 := Gr.of Dg.N h.ny2
  ny3 := Gr.of Dg.N h.ny3
  ny4 := Gr.of Dg.N h.ny4

private def cnt : KGEnv Gr.Cnt := { i1 := 0, i2 := 0, i3 := 0, i4 := 0, Ac := ⟨Dg.A, true⟩, Nxx := ⟨Dg.P, true⟩, Nxy := ⟨Dg.P, true⟩, Nyy := ⟨Dg.P, true⟩, f11 := ⟨1, true⟩, f12 := ⟨1, true⟩, f13 := ⟨1, true⟩, f14 := ⟨1, true⟩, f21 := ⟨1, true⟩, f22 := ⟨1, true⟩, f23 := ⟨1, true⟩, f24 := ⟨1, true⟩, f31 := ⟨1, true⟩, f32 := ⟨1, true⟩, f33 := ⟨1, true⟩, f34 := ⟨1, true⟩, f41 := ⟨1, true⟩, f42 := ⟨1, true⟩, f43 := ⟨1, true⟩, f44 := ⟨1, true⟩, le1 := ⟨Dg.L, true⟩, le2 := ⟨Dg.L, true⟩, le3 := ⟨Dg.L, true⟩, le4 := ⟨Dg.L, true⟩, nx1 := ⟨Dg.N, true⟩, nx2 := ⟨Dg.N, true⟩, nx3 := ⟨Dg.N, true⟩, nx4 := ⟨Dg.N, true⟩, ny1 := ⟨Dg.N, true⟩, ny2 := ⟨Dg.N, true⟩, ny3 := ⟨Dg.N, true⟩, ny4 := ⟨Dg.N, true⟩ }

private theorem kG_i1_2_c (e : KGEnv (Gr R s f ε)) : (kG_i1_2 e).map (fun t => (t.1, t.2.1, (t.2.2.c : Fl R))) = kG_i1_2 (K := Fl R) (e.map fun x => (x.c : Fl R)) := rfl
private theorem kG_i1_2_d (e : KGEnv (Gr R s f ε)) : (kG_i1_2 e).map (fun t => (t.1, t.2.1, (t.2.2.d : Fl R))) = kG_i1_2 (K := Fl R) (e.map fun x => (x.d : Fl R)) := rfl
private theorem kG_i1_2_n {a b : KGEnv ℝ} (h : KGEnv.Graded s f ε a b) : (kG_i1_2 (gr (R := R) h)).map (fun t => (t.1 % 5, t.2.1 % 5, t.2.2.cnt)) = (kG_i1_2 cnt).map (fun t => (t.1 % 5, t.2.1 % 5, t.2.2)) := by
  simp only [kG_i1_2, List.map_cons, List.map_nil, Int.mul_add_emod_self_right]
  rfl
private theorem kG_i1_2_b : (kG_i1_2 cnt).all (fun t => t.2.2.ok && t.2.2.g.same (entryDg (t.1 % 5) (t.2.1 % 5))) = true := by decide +kernel
private theorem kG_i2_2_c (e : KGEnv (Gr R s f ε)) : (kG_i2_2 e).map (fun t => (t.1, t.2.1, (t.2.2.c : Fl R))) = kG_i2_2 (K := Fl R) (e.map fun x => (x.c : Fl R)) := rfl
private theorem kG_i2_2_d (e : KGEnv (Gr R s f ε)) : (kG_i2_2 e).map (fun t => (t.1, t.2.1, (t.2.2.d : Fl R))) = kG_i2_2 (K := Fl R) (e.map fun x => (x.d : Fl R)) := rfl
private theorem kG_i2_2_n {a b : KGEnv ℝ} (h : KGEnv.Graded s f ε a b) : (kG_i2_2 (gr (R := R) h)).map (fun t => (t.1 % 5, t.2.1 % 5, t.2.2.cnt)) = (kG_i2_2 cnt).map (fun t => (t.1 % 5, t.2.1 % 5, t.2.2)) := by
  simp only [kG_i2_2, List.map_cons, List.map_nil, Int.mul_add_emod_self_right]
  rfl
private theorem kG_i2_2_b : (kG_i2_2 cnt).all (fun t => t.2.2.ok && t.2.2.g.same (entryDg (t.1 % 5) (t.2.1 % 5))) = true := by decide +kernel
private theorem kG_i3_2_c (e : KGEnv (Gr R s f ε)) : (kG_i3_2 e).map (fun t => (t.1, t.2.1, (t.2.2.c : Fl R))) = kG_i3_2 (K := Fl R) (e.map fun x => (x.c : Fl R)) := rfl
private theorem kG_i3_2_d (e : KGEnv (Gr R s f ε)) : (kG_i3_2 e).map (fun t => (t.1, t.2.1, (t.2.2.d : Fl R))) = kG_i3_2 (K := Fl R) (e.map fun x => (x.d : Fl R)) := rfl
private theorem kG_i3_2_n {a b : KGEnv ℝ} (h : KGEnv.Graded s f ε a b) : (kG_i3_2 (gr (R := R) h)).map (fun t => (t.1 % 5, t.2.1 % 5, t.2.2.cnt)) = (kG_i3_2 cnt).map (fun t => (t.1 % 5, t.2.1 % 5, t.2.2)) := by
  simp only [kG_i3_2, List.map_cons, List.map_nil, Int.mul_add_emod_self_right]
  rfl
private theorem kG_i3_2_b : (kG_i3_2 cnt).all (fun t => t.2.2.ok && t.2.2.g.same (entryDg (t.1 % 5) (t.2.1 % 5))) = true := by decide +kernel
private theorem kG_i4_2_c (e : KGEnv (Gr R s f ε)) : (kG_i4_2 e).map (fun t => (t.1, t.2.1, (t.2.2.c : Fl R))) = kG_i4_2 (K := Fl R) (e.map fun x => (x.c : Fl R)) := rfl
private theorem kG_i4_2_d (e : KGEnv (Gr R s f ε)) : (kG_i4_2 e).map (fun t => (t.1, t.2.1, (t.2.2.d : Fl R))) = kG_i4_2 (K := Fl R) (e.map fun x => (x.d : Fl R)) := rfl
private theorem kG_i4_2_n {a b : KGEnv ℝ} (h : KGEnv.Graded s f ε a b) : (kG_i4_2 (gr (R := R) h)).map (fun t => (t.1 % 5, t.2.1 % 5, t.2.2.cnt)) = (kG_i4_2 cnt).map (fun t => (t.1 % 5, t.2.1 % 5, t.2.2)) := by
  simp only [kG_i4_2, List.map_cons, List.map_nil, Int.mul_add_emod_self_right]
  rfl
private theorem kG_i4_2_b : (kG_i4_2 cnt).all (fun t => t.2.2.ok && t.2.2.g.same (entryDg (t.1 % 5) (t.2.1 % 5))) = true := by decide +kernel

private theorem kGEntries_c (e : KGEnv (Gr R s f ε)) : (kGEntries e).map (fun t => (t.1, t.2.1, (t.2.2.c : Fl R))) = kGEntries (K := Fl R) (e.map fun x => (x.c : Fl R)) := by
  unfold kGEntries
  simp only [List.map_append, kG_i1_2_c, kG_i2_2_c, kG_i3_2_c, kG_i4_2_c]

private theorem kGEntries_d (e : KGEnv (Gr R s f ε)) : (kGEntries e).map (fun t => (t.1, t.2.1, (t.2.2.d : Fl R))) = kGEntries (K := Fl R) (e.map fun x => (x.d : Fl R)) := by
  unfold kGEntries
  simp only [List.map_append, kG_i1_2_d, kG_i2_2_d, kG_i3_2_d, kG_i4_2_d]

/-- the increments in the other units -/
theorem kGEntries_graded {a b : KGEnv ℝ} (h : KGEnv.Graded s f ε a b) :
    ∃ L : List (ℤ × ℤ × Gr R s f ε), L.map (fun t => (t.1, t.2.1, (t.2.2.c : Fl R))) = kGEntries (K := Fl R) a ∧
      L.map (fun t => (t.1, t.2.1, (t.2.2.d : Fl R))) = kGEntries (K := Fl R) b ∧ ∀ t ∈ L, Gd s f ε (entryDg (t.1 % 5) (t.2.1 % 5)) t.2.2.c t.2.2.d := by
  refine ⟨kGEntries (gr (R := R) h), ?_, ?_, ?_⟩
  · rw [kGEntries_c]; rfl
  · rw [kGEntries_d]; congr 1; obtain ⟨⟩ := a; obtain ⟨⟩ := b
    obtain rfl := h.i1
    obtain rfl := h.i2
    obtain rfl := h.i3
    obtain rfl := h.i4
    rfl
  · intro t ht
    unfold kGEntries at ht
    simp only [List.mem_append] at ht
    rcases ht with ((h1 | h1) | h1) | h1
    · exact Gr.of_cnt (kG_i1_2_n h) kG_i1_2_b h1
    · exact Gr.of_cnt (kG_i2_2_n h) kG_i2_2_b h1
    · exact Gr.of_cnt (kG_i3_2_n h) kG_i3_2_b h1
    · exact Gr.of_cnt (kG_i4_2_n h) kG_i4_2_b h1

end Meshless
