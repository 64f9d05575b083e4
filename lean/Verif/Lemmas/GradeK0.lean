import Verif.Model.Gen.Map
import Verif.Lemmas.Graded

/-! GENERATED by /verif/tools/gengrade.py: the units of the increments of Model/Gen/K0.lean, group by group. -/

set_option autoImplicit false
set_option maxRecDepth 10000

namespace Meshless

variable {R : Rounding} {s f ε : ℝ} [Grading R s f ε]

/-- the same row and column numbers; the data in the other units -/
structure K0Env.Graded (s f ε : ℝ) (a b : K0Env ℝ) : Prop where
  i1 : b.i1 = a.i1
  i2 : b.i2 = a.i2
  i3 : b.i3 = a.i3
  i4 : b.i4 = a.i4
  Ac : Gd s f ε Dg.A a.Ac b.Ac
  A11 : Gd s f ε Dg.P a.A11 b.A11
  A12 : Gd s f ε Dg.P a.A12 b.A12
  A16 : Gd s f ε Dg.P a.A16 b.A16
  A22 : Gd s f ε Dg.P a.A22 b.A22
  A26 : Gd s f ε Dg.P a.A26 b.A26
  A66 : Gd s f ε Dg.P a.A66 b.A66
  B11 : Gd s f ε Dg.F a.B11 b.B11
  B12 : Gd s f ε Dg.F a.B12 b.B12
  B16 : Gd s f ε Dg.F a.B16 b.B16
  B22 : Gd s f ε Dg.F a.B22 b.B22
  B26 : Gd s f ε Dg.F a.B26 b.B26
  B66 : Gd s f ε Dg.F a.B66 b.B66
  D11 : Gd s f ε Dg.M a.D11 b.D11
  D12 : Gd s f ε Dg.M a.D12 b.D12
  D16 : Gd s f ε Dg.M a.D16 b.D16
  D22 : Gd s f ε Dg.M a.D22 b.D22
  D26 : Gd s f ε Dg.M a.D26 b.D26
  D66 : Gd s f ε Dg.M a.D66 b.D66
  f11 : Gd s f ε 1 a.f11 b.f11
  f12 : Gd s f ε 1 a.f12 b.f12
  f13 : Gd s f ε 1 a.f13 b.f13
  f14 : Gd s f ε 1 a.f14 b.f14
  f21 : Gd s f ε 1 a.f21 b.f21
  f22 : Gd s f ε 1 a.f22 b.f22
  f23 : Gd s f ε 1 a.f23 b.f23
  f24 : Gd s f ε 1 a.f24 b.f24
  f31 : Gd s f ε 1 a.f31 b.f31
  f32 : Gd s f ε 1 a.f32 b.f32
  f33 : Gd s f ε 1 a.f33 b.f33
  f34 : Gd s f ε 1 a.f34 b.f34
  f41 : Gd s f ε 1 a.f41 b.f41
  f42 : Gd s f ε 1 a.f42 b.f42
  f43 : Gd s f ε 1 a.f43 b.f43
  f44 : Gd s f ε 1 a.f44 b.f44
  le1 : Gd s f ε Dg.L a.le1 b.le1
  le2 : Gd s f ε Dg.L a.le2 b.le2
  le3 : Gd s f ε Dg.L a.le3 b.le3
  le4 : Gd s f ε Dg.L a.le4 b.le4
  nx1 : Gd s f ε Dg.N a.nx1 b.nx1
  nx2 : Gd s f ε Dg.N a.nx2 b.nx2
  nx3 : Gd s f ε Dg.N a.nx3 b.nx3
  nx4 : Gd s f ε Dg.N a.nx4 b.nx4
  ny1 : Gd s f ε Dg.N a.ny1 b.ny1
  ny2 : Gd s f ε Dg.N a.ny2 b.ny2
  ny3 : Gd s f ε Dg.N a.ny3 b.ny3
  ny4 : Gd s f ε Dg.N a.ny4 b.ny4

private def gr {a b : K0Env ℝ} (h : K0Env.Graded s f ε a b) : K0Env (Gr R s f ε) where
  i1 := a.i1
  i2 := a.i2
  i3 := a.i3
  i4 := a.i4
  Ac := Gr.of Dg.A h.Ac
  A11 := Gr.of Dg.P h.A11
  A12 := Gr.of Dg.P h.A12
  A16 := Gr.of Dg.P h.A16
  A22 := Gr.of Dg.P h.A22
  A26 := Gr.of Dg.P h.A26
  A66 := Gr.of Dg.P h.A66
  B11 := Gr.of Dg.F h.B11
  B12 := Gr.of Dg.F h.B12
  B16 := Gr.of Dg.F h.B16
  B22 := Gr.of Dg.F h.B22
  B26 := Gr.of Dg.F h.B26
  B66 := Gr.of Dg.F h.B66
  D11 := Gr.of Dg.M h.D11
  D12 := Gr.of Dg.M h.D12
  D16 := Gr.of Dg.M h.D16
  D22 := Gr.of Dg.M h.D22
  D26 := Gr.of Dg.M h.D26
  D66 := Gr.of Dg.M h.D66
  f11 := Gr.of 1 h.f11
  f12 := Gr.of 1 h.f12
  f13 := Gr.of 1 h.f13
  f14 := Gr.of 1 h.f14
  f21 := Gr.of 1 h.f21
  f22 := Gr.of 1 h.f22
  f23 := Gr.of 1 h.f23
  f24 := Gr.of 1 h.f24
  f31 := Gr.of 1 h.f31
  f32 := Gr.of 1 h.f32
  f33 := Gr.of 1 h.f33
  f34 := Gr.of 1 h.f34
  f41 := Gr.of 1 h.f41
  f42 := Gr.of 1 h.f42
  f43 := Gr.of 1 h.f43
  f44 := Gr.of 1 h.f44
  le1 := Gr.of Dg.L h.le1
  le2 := Gr.of Dg.L h.le2
  le3 := Gr.of Dg.L h.le3
  le4 := Gr.of Dg.L h.le4
  nx1 := Gr.of Dg.N h.nx1
  nx2 := Gr.of Dg.N h.nx2
  nx3 := Gr.of Dg.N h.nx3
  nx4 := Gr.of Dg.N h.nx4
  ny1 := Gr.of Dg.N h.ny1
  ny2 := Gr.of Dg.N h.ny2
  ny3 := Gr.of Dg.N h.ny3
  ny4 := Gr.of Dg.N h.ny4

private def cnt : K0Env Gr.Cnt := { i1 := 0, i2 := 0, i3 := 0, i4 := 0, Ac := ⟨Dg.A, true⟩, A11 := ⟨Dg.P, true⟩, A12 := ⟨Dg.P, true⟩, A16 := ⟨Dg.P, true⟩, A22 := ⟨Dg.P, true⟩, A26 := ⟨Dg.P, true⟩, A66 := ⟨Dg.P, true⟩, B11 := ⟨Dg.F, true⟩, B12 := ⟨Dg.F, true⟩, B16 := ⟨Dg.F, true⟩, B22 := ⟨Dg.F, true⟩, B26 := ⟨Dg.F, true⟩, B66 := ⟨Dg.F, true⟩, D11 := ⟨Dg.M, true⟩, D12 := ⟨Dg.M, true⟩, D16 := ⟨Dg.M, true⟩, D22 := ⟨Dg.M, true⟩, D26 := ⟨Dg.M, true⟩, D66 := ⟨Dg.M, true⟩, f11 := ⟨1, true⟩, f12 := ⟨1, true⟩, f13 := ⟨1, true⟩, f14 := ⟨1, true⟩, f21 := ⟨1, true⟩, f22 := ⟨1, true⟩, f23 := ⟨1, true⟩, f24 := ⟨1, true⟩, f31 := ⟨1, true⟩, f32 := ⟨1, true⟩, f33 := ⟨1, true⟩, f34 := ⟨1, true⟩, f41 := ⟨1, true⟩, f42 := ⟨1, true⟩, f43 := ⟨1, true⟩, f44 := ⟨1, true⟩, le1 := ⟨Dg.L, true⟩, le2 := ⟨Dg.L, true⟩, le3 := ⟨Dg.L, true⟩, le4 := ⟨Dg.L, true⟩, nx1 := ⟨Dg.N, true⟩, nx2 := ⟨Dg.N, true⟩, nx3 := ⟨Dg.N, true⟩, nx4 := ⟨Dg.N, true⟩, ny1 := ⟨Dg.N, true⟩, ny2 := ⟨Dg.N, true⟩, ny3 := ⟨Dg.N, true⟩, ny4 := ⟨Dg.N, true⟩ }

private theorem k0_i1_0_c (e : K0Env (Gr R s f ε)) : (k0_i1_0 e).map (fun t => (t.1, t.2.1, (t.2.2.c : Fl R))) = k0_i1_0 (K := Fl R) (e.map fun x => (x.c : Fl R)) := rfl
private theorem k0_i1_0_d (e : K0Env (Gr R s f ε)) : (k0_i1_0 e).map (fun t => (t.1, t.2.1, (t.2.2.d : Fl R))) = k0_i1_0 (K := Fl R) (e.map fun x => (x.d : Fl R)) := rfl
private theorem k0_i1_0_n {a b : K0Env ℝ} (h : K0Env.Graded s f ε a b) : (k0_i1_0 (gr (R := R) h)).map (fun t => (t.1 % 5, t.2.1 % 5, t.2.2.cnt)) = (k0_i1_0 cnt).map (fun t => (t.1 % 5, t.2.1 % 5, t.2.2)) := by
  simp only [k0_i1_0, List.map_cons, List.map_nil, Int.mul_add_emod_self_right]
  rfl
private theorem k0_i1_0_b : (k0_i1_0 cnt).all (fun t => t.2.2.ok && t.2.2.g.same (entryDg (t.1 % 5) (t.2.1 % 5))) = true := by decide +kernel
private theorem k0_i1_1_c (e : K0Env (Gr R s f ε)) : (k0_i1_1 e).map (fun t => (t.1, t.2.1, (t.2.2.c : Fl R))) = k0_i1_1 (K := Fl R) (e.map fun x => (x.c : Fl R)) := rfl
private theorem k0_i1_1_d (e : K0Env (Gr R s f ε)) : (k0_i1_1 e).map (fun t => (t.1, t.2.1, (t.2.2.d : Fl R))) = k0_i1_1 (K := Fl R) (e.map fun x => (x.d : Fl R)) := rfl
private theorem k0_i1_1_n {a b : K0Env ℝ} (h : K0Env.Graded s f ε a b) : (k0_i1_1 (gr (R := R) h)).map (fun t => (t.1 % 5, t.2.1 % 5, t.2.2.cnt)) = (k0_i1_1 cnt).map (fun t => (t.1 % 5, t.2.1 % 5, t.2.2)) := by
  simp only [k0_i1_1, List.map_cons, List.map_nil, Int.mul_add_emod_self_right]
  rfl
private theorem k0_i1_1_b : (k0_i1_1 cnt).all (fun t => t.2.2.ok && t.2.2.g.same (entryDg (t.1 % 5) (t.2.1 % 5))) = true := by decide +kernel
private theorem k0_i1_3_c (e : K0Env (Gr R s f ε)) : (k0_i1_3 e).map (fun t => (t.1, t.2.1, (t.2.2.c : Fl R))) = k0_i1_3 (K := Fl R) (e.map fun x => (x.c : Fl R)) := rfl
private theorem k0_i1_3_d (e : K0Env (Gr R s f ε)) : (k0_i1_3 e).map (fun t => (t.1, t.2.1, (t.2.2.d : Fl R))) = k0_i1_3 (K := Fl R) (e.map fun x => (x.d : Fl R)) := rfl
private theorem k0_i1_3_n {a b : K0Env ℝ} (h : K0Env.Graded s f ε a b) : (k0_i1_3 (gr (R := R) h)).map (fun t => (t.1 % 5, t.2.1 % 5, t.2.2.cnt)) = (k0_i1_3 cnt).map (fun t => (t.1 % 5, t.2.1 % 5, t.2.2)) := by
  simp only [k0_i1_3, List.map_cons, List.map_nil, Int.mul_add_emod_self_right]
  rfl
private theorem k0_i1_3_b : (k0_i1_3 cnt).all (fun t => t.2.2.ok && t.2.2.g.same (entryDg (t.1 % 5) (t.2.1 % 5))) = true := by decide +kernel
private theorem k0_i1_4_c (e : K0Env (Gr R s f ε)) : (k0_i1_4 e).map (fun t => (t.1, t.2.1, (t.2.2.c : Fl R))) = k0_i1_4 (K := Fl R) (e.map fun x => (x.c : Fl R)) := rfl
private theorem k0_i1_4_d (e : K0Env (Gr R s f ε)) : (k0_i1_4 e).map (fun t => (t.1, t.2.1, (t.2.2.d : Fl R))) = k0_i1_4 (K := Fl R) (e.map fun x => (x.d : Fl R)) := rfl
private theorem k0_i1_4_n {a b : K0Env ℝ} (h : K0Env.Graded s f ε a b) : (k0_i1_4 (gr (R := R) h)).map (fun t => (t.1 % 5, t.2.1 % 5, t.2.2.cnt)) = (k0_i1_4 cnt).map (fun t => (t.1 % 5, t.2.1 % 5, t.2.2)) := by
  simp only [k0_i1_4, List.map_cons, List.map_nil, Int.mul_add_emod_self_right]
  rfl
private theorem k0_i1_4_b : (k0_i1_4 cnt).all (fun t => t.2.2.ok && t.2.2.g.same (entryDg (t.1 % 5) (t.2.1 % 5))) = true := by decide +kernel
private theorem k0_i2_0_c (e : K0Env (Gr R s f ε)) : (k0_i2_0 e).map (fun t => (t.1, t.2.1, (t.2.2.c : Fl R))) = k0_i2_0 (K := Fl R) (e.map fun x => (x.c : Fl R)) := rfl
private theorem k0_i2_0_d (e : K0Env (Gr R s f ε)) : (k0_i2_0 e).map (fun t => (t.1, t.2.1, (t.2.2.d : Fl R))) = k0_i2_0 (K := Fl R) (e.map fun x => (x.d : Fl R)) := rfl
private theorem k0_i2_0_n {a b : K0Env ℝ} (h : K0Env.Graded s f ε a b) : (k0_i2_0 (gr (R := R) h)).map (fun t => (t.1 % 5, t.2.1 % 5, t.2.2.cnt)) = (k0_i2_0 cnt).map (fun t => (t.1 % 5, t.2.1 % 5, t.2.2)) := by
  simp only [k0_i2_0, List.map_cons, List.map_nil, Int.mul_add_emod_self_right]
  rfl
private theorem k0_i2_0_b : (k0_i2_0 cnt).all (fun t => t.2.2.ok && t.2.2.g.same (entryDg (t.1 % 5) (t.2.1 % 5))) = true := by decide +kernel
private theorem k0_i2_1_c (e : K0Env (Gr R s f ε)) : (k0_i2_1 e).map (fun t => (t.1, t.2.1, (t.2.2.c : Fl R))) = k0_i2_1 (K := Fl R) (e.map fun x => (x.c : Fl R)) := rfl
private theorem k0_i2_1_d (e : K0Env (Gr R s f ε)) : (k0_i2_1 e).map (fun t => (t.1, t.2.1, (t.2.2.d : Fl R))) = k0_i2_1 (K := Fl R) (e.map fun x => (x.d : Fl R)) := rfl
private theorem k0_i2_1_n {a b : K0Env ℝ} (h : K0Env.Graded s f ε a b) : (k0_i2_1 (gr (R := R) h)).map (fun t => (t.1 % 5, t.2.1 % 5, t.2.2.cnt)) = (k0_i2_1 cnt).map (fun t => (t.1 % 5, t.2.1 % 5, t.2.2)) := by
  simp only [k0_i2_1, List.map_cons, List.map_nil, Int.mul_add_emod_self_right]
  rfl
private theorem k0_i2_1_b : (k0_i2_1 cnt).all (fun t => t.2.2.ok && t.2.2.g.same (entryDg (t.1 % 5) (t.2.1 % 5))) = true := by decide +kernel
private theorem k0_i2_3_c (e : K0Env (Gr R s f ε)) : (k0_i2_3 e).map (fun t => (t.1, t.2.1, (t.2.2.c : Fl R))) = k0_i2_3 (K := Fl R) (e.map fun x => (x.c : Fl R)) := rfl
private theorem k0_i2_3_d (e : K0Env (Gr R s f ε)) : (k0_i2_3 e).map (fun t => (t.1, t.2.1, (t.2.2.d : Fl R))) = k0_i2_3 (K := Fl R) (e.map fun x => (x.d : Fl R)) := rfl
private theorem k0_i2_3_n {a b : K0Env ℝ} (h : K0Env.Graded s f ε a b) : (k0_i2_3 (gr (R := R) h)).map (fun t => (t.1 % 5, t.2.1 % 5, t.2.2.cnt)) = (k0_i2_3 cnt).map (fun t => (t.1 % 5, t.2.1 % 5, t.2.2)) := by
  simp only [k0_i2_3, List.map_cons, List.map_nil, Int.mul_add_emod_self_right]
  rfl
private theorem k0_i2_3_b : (k0_i2_3 cnt).all (fun t => t.2.2.ok && t.2.2.g.same (entryDg (t.1 % 5) (t.2.1 % 5))) = true := by decide +kernel
private theorem k0_i2_4_c (e : K0Env (Gr R s f ε)) : (k0_i2_4 e).map (fun t => (t.1, t.2.1, (t.2.2.c : Fl R))) = k0_i2_4 (K := Fl R) (e.map fun x => (x.c : Fl R)) := rfl
private theorem k0_i2_4_d (e : K0Env (Gr R s f ε)) : (k0_i2_4 e).map (fun t => (t.1, t.2.1, (t.2.2.d : Fl R))) = k0_i2_4 (K := Fl R) (e.map fun x => (x.d : Fl R)) := rfl
private theorem k0_i2_4_n {a b : K0Env ℝ} (h : K0Env.Graded s f ε a b) : (k0_i2_4 (gr (R := R) h)).map (fun t => (t.1 % 5, t.2.1 % 5, t.2.2.cnt)) = (k0_i2_4 cnt).map (fun t => (t.1 % 5, t.2.1 % 5, t.2.2)) := by
  simp only [k0_i2_4, List.map_cons, List.map_nil, Int.mul_add_emod_self_right]
  rfl
private theorem k0_i2_4_b : (k0_i2_4 cnt).all (fun t => t.2.2.ok && t.2.2.g.same (entryDg (t.1 % 5) (t.2.1 % 5))) = true := by decide +kernel
private theorem k0_i3_0_c (e : K0Env (Gr R s f ε)) : (k0_i3_0 e).map (fun t => (t.1, t.2.1, (t.2.2.c : Fl R))) = k0_i3_0 (K := Fl R) (e.map fun x => (x.c : Fl R)) := rfl
private theorem k0_i3_0_d (e : K0Env (Gr R s f ε)) : (k0_i3_0 e).map (fun t => (t.1, t.2.1, (t.2.2.d : Fl R))) = k0_i3_0 (K := Fl R) (e.map fun x => (x.d : Fl R)) := rfl
private theorem k0_i3_0_n {a b : K0Env ℝ} (h : K0Env.Graded s f ε a b) : (k0_i3_0 (gr (R := R) h)).map (fun t => (t.1 % 5, t.2.1 % 5, t.2.2.cnt)) = (k0_i3_0 cnt).map (fun t => (t.1 % 5, t.2.1 % 5, t.2.2)) := by
  simp only [k0_i3_0, List.map_cons, List.map_nil, Int.mul_add_emod_self_right]
  rfl
private theorem k0_i3_0_b : (k0_i3_0 cnt).all (fun t => t.2.2.ok && t.2.2.g.same (entryDg (t.1 % 5) (t.2.1 % 5))) = true := by decide +kernel
private theorem k0_i3_1_c (e : K0Env (Gr R s f ε)) : (k0_i3_1 e).map (fun t => (t.1, t.2.1, (t.2.2.c : Fl R))) = k0_i3_1 (K := Fl R) (e.map fun x => (x.c : Fl R)) := rfl
private theorem k0_i3_1_d (e : K0Env (Gr R s f ε)) : (k0_i3_1 e).map (fun t => (t.1, t.2.1, (t.2.2.d : Fl R))) = k0_i3_1 (K := Fl R) (e.map fun x => (x.d : Fl R)) := rfl
private theorem k0_i3_1_n {a b : K0Env ℝ} (h : K0Env.Graded s f ε a b) : (k0_i3_1 (gr (R := R) h)).map (fun t => (t.1 % 5, t.2.1 % 5, t.2.2.cnt)) = (k0_i3_1 cnt).map (fun t => (t.1 % 5, t.2.1 % 5, t.2.2)) := by
  simp only [k0_i3_1, List.map_cons, List.map_nil, Int.mul_add_emod_self_right]
  rfl
private theorem k0_i3_1_b : (k0_i3_1 cnt).all (fun t => t.2.2.ok && t.2.2.g.same (entryDg (t.1 % 5) (t.2.1 % 5))) = true := by decide +kernel
private theorem k0_i3_3_c (e : K0Env (Gr R s f ε)) : (k0_i3_3 e).map (fun t => (t.1, t.2.1, (t.2.2.c : Fl R))) = k0_i3_3 (K := Fl R) (e.map fun x => (x.c : Fl R)) := rfl
private theorem k0_i3_3_d (e : K0Env (Gr R s f ε)) : (k0_i3_3 e).map (fun t => (t.1, t.2.1, (t.2.2.d : Fl R))) = k0_i3_3 (K := Fl R) (e.map fun x => (x.d : Fl R)) := rfl
private theorem k0_i3_3_n {a b : K0Env ℝ} (h : K0Env.Graded s f ε a b) : (k0_i3_3 (gr (R := R) h)).map (fun t => (t.1 % 5, t.2.1 % 5, t.2.2.cnt)) = (k0_i3_3 cnt).map (fun t => (t.1 % 5, t.2.1 % 5, t.2.2)) := by
  simp only [k0_i3_3, List.map_cons, List.map_nil, Int.mul_add_emod_self_right]
  rfl
private theorem k0_i3_3_b : (k0_i3_3 cnt).all (fun t => t.2.2.ok && t.2.2.g.same (entryDg (t.1 % 5) (t.2.1 % 5))) = true := by decide +kernel
private theorem k0_i3_4_c (e : K0Env (Gr R s f ε)) : (k0_i3_4 e).map (fun t => (t.1, t.2.1, (t.2.2.c : Fl R))) = k0_i3_4 (K := Fl R) (e.map fun x => (x.c : Fl R)) := rfl
private theorem k0_i3_4_d (e : K0Env (Gr R s f ε)) : (k0_i3_4 e).map (fun t => (t.1, t.2.1, (t.2.2.d : Fl R))) = k0_i3_4 (K := Fl R) (e.map fun x => (x.d : Fl R)) := rfl
private theorem k0_i3_4_n {a b : K0Env ℝ} (h : K0Env.Graded s f ε a b) : (k0_i3_4 (gr (R := R) h)).map (fun t => (t.1 % 5, t.2.1 % 5, t.2.2.cnt)) = (k0_i3_4 cnt).map (fun t => (t.1 % 5, t.2.1 % 5, t.2.2)) := by
  simp only [k0_i3_4, List.map_cons, List.map_nil, Int.mul_add_emod_self_right]
  rfl
private theorem k0_i3_4_b : (k0_i3_4 cnt).all (fun t => t.2.2.ok && t.2.2.g.same (entryDg (t.1 % 5) (t.2.1 % 5))) = true := by decide +kernel
private theorem k0_i4_0_c (e : K0Env (Gr R s f ε)) : (k0_i4_0 e).map (fun t => (t.1, t.2.1, (t.2.2.c : Fl R))) = k0_i4_0 (K := Fl R) (e.map fun x => (x.c : Fl R)) := rfl
private theorem k0_i4_0_d (e : K0Env (Gr R s f ε)) : (k0_i4_0 e).map (fun t => (t.1, t.2.1, (t.2.2.d : Fl R))) = k0_i4_0 (K := Fl R) (e.map fun x => (x.d : Fl R)) := rfl
private theorem k0_i4_0_n {a b : K0Env ℝ} (h : K0Env.Graded s f ε a b) : (k0_i4_0 (gr (R := R) h)).map (fun t => (t.1 % 5, t.2.1 % 5, t.2.2.cnt)) = (k0_i4_0 cnt).map (fun t => (t.1 % 5, t.2.1 % 5, t.2.2)) := by
  simp only [k0_i4_0, List.map_cons, List.map_nil, Int.mul_add_emod_self_right]
  rfl
private theorem k0_i4_0_b : (k0_i4_0 cnt).all (fun t => t.2.2.ok && t.2.2.g.same (entryDg (t.1 % 5) (t.2.1 % 5))) = true := by decide +kernel
private theorem k0_i4_1_c (e : K0Env (Gr R s f ε)) : (k0_i4_1 e).map (fun t => (t.1, t.2.1, (t.2.2.c : Fl R))) = k0_i4_1 (K := Fl R) (e.map fun x => (x.c : Fl R)) := rfl
private theorem k0_i4_1_d (e : K0Env (Gr R s f ε)) : (k0_i4_1 e).map (fun t => (t.1, t.2.1, (t.2.2.d : Fl R))) = k0_i4_1 (K := Fl R) (e.map fun x => (x.d : Fl R)) := rfl
private theorem k0_i4_1_n {a b : K0Env ℝ} (h : K0Env.Graded s f ε a b) : (k0_i4_1 (gr (R := R) h)).map (fun t => (t.1 % 5, t.2.1 % 5, t.2.2.cnt)) = (k0_i4_1 cnt).map (fun t => (t.1 % 5, t.2.1 % 5, t.2.2)) := by
  simp only [k0_i4_1, List.map_cons, List.map_nil, Int.mul_add_emod_self_right]
  rfl
private theorem k0_i4_1_b : (k0_i4_1 cnt).all (fun t => t.2.2.ok && t.2.2.g.same (entryDg (t.1 % 5) (t.2.1 % 5))) = true := by decide +kernel
private theorem k0_i4_3_c (e : K0Env (Gr R s f ε)) : (k0_i4_3 e).map (fun t => (t.1, t.2.1, (t.2.2.c : Fl R))) = k0_i4_3 (K := Fl R) (e.map fun x => (x.c : Fl R)) := rfl
private theorem k0_i4_3_d (e : K0Env (Gr R s f ε)) : (k0_i4_3 e).map (fun t => (t.1, t.2.1, (t.2.2.d : Fl R))) = k0_i4_3 (K := Fl R) (e.map fun x => (x.d : Fl R)) := rfl
private theorem k0_i4_3_n {a b : K0Env ℝ} (h : K0Env.Graded s f ε a b) : (k0_i4_3 (gr (R := R) h)).map (fun t => (t.1 % 5, t.2.1 % 5, t.2.2.cnt)) = (k0_i4_3 cnt).map (fun t => (t.1 % 5, t.2.1 % 5, t.2.2)) := by
  simp only [k0_i4_3, List.map_cons, List.map_nil, Int.mul_add_emod_self_right]
  rfl
private theorem k0_i4_3_b : (k0_i4_3 cnt).all (fun t => t.2.2.ok && t.2.2.g.same (entryDg (t.1 % 5) (t.2.1 % 5))) = true := by decide +kernel
private theorem k0_i4_4_c (e : K0Env (Gr R s f ε)) : (k0_i4_4 e).map (fun t => (t.1, t.2.1, (t.2.2.c : Fl R))) = k0_i4_4 (K := Fl R) (e.map fun x => (x.c : Fl R)) := rfl
private theorem k0_i4_4_d (e : K0Env (Gr R s f ε)) : (k0_i4_4 e).map (fun t => (t.1, t.2.1, (t.2.2.d : Fl R))) = k0_i4_4 (K := Fl R) (e.map fun x => (x.d : Fl R)) := rfl
private theorem k0_i4_4_n {a b : K0Env ℝ} (h : K0Env.Graded s f ε a b) : (k0_i4_4 (gr (R := R) h)).map (fun t => (t.1 % 5, t.2.1 % 5, t.2.2.cnt)) = (k0_i4_4 cnt).map (fun t => (t.1 % 5, t.2.1 % 5, t.2.2)) := by
  simp only [k0_i4_4, List.map_cons, List.map_nil, Int.mul_add_emod_self_right]
  rfl
private theorem k0_i4_4_b : (k0_i4_4 cnt).all (fun t => t.2.2.ok && t.2.2.g.same (entryDg (t.1 % 5) (t.2.1 % 5))) = true := by decide +kernel

private theorem k0Entries_c (e : K0Env (Gr R s f ε)) : (k0Entries e).map (fun t => (t.1, t.2.1, (t.2.2.c : Fl R))) = k0Entries (K := Fl R) (e.map fun x => (x.c : Fl R)) := by
  unfold k0Entries
  simp only [List.map_append, k0_i1_0_c, k0_i1_1_c, k0_i1_3_c, k0_i1_4_c, k0_i2_0_c, k0_i2_1_c, k0_i2_3_c, k0_i2_4_c, k0_i3_0_c, k0_i3_1_c, k0_i3_3_c, k0_i3_4_c, k0_i4_0_c, k0_i4_1_c, k0_i4_3_c, k0_i4_4_c]

private theorem k0Entries_d (e : K0Env (Gr R s f ε)) : (k0Entries e).map (fun t => (t.1, t.2.1, (t.2.2.d : Fl R))) = k0Entries (K := Fl R) (e.map fun x => (x.d : Fl R)) := by
  unfold k0Entries
  simp only [List.map_append, k0_i1_0_d, k0_i1_1_d, k0_i1_3_d, k0_i1_4_d, k0_i2_0_d, k0_i2_1_d, k0_i2_3_d, k0_i2_4_d, k0_i3_0_d, k0_i3_1_d, k0_i3_3_d, k0_i3_4_d, k0_i4_0_d, k0_i4_1_d, k0_i4_3_d, k0_i4_4_d]

/-- the increments in the other units -/
theorem k0Entries_graded {a b : K0Env ℝ} (h : K0Env.Graded s f ε a b) :
    ∃ L : List (ℤ × ℤ × Gr R s f ε), L.map (fun t => (t.1, t.2.1, (t.2.2.c : Fl R))) = k0Entries (K := Fl R) a ∧
      L.map (fun t => (t.1, t.2.1, (t.2.2.d : Fl R))) = k0Entries (K := Fl R) b ∧ ∀ t ∈ L, Gd s f ε (entryDg (t.1 % 5) (t.2.1 % 5)) t.2.2.c t.2.2.d := by
  refine ⟨k0Entries (gr (R := R) h), ?_, ?_, ?_⟩
  · rw [k0Entries_c]; rfl
  · rw [k0Entries_d]; congr 1; obtain ⟨⟩ := a; obtain ⟨⟩ := b
    obtain rfl := h.i1
    obtain rfl := h.i2
    obtain rfl := h.i3
    obtain rfl := h.i4
    rfl
  · intro t ht
    unfold k0Entries at ht
    simp only [List.mem_append] at ht
    rcases ht with ((((((((((((((h1 | h1) | h1) | h1) | h1) | h1) | h1) | h1) | h1) | h1) | h1) | h1) | h1) | h1) | h1) | h1
    · exact Gr.of_cnt (k0_i1_0_n h) k0_i1_0_b h1
    · exact Gr.of_cnt (k0_i1_1_n h) k0_i1_1_b h1
    · exact Gr.of_cnt (k0_i1_3_n h) k0_i1_3_b h1
    · exact Gr.of_cnt (k0_i1_4_n h) k0_i1_4_b h1
    · exact Gr.of_cnt (k0_i2_0_n h) k0_i2_0_b h1
    · exact Gr.of_cnt (k0_i2_1_n h) k0_i2_1_b h1
    · exact Gr.of_cnt (k0_i2_3_n h) k0_i2_3_b h1
    · exact Gr.of_cnt (k0_i2_4_n h) k0_i2_4_b h1
    · exact Gr.of_cnt (k0_i3_0_n h) k0_i3_0_b h1
    · exact Gr.of_cnt (k0_i3_1_n h) k0_i3_1_b h1
    · exact Gr.of_cnt (k0_i3_3_n h) k0_i3_3_b h1
    · exact Gr.of_cnt (k0_i3_4_n h) k0_i3_4_b h1
    · exact Gr.of_cnt (k0_i4_0_n h) k0_i4_0_b h1
    · exact Gr.of_cnt (k0_i4_1_n h) k0_i4_1_b h1
    · exact Gr.of_cnt (k0_i4_3_n h) k0_i4_3_b h1
    · exact Gr.of_cnt (k0_i4_4_n h) k0_i4_4_b h1

end Meshless
