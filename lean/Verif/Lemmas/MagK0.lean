import Verif.Lemmas.MagPts

/-! GENERATED by /verif/tools/genmag.py: explicit bounds of the increments of Model/Gen/K0.lean, group by group. -/

set_option autoImplicit false
set_option maxRecDepth 10000
set_option linter.unusedSimpArgs false
set_option linter.unusedSectionVars false

namespace Meshless
open Spec Mg

variable {f : Fmt} {s : Units}

/-- the shape of the triangles (`σ`, `G`), bounds on the rounding errors of the local variables of `calc_k0` (area, laminate, lengths, normals) and on its
increments (sizes up to `M`, errors up to `E`) -/
structure Prof where
  (σ G eA eP eL eN M E : ℚ)

def grA : Grd := ⟨0, 1, 0, 0⟩
def grB : Grd := ⟨0, 0, 1, 0⟩
def grD : Grd := ⟨0, 0, 0, 1⟩

section
variable (p : Prof)
def vA : Mg := ⟨⟨2, 0, 0, 0⟩, 2 / 3, p.eA, p.σ / 3, true⟩
def vP (g : Grd) : Mg := ⟨g, 1, p.eP, 0, true⟩
def vL : Mg := ⟨⟨1, 0, 0, 0⟩, 3 / 2, p.eL, 0, true⟩
def vN : Mg := ⟨⟨0, 0, 0, 0⟩, 1, p.eN, 0, true⟩

/-- the unit of an increment, from its row and column -/
def blk (r c : ℤ) : Grd := if r < 2 then (if c < 2 then grA else grB) else (if c < 2 then grB else grD)
/-- the bounds of an increment -/
def vE (r c : ℤ) : Mg := ⟨blk (r % 5) (c % 5), p.M, p.E, 0, true⟩
end

/-- the bounds `x` imply the bounds `y` -/
def Mg.dom (x y : Mg) : Bool := x.ok && decide (x.g = y.g) && decide (x.m ≤ y.m) && decide (x.e ≤ y.e) && decide (y.lo ≤ x.lo)

theorem Mg.Has.dom {x y : Mg} {A : Flo} {a : ℝ} (h : x.Has s A a) (hd : x.dom y = true) : y.Has s A a := by
  simp only [Mg.dom, Bool.and_eq_true, decide_eq_true_eq] at hd
  obtain ⟨⟨⟨⟨h1, h2⟩, h3⟩, h4⟩, h5⟩ := hd
  exact h.weak h1 h2 h3 h4 h5

/-- a computed number together with the exact one and bounds -/
structure Bd (f : Fmt) (s : Units) where
  g : Mg
  a : Flo
  x : ℝ
  h : g.Has s a x

namespace Bd
variable [hf : Spec.Double f]
noncomputable instance : Add (Bd f s) := ⟨fun x y => ⟨x.g + y.g, f.add x.a y.a, x.x + y.x, x.h.add hf y.h⟩⟩
noncomputable instance : Sub (Bd f s) := ⟨fun x y => ⟨x.g - y.g, f.sub x.a y.a, x.x - y.x, x.h.sub hf y.h⟩⟩
noncomputable instance : Mul (Bd f s) := ⟨fun x y => ⟨x.g * y.g, f.mul x.a y.a, x.x * y.x, x.h.mul hf y.h⟩⟩
noncomputable instance : Div (Bd f s) := ⟨fun x y => ⟨x.g / y.g, f.div x.a y.a, x.x / y.x, x.h.div hf y.h⟩⟩
noncomputable instance : Neg (Bd f s) := ⟨fun x => ⟨-x.g, x.a.neg, -x.x, x.h.neg⟩⟩
theorem g_add (x y : Bd f s) : (x + y).g = x.g + y.g := rfl
theorem g_sub (x y : Bd f s) : (x - y).g = x.g - y.g := rfl
theorem g_mul (x y : Bd f s) : (x * y).g = x.g * y.g := rfl
theorem g_div (x y : Bd f s) : (x / y).g = x.g / y.g := rfl
theorem g_neg (x : Bd f s) : (-x).g = -x.g := rfl
end Bd

/-- the bounds of the local variables of `calc_k0` -/
def env0 (p : Prof) : K0Env Mg :=
  { i1 := 0, i2 := 1, i3 := 2, i4 := 3, Ac := vA p, A11 := vP p grA, A12 := vP p grA, A16 := vP p grA, A22 := vP p grA, A26 := vP p grA, A66 := vP p grA, B11 := vP p grB, B12 := vP p grB, B16 := vP p grB, B22 := vP p grB, B26 := vP p grB, B66 := vP p grB, D11 := vP p grD, D12 := vP p grD, D16 := vP p grD, D22 := vP p grD, D26 := vP p grD, D66 := vP p grD, f11 := gF, f12 := gF, f13 := gF, f14 := gF, f21 := gF, f22 := gF, f23 := gF, f24 := gF, f31 := gF, f32 := gF, f33 := gF, f34 := gF, f41 := gF, f42 := gF, f43 := gF, f44 := gF, le1 := vL p, le2 := vL p, le3 := vL p, le4 := vL p, nx1 := vN p, nx2 := vN p, nx3 := vN p, nx4 := vN p, ny1 := vN p, ny2 := vN p, ny3 := vN p, ny4 := vN p }

/-- the local variables of `calc_k0` within these bounds -/
structure HasEnv (s : Units) (p : Prof) (c : K0Env Flo) (e : K0Env ℝ) : Prop where
  i1 : c.i1 = e.i1
  i2 : c.i2 = e.i2
  i3 : c.i3 = e.i3
  i4 : c.i4 = e.i4
  Ac : (vA p).Has s c.Ac e.Ac
  A11 : (vP p grA).Has s c.A11 e.A11
  A12 : (vP p grA).Has s c.A12 e.A12
  A16 : (vP p grA).Has s c.A16 e.A16
  A22 : (vP p grA).Has s c.A22 e.A22
  A26 : (vP p grA).Has s c.A26 e.A26
  A66 : (vP p grA).Has s c.A66 e.A66
  B11 : (vP p grB).Has s c.B11 e.B11
  B12 : (vP p grB).Has s c.B12 e.B12
  B16 : (vP p grB).Has s c.B16 e.B16
  B22 : (vP p grB).Has s c.B22 e.B22
  B26 : (vP p grB).Has s c.B26 e.B26
  B66 : (vP p grB).Has s c.B66 e.B66
  D11 : (vP p grD).Has s c.D11 e.D11
  D12 : (vP p grD).Has s c.D12 e.D12
  D16 : (vP p grD).Has s c.D16 e.D16
  D22 : (vP p grD).Has s c.D22 e.D22
  D26 : (vP p grD).Has s c.D26 e.D26
  D66 : (vP p grD).Has s c.D66 e.D66
  f11 : (gF).Has s c.f11 e.f11
  f12 : (gF).Has s c.f12 e.f12
  f13 : (gF).Has s c.f13 e.f13
  f14 : (gF).Has s c.f14 e.f14
  f21 : (gF).Has s c.f21 e.f21
  f22 : (gF).Has s c.f22 e.f22
  f23 : (gF).Has s c.f23 e.f23
  f24 : (gF).Has s c.f24 e.f24
  f31 : (gF).Has s c.f31 e.f31
  f32 : (gF).Has s c.f32 e.f32
  f33 : (gF).Has s c.f33 e.f33
  f34 : (gF).Has s c.f34 e.f34
  f41 : (gF).Has s c.f41 e.f41
  f42 : (gF).Has s c.f42 e.f42
  f43 : (gF).Has s c.f43 e.f43
  f44 : (gF).Has s c.f44 e.f44
  le1 : (vL p).Has s c.le1 e.le1
  le2 : (vL p).Has s c.le2 e.le2
  le3 : (vL p).Has s c.le3 e.le3
  le4 : (vL p).Has s c.le4 e.le4
  nx1 : (vN p).Has s c.nx1 e.nx1
  nx2 : (vN p).Has s c.nx2 e.nx2
  nx3 : (vN p).Has s c.nx3 e.nx3
  nx4 : (vN p).Has s c.nx4 e.nx4
  ny1 : (vN p).Has s c.ny1 e.ny1
  ny2 : (vN p).Has s c.ny2 e.ny2
  ny3 : (vN p).Has s c.ny3 e.ny3
  ny4 : (vN p).Has s c.ny4 e.ny4

/-- the variables with their bounds -/
def bd (f : Fmt) {p : Prof} {c : K0Env Flo} {e : K0Env ℝ} (h : HasEnv s p c e) : K0Env (Bd f s) :=
  { i1 := e.i1, i2 := e.i2, i3 := e.i3, i4 := e.i4, Ac := ⟨vA p, c.Ac, e.Ac, h.Ac⟩, A11 := ⟨vP p grA, c.A11, e.A11, h.A11⟩, A12 := ⟨vP p grA, c.A12, e.A12, h.A12⟩, A16 := ⟨vP p grA, c.A16, e.A16, h.A16⟩, A22 := ⟨vP p grA, c.A22, e.A22, h.A22⟩, A26 := ⟨vP p grA, c.A26, e.A26, h.A26⟩, A66 := ⟨vP p grA, c.A66, e.A66, h.A66⟩, B11 := ⟨vP p grB, c.B11, e.B11, h.B11⟩, B12 := ⟨vP p grB, c.B12, e.B12, h.B12⟩, B16 := ⟨vP p grB, c.B16, e.B16, h.B16⟩, B22 := ⟨vP p grB, c.B22, e.B22, h.B22⟩, B26 := ⟨vP p grB, c.B26, e.B26, h.B26⟩, B66 := ⟨vP p grB, c.B66, e.B66, h.B66⟩, D11 := ⟨vP p grD, c.D11, e.D11, h.D11⟩, D12 := ⟨vP p grD, c.D12, e.D12, h.D12⟩, D16 := ⟨vP p grD, c.D16, e.D16, h.D16⟩, D22 := ⟨vP p grD, c.D22, e.D22, h.D22⟩, D26 := ⟨vP p grD, c.D26, e.D26, h.D26⟩, D66 := ⟨vP p grD, c.D66, e.D66, h.D66⟩, f11 := ⟨gF, c.f11, e.f11, h.f11⟩, f12 := ⟨gF, c.f12, e.f12, h.f12⟩, f13 := ⟨gF, c.f13, e.f13, h.f13⟩, f14 := ⟨gF, c.f14, e.f14, h.f14⟩, f21 := ⟨gF, c.f21, e.f21, h.f21⟩, f22 := ⟨gF, c.f22, e.f22, h.f22⟩, f23 := ⟨gF, c.f23, e.f23, h.f23⟩, f24 := ⟨gF, c.f24, e.f24, h.f24⟩, f31 := ⟨gF, c.f31, e.f31, h.f31⟩, f32 := ⟨gF, c.f32, e.f32, h.f32⟩, f33 := ⟨gF, c.f33, e.f33, h.f33⟩, f34 := ⟨gF, c.f34, e.f34, h.f34⟩, f41 := ⟨gF, c.f41, e.f41, h.f41⟩, f42 := ⟨gF, c.f42, e.f42, h.f42⟩, f43 := ⟨gF, c.f43, e.f43, h.f43⟩, f44 := ⟨gF, c.f44, e.f44, h.f44⟩, le1 := ⟨vL p, c.le1, e.le1, h.le1⟩, le2 := ⟨vL p, c.le2, e.le2, h.le2⟩, le3 := ⟨vL p, c.le3, e.le3, h.le3⟩, le4 := ⟨vL p, c.le4, e.le4, h.le4⟩, nx1 := ⟨vN p, c.nx1, e.nx1, h.nx1⟩, nx2 := ⟨vN p, c.nx2, e.nx2, h.nx2⟩, nx3 := ⟨vN p, c.nx3, e.nx3, h.nx3⟩, nx4 := ⟨vN p, c.nx4, e.nx4, h.nx4⟩, ny1 := ⟨vN p, c.ny1, e.ny1, h.ny1⟩, ny2 := ⟨vN p, c.ny2, e.ny2, h.ny2⟩, ny3 := ⟨vN p, c.ny3, e.ny3, h.ny3⟩, ny4 := ⟨vN p, c.ny4, e.ny4, h.ny4⟩ }

theorem md (i d : ℤ) : (i * 5 + d) % 5 = d % 5 := by omega

def K0Env.ix {K : Type} (e : K0Env K) : K0Env K := { e with i1 := 0, i2 := 1, i3 := 2, i4 := 3 }

section
variable [hf : Spec.Double f]

private theorem k0_i1_0_a (e : K0Env (Bd f s)) : (k0_i1_0 e).map (fun t => (t.1, t.2.1, (t.2.2.a : Fo f))) = k0_i1_0 (K := Fo f) (e.map fun y => (y.a : Fo f)) := rfl
private theorem k0_i1_0_x (e : K0Env (Bd f s)) : (k0_i1_0 e).map (fun t => (t.1, t.2.1, t.2.2.x)) = k0_i1_0 (e.map fun y => y.x) := rfl
private theorem k0_i1_0_g (e : K0Env (Bd f s)) : (k0_i1_0 e).map (fun t => (t.1, t.2.1, t.2.2.g)) = k0_i1_0 (e.map fun y => y.g) := by
  simp only [k0_i1_0, K0Env.map, List.map_cons, List.map_nil, Bd.g_add, Bd.g_sub, Bd.g_mul, Bd.g_div, Bd.g_neg]
private theorem k0_i1_0_r {K : Type} [Add K] [Sub K] [Mul K] [Div K] [Neg K] (e : K0Env K) : (k0_i1_0 e).map (fun t => (t.1 % 5, t.2.1 % 5, t.2.2)) = (k0_i1_0 e.ix).map (fun t => (t.1 % 5, t.2.1 % 5, t.2.2)) := by
  simp only [k0_i1_0, K0Env.ix, List.map_cons, List.map_nil, md]
private theorem k0_i1_1_a (e : K0Env (Bd f s)) : (k0_i1_1 e).map (fun t => (t.1, t.2.1, (t.2.2.a : Fo f))) = k0_i1_1 (K := Fo f) (e.map fun y => (y.a : Fo f)) := rfl
private theorem k0_i1_1_x (e : K0Env (Bd f s)) : (k0_i1_1 e).map (fun t => (t.1, t.2.1, t.2.2.x)) = k0_i1_1 (e.map fun y => y.x) := rfl
private theorem k0_i1_1_g (e : K0Env (Bd f s)) : (k0_i1_1 e).map (fun t => (t.1, t.2.1, t.2.2.g)) = k0_i1_1 (e.map fun y => y.g) := by
  simp only [k0_i1_1, K0Env.map, List.map_cons, List.map_nil, Bd.g_add, Bd.g_sub, Bd.g_mul, Bd.g_div, Bd.g_neg]
private theorem k0_i1_1_r {K : Type} [Add K] [Sub K] [Mul K] [Div K] [Neg K] (e : K0Env K) : (k0_i1_1 e).map (fun t => (t.1 % 5, t.2.1 % 5, t.2.2)) = (k0_i1_1 e.ix).map (fun t => (t.1 % 5, t.2.1 % 5, t.2.2)) := by
  simp only [k0_i1_1, K0Env.ix, List.map_cons, List.map_nil, md]
private theorem k0_i1_3_a (e : K0Env (Bd f s)) : (k0_i1_3 e).map (fun t => (t.1, t.2.1, (t.2.2.a : Fo f))) = k0_i1_3 (K := Fo f) (e.map fun y => (y.a : Fo f)) := rfl
private theorem k0_i1_3_x (e : K0Env (Bd f s)) : (k0_i1_3 e).map (fun t => (t.1, t.2.1, t.2.2.x)) = k0_i1_3 (e.map fun y => y.x) := rfl
private theorem k0_i1_3_g (e : K0Env (Bd f s)) : (k0_i1_3 e).map (fun t => (t.1, t.2.1, t.2.2.g)) = k0_i1_3 (e.map fun y => y.g) := by
  simp only [k0_i1_3, K0Env.map, List.map_cons, List.map_nil, Bd.g_add, Bd.g_sub, Bd.g_mul, Bd.g_div, Bd.g_neg]
private theorem k0_i1_3_r {K : Type} [Add K] [Sub K] [Mul K] [Div K] [Neg K] (e : K0Env K) : (k0_i1_3 e).map (fun t => (t.1 % 5, t.2.1 % 5, t.2.2)) = (k0_i1_3 e.ix).map (fun t => (t.1 % 5, t.2.1 % 5, t.2.2)) := by
  simp only [k0_i1_3, K0Env.ix, List.map_cons, List.map_nil, md]
private theorem k0_i1_4_a (e : K0Env (Bd f s)) : (k0_i1_4 e).map (fun t => (t.1, t.2.1, (t.2.2.a : Fo f))) = k0_i1_4 (K := Fo f) (e.map fun y => (y.a : Fo f)) := rfl
private theorem k0_i1_4_x (e : K0Env (Bd f s)) : (k0_i1_4 e).map (fun t => (t.1, t.2.1, t.2.2.x)) = k0_i1_4 (e.map fun y => y.x) := rfl
private theorem k0_i1_4_g (e : K0Env (Bd f s)) : (k0_i1_4 e).map (fun t => (t.1, t.2.1, t.2.2.g)) = k0_i1_4 (e.map fun y => y.g) := by
  simp only [k0_i1_4, K0Env.map, List.map_cons, List.map_nil, Bd.g_add, Bd.g_sub, Bd.g_mul, Bd.g_div, Bd.g_neg]
private theorem k0_i1_4_r {K : Type} [Add K] [Sub K] [Mul K] [Div K] [Neg K] (e : K0Env K) : (k0_i1_4 e).map (fun t => (t.1 % 5, t.2.1 % 5, t.2.2)) = (k0_i1_4 e.ix).map (fun t => (t.1 % 5, t.2.1 % 5, t.2.2)) := by
  simp only [k0_i1_4, K0Env.ix, List.map_cons, List.map_nil, md]
private theorem k0_i2_0_a (e : K0Env (Bd f s)) : (k0_i2_0 e).map (fun t => (t.1, t.2.1, (t.2.2.a : Fo f))) = k0_i2_0 (K := Fo f) (e.map fun y => (y.a : Fo f)) := rfl
private theorem k0_i2_0_x (e : K0Env (Bd f s)) : (k0_i2_0 e).map (fun t => (t.1, t.2.1, t.2.2.x)) = k0_i2_0 (e.map fun y => y.x) := rfl
private theorem k0_i2_0_g (e : K0Env (Bd f s)) : (k0_i2_0 e).map (fun t => (t.1, t.2.1, t.2.2.g)) = k0_i2_0 (e.map fun y => y.g) := by
  simp only [k0_i2_0, K0Env.map, List.map_cons, List.map_nil, Bd.g_add, Bd.g_sub, Bd.g_mul, Bd.g_div, Bd.g_neg]
private theorem k0_i2_0_r {K : Type} [Add K] [Sub K] [Mul K] [Div K] [Neg K] (e : K0Env K) : (k0_i2_0 e).map (fun t => (t.1 % 5, t.2.1 % 5, t.2.2)) = (k0_i2_0 e.ix).map (fun t => (t.1 % 5, t.2.1 % 5, t.2.2)) := by
  simp only [k0_i2_0, K0Env.ix, List.map_cons, List.map_nil, md]
private theorem k0_i2_1_a (e : K0Env (Bd f s)) : (k0_i2_1 e).map (fun t => (t.1, t.2.1, (t.2.2.a : Fo f))) = k0_i2_1 (K := Fo f) (e.map fun y => (y.a : Fo f)) := rfl
private theorem k0_i2_1_x (e : K0Env (Bd f s)) : (k0_i2_1 e).map (fun t => (t.1, t.2.1, t.2.2.x)) = k0_i2_1 (e.map fun y => y.x) := rfl
private theorem k0_i2_1_g (e : K0Env (Bd f s)) : (k0_i2_1 e).map (fun t => (t.1, t.2.1, t.2.2.g)) = k0_i2_1 (e.map fun y => y.g) := by
  simp only [k0_i2_1, K0Env.map, List.map_cons, List.map_nil, Bd.g_add, Bd.g_sub, Bd.g_mul, Bd.g_div, Bd.g_neg]
private theorem k0_i2_1_r {K : Type} [Add K] [Sub K] [Mul K] [Div K] [Neg K] (e : K0Env K) : (k0_i2_1 e).map (fun t => (t.1 % 5, t.2.1 % 5, t.2.2)) = (k0_i2_1 e.ix).map (fun t => (t.1 % 5, t.2.1 % 5, t.2.2)) := by
  simp only [k0_i2_1, K0Env.ix, List.map_cons, List.map_nil, md]
private theorem k0_i2_3_a (e : K0Env (Bd f s)) : (k0_i2_3 e).map (fun t => (t.1, t.2.1, (t.2.2.a : Fo f))) = k0_i2_3 (K := Fo f) (e.map fun y => (y.a : Fo f)) := rfl
private theorem k0_i2_3_x (e : K0Env (Bd f s)) : (k0_i2_3 e).map (fun t => (t.1, t.2.1, t.2.2.x)) = k0_i2_3 (e.map fun y => y.x) := rfl
private theorem k0_i2_3_g (e : K0Env (Bd f s)) : (k0_i2_3 e).map (fun t => (t.1, t.2.1, t.2.2.g)) = k0_i2_3 (e.map fun y => y.g) := by
  simp only [k0_i2_3, K0Env.map, List.map_cons, List.map_nil, Bd.g_add, Bd.g_sub, Bd.g_mul, Bd.g_div, Bd.g_neg]
private theorem k0_i2_3_r {K : Type} [Add K] [Sub K] [Mul K] [Div K] [Neg K] (e : K0Env K) : (k0_i2_3 e).map (fun t => (t.1 % 5, t.2.1 % 5, t.2.2)) = (k0_i2_3 e.ix).map (fun t => (t.1 % 5, t.2.1 % 5, t.2.2)) := by
  simp only [k0_i2_3, K0Env.ix, List.map_cons, List.map_nil, md]
private theorem k0_i2_4_a (e : K0Env (Bd f s)) : (k0_i2_4 e).map (fun t => (t.1, t.2.1, (t.2.2.a : Fo f))) = k0_i2_4 (K := Fo f) (e.map fun y => (y.a : Fo f)) := rfl
private theorem k0_i2_4_x (e : K0Env (Bd f s)) : (k0_i2_4 e).map (fun t => (t.1, t.2.1, t.2.2.x)) = k0_i2_4 (e.map fun y => y.x) := rfl
private theorem k0_i2_4_g (e : K0Env (Bd f s)) : (k0_i2_4 e).map (fun t => (t.1, t.2.1, t.2.2.g)) = k0_i2_4 (e.map fun y => y.g) := by
  simp only [k0_i2_4, K0Env.map, List.map_cons, List.map_nil, Bd.g_add, Bd.g_sub, Bd.g_mul, Bd.g_div, Bd.g_neg]
private theorem k0_i2_4_r {K : Type} [Add K] [Sub K] [Mul K] [Div K] [Neg K] (e : K0Env K) : (k0_i2_4 e).map (fun t => (t.1 % 5, t.2.1 % 5, t.2.2)) = (k0_i2_4 e.ix).map (fun t => (t.1 % 5, t.2.1 % 5, t.2.2)) := by
  simp only [k0_i2_4, K0Env.ix, List.map_cons, List.map_nil, md]
private theorem k0_i3_0_a (e : K0Env (Bd f s)) : (k0_i3_0 e).map (fun t => (t.1, t.2.1, (t.2.2.a : Fo f))) = k0_i3_0 (K := Fo f) (e.map fun y => (y.a : Fo f)) := rfl
private theorem k0_i3_0_x (e : K0Env (Bd f s)) : (k0_i3_0 e).map (fun t => (t.1, t.2.1, t.2.2.x)) = k0_i3_0 (e.map fun y => y.x) := rfl
private theorem k0_i3_0_g (e : K0Env (Bd f s)) : (k0_i3_0 e).map (fun t => (t.1, t.2.1, t.2.2.g)) = k0_i3_0 (e.map fun y => y.g) := by
  simp only [k0_i3_0, K0Env.map, List.map_cons, List.map_nil, Bd.g_add, Bd.g_sub, Bd.g_mul, Bd.g_div, Bd.g_neg]
private theorem k0_i3_0_r {K : Type} [Add K] [Sub K] [Mul K] [Div K] [Neg K] (e : K0Env K) : (k0_i3_0 e).map (fun t => (t.1 % 5, t.2.1 % 5, t.2.2)) = (k0_i3_0 e.ix).map (fun t => (t.1 % 5, t.2.1 % 5, t.2.2)) := by
  simp only [k0_i3_0, K0Env.ix, List.map_cons, List.map_nil, md]
private theorem k0_i3_1_a (e : K0Env (Bd f s)) : (k0_i3_1 e).map (fun t => (t.1, t.2.1, (t.2.2.a : Fo f))) = k0_i3_1 (K := Fo f) (e.map fun y => (y.a : Fo f)) := rfl
private theorem k0_i3_1_x (e : K0Env (Bd f s)) : (k0_i3_1 e).map (fun t => (t.1, t.2.1, t.2.2.x)) = k0_i3_1 (e.map fun y => y.x) := rfl
private theorem k0_i3_1_g (e : K0Env (Bd f s)) : (k0_i3_1 e).map (fun t => (t.1, t.2.1, t.2.2.g)) = k0_i3_1 (e.map fun y => y.g) := by
  simp only [k0_i3_1, K0Env.map, List.map_cons, List.map_nil, Bd.g_add, Bd.g_sub, Bd.g_mul, Bd.g_div, Bd.g_neg]
private theorem k0_i3_1_r {K : Type} [Add K] [Sub K] [Mul K] [Div K] [Neg K] (e : K0Env K) : (k0_i3_1 e).map (fun t => (t.1 % 5, t.2.1 % 5, t.2.2)) = (k0_i3_1 e.ix).map (fun t => (t.1 % 5, t.2.1 % 5, t.2.2)) := by
  simp only [k0_i3_1, K0Env.ix, List.map_cons, List.map_nil, md]
private theorem k0_i3_3_a (e : K0Env (Bd f s)) : (k0_i3_3 e).map (fun t => (t.1, t.2.1, (t.2.2.a : Fo f))) = k0_i3_3 (K := Fo f) (e.map fun y => (y.a : Fo f)) := rfl
private theorem k0_i3_3_x (e : K0Env (Bd f s)) : (k0_i3_3 e).map (fun t => (t.1, t.2.1, t.2.2.x)) = k0_i3_3 (e.map fun y => y.x) := rfl
private theorem k0_i3_3_g (e : K0Env (Bd f s)) : (k0_i3_3 e).map (fun t => (t.1, t.2.1, t.2.2.g)) = k0_i3_3 (e.map fun y => y.g) := by
  simp only [k0_i3_3, K0Env.map, List.map_cons, List.map_nil, Bd.g_add, Bd.g_sub, Bd.g_mul, Bd.g_div, Bd.g_neg]
private theorem k0_i3_3_r {K : Type} [Add K] [Sub K] [Mul K] [Div K] [Neg K] (e : K0Env K) : (k0_i3_3 e).map (fun t => (t.1 % 5, t.2.1 % 5, t.2.2)) = (k0_i3_3 e.ix).map (fun t => (t.1 % 5, t.2.1 % 5, t.2.2)) := by
  simp only [k0_i3_3, K0Env.ix, List.map_cons, List.map_nil, md]
private theorem k0_i3_4_a (e : K0Env (Bd f s)) : (k0_i3_4 e).map (fun t => (t.1, t.2.1, (t.2.2.a : Fo f))) = k0_i3_4 (K := Fo f) (e.map fun y => (y.a : Fo f)) := rfl
private theorem k0_i3_4_x (e : K0Env (Bd f s)) : (k0_i3_4 e).map (fun t => (t.1, t.2.1, t.2.2.x)) = k0_i3_4 (e.map fun y => y.x) := rfl
private theorem k0_i3_4_g (e : K0Env (Bd f s)) : (k0_i3_4 e).map (fun t => (t.1, t.2.1, t.2.2.g)) = k0_i3_4 (e.map fun y => y.g) := by
  simp only [k0_i3_4, K0Env.map, List.map_cons, List.map_nil, Bd.g_add, Bd.g_sub, Bd.g_mul, Bd.g_div, Bd.g_neg]
private theorem k0_i3_4_r {K : Type} [Add K] [Sub K] [Mul K] [Div K] [Neg K] (e : K0Env K) : (k0_i3_4 e).map (fun t => (t.1 % 5, t.2.1 % 5, t.2.2)) = (k0_i3_4 e.ix).map (fun t => (t.1 % 5, t.2.1 % 5, t.2.2)) := by
  simp only [k0_i3_4, K0Env.ix, List.map_cons, List.map_nil, md]
private theorem k0_i4_0_a (e : K0Env (Bd f s)) : (k0_i4_0 e).map (fun t => (t.1, t.2.1, (t.2.2.a : Fo f))) = k0_i4_0 (K := Fo f) (e.map fun y => (y.a : Fo f)) := rfl
private theorem k0_i4_0_x (e : K0Env (Bd f s)) : (k0_i4_0 e).map (fun t => (t.1, t.2.1, t.2.2.x)) = k0_i4_0 (e.map fun y => y.x) := rfl
private theorem k0_i4_0_g (e : K0Env (Bd f s)) : (k0_i4_0 e).map (fun t => (t.1, t.2.1, t.2.2.g)) = k0_i4_0 (e.map fun y => y.g) := by
  simp only [k0_i4_0, K0Env.map, List.map_cons, List.map_nil, Bd.g_add, Bd.g_sub, Bd.g_mul, Bd.g_div, Bd.g_neg]
private theorem k0_i4_0_r {K : Type} [Add K] [Sub K] [Mul K] [Div K] [Neg K] (e : K0Env K) : (k0_i4_0 e).map (fun t => (t.1 % 5, t.2.1 % 5, t.2.2)) = (k0_i4_0 e.ix).map (fun t => (t.1 % 5, t.2.1 % 5, t.2.2)) := by
  simp only [k0_i4_0, K0Env.ix, List.map_cons, List.map_nil, md]
private theorem k0_i4_1_a (e : K0Env (Bd f s)) : (k0_i4_1 e).map (fun t => (t.1, t.2.1, (t.2.2.a : Fo f))) = k0_i4_1 (K := Fo f) (e.map fun y => (y.a : Fo f)) := rfl
private theorem k0_i4_1_x (e : K0Env (Bd f s)) : (k0_i4_1 e).map (fun t => (t.1, t.2.1, t.2.2.x)) = k0_i4_1 (e.map fun y => y.x) := rfl
private theorem k0_i4_1_g (e : K0Env (Bd f s)) : (k0_i4_1 e).map (fun t => (t.1, t.2.1, t.2.2.g)) = k0_i4_1 (e.map fun y => y.g) := by
  simp only [k0_i4_1, K0Env.map, List.map_cons, List.map_nil, Bd.g_add, Bd.g_sub, Bd.g_mul, Bd.g_div, Bd.g_neg]
private theorem k0_i4_1_r {K : Type} [Add K] [Sub K] [Mul K] [Div K] [Neg K] (e : K0Env K) : (k0_i4_1 e).map (fun t => (t.1 % 5, t.2.1 % 5, t.2.2)) = (k0_i4_1 e.ix).map (fun t => (t.1 % 5, t.2.1 % 5, t.2.2)) := by
  simp only [k0_i4_1, K0Env.ix, List.map_cons, List.map_nil, md]
private theorem k0_i4_3_a (e : K0Env (Bd f s)) : (k0_i4_3 e).map (fun t => (t.1, t.2.1, (t.2.2.a : Fo f))) = k0_i4_3 (K := Fo f) (e.map fun y => (y.a : Fo f)) := rfl
private theorem k0_i4_3_x (e : K0Env (Bd f s)) : (k0_i4_3 e).map (fun t => (t.1, t.2.1, t.2.2.x)) = k0_i4_3 (e.map fun y => y.x) := rfl
private theorem k0_i4_3_g (e : K0Env (Bd f s)) : (k0_i4_3 e).map (fun t => (t.1, t.2.1, t.2.2.g)) = k0_i4_3 (e.map fun y => y.g) := by
  simp only [k0_i4_3, K0Env.map, List.map_cons, List.map_nil, Bd.g_add, Bd.g_sub, Bd.g_mul, Bd.g_div, Bd.g_neg]
private theorem k0_i4_3_r {K : Type} [Add K] [Sub K] [Mul K] [Div K] [Neg K] (e : K0Env K) : (k0_i4_3 e).map (fun t => (t.1 % 5, t.2.1 % 5, t.2.2)) = (k0_i4_3 e.ix).map (fun t => (t.1 % 5, t.2.1 % 5, t.2.2)) := by
  simp only [k0_i4_3, K0Env.ix, List.map_cons, List.map_nil, md]
private theorem k0_i4_4_a (e : K0Env (Bd f s)) : (k0_i4_4 e).map (fun t => (t.1, t.2.1, (t.2.2.a : Fo f))) = k0_i4_4 (K := Fo f) (e.map fun y => (y.a : Fo f)) := rfl
private theorem k0_i4_4_x (e : K0Env (Bd f s)) : (k0_i4_4 e).map (fun t => (t.1, t.2.1, t.2.2.x)) = k0_i4_4 (e.map fun y => y.x) := rfl
private theorem k0_i4_4_g (e : K0Env (Bd f s)) : (k0_i4_4 e).map (fun t => (t.1, t.2.1, t.2.2.g)) = k0_i4_4 (e.map fun y => y.g) := by
  simp only [k0_i4_4, K0Env.map, List.map_cons, List.map_nil, Bd.g_add, Bd.g_sub, Bd.g_mul, Bd.g_div, Bd.g_neg]
private theorem k0_i4_4_r {K : Type} [Add K] [Sub K] [Mul K] [Div K] [Neg K] (e : K0Env K) : (k0_i4_4 e).map (fun t => (t.1 % 5, t.2.1 % 5, t.2.2)) = (k0_i4_4 e.ix).map (fun t => (t.1 % 5, t.2.1 % 5, t.2.2)) := by
  simp only [k0_i4_4, K0Env.ix, List.map_cons, List.map_nil, md]

private theorem k0Entries_a (e : K0Env (Bd f s)) : (k0Entries e).map (fun t => (t.1, t.2.1, (t.2.2.a : Fo f))) = k0Entries (K := Fo f) (e.map fun y => (y.a : Fo f)) := by
  unfold k0Entries
  simp only [List.map_append, k0_i1_0_a, k0_i1_1_a, k0_i1_3_a, k0_i1_4_a, k0_i2_0_a, k0_i2_1_a, k0_i2_3_a, k0_i2_4_a, k0_i3_0_a, k0_i3_1_a, k0_i3_3_a, k0_i3_4_a, k0_i4_0_a, k0_i4_1_a, k0_i4_3_a, k0_i4_4_a]

private theorem k0Entries_x (e : K0Env (Bd f s)) : (k0Entries e).map (fun t => (t.1, t.2.1, t.2.2.x)) = k0Entries (e.map fun y => y.x) := by
  unfold k0Entries
  simp only [List.map_append, k0_i1_0_x, k0_i1_1_x, k0_i1_3_x, k0_i1_4_x, k0_i2_0_x, k0_i2_1_x, k0_i2_3_x, k0_i2_4_x, k0_i3_0_x, k0_i3_1_x, k0_i3_3_x, k0_i3_4_x, k0_i4_0_x, k0_i4_1_x, k0_i4_3_x, k0_i4_4_x]

private theorem k0Entries_g (e : K0Env (Bd f s)) : (k0Entries e).map (fun t => (t.1, t.2.1, t.2.2.g)) = k0Entries (e.map fun y => y.g) := by
  unfold k0Entries
  simp only [List.map_append, k0_i1_0_g, k0_i1_1_g, k0_i1_3_g, k0_i1_4_g, k0_i2_0_g, k0_i2_1_g, k0_i2_3_g, k0_i2_4_g, k0_i3_0_g, k0_i3_1_g, k0_i3_3_g, k0_i3_4_g, k0_i4_0_g, k0_i4_1_g, k0_i4_3_g, k0_i4_4_g]

private theorem k0Entries_r {K : Type} [Add K] [Sub K] [Mul K] [Div K] [Neg K] (e : K0Env K) : (k0Entries e).map (fun t => (t.1 % 5, t.2.1 % 5, t.2.2)) = (k0Entries e.ix).map (fun t => (t.1 % 5, t.2.1 % 5, t.2.2)) := by
  unfold k0Entries
  simp only [List.map_append]
  rw [k0_i1_0_r, k0_i1_1_r, k0_i1_3_r, k0_i1_4_r, k0_i2_0_r, k0_i2_1_r, k0_i2_3_r, k0_i2_4_r, k0_i3_0_r, k0_i3_1_r, k0_i3_3_r, k0_i3_4_r, k0_i4_0_r, k0_i4_1_r, k0_i4_3_r, k0_i4_4_r]

/-- the increments are within the bounds `M`, `E` -/
noncomputable def Prof.chk (p : Prof) : Bool := (k0Entries (env0 p)).all fun t => t.2.2.dom (vE p t.1 t.2.1)

/-- the increments computed from numbers within bounds are within bounds -/
theorem k0Entries_has {p : Prof} (hc : p.chk = true) {c : K0Env Flo} {e : K0Env ℝ} (h : HasEnv s p c e) :
    List.Forall₂ (fun x y => x.1 = y.1 ∧ x.2.1 = y.2.1 ∧ (vE p x.1 x.2.1).Has s x.2.2 y.2.2) (k0Entries (K := Fo f) c) (k0Entries e) := by
  have e1 : c = (bd f h).map fun y => y.a := by
    obtain ⟨⟩ := c; obtain ⟨⟩ := e
    obtain rfl := h.i1; obtain rfl := h.i2; obtain rfl := h.i3; obtain rfl := h.i4
    rfl
  have e2 : e = (bd f h).map fun y => y.x := rfl
  have l1 : k0Entries (K := Fo f) c = (k0Entries (bd f h)).map (fun t => (t.1, t.2.1, (t.2.2.a : Fo f))) := by
    rw [k0Entries_a]; exact congrArg (k0Entries (K := Fo f)) e1
  have l2 : k0Entries e = (k0Entries (bd f h)).map (fun t => (t.1, t.2.1, t.2.2.x)) := by
    rw [k0Entries_x]; exact congrArg k0Entries e2
  rw [l1, l2, List.forall₂_map_left_iff, List.forall₂_map_right_iff, List.forall₂_same]
  intro t ht
  refine ⟨rfl, rfl, ?_⟩
  have h1 : (t.1 % 5, t.2.1 % 5, t.2.2.g) ∈ (k0Entries (env0 p)).map (fun t => (t.1 % 5, t.2.1 % 5, t.2.2)) := by
    have h3 := k0Entries_r ((bd f h).map fun y => y.g)
    rw [← k0Entries_g, List.map_map] at h3
    have h4 : ((bd f h).map fun y => y.g).ix = env0 p := rfl
    rw [h4] at h3
    rw [← h3]
    exact List.mem_map.2 ⟨t, ht, rfl⟩
  obtain ⟨t0, ht0, he⟩ := List.mem_map.1 h1
  have a1 : t0.1 % 5 = t.1 % 5 := congrArg Prod.fst he
  have a2 : t0.2.1 % 5 = t.2.1 % 5 := congrArg (fun z => z.2.1) he
  have a3 : t0.2.2 = t.2.2.g := congrArg (fun z => z.2.2) he
  have hd := List.all_eq_true.1 hc t0 ht0
  have hd' : t.2.2.g.dom (vE p t.1 t.2.1) = true := by
    rw [← a3]
    have : vE p t.1 t.2.1 = vE p t0.1 t0.2.1 := by unfold vE; rw [← a1, ← a2]
    rw [this]; exact hd
  exact t.2.2.h.dom hd'

end

end Meshless
