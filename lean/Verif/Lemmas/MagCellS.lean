import Verif.Lemmas.MagCell

/-! GENERATED by /verif/tools/genmagcell.py: explicit bounds of the increments of Model/Gen/CellS.lean, group by group. -/

set_option autoImplicit false
set_option maxRecDepth 10000
set_option linter.unusedSimpArgs false
set_option linter.unusedSectionVars false

namespace Meshless
open Spec Mg

variable {f : Fmt} {s : Units}

/-- the bounds of the local variables of `add_k0s` -/
def cellS0 (p : ProfS) : CellSEnv Mh :=
  { i1 := 0, i2 := 1, i3 := 2, Ac := ⟨wA p⟩, Ac1 := ⟨wB p⟩, Ac2 := ⟨wB p⟩, Ac3 := ⟨wB p⟩, E44 := ⟨wE p⟩, E45 := ⟨wZ⟩, E55 := ⟨wE p⟩, a1 := ⟨wD p⟩, b1 := ⟨wD p⟩, c1 := ⟨wD p⟩, d1 := ⟨wD p⟩, a2 := ⟨wD p⟩, b2 := ⟨wD p⟩, c2 := ⟨wD p⟩, d2 := ⟨wD p⟩, a3 := ⟨wD p⟩, b3 := ⟨wD p⟩, c3 := ⟨wD p⟩, d3 := ⟨wD p⟩ }

/-- the local variables of `add_k0s` within these bounds -/
structure HasCellS (s : Units) (p : ProfS) (c : CellSEnv Flo) (e : CellSEnv ℝ) : Prop where
  i1 : c.i1 = e.i1
  i2 : c.i2 = e.i2
  i3 : c.i3 = e.i3
  Ac : (wA p).Has s c.Ac e.Ac
  Ac1 : (wB p).Has s c.Ac1 e.Ac1
  Ac2 : (wB p).Has s c.Ac2 e.Ac2
  Ac3 : (wB p).Has s c.Ac3 e.Ac3
  E44 : (wE p).Has s c.E44 e.E44
  E45 : (wZ).Has s c.E45 e.E45
  E55 : (wE p).Has s c.E55 e.E55
  a1 : (wD p).Has s c.a1 e.a1
  b1 : (wD p).Has s c.b1 e.b1
  c1 : (wD p).Has s c.c1 e.c1
  d1 : (wD p).Has s c.d1 e.d1
  a2 : (wD p).Has s c.a2 e.a2
  b2 : (wD p).Has s c.b2 e.b2
  c2 : (wD p).Has s c.c2 e.c2
  d2 : (wD p).Has s c.d2 e.d2
  a3 : (wD p).Has s c.a3 e.a3
  b3 : (wD p).Has s c.b3 e.b3
  c3 : (wD p).Has s c.c3 e.c3
  d3 : (wD p).Has s c.d3 e.d3

/-- the variables with their bounds -/
def cellSBh (f : Fmt) {p : ProfS} {c : CellSEnv Flo} {e : CellSEnv ℝ} (h : HasCellS s p c e) : CellSEnv (Bh f s) :=
  { i1 := e.i1, i2 := e.i2, i3 := e.i3, Ac := ⟨⟨wA p⟩, c.Ac, e.Ac, h.Ac⟩, Ac1 := ⟨⟨wB p⟩, c.Ac1, e.Ac1, h.Ac1⟩, Ac2 := ⟨⟨wB p⟩, c.Ac2, e.Ac2, h.Ac2⟩, Ac3 := ⟨⟨wB p⟩, c.Ac3, e.Ac3, h.Ac3⟩, E44 := ⟨⟨wE p⟩, c.E44, e.E44, h.E44⟩, E45 := ⟨⟨wZ⟩, c.E45, e.E45, h.E45⟩, E55 := ⟨⟨wE p⟩, c.E55, e.E55, h.E55⟩, a1 := ⟨⟨wD p⟩, c.a1, e.a1, h.a1⟩, b1 := ⟨⟨wD p⟩, c.b1, e.b1, h.b1⟩, c1 := ⟨⟨wD p⟩, c.c1, e.c1, h.c1⟩, d1 := ⟨⟨wD p⟩, c.d1, e.d1, h.d1⟩, a2 := ⟨⟨wD p⟩, c.a2, e.a2, h.a2⟩, b2 := ⟨⟨wD p⟩, c.b2, e.b2, h.b2⟩, c2 := ⟨⟨wD p⟩, c.c2, e.c2, h.c2⟩, d2 := ⟨⟨wD p⟩, c.d2, e.d2, h.d2⟩, a3 := ⟨⟨wD p⟩, c.a3, e.a3, h.a3⟩, b3 := ⟨⟨wD p⟩, c.b3, e.b3, h.b3⟩, c3 := ⟨⟨wD p⟩, c.c3, e.c3, h.c3⟩, d3 := ⟨⟨wD p⟩, c.d3, e.d3, h.d3⟩ }

def CellSEnv.ix {K : Type} (e : CellSEnv K) : CellSEnv K := { e with i1 := 0, i2 := 1, i3 := 2 }

section
variable [hf : Spec.Double f]

private theorem cellS_i1_2_a (e : CellSEnv (Bh f s)) : (cellS_i1_2 e).map (fun t => (t.1, t.2.1, (t.2.2.a : Fo f))) = cellS_i1_2 (K := Fo f) (e.map fun y => (y.a : Fo f)) := rfl
private theorem cellS_i1_2_x (e : CellSEnv (Bh f s)) : (cellS_i1_2 e).map (fun t => (t.1, t.2.1, t.2.2.x)) = cellS_i1_2 (e.map fun y => y.x) := rfl
private theorem cellS_i1_2_g (e : CellSEnv (Bh f s)) : (cellS_i1_2 e).map (fun t => (t.1, t.2.1, t.2.2.g)) = cellS_i1_2 (e.map fun y => y.g) := by
  simp only [cellS_i1_2, CellSEnv.map, List.map_cons, List.map_nil, Bh.g_add, Bh.g_sub, Bh.g_mul, Bh.g_div, Bh.g_neg, Bh.g_2, Bh.g_4, Bh.g_8, Bh.g_sci]
private theorem cellS_i1_2_r {K : Type} [Add K] [Sub K] [Mul K] [Div K] [Neg K] [OfNat K 2] [OfNat K 4] [OfScientific K] (e : CellSEnv K) : (cellS_i1_2 e).map (fun t => (t.1 % 5, t.2.1 % 5, t.2.2)) = (cellS_i1_2 e.ix).map (fun t => (t.1 % 5, t.2.1 % 5, t.2.2)) := by
  simp only [cellS_i1_2, CellSEnv.ix, List.map_cons, List.map_nil, md]
private theorem cellS_i1_3_a (e : CellSEnv (Bh f s)) : (cellS_i1_3 e).map (fun t => (t.1, t.2.1, (t.2.2.a : Fo f))) = cellS_i1_3 (K := Fo f) (e.map fun y => (y.a : Fo f)) := rfl
private theorem cellS_i1_3_x (e : CellSEnv (Bh f s)) : (cellS_i1_3 e).map (fun t => (t.1, t.2.1, t.2.2.x)) = cellS_i1_3 (e.map fun y => y.x) := rfl
private theorem cellS_i1_3_g (e : CellSEnv (Bh f s)) : (cellS_i1_3 e).map (fun t => (t.1, t.2.1, t.2.2.g)) = cellS_i1_3 (e.map fun y => y.g) := by
  simp only [cellS_i1_3, CellSEnv.map, List.map_cons, List.map_nil, Bh.g_add, Bh.g_sub, Bh.g_mul, Bh.g_div, Bh.g_neg, Bh.g_2, Bh.g_4, Bh.g_8, Bh.g_sci]
private theorem cellS_i1_3_r {K : Type} [Add K] [Sub K] [Mul K] [Div K] [Neg K] [OfNat K 2] [OfNat K 4] [OfScientific K] (e : CellSEnv K) : (cellS_i1_3 e).map (fun t => (t.1 % 5, t.2.1 % 5, t.2.2)) = (cellS_i1_3 e.ix).map (fun t => (t.1 % 5, t.2.1 % 5, t.2.2)) := by
  simp only [cellS_i1_3, CellSEnv.ix, List.map_cons, List.map_nil, md]
private theorem cellS_i1_4_a (e : CellSEnv (Bh f s)) : (cellS_i1_4 e).map (fun t => (t.1, t.2.1, (t.2.2.a : Fo f))) = cellS_i1_4 (K := Fo f) (e.map fun y => (y.a : Fo f)) := rfl
private theorem cellS_i1_4_x (e : CellSEnv (Bh f s)) : (cellS_i1_4 e).map (fun t => (t.1, t.2.1, t.2.2.x)) = cellS_i1_4 (e.map fun y => y.x) := rfl
private theorem cellS_i1_4_g (e : CellSEnv (Bh f s)) : (cellS_i1_4 e).map (fun t => (t.1, t.2.1, t.2.2.g)) = cellS_i1_4 (e.map fun y => y.g) := by
  simp only [cellS_i1_4, CellSEnv.map, List.map_cons, List.map_nil, Bh.g_add, Bh.g_sub, Bh.g_mul, Bh.g_div, Bh.g_neg, Bh.g_2, Bh.g_4, Bh.g_8, Bh.g_sci]
private theorem cellS_i1_4_r {K : Type} [Add K] [Sub K] [Mul K] [Div K] [Neg K] [OfNat K 2] [OfNat K 4] [OfScientific K] (e : CellSEnv K) : (cellS_i1_4 e).map (fun t => (t.1 % 5, t.2.1 % 5, t.2.2)) = (cellS_i1_4 e.ix).map (fun t => (t.1 % 5, t.2.1 % 5, t.2.2)) := by
  simp only [cellS_i1_4, CellSEnv.ix, List.map_cons, List.map_nil, md]
private theorem cellS_i2_2_a (e : CellSEnv (Bh f s)) : (cellS_i2_2 e).map (fun t => (t.1, t.2.1, (t.2.2.a : Fo f))) = cellS_i2_2 (K := Fo f) (e.map fun y => (y.a : Fo f)) := rfl
private theorem cellS_i2_2_x (e : CellSEnv (Bh f s)) : (cellS_i2_2 e).map (fun t => (t.1, t.2.1, t.2.2.x)) = cellS_i2_2 (e.map fun y => y.x) := rfl
private theorem cellS_i2_2_g (e : CellSEnv (Bh f s)) : (cellS_i2_2 e).map (fun t => (t.1, t.2.1, t.2.2.g)) = cellS_i2_2 (e.map fun y => y.g) := by
  simp only [cellS_i2_2, CellSEnv.map, List.map_cons, List.map_nil, Bh.g_add, Bh.g_sub, Bh.g_mul, Bh.g_div, Bh.g_neg, Bh.g_2, Bh.g_4, Bh.g_8, Bh.g_sci]
private theorem cellS_i2_2_r {K : Type} [Add K] [Sub K] [Mul K] [Div K] [Neg K] [OfNat K 2] [OfNat K 4] [OfScientific K] (e : CellSEnv K) : (cellS_i2_2 e).map (fun t => (t.1 % 5, t.2.1 % 5, t.2.2)) = (cellS_i2_2 e.ix).map (fun t => (t.1 % 5, t.2.1 % 5, t.2.2)) := by
  simp only [cellS_i2_2, CellSEnv.ix, List.map_cons, List.map_nil, md]
private theorem cellS_i2_3_a (e : CellSEnv (Bh f s)) : (cellS_i2_3 e).map (fun t => (t.1, t.2.1, (t.2.2.a : Fo f))) = cellS_i2_3 (K := Fo f) (e.map fun y => (y.a : Fo f)) := rfl
private theorem cellS_i2_3_x (e : CellSEnv (Bh f s)) : (cellS_i2_3 e).map (fun t => (t.1, t.2.1, t.2.2.x)) = cellS_i2_3 (e.map fun y => y.x) := rfl
private theorem cellS_i2_3_g (e : CellSEnv (Bh f s)) : (cellS_i2_3 e).map (fun t => (t.1, t.2.1, t.2.2.g)) = cellS_i2_3 (e.map fun y => y.g) := by
  simp only [cellS_i2_3, CellSEnv.map, List.map_cons, List.map_nil, Bh.g_add, Bh.g_sub, Bh.g_mul, Bh.g_div, Bh.g_neg, Bh.g_2, Bh.g_4, Bh.g_8, Bh.g_sci]
private theorem cellS_i2_3_r {K : Type} [Add K] [Sub K] [Mul K] [Div K] [Neg K] [OfNat K 2] [OfNat K 4] [OfScientific K] (e : CellSEnv K) : (cellS_i2_3 e).map (fun t => (t.1 % 5, t.2.1 % 5, t.2.2)) = (cellS_i2_3 e.ix).map (fun t => (t.1 % 5, t.2.1 % 5, t.2.2)) := by
  simp only [cellS_i2_3, CellSEnv.ix, List.map_cons, List.map_nil, md]
private theorem cellS_i2_4_a (e : CellSEnv (Bh f s)) : (cellS_i2_4 e).map (fun t => (t.1, t.2.1, (t.2.2.a : Fo f))) = cellS_i2_4 (K := Fo f) (e.map fun y => (y.a : Fo f)) := rfl
private theorem cellS_i2_4_x (e : CellSEnv (Bh f s)) : (cellS_i2_4 e).map (fun t => (t.1, t.2.1, t.2.2.x)) = cellS_i2_4 (e.map fun y => y.x) := rfl
private theorem cellS_i2_4_g (e : CellSEnv (Bh f s)) : (cellS_i2_4 e).map (fun t => (t.1, t.2.1, t.2.2.g)) = cellS_i2_4 (e.map fun y => y.g) := by
  simp only [cellS_i2_4, CellSEnv.map, List.map_cons, List.map_nil, Bh.g_add, Bh.g_sub, Bh.g_mul, Bh.g_div, Bh.g_neg, Bh.g_2, Bh.g_4, Bh.g_8, Bh.g_sci]
private theorem cellS_i2_4_r {K : Type} [Add K] [Sub K] [Mul K] [Div K] [Neg K] [OfNat K 2] [OfNat K 4] [OfScientific K] (e : CellSEnv K) : (cellS_i2_4 e).map (fun t => (t.1 % 5, t.2.1 % 5, t.2.2)) = (cellS_i2_4 e.ix).map (fun t => (t.1 % 5, t.2.1 % 5, t.2.2)) := by
  simp only [cellS_i2_4, CellSEnv.ix, List.map_cons, List.map_nil, md]
private theorem cellS_i3_2_a (e : CellSEnv (Bh f s)) : (cellS_i3_2 e).map (fun t => (t.1, t.2.1, (t.2.2.a : Fo f))) = cellS_i3_2 (K := Fo f) (e.map fun y => (y.a : Fo f)) := rfl
private theorem cellS_i3_2_x (e : CellSEnv (Bh f s)) : (cellS_i3_2 e).map (fun t => (t.1, t.2.1, t.2.2.x)) = cellS_i3_2 (e.map fun y => y.x) := rfl
private theorem cellS_i3_2_g (e : CellSEnv (Bh f s)) : (cellS_i3_2 e).map (fun t => (t.1, t.2.1, t.2.2.g)) = cellS_i3_2 (e.map fun y => y.g) := by
  simp only [cellS_i3_2, CellSEnv.map, List.map_cons, List.map_nil, Bh.g_add, Bh.g_sub, Bh.g_mul, Bh.g_div, Bh.g_neg, Bh.g_2, Bh.g_4, Bh.g_8, Bh.g_sci]
private theorem cellS_i3_2_r {K : Type} [Add K] [Sub K] [Mul K] [Div K] [Neg K] [OfNat K 2] [OfNat K 4] [OfScientific K] (e : CellSEnv K) : (cellS_i3_2 e).map (fun t => (t.1 % 5, t.2.1 % 5, t.2.2)) = (cellS_i3_2 e.ix).map (fun t => (t.1 % 5, t.2.1 % 5, t.2.2)) := by
  simp only [cellS_i3_2, CellSEnv.ix, List.map_cons, List.map_nil, md]
private theorem cellS_i3_3_a (e : CellSEnv (Bh f s)) : (cellS_i3_3 e).map (fun t => (t.1, t.2.1, (t.2.2.a : Fo f))) = cellS_i3_3 (K := Fo f) (e.map fun y => (y.a : Fo f)) := rfl
private theorem cellS_i3_3_x (e : CellSEnv (Bh f s)) : (cellS_i3_3 e).map (fun t => (t.1, t.2.1, t.2.2.x)) = cellS_i3_3 (e.map fun y => y.x) := rfl
private theorem cellS_i3_3_g (e : CellSEnv (Bh f s)) : (cellS_i3_3 e).map (fun t => (t.1, t.2.1, t.2.2.g)) = cellS_i3_3 (e.map fun y => y.g) := by
  simp only [cellS_i3_3, CellSEnv.map, List.map_cons, List.map_nil, Bh.g_add, Bh.g_sub, Bh.g_mul, Bh.g_div, Bh.g_neg, Bh.g_2, Bh.g_4, Bh.g_8, Bh.g_sci]
private theorem cellS_i3_3_r {K : Type} [Add K] [Sub K] [Mul K] [Div K] [Neg K] [OfNat K 2] [OfNat K 4] [OfScientific K] (e : CellSEnv K) : (cellS_i3_3 e).map (fun t => (t.1 % 5, t.2.1 % 5, t.2.2)) = (cellS_i3_3 e.ix).map (fun t => (t.1 % 5, t.2.1 % 5, t.2.2)) := by
  simp only [cellS_i3_3, CellSEnv.ix, List.map_cons, List.map_nil, md]
private theorem cellS_i3_4_a (e : CellSEnv (Bh f s)) : (cellS_i3_4 e).map (fun t => (t.1, t.2.1, (t.2.2.a : Fo f))) = cellS_i3_4 (K := Fo f) (e.map fun y => (y.a : Fo f)) := rfl
private theorem cellS_i3_4_x (e : CellSEnv (Bh f s)) : (cellS_i3_4 e).map (fun t => (t.1, t.2.1, t.2.2.x)) = cellS_i3_4 (e.map fun y => y.x) := rfl
private theorem cellS_i3_4_g (e : CellSEnv (Bh f s)) : (cellS_i3_4 e).map (fun t => (t.1, t.2.1, t.2.2.g)) = cellS_i3_4 (e.map fun y => y.g) := by
  simp only [cellS_i3_4, CellSEnv.map, List.map_cons, List.map_nil, Bh.g_add, Bh.g_sub, Bh.g_mul, Bh.g_div, Bh.g_neg, Bh.g_2, Bh.g_4, Bh.g_8, Bh.g_sci]
private theorem cellS_i3_4_r {K : Type} [Add K] [Sub K] [Mul K] [Div K] [Neg K] [OfNat K 2] [OfNat K 4] [OfScientific K] (e : CellSEnv K) : (cellS_i3_4 e).map (fun t => (t.1 % 5, t.2.1 % 5, t.2.2)) = (cellS_i3_4 e.ix).map (fun t => (t.1 % 5, t.2.1 % 5, t.2.2)) := by
  simp only [cellS_i3_4, CellSEnv.ix, List.map_cons, List.map_nil, md]

private theorem cellSEntries_a (e : CellSEnv (Bh f s)) : (cellSEntries e).map (fun t => (t.1, t.2.1, (t.2.2.a : Fo f))) = cellSEntries (K := Fo f) (e.map fun y => (y.a : Fo f)) := by
  unfold cellSEntries
  simp only [List.map_append, cellS_i1_2_a, cellS_i1_3_a, cellS_i1_4_a, cellS_i2_2_a, cellS_i2_3_a, cellS_i2_4_a, cellS_i3_2_a, cellS_i3_3_a, cellS_i3_4_a]

private theorem cellSEntries_x (e : CellSEnv (Bh f s)) : (cellSEntries e).map (fun t => (t.1, t.2.1, t.2.2.x)) = cellSEntries (e.map fun y => y.x) := by
  unfold cellSEntries
  simp only [List.map_append, cellS_i1_2_x, cellS_i1_3_x, cellS_i1_4_x, cellS_i2_2_x, cellS_i2_3_x, cellS_i2_4_x, cellS_i3_2_x, cellS_i3_3_x, cellS_i3_4_x]

private theorem cellSEntries_g (e : CellSEnv (Bh f s)) : (cellSEntries e).map (fun t => (t.1, t.2.1, t.2.2.g)) = cellSEntries (e.map fun y => y.g) := by
  unfold cellSEntries
  simp only [List.map_append, cellS_i1_2_g, cellS_i1_3_g, cellS_i1_4_g, cellS_i2_2_g, cellS_i2_3_g, cellS_i2_4_g, cellS_i3_2_g, cellS_i3_3_g, cellS_i3_4_g]

private theorem cellSEntries_r {K : Type} [Add K] [Sub K] [Mul K] [Div K] [Neg K] [OfNat K 2] [OfNat K 4] [OfScientific K] (e : CellSEnv K) : (cellSEntries e).map (fun t => (t.1 % 5, t.2.1 % 5, t.2.2)) = (cellSEntries e.ix).map (fun t => (t.1 % 5, t.2.1 % 5, t.2.2)) := by
  unfold cellSEntries
  simp only [List.map_append]
  rw [cellS_i1_2_r, cellS_i1_3_r, cellS_i1_4_r, cellS_i2_2_r, cellS_i2_3_r, cellS_i2_4_r, cellS_i3_2_r, cellS_i3_3_r, cellS_i3_4_r]

/-- the increments are within the bounds `M`, `E` -/
noncomputable def ProfS.chkCellS (p : ProfS) : Bool := (cellSEntries (cellS0 p)).all fun t => t.2.2.v.dom (wX p t.1 t.2.1)

/-- the increments computed from numbers within bounds are within bounds -/
theorem cellSEntries_has {p : ProfS} (hc : p.chkCellS = true) {c : CellSEnv Flo} {e : CellSEnv ℝ} (h : HasCellS s p c e) :
    List.Forall₂ (fun x y => x.1 = y.1 ∧ x.2.1 = y.2.1 ∧ (wX p x.1 x.2.1).Has s x.2.2 y.2.2) (cellSEntries (K := Fo f) c) (cellSEntries e) := by
  have e1 : c = (cellSBh f h).map fun y => y.a := by
    obtain ⟨⟩ := c; obtain ⟨⟩ := e
    obtain rfl := h.i1; obtain rfl := h.i2; obtain rfl := h.i3
    rfl
  have e2 : e = (cellSBh f h).map fun y => y.x := rfl
  have l1 : cellSEntries (K := Fo f) c = (cellSEntries (cellSBh f h)).map (fun t => (t.1, t.2.1, (t.2.2.a : Fo f))) := by
    rw [cellSEntries_a]; exact congrArg (cellSEntries (K := Fo f)) e1
  have l2 : cellSEntries e = (cellSEntries (cellSBh f h)).map (fun t => (t.1, t.2.1, t.2.2.x)) := by
    rw [cellSEntries_x]; exact congrArg cellSEntries e2
  rw [l1, l2, List.forall₂_map_left_iff, List.forall₂_map_right_iff, List.forall₂_same]
  intro t ht
  refine ⟨rfl, rfl, ?_⟩
  have h1 : (t.1 % 5, t.2.1 % 5, t.2.2.g) ∈ (cellSEntries (cellS0 p)).map (fun t => (t.1 % 5, t.2.1 % 5, t.2.2)) := by
    have h3 := cellSEntries_r ((cellSBh f h).map fun y => y.g)
    rw [← cellSEntries_g, List.map_map] at h3
    have h4 : ((cellSBh f h).map fun y => y.g).ix = cellS0 p := rfl
    rw [h4] at h3
    rw [← h3]
    exact List.mem_map.2 ⟨t, ht, rfl⟩
  obtain ⟨t0, ht0, he⟩ := List.mem_map.1 h1
  have a1 : t0.1 % 5 = t.1 % 5 := congrArg Prod.fst he
  have a2 : t0.2.1 % 5 = t.2.1 % 5 := congrArg (fun z => z.2.1) he
  have a3 : t0.2.2 = t.2.2.g := congrArg (fun z => z.2.2) he
  have hd := List.all_eq_true.1 hc t0 ht0
  have hd' : t.2.2.g.v.dom (wX p t.1 t.2.1) = true := by
    rw [← a3]
    have : wX p t.1 t.2.1 = wX p t0.1 t0.2.1 := by unfold wX; rw [← a1, ← a2]
    rw [this]; exact hd
  exact t.2.2.h.dom hd'

end

end Meshless
