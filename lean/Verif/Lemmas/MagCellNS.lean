import Verif.Lemmas.MagCell

/-! GENERATED by /verif/tools/genmagcell.py: explicit bounds of the increments of Model/Gen/CellNS.lean, group by group. -/

set_option autoImplicit false
set_option maxRecDepth 10000
set_option linter.unusedSimpArgs false
set_option linter.unusedSectionVars false

namespace Meshless
open Spec Mg

variable {f : Fmt} {s : Units}

/-- the bounds of the local variables of `add_k0s` -/
def cellNS0 (p : ProfS) : CellNSEnv Mh :=
  { i1 := 0, i2 := 1, i3 := 2, Ac := ⟨wA p⟩, E44 := ⟨wE p⟩, E45 := ⟨wZ⟩, E55 := ⟨wE p⟩, a1 := ⟨wD p⟩, b1 := ⟨wD p⟩, c1 := ⟨wD p⟩, d1 := ⟨wD p⟩ }

/-- the local variables of `add_k0s` within these bounds -/
structure HasCellNS (s : Units) (p : ProfS) (c : CellNSEnv Flo) (e : CellNSEnv ℝ) : Prop where
  i1 : c.i1 = e.i1
  i2 : c.i2 = e.i2
  i3 : c.i3 = e.i3
  Ac : (wA p).Has s c.Ac e.Ac
  E44 : (wE p).Has s c.E44 e.E44
  E45 : (wZ).Has s c.E45 e.E45
  E55 : (wE p).Has s c.E55 e.E55
  a1 : (wD p).Has s c.a1 e.a1
  b1 : (wD p).Has s c.b1 e.b1
  c1 : (wD p).Has s c.c1 e.c1
  d1 : (wD p).Has s c.d1 e.d1

/-- the variables with their bounds -/
def cellNSBh (f : Fmt) {p : ProfS} {c : CellNSEnv Flo} {e : CellNSEnv ℝ} (h : HasCellNS s p c e) : CellNSEnv (Bh f s) :=
  { i1 := e.i1, i2 := e.i2, i3 := e.i3, Ac := ⟨⟨wA p⟩, c.Ac, e.Ac, h.Ac⟩, E44 := ⟨⟨wE p⟩, c.E44, e.E44, h.E44⟩, E45 := ⟨⟨wZ⟩, c.E45, e.E45, h.E45⟩, E55 := ⟨⟨wE p⟩, c.E55, e.E55, h.E55⟩, a1 := ⟨⟨wD p⟩, c.a1, e.a1, h.a1⟩, b1 := ⟨⟨wD p⟩, c.b1, e.b1, h.b1⟩, c1 := ⟨⟨wD p⟩, c.c1, e.c1, h.c1⟩, d1 := ⟨⟨wD p⟩, c.d1, e.d1, h.d1⟩ }

def CellNSEnv.ix {K : Type} (e : CellNSEnv K) : CellNSEnv K := { e with i1 := 0, i2 := 1, i3 := 2 }

section
variable [hf : Spec.Double f]

private theorem cellNS_i1_2_a (e : CellNSEnv (Bh f s)) : (cellNS_i1_2 e).map (fun t => (t.1, t.2.1, (t.2.2.a : Fo f))) = cellNS_i1_2 (K := Fo f) (e.map fun y => (y.a : Fo f)) := rfl
private theorem cellNS_i1_2_x (e : CellNSEnv (Bh f s)) : (cellNS_i1_2 e).map (fun t => (t.1, t.2.1, t.2.2.x)) = cellNS_i1_2 (e.map fun y => y.x) := rfl
private theorem cellNS_i1_2_g (e : CellNSEnv (Bh f s)) : (cellNS_i1_2 e).map (fun t => (t.1, t.2.1, t.2.2.g)) = cellNS_i1_2 (e.map fun y => y.g) := by
  simp only [cellNS_i1_2, CellNSEnv.map, List.map_cons, List.map_nil, Bh.g_add, Bh.g_sub, Bh.g_mul, Bh.g_div, Bh.g_neg, Bh.g_2, Bh.g_4, Bh.g_8, Bh.g_sci]
private theorem cellNS_i1_2_r {K : Type} [Add K] [Sub K] [Mul K] [Div K] [Neg K] [OfNat K 2] [OfNat K 4] [OfNat K 8] (e : CellNSEnv K) : (cellNS_i1_2 e).map (fun t => (t.1 % 5, t.2.1 % 5, t.2.2)) = (cellNS_i1_2 e.ix).map (fun t => (t.1 % 5, t.2.1 % 5, t.2.2)) := by
  simp only [cellNS_i1_2, CellNSEnv.ix, List.map_cons, List.map_nil, md]
private theorem cellNS_i1_3_a (e : CellNSEnv (Bh f s)) : (cellNS_i1_3 e).map (fun t => (t.1, t.2.1, (t.2.2.a : Fo f))) = cellNS_i1_3 (K := Fo f) (e.map fun y => (y.a : Fo f)) := rfl
private theorem cellNS_i1_3_x (e : CellNSEnv (Bh f s)) : (cellNS_i1_3 e).map (fun t => (t.1, t.2.1, t.2.2.x)) = cellNS_i1_3 (e.map fun y => y.x) := rfl
private theorem cellNS_i1_3_g (e : CellNSEnv (Bh f s)) : (cellNS_i1_3 e).map (fun t => (t.1, t.2.1, t.2.2.g)) = cellNS_i1_3 (e.map fun y => y.g) := by
  simp only [cellNS_i1_3, CellNSEnv.map, List.map_cons, List.map_nil, Bh.g_add, Bh.g_sub, Bh.g_mul, Bh.g_div, Bh.g_neg, Bh.g_2, Bh.g_4, Bh.g_8, Bh.g_sci]
private theorem cellNS_i1_3_r {K : Type} [Add K] [Sub K] [Mul K] [Div K] [Neg K] [OfNat K 2] [OfNat K 4] [OfNat K 8] (e : CellNSEnv K) : (cellNS_i1_3 e).map (fun t => (t.1 % 5, t.2.1 % 5, t.2.2)) = (cellNS_i1_3 e.ix).map (fun t => (t.1 % 5, t.2.1 % 5, t.2.2)) := by
  simp only [cellNS_i1_3, CellNSEnv.ix, List.map_cons, List.map_nil, md]
private theorem cellNS_i1_4_a (e : CellNSEnv (Bh f s)) : (cellNS_i1_4 e).map (fun t => (t.1, t.2.1, (t.2.2.a : Fo f))) = cellNS_i1_4 (K := Fo f) (e.map fun y => (y.a : Fo f)) := rfl
private theorem cellNS_i1_4_x (e : CellNSEnv (Bh f s)) : (cellNS_i1_4 e).map (fun t => (t.1, t.2.1, t.2.2.x)) = cellNS_i1_4 (e.map fun y => y.x) := rfl
private theorem cellNS_i1_4_g (e : CellNSEnv (Bh f s)) : (cellNS_i1_4 e).map (fun t => (t.1, t.2.1, t.2.2.g)) = cellNS_i1_4 (e.map fun y => y.g) := by
  simp only [cellNS_i1_4, CellNSEnv.map, List.map_cons, List.map_nil, Bh.g_add, Bh.g_sub, Bh.g_mul, Bh.g_div, Bh.g_neg, Bh.g_2, Bh.g_4, Bh.g_8, Bh.g_sci]
private theorem cellNS_i1_4_r {K : Type} [Add K] [Sub K] [Mul K] [Div K] [Neg K] [OfNat K 2] [OfNat K 4] [OfNat K 8] (e : CellNSEnv K) : (cellNS_i1_4 e).map (fun t => (t.1 % 5, t.2.1 % 5, t.2.2)) = (cellNS_i1_4 e.ix).map (fun t => (t.1 % 5, t.2.1 % 5, t.2.2)) := by
  simp only [cellNS_i1_4, CellNSEnv.ix, List.map_cons, List.map_nil, md]
private theorem cellNS_i2_2_a (e : CellNSEnv (Bh f s)) : (cellNS_i2_2 e).map (fun t => (t.1, t.2.1, (t.2.2.a : Fo f))) = cellNS_i2_2 (K := Fo f) (e.map fun y => (y.a : Fo f)) := rfl
private theorem cellNS_i2_2_x (e : CellNSEnv (Bh f s)) : (cellNS_i2_2 e).map (fun t => (t.1, t.2.1, t.2.2.x)) = cellNS_i2_2 (e.map fun y => y.x) := rfl
private theorem cellNS_i2_2_g (e : CellNSEnv (Bh f s)) : (cellNS_i2_2 e).map (fun t => (t.1, t.2.1, t.2.2.g)) = cellNS_i2_2 (e.map fun y => y.g) := by
  simp only [cellNS_i2_2, CellNSEnv.map, List.map_cons, List.map_nil, Bh.g_add, Bh.g_sub, Bh.g_mul, Bh.g_div, Bh.g_neg, Bh.g_2, Bh.g_4, Bh.g_8, Bh.g_sci]
private theorem cellNS_i2_2_r {K : Type} [Add K] [Sub K] [Mul K] [Div K] [Neg K] [OfNat K 2] [OfNat K 4] [OfNat K 8] (e : CellNSEnv K) : (cellNS_i2_2 e).map (fun t => (t.1 % 5, t.2.1 % 5, t.2.2)) = (cellNS_i2_2 e.ix).map (fun t => (t.1 % 5, t.2.1 % 5, t.2.2)) := by
  simp only [cellNS_i2_2, CellNSEnv.ix, List.map_cons, List.map_nil, md]
private theorem cellNS_i2_3_a (e : CellNSEnv (Bh f s)) : (cellNS_i2_3 e).map (fun t => (t.1, t.2.1, (t.2.2.a : Fo f))) = cellNS_i2_3 (K := Fo f) (e.map fun y => (y.a : Fo f)) := rfl
private theorem cellNS_i2_3_x (e : CellNSEnv (Bh f s)) : (cellNS_i2_3 e).map (fun t => (t.1, t.2.1, t.2.2.x)) = cellNS_i2_3 (e.map fun y => y.x) := rfl
private theorem cellNS_i2_3_g (e : CellNSEnv (Bh f s)) : (cellNS_i2_3 e).map (fun t => (t.1, t.2.1, t.2.2.g)) = cellNS_i2_3 (e.map fun y => y.g) := by
  simp only [cellNS_i2_3, CellNSEnv.map, List.map_cons, List.map_nil, Bh.g_add, Bh.g_sub, Bh.g_mul, Bh.g_div, Bh.g_neg, Bh.g_2, Bh.g_4, Bh.g_8, Bh.g_sci]
private theorem cellNS_i2_3_r {K : Type} [Add K] [Sub K] [Mul K] [Div K] [Neg K] [OfNat K 2] [OfNat K 4] [OfNat K 8] (e : CellNSEnv K) : (cellNS_i2_3 e).map (fun t => (t.1 % 5, t.2.1 % 5, t.2.2)) = (cellNS_i2_3 e.ix).map (fun t => (t.1 % 5, t.2.1 % 5, t.2.2)) := by
  simp only [cellNS_i2_3, CellNSEnv.ix, List.map_cons, List.map_nil, md]
private theorem cellNS_i2_4_a (e : CellNSEnv (Bh f s)) : (cellNS_i2_4 e).map (fun t => (t.1, t.2.1, (t.2.2.a : Fo f))) = cellNS_i2_4 (K := Fo f) (e.map fun y => (y.a : Fo f)) := rfl
private theorem cellNS_i2_4_x (e : CellNSEnv (Bh f s)) : (cellNS_i2_4 e).map (fun t => (t.1, t.2.1, t.2.2.x)) = cellNS_i2_4 (e.map fun y => y.x) := rfl
private theorem cellNS_i2_4_g (e : CellNSEnv (Bh f s)) : (cellNS_i2_4 e).map (fun t => (t.1, t.2.1, t.2.2.g)) = cellNS_i2_4 (e.map fun y => y.g) := by
  simp only [cellNS_i2_4, CellNSEnv.map, List.map_cons, List.map_nil, Bh.g_add, Bh.g_sub, Bh.g_mul, Bh.g_div, Bh.g_neg, Bh.g_2, Bh.g_4, Bh.g_8, Bh.g_sci]
private theorem cellNS_i2_4_r {K : Type} [Add K] [Sub K] [Mul K] [Div K] [Neg K] [OfNat K 2] [OfNat K 4] [OfNat K 8] (e : CellNSEnv K) : (cellNS_i2_4 e).map (fun t => (t.1 % 5, t.2.1 % 5, t.2.2)) = (cellNS_i2_4 e.ix).map (fun t => (t.1 % 5, t.2.1 % 5, t.2.2)) := by
  simp only [cellNS_i2_4, CellNSEnv.ix, List.map_cons, List.map_nil, md]
private theorem cellNS_i3_2_a (e : CellNSEnv (Bh f s)) : (cellNS_i3_2 e).map (fun t => (t.1, t.2.1, (t.2.2.a : Fo f))) = cellNS_i3_2 (K := Fo f) (e.map fun y => (y.a : Fo f)) := rfl
private theorem cellNS_i3_2_x (e : CellNSEnv (Bh f s)) : (cellNS_i3_2 e).map (fun t => (t.1, t.2.1, t.2.2.x)) = cellNS_i3_2 (e.map fun y => y.x) := rfl
private theorem cellNS_i3_2_g (e : CellNSEnv (Bh f s)) : (cellNS_i3_2 e).map (fun t => (t.1, t.2.1, t.2.2.g)) = cellNS_i3_2 (e.map fun y => y.g) := by
  simp only [cellNS_i3_2, CellNSEnv.map, List.map_cons, List.map_nil, Bh.g_add, Bh.g_sub, Bh.g_mul, Bh.g_div, Bh.g_neg, Bh.g_2, Bh.g_4, Bh.g_8, Bh.g_sci]
private theorem cellNS_i3_2_r {K : Type} [Add K] [Sub K] [Mul K] [Div K] [Neg K] [OfNat K 2] [OfNat K 4] [OfNat K 8] (e : CellNSEnv K) : (cellNS_i3_2 e).map (fun t => (t.1 % 5, t.2.1 % 5, t.2.2)) = (cellNS_i3_2 e.ix).map (fun t => (t.1 % 5, t.2.1 % 5, t.2.2)) := by
  simp only [cellNS_i3_2, CellNSEnv.ix, List.map_cons, List.map_nil, md]
private theorem cellNS_i3_3_a (e : CellNSEnv (Bh f s)) : (cellNS_i3_3 e).map (fun t => (t.1, t.2.1, (t.2.2.a : Fo f))) = cellNS_i3_3 (K := Fo f) (e.map fun y => (y.a : Fo f)) := rfl
private theorem cellNS_i3_3_x (e : CellNSEnv (Bh f s)) : (cellNS_i3_3 e).map (fun t => (t.1, t.2.1, t.2.2.x)) = cellNS_i3_3 (e.map fun y => y.x) := rfl
private theorem cellNS_i3_3_g (e : CellNSEnv (Bh f s)) : (cellNS_i3_3 e).map (fun t => (t.1, t.2.1, t.2.2.g)) = cellNS_i3_3 (e.map fun y => y.g) := by
  simp only [cellNS_i3_3, CellNSEnv.map, List.map_cons, List.map_nil, Bh.g_add, Bh.g_sub, Bh.g_mul, Bh.g_div, Bh.g_neg, Bh.g_2, Bh.g_4, Bh.g_8, Bh.g_sci]
private theorem cellNS_i3_3_r {K : Type} [Add K] [Sub K] [Mul K] [Div K] [Neg K] [OfNat K 2] [OfNat K 4] [OfNat K 8] (e : CellNSEnv K) : (cellNS_i3_3 e).map (fun t => (t.1 % 5, t.2.1 % 5, t.2.2)) = (cellNS_i3_3 e.ix).map (fun t => (t.1 % 5, t.2.1 % 5, t.2.2)) := by
  simp only [cellNS_i3_3, CellNSEnv.ix, List.map_cons, List.map_nil, md]
private theorem cellNS_i3_4_a (e : CellNSEnv (Bh f s)) : (cellNS_i3_4 e).map (fun t => (t.1, t.2.1, (t.2.2.a : Fo f))) = cellNS_i3_4 (K := Fo f) (e.map fun y => (y.a : Fo f)) := rfl
private theorem cellNS_i3_4_x (e : CellNSEnv (Bh f s)) : (cellNS_i3_4 e).map (fun t => (t.1, t.2.1, t.2.2.x)) = cellNS_i3_4 (e.map fun y => y.x) := rfl
private theorem cellNS_i3_4_g (e : CellNSEnv (Bh f s)) : (cellNS_i3_4 e).map (fun t => (t.1, t.2.1, t.2.2.g)) = cellNS_i3_4 (e.map fun y => y.g) := by
  simp only [cellNS_i3_4, CellNSEnv.map, List.map_cons, List.map_nil, Bh.g_add, Bh.g_sub, Bh.g_mul, Bh.g_div, Bh.g_neg, Bh.g_2, Bh.g_4, Bh.g_8, Bh.g_sci]
private theorem cellNS_i3_4_r {K : Type} [Add K] [Sub K] [Mul K] [Div K] [Neg K] [OfNat K 2] [OfNat K 4] [OfNat K 8] (e : CellNSEnv K) : (cellNS_i3_4 e).map (fun t => (t.1 % 5, t.2.1 % 5, t.2.2)) = (cellNS_i3_4 e.ix).map (fun t => (t.1 % 5, t.2.1 % 5, t.2.2)) := by
  simp only [cellNS_i3_4, CellNSEnv.ix, List.map_cons, List.map_nil, md]

private theorem cellNSEntries_a (e : CellNSEnv (Bh f s)) : (cellNSEntries e).map (fun t => (t.1, t.2.1, (t.2.2.a : Fo f))) = cellNSEntries (K := Fo f) (e.map fun y => (y.a : Fo f)) := by
  unfold cellNSEntries
  simp only [List.map_append, cellNS_i1_2_a, cellNS_i1_3_a, cellNS_i1_4_a, cellNS_i2_2_a, cellNS_i2_3_a, cellNS_i2_4_a, cellNS_i3_2_a, cellNS_i3_3_a, cellNS_i3_4_a]

private theorem cellNSEntries_x (e : CellNSEnv (Bh f s)) : (cellNSEntries e).map (fun t => (t.1, t.2.1, t.2.2.x)) = cellNSEntries (e.map fun y => y.x) := by
  unfold cellNSEntries
  simp only [List.map_append, cellNS_i1_2_x, cellNS_i1_3_x, cellNS_i1_4_x, cellNS_i2_2_x, cellNS_i2_3_x, cellNS_i2_4_x, cellNS_i3_2_x, cellNS_i3_3_x, cellNS_i3_4_x]

private theorem cellNSEntries_g (e : CellNSEnv (Bh f s)) : (cellNSEntries e).map (fun t => (t.1, t.2.1, t.2.2.g)) = cellNSEntries (e.map fun y => y.g) := by
  unfold cellNSEntries
  simp only [List.map_append, cellNS_i1_2_g, cellNS_i1_3_g, cellNS_i1_4_g, cellNS_i2_2_g, cellNS_i2_3_g, cellNS_i2_4_g, cellNS_i3_2_g, cellNS_i3_3_g, cellNS_i3_4_g]

private theorem cellNSEntries_r {K : Type} [Add K] [Sub K] [Mul K] [Div K] [Neg K] [OfNat K 2] [OfNat K 4] [OfNat K 8] (e : CellNSEnv K) : (cellNSEntries e).map (fun t => (t.1 % 5, t.2.1 % 5, t.2.2)) = (cellNSEntries e.ix).map (fun t => (t.1 % 5, t.2.1 % 5, t.2.2)) := by
  unfold cellNSEntries
  simp only [List.map_append]
  rw [cellNS_i1_2_r, cellNS_i1_3_r, cellNS_i1_4_r, cellNS_i2_2_r, cellNS_i2_3_r, cellNS_i2_4_r, cellNS_i3_2_r, cellNS_i3_3_r, cellNS_i3_4_r]

/-- the increments are within the bounds `M`, `E` -/
noncomputable def ProfS.chkCellNS (p : ProfS) : Bool := (cellNSEntries (cellNS0 p)).all fun t => t.2.2.v.dom (wX p t.1 t.2.1)

/-- the increments computed from numbers within bounds are within bounds -/
theorem cellNSEntries_has {p : ProfS} (hc : p.chkCellNS = true) {c : CellNSEnv Flo} {e : CellNSEnv ℝ} (h : HasCellNS s p c e) :
    List.Forall₂ (fun x y => x.1 = y.1 ∧ x.2.1 = y.2.1 ∧ (wX p x.1 x.2.1).Has s x.2.2 y.2.2) (cellNSEntries (K := Fo f) c) (cellNSEntries e) := by
  have e1 : c = (cellNSBh f h).map fun y => y.a := by
    obtain ⟨⟩ := c; obtain ⟨⟩ := e
    obtain rfl := h.i1; obtain rfl := h.i2; obtain rfl := h.i3
    rfl
  have e2 : e = (cellNSBh f h).map fun y => y.x := rfl
  have l1 : cellNSEntries (K := Fo f) c = (cellNSEntries (cellNSBh f h)).map (fun t => (t.1, t.2.1, (t.2.2.a : Fo f))) := by
    rw [cellNSEntries_a]; exact congrArg (cellNSEntries (K := Fo f)) e1
  have l2 : cellNSEntries e = (cellNSEntries (cellNSBh f h)).map (fun t => (t.1, t.2.1, t.2.2.x)) := by
    rw [cellNSEntries_x]; exact congrArg cellNSEntries e2
  rw [l1, l2, List.forall₂_map_left_iff, List.forall₂_map_right_iff, List.forall₂_same]
  intro t ht
  refine ⟨rfl, rfl, ?_⟩
  have h1 : (t.1 % 5, t.2.1 % 5, t.2.2.g) ∈ (cellNSEntries (cellNS0 p)).map (fun t => (t.1 % 5, t.2.1 % 5, t.2.2)) := by
    have h3 := cellNSEntries_r ((cellNSBh f h).map fun y => y.g)
    rw [← cellNSEntries_g, List.map_map] at h3
    have h4 : ((cellNSBh f h).map fun y => y.g).ix = cellNS0 p := rfl
    rw [h4] at h3
    rw [← h3]
    exact List.mem_map.2 ⟨t, ht, rfl⟩
  obtain ⟨t0, ht0, he⟩ := List.mem_map.1 h1
  have a1 : t0.1 % 5 = t.1 % 5 := congrArg Prod.fst he
  have a2 : t0.2.1 % 5 = t.2.1 % 5 := congrArg (fun z => z.2.1) he
  have a3 : t0.2.2 = t.2.2.g := congrArg (fun z => z.2.2) he
  have hd := List.all_eq_true.1 hc t0 ht0
  have hd' : t.2.2.g.v.dom (wX p t.1 t.2.1) = true := by
    rw [← a3]
    have : wX p t.1 t.2.1 = wX p t0.1 t0.2.1 := by unfold wX; rw [← a1, ← a2]
    rw [this]; exact hd
  exact t.2.2.h.dom hd'

end

end Meshless
