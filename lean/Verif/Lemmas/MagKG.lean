import Verif.Lemmas.MagK0

/-! GENERATED by /verif/tools/genmagkg.py: explicit bounds of the increments of Model/Gen/KG.lean, group by group. -/

set_option autoImplicit false
set_option maxRecDepth 10000
set_option linter.unusedSimpArgs false
set_option linter.unusedSectionVars false

namespace Meshless
open Spec Mg

variable {f : Fmt} {s : Units}

/-- the shape of the triangles and the bounds on the geometry (`p`), bounds on the membrane forces (size `mF`, error `eF`) and on the increments of `calc_kG`
(sizes up to `M`, errors up to `E`) -/
structure GProf where
  p : Prof
  (mF eF M E : ℚ)

/-- the unit of a force per length -/
def grN : Grd := ⟨0, 0, 0, 1⟩

section
variable (p : GProf)
def vF : Mg := ⟨grN, p.mF, p.eF, 0, true⟩
/-- the bounds of an increment -/
def vG : Mg := ⟨grN, p.M, p.E, 0, true⟩
end

/-- the bounds of the local variables of `calc_kG` -/
def envG (p : GProf) : KGEnv Mg :=
  { i1 := 0, i2 := 1, i3 := 2, i4 := 3, Ac := vA p.p, Nxx := vF p, Nxy := vF p, Nyy := vF p, f11 := gF, f12 := gF, f13 := gF, f14 := gF, f21 := gF, f22 := gF, f23 := gF, f24 := gF, f31 := gF, f32 := gF, f33 := gF, f34 := gF, f41 := gF, f42 := gF, f43 := gF, f44 := gF, le1 := vL p.p, le2 := vL p.p, le3 := vL p.p, le4 := vL p.p, nx1 := vN p.p, nx2 := vN p.p, nx3 := vN p.p, nx4 := vN p.p, ny1 := vN p.p, ny2 := vN p.p, ny3 := vN p.p, ny4 := vN p.p }

/-- the local variables of `calc_kG` within these bounds -/
structure HasKG (s : Units) (p : GProf) (c : KGEnv Flo) (e : KGEnv ℝ) : Prop where
  i1 : c.i1 = e.i1
  i2 : c.i2 = e.i2
  i3 : c.i3 = e.i3
  i4 : c.i4 = e.i4
  Ac : (vA p.p).Has s c.Ac e.Ac
  Nxx : (vF p).Has s c.Nxx e.Nxx
  Nxy : (vF p).Has s c.Nxy e.Nxy
  Nyy : (vF p).Has s c.Nyy e.Nyy
  f11 : (gF).Has s c.f11 e.f11
  f12 : (gF).Has s c.f12 e.f12
  f13 : (gF).Has s c.f13 e.f13
  f14 : (gF).Has s c.f14 e.f14
  f21 : (gF).Has s c.f21 e.f21
  f22 : (gF).Has s c.f22 e.f22
  f23 : (gF).Has s c.f23 e.f23
  f24 : (gF).Has s c.f24 e.f24
  f31 : (gF).Has s c.f31 e.f31
  f32 : (gF).Has s c.f32 e.f32
  f33 : (gF).Has s c.f33 e.f33
  f34 : (gF).Has s c.f34 e.f34
  f41 : (gF).Has s c.f41 e.f41
  f42 : (gF).Has s c.f42 e.f42
  f43 : (gF).Has s c.f43 e.f43
  f44 : (gF).Has s c.f44 e.f44
  le1 : (vL p.p).Has s c.le1 e.le1
  le2 : (vL p.p).Has s c.le2 e.le2
  le3 : (vL p.p).Has s c.le3 e.le3
  le4 : (vL p.p).Has s c.le4 e.le4
  nx1 : (vN p.p).Has s c.nx1 e.nx1
  nx2 : (vN p.p).Has s c.nx2 e.nx2
  nx3 : (vN p.p).Has s c.nx3 e.nx3
  nx4 : (vN p.p).Has s c.nx4 e.nx4
  ny1 : (vN p.p).Has s c.ny1 e.ny1
  ny2 : (vN p.p).Has s c.ny2 e.ny2
  ny3 : (vN p.p).Has s c.ny3 e.ny3
  ny4 : (vN p.p).Has s c.ny4 e.ny4

/-- the variables with their bounds -/
def bdG (f : Fmt) {p : GProf} {c : KGEnv Flo} {e : KGEnv ℝ} (h : HasKG s p c e) : KGEnv (Bd f s) :=
  { i1 := e.i1, i2 := e.i2, i3 := e.i3, i4 := e.i4, Ac := ⟨vA p.p, c.Ac, e.Ac, h.Ac⟩, Nxx := ⟨vF p, c.Nxx, e.Nxx, h.Nxx⟩, Nxy := ⟨vF p, c.Nxy, e.Nxy, h.Nxy⟩, Nyy := ⟨vF p, c.Nyy, e.Nyy, h.Nyy⟩, f11 := ⟨gF, c.f11, e.f11, h.f11⟩, f12 := ⟨gF, c.f12, e.f12, h.f12⟩, f13 := ⟨gF, c.f13, e.f13, h.f13⟩, f14 := ⟨gF, c.f14, e.f14, h.f14⟩, f21 := ⟨gF, c.f21, e.f21, h.f21⟩, f22 := ⟨gF, c.f22, e.f22, h.f22⟩, f23 := ⟨gF, c.f23, e.f23, h.f23⟩, f24 := ⟨gF, c.f24, e.f24, h.f24⟩, f31 := ⟨gF, c.f31, e.f31, h.f31⟩, f32 := ⟨gF, c.f32, e.f32, h.f32⟩, f33 := ⟨gF, c.f33, e.f33, h.f33⟩, f34 := ⟨gF, c.f34, e.f34, h.f34⟩, f41 := ⟨gF, c.f41, e.f41, h.f41⟩, f42 := ⟨gF, c.f42, e.f42, h.f42⟩, f43 := ⟨gF, c.f43, e.f43, h.f43⟩, f44 := ⟨gF, c.f44, e.f44, h.f44⟩, le1 := ⟨vL p.p, c.le1, e.le1, h.le1⟩, le2 := ⟨vL p.p, c.le2, e.le2, h.le2⟩, le3 := ⟨vL p.p, c.le3, e.le3, h.le3⟩, le4 := ⟨vL p.p, c.le4, e.le4, h.le4⟩, nx1 := ⟨vN p.p, c.nx1, e.nx1, h.nx1⟩, nx2 := ⟨vN p.p, c.nx2, e.nx2, h.nx2⟩, nx3 := ⟨vN p.p, c.nx3, e.nx3, h.nx3⟩, nx4 := ⟨vN p.p, c.nx4, e.nx4, h.nx4⟩, ny1 := ⟨vN p.p, c.ny1, e.ny1, h.ny1⟩, ny2 := ⟨vN p.p, c.ny2, e.ny2, h.ny2⟩, ny3 := ⟨vN p.p, c.ny3, e.ny3, h.ny3⟩, ny4 := ⟨vN p.p, c.ny4, e.ny4, h.ny4⟩ }

def KGEnv.ix {K : Type} (e : KGEnv K) : KGEnv K := { e with i1 := 0, i2 := 1, i3 := 2, i4 := 3 }

section
variable [hf : Spec.Double f]

private theorem kG_i1_2_a (e : KGEnv (Bd f s)) : (kG_i1_2 e).map (fun t => (t.1, t.2.1, (t.2.2.a : Fo f))) = kG_i1_2 (K := Fo f) (e.map fun y => (y.a : Fo f)) := rfl
private theorem kG_i1_2_x (e : KGEnv (Bd f s)) : (kG_i1_2 e).map (fun t => (t.1, t.2.1, t.2.2.x)) = kG_i1_2 (e.map fun y => y.x) := rfl
private theorem kG_i1_2_g (e : KGEnv (Bd f s)) : (kG_i1_2 e).map (fun t => (t.1, t.2.1, t.2.2.g)) = kG_i1_2 (e.map fun y => y.g) := by
  simp only [kG_i1_2, KGEnv.map, List.map_cons, List.map_nil, Bd.g_add, Bd.g_sub, Bd.g_mul, Bd.g_div, Bd.g_neg]
private theorem kG_i1_2_r {K : Type} [Add K] [Sub K] [Mul K] [Div K] [Neg K] (e : KGEnv K) : (kG_i1_2 e).map (fun t => t.2.2) = (kG_i1_2 e.ix).map (fun t => t.2.2) := rfl
private theorem kG_i2_2_a (e : KGEnv (Bd f s)) : (kG_i2_2 e).map (fun t => (t.1, t.2.1, (t.2.2.a : Fo f))) = kG_i2_2 (K := Fo f) (e.map fun y => (y.a : Fo f)) := rfl
private theorem kG_i2_2_x (e : KGEnv (Bd f s)) : (kG_i2_2 e).map (fun t => (t.1, t.2.1, t.2.2.x)) = kG_i2_2 (e.map fun y => y.x) := rfl
private theorem kG_i2_2_g (e : KGEnv (Bd f s)) : (kG_i2_2 e).map (fun t => (t.1, t.2.1, t.2.2.g)) = kG_i2_2 (e.map fun y => y.g) := by
  simp only [kG_i2_2, KGEnv.map, List.map_cons, List.map_nil, Bd.g_add, Bd.g_sub, Bd.g_mul, Bd.g_div, Bd.g_neg]
private theorem kG_i2_2_r {K : Type} [Add K] [Sub K] [Mul K] [Div K] [Neg K] (e : KGEnv K) : (kG_i2_2 e).map (fun t => t.2.2) = (kG_i2_2 e.ix).map (fun t => t.2.2) := rfl
private theorem kG_i3_2_a (e : KGEnv (Bd f s)) : (kG_i3_2 e).map (fun t => (t.1, t.2.1, (t.2.2.a : Fo f))) = kG_i3_2 (K := Fo f) (e.map fun y => (y.a : Fo f)) := rfl
private theorem kG_i3_2_x (e : KGEnv (Bd f s)) : (kG_i3_2 e).map (fun t => (t.1, t.2.1, t.2.2.x)) = kG_i3_2 (e.map fun y => y.x) := rfl
private theorem kG_i3_2_g (e : KGEnv (Bd f s)) : (kG_i3_2 e).map (fun t => (t.1, t.2.1, t.2.2.g)) = kG_i3_2 (e.map fun y => y.g) := by
  simp only [kG_i3_2, KGEnv.map, List.map_cons, List.map_nil, Bd.g_add, Bd.g_sub, Bd.g_mul, Bd.g_div, Bd.g_neg]
private theorem kG_i3_2_r {K : Type} [Add K] [Sub K] [Mul K] [Div K] [Neg K] (e : KGEnv K) : (kG_i3_2 e).map (fun t => t.2.2) = (kG_i3_2 e.ix).map (fun t => t.2.2) := rfl
private theorem kG_i4_2_a (e : KGEnv (Bd f s)) : (kG_i4_2 e).map (fun t => (t.1, t.2.1, (t.2.2.a : Fo f))) = kG_i4_2 (K := Fo f) (e.map fun y => (y.a : Fo f)) := rfl
private theorem kG_i4_2_x (e : KGEnv (Bd f s)) : (kG_i4_2 e).map (fun t => (t.1, t.2.1, t.2.2.x)) = kG_i4_2 (e.map fun y => y.x) := rfl
private theorem kG_i4_2_g (e : KGEnv (Bd f s)) : (kG_i4_2 e).map (fun t => (t.1, t.2.1, t.2.2.g)) = kG_i4_2 (e.map fun y => y.g) := by
  simp only [kG_i4_2, KGEnv.map, List.map_cons, List.map_nil, Bd.g_add, Bd.g_sub, Bd.g_mul, Bd.g_div, Bd.g_neg]
private theorem kG_i4_2_r {K : Type} [Add K] [Sub K] [Mul K] [Div K] [Neg K] (e : KGEnv K) : (kG_i4_2 e).map (fun t => t.2.2) = (kG_i4_2 e.ix).map (fun t => t.2.2) := rfl

private theorem kGEntries_a (e : KGEnv (Bd f s)) : (kGEntries e).map (fun t => (t.1, t.2.1, (t.2.2.a : Fo f))) = kGEntries (K := Fo f) (e.map fun y => (y.a : Fo f)) := by
  unfold kGEntries
  simp only [List.map_append, kG_i1_2_a, kG_i2_2_a, kG_i3_2_a, kG_i4_2_a]

private theorem kGEntries_x (e : KGEnv (Bd f s)) : (kGEntries e).map (fun t => (t.1, t.2.1, t.2.2.x)) = kGEntries (e.map fun y => y.x) := by
  unfold kGEntries
  simp only [List.map_append, kG_i1_2_x, kG_i2_2_x, kG_i3_2_x, kG_i4_2_x]

private theorem kGEntries_g (e : KGEnv (Bd f s)) : (kGEntries e).map (fun t => (t.1, t.2.1, t.2.2.g)) = kGEntries (e.map fun y => y.g) := by
  unfold kGEntries
  simp only [List.map_append, kG_i1_2_g, kG_i2_2_g, kG_i3_2_g, kG_i4_2_g]

private theorem kGEntries_r {K : Type} [Add K] [Sub K] [Mul K] [Div K] [Neg K] (e : KGEnv K) : (kGEntries e).map (fun t => t.2.2) = (kGEntries e.ix).map (fun t => t.2.2) := by
  unfold kGEntries
  simp only [List.map_append]
  rw [kG_i1_2_r, kG_i2_2_r, kG_i3_2_r, kG_i4_2_r]

/-- the increments are within the bounds `M`, `E` -/
noncomputable def GProf.chk (p : GProf) : Bool := (kGEntries (envG p)).all fun t => t.2.2.dom (vG p)

/-- the increments computed from numbers within bounds are within bounds -/
theorem kGEntries_has {p : GProf} (hc : p.chk = true) {c : KGEnv Flo} {e : KGEnv ℝ} (h : HasKG s p c e) :
    List.Forall₂ (fun x y => x.1 = y.1 ∧ x.2.1 = y.2.1 ∧ (vG p).Has s x.2.2 y.2.2) (kGEntries (K := Fo f) c) (kGEntries e) := by
  have e1 : c = (bdG f h).map fun y => y.a := by
    obtain ⟨⟩ := c; obtain ⟨⟩ := e
    obtain rfl := h.i1; obtain rfl := h.i2; obtain rfl := h.i3; obtain rfl := h.i4
    rfl
  have e2 : e = (bdG f h).map fun y => y.x := rfl
  have l1 : kGEntries (K := Fo f) c = (kGEntries (bdG f h)).map (fun t => (t.1, t.2.1, (t.2.2.a : Fo f))) := by
    rw [kGEntries_a]; exact congrArg (kGEntries (K := Fo f)) e1
  have l2 : kGEntries e = (kGEntries (bdG f h)).map (fun t => (t.1, t.2.1, t.2.2.x)) := by
    rw [kGEntries_x]; exact congrArg kGEntries e2
  rw [l1, l2, List.forall₂_map_left_iff, List.forall₂_map_right_iff, List.forall₂_same]
  intro t ht
  refine ⟨rfl, rfl, ?_⟩
  have h1 : t.2.2.g ∈ (kGEntries (envG p)).map (fun t => t.2.2) := by
    have h3 := kGEntries_r ((bdG f h).map fun y => y.g)
    rw [← kGEntries_g, List.map_map] at h3
    have h4 : ((bdG f h).map fun y => y.g).ix = envG p := rfl
    rw [h4] at h3
    rw [← h3]
    exact List.mem_map.2 ⟨t, ht, rfl⟩
  obtain ⟨t0, ht0, he⟩ := List.mem_map.1 h1
  have hd := List.all_eq_true.1 hc t0 ht0
  exact t.2.2.h.dom (he ▸ hd)

end

end Meshless
