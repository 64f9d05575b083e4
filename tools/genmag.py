"""Writes Lemmas/MagK0.lean: explicit bounds of the increments of calc_k0 (Model/Gen/K0.lean)."""
import re
s=open('/verif/lean/Verif/Model/Gen/K0.lean').read()
idx=re.search(r"\n  \(([^:]*) : ℤ\)",s).group(1).split(); vs=re.search(r"\n  \(([^:]*) : K\)",s).group(1).split()
groups=re.findall(r"\ndef (\w+) \(e : \w+ K\) : List",s); ent=groups[-1]; groups=groups[:-1]
def g(v):
    if v=='Ac': return 'vA p'
    if v[0] in 'ABD': return f'vP p gr{v[0]}'
    if v[0]=='f': return 'gF'
    if v[:2]=='le': return 'vL p'
    return 'vN p'
o=['''import Verif.Lemmas.MagPts

/-! GENERATED by /verif/tools/genmag.py: explicit bounds of the increments of Model/Gen/K0.lean, group by group. -/

set_option autoImplicit false
set_option maxRecDepth 10000
set_option linter.unusedSimpArgs false
set_option linter.unusedSectionVars false

namespace Meshless
open Spec Mg

variable {f : Fmt} {s : Units}

/-- the shape of the triangles (`σ`, `G`), bounds on the rounding errors of the local variables of `calc_k0` (area, laminate, lengths, normals) and on its
increments (sizes up to `M`, errors up to `E`) -/
structure Prof where
  (σ G eA eP eL eN M E : ℚ)

def grA : Grd := ⟨0, 1, 0, 0⟩
def grB : Grd := ⟨0, 0, 1, 0⟩
def grD : Grd := ⟨0, 0, 0, 1⟩

section
variable (p : Prof)
def vA : Mg := ⟨⟨2, 0, 0, 0⟩, 2 / 3, p.eA, p.σ / 3, true⟩
def vP (g : Grd) : Mg := ⟨g, 1, p.eP, 0, true⟩
def vL : Mg := ⟨⟨1, 0, 0, 0⟩, 3 / 2, p.eL, 0, true⟩
def vN : Mg := ⟨⟨0, 0, 0, 0⟩, 1, p.eN, 0, true⟩

/-- the unit of an increment, from its row and column -/
def blk (r c : ℤ) : Grd := if r < 2 then (if c < 2 then grA else grB) else (if c < 2 then grB else grD)
/-- the bounds of an increment -/
def vE (r c : ℤ) : Mg := ⟨blk (r % 5) (c % 5), p.M, p.E, 0, true⟩
end

/-- the bounds `x` imply the bounds `y` -/
def Mg.dom (x y : Mg) : Bool := x.ok && decide (x.g = y.g) && decide (x.m ≤ y.m) && decide (x.e ≤ y.e) && decide (y.lo ≤ x.lo)

theorem Mg.Has.dom {x y : Mg} {A : Flo} {a : ℝ} (h : x.Has s A a) (hd : x.dom y = true) : y.Has s A a := by
  simp only [Mg.dom, Bool.and_eq_true, decide_eq_true_eq] at hd
  obtain ⟨⟨⟨⟨h1, h2⟩, h3⟩, h4⟩, h5⟩ := hd
  exact h.weak h1 h2 h3 h4 h5

/-- a computed number together with the exact one and bounds -/
structure Bd (f : Fmt) (s : Units) where
  g : Mg
  a : Flo
  x : ℝ
  h : g.Has s a x

namespace Bd
variable [hf : Spec.Double f]
noncomputable instance : Add (Bd f s) := ⟨fun x y => ⟨x.g + y.g, f.add x.a y.a, x.x + y.x, x.h.add hf y.h⟩⟩
noncomputable instance : Sub (Bd f s) := ⟨fun x y => ⟨x.g - y.g, f.sub x.a y.a, x.x - y.x, x.h.sub hf y.h⟩⟩
noncomputable instance : Mul (Bd f s) := ⟨fun x y => ⟨x.g * y.g, f.mul x.a y.a, x.x * y.x, x.h.mul hf y.h⟩⟩
noncomputable instance : Div (Bd f s) := ⟨fun x y => ⟨x.g / y.g, f.div x.a y.a, x.x / y.x, x.h.div hf y.h⟩⟩
noncomputable instance : Neg (Bd f s) := ⟨fun x => ⟨-x.g, x.a.neg, -x.x, x.h.neg⟩⟩
theorem g_add (x y : Bd f s) : (x + y).g = x.g + y.g := rfl
theorem g_sub (x y : Bd f s) : (x - y).g = x.g - y.g := rfl
theorem g_mul (x y : Bd f s) : (x * y).g = x.g * y.g := rfl
theorem g_div (x y : Bd f s) : (x / y).g = x.g / y.g := rfl
theorem g_neg (x : Bd f s) : (-x).g = -x.g := rfl
end Bd
''']
o+=["/-- the bounds of the local variables of `calc_k0` -/","def env0 (p : Prof) : K0Env Mg :=","  { "+", ".join([f"{i} := {n}" for n,i in enumerate(idx)]+[f"{v} := {g(v)}" for v in vs])+" }",""]
o+=["/-- the local variables of `calc_k0` within these bounds -/","structure HasEnv (s : Units) (p : Prof) (c : K0Env Flo) (e : K0Env ℝ) : Prop where"]
o+=[f"  {i} : c.{i} = e.{i}" for i in idx]+[f"  {v} : ({g(v)}).Has s c.{v} e.{v}" for v in vs]+[""]
o+=["/-- the variables with their bounds -/","def bd (f : Fmt) {p : Prof} {c : K0Env Flo} {e : K0Env ℝ} (h : HasEnv s p c e) : K0Env (Bd f s) :=",
    "  { "+", ".join([f"{i} := e.{i}" for i in idx]+[f"{v} := ⟨{g(v)}, c.{v}, e.{v}, h.{v}⟩" for v in vs])+" }",""]
hyp="{p : Prof} {c : K0Env Flo} {e : K0Env ℝ} (h : HasEnv s p c e)"
o+=["theorem md (i d : ℤ) : (i * 5 + d) % 5 = d % 5 := by omega","","def K0Env.ix {K : Type} (e : K0Env K) : K0Env K := { e with i1 := 0, i2 := 1, i3 := 2, i4 := 3 }",""]
o+=["section","variable [hf : Spec.Double f]",""]
for q in groups:
    o+=[f"private theorem {q}_a (e : K0Env (Bd f s)) : ({q} e).map (fun t => (t.1, t.2.1, (t.2.2.a : Fo f))) = {q} (K := Fo f) (e.map fun y => (y.a : Fo f)) := rfl",
        f"private theorem {q}_x (e : K0Env (Bd f s)) : ({q} e).map (fun t => (t.1, t.2.1, t.2.2.x)) = {q} (e.map fun y => y.x) := rfl",
        f"private theorem {q}_g (e : K0Env (Bd f s)) : ({q} e).map (fun t => (t.1, t.2.1, t.2.2.g)) = {q} (e.map fun y => y.g) := by",
        f"  simp only [{q}, K0Env.map, List.map_cons, List.map_nil, Bd.g_add, Bd.g_sub, Bd.g_mul, Bd.g_div, Bd.g_neg]",
        f"private theorem {q}_r {{K : Type}} [Add K] [Sub K] [Mul K] [Div K] [Neg K] (e : K0Env K) : ({q} e).map (fun t => (t.1 % 5, t.2.1 % 5, t.2.2)) = ({q} e.ix).map (fun t => (t.1 % 5, t.2.1 % 5, t.2.2)) := by",
        f"  simp only [{q}, K0Env.ix, List.map_cons, List.map_nil, md]"]
o+=[""]
for sfx,proj,ty in (("a","(t.2.2.a : Fo f)","(K := Fo f) "),("x","t.2.2.x",""),("g","t.2.2.g","")):
    fn="fun y => "+proj.replace("t.2.2","y")
    o+=[f"private theorem {ent}_{sfx} (e : K0Env (Bd f s)) : ({ent} e).map (fun t => (t.1, t.2.1, {proj})) = {ent} {ty}(e.map {fn}) := by",
        f"  unfold {ent}",f"  simp only [List.map_append, "+", ".join(f"{q}_{sfx}" for q in groups)+"]",""]
o+=[f"private theorem {ent}_r {{K : Type}} [Add K] [Sub K] [Mul K] [Div K] [Neg K] (e : K0Env K) : ({ent} e).map (fun t => (t.1 % 5, t.2.1 % 5, t.2.2)) = ({ent} e.ix).map (fun t => (t.1 % 5, t.2.1 % 5, t.2.2)) := by",
    f"  unfold {ent}",f"  simp only [List.map_append]",f"  rw ["+", ".join(f"{q}_r" for q in groups)+"]",""]
o+=['''/-- the increments are within the bounds `M`, `E` -/
noncomputable def Prof.chk (p : Prof) : Bool := (k0Entries (env0 p)).all fun t => t.2.2.dom (vE p t.1 t.2.1)

/-- the increments computed from numbers within bounds are within bounds -/
theorem k0Entries_has {p : Prof} (hc : p.chk = true) {c : K0Env Flo} {e : K0Env ℝ} (h : HasEnv s p c e) :
    List.Forall₂ (fun x y => x.1 = y.1 ∧ x.2.1 = y.2.1 ∧ (vE p x.1 x.2.1).Has s x.2.2 y.2.2) (k0Entries (K := Fo f) c) (k0Entries e) := by
  have e1 : c = (bd f h).map fun y => y.a := by
    obtain ⟨⟩ := c; obtain ⟨⟩ := e
    obtain rfl := h.i1; obtain rfl := h.i2; obtain rfl := h.i3; obtain rfl := h.i4
    rfl
  have e2 : e = (bd f h).map fun y => y.x := rfl
  have l1 : k0Entries (K := Fo f) c = (k0Entries (bd f h)).map (fun t => (t.1, t.2.1, (t.2.2.a : Fo f))) := by
    rw [k0Entries_a]; exact congrArg (k0Entries (K := Fo f)) e1
  have l2 : k0Entries e = (k0Entries (bd f h)).map (fun t => (t.1, t.2.1, t.2.2.x)) := by
    rw [k0Entries_x]; exact congrArg k0Entries e2
  rw [l1, l2, List.forall₂_map_left_iff, List.forall₂_map_right_iff, List.forall₂_same]
  intro t ht
  refine ⟨rfl, rfl, ?_⟩
  have h1 : (t.1 % 5, t.2.1 % 5, t.2.2.g) ∈ (k0Entries (env0 p)).map (fun t => (t.1 % 5, t.2.1 % 5, t.2.2)) := by
    have h3 := k0Entries_r ((bd f h).map fun y => y.g)
    rw [← k0Entries_g, List.map_map] at h3
    have h4 : ((bd f h).map fun y => y.g).ix = env0 p := rfl
    rw [h4] at h3
    rw [← h3]
    exact List.mem_map.2 ⟨t, ht, rfl⟩
  obtain ⟨t0, ht0, he⟩ := List.mem_map.1 h1
  have a1 : t0.1 % 5 = t.1 % 5 := congrArg Prod.fst he
  have a2 : t0.2.1 % 5 = t.2.1 % 5 := congrArg (fun z => z.2.1) he
  have a3 : t0.2.2 = t.2.2.g := congrArg (fun z => z.2.2) he
  have hd := List.all_eq_true.1 hc t0 ht0
  have hd' : t.2.2.g.dom (vE p t.1 t.2.1) = true := by
    rw [← a3]
    have : vE p t.1 t.2.1 = vE p t0.1 t0.2.1 := by unfold vE; rw [← a1, ← a2]
    rw [this]; exact hd
  exact t.2.2.h.dom hd'

end

end Meshless
''']
open("/verif/lean/Verif/Lemmas/MagK0.lean","w").write("\n".join(o))
