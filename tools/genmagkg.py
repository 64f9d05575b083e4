"""Writes Lemmas/MagKG.lean: explicit bounds of the increments of calc_kG (Model/Gen/KG.lean)."""
import re
s=open('/verif/lean/Verif/Model/Gen/KG.lean').read()
idx=re.search(r"\n  \(([^:]*) : ℤ\)",s).group(1).split(); vs=re.search(r"\n  \(([^:]*) : K\)",s).group(1).split()
groups=re.findall(r"\ndef (\w+) \(e : \w+ K\) : List",s); ent=groups[-1]; groups=groups[:-1]
def g(v):
    if v=='Ac': return 'vA p.p'
    if v[0]=='N': return 'vF p'
    if v[0]=='f': return 'gF'
    if v[:2]=='le': return 'vL p.p'
    return 'vN p.p'
o=['''import Verif.Lemmas.MagK0

/-! GENERATED by /verif/tools/genmagkg.py: explicit bounds of the increments of Model/Gen/KG.lean, group by group. -/

set_option autoImplicit false
set_option maxRecDepth 10000
set_option linter.unusedSimpArgs false
set_option linter.unusedSectionVars false

namespace Meshless
open Spec Mg

variable {f : Fmt} {s : Units}

/-- the shape of the triangles and the bounds on the geometry (`p`), bounds on the membrane forces (size `mF`, error `eF`) and on the increments of `calc_kG`
(sizes up to `M`, errors up to `E`) -/
structure GProf where
  p : Prof
  (mF eF M E : ℚ)

/-- the unit of a force per length -/
def grN : Grd := ⟨0, 0, 0, 1⟩

section
variable (p : GProf)
def vF : Mg := ⟨grN, p.mF, p.eF, 0, true⟩
/-- the bounds of an increment -/
def vG : Mg := ⟨grN, p.M, p.E, 0, true⟩
end
''']
o+=["/-- the bounds of the local variables of `calc_kG` -/","def envG (p : GProf) : KGEnv Mg :=","  { "+", ".join([f"{i} := {n}" for n,i in enumerate(idx)]+[f"{v} := {g(v)}" for v in vs])+" }",""]
o+=["/-- the local variables of `calc_kG` within these bounds -/","structure HasKG (s : Units) (p : GProf) (c : KGEnv Flo) (e : KGEnv ℝ) : Prop where"]
o+=[f"  {i} : c.{i} = e.{i}" for i in idx]+[f"  {v} : ({g(v)}).Has s c.{v} e.{v}" for v in vs]+[""]
o+=["/-- the variables with their bounds -/","def bdG (f : Fmt) {p : GProf} {c : KGEnv Flo} {e : KGEnv ℝ} (h : HasKG s p c e) : KGEnv (Bd f s) :=",
    "  { "+", ".join([f"{i} := e.{i}" for i in idx]+[f"{v} := ⟨{g(v)}, c.{v}, e.{v}, h.{v}⟩" for v in vs])+" }",""]
o+=["def KGEnv.ix {K : Type} (e : KGEnv K) : KGEnv K := { e with i1 := 0, i2 := 1, i3 := 2, i4 := 3 }",""]
o+=["section","variable [hf : Spec.Double f]",""]
for q in groups:
    o+=[f"private theorem {q}_a (e : KGEnv (Bd f s)) : ({q} e).map (fun t => (t.1, t.2.1, (t.2.2.a : Fo f))) = {q} (K := Fo f) (e.map fun y => (y.a : Fo f)) := rfl",
        f"private theorem {q}_x (e : KGEnv (Bd f s)) : ({q} e).map (fun t => (t.1, t.2.1, t.2.2.x)) = {q} (e.map fun y => y.x) := rfl",
        f"private theorem {q}_g (e : KGEnv (Bd f s)) : ({q} e).map (fun t => (t.1, t.2.1, t.2.2.g)) = {q} (e.map fun y => y.g) := by",
        f"  simp only [{q}, KGEnv.map, List.map_cons, List.map_nil, Bd.g_add, Bd.g_sub, Bd.g_mul, Bd.g_div, Bd.g_neg]",
        f"private theorem {q}_r {{K : Type}} [Add K] [Sub K] [Mul K] [Div K] [Neg K] (e : KGEnv K) : ({q} e).map (fun t => t.2.2) = ({q} e.ix).map (fun t => t.2.2) := rfl"]
o+=[""]
for sfx,proj,ty in (("a","(t.2.2.a : Fo f)","(K := Fo f) "),("x","t.2.2.x",""),("g","t.2.2.g","")):
    fn="fun y => "+proj.replace("t.2.2","y")
    o+=[f"private theorem {ent}_{sfx} (e : KGEnv (Bd f s)) : ({ent} e).map (fun t => (t.1, t.2.1, {proj})) = {ent} {ty}(e.map {fn}) := by",
        f"  unfold {ent}",f"  simp only [List.map_append, "+", ".join(f"{q}_{sfx}" for q in groups)+"]",""]
o+=[f"private theorem {ent}_r {{K : Type}} [Add K] [Sub K] [Mul K] [Div K] [Neg K] (e : KGEnv K) : ({ent} e).map (fun t => t.2.2) = ({ent} e.ix).map (fun t => t.2.2) := by",
    f"  unfold {ent}",f"  simp only [List.map_append]",f"  rw ["+", ".join(f"{q}_r" for q in groups)+"]",""]
o+=['''/-- the increments are within the bounds `M`, `E` -/
noncomputable def GProf.chk (p : GProf) : Bool := (kGEntries (envG p)).all fun t => t.2.2.dom (vG p)

/-- the increments computed from numbers within bounds are within bounds -/
theorem kGEntries_has {p : GProf} (hc : p.chk = true) {c : KGEnv Flo} {e : KGEnv ℝ} (h : HasKG s p c e) :
    List.Forall₂ (fun x y => x.1 = y.1 ∧ x.2.1 = y.2.1 ∧ (vG p).Has s x.2.2 y.2.2) (kGEntries (K := Fo f) c) (kGEntries e) := by
  have e1 : c = (bdG f h).map fun y => y.a := by
    obtain ⟨⟩ := c; obtain ⟨⟩ := e
    obtain rfl := h.i1; obtain rfl := h.i2; obtain rfl := h.i3; obtain rfl := h.i4
    rfl
  have e2 : e = (bdG f h).map fun y => y.x := rfl
  have l1 : kGEntries (K := Fo f) c = (kGEntries (bdG f h)).map (fun t => (t.1, t.2.1, (t.2.2.a : Fo f))) := by
    rw [kGEntries_a]; exact congrArg (kGEntries (K := Fo f)) e1
  have l2 : kGEntries e = (kGEntries (bdG f h)).map (fun t => (t.1, t.2.1, t.2.2.x)) := by
    rw [kGEntries_x]; exact congrArg kGEntries e2
  rw [l1, l2, List.forall₂_map_left_iff, List.forall₂_map_right_iff, List.forall₂_same]
  intro t ht
  refine ⟨rfl, rfl, ?_⟩
  have h1 : t.2.2.g ∈ (kGEntries (envG p)).map (fun t => t.2.2) := by
    have h3 := kGEntries_r ((bdG f h).map fun y => y.g)
    rw [← kGEntries_g, List.map_map] at h3
    have h4 : ((bdG f h).map fun y => y.g).ix = envG p := rfl
    rw [h4] at h3
    rw [← h3]
    exact List.mem_map.2 ⟨t, ht, rfl⟩
  obtain ⟨t0, ht0, he⟩ := List.mem_map.1 h1
  have hd := List.all_eq_true.1 hc t0 ht0
  exact t.2.2.h.dom (he ▸ hd)

end

end Meshless
''']
open("/verif/lean/Verif/Lemmas/MagKG.lean","w").write("\n".join(o))
