"""Writes Lemmas/MagCellNS.lean and Lemmas/MagCellS.lean: explicit bounds of the increments of add_k0s (Model/Gen/CellNS.lean, CellS.lean)."""
import re
def run(name):
    s=open(f'/verif/lean/Verif/Model/Gen/{name}.lean').read()
    env=f"{name}Env"; low=name[0].lower()+name[1:]
    idx=re.search(r"\n  \(([^:]*) : ℤ\)",s).group(1).split(); vs=re.search(r"\n  \(([^:]*) : K\)",s).group(1).split()
    groups=re.findall(r"\ndef (\w+) \(e : \w+ K\) : List",s); ent=groups[-1]; groups=groups[:-1]
    inst=re.search(r"variable \{K : Type\*\} (.*)",s).group(1)
    def g(v):
        if v=='Ac': return 'wA p'
        if v[:2]=='Ac': return 'wB p'
        if v=='E45': return 'wZ'
        if v[0]=='E': return 'wE p'
        return 'wD p'
    o=[f'''import Verif.Lemmas.MagCell

/-! GENERATED by /verif/tools/genmagcell.py: explicit bounds of the increments of Model/Gen/{name}.lean, group by group. -/

set_option autoImplicit false
set_option maxRecDepth 10000
set_option linter.unusedSimpArgs false
set_option linter.unusedSectionVars false

namespace Meshless
open Spec Mg

variable {{f : Fmt}} {{s : Units}}
''']
    o+=["/-- the bounds of the local variables of `add_k0s` -/",f"def {low}0 (p : ProfS) : {env} Mh :=","  { "+", ".join([f"{i} := {n}" for n,i in enumerate(idx)]+[f"{v} := ⟨{g(v)}⟩" for v in vs])+" }",""]
    o+=["/-- the local variables of `add_k0s` within these bounds -/",f"structure Has{name} (s : Units) (p : ProfS) (c : {env} Flo) (e : {env} ℝ) : Prop where"]
    o+=[f"  {i} : c.{i} = e.{i}" for i in idx]+[f"  {v} : ({g(v)}).Has s c.{v} e.{v}" for v in vs]+[""]
    o+=["/-- the variables with their bounds -/",f"def {low}Bh (f : Fmt) {{p : ProfS}} {{c : {env} Flo}} {{e : {env} ℝ}} (h : Has{name} s p c e) : {env} (Bh f s) :=",
        "  { "+", ".join([f"{i} := e.{i}" for i in idx]+[f"{v} := ⟨⟨{g(v)}⟩, c.{v}, e.{v}, h.{v}⟩" for v in vs])+" }",""]
    o+=[f"def {env}.ix {{K : Type}} (e : {env} K) : {env} K := {{ e with i1 := 0, i2 := 1, i3 := 2 }}",""]
    o+=["section","variable [hf : Spec.Double f]",""]
    for q in groups:
        o+=[f"private theorem {q}_a (e : {env} (Bh f s)) : ({q} e).map (fun t => (t.1, t.2.1, (t.2.2.a : Fo f))) = {q} (K := Fo f) (e.map fun y => (y.a : Fo f)) := rfl",
            f"private theorem {q}_x (e : {env} (Bh f s)) : ({q} e).map (fun t => (t.1, t.2.1, t.2.2.x)) = {q} (e.map fun y => y.x) := rfl",
            f"private theorem {q}_g (e : {env} (Bh f s)) : ({q} e).map (fun t => (t.1, t.2.1, t.2.2.g)) = {q} (e.map fun y => y.g) := by",
            f"  simp only [{q}, {env}.map, List.map_cons, List.map_nil, Bh.g_add, Bh.g_sub, Bh.g_mul, Bh.g_div, Bh.g_neg, Bh.g_2, Bh.g_4, Bh.g_8, Bh.g_sci]",
            f"private theorem {q}_r {{K : Type}} {inst} (e : {env} K) : ({q} e).map (fun t => (t.1 % 5, t.2.1 % 5, t.2.2)) = ({q} e.ix).map (fun t => (t.1 % 5, t.2.1 % 5, t.2.2)) := by",
            f"  simp only [{q}, {env}.ix, List.map_cons, List.map_nil, md]"]
    o+=[""]
    for sfx,proj,ty in (("a","(t.2.2.a : Fo f)","(K := Fo f) "),("x","t.2.2.x",""),("g","t.2.2.g","")):
        fn="fun y => "+proj.replace("t.2.2","y")
        o+=[f"private theorem {ent}_{sfx} (e : {env} (Bh f s)) : ({ent} e).map (fun t => (t.1, t.2.1, {proj})) = {ent} {ty}(e.map {fn}) := by",
            f"  unfold {ent}",f"  simp only [List.map_append, "+", ".join(f"{q}_{sfx}" for q in groups)+"]",""]
    o+=[f"private theorem {ent}_r {{K : Type}} {inst} (e : {env} K) : ({ent} e).map (fun t => (t.1 % 5, t.2.1 % 5, t.2.2)) = ({ent} e.ix).map (fun t => (t.1 % 5, t.2.1 % 5, t.2.2)) := by",
        f"  unfold {ent}",f"  simp only [List.map_append]",f"  rw ["+", ".join(f"{q}_r" for q in groups)+"]",""]
    o+=[f'''/-- the increments are within the bounds `M`, `E` -/
noncomputable def ProfS.chk{name} (p : ProfS) : Bool := ({ent} ({low}0 p)).all fun t => t.2.2.v.dom (wX p t.1 t.2.1)

/-- the increments computed from numbers within bounds are within bounds -/
theorem {ent}_has {{p : ProfS}} (hc : p.chk{name} = true) {{c : {env} Flo}} {{e : {env} ℝ}} (h : Has{name} s p c e) :
    List.Forall₂ (fun x y => x.1 = y.1 ∧ x.2.1 = y.2.1 ∧ (wX p x.1 x.2.1).Has s x.2.2 y.2.2) ({ent} (K := Fo f) c) ({ent} e) := by
  have e1 : c = ({low}Bh f h).map fun y => y.a := by
    obtain ⟨⟩ := c; obtain ⟨⟩ := e
    obtain rfl := h.i1; obtain rfl := h.i2; obtain rfl := h.i3
    rfl
  have e2 : e = ({low}Bh f h).map fun y => y.x := rfl
  have l1 : {ent} (K := Fo f) c = ({ent} ({low}Bh f h)).map (fun t => (t.1, t.2.1, (t.2.2.a : Fo f))) := by
    rw [{ent}_a]; exact congrArg ({ent} (K := Fo f)) e1
  have l2 : {ent} e = ({ent} ({low}Bh f h)).map (fun t => (t.1, t.2.1, t.2.2.x)) := by
    rw [{ent}_x]; exact congrArg {ent} e2
  rw [l1, l2, List.forall₂_map_left_iff, List.forall₂_map_right_iff, List.forall₂_same]
  intro t ht
  refine ⟨rfl, rfl, ?_⟩
  have h1 : (t.1 % 5, t.2.1 % 5, t.2.2.g) ∈ ({ent} ({low}0 p)).map (fun t => (t.1 % 5, t.2.1 % 5, t.2.2)) := by
    have h3 := {ent}_r (({low}Bh f h).map fun y => y.g)
    rw [← {ent}_g, List.map_map] at h3
    have h4 : (({low}Bh f h).map fun y => y.g).ix = {low}0 p := rfl
    rw [h4] at h3
    rw [← h3]
    exact List.mem_map.2 ⟨t, ht, rfl⟩
  obtain ⟨t0, ht0, he⟩ := List.mem_map.1 h1
  have a1 : t0.1 % 5 = t.1 % 5 := congrArg Prod.fst he
  have a2 : t0.2.1 % 5 = t.2.1 % 5 := congrArg (fun z => z.2.1) he
  have a3 : t0.2.2 = t.2.2.g := congrArg (fun z => z.2.2) he
  have hd := List.all_eq_true.1 hc t0 ht0
  have hd' : t.2.2.g.v.dom (wX p t.1 t.2.1) = true := by
    rw [← a3]
    have : wX p t.1 t.2.1 = wX p t0.1 t0.2.1 := by unfold wX; rw [← a1, ← a2]
    rw [this]; exact hd
  exact t.2.2.h.dom hd'

end

end Meshless
''']
    open(f"/verif/lean/Verif/Lemmas/Mag{name}.lean","w").write("\n".join(o))
run("CellNS"); run("CellS")
