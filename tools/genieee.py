"""Writes Lemmas/Ieee<Block>.lean: the increments of the six generated blocks (Model/Gen) computed in a format with special values."""
import re
G='/verif/lean/Verif/Model/Gen/'
B=(("K0","K0Env"),("KG","KGEnv"),("CellS","CellSEnv"),("CellNS","CellNSEnv"),("EdgeB","EdgeBEnv"),("EdgeI","EdgeIEnv"))
for f,n in B:
    s=open(G+f+".lean").read()
    idx=re.search(r"\n  \(([^:]*) : ℤ\)",s).group(1).split(); vs=re.search(r"\n  \(([^:]*) : K\)",s).group(1).split()
    acs=[v for v in vs if re.fullmatch(r"Ac\d?",v)]
    groups=re.findall(r"\ndef (\w+) \(e : \w+ K\) : List",s); ent=groups[-1]; groups=groups[:-1]
    o=["import Verif.Lemmas.IeeeLim","",f"/-! GENERATED by /verif/tools/genieee.py: the increments of Model/Gen/{f}.lean computed in floating-point formats, group by group. -/","","set_option autoImplicit false","set_option maxRecDepth 10000","","namespace Meshless","","variable {ι : Type*} {φ : ι → Fmt}",""]
    for g in groups:
        o+=[f"private theorem {g}_x (i : ι) (e : {n} (Tr φ)) : ({g} e).map (fun t => (t.1, t.2.1, (t.2.2.x i : Fo (φ i)))) = {g} (K := Fo (φ i)) (e.map fun y => (y.x i : Fo (φ i))) := rfl",
            f"private theorem {g}_l (e : {n} (Tr φ)) : ({g} e).map (fun t => (t.1, t.2.1, t.2.2.l)) = {g} (e.map fun x => x.l) := rfl"]
    o+=[""]
    for sfx,proj,ty,bd in (("x","(t.2.2.x i : Fo (φ i))","(K := Fo (φ i)) ","(i : ι) "),("l","t.2.2.l","","")):
        fn="fun y => "+proj.replace("t.2.2","y")
        o+=[f"private theorem {ent}_{sfx} {bd}(e : {n} (Tr φ)) : ({ent} e).map (fun t => (t.1, t.2.1, {proj})) = {ent} {ty}(e.map {fn}) := by",
            f"  unfold {ent}",f"  simp only [List.map_append, "+", ".join(f"{g}_{sfx}" for g in groups)+"]",""]
    hyp="{c : %s (ι → Flo)} {e : %s ℝ} (h : %s.Rel (Lim φ) c e) "%(n,n,n)+" ".join(f"(h{x} : e.{x} ≠ 0)" for x in acs)
    args="h "+" ".join("h"+x for x in acs)
    o+=[f"private noncomputable def tr {hyp} : {n} (Tr φ) :=",f"  {{ {n}.ofRel Tr.ofLim h with "+", ".join(f"{x} := Tr.ofLimNz _ _ h.{x} h{x}" for x in acs)+" }",""]
    z=", ".join([f"{i} := 0" for i in idx]+[f"{x} := ⟨true, {'true' if x in acs else 'false'}⟩" for x in vs])
    o+=[f"private def fl0 : {n} Tr.Flag := {{ {z} }}",""]
    for g in groups:
        o+=[f"private theorem {g}_n {hyp} : ({g} (tr {args})).map (fun t => t.2.2.flag) = ({g} fl0).map (fun t => t.2.2) := rfl",
            f"private theorem {g}_b : ({g} fl0).all (fun t => t.2.2.ok) = true := by decide +kernel"]
    o+=["",f"/-- the increments computed from numbers with limits have the exact increments as limits -/",f"theorem {ent}_lim {hyp} :",
        f"    LimL φ (fun i => {ent} (K := Fo (φ i)) (c.map fun x => (x i : Fo (φ i)))) ({ent} e) := by",
        f"  refine Tr.limL ({ent} (tr {args})) (fun i => ?_) ?_ ?_",
        f"  · rw [{ent}_x]; congr 1; obtain ⟨⟩ := c; obtain ⟨⟩ := e",
        *[f"    obtain rfl := h.{i}" for i in idx],
        f"    rfl",
        f"  · rw [{ent}_l]; rfl",
        f"  · intro t ht",f"    unfold {ent} at ht",
        f"    simp only [List.mem_append] at ht",
        "    rcases ht with "+("("*(len(groups)-2))+"h1 | h1"+"".join(") | h1" for _ in groups[2:]) if len(groups)>1 else "    have h1 := ht"]
    o+=[f"    · exact Tr.of_flag ({g}_n {args}) {g}_b h1" for g in groups]+[""]
    o+=["end Meshless",""]
    open(f"/verif/lean/Verif/Lemmas/Ieee{f}.lean","w").write("\n".join(o))
