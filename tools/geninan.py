"""Writes Lemmas/IeeeNan<Block>.lean: an area that is 0, infinite or NaN makes every increment of calc_k0 and calc_kG (Model/Gen) NaN."""
import re
G='/verif/lean/Verif/Model/Gen/'
B=(("K0","K0Env"),("KG","KGEnv"))
for f,n in B:
    s=open(G+f+".lean").read()
    idx=re.search(r"\n  \(([^:]*) : ℤ\)",s).group(1).split(); vs=re.search(r"\n  \(([^:]*) : K\)",s).group(1).split()
    groups=re.findall(r"\ndef (\w+) \(e : \w+ K\) : List",s); ent=groups[-1]; groups=groups[:-1]
    o=["import Verif.Lemmas.IeeeNan",f"import Verif.Model.Gen.{f}","import Verif.Model.Gen.Map","",f"/-! GENERATED by /verif/tools/geninan.py: the increments of Model/Gen/{f}.lean when the area is 0, infinite or NaN, group by group. -/","","set_option autoImplicit false","set_option maxRecDepth 10000","","namespace Meshless","","variable {f : Fmt}",""]
    for g in groups:
        o+=[f"private theorem {g}_x (e : {n} (Nt f)) : ({g} e).map (fun t => (t.1, t.2.1, (t.2.2.x : Fo f))) = {g} (K := Fo f) (e.map fun y => (y.x : Fo f)) := rfl"]
    o+=["",f"private theorem {ent}_x (e : {n} (Nt f)) : ({ent} e).map (fun t => (t.1, t.2.1, (t.2.2.x : Fo f))) = {ent} (K := Fo f) (e.map fun y => (y.x : Fo f)) := by",
        f"  unfold {ent}",f"  simp only [List.map_append, "+", ".join(f"{g}_x" for g in groups)+"]",""]
    for c,H,fl in (("zn","Zn","⟨true, false, false⟩"),("bad","Bad","⟨false, true, false⟩")):
        o+=[f"private def tr_{c} (e : {n} Flo) (h : e.Ac.{H}) : {n} (Nt f) := {{ e.map (Nt.any f) with Ac := Nt.{c} e.Ac h }}"]
        z=", ".join([f"{i} := 0" for i in idx]+[f"{x} := {fl if x=='Ac' else '⟨false, false, false⟩'}" for x in vs])
        o+=[f"private def fl_{c} : {n} Nt.Flag := {{ {z} }}",""]
        for g in groups:
            o+=[f"private theorem {g}_{c} (e : {n} Flo) (h : e.Ac.{H}) : ({g} (tr_{c} (f := f) e h)).map (fun t => t.2.2.flag) = ({g} fl_{c}).map (fun t => t.2.2) := rfl",
                f"private theorem {g}_{c}b : ({g} fl_{c}).all (fun t => t.2.2.n) = true := by decide +kernel"]
        o+=["",f"theorem {ent}_{c} (e : {n} Flo) (h : e.Ac.{H}) : ∀ t ∈ {ent} (K := Fo f) e, t.2.2 = Flo.nan := by",
            f"  have hx := {ent}_x (tr_{c} (f := f) e h)",
            f"  rw [show ((tr_{c} (f := f) e h).map fun y => (y.x : Fo f)) = e from rfl] at hx",
            "  intro t ht","  rw [← hx] at ht","  obtain ⟨s, hs, rfl⟩ := List.mem_map.1 ht",
            "  refine s.2.2.hn ?_","  show (fun q : Nt.Flag => q.n) s.2.2.flag = true",
            f"  unfold {ent} at hs","  simp only [List.mem_append] at hs",
            "  rcases hs with "+("("*(len(groups)-2))+"h1 | h1"+"".join(") | h1" for _ in groups[2:])]
        o+=[f"  · exact Nt.of_flag ({g}_{c} e h) (fun q => q.n) {g}_{c}b h1" for g in groups]+[""]
    o+=["end Meshless",""]
    open(f"/verif/lean/Verif/Lemmas/IeeeNan{f}.lean","w").write("\n".join(o))
