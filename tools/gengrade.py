"""Writes Lemmas/Grade<Block>.lean: the units of the increments of the six generated blocks (Model/Gen)."""
import re
G='/verif/lean/Verif/Model/Gen/'
B=(("K0","K0Env"),("KG","KGEnv"),("CellS","CellSEnv"),("CellNS","CellNSEnv"),("EdgeB","EdgeBEnv"),("EdgeI","EdgeIEnv"))
def deg(v,sign):
    if re.fullmatch(r"Ac\d?",v): return "Dg.A"
    if re.fullmatch(r"A\d\d|E\d\d|N[xy][xy]",v): return "Dg.P"
    if re.fullmatch(r"B\d\d",v): return "Dg.F"
    if re.fullmatch(r"D\d\d",v): return "Dg.M"
    if re.fullmatch(r"f\d\d",v): return "1"
    if re.fullmatch(r"le\d",v): return "Dg.L"
    if re.fullmatch(r"n[xy]\d",v): return "Dg.N"
    if re.fullmatch(r"[abcd]\d",v): return "Dg.X" if sign else "Dg.L"
    raise ValueError(v)
for f,n in B:
    sign=f!="EdgeI"     # plate2d_add_k0s_edge_based.py:160 mixes y with z
    w="entryDg" if sign else "entryDg'"
    s=open(G+f+".lean").read()
    idx=re.search(r"\n  \(([^:]*) : ℤ\)",s).group(1).split(); vs=re.search(r"\n  \(([^:]*) : K\)",s).group(1).split()
    groups=re.findall(r"\ndef (\w+) \(e : \w+ K\) : List",s); ent=groups[-1]; groups=groups[:-1]
    o=["import Verif.Model.Gen.Map","import Verif.Lemmas.Graded","",f"/-! GENERATED by /verif/tools/gengrade.py: the units of the increments of Model/Gen/{f}.lean, group by group. -/","","set_option autoImplicit false","set_option maxRecDepth 10000","","namespace Meshless","","variable {R : Rounding} {s f ε : ℝ} [Grading R s f ε]",""]
    o+=["/-- the same row and column numbers; the data in the other units -/",f"structure {n}.Graded (s f ε : ℝ) (a b : {n} ℝ) : Prop where"]
    o+=[f"  {i} : b.{i} = a.{i}" for i in idx]+[f"  {v} : Gd s f ε {deg(v,sign)} a.{v} b.{v}" for v in vs]+[""]
    o+=[f"private def gr {{a b : {n} ℝ}} (h : {n}.Graded s f ε a b) : {n} (Gr R s f ε) where"]
    o+=[f"  {i} := a.{i}" for i in idx]+[f"  {v} := Gr.of {deg(v,sign)} h.{v}" for v in vs]+[""]
    z=", ".join([f"{i} := 0" for i in idx]+[f"{x} := ⟨{deg(x,sign)}, true⟩" for x in vs])
    o+=[f"private def cnt : {n} Gr.Cnt := {{ {z} }}",""]
    for g in groups:
        o+=[f"private theorem {g}_c (e : {n} (Gr R s f ε)) : ({g} e).map (fun t => (t.1, t.2.1, (t.2.2.c : Fl R))) = {g} (K := Fl R) (e.map fun x => (x.c : Fl R)) := rfl",
            f"private theorem {g}_d (e : {n} (Gr R s f ε)) : ({g} e).map (fun t => (t.1, t.2.1, (t.2.2.d : Fl R))) = {g} (K := Fl R) (e.map fun x => (x.d : Fl R)) := rfl",
            f"private theorem {g}_n {{a b : {n} ℝ}} (h : {n}.Graded s f ε a b) : ({g} (gr (R := R) h)).map (fun t => (t.1 % 5, t.2.1 % 5, t.2.2.cnt)) = ({g} cnt).map (fun t => (t.1 % 5, t.2.1 % 5, t.2.2)) := by",
            f"  simp only [{g}, List.map_cons, List.map_nil, Int.mul_add_emod_self_right]",f"  rfl",
            f"private theorem {g}_b : ({g} cnt).all (fun t => t.2.2.ok && t.2.2.g.same ({w} (t.1 % 5) (t.2.1 % 5))) = true := by decide +kernel"]
    o+=[""]
    for sfx in ("c","d"):
        o+=[f"private theorem {ent}_{sfx} (e : {n} (Gr R s f ε)) : ({ent} e).map (fun t => (t.1, t.2.1, (t.2.2.{sfx} : Fl R))) = {ent} (K := Fl R) (e.map fun x => (x.{sfx} : Fl R)) := by",
            f"  unfold {ent}",f"  simp only [List.map_append, "+", ".join(f"{g}_{sfx}" for g in groups)+"]",""]
    o+=["/-- the increments in the other units -/",f"theorem {ent}_graded {{a b : {n} ℝ}} (h : {n}.Graded s f ε a b) :",
        f"    ∃ L : List (ℤ × ℤ × Gr R s f ε), L.map (fun t => (t.1, t.2.1, (t.2.2.c : Fl R))) = {ent} (K := Fl R) a ∧",
        f"      L.map (fun t => (t.1, t.2.1, (t.2.2.d : Fl R))) = {ent} (K := Fl R) b ∧ ∀ t ∈ L, Gd s f ε ({w} (t.1 % 5) (t.2.1 % 5)) t.2.2.c t.2.2.d := by",
        f"  refine ⟨{ent} (gr (R := R) h), ?_, ?_, ?_⟩",
        f"  · rw [{ent}_c]; rfl",
        f"  · rw [{ent}_d]; congr 1; obtain ⟨⟩ := a; obtain ⟨⟩ := b",
        *[f"    obtain rfl := h.{i}" for i in idx],
        f"    rfl",
        f"  · intro t ht",f"    unfold {ent} at ht",
        f"    simp only [List.mem_append] at ht",
        "    rcases ht with "+("("*(len(groups)-2))+"h1 | h1"+"".join(") | h1" for _ in groups[2:])]
    o+=[f"    · exact Gr.of_cnt ({g}_n h) {g}_b h1" for g in groups]+[""]
    o+=["end Meshless",""]
    open(f"/verif/lean/Verif/Lemmas/Grade{f}.lean","w").write("\n".join(o))
