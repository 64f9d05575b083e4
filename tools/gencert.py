"""Writes Lemmas/Cert<Block>.lean: the certified evaluation of the increments of the six generated blocks (Model/Gen)."""
import ast, re
G='/verif/lean/Verif/Model/Gen/'
B=(("K0","K0Env"),("KG","KGEnv"),("CellS","CellSEnv"),("CellNS","CellNSEnv"),("EdgeB","EdgeBEnv"),("EdgeI","EdgeIEnv"))
# Model/Gen/Map.lean
out=["import Verif.Model.Gen.K0","import Verif.Model.Gen.KG","import Verif.Model.Gen.CellS","import Verif.Model.Gen.CellNS","import Verif.Model.Gen.EdgeB","import Verif.Model.Gen.EdgeI",""]
out+=["/-! GENERATED by /verif/tools/gencert.py: functions and relations applied to every number of the local variables of the six blocks. -/","","namespace Meshless",""]
for f,n in (("K0","K0Env"),("KG","KGEnv"),("CellS","CellSEnv"),("CellNS","CellNSEnv"),("EdgeB","EdgeBEnv"),("EdgeI","EdgeIEnv")):
    s=open(G+f+".lean").read()
    idx=re.search(r"\n  \(([^:]*) : ℤ\)",s).group(1).split(); vs=re.search(r"\n  \(([^:]*) : K\)",s).group(1).split()
    out+=[f"/-- `f` applied to every number of the environment; the row and column numbers stay -/",f"def {n}.map {{K L : Type*}} (f : K → L) (e : {n} K) : {n} L where"]
    out+=["  "+"\n  ".join([f"{i} := e.{i}" for i in idx]+[f"{v} := f e.{v}" for v in vs]),""]
    out+=[f"/-- the same row and column numbers, and `P` between corresponding numbers -/",f"structure {n}.Rel {{K L : Type*}} (P : K → L → Prop) (a : {n} K) (b : {n} L) : Prop where"]
    out+=["  "+"\n  ".join([f"{i} : a.{i} = b.{i}" for i in idx]+[f"{v} : P a.{v} b.{v}" for v in vs]),""]
    out+=[f"/-- an environment built from a proof per number -/",f"def {n}.ofRel {{K L T : Type*}} {{P : K → L → Prop}} (f : ∀ a b, P a b → T) {{a : {n} K}} {{b : {n} L}} (h : {n}.Rel P a b) : {n} T where"]
    out+=["  "+"\n  ".join([f"{i} := b.{i}" for i in idx]+[f"{v} := f _ _ h.{v}" for v in vs]),""]
out+=["end Meshless",""]
open(G+"Map.lean","w").write("\n".join(out))

# Lemmas/Cert*.lean
def cnt(n,j):
    """number of roundings counted by Cert"""
    if isinstance(n,ast.Attribute): return j
    if isinstance(n,ast.Constant): return 1
    if isinstance(n,ast.UnaryOp): return cnt(n.operand,j)
    a,b=cnt(n.left,j),cnt(n.right,j)
    return max(a,b)+1 if isinstance(n.op,(ast.Add,ast.Sub)) else a+b+1
for f,n in B:
    s=open(G+f+".lean").read()
    idx=re.search(r"\n  \(([^:]*) : ℤ\)",s).group(1).split(); vs=re.search(r"\n  \(([^:]*) : K\)",s).group(1).split()
    acs=[v for v in vs if re.fullmatch(r"Ac\d?",v)]
    groups=re.findall(r"\ndef (\w+) \(e : \w+ K\) : List",s); ent=groups[-1]; groups=groups[:-1]
    vals=[l.split(", ",2)[2].strip().rstrip(",]").rstrip() for l in s.split("\n") if l.startswith("  (e.i")]
    vals=[v[:-1] for v in vals]
    K=[max(cnt(ast.parse(v,mode="eval").body,j) for v in vals) for j in (0,1)]
    print(f,len(vals),K)
    o=["import Verif.Model.Gen.Map","import Verif.Lemmas.Cert","",f"/-! GENERATED by /verif/tools/gencert.py: the certified evaluation of the increments of Model/Gen/{f}.lean, group by group. -/","","set_option autoImplicit false","set_option maxRecDepth 10000","","namespace Meshless","","variable {R : Rounding} {v : ℝ} [RoundOK R v]",""]
    for g in groups:
        o+=[f"private theorem {g}_c (e : {n} (Cert R v)) : ({g} e).map (fun t => (t.1, t.2.1, (t.2.2.c : Fl R))) = {g} (K := Fl R) (e.map fun x => (x.c : Fl R)) := rfl",
            f"private theorem {g}_e (e : {n} (Cert R v)) : ({g} e).map (fun t => (t.1, t.2.1, t.2.2.e)) = {g} (e.map fun x => x.e) := rfl",
            f"private theorem {g}_M (e : {n} (Cert R v)) : ({g} e).map (fun t => (t.1, t.2.1, (t.2.2.M : Mag))) = {g} (K := Mag) (e.map fun x => (x.M : Mag)) := rfl"]
    o+=[""]
    for sfx,proj,ty in (("c","(t.2.2.c : Fl R)","(K := Fl R) "),("e","t.2.2.e",""),("M","(t.2.2.M : Mag)","(K := Mag) ")):
        fn="fun x => "+proj.replace("t.2.2","x")
        o+=[f"private theorem {ent}_{sfx} (e : {n} (Cert R v)) : ({ent} e).map (fun t => (t.1, t.2.1, {proj})) = {ent} {ty}(e.map {fn}) := by",
            f"  unfold {ent}",f"  simp only [List.map_append, "+", ".join(f"{g}_{sfx}" for g in groups)+"]",""]
    o+=["/-- the magnitudes of the data: every number with the absolute tolerance `τ` added to its absolute value, the areas without -/",
        f"noncomputable def {n}.mag (e : {n} ℝ) (τ : ℝ) : {n} Mag :=",f"  {{ e.map fun x => (show ℝ from |x| + τ) with "+", ".join(f"{x} := (show ℝ from |e.{x}|)" for x in acs)+" }",""]
    for j in (0,1):
        hyp="{τ : ℝ} {c e : %s ℝ} (hτ : 0 ≤ τ) (h : %s.Rel (Near v %d τ) c e) "%(n,n,j)+" ".join(f"(h{x} : RelNear v {j} c.{x} e.{x})" for x in acs)
        args="hτ h "+" ".join("h"+x for x in acs)
        o+=[f"private noncomputable def cert{j} {hyp} : {n} (Cert R v) :=",f"  {{ {n}.ofRel (Cert.ofNear hτ {j}) h with "+", ".join(f"{x} := Cert.ofRelNear {j} h{x}" for x in acs)+" }",""]
        z=", ".join([f"{i} := 0" for i in idx]+[f"{x} := ⟨{j}, true, {'true' if x in acs else 'false'}⟩" for x in vs])
        o+=[f"private def cnt{j} : {n} Cert.Cnt := {{ {z} }}",""]
        for g in groups:
            o+=[f"private theorem {g}_n{j} {hyp} : ({g} (cert{j} (R := R) {args})).map (fun t => t.2.2.cnt) = ({g} cnt{j}).map (fun t => t.2.2) := rfl",
                f"private theorem {g}_b{j} : ({g} cnt{j}).all (fun t => t.2.2.ok && Nat.ble t.2.2.k {K[j]}) = true := by decide +kernel"]
        o+=["",f"/-- the increments computed from data with {'no error' if j==0 else 'errors of one rounding'} -/",f"theorem {ent}_cert{j} (R : Rounding) [RoundOK R v] {hyp} :",
            f"    ∃ L : List (ℤ × ℤ × Cert R v), L.map (fun t => (t.1, t.2.1, (t.2.2.c : Fl R))) = {ent} (K := Fl R) c ∧ L.map (fun t => (t.1, t.2.1, t.2.2.e)) = {ent} e ∧",
            f"      L.map (fun t => (t.1, t.2.1, (t.2.2.M : Mag))) = {ent} (K := Mag) (e.mag τ) ∧ ∀ t ∈ L, t.2.2.ok = true ∧ t.2.2.k ≤ {K[j]} := by",
            f"  refine ⟨{ent} (cert{j} (R := R) {args}), ?_, ?_, ?_, ?_⟩",
            f"  · rw [{ent}_c]; congr 1; obtain ⟨⟩ := c; obtain ⟨⟩ := e",
            *[f"    obtain rfl := h.{i}" for i in idx],
            f"    rfl",
            f"  · rw [{ent}_e]; rfl",
            f"  · rw [{ent}_M]; rfl",
            f"  · intro t ht",f"    unfold {ent} at ht",
            f"    simp only [List.mem_append] at ht",
            f"    rcases ht with "+("("*(len(groups)-2) + groups_pat if False else "|".join(["h1"]*len(groups)))]
        o[-1]="    rcases ht with "+("("*(len(groups)-2))+"h1 | h1"+"".join(") | h1" for _ in groups[2:]) if len(groups)>1 else "    have h1 := ht"
        o+=[f"    · exact Cert.of_cnt ({g}_n{j} {args}) {g}_b{j} h1" for g in groups]+[""]
    o+=["end Meshless",""]
    open(f"/verif/lean/Verif/Lemmas/Cert{f}.lean","w").write("\n".join(o))

# Lemmas/FloatRel.lean
def nest(l): return l[0] if len(l)==1 else f"({l[0]}.and {nest(l[1:])})"
o=["import Verif.Lemmas.FloatMat"]+[f"import Verif.Lemmas.Cert{f}" for f,n in B]
o+=["","/-! GENERATED by /verif/tools/gencert.py: increments computed from accurate data are accurate. -/","","set_option autoImplicit false","","namespace Meshless","open Filter Topology","","variable {ι : Type*} {π : ι → Rounding}",""]
for f,n in B:
    s=open(G+f+".lean").read()
    idx=re.search(r"\n  \(([^:]*) : ℤ\)",s).group(1).split(); vs=re.search(r"\n  \(([^:]*) : K\)",s).group(1).split()
    acs=[v for v in vs if re.fullmatch(r"Ac\d?",v)]
    ent=re.findall(r"\ndef (\w+) \(e : \w+ K\) : List",s)[-1]
    ix=", ".join("h."+i for i in idx)
    o+=[f"theorem {n}.Rel.mono {{K L : Type*}} {{P Q : K → L → Prop}} (hPQ : ∀ {{x y}}, P x y → Q x y) {{a : {n} K}} {{b : {n} L}} (h : {n}.Rel P a b) : {n}.Rel Q a b :=",
        "  ⟨"+ix+", "+", ".join(f"hPQ h.{v}" for v in vs)+"⟩",
        f"theorem {n}.Rel.mapLeft {{K L T : Type*}} {{f : K → L}} {{P : L → T → Prop}} {{a : {n} K}} {{b : {n} T}} (h : {n}.Rel (fun x y => P (f x) y) a b) : {n}.Rel P (a.map f) b :=",
        "  ⟨"+ix+", "+", ".join(f"h.{v}" for v in vs)+"⟩",
        f"theorem {n}.Rel.eventually {{κ K L : Type*}} {{F : Filter κ}} {{r : κ → K → L → Prop}} {{a : {n} K}} {{b : {n} L}} (h : {n}.Rel (fun x y => ∀ᶠ c in F, r c x y) a b) : ∀ᶠ c in F, {n}.Rel (r c) a b := by",
        "  filter_upwards ["+", ".join(f"h.{v}" for v in vs)+"] with c "+" ".join(f"h{v}" for v in vs)+" using ⟨"+ix+", "+", ".join(f"h{v}" for v in vs)+"⟩",
        f"/-- increments computed from accurate data are accurate -/",
        f"theorem {ent}_acc {{E : {n} (ι → ℝ)}} {{E0 : {n} ℝ}} (h : {n}.Rel (Acc π) E E0) "+" ".join(f"(h{v} : E0.{v} ≠ 0)" for v in acs)+" :",
        f"    AccL π (fun i => {ent} (K := Fl (π i)) (E.map fun a => a i)) ({ent} E0) := by",
        f"  have h1 := {n}.Rel.eventually (F := atTop) (r := fun (C : ℝ) (a : ι → ℝ) b => ∀ᶠ i in smallU π, Near (C * (π i).u) 1 1 (a i) b) (h.mono Acc.near)",
        "  obtain ⟨C, c1, c2, "+", ".join(f"g{v}" for v in acs)+"⟩ := (h1.and ((roundOK_small (π := π)).and "+nest([f"(h.{v}.relNear h{v})" for v in acs])+")).exists",
        f"  refine accL_of_cert c2.1 (kmax := 31) (mg := {ent} (E0.mag 1)) ?_",
        f"  filter_upwards [{n}.Rel.eventually c1, c2.2, "+", ".join(f"g{v}" for v in acs)+"] with i g1 ok "+" ".join(f"k{v}" for v in acs),
        f"  obtain ⟨L, l1, l2, l3, l4⟩ := @{ent}_cert1 (C * (π i).u) (π i) ok 1 _ _ zero_le_one g1.mapLeft "+" ".join(f"k{v}" for v in acs),
        "  exact ⟨L, l1, l2, l3, fun t ht => ⟨(l4 t ht).1, (l4 t ht).2.trans (by norm_num)⟩⟩",""]
o+=["end Meshless",""]
open("/verif/lean/Verif/Lemmas/FloatRel.lean","w").write("\n".join(o))
