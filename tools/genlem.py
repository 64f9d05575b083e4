"""Writes Lemmas/GenKG.lean, GenCellS.lean, GenCellNS.lean: the pasted increments are outer products of strain columns."""
import re
L="/verif/lean/Verif/Lemmas/"
G="/verif/lean/Verif/Model/Gen/"
# ---- KG
s="""import Verif.Lemmas.Mat
import Verif.Model.Gen.KG
import Mathlib.Algebra.BigOperators.Fin

/-! Written by /verif/tools/genlem.py. -/

set_option autoImplicit false

namespace Meshless

"""
for v,n in (('X','nx'),('Y','ny')):
    s+=f"/-- weighted boundary sum `Σ_k f_kp le_k {n}_k` -/\nnoncomputable def KGEnv.{v} (e : KGEnv ℝ) : Fin 4 → ℝ := ![\n  "+",\n  ".join(" + ".join(f"e.f{k}{p} * e.le{k} * e.{n}{k}" for k in (1,2,3,4)) for p in (1,2,3,4))+"]\n\n"
for v,n in (('X','nx'),('Y','ny')):
    for p in range(4):
        s+=f"private theorem {v}{p}_def (e : KGEnv ℝ) : "+" + ".join(f"e.f{k}{p+1} * e.le{k} * e.{n}{k}" for k in (1,2,3,4))+f" = e.{v} {p} := rfl\n"
s+="""
/-- a vector with two given entries -/
def v2 (a b : ℝ) : Fin 2 → ℝ := ![a, b]
theorem v2_0 (a b : ℝ) : v2 a b 0 = a := rfl
theorem v2_1 (a b : ℝ) : v2 a b 1 = b := rfl
/-- a symmetric 2 × 2 matrix -/
def m2 (a b c : ℝ) : Fin 2 → Fin 2 → ℝ := ![![a, b], ![b, c]]
theorem m2_00 (a b c : ℝ) : m2 a b c 0 0 = a := rfl
theorem m2_01 (a b c : ℝ) : m2 a b c 0 1 = b := rfl
theorem m2_10 (a b c : ℝ) : m2 a b c 1 0 = b := rfl
theorem m2_11 (a b c : ℝ) : m2 a b c 1 1 = c := rfl

/-- gradient columns of the four transverse dofs -/
noncomputable def kGDofs (e : KGEnv ℝ) : List (ℤ × (Fin 2 → ℝ)) := [
  (e.i1 * 5 + 2, v2 (e.X 0 / e.Ac) (e.Y 0 / e.Ac)),
  (e.i2 * 5 + 2, v2 (e.X 1 / e.Ac) (e.Y 1 / e.Ac)),
  (e.i3 * 5 + 2, v2 (e.X 2 / e.Ac) (e.Y 2 / e.Ac)),
  (e.i4 * 5 + 2, v2 (e.X 3 / e.Ac) (e.Y 3 / e.Ac))]

/-- The 16 pasted lines are the outer product of the gradient columns with `Ac * [Nxx Nxy; Nxy Nyy]`. -/
theorem kGEntries_eq (e : KGEnv ℝ) :
    kGEntries e = outer (fun p q => e.Ac * m2 e.Nxx e.Nxy e.Nyy p q) (kGDofs e) := by
  simp only [kGEntries, kG_i1_2, kG_i2_2, kG_i3_2, kG_i4_2, outer, kGDofs, List.flatMap_cons, List.flatMap_nil,
    List.map_cons, List.map_nil, List.cons_append, List.nil_append, List.append_nil, Fin.sum_univ_two,
    X0_def, X1_def, X2_def, X3_def, Y0_def, Y1_def, Y2_def, Y3_def, v2_0, v2_1, m2_00, m2_01, m2_10, m2_11]
"""
def conses(n): 
    t="rfl"
    for k in range(n): t=f"congrArg₂ List.cons ?_ ({t})" if k else "congrArg₂ List.cons ?_ rfl"
    return t
s+=f"  refine {conses(16)} <;>\n  refine Prod.ext rfl (Prod.ext rfl ?_) <;> simp only [] <;> ring\n\nend Meshless\n"
open(L+"GenKG.lean","w").write(s)
# ---- CellS
def bal(t,i):
    d=0
    for j in range(i,len(t)):
        if t[j]=='(': d+=1
        if t[j]==')':
            d-=1
            if d==0: return j
cols={}
for l in open(G+'CellS.lean'):
    m=re.match(r'  \(e\.(i\d) \* 5 \+ (\d), e\.(i\d) \* 5 \+ (\d), (.*)\)[,\]]*$',l)
    if m and m.group(1,2)==m.group(3,4):
        t=m.group(5); i=t.index('e.E44 * (')+8; j=bal(t,i); gx=t[i+1:j]
        i=t.index('e.E45 * (')+8; j=bal(t,i); gy=t[i+1:j]
        cols[m.group(1),m.group(2)]=(gx,gy)
assert len(cols)==9
s="""import Verif.Lemmas.GenKG
import Verif.Model.Gen.CellS

/-! Written by /verif/tools/genlem.py. -/

set_option autoImplicit false

namespace Meshless

"""
for (i,r),(gx,gy) in cols.items():
    s+=f"""noncomputable def CellSEnv.gx_{i}_{r} (e : CellSEnv ℝ) : ℝ := {gx}
noncomputable def CellSEnv.gy_{i}_{r} (e : CellSEnv ℝ) : ℝ := {gy}
private theorem gx_{i}_{r}_def (e : CellSEnv ℝ) : {gx} = e.gx_{i}_{r} := rfl
private theorem gy_{i}_{r}_def (e : CellSEnv ℝ) : {gy} = e.gy_{i}_{r} := rfl
"""
s+="\n/-- shear columns of the nine dofs, times the area -/\nnoncomputable def cellSDofs (e : CellSEnv ℝ) : List (ℤ × (Fin 2 → ℝ)) := [\n  "
s+=",\n  ".join(f"(e.{i} * 5 + {r}, v2 e.gx_{i}_{r} e.gy_{i}_{r})" for i,r in cols)+"]\n\n"
defs=", ".join(f"gx_{i}_{r}_def, gy_{i}_{r}_def" for i,r in cols)
for i,r in cols:
    s+=f"""private theorem row_{i}_{r} (e : CellSEnv ℝ) : cellS_{i}_{r} e = (cellSDofs e).map fun b =>
    (e.{i} * 5 + {r}, b.1, ∑ p, ∑ q, v2 e.gx_{i}_{r} e.gy_{i}_{r} p * (m2 e.E44 e.E45 e.E55 p q / e.Ac) * b.2 q) := by
  simp only [cellS_{i}_{r}, {defs}, cellSDofs,
    List.map_cons, List.map_nil, Fin.sum_univ_two, v2_0, v2_1, m2_00, m2_01, m2_10, m2_11]
  refine {conses(9)} <;>
  refine Prod.ext rfl (Prod.ext rfl ?_) <;> simp only [] <;> ring

"""
s+="""/-- The 81 pasted lines are the outer product of the shear columns with `[E44 E45; E45 E55] / Ac`. -/
theorem cellSEntries_eq (e : CellSEnv ℝ) :
    cellSEntries e = outer (fun p q => m2 e.E44 e.E45 e.E55 p q / e.Ac) (cellSDofs e) := by
  have h : ∀ l : List (ℤ × (Fin 2 → ℝ)), l = cellSDofs e → outer (fun p q => m2 e.E44 e.E45 e.E55 p q / e.Ac) l =
      ([""" + ", ".join(f"(e.{i} * 5 + {r}, v2 e.gx_{i}_{r} e.gy_{i}_{r})" for i,r in cols)+"""] : List (ℤ × (Fin 2 → ℝ))).flatMap
        fun a => l.map fun b => (a.1, b.1, ∑ p, ∑ q, a.2 p * (m2 e.E44 e.E45 e.E55 p q / e.Ac) * b.2 q) := by
    rintro _ rfl; rfl
  rw [h _ rfl]
  simp only [cellSEntries, """+", ".join(f"row_{i}_{r}" for i,r in cols)+"""]
  generalize cellSDofs e = l
  simp only [List.flatMap_cons, List.flatMap_nil, List.append_nil, List.append_assoc]

end Meshless
"""
open(L+"GenCellS.lean","w").write(s)
# ---- CellNS
col={('i1','2'):("(e.b1 - e.d1) / (2 * e.Ac)","(e.c1 - e.a1) / (2 * e.Ac)"),('i1','3'):("1 / 2","0"),('i1','4'):("0","1 / 2"),
('i2','2'):("e.d1 / (2 * e.Ac)","-e.c1 / (2 * e.Ac)"),('i2','3'):("e.a1 * e.d1 / (4 * e.Ac)","-(e.a1 * e.c1) / (4 * e.Ac)"),('i2','4'):("e.b1 * e.d1 / (4 * e.Ac)","-(e.b1 * e.c1) / (4 * e.Ac)"),
('i3','2'):("-e.b1 / (2 * e.Ac)","e.a1 / (2 * e.Ac)"),('i3','3'):("-(e.b1 * e.c1) / (4 * e.Ac)","e.a1 * e.c1 / (4 * e.Ac)"),('i3','4'):("-(e.b1 * e.d1) / (4 * e.Ac)","e.a1 * e.d1 / (4 * e.Ac)")}
s="""import Verif.Lemmas.GenKG
import Verif.Model.Gen.CellNS
import Mathlib.Tactic.FieldSimp

/-! Written by /verif/tools/genlem.py. -/

set_option autoImplicit false

namespace Meshless

/-- discrete-shear-gap columns of the nine dofs of a triangle -/
noncomputable def cellNSDofs (e : CellNSEnv ℝ) : List (ℤ × (Fin 2 → ℝ)) := [
  """+",\n  ".join(f"(e.{i} * 5 + {r}, v2 ({gx}) ({gy}))" for (i,r),(gx,gy) in col.items())+"]\n\n"
for (i,r),(gx,gy) in col.items():
    s+=f"""private theorem row_{i}_{r} (e : CellNSEnv ℝ) (hA : e.Ac ≠ 0) : cellNS_{i}_{r} e = (cellNSDofs e).map fun b =>
    (e.{i} * 5 + {r}, b.1, ∑ p, ∑ q, v2 ({gx}) ({gy}) p * (e.Ac * m2 e.E44 e.E45 e.E55 p q) * b.2 q) := by
  simp only [cellNS_{i}_{r}, cellNSDofs,
    List.map_cons, List.map_nil, Fin.sum_univ_two, v2_0, v2_1, m2_00, m2_01, m2_10, m2_11]
  refine {conses(9)} <;>
  refine Prod.ext rfl (Prod.ext rfl ?_) <;> simp only [] <;> field_simp <;> ring

"""
s+="""/-- The 81 pasted lines are the outer product of the shear columns with `Ac * [E44 E45; E45 E55]`. -/
theorem cellNSEntries_eq (e : CellNSEnv ℝ) (hA : e.Ac ≠ 0) :
    cellNSEntries e = outer (fun p q => e.Ac * m2 e.E44 e.E45 e.E55 p q) (cellNSDofs e) := by
  have h : ∀ l : List (ℤ × (Fin 2 → ℝ)), l = cellNSDofs e → outer (fun p q => e.Ac * m2 e.E44 e.E45 e.E55 p q) l =
      ([""" + ", ".join(f"(e.{i} * 5 + {r}, v2 ({gx}) ({gy}))" for (i,r),(gx,gy) in col.items())+"""] : List (ℤ × (Fin 2 → ℝ))).flatMap
        fun a => l.map fun b => (a.1, b.1, ∑ p, ∑ q, a.2 p * (e.Ac * m2 e.E44 e.E45 e.E55 p q) * b.2 q) := by
    rintro _ rfl; rfl
  rw [h _ rfl]
  simp only [cellNSEntries, """+", ".join(f"row_{i}_{r} e hA" for i,r in col)+"""]
  generalize cellNSDofs e = l
  simp only [List.flatMap_cons, List.flatMap_nil, List.append_nil, List.append_assoc]

end Meshless
"""
open(L+"GenCellNS.lean","w").write(s)
# ---- EdgeB, EdgeI: outer products except for entries whose coefficients were rounded products
S="0.166666666666667"
HEAD="""import Verif.Lemmas.%s
import Verif.Model.Gen.%s
import Mathlib.Tactic.FieldSimp

/-! Written by /verif/tools/genlem.py. -/

set_option autoImplicit false

namespace Meshless

"""
def lines(f):
    D={}
    for l in open(G+f+'.lean'):
        m=re.match(r'  \(e\.(i\d) \* 5 \+ (\d), e\.(i\d) \* 5 \+ (\d), (.*)\)[,\]]*$',l)
        if m: D[m.group(1,2)+m.group(3,4)]=m.group(5)
    return D
colB={}
a1,b1,c1,d1,Ac="e.a1","e.b1","e.c1","e.d1","e.Ac"
colB['i1','2']=(f"e.d1 / (2 * e.Ac) + {S} * (e.b1 - e.d1) / e.Ac",f"-e.c1 / (2 * e.Ac) + {S} * (-e.a1 + e.c1) / e.Ac")
colB['i1','3']=(f"{S} + e.a1 * e.d1 / (4 * e.Ac)","-(e.a1 * e.c1) / (4 * e.Ac)")
colB['i1','4']=("e.b1 * e.d1 / (4 * e.Ac)",f"{S} - e.b1 * e.c1 / (4 * e.Ac)")
colB['i2','2']=(f"-e.b1 / (2 * e.Ac) + {S} * (e.b1 - e.d1) / e.Ac",f"e.a1 / (2 * e.Ac) + {S} * (-e.a1 + e.c1) / e.Ac")
colB['i2','3']=(f"{S} - e.b1 * e.c1 / (4 * e.Ac)","e.a1 * e.c1 / (4 * e.Ac)")
colB['i2','4']=("-(e.b1 * e.d1) / (4 * e.Ac)",f"{S} + e.a1 * e.d1 / (4 * e.Ac)")
colB['i3','2']=(f"{S} * (e.b1 - e.d1) / e.Ac",f"{S} * (-e.a1 + e.c1) / e.Ac")
colB['i3','3']=(S,"0")
colB['i3','4']=("0",S)
Z=("0",)*6
extB={k:Z for k in colB}
for k,(x,y) in {('i1','3'):("0","eps3 * (-(e.a1 * e.c1))"),('i1','4'):("eps3 * (e.b1 * e.d1)","0"),('i2','3'):("0","eps3 * (e.a1 * e.c1)"),('i2','4'):("eps3 * (-(e.b1 * e.d1))","0")}.items():
    extB[k]=("0","0",x,y,x,y)
extB['i3','2']=("0","0","eps1 * (e.b1 - e.d1)","eps1 * (-e.a1 + e.c1)","0","0")
extB['i3','3']=("1","0","eps1 * e.Ac","0","0","0")
extB['i3','4']=("0","1","0","eps1 * e.Ac","0","0")
s=HEAD%("GenK0","EdgeB")
s+="""/-- rounding of the pasted coefficient `0.0277777777777778`, where `0.166666666666667 ^ 2` would make the matrix symmetric -/
noncomputable def eps1 : ℝ := 0.0277777777777778 - 0.166666666666667 * 0.166666666666667
/-- rounding of the pasted coefficient `0.0138888888888889`, where `0.166666666666667 * 0.0833333333333333` would -/
noncomputable def eps2 : ℝ := 0.0138888888888889 - 0.166666666666667 * 0.0833333333333333

/-- rounding of the pasted coefficient `0.0416666666666667`, where `0.166666666666667 / 4` would -/
noncomputable def eps3 : ℝ := 0.0416666666666667 - 0.166666666666667 / 4

/-- a vector of eight components -/
def v8 {α : Type} (x0 x1 x2 x3 x4 x5 x6 x7 : α) : Fin 8 → α
  | 0 => x0 | 1 => x1 | 2 => x2 | 3 => x3 | 4 => x4 | 5 => x5 | 6 => x6 | 7 => x7

section
variable {α : Type} (x0 x1 x2 x3 x4 x5 x6 x7 : α)
theorem v8_0 : v8 x0 x1 x2 x3 x4 x5 x6 x7 0 = x0 := rfl
theorem v8_1 : v8 x0 x1 x2 x3 x4 x5 x6 x7 1 = x1 := rfl
theorem v8_2 : v8 x0 x1 x2 x3 x4 x5 x6 x7 2 = x2 := rfl
theorem v8_3 : v8 x0 x1 x2 x3 x4 x5 x6 x7 3 = x3 := rfl
theorem v8_4 : v8 x0 x1 x2 x3 x4 x5 x6 x7 4 = x4 := rfl
theorem v8_5 : v8 x0 x1 x2 x3 x4 x5 x6 x7 5 = x5 := rfl
theorem v8_6 : v8 x0 x1 x2 x3 x4 x5 x6 x7 6 = x6 := rfl
theorem v8_7 : v8 x0 x1 x2 x3 x4 x5 x6 x7 7 = x7 := rfl
end

theorem sum8 (f : Fin 8 → ℝ) : ∑ i, f i = f 0 + f 1 + f 2 + f 3 + f 4 + f 5 + f 6 + f 7 := Fin.sum_univ_eight f

/-- `a * [E44 E45; E45 E55]` between components 0-1, `[E44 E45; E45 E55]` between components 2-3 (rows) and 4-5 (columns)
and between components 6-7 (rows) and 2-3 (columns) -/
noncomputable def cE (a E44 E45 E55 : ℝ) (p q : Fin 8) : ℝ :=
  v8 (v8 (a * E44) (a * E45) 0 0 0 0 0 0 q) (v8 (a * E45) (a * E55) 0 0 0 0 0 0 q) (v8 0 0 0 0 E44 E45 0 0 q) (v8 0 0 0 0 E45 E55 0 0 q) 0 0
    (v8 0 0 E44 E45 0 0 0 0 q) (v8 0 0 E45 E55 0 0 0 0 q) p

theorem sumE (a E44 E45 E55 x0 x1 x2 x3 x4 x5 x6 x7 y0 y1 y2 y3 y4 y5 y6 y7 : ℝ) :
    ∑ p, ∑ q, v8 x0 x1 x2 x3 x4 x5 x6 x7 p * cE a E44 E45 E55 p q * v8 y0 y1 y2 y3 y4 y5 y6 y7 q =
      a * (x0 * (E44 * y0 + E45 * y1) + x1 * (E45 * y0 + E55 * y1)) + (x2 * (E44 * y4 + E45 * y5) + x3 * (E45 * y4 + E55 * y5)) +
        (x6 * (E44 * y2 + E45 * y3) + x7 * (E45 * y2 + E55 * y3)) := by
  simp only [sum8, cE, v8_0, v8_1, v8_2, v8_3, v8_4, v8_5, v8_6, v8_7]
  ring

"""
def emit(nm,Env,col,ext,amp,hyp,tac,pre,defs):
    global s
    n=len(col)
    def v(k): return "v8 (%s) (%s) (%s) (%s) (%s) (%s) (%s) (%s)"%(col[k]+ext[k])
    s+=pre
    s+=f"/-- shear columns of the dofs, and the columns of the rounding residue -/\nnoncomputable def {nm}Dofs (e : {Env} ℝ) : List (ℤ × (Fin 8 → ℝ)) := [\n  "
    s+=",\n  ".join(f"(e.{k[0]} * 5 + {k[1]}, {v(k)})" for k in col)+"]\n\n"
    for k in col:
        s+=f"""private theorem row_{k[0]}_{k[1]} (e : {Env} ℝ){hyp} : {nm}_{k[0]}_{k[1]} e = ({nm}Dofs e).map fun b =>
    (e.{k[0]} * 5 + {k[1]}, b.1, ∑ p, ∑ q, {v(k)} p * cE ({amp}) e.E44 e.E45 e.E55 p q * b.2 q) := by
  simp only [{nm}_{k[0]}_{k[1]}, {defs}{nm}Dofs, List.map_cons, List.map_nil, sumE, eps1, eps2, eps3]
  refine {conses(n)} <;>
  refine Prod.ext rfl (Prod.ext rfl ?_) <;> {tac(k)}

"""
    s+=f"""/-- The {n*n} pasted lines, up to the two rounded coefficients, are the outer product of the shear columns. -/
theorem {nm}Entries_eq (e : {Env} ℝ){hyp} : {nm}Entries e = outer (cE ({amp}) e.E44 e.E45 e.E55) ({nm}Dofs e) := by
  have h : ∀ l : List (ℤ × (Fin 8 → ℝ)), l = {nm}Dofs e → outer (cE ({amp}) e.E44 e.E45 e.E55) l =
      ([""" + ", ".join(f"(e.{k[0]} * 5 + {k[1]}, {v(k)})" for k in col)+f"""] : List (ℤ × (Fin 8 → ℝ))).flatMap
        fun a => l.map fun b => (a.1, b.1, ∑ p, ∑ q, a.2 p * cE ({amp}) e.E44 e.E45 e.E55 p q * b.2 q) := by
    rintro _ rfl; rfl
  rw [h _ rfl]
  simp only [{nm}Entries, """+", ".join(f"row_{k[0]}_{k[1]} e"+(" hA" if hyp else "") for k in col)+f"""]
  generalize {nm}Dofs e = l
  simp only [List.flatMap_cons, List.flatMap_nil, List.append_nil, List.append_assoc]

end Meshless
"""
emit("edgeB","EdgeBEnv",colB,extB,"e.Ac"," (hA : e.Ac ≠ 0)",lambda k:"simp only [] <;> field_simp <;> ring","","")
open(L+"GenEdgeB.lean","w").write(s)
# EdgeI
D=lines('EdgeI')
colI={}
for i in ('i1','i2'):
    for r in '234':
        t=D[i,r,i,r]; k=t.index('e.E44 * (')+8; j=bal(t,k); gx=t[k+1:j]
        k=t.index('e.E55 * (')+8; j=bal(t,k); gy=t[k+1:j]
        colI[i,r]=(gx,gy)
pre="";defs=""
for (i,r),(gx,gy) in list(colI.items()):
    pre+=f"""noncomputable def EdgeIEnv.gx_{i}_{r} (e : EdgeIEnv ℝ) : ℝ := {gx}
noncomputable def EdgeIEnv.gy_{i}_{r} (e : EdgeIEnv ℝ) : ℝ := {gy}
private theorem gx_{i}_{r}_def (e : EdgeIEnv ℝ) : {gx} = e.gx_{i}_{r} := rfl
private theorem gy_{i}_{r}_def (e : EdgeIEnv ℝ) : {gy} = e.gy_{i}_{r} := rfl
"""
    print(i,r,gx,'|',gy)
    defs+=f"gx_{i}_{r}_def, gy_{i}_{r}_def, "
    colI[i,r]=(f"e.gx_{i}_{r}",f"e.gy_{i}_{r}")
T="0.0833333333333333"
colI['i3','2']=(f"{S} * (e.b1 - e.d1)",f"{S} * (-e.a1 + e.c1)")
colI['i3','3']=(f"{S} * e.Ac1","0")
colI['i3','4']=("0",f"{S} * e.Ac1")
colI['i4','2']=(f"{S} * e.d2",f"-{S} * e.c2")
colI['i4','3']=(f"{T} * e.a2 * e.d2",f"-{T} * e.a2 * e.c2")
colI['i4','4']=(f"{T} * e.b2 * e.d2",f"-{T} * e.b2 * e.c2")
extI={k:Z for k in colI}
extI['i3','3']=("e.Ac1 / e.Ac","0","eps1 * e.Ac1","0","0","0")
extI['i3','4']=("0","e.Ac1 / e.Ac","0","eps1 * e.Ac1","0","0")
extI['i4','2']=("0","0","eps1 * e.d2","-eps1 * e.c2","0","0")
extI['i4','3']=("0","0","eps2 * e.a2 * e.d2","-eps2 * e.a2 * e.c2","0","0")
extI['i4','4']=("0","0","eps2 * e.b2 * e.d2","-eps2 * e.b2 * e.c2","0","0")
s=HEAD%("GenEdgeB","EdgeI")
emit("edgeI","EdgeIEnv",colI,extI,"1 / e.Ac","",lambda k:"simp only [] <;> ring",pre,defs)
open(L+"GenEdgeI.lean","w").write(s)
