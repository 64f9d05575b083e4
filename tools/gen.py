"""Transcribes the pasted `k0[r, c] += expr` / `kG[r, c] += expr` lines of /repo into Lean lists.

Reads the Python source as text only (module `ast`).  Each source line becomes one list item
`(row, col, value)`; row/col are integers `i<a>*5+<r>` (dof = 5 in every file).  Usage: python3 gen.py
"""
import ast, os
SRC="/repo/meshless/espim/"
OUT="/verif/lean/Verif/Model/Gen/"
os.makedirs(OUT,exist_ok=True)
PREC={ast.Add:65,ast.Sub:65,ast.Mult:70,ast.Div:70}
OPS={ast.Add:"+",ast.Sub:"-",ast.Mult:"*",ast.Div:"/"}
def ex(n,src,p=0):
    if isinstance(n,ast.Name): return "e."+n.id
    if isinstance(n,ast.Constant):
        s=ast.get_source_segment(src,n); return s
    if isinstance(n,ast.UnaryOp):
        assert isinstance(n.op,ast.USub)
        s="-"+ex(n.operand,src,80)
        return "("+s+")" if p>75 else s     # Lean: prefix minus binds at 75, tighter than * and /
    if isinstance(n,ast.BinOp):
        q=PREC[type(n.op)]
        s=ex(n.left,src,q)+" "+OPS[type(n.op)]+" "+ex(n.right,src,q+1)
        return "("+s+")" if q<p else s
    raise Exception(ast.dump(n))
def consts(n,src): return {ast.get_source_segment(src,x) for x in ast.walk(n) if isinstance(x,ast.Constant)}
def names(n): return {x.id for x in ast.walk(n) if isinstance(x,ast.Name)}
def entries(fn,func,mat):
    src=open(SRC+fn).read(); t=ast.parse(src)
    f=[x for x in ast.walk(t) if isinstance(x,ast.FunctionDef) and x.name==func][0]
    L=[x for x in ast.walk(f) if isinstance(x,ast.AugAssign) and isinstance(x.target,ast.Subscript) and x.target.value.id==mat]
    L.sort(key=lambda x:x.lineno)
    res=[]
    for x in L:
        assert isinstance(x.op,ast.Add)
        r,c=x.target.slice.elts
        def ix(k):
            assert isinstance(k,ast.BinOp) and isinstance(k.op,ast.Add) and isinstance(k.left,ast.BinOp) and isinstance(k.left.op,ast.Mult)
            assert k.left.right.id=="dof"
            return k.left.left.id,k.right.value
        res.append((x.lineno,ix(r),ix(c),ex(x.value,src),names(x.value),consts(x.value,src)))
    # the lines are contiguous: nothing between them is skipped
    assert [a[0] for a in res]==list(range(res[0][0],res[0][0]+len(res))),fn
    return res
def emit(mod,env,fn,func,mat,order):
    E=entries(fn,func,mat)
    vs=set().union(*[x[4] for x in E]); vs=[v for v in order if v in vs]+sorted(vs-set(order))
    idx=sorted({x[1][0] for x in E}|{x[2][0] for x in E})
    o=[f"import Mathlib.Algebra.Field.Defs",f"import Mathlib.Data.Rat.Cast.Defs","",
       f"/-! GENERATED by /verif/tools/gen.py from meshless/espim/{fn}, function `{func}`, lines {E[0][0]}-{E[-1][0]}.","Do not edit: re-run the generator. -/","",
       "namespace Meshless","",
       f"/-- The local variables read by `{func}` in meshless/espim/{fn}:{E[0][0]}-{E[-1][0]}. -/",
       f"structure {env} (K : Type*) where"]
    o+=[f"  ({' '.join(idx)} : ℤ)",f"  ({' '.join(vs)} : K)",""]
    lits=sorted({int(c) for x in E for c in x[5] if c.isdigit()})
    o+=["variable {K : Type*} [Add K] [Sub K] [Mul K] [Div K] [Neg K]"+"".join(f" [OfNat K {c}]" for c in lits)+(" [OfScientific K]" if any(not c.isdigit() for x in E for c in x[5]) else ""),""]
    rows=[]
    for x in E:
        key=x[1]
        if not rows or rows[-1][0]!=key: rows.append((key,[]))
        rows[-1][1].append(x)
    nm=env[0].lower()+env[1:].replace("Env","")
    parts=[]
    for key,xs in rows:
        d=f"{nm}_{key[0]}_{key[1]}"
        parts.append(d)
        o+=[f"/-- meshless/espim/{fn}:{xs[0][0]}-{xs[-1][0]} -/",f"def {d} (e : {env} K) : List (ℤ × ℤ × K) := ["]
        for k,(ln,r,c,s,_,_) in enumerate(xs):
            o.append(f"  (e.{r[0]} * 5 + {r[1]}, e.{c[0]} * 5 + {c[1]}, {s})"+("," if k<len(xs)-1 else "]"))
        o.append("")
    o+=[f"/-- All increments, in program order. meshless/espim/{fn}:{E[0][0]}-{E[-1][0]} -/",f"def {nm}Entries (e : {env} K) : List (ℤ × ℤ × K) :=","  "+" ++ ".join(f"{d} e" for d in parts),"","end Meshless",""]
    open(OUT+mod+".lean","w").write("\n".join(o))
    print(mod,len(E),vs,idx)
G="Ac Ac1 Ac2 Ac3 E44 E45 E55 a1 b1 c1 d1 a2 b2 c2 d2 a3 b3 c3 d3".split()
emit("K0","K0Env","plate2d_calc_k0.py","calc_k0","k0",["Ac"])
emit("KG","KGEnv","plate2d_calc_kG.py","calc_kG","kG",["Ac"])
emit("CellS","CellSEnv","plate2d_add_k0s_cell_based.py","add_k0s","k0",G)
emit("CellNS","CellNSEnv","plate2d_add_k0s_cell_based_no_smoothing.py","add_k0s","k0",G)
emit("EdgeB","EdgeBEnv","plate2d_add_k0s_edge_based.py","boundary_edge","k0",G)
emit("EdgeI","EdgeIEnv","plate2d_add_k0s_edge_based.py","interior_edge","k0",G)
