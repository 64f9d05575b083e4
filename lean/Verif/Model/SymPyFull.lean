import Verif.Model.SymPy

/-! Model of meshless/dev/sympytools.py, second part: the printers with all their parameters, among them `collect_for`, `use_cse`, `order` and
`print_file`. What sympy returns is data here: for `collect(v, collect_for, evaluate=False)` the list of pairs `str(k)`, `str(k*expr)` of its items,
for `sympy.cse(m)` the list of pairs of texts of the substitutions and the reduced matrix. -/

set_option autoImplicit false

namespace Meshless
namespace SymPy

/-- what a printer does: the returned text and the files it writes, each with its name and content, dev/sympytools.py:142-145,226-229,309-312 -/
structure Printed where
  text : Str
  files : List (Str × Str)

/-- per entry the items of `collect(v, collect_for, evaluate=False)`, meshless/dev/sympytools.py:116,195,296; `none` for `collect_for=None` -/
abbrev Collect := Option (ℕ → ℕ → List (Str × Str))

/-- `for k, expr in v.items(): ...`, meshless/dev/sympytools.py:118-120,201-203,298-300 -/
def collectLines (l : List (Str × Str)) : List Str := l.flatMap fun ke => ["#   collected for ".toList ++ ke.1, "    ".toList ++ ke.2]

/-- `filename`, meshless/dev/sympytools.py:86,175,273 -/
def fileName (ns : Str) : Str := "print_".toList ++ ns ++ ".txt".toList

/-- `if print_file: ...; return string`, meshless/dev/sympytools.py:142-145,226-229,309-312 -/
def finish (printFile : Bool) (ns string : Str) : Printed := ⟨string, if printFile then [(fileName ns, string)] else []⟩

/-- whether the pass reaches `num += 1`, meshless/dev/sympytools.py:99-105 -/
def sparseCounts (m : SMat) (isSymmetric : Bool) (dof : Option ℕ) (ij : ℕ × ℕ) : Bool :=
  match m.entry ij.1 ij.2 with
  | none => false
  | some _ => !(isSymmetric && decide (localNo dof ij.1 > localNo dof ij.2))

/-- one pass of the loop of `mprint_as_sparse`, meshless/dev/sympytools.py:93-124 -/
def sparseStepFull (m : SMat) (mname : Str) (collect : Collect) (powByMul isSymmetric : Bool) (dof : Option ℕ) (ij : ℕ × ℕ) : Except Err (List Str) :=
  match m.entry ij.1 ij.2 with
  | none => .ok []
  | some v =>
    let i := localNo dof ij.1
    let j := localNo dof ij.2
    if isSymmetric && decide (i > j) then .ok [] else
    let place := match dofOf dof with
      | some d => [mname ++ "r[c] = i".toList ++ num (nodeNo d ij.1) ++ "*dof+".toList ++ num i, mname ++ "c[c] = i".toList ++ num (nodeNo d ij.2) ++ "*dof+".toList ++ num j]
      | none => [mname ++ "r[c] = row+".toList ++ num i, mname ++ "c[c] = col+".toList ++ num j]
    match collect with
    | some c => .ok (["c += 1".toList] ++ place ++ [mname ++ "v[c] +=".toList] ++ collectLines (c ij.1 ij.2))
    | none => match valueText powByMul v with
      | .error e => .error e
      | .ok t => .ok (["c += 1".toList] ++ place ++ [mname ++ "v[c] += ".toList ++ t])

/-- `mprint_as_sparse`, meshless/dev/sympytools.py:50-145 -/
def printSparse (m : SMat) (mname : Str) (sufix : Option Str) (subs : List (Str × Str)) (header : Option Str) (printFile : Bool) (collect : Collect)
    (powByMul isSymmetric : Bool) (dof : Option ℕ) : Except Err Printed :=
  match printLoop (sparseStepFull m mname collect powByMul isSymmetric dof) m.enum with
  | .error e => .error e
  | .ok body =>
    let ns := nameSuffix mname sufix
    let ls := (headerLines header ++ ["# ".toList ++ ns] ++ body).insertIdx 1
      ("# ".toList ++ ns ++ "_num=".toList ++ num (m.enum.filter (sparseCounts m isSymmetric dof)).length)
    .ok (finish printFile ns (withSubs subs ["subs\n".toList] ["\n".toList] [] ls))

/-- one pass of the loop of `mprint_as_dense`, meshless/dev/sympytools.py:185-212 -/
def denseStepFull (m : SMat) (mname : Str) (collect : Collect) (powByMul : Bool) (dof : Option ℕ) (ij : ℕ × ℕ) : Except Err (List Str) :=
  match m.entry ij.1 ij.2 with
  | none => .ok []
  | some v =>
    let left := match dofOf dof with
      | some d => mname ++ "[i".toList ++ num (nodeNo d ij.1) ++ "*dof+".toList ++ num (ij.1 % d) ++ ", i".toList ++ num (nodeNo d ij.2) ++ "*dof+".toList
          ++ num (ij.2 % d)
      | none => mname ++ "[".toList ++ num ij.1 ++ ", ".toList ++ num ij.2
    match collect with
    | some c => .ok ([left ++ "] +=".toList] ++ collectLines (c ij.1 ij.2))
    | none => match valueText powByMul v with
      | .error e => .error e
      | .ok t => .ok [left ++ "] += ".toList ++ t]

/-- `mprint_as_dense`, meshless/dev/sympytools.py:148-229 -/
def printDense (m : SMat) (mname : Str) (subs : List (Str × Str)) (header : Option Str) (printFile : Bool) (collect : Collect) (powByMul : Bool)
    (dof : Option ℕ) : Except Err Printed :=
  match printLoop (denseStepFull m mname collect powByMul dof) m.enum with
  | .error e => .error e
  | .ok body =>
    let ls := headerLines header ++ ["# ".toList ++ mname,
      "# ".toList ++ mname ++ "_num=".toList ++ num ((m.enum.filter fun ij => (m.entry ij.1 ij.2).isSome).length)] ++ body
    .ok (finish printFile mname (withSubs subs ["# subs".toList] [] "# ".toList ls))

/-- the entries in the order of `np.ravel(m)` or `np.ravel(m.T)`, as row and column, meshless/dev/sympytools.py:288-291 -/
def SMat.places (m : SMat) (fortran : Bool) : List (ℕ × ℕ) :=
  if fortran then (List.range m.cols).flatMap fun j => (List.range m.rows).map fun i => (i, j) else m.enum

/-- one pass of the loop of `mprint_as_array`, meshless/dev/sympytools.py:293-307; `p` is the number of the entry and its row and column -/
def arrayStepFull (m : SMat) (mname op : Str) (collect : Collect) (powByMul : Bool) (p : ℕ × ℕ × ℕ) : Except Err (List Str) :=
  match m.entry p.2.1 p.2.2 with
  | none => .ok []
  | some v => match collect with
    | some c => .ok ([mname ++ "[pos+".toList ++ num p.1 ++ "] +=".toList] ++ collectLines (c p.2.1 p.2.2))
    | none => match (if powByMul then arrValue v else .ok v) with
      | .error e => .error e
      | .ok t => .ok [mname ++ "[pos+".toList ++ num p.1 ++ "] ".toList ++ op ++ " ".toList ++ t]

/-- the lines of `use_cse`, meshless/dev/sympytools.py:276-284: `subs[::9]` has one item per started group of nine -/
def cseLines (subs : List (Str × Str)) : List Str :=
  ["# cdefs".toList] ++ (List.range ((subs.length + 8) / 9)).map (fun i => "cdef double ".toList ++ joinStr ", ".toList (((subs.drop (9 * i)).take 9).map Prod.fst)) ++
  ["# subs".toList] ++ subs.map fun s => s.1 ++ " = ".toList ++ s.2

/-- the iteration order, meshless/dev/sympytools.py:288-292: any other text leaves `miter` without a value -/
def orderFlag (order : Str) : Except Err Bool :=
  if order = "C".toList then .ok false else if order = "F".toList then .ok true else .error .unboundLocal

/-- `mprint_as_array`, meshless/dev/sympytools.py:232-312. `cse` is `none` for `use_cse=False` and else the result of `sympy.cse(m)`, whose reduced
matrix is written into the caller's `m` (lines 265-268); the second component is `m` after the call. -/
def printArray (m : SMat) (mname : Str) (sufix : Option Str) (cse : Option (List (Str × Str) × SMat)) (header : Option Str) (printFile : Bool)
    (collect : Collect) (powByMul : Bool) (order op : Str) : Except Err Printed × SMat :=
  let m' := match cse with
    | none => m
    | some r => r.2
  let ns := nameSuffix mname sufix
  let top := headerLines header ++ (match cse with
    | none => []
    | some r => cseLines r.1) ++ ["# ".toList ++ ns, "# ".toList ++ ns ++ "_num=".toList ++ num (m'.enum.filter fun ij => (m'.entry ij.1 ij.2).isSome).length]
  match orderFlag order with
  | .error e => (.error e, m')
  | .ok fortran => match printLoop (arrayStepFull m' mname op collect powByMul) ((List.range (m'.places fortran).length).zip (m'.places fortran)) with
    | .error e => (.error e, m')
    | .ok body => (.ok (finish printFile ns (joinStr "\n".toList (top ++ body))), m')

end SymPy
end Meshless
