import Verif.Model.Basic

/-! Model of meshless/dev/sympytools.py. A `str` is a list of characters; the character classes of `re` and `str` are those of ASCII text.
A sympy matrix is given by its shape and, per entry, `none` if the entry is falsy and otherwise the text `str(v)` (after `v.subs(subs)` when
substitutions are given). Not modelled: `collect_for`, `use_cse`, writing the file, the digit limit of `int`. -/

set_option autoImplicit false

namespace Meshless

/-- a Python `str`, the argument of dev/sympytools.py:8 -/
abbrev Str := List Char

namespace SymPy

/-! ### strings and regular expressions -/

/-- `\w` for ASCII text, meshless/dev/sympytools.py:26 -/
def isWord (c : Char) : Bool := c.isAlphanum || c == '_'
/-- `\d` for ASCII text, meshless/dev/sympytools.py:26 -/
def isDigit (c : Char) : Bool := c.isDigit
/-- `\s` for ASCII text, meshless/dev/sympytools.py:26; also what `str.strip` and `int` take as white space -/
def isSpace (c : Char) : Bool := (9 ≤ c.toNat && c.toNat ≤ 13) || (28 ≤ c.toNat && c.toNat ≤ 32)
/-- `[^\(\)]`, meshless/dev/sympytools.py:26 -/
def notParen (c : Char) : Bool := c != '(' && c != ')'

/-- `s.replace(old, new)` for a non-empty `old`, meshless/dev/sympytools.py:35,45: occurrences from left to right, not overlapping -/
def replaceAll (old new : Str) : Str → Str
  | [] => []
  | c :: t => if old.isPrefixOf (c :: t) then new ++ replaceAll old new (t.drop (old.length - 1)) else c :: replaceAll old new t
termination_by s => s.length
decreasing_by all_goals simp_wf; try omega

/-- `s.split(sep)` for a non-empty `sep`, meshless/dev/sympytools.py:28,39 -/
def splitStr (sep : Str) : Str → List Str
  | [] => [[]]
  | c :: t => if sep.isPrefixOf (c :: t) then [] :: splitStr sep (t.drop (sep.length - 1)) else
      match splitStr sep t with
      | [] => [[c]]
      | h :: r => (c :: h) :: r
termination_by s => s.length
decreasing_by all_goals simp_wf; try omega

/-- `re.findall(pattern, s)` where `m s` is the length of the match of the pattern at the beginning of `s` (never 0), meshless/dev/sympytools.py:27,38,304 -/
def findAll (m : Str → Option ℕ) : Str → List Str
  | [] => []
  | c :: t => match m (c :: t) with
    | some (n + 1) => (c :: t).take (n + 1) :: findAll m (t.drop n)
    | _ => findAll m t
termination_by s => s.length
decreasing_by all_goals simp_wf; try omega

/-- match of `\w+\*\*\s*\d+` at the beginning (meshless/dev/sympytools.py:26). The classes are disjoint where they meet, so no backtracking. -/
def matchWord (s : Str) : Option ℕ :=
  let w := s.takeWhile isWord
  if w = [] then none else
  match s.dropWhile isWord with
  | '*' :: '*' :: r =>
    let d := (r.dropWhile isSpace).takeWhile isDigit
    if d = [] then none else some (w.length + 2 + (r.takeWhile isSpace).length + d.length)
  | _ => none

/-- match of `\([^\(\)]+\)\*\*\d+` at the beginning (meshless/dev/sympytools.py:26) -/
def matchGroup : Str → Option ℕ
  | '(' :: s =>
    let c := s.takeWhile notParen
    if c = [] then none else
    match s.dropWhile notParen with
    | ')' :: '*' :: '*' :: r =>
      let d := r.takeWhile isDigit
      if d = [] then none else some (c.length + 4 + d.length)
    | _ => none
  | _ => none

/-- match of the pattern `search` at the beginning (meshless/dev/sympytools.py:26) -/
def matchPow (s : Str) : Option ℕ := (matchWord s).or (matchGroup s)

/-- match of `pow\(\s*[^,]+\s*,\s*[^,\)]+\s*\)` at the beginning (meshless/dev/sympytools.py:38): the classes `[^,]` and `[^,\)]` contain white space,
so the match runs to the first comma, which must not follow at once, and then to the first `)` or comma, which must be a `)` that does not follow
at once -/
def matchPowCall : Str → Option ℕ
  | 'p' :: 'o' :: 'w' :: '(' :: s =>
    let v := s.takeWhile (· != ',')
    if v = [] then none else
    match s.dropWhile (· != ',') with
    | _ :: r =>
      let e := r.takeWhile fun c => c != ',' && c != ')'
      if e = [] then none else
      match r.dropWhile (fun c => c != ',' && c != ')') with
      | ')' :: _ => some (4 + v.length + 1 + e.length + 1)
      | _ => none
    | [] => none
  | _ => none

/-- digits with single underscores between them, as accepted by `int`; the accumulator is the value so far.
dev/sympytools.py:29,42. -/
def pyDigits : ℕ → Str → Option ℕ
  | a, [] => some a
  | a, '_' :: c :: t => if isDigit c then pyDigits (10 * a + (c.toNat - 48)) t else none
  | a, c :: t => if isDigit c then pyDigits (10 * a + (c.toNat - 48)) t else none

/-- unsigned part of `int`: must begin with a digit, dev/sympytools.py:29,42 -/
def pyNat : Str → Option ℕ
  | [] => none
  | c :: t => if isDigit c then pyDigits (c.toNat - 48) t else none

/-- `s.strip()`, meshless/dev/sympytools.py:40-41 -/
def strip (s : Str) : Str := (((s.dropWhile isSpace).reverse).dropWhile isSpace).reverse

/-- `int(s)` for ASCII text, meshless/dev/sympytools.py:29,42,306; `none` is ValueError -/
def pyInt (s : Str) : Option ℤ :=
  match strip s with
  | '-' :: t => (pyNat t).map fun n => -(n : ℤ)
  | '+' :: t => (pyNat t).map fun n => (n : ℤ)
  | t => (pyNat t).map fun n => (n : ℤ)

/-- `p in s`, meshless/dev/sympytools.py:132,218 -/
def contains (p s : Str) : Bool := s.tails.any fun t => p.isPrefixOf t

/-- `sep.join(l)`, meshless/dev/sympytools.py:29,42,128,214,306 -/
def joinStr (sep : Str) (l : List Str) : Str := sep.intercalate l

/-- `'(' + '*'.join([var]*n) + ')'`, meshless/dev/sympytools.py:29,42,306; a negative `n` gives no copies -/
def product (var : Str) (n : ℤ) : Str := "(".toList ++ joinStr "*".toList (List.replicate n.toNat var) ++ ")".toList

/-- the replacement of one match of the first pattern, meshless/dev/sympytools.py:28-29 -/
def powNew (p : Str) : Except Err Str :=
  match splitStr "**".toList (p.filter (· != ' ')) with
  | [var, exp] => match pyInt exp with
    | some n => .ok (product var n)
    | none => .error .valueError
  | _ => .error .valueError

/-- the replacement of one match of the second pattern, meshless/dev/sympytools.py:39-42 -/
def callNew (p : Str) : Except Err Str :=
  match splitStr "pow".toList p with
  | _ :: q :: _ => match splitStr ",".toList q with
    | [var, exp] => match pyInt ((strip exp).dropLast) with
      | some n => .ok (product ("(".toList ++ ((strip var).drop 1).filter (· != ' ') ++ ")".toList) n)
      | none => .error .valueError
    | _ => .error .valueError
  | _ => .error .indexError

/-- `[[p, new(p)] for p in ps]`, stopping at the first exception, dev/sympytools.py:27-30,38-43 -/
def pairs (new : Str → Except Err Str) : List Str → Except Err (List (Str × Str))
  | [] => .ok []
  | p :: ps => match new p with
    | .ok n => match pairs new ps with
      | .ok r => .ok ((p, n) :: r)
      | .error e => .error e
    | .error e => .error e

/-- `for old, new in old_new: outstr = outstr.replace(old, new)`, meshless/dev/sympytools.py:34-35,44-45 -/
def substAll (s : Str) (l : List (Str × Str)) : Str := l.foldl (fun o q => replaceAll q.1 q.2 o) s

/-- `sorted(old_new, key=lambda x: len(x[0]))[::-1]`, meshless/dev/sympytools.py:33 -/
def longestFirst (l : List (Str × Str)) : List (Str × Str) := (l.mergeSort fun a b => decide (a.1.length ≤ b.1.length)).reverse

/-- `pow2mul`, meshless/dev/sympytools.py:8-47 -/
def pow2mul (instr : Str) : Except Err Str :=
  match pairs powNew (findAll matchPow instr) with
  | .error e => .error e
  | .ok l1 => match pairs callNew (findAll matchPowCall instr) with
    | .error e => .error e
    | .ok l2 => .ok (substAll (substAll instr (longestFirst l1)) l2)

/-! ### printing matrices -/

/-- a sympy matrix with `rows` rows and `cols` columns: `entry i j` is `none` for a falsy entry, else its text.
The argument of dev/sympytools.py:50,148,232. -/
structure SMat where
  rows : ℕ
  cols : ℕ
  entry : ℕ → ℕ → Option Str

/-- the order of `np.ndenumerate(m)`, meshless/dev/sympytools.py:93,181,185 -/
def SMat.enum (m : SMat) : List (ℕ × ℕ) := (List.range m.rows).flatMap fun i => (List.range m.cols).map fun j => (i, j)

/-- `'{0}'.format(n)` for an index, dev/sympytools.py:109-113,197-212 -/
def num (n : ℕ) : Str := (toString n).toList

/-- the text of a value, meshless/dev/sympytools.py:122-124,205-206 -/
def valueText (powByMul : Bool) (v : Str) : Except Err Str := if powByMul then pow2mul v else .ok v

/-- run `f` over a list, concatenating the printed lines, stopping at the first exception, the loops of dev/sympytools.py:93-124,185-212,293-307 -/
def printLoop {α : Type} (f : α → Except Err (List Str)) : List α → Except Err (List Str)
  | [] => .ok []
  | a :: l => match f a with
    | .ok x => match printLoop f l with
      | .ok r => .ok (x ++ r)
      | .error e => .error e
    | .error e => .error e

/-- node number printed for an index, meshless/dev/sympytools.py:95-96: `(i // dofpernode) + 1` -/
def nodeNo (d i : ℕ) : ℕ := i / d + 1

/-- `if dofpernode:`, meshless/dev/sympytools.py:94: `None` and `0` are falsy -/
def dofOf : Option ℕ → Option ℕ
  | some 0 => none
  | x => x

/-- the names `i` and `j` after meshless/dev/sympytools.py:94-98: with `dofpernode` they are overwritten by their remainders -/
def localNo (dof : Option ℕ) (i : ℕ) : ℕ :=
  match dofOf dof with
  | some d => i % d
  | none => i

/-- one pass of the loop of `mprint_as_sparse`, meshless/dev/sympytools.py:93-124. With `dofpernode` the names `i` and `j` are overwritten by their
remainders (lines 97-98) before `is_symmetric and i > j` is tested (line 100). -/
def sparseStep (m : SMat) (mname : Str) (powByMul isSymmetric : Bool) (dof : Option ℕ) (ij : ℕ × ℕ) : Except Err (List Str) :=
  let i := localNo dof ij.1
  let j := localNo dof ij.2
  match m.entry ij.1 ij.2 with
  | none => .ok []
  | some v => if isSymmetric && decide (i > j) then .ok [] else
    match valueText powByMul v with
    | .error e => .error e
    | .ok t => .ok (match dofOf dof with
      | some d => ["c += 1".toList, mname ++ "r[c] = i".toList ++ num (nodeNo d ij.1) ++ "*dof+".toList ++ num i,
          mname ++ "c[c] = i".toList ++ num (nodeNo d ij.2) ++ "*dof+".toList ++ num j, mname ++ "v[c] += ".toList ++ t]
      | none => ["c += 1".toList, mname ++ "r[c] = row+".toList ++ num i, mname ++ "c[c] = col+".toList ++ num j, mname ++ "v[c] += ".toList ++ t])

/-- name with suffix, meshless/dev/sympytools.py:82-85,270-273 -/
def nameSuffix (mname : Str) : Option Str → Str
  | none => mname
  | some s => mname ++ "_".toList ++ s

/-- `if header: ls.append(header)`, meshless/dev/sympytools.py:88-89,177-178,274-275 -/
def headerLines : Option Str → List Str
  | none => []
  | some h => if h = [] then [] else [h]

/-- the lines of `mprint_as_sparse` before the substitutions are listed, meshless/dev/sympytools.py:82-126. The counter `num` (line 105) is increased
once per printed entry, i.e. once per four lines; the line with the number is inserted at position 1 (line 126). -/
def sparseLines (m : SMat) (mname : Str) (sufix header : Option Str) (powByMul isSymmetric : Bool) (dof : Option ℕ) : Except Err (List Str) :=
  match printLoop (sparseStep m mname powByMul isSymmetric dof) m.enum with
  | .error e => .error e
  | .ok body =>
    let ns := nameSuffix mname sufix
    .ok ((headerLines header ++ ["# ".toList ++ ns] ++ body).insertIdx 1 ("# ".toList ++ ns ++ "_num=".toList ++ num (body.length / 4)))

/-- the list of substitutions in front, meshless/dev/sympytools.py:130-140,216-224: sorted by the text of the new value, only those whose text occurs in
the output; `first`, `pre` and `last` are the fixed parts of the two functions -/
def withSubs (subs : List (Str × Str)) (first last : List Str) (pre : Str) (ls : List Str) : Str :=
  let string := joinStr "\n".toList ls
  let items := (subs.mergeSort fun a b => decide (String.ofList a.2 ≤ String.ofList b.2)).filter fun kv => contains kv.2 string
  if items = [] then string else joinStr "\n".toList (first ++ items.map (fun kv => pre ++ kv.2 ++ " = ".toList ++ kv.1) ++ last ++ ls)

/-- `mprint_as_sparse`, meshless/dev/sympytools.py:50-145, with `collect_for=None` -/
def mprintSparse (m : SMat) (mname : Str) (sufix header : Option Str) (subs : List (Str × Str)) (powByMul isSymmetric : Bool) (dof : Option ℕ) : Except Err Str :=
  match sparseLines m mname sufix header powByMul isSymmetric dof with
  | .error e => .error e
  | .ok ls => .ok (withSubs subs ["subs\n".toList] ["\n".toList] [] ls)

/-- one pass of the loop of `mprint_as_dense`, meshless/dev/sympytools.py:185-212 -/
def denseStep (m : SMat) (mname : Str) (powByMul : Bool) (dof : Option ℕ) (ij : ℕ × ℕ) : Except Err (List Str) :=
  match m.entry ij.1 ij.2 with
  | none => .ok []
  | some v => match valueText powByMul v with
    | .error e => .error e
    | .ok t => .ok (match dofOf dof with
      | some d => [mname ++ "[i".toList ++ num (nodeNo d ij.1) ++ "*dof+".toList ++ num (ij.1 % d) ++ ", i".toList ++ num (nodeNo d ij.2) ++ "*dof+".toList
          ++ num (ij.2 % d) ++ "] += ".toList ++ t]
      | none => [mname ++ "[".toList ++ num ij.1 ++ ", ".toList ++ num ij.2 ++ "] += ".toList ++ t])

/-- the lines of `mprint_as_dense` before the substitutions are listed, meshless/dev/sympytools.py:174-212 -/
def denseLines (m : SMat) (mname : Str) (header : Option Str) (powByMul : Bool) (dof : Option ℕ) : Except Err (List Str) :=
  match printLoop (denseStep m mname powByMul dof) m.enum with
  | .error e => .error e
  | .ok body => .ok (headerLines header ++ ["# ".toList ++ mname,
      "# ".toList ++ mname ++ "_num=".toList ++ num ((m.enum.filter fun ij => (m.entry ij.1 ij.2).isSome).length)] ++ body)

/-- `mprint_as_dense`, meshless/dev/sympytools.py:148-229, with `collect_for=None` -/
def mprintDense (m : SMat) (mname : Str) (header : Option Str) (subs : List (Str × Str)) (powByMul : Bool) (dof : Option ℕ) : Except Err Str :=
  match denseLines m mname header powByMul dof with
  | .error e => .error e
  | .ok ls => .ok (withSubs subs ["# subs".toList] [] "# ".toList ls)

/-- match of `\w+\*\*\d+` at the beginning, meshless/dev/sympytools.py:304 -/
def matchArr (s : Str) : Option ℕ :=
  let w := s.takeWhile isWord
  if w = [] then none else
  match s.dropWhile isWord with
  | '*' :: '*' :: r =>
    let d := r.takeWhile isDigit
    if d = [] then none else some (w.length + 2 + d.length)
  | _ => none

/-- the replacement of one match, meshless/dev/sympytools.py:305-306 -/
def arrNew (p : Str) : Except Err Str :=
  match splitStr "**".toList p with
  | [var, exp] => match pyInt exp with
    | some n => .ok (product var n)
    | none => .error .valueError
  | _ => .error .valueError

/-- the power expansion inside `mprint_as_array`, meshless/dev/sympytools.py:302-306: the matches are those of the original text, replaced one after
the other in their order -/
def arrValue (v : Str) : Except Err Str :=
  match pairs arrNew (findAll matchArr v) with
  | .error e => .error e
  | .ok l => .ok (substAll v l)

/-- the order in which `mprint_as_array` takes the entries, meshless/dev/sympytools.py:288-291: rows (`'C'`) or columns (`'F'`) first -/
def SMat.ravel (m : SMat) (fortran : Bool) : List (Option Str) :=
  if fortran then (List.range m.cols).flatMap fun j => (List.range m.rows).map fun i => m.entry i j
  else m.enum.map fun ij => m.entry ij.1 ij.2

/-- one pass of the loop of `mprint_as_array`, meshless/dev/sympytools.py:293-307 -/
def arrayStep (mname op : Str) (powByMul : Bool) (iv : ℕ × Option Str) : Except Err (List Str) :=
  match iv.2 with
  | none => .ok []
  | some v => match (if powByMul then arrValue v else .ok v) with
    | .error e => .error e
    | .ok t => .ok [mname ++ "[pos+".toList ++ num iv.1 ++ "] ".toList ++ op ++ " ".toList ++ t]

/-- `mprint_as_array`, meshless/dev/sympytools.py:232-312, with `use_cse=False`, `collect_for=None` -/
def mprintArray (m : SMat) (mname : Str) (sufix header : Option Str) (powByMul fortran : Bool) (op : Str) : Except Err Str :=
  match printLoop (arrayStep mname op powByMul) ((List.range (m.ravel fortran).length).zip (m.ravel fortran)) with
  | .error e => .error e
  | .ok body =>
    let ns := nameSuffix mname sufix
    .ok (joinStr "\n".toList (headerLines header ++ ["# ".toList ++ ns,
      "# ".toList ++ ns ++ "_num=".toList ++ num ((m.ravel false).filter Option.isSome).length] ++ body))

end SymPy
end Meshless
