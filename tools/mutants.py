"""Table of wrong programs; writes seeded/mutants.json."""
import json
M = []
def mu(definition, edit, claim, ids, *eds):
    M.append(dict(id='W%03d' % (len(M) + 1), definition=definition, edit=edit, claim=claim, expect=ids.split(),
        edits=[dict(file=e[0], old=e[1], new=e[2], count=e[3] if len(e) > 3 else 1) for e in eds]))
B='Model/Basic.lean'; U='Model/Utils.lean'; I='Model/Interp.lean'; L='Model/Logger.lean'; H='Model/Mesh.lean'; K='Model/K0.lean'; G='Model/KG.lean'; S='Model/K0s.lean'; O='Model/Session.lean'
GK='Model/Gen/K0.lean'; GG='Model/Gen/KG.lean'; GS='Model/Gen/CellS.lean'; GN='Model/Gen/CellNS.lean'
mu('areaOfPolygon', 'the absolute value is dropped', 'the area does not depend on the direction of traversal', 'C57', (U, '.ok (|area| / 2)', '.ok (area / 2)'))
mu('areaLoop', 'y[i-1] replaced by y[i]', 'area_of_polygon is the area of the polygon', 'C57', (U, 'pyGet y (i - 1) with', 'pyGet y i with'))
mu('unitvec', 'divides by the squared norm', 'unitvec has length 1', 'C58', (U, '⟨v.x / v.norm, v.y / v.norm, v.z / v.norm⟩', '⟨v.x / v.norm ^ 2, v.y / v.norm ^ 2, v.z / v.norm ^ 2⟩'))
mu('lagLoop', 'quotient (x - xm)/(xm - xi) instead of (x - xi)/(xm - xi)', 'Lagrange interpolation reproduces nodal values', 'C50 C51', (I, 'let num ← Val.lift2 (· - ·) x (.sc xi)', 'let num ← Val.lift2 (· - ·) x (.sc xm)'))
mu('lagLoop', 'the guard on coinciding nodes is dropped', 'coinciding control nodes are skipped', 'C56', (I, 'if i ≠ m ∧ xm - xi ≠ 0 then do', 'if i ≠ m then do'))
mu('interp2Inner', 'field_nodes[n, m] instead of [m, n]', 'Lagrange interpolation reproduces nodal values', 'C50', (I, 'let t ← Val.lift2 (· * ·) t (.sc (fld m n))\n', 'let t ← Val.lift2 (· * ·) t (.sc (fld n m))\n'))
mu('interp2', 'second assertion dropped', 'a field of the wrong shape is rejected', 'C55', (I, '''      if b = ys.length then
        interp2Outer x y xs ys (fun m n => field.get [m, n]) xs.zipIdx (.sc 0)
      else .error .assertion
''', '''        interp2Outer x y xs ys (fun m n => field.get [m, n]) xs.zipIdx (.sc 0)
'''))
mu('sortPair', 'pair not sorted', 'one edge per unordered pair', 'C01 C02', (H, 'if a ≤ b then (a, b) else (b, a)', '(a, b)'))
mu('Tria.edgeIds', 'third side is (n1, n2) again', 'the edge set is the set of triangle sides', 'C01 C03', (H, 'sortPair t.n2 t.n3, sortPair t.n3 t.n1]', 'sortPair t.n2 t.n3, sortPair t.n1 t.n2]'))
mu('linkEdge', 'only the first triangle of an edge gets the edge', 'tria.edges has the three edges', 'C03', (H, '(m.edge k).trias.foldl', '((m.edge k).trias.take 1).foldl'))
mu('linkNodes', 'the third corner is skipped', 'node.trias is the set of triangles at the node', 'C04', (H, '(m.triaNodes e).foldl (fun m i', '((m.triaNodes e).take 2).foldl (fun m i'))
mu('addPoints', 'nid not incremented before use', 'point i becomes node i+1', 'C05', (H, 'nids := m.nids ++ [nid + 1]\n                       node := Function.update m.node (nid + 1)', 'nids := m.nids ++ [nid]\n                       node := Function.update m.node nid'))
mu('addTrias', 'corners 1 and 2 exchanged', 'corners are kept in the given order', 'C05', (H, '⟨a + 1, b + 1, c + 1, none, []⟩ } ts', '⟨b + 1, a + 1, c + 1, none, []⟩ } ts'))
mu('Pt.toVec', 'z of a 3-D point dropped', 'coordinates are preserved', 'C05', (H, '| .d3 x y z => ⟨x, y, z⟩', '| .d3 x y _ => ⟨x, y, 0⟩'))
mu('deckElems', 'elements other than CTRIA3 skipped silently', 'unsupported elements are rejected', 'C06 C07', (H, '| (_, none) :: _ => .error .notImplemented', '| (_, none) :: l => deckElems m l'))
mu('EdgeIds.append', 'new triangle put in front', 'edge.trias is in element order', 'C02', (H, '(d.val k ++ [e])⟩', '(e :: d.val k)⟩'))
mu('edgeMissing', 'only the first end node of the edge is checked', 'missing properties are reported before anything is changed', 'C09 C10', (K, 'if pn then [(m.edge k).n1, (m.edge k).n2].any', 'if pn then [(m.edge k).n1].any'))
mu('orient', 'test inverted', 'normals point outwards', 'C15 C16', (K, 'zGlobal < 0 then (b, a) else (a, b)', 'zGlobal > 0 then (b, a) else (a, b)'))
mu('segNormal', 'cross product with the factors exchanged', 'normals point outwards', 'C15', (K, 'unitvec (Vec3.cross t zGlobal)', 'unitvec (Vec3.cross zGlobal t)'))
mu('iptsA', 'weights 2/3 and 1/6 exchanged in the second point', 'ipts lie at mid-segments', 'C14', (K, '   mkIPt m t1 node1 node2 o1 (1/6) (2/3) (1/6) (segNormal v2) v2.norm]', '   mkIPt m t1 node1 node2 o1 (2/3) (1/6) (1/6) (segNormal v2) v2.norm]'))
mu('geomEdge', 'sdomain of an interior edge without the second centroid', 'the smoothing domains tile the plate', 'C12 C13', (K, '[p1, mid1, p2, mid2, p1]', '[p1, mid1, p2, p1]'))
mu('geomEdge', 'other2 not reset on boundary edges', 'results do not depend on history', 'C26', (K, '{ ed with other1 := some o1, other2 := none }', '{ ed with other1 := some o1 }'))
mu('numberNodes', 'numbering starts at 1', 'node.index is the position in mesh.nodes', 'C11', (K, 'numberNodes m1 m1.nids 0', 'numberNodes m1 m1.nids 1'))
mu('edgeProp', 'four-node average with 1/4 each', 'properties from nodes are averaged over the smoothing domain', 'C22', (K, 'mix4 (5/12) (5/12) (1/12) (1/12) (sel pn1)', 'mix4 (1/4) (1/4) (1/4) (1/4) (sel pn1)'))
mu('edgeProp', 'areas of the two triangles exchanged', 'properties from triangles are area averaged', 'C20', (K, '.ok (mixA Ac1 Ac2 Ac (sel prop1) (sel prop2))', '.ok (mixA Ac2 Ac1 Ac (sel prop1) (sel prop2))'))
mu('k0Env', 'D taken from B', 'bending energy uses D', 'C17', (K, 'edgeProp m pn ed Lam.D with', 'edgeProp m pn ed Lam.B with'))
mu('k0Env', 'nx4 set to the normal of the third point when there is no fourth', 'linear fields are reproduced', 'C18', (K, 'let le4 := match rest with | p4 :: _ => p4.le | [] => 0', 'let le4 := match rest with | p4 :: _ => p4.le | [] => p3.le'))
mu('k0Entries', 'one pasted line uses B16 for B12', 'symmetry of k0', 'C19', (GK, '(e.i1 * 5 + 1, e.i1 * 5 + 3, e.Ac * ((e.B12 *', '(e.i1 * 5 + 1, e.i1 * 5 + 3, e.Ac * ((e.B16 *'))
mu('k0Entries', 'one pasted line written to the wrong column', 'symmetry of k0', 'C19', (GK, '(e.i1 * 5 + 1, e.i2 * 5 + 4, e.Ac', '(e.i1 * 5 + 1, e.i2 * 5 + 2, e.Ac'))
mu('calcK0', 'node numbering before the property check is kept but the matrix is one block too small', 'matrix size 5n', 'C11', (K, 'Mat.zeros (m2.nids.length * 5)', 'Mat.zeros (m2.nids.length * 5 - 5)'))
mu('kGEnv', 'bending part of the membrane forces dropped', 'N = A em + B eb', 'C29', (G, 'let N := fun i => dot3 A em i + dot3 B eb i', 'let N := fun i => dot3 A em i'))
mu('kGEnv', 'em uses u for both normal strains', 'N = A em + B eb', 'C29 C68', (G, '![1 / Ac * sx 0, 1 / Ac * sy 1, 1 / Ac * sxy 0 1]', '![1 / Ac * sx 0, 1 / Ac * sy 0, 1 / Ac * sxy 0 1]'))
mu('kGEntries', 'Nxx for Nxy in one line', 'kG is symmetric', 'C30', (GG, '(e.i2 * 5 + 2, e.i3 * 5 + 2, e.Ac * ((e.Nxx * (e.f12 * e.le1 * e.nx1 + e.f22 * e.le2 * e.nx2 + e.f32 * e.le3 * e.nx3 + e.f42 * e.le4 * e.nx4) / e.Ac + e.Nxy *', '(e.i2 * 5 + 2, e.i3 * 5 + 2, e.Ac * ((e.Nxx * (e.f12 * e.le1 * e.nx1 + e.f22 * e.le2 * e.nx2 + e.f32 * e.le3 * e.nx3 + e.f42 * e.le4 * e.nx4) / e.Ac + e.Nxx *'))
mu('stab', 'alpha*maxl/h^2', 'stabilisation factor h^2/(h^2+alpha*maxl^2)', 'C44 C38', (S, '1 / (1 + alpha * maxl ^ 2 / h ^ 2)', '1 / (1 + alpha * maxl / h ^ 2)'))
mu('cellSEnv', 'k13 and k23 exchanged', 'moduli of the shear energy', 'C38', (S, 'Ac3 := polyArea [mid, p3, p1],\n          E44 := stab alpha maxl sp.h * (sp.k23 * sp.E 0 0)', 'Ac3 := polyArea [mid, p3, p1],\n          E44 := stab alpha maxl sp.h * (sp.k13 * sp.E 0 0)'))
mu('cellMaxl', 'min instead of max', 'maxl is the longest side', 'C45', (S, '| a :: l => some (l.foldl max a)', '| a :: l => some (l.foldl min a)'))
mu('addK0s', 'the two cell methods exchanged', 'the method name selects its implementation', 'C35 C38 C39', (S, 'if method = "cell-based" then addK0sCell K', 'if method = "cell-based" then addK0sCellNS K'))
mu('addK0s', 'unknown method falls through to cell-based', 'unknown methods are rejected', 'C35', (S, 'else (K, some .valueError)', 'else addK0sCell K m pn alpha fromArea'))
mu('cellNSOrient', 'swap dropped', 'shear energy without smoothing is positive and exact for clockwise triangles', 'C39', (S, "((m.node t.n3).xyz.sub p1)) zGlobal < 0\n  then (t.n2, t.n1, t.n3) else (t.n1, t.n2, t.n3)", "((m.node t.n3).xyz.sub p1)) zGlobal < 0\n  then (t.n1, t.n2, t.n3) else (t.n1, t.n2, t.n3)"))
mu('cellNSEntries', 'sign error in one line', 'shear energy without smoothing', 'C39', (GN, '(e.i1 * 5 + 4, e.i2 * 5 + 2, e.E45 * e.d1 / 4 - e.E55 * e.c1 / 4)', '(e.i1 * 5 + 4, e.i2 * 5 + 2, e.E45 * e.d1 / 4 + e.E55 * e.c1 / 4)'))
mu('logWarn', 'prints also when silent', 'silent prints nothing', 'C65', (L, 'let m := "WARNING: " ++ m\n  ⟨m, if !silent then [tabbed level m] else []⟩', 'let m := "WARNING: " ++ m\n  ⟨m, [tabbed level m]⟩'))
mu('Mat.addAll', 'assignment instead of increment', 'add_k0s adds to the given matrix', 'C36', (B, 'if i = r ∧ j = c then M.get i j + v else', 'if i = r ∧ j = c then v else'))
Y='Model/SymPy.lean'; GB='Model/Gen/EdgeB.lean'; GI='Model/Gen/EdgeI.lean'
# sympytools
mu('SymPy.longestFirst', 'shortest match replaced first (no [::-1])', 'pow2mul preserves the value when one power is the beginning of another', 'C61', (Y, '(l.mergeSort fun a b => decide (a.1.length ≤ b.1.length)).reverse', '(l.mergeSort fun a b => decide (a.1.length ≤ b.1.length))'))
mu('SymPy.longestFirst', 'not sorted at all', 'pow2mul preserves the value when one power is the beginning of another', 'C61', (Y, '(l.mergeSort fun a b => decide (a.1.length ≤ b.1.length)).reverse', 'l'))
mu('SymPy.product', 'one factor too many', 'powers are expanded to as many factors as the exponent says', 'C60 C61 C64', (Y, 'List.replicate n.toNat var', 'List.replicate (n.toNat + 1) var'))
mu('SymPy.product', 'outer parentheses dropped', 'the value of the expression is preserved (x/y**2)', 'C60 C61 C64', (Y, '"(".toList ++ joinStr "*".toList (List.replicate n.toNat var) ++ ")".toList', 'joinStr "*".toList (List.replicate n.toNat var)'))
mu('SymPy.replaceAll', 'only the first occurrence replaced', 'every power is expanded', 'C61', (Y, 'then new ++ replaceAll old new (t.drop (old.length - 1)) else', 'then new ++ t.drop (old.length - 1) else'))
mu('SymPy.pow2mul', 'second pass dropped', 'pow(a, n) is expanded', 'C60 C61', (Y, '.ok (substAll (substAll instr (longestFirst l1)) l2)', '.ok (substAll instr (longestFirst l1))'))
mu('SymPy.matchWord', 'white space after ** not allowed', 'x** 2 is expanded', 'C60 C61', (Y, 'let d := (r.dropWhile isSpace).takeWhile isDigit\n    if d = [] then none else some (w.length + 2 + (r.takeWhile isSpace).length + d.length)', 'let d := r.takeWhile isDigit\n    if d = [] then none else some (w.length + 2 + d.length)'))
mu('SymPy.isWord', 'underscore not part of a name', 'names with underscores are kept together', 'C60 C61 C64', (Y, "c.isAlphanum || c == '_'", 'c.isAlphanum'))
mu('SymPy.nodeNo', 'node numbers from 0', 'the printed node index is i//dof + 1', 'C62 C63', (Y, 'i / d + 1', 'i / d'))
mu('SymPy.sparseStep', 'i >= j skipped', 'the diagonal is printed', 'C63', (Y, 'if isSymmetric && decide (i > j) then', 'if isSymmetric && decide (i ≥ j) then'))
mu('SymPy.sparseStep', 'lower triangle printed instead', 'the upper triangle is printed', 'C63', (Y, 'if isSymmetric && decide (i > j) then', 'if isSymmetric && decide (i < j) then'))
mu('SymPy.denseStep', 'row and column exchanged', 'the printed line adds to its own entry', 'C62', (Y, '"[".toList ++ num ij.1 ++ ", ".toList ++ num ij.2 ++ "] += "', '"[".toList ++ num ij.2 ++ ", ".toList ++ num ij.1 ++ "] += "'))
mu('SymPy.denseLines', 'counts all entries, zeros too', '_num is the number of printed entries', 'C62', (Y, 'num ((m.enum.filter fun ij => (m.entry ij.1 ij.2).isSome).length)] ++ body)', 'num m.enum.length] ++ body)'))
mu('SymPy.ravel', 'C and F order exchanged', 'order C prints rows first', 'C72', (Y, 'if fortran then (List.range m.cols)', 'if !fortran then (List.range m.cols)'))
mu('SymPy.arrNew', 'one factor too few', 'mprint_as_array expands powers', 'C64', (Y, '''  match splitStr "**".toList p with
  | [var, exp] => match pyInt exp with
    | some n => .ok (product var n)''', '''  match splitStr "**".toList p with
  | [var, exp] => match pyInt exp with
    | some n => .ok (product var (n - 1))'''))
mu('SymPy.callNew', 'the variable is not put in parentheses', 'pow(a + b, 2) keeps its value', 'C60 C61', (Y, 'product ("(".toList ++ ((strip var).drop 1).filter (· != \' \') ++ ")".toList) n', 'product (((strip var).drop 1).filter (· != \' \')) n'))
# shear, edge based
mu('edgeIEnv', 'line 160 repaired: y1 is the y coordinate', 'the edge-based method uses the z coordinate of a node (finding)', 'C46 C69', (S, 'b1 := p1.z - mid1.y', 'b1 := p1.y - mid1.y'))
mu('edgeBModuli', 'moduli exchanged as in interior edges', 'boundary and interior edges use different moduli (finding)', 'C47', (S, '(stab alpha maxl sp.h * (sp.k23 * sp.E 0 0), 0, stab alpha maxl sp.h * (sp.k13 * sp.E 1 1))', '(stab alpha maxl sp.h * (sp.k13 * sp.E 0 0), 0, stab alpha maxl sp.h * (sp.k23 * sp.E 1 1))'))
mu('edgeOrient', 'test inverted', 'edge-based shear energy of a boundary edge', 'C69', (S, '((m.mid t1).sub (m.node ed.n1).xyz)) zGlobal < 0', '((m.mid t1).sub (m.node ed.n1).xyz)) zGlobal > 0'))
mu('edgeIMaxl', 'the edge itself is left out of the maximum', 'maxl is the longest of the sides and the edge', 'C45', (S, '| some a => .ok (max a ((m.node ed.n1).xyz.sub (m.node ed.n2).xyz).norm)', '| some a => .ok a'))
mu('edgeIModuli', 'coupling modulus with max instead of min', 'interior edges use min(k13, k23)', 'C69', (S, 'min sp.k13 sp.k23 * sp.E 0 1', 'max sp.k13 sp.k23 * sp.E 0 1'))
mu('edgeBShear', 'thirds instead of 4/9, 4/9, 1/9', 'properties from nodes are averaged over the smoothing domain', 'C69', (S, 'shear3 (4/9) (4/9) (1/9) p q r', 'shear3 (1/3) (1/3) (1/3) p q r'))
mu('edgeIEnv', 'i3 and i4 exchanged', 'edge-based shear energy', 'C69', (S, '| some i1, some i2, some i3, some i4 =>', '| some i1, some i2, some i4, some i3 =>'))
# shear, cell based
mu('cellOrient', 'swap dropped', 'clockwise triangles give the same shear stiffness', 'C38 C43', (S, '((m.node t.n2).xyz.sub (m.mid e))) zGlobal < 0\n  then (t.n2, t.n1, t.n3) else', '((m.node t.n2).xyz.sub (m.mid e))) zGlobal < 0\n  then (t.n1, t.n2, t.n3) else'))
mu('cellSEnv', 'second sub-triangle with the area of the first', 'cell-based shear energy', 'C38', (S, 'Ac2 := polyArea [mid, p2, p3]', 'Ac2 := polyArea [mid, p1, p3]'))
mu('cellSEnv', 'b1 and d1 exchanged', 'cell-based shear energy', 'C38', (S, 'a1 := p1.x - mid.x, b1 := p1.y - mid.y, c1 := p2.x - mid.x, d1 := p2.y - mid.y, Ac1', 'a1 := p1.x - mid.x, b1 := p2.y - mid.y, c1 := p2.x - mid.x, d1 := p1.y - mid.y, Ac1'))
mu('cellShear', 'third corner left out (1/2, 1/2, 0)', 'properties from nodes are averaged over the corners', 'C38 C39', (S, 'shear3 (1/3) (1/3) (1/3) p q r', 'shear3 (1/2) (1/2) 0 p q r'))
mu('stab', 'thickness not squared', 'stabilisation factor', 'C44', (S, '1 / (1 + alpha * maxl ^ 2 / h ^ 2)', '1 / (1 + alpha * maxl ^ 2 / h)'))
mu('stab', 'alpha ignored', 'the stabilisation factor falls with alpha', 'C44', (S, '1 / (1 + alpha * maxl ^ 2 / h ^ 2)', '1 / (1 + 0 * alpha * maxl ^ 2 / h ^ 2)'))
mu('cellNSEnv', 'E55 with the factor missing', 'stabilised shear energy', 'C39 C44', (S, """c1 := p3.x - p1.x, d1 := p3.y - p1.y,
          E44 := stab alpha maxl sp.h * (sp.k23 * sp.E 0 0), E45 := 0, E55 := stab alpha maxl sp.h * (sp.k13 * sp.E 1 1) }""", """c1 := p3.x - p1.x, d1 := p3.y - p1.y,
          E44 := stab alpha maxl sp.h * (sp.k23 * sp.E 0 0), E45 := 0, E55 := (sp.k13 * sp.E 1 1) }"""))
mu('addK0sCell', 'the last element is skipped', 'all elements contribute', 'C38', (S, 'matLoop (cellSTria m pn alpha fromArea) K m.eids', 'matLoop (cellSTria m pn alpha fromArea) K m.eids.dropLast'))
mu('cellSEntries', 'one entry written to the transposed place', 'cell-based shear energy', 'C38', (GS, '(e.i1 * 5 + 2, e.i1 * 5 + 3,', '(e.i1 * 5 + 3, e.i1 * 5 + 2,'))
# geometric stiffness
mu('dSlice', 'slice one entry late', 'membrane forces of the displacement', 'C29 C32', (G, '(d.drop (i.toNat * 5)).take 5', '(d.drop (i.toNat * 5 + 1)).take 5'))
mu('kGEnv', 'fourth dummy index 1', 'the dummy fourth node is harmless', 'C34', (G, 'then ix0 ++ [0] else ix0', 'then ix0 ++ [1] else ix0'))
mu('kGEnv', 'A used for the bending part', 'N = A em + B eb', 'C29', (G, 'dot3 A em i + dot3 B eb i', 'dot3 A em i + dot3 A eb i'))
mu('calcKG', 'matrix of 5(n-1) rows', 'kG has the size of k0', 'C30 C68', (G, 'Mat.zeros (d.length / 5 * 5)', 'Mat.zeros (d.length / 5 * 5 - 5)'))
mu('kGEnv', 'eb from the transverse displacement', 'N = A em + B eb', 'C29 C33', (G, '![1 / Ac * sx 3, 1 / Ac * sy 4, 1 / Ac * sxy 3 4]', '![1 / Ac * sx 2, 1 / Ac * sy 4, 1 / Ac * sxy 3 4]'))
mu('kGEnv', 'B read with the other value of prop_from_node', 'properties follow prop_from_node', 'C29', (G, 'match ed.Ac, edgeProp m pn ed Lam.A, edgeProp m pn ed Lam.B with', 'match ed.Ac, edgeProp m pn ed Lam.A, edgeProp m (!pn) ed Lam.B with'))
mu('kGEnv', 'strain not divided by the area', 'em is the mean strain', 'C29 C68', (G, '![1 / Ac * sx 0, 1 / Ac * sy 1, 1 / Ac * sxy 0 1]', '![sx 0, sy 1, sxy 0 1]'))

# second round: definitions not yet touched
Y='Model/SymPy.lean'; F='Model/SymPyFull.lean'; GB='Model/Gen/EdgeB.lean'; GI='Model/Gen/EdgeI.lean'
mu('edgeBModuli', 'coupling modulus E45 taken from the laminate', 'boundary edges have no coupling modulus (finding)', 'C69 C47', (S, '(stab alpha maxl sp.h * (sp.k23 * sp.E 0 0), 0, stab', '(stab alpha maxl sp.h * (sp.k23 * sp.E 0 0), stab alpha maxl sp.h * (min sp.k13 sp.k23 * sp.E 0 1), stab'))
mu('deckNodes', 'the coordinate system of the node is ignored', 'read_mesh keeps cp of every node', 'C07', (H, 'Function.update m.node i (freshNode x c) } l', 'Function.update m.node i (freshNode x id) } l'))
mu('deckElems', 'second and third corner exchanged', 'read_mesh keeps the corner order', 'C07', (H, 'Function.update m.tria e ⟨a, b, c, none, []⟩ } l', 'Function.update m.tria e ⟨a, c, b, none, []⟩ } l'))
mu('deckElems', 'other elements are skipped instead of rejected', 'read_mesh accepts only CTRIA3', 'C07', (H, '| (_, none) :: _ => .error .notImplemented', '| (_, none) :: l => deckElems m l'))
mu('addEdge', 'the edge is registered at one of its nodes only', 'node.edges is the set of edges at the node', 'C04', (H, '  let m := m.updNode k.1 fun n => { n with edges := insert k n.edges }\n', ''))
mu('buildEdges', 'nodes are not linked to their triangles', 'node.trias is the set of triangles at the node', 'C04', (H, '.ok (m.eids.foldl linkNodes m)', '.ok m'))
mu('Mesh.mid', 'mean of two corners', 'the smoothing domain is bounded by the centroids', 'C13 C14 C17', (H, '⟨(a.x + b.x + c.x) / 3, (a.y + b.y + c.y) / 3, (a.z + b.z + c.z) / 3⟩', '⟨(a.x + b.x) / 2, (a.y + b.y) / 2, (a.z + b.z) / 2⟩'))
mu('Mesh.triaArea', 'not halved', 'cell-based shear energy', 'C38 C39', (H, '(Vec3.cross (a.sub b) (a.sub c)).norm / 2', '(Vec3.cross (a.sub b) (a.sub c)).norm'))
mu('otherNode', 'the first corner is taken, not the one off the edge', 'the third node of an edge is the opposite corner', 'C17 C18', (K, '((m.triaNodes e).filter fun i => i ∉ [ed.n1, ed.n2]).head?', '(m.triaNodes e).head?'))
mu('finishEdge', 'Ac is not stored', 'edge.Ac is the area of the smoothing domain', 'C13', (K, 'Ac := some (polyArea sd), ipts := ipts', 'Ac := ed.Ac, ipts := ipts'))
mu('iptsI', 'weights of the third and fourth point exchanged', 'integration points are segment midpoints', 'C17 C18', (K, 'mkIPt m t2 node1 node2 o2 (1/6) (2/3) (1/6) (segNormal v3) v3.norm', 'mkIPt m t2 node1 node2 o2 (2/3) (1/6) (1/6) (segNormal v3) v3.norm'))
mu('iptsB', 'boundary segment traversed backwards', 'outward normals', 'C16 C18', (K, 'let v := (m.node node2).xyz.sub (m.node node1).xyz', 'let v := (m.node node1).xyz.sub (m.node node2).xyz'))
mu('mkIPt', 'third weight applied to the first node', 'ipt.xyz is the midpoint', 'C17', (K, '(Vec3.smul f3 (m.node n3).xyz)⟩', '(Vec3.smul f3 (m.node n1).xyz)⟩'))
mu('weightRow', 'third weight stored at the place of the second', 'k0 is the smoothed energy', 'C18', (K, '(indexPos ix (idx p.n3)) p.f3', '(indexPos ix (idx p.n2)) p.f3'))
mu('indexPos', 'positions counted from the end', 'k0 is the smoothed energy', 'C18', (K, 'ix.length - 1 - ix.reverse.idxOf j', 'ix.reverse.idxOf j'))
mu('mix4', 'last term left out', 'node properties are averaged over the smoothing domain', 'C18 C24', (K, 'c1 * P i j + c2 * Q i j + c3 * R i j + c4 * S i j', 'c1 * P i j + c2 * Q i j + c3 * R i j + 0 * c4 * S i j'))
mu('mixA', 'not divided by the area', 'element properties are averaged over the smoothing domain', 'C18 C24', (K, '(a * P i j + b * Q i j) / c', 'a * P i j + b * Q i j + 0 * c'))
mu('Mat.bump', 'assignment instead of increment', 'k0 is the sum over the edges', 'C18', (B, 'if i = r ∧ j = c then M.get i j + v else M.get i j', 'if i = r ∧ j = c then v else M.get i j'))
mu('pyIdx', 'negative indices are rejected', 'indices follow the rules of Python', 'C05', (B, 'else (if -(n : ℤ) ≤ i then some (i + n).toNat else none)', 'else none'))
mu('step', 'add_k0s also renumbers the nodes', 'an analysis does not change the mesh except as stated', 'C28 C49', (O, '  | .addK0s .. => m\n', '  | .addK0s .. => numberNodes m m.nids.reverse 0\n'))
mu('step', 'calc_kG clears the stored areas', 'calc_kG only reads the mesh', 'C27 C49', (O, '  | .calcKG .. => m\n', '  | .calcKG .. => { m with edge := fun k => { m.edge k with Ac := none } }\n'))
mu('step', 'calc_k0 drops the connectivity of the edges', 'an analysis never changes the connectivity', 'C28', (O, '| .calcK0 pn => (calcK0 m pn).1', '| .calcK0 pn => { (calcK0 m pn).1 with ekeys := (calcK0 m pn).1.ekeys.tail }'))
mu('tabbed', 'spaces instead of tabs', 'one tab per level', 'C65', (L, "List.replicate level.toNat '\\t'", "List.replicate level.toNat ' '"))
mu('logMsg', 'prints also when silent', 'silent calls print nothing', 'C65', (L, 'def logMsg (m : String) (level : ℤ) (silent : Bool) : LogResult :=\n  ⟨m, if !silent then', 'def logMsg (m : String) (level : ℤ) (silent : Bool) : LogResult :=\n  ⟨m, if !silent || silent then'))
mu('edgeBEntries', 'one sign changed', 'edge-based shear energy', 'C69', (GB, '(e.i1 * 5 + 2, e.i1 * 5 + 2, ', '(e.i1 * 5 + 2, e.i1 * 5 + 2, -'))
mu('edgeIEntries', 'one entry written one column late', 'edge-based shear energy', 'C69', (GI, '(e.i1 * 5 + 2, e.i1 * 5 + 3, ', '(e.i1 * 5 + 2, e.i1 * 5 + 4, '))
mu('kGEntries', 'entry on the in-plane displacement', 'kG acts on transverse displacement only', 'C30', (GG, '(e.i2 * 5 + 2, e.i3 * 5 + 2,', '(e.i2 * 5 + 1, e.i3 * 5 + 2,'))
mu('interp3N', 'the z factor uses the z nodes (the corrected program)', '3-D interpolation fails when y and z nodes differ (finding)', 'C54', (I, 'interp3P z ys fld fx fy m n zs.zipIdx field', 'interp3P z zs fld fx fy m n zs.zipIdx field'))
mu('interp3', 'the assertion on the third dimension is dropped', 'a field of the wrong shape is rejected', 'C55', (I, """        if c = zs.length then
          interp3M x y z xs ys zs (fun m n p => field.get [m, n, p]) xs.zipIdx (.sc 0)
        else .error .assertion
""", """          interp3M x y z xs ys zs (fun m n p => field.get [m, n, p]) xs.zipIdx (.sc 0)
"""))
mu('Val.lift2', 'arrays of different length are cut to the shorter', 'one value per query point', 'C56', (I, '      | _, _ => .error .valueError', '      | _, _ => .ok (.vec (List.zipWith f l l\'))'))
mu('SymPy.collectLines', 'only the first collected item is printed', 'collected expressions are printed completely', 'C99', (F, 'def collectLines (l : List (Str × Str)) : List Str := l.flatMap', 'def collectLines (l : List (Str × Str)) : List Str := (l.take 1).flatMap'))
mu('SymPy.finish', 'the file gets an additional newline', 'the written file holds the returned text', 'C100', (F, 'if printFile then [(fileName ns, string)] else []⟩', 'if printFile then [(fileName ns, string ++ ['+"'\\n'"+'])] else []⟩'))
mu('SymPy.withSubs', 'all substitutions are listed', 'only those that occur are listed', 'C101', (Y, '.filter fun kv => contains kv.2 string', '.filter fun kv => contains kv.2 string || true'))
mu('SymPy.cseLines', 'groups of eight are declared', 'every common subexpression is declared', 'C102', (F, '(((subs.drop (9 * i)).take 9).map Prod.fst)', '(((subs.drop (9 * i)).take 8).map Prod.fst)'))
mu('SymPy.arrayStepFull', 'op ignored', 'the operator is used for every entry', 'C104', (F, '"] ".toList ++ op ++ " ".toList ++ t]', '"] ".toList ++ "+=".toList ++ " ".toList ++ t]'))
mu('SymPy.denseStepFull', 'row and column exchanged', 'every entry is printed at its place', 'C99', (F, '| none => mname ++ "[".toList ++ num ij.1 ++ ", ".toList ++ num ij.2', '| none => mname ++ "[".toList ++ num ij.2 ++ ", ".toList ++ num ij.1'))
mu('SymPy.headerLines', 'the header is printed even if empty', 'an empty header prints nothing', 'C62', (Y, '| some h => if h = [] then [] else [h]', '| some h => [h]'))
mu('SymPy.pyDigits', 'base 8', 'powers are expanded with the right exponent', 'C60', (Y, "| a, c :: t => if isDigit c then pyDigits (10 * a", "| a, c :: t => if isDigit c then pyDigits (8 * a"))
mu('SymPy.splitStr', 'the rest after the separator is lost', 'powers are expanded', 'C60', (Y, '[] :: splitStr sep (t.drop (sep.length - 1)) else', '[] :: [t.drop sep.length] else'))
# third round: error paths, corner cases and the rounded model
R='Model/FloatRun.lean'; P='Model/FloatSession.lean'; U='Model/Utils.lean'
mu('geomEdge', 'the third triangle of an edge is ignored', 'non-manifold edges are rejected', 'C10', (K, '  | [t1, t2] =>\n    match otherNode m t1 ed, otherNode m t2 ed with', '  | t1 :: t2 :: _ =>\n    match otherNode m t1 ed, otherNode m t2 ed with'))
mu('geomEdge', 'an edge without opposite corner is left as it was, without exception', 'degenerate connectivity never yields a matrix', 'C08', (K, '    | none => (ed, some .keyError)\n    | some o1 =>', '    | none => (ed, none)\n    | some o1 =>'))
mu('geomPass', 'the loop goes on after an exception', 'a failing calc_k0 raises', 'C08 C10', (K, '    | some e => (m\', some e)\n    | none => geomPass m\' ks', '    | some _ => geomPass m\' ks\n    | none => geomPass m\' ks'))
mu('iptIndices', 'sorted downwards', 'order of the local numbering does not matter (equivalent program)', 'none', (K, '.insertionSort (· ≤ ·)', '.insertionSort (· ≥ ·)'))
mu('mix3', 'second weight used twice', 'node properties are averaged over the smoothing domain', 'C18 C24', (K, 'fun i j => c1 * P i j + c2 * Q i j + c3 * R i j\n', 'fun i j => c1 * P i j + c2 * Q i j + c2 * R i j\n'))
mu('edgeProp', 'boundary edges weighted 1/3, 1/3, 1/3', 'node properties are averaged over the smoothing domain', 'C18', (K, 'mix3 (4/9) (4/9) (1/9) (sel pn1)', 'mix3 (1/3) (1/3) (1/3) (sel pn1)'))
mu('nodeIdx', 'index shifted by one', 'row 5 i of k0 belongs to the node with index i', 'C18 C12', (K, '((m.node i).index.getD 0 : ℕ)', '((m.node i).index.getD 0 + 1 : ℕ)'))
mu('k0Edge', 'an exception of one edge is swallowed', 'calc_k0 returns a matrix only if all edges contribute', 'C08', (K, '  match k0Env m pn (m.edge k) with\n  | .error e => (K, some e)', '  match k0Env m pn (m.edge k) with\n  | .error _ => (K, none)'))
mu('zGlobal', 'pointing downwards', 'outward normals', 'C16', (B, 'def zGlobal : Vec3 := ⟨0, 0, 1⟩', 'def zGlobal : Vec3 := ⟨0, 0, -1⟩'))
mu('Vec3.norm', 'z component left out', 'lengths are those in space', 'C45 C58', (B, 'Real.sqrt (a.x ^ 2 + a.y ^ 2 + a.z ^ 2)', 'Real.sqrt (a.x ^ 2 + a.y ^ 2)'))
mu('Vec3.cross', 'sign of the third component', 'outward normals and areas', 'C16 C43', (B, 'a.x * b.y - a.y * b.x⟩', 'a.y * b.x - a.x * b.y⟩'))
mu('Mat.zeros', 'ones on the diagonal', 'k0 is the smoothed energy', 'C18', (B, 'def zeros (n : ℕ) : Mat := ⟨n, fun _ _ => 0⟩', 'def zeros (n : ℕ) : Mat := ⟨n, fun i j => if i = j then 1 else 0⟩'))
mu('Mat.addAt', 'a write outside the matrix is ignored', 'add_k0s on a matrix of the wrong size raises', 'C36', (B, '  | some i, some j => .ok (M.bump i j v)\n  | _, _ => .error .indexError', '  | some i, some j => .ok (M.bump i j v)\n  | _, _ => .ok M'))
mu('pyGet', 'negative indices give zero', 'area_of_polygon is the shoelace area', 'C57', (U, '(pyIdx l.length i).bind fun k => l[k]?', 'if i < 0 then some 0 else (pyIdx l.length i).bind fun k => l[k]?'))
mu('areaOfPolygon', 'sign kept', 'area_of_polygon is the shoelace area', 'C57 C13', (U, '.ok (|area| / 2)', '.ok (area / 2)'))
mu('shear3', 'thickness of the first node only', 'shear properties are averaged', 'C38 C69', (S, 'c1 * p.h + c2 * q.h + c3 * r.h', 'p.h'))
mu('shear4', 'k23 of the fourth node left out', 'shear properties are averaged', 'C69', (S, '5/12 * p.k23 + 5/12 * q.k23 + 1/12 * r.k23 + 1/12 * s.k23', '5/12 * p.k23 + 5/12 * q.k23 + 1/12 * r.k23 + 1/12 * r.k23'))
mu('shearA', 'thickness not divided by the area', 'shear properties are averaged', 'C69', (S, '(Ac1 * p.h + Ac2 * q.h) / Ac', '(Ac1 * p.h + Ac2 * q.h)'))
mu('pyMax', 'first element instead of the largest', 'maxl is the longest side', 'C45', (S, 'some (l.foldl max a)', 'some (l.foldl (fun x _ => x) a)'))
mu('edgeLen', 'length of the projection on the x axis', 'maxl is the longest side', 'C45', (S, '((m.node (m.edge k).n1).xyz.sub (m.node (m.edge k).n2).xyz).norm\n\n/-- `maxl` of the cell', '|(m.node (m.edge k).n1).xyz.x - (m.node (m.edge k).n2).xyz.x|\n\n/-- `maxl` of the cell'))
mu('edgeBMaxl', 'the area itself instead of its root', 'maxl_from_area uses the root of the area', 'C69', (S, """noncomputable def edgeBMaxl (ed : Edge) (Ac : ℝ) (fromArea : Bool) : Except Err ℝ :=
  if fromArea then .ok (Real.sqrt Ac)""", """noncomputable def edgeBMaxl (ed : Edge) (Ac : ℝ) (fromArea : Bool) : Except Err ℝ :=
  if fromArea then .ok Ac"""))
mu('edgeIShear', 'a missing second property is replaced by the first', 'missing properties are reported', 'C09', (S, '    | some p, some q => .ok (shearA Ac1 Ac2 Ac p q)\n    | _, _ => .error .attributeError', '    | some p, some q => .ok (shearA Ac1 Ac2 Ac p q)\n    | some p, none => .ok p.shear\n    | _, _ => .error .attributeError'))
mu('cellSTria', 'a triangle without properties is skipped', 'missing properties are reported', 'C09', (S, '  match cellSEnv m pn alpha fromArea e with\n  | .error x => (K, some x)', '  match cellSEnv m pn alpha fromArea e with\n  | .error _ => (K, none)'))
mu('edgeSEdge', 'edges of three triangles are skipped', 'non-manifold edges are rejected', 'C10', (S, '  | _ => (K, some .', '  | _ => (K, none) -- .'))
mu('kGEdge', 'an exception of one edge is swallowed', 'calc_kG before calc_k0 raises', 'C49', (G, '  | .error e => (K, some e)\n  | .ok env => K.addAll (kGEntries env)', '  | .error _ => (K, none)\n  | .ok env => K.addAll (kGEntries env)'))
mu('dot3', 'transposed', 'N = A em + B eb with the rows of A', 'C29', (G, 'A i 0 * e 0 + A i 1 * e 1 + A i 2 * e 2', 'A 0 i * e 0 + A 1 i * e 1 + A 2 i * e 2'))
mu('dcAt', 'displacement of the third node twice', 'membrane forces of the displacement', 'C29', (G, 'wAt f 3 * d4.getD r 0', 'wAt f 3 * d3.getD r 0'))
mu('kGEnv', 'a displacement vector of the wrong length is padded with zeros', 'a displacement vector of the wrong length is rejected', 'none yet', (G, 'if d1.length = 5 ∧ d2.length = 5 ∧ d3.length = 5 ∧ d4.length = 5 then', 'if True then'))
mu('freshNode', 'index 0 from the start', 'calc_kG before calc_k0 raises', 'C49', (H, '⟨xyz, cp, none, none, ∅, ∅⟩', '⟨xyz, cp, none, some 0, ∅, ∅⟩'))
mu('freshNode', 'an arbitrary default property', 'missing properties are reported', 'C09', (H, '⟨xyz, cp, none, none, ∅, ∅⟩', '⟨xyz, cp, some ⟨fun _ _ => 0, fun _ _ => 0, fun _ _ => 0, fun _ _ => 0, 1, 1, 1⟩, none, ∅, ∅⟩'))
mu('collectEdgeIds', 'an edge is recorded once per triangle even if the triangle has it twice', 'degenerate triangles (equivalent on proper meshes)', 'C02', (H, 'Function.update d.val k (d.val k ++ [e])⟩', 'Function.update d.val k (if e ∈ d.val k then d.val k else d.val k ++ [e])⟩'))
mu('buildEdges', 'edges with an unknown node are dropped silently', 'an unknown node id is rejected', 'C07', (H, """  if ∀ k ∈ ids.keys, k.1 ∈ m.nids ∧ k.2 ∈ m.nids then
    let m := ids.keys.foldl (addEdge ids) m""", """  if True then
    let m := (ids.keys.filter fun k => k.1 ∈ m.nids ∧ k.2 ∈ m.nids).foldl (addEdge ids) m"""))
mu('step', 'moving a node also resets its property', 'assignments change only the attribute assigned', 'C27 C28', (O, '{ n with xyz := x } else m', '{ n with xyz := x, prop := none } else m'))
mu('step', 'setting a property of an element sets it on all its nodes', 'assignments change only the attribute assigned', 'C28', (O, 'm.updTria e fun t => { t with prop := p } else m', '(m.updTria e fun t => { t with prop := p }).updNode (m.tria e).n1 (fun n => { n with prop := p }) else m'))
mu('logError', 'prefix of warn', 'ERROR prefix', 'C65', (L, '"ERROR: "', '"WARNING: "'))
mu('interp2Outer', 'the factor in x is accumulated over the nodes', 'interpolation reproduces nodal values', 'C50 C51', (I, '    let field\' ← interp2Inner y ys fld fx m ys.zipIdx field\n    interp2Outer x y xs ys fld l field\'', '    let field\' ← interp2Inner y ys fld fx m ys.zipIdx (.sc 0)\n    interp2Outer x y xs ys fld l field\''))
mu('interp3P', 'indices of the field exchanged', '3-D interpolation reproduces nodal values', 'C54', (I, '(.sc (fld m n p))', '(.sc (fld n m p))'))
mu('interp3M', 'last plane skipped', '3-D interpolation reproduces nodal values', 'C54', (I, '  | [], field => .ok field\n  | (xm, m) :: l, field => do\n    let fx ← lagLoop x m xm xs.zipIdx (.sc 1)\n    let field\' ← interp3N', '  | [], field => .ok field\n  | [_], field => .ok field\n  | (xm, m) :: l, field => do\n    let fx ← lagLoop x m xm xs.zipIdx (.sc 1)\n    let field\' ← interp3N'))
mu('SymPy.findAll', 'only the first match', 'powers are expanded', 'C60', (Y, 'some (n + 1) => (c :: t).take (n + 1) :: findAll m (t.drop n)', 'some (n + 1) => [(c :: t).take (n + 1)]'))
mu('SymPy.matchGroup', 'never matches', 'pow2mul keeps the value of the expression', 'C61', (Y, "  | '(' :: s =>\n    let c := s.takeWhile notParen\n    if c = [] then none else", "  | '(' :: s =>\n    let c := s.takeWhile notParen\n    if c = c then none else"))
mu('SymPy.product', 'no parentheses', 'pow2mul keeps the value of the expression', 'C60', (Y, '"(".toList ++ joinStr "*".toList (List.replicate n.toNat var) ++ ")".toList', 'joinStr "*".toList (List.replicate n.toNat var)'))
mu('SymPy.powNew', 'blanks are kept', 'pow2mul keeps the value of the expression (equivalent value)', 'none', (Y, '(p.filter (· != \' \'))', 'p'))
mu('SymPy.printLoop', 'stops quietly at an exception', 'every entry is printed or an exception raised', 'C62', (Y, """      | .ok r => .ok (x ++ r)
      | .error e => .error e
    | .error e => .error e

/-- node number""", """      | .ok r => .ok (x ++ r)
      | .error e => .error e
    | .error _ => .ok []

/-- node number"""))
mu('SymPy.dofOf', 'dofpernode=0 is used as given', 'dofpernode=0 means no node numbers', 'C62', (Y, '  | some 0 => none\n  | x => x', '  | x => x'))
mu('SymPy.localNo', 'global number', 'row and column of the printed entry', 'C63', (Y, '  | some d => i % d\n  | none => i', '  | some _ => i\n  | none => i'))
mu('SymPy.nameSuffix', 'no underscore', 'name of the printed matrix', 'C100', (Y, 'mname ++ "_".toList ++ s', 'mname ++ s'))
mu('SymPy.fileName', 'without extension', 'name of the written file', 'C100', (F, '"print_".toList ++ ns ++ ".txt".toList', '"print_".toList ++ ns'))
mu('SymPy.sparseCounts', 'skipped entries are counted', 'the number of entries is printed', 'C63', (F, '  | some _ => !(isSymmetric && decide (localNo dof ij.1 > localNo dof ij.2))', '  | some _ => true'))
mu('SymPy.orderFlag', 'any other order means C', 'an unknown order raises', 'C72', (F, 'else if order = "F".toList then .ok true else .error .unboundLocal', 'else if order = "F".toList then .ok true else .ok false'))
mu('SymPy.printArray', 'the number of entries is that of the matrix before cse', 'the number of entries is printed', 'C103 C72', (F, "num (m'.enum.filter fun ij => (m'.entry ij.1 ij.2).isSome).length]", "num (m.enum.filter fun ij => (m.entry ij.1 ij.2).isSome).length]"))
mu('SymPy.SMat.places', 'F order like C order', 'entries are numbered in the given order', 'C72', (F, 'if fortran then (List.range m.cols).flatMap fun j => (List.range m.rows).map fun i => (i, j) else m.enum', 'if fortran then m.enum else m.enum'))
# rounded model: variants that agree in exact arithmetic
mu('Rounding.k0Edge', 'a rounded area of zero raises', 'outcomes do not depend on rounding', 'C105', (R, '  match R.k0Env m pn (m.edge k) with\n  | .error e => (K, some e)', '  if R.add (R.fl (1/3)) (R.fl (2/3)) ≠ 1 then (K, some .valueError) else\n  match R.k0Env m pn (m.edge k) with\n  | .error e => (K, some e)'))
mu('Rounding.orient', 'the test compares with the roundoff', 'calc_k0 depends on the orientation only (accuracy is kept)', 'none', (R, 'zGlobal < 0 then (b, a) else (a, b)', 'zGlobal < R.fl 1 - 1 then (b, a) else (a, b)'))
mu('Rounding.areaOfPolygon', 'an absolute error that does not shrink with the area', 'rounding error of k0 is proportional to u (accuracy for fixed mesh is kept)', 'none', (R, '.ok (R.div |area| 2)', '.ok (R.sub (R.add (R.div |area| 2) 1) 1)'))
mu('Rounding.bump', 'each increment of inexact arithmetic is one per mille too large', 'error proportional to u', 'C106', (R, 'if i = r ∧ j = c then R.add (M.get i j) v else M.get i j', 'if i = r ∧ j = c then R.add (M.get i j) (if 0 < R.u then v + v / 1000 else v) else M.get i j'), (R, 'def bump (M : Mat)', 'noncomputable def bump (M : Mat)'), (R, 'def addAt (M : Mat)', 'noncomputable def addAt (M : Mat)'), (R, 'def addAll (M : Mat)', 'noncomputable def addAll (M : Mat)'))
mu('Rounding.step', 'calc_k0 works on exact numbers', 'the computed mesh (accuracy is better, claims hold)', 'none', (P, '| .calcK0 pn => (R.calcK0 m pn).1', '| .calcK0 pn => (Meshless.calcK0 m pn).1'))
mu('Rounding.calcKG', 'unrounded result for half the edges dropped when u > 0', 'error proportional to u', 'C107', (R, 'match matLoop (R.kGEdge m d pn) (Mat.zeros (d.length / 5 * 5)) m.ekeys with', 'match matLoop (R.kGEdge m d pn) (Mat.zeros (d.length / 5 * 5)) (if R.fl (1/3) = 1/3 then m.ekeys else m.ekeys.tail) with'))
# aimed at C117-C134
mu('kGEnv', 'tensor shear strain (half) in the membrane forces', 'limit of the geometric energy; membrane forces of the pre-stress', 'C121 C124 C134', (G, '1 / Ac * sxy 0 1]', '1 / Ac * sxy 0 1 / 2]'))
mu('edgeProp', 'divides by the two areas as they are now, not by the stored area', 'after nodes are moved calc_kG weights with areas over the stored area', 'C130', (K, '.ok (mixA Ac1 Ac2 Ac (sel prop1) (sel prop2))', '.ok (mixA Ac1 Ac2 (if Ac = 0 then Ac else Ac1 + Ac2) (sel prop1) (sel prop2))'))
mu('stab', 'the factor is never below 1/1000', 'thin plates: the shear part scales like the cube of the thickness', 'C127', (S, '1 / (1 + alpha * maxl ^ 2 / h ^ 2)', 'max (1 / (1 + alpha * maxl ^ 2 / h ^ 2)) (1 / 1000)'))
mu('stab', 'alpha is at least 1/100', 'with alpha = 0 thin plates lock', 'C128', (S, '1 / (1 + alpha * maxl ^ 2 / h ^ 2)', '1 / (1 + max alpha (1 / 100) * maxl ^ 2 / h ^ 2)'))
mu('stab', 'a small absolute thickness is added against division by zero', 'change of units', 'C126', (S, '1 / (1 + alpha * maxl ^ 2 / h ^ 2)', '1 / (1 + alpha * maxl ^ 2 / (h ^ 2 + 1 / 10 ^ 12))'))
mu('edgeProp', 'the first triangle decides for both', 'smoothing takes the weighted mean of the laminates', 'C20 C117', (K, '.ok (mixA Ac1 Ac2 Ac (sel prop1) (sel prop2))', '.ok (mixA Ac1 Ac2 Ac (sel prop1) (sel prop1))'))
mu('edgeProp', 'properties of boundary edges halved', 'consistency of the energy up to the boundary', 'C119 C122 C123', (K, '| none => .ok (sel prop1)', '| none => .ok (fun i j => sel prop1 i j / 2)'))
mu('kGEdge', 'an edge without properties is skipped', 'calc_kG raises if a property is missing', 'C133', (G, '  | .error e => (K, some e)\n', '  | .error .attributeError => (K, none)\n  | .error e => (K, some e)\n'))
mu('cellNSTria', 'a triangle without properties is skipped', 'add_k0s raises if a property is missing', 'C133', (S, '  match cellNSEnv m pn alpha fromArea e with\n  | .error x => (K, some x)', '  match cellNSEnv m pn alpha fromArea e with\n  | .error .attributeError => (K, none)\n  | .error x => (K, some x)'))
mu('edgeBShear', 'a boundary edge without properties has no shear stiffness', 'add_k0s raises if a property is missing', 'C133', (S, '    match (m.tria t1).prop with\n    | some p => .ok p.shear\n    | none => .error .attributeError', '    match (m.tria t1).prop with\n    | some p => .ok p.shear\n    | none => .ok ⟨0, 0, 1, fun _ _ => 0⟩'))
mu('edgeSEdge', 'edges of three triangles: ValueError', 'NotImplementedError on edges of three triangles', 'C133', (S, '(K, some .notImplemented)', '(K, some .valueError)'))
mu('calcKG', 'the first edge is left out', 'the geometric energy adds up over the plate', 'C121 C122', (G, '(Mat.zeros (d.length / 5 * 5)) m.ekeys with', '(Mat.zeros (d.length / 5 * 5)) m.ekeys.tail with'))
mu('addK0sCellNS', 'the first triangle is left out', 'the shear energy adds up over the plate', 'C120 C122', (S, 'matLoop (cellNSTria m pn alpha fromArea) K m.eids', 'matLoop (cellNSTria m pn alpha fromArea) K m.eids.tail'))
mu('matLoop', 'the loop goes on after an exception', 'the matrix is left as it was at the first failing element', 'C133 C36', (K, "    | (K', some e) => (K', some e)", "    | (K', some e) => ((matLoop f K' as).1, some e)"))
mu('iptsIndexed', 'only the first corner is looked at', 'calc_kG before calc_k0 raises TypeError', 'C49', (K, '(m.node p.n1).index.isSome && (m.node p.n2).index.isSome && (m.node p.n3).index.isSome', '(m.node p.n1).index.isSome'))
mu('wAt', 'entries past the fourth are 1', 'none (only four are read)', 'none', (K, 'r.getD i 0', 'r.getD i 1'))
mu('cellMaxl', 'maxl from the area of the square with this diagonal', 'shear energy with maxl_from_area', 'C38 C45', (S, 'if fromArea then .ok (Real.sqrt Ac)\n  else match pyMax ((m.tria e)', 'if fromArea then .ok (Real.sqrt (2 * Ac))\n  else match pyMax ((m.tria e)'))
mu('edgeBEnv', 'area of a third of the triangle instead of the stored one', 'edge-based shear reads the stored area', 'C130 C69', (S, '      .ok { i1, i2, i3, Ac, E44, E45, E55,\n', '      .ok { i1, i2, i3, Ac := m.triaArea t1 / 3, E44, E45, E55,\n'))
mu('cellNSOrient', 'corners 2 and 3 exchanged instead of 1 and 2', 'none: the shear strain of the triangle does not depend on which corners are exchanged?', 'C39', (S, 'cellNSOrient (m : Mesh) (e : ℕ) : ℕ × ℕ × ℕ :=\n  let t := m.tria e\n  let p1 := (m.node t.n1).xyz\n  if Vec3.dot (Vec3.cross ((m.node t.n2).xyz.sub p1) ((m.node t.n3).xyz.sub p1)) zGlobal < 0\n  then (t.n2, t.n1, t.n3)', 'cellNSOrient (m : Mesh) (e : ℕ) : ℕ × ℕ × ℕ :=\n  let t := m.tria e\n  let p1 := (m.node t.n1).xyz\n  if Vec3.dot (Vec3.cross ((m.node t.n2).xyz.sub p1) ((m.node t.n3).xyz.sub p1)) zGlobal < 0\n  then (t.n1, t.n3, t.n2)'))
mu('Rounding.vcross', 'exact cross product', 'none (more accurate)', 'none', (R, 'def vcross (a b : Vec3) : Vec3 :=\n  ⟨R.sub (R.mul a.y b.z) (R.mul a.z b.y), R.sub (R.mul a.z b.x) (R.mul a.x b.z), R.sub (R.mul a.x b.y) (R.mul a.y b.x)⟩', 'noncomputable def vcross (a b : Vec3) : Vec3 := let _ := R; Vec3.cross a b'))
mu('Rounding.stab', 'h not squared in inexact arithmetic', 'exact arithmetic gives the exact program; error proportional to u', 'C107', (R, 'R.div (R.mul alpha (R.mul maxl maxl)) (R.mul h h)', 'R.div (R.mul alpha (R.mul maxl maxl)) h'))
mu('Rounding.cellNSEnv', 'no rounding of the stabilised modulus E44 and a wrong factor 1 + u', 'none: the error stays proportional to u', 'none', (R, 'E44 := R.mul (R.stab alpha maxl sp.h) (R.mul sp.k23 (sp.E 0 0)), E45 := 0,', 'E44 := (1 + R.u) * R.mul (R.stab alpha maxl sp.h) (R.mul sp.k23 (sp.E 0 0)), E45 := 0,', 2))
# rounded arithmetic, the session, the printers (aimed at C105-C114, C142, C149 and C59-C64, C99-C104)
FL='Model/Float.lean'; FI='Model/FloatInterp.lean'
mu('rne', 'ties are rounded up', 'float64 rounding commutes with the change of sign', 'C149', (FL, 'if Even ⌊z⌋ then ⌊z⌋ else ⌊z⌋ + 1', '⌊z⌋ + 1'))
mu('rne', 'truncation', 'the error of one operation is at most 2^-53', 'C149 C105', (FL, 'if z - ⌊z⌋ < 1/2 then ⌊z⌋ else if 1/2 < z - ⌊z⌋ then ⌊z⌋ + 1 else if Even ⌊z⌋ then ⌊z⌋ else ⌊z⌋ + 1', '⌊z⌋'))
mu('fl64', 'absolute precision: fixed exponent for numbers below 1', 'powers of two are exact', 'C149', (FL, '(rne (x / (2:ℝ) ^ (Int.log 2 |x| - 52)) : ℝ) * (2:ℝ) ^ (Int.log 2 |x| - 52)', '(rne (x / (2:ℝ) ^ (max 0 (Int.log 2 |x|) - 52)) : ℝ) * (2:ℝ) ^ (max 0 (Int.log 2 |x|) - 52)'))
mu('Rounding.orient', 'a computed value below the unit roundoff counts as zero', 'results do not depend on the unit of length', 'C149', (R, 'zGlobal < 0 then (b, a) else (a, b)', 'zGlobal < -R.u then (b, a) else (a, b)'))
mu('Rounding.areaOfPolygon', 'an absolute number is added and subtracted', 'results do not depend on the unit of length', 'C149', (R, '.ok (R.div |area| 2)', '.ok (R.sub (R.add (R.div |area| 2) 1) 1)'))
mu('Rounding.vnorm', 'sum of absolute values', 'exact arithmetic gives the exact program', 'C105 C142', (R, 'noncomputable def vnorm (a : Vec3) : ℝ := R.sqrt (R.add (R.add (R.mul a.x a.x) (R.mul a.y a.y)) (R.mul a.z a.z))', 'noncomputable def vnorm (a : Vec3) : ℝ := R.add (R.add |a.x| |a.y|) |a.z|'))
mu('Rounding.mid', 'mean of two corners', 'exact arithmetic gives the exact program', 'C105 C106', (R, '⟨R.div (R.add (R.add a.x b.x) c.x) 3, R.div (R.add (R.add a.y b.y) c.y) 3, R.div (R.add (R.add a.z b.z) c.z) 3⟩', '⟨R.div (R.add a.x b.x) 2, R.div (R.add a.y b.y) 2, R.div (R.add a.z b.z) 2⟩'))
mu('Rounding.iptsA', 'weights truncated to four digits', 'error proportional to u', 'C105 C106', (R, '[R.mkIPt m t1 node1 node2 o1 (R.fl (2/3)) (R.fl (1/6)) (R.fl (1/6)) (R.segNormal v1)', '[R.mkIPt m t1 node1 node2 o1 (R.fl (6667/10000)) (R.fl (1/6)) (R.fl (1/6)) (R.segNormal v1)'))
mu('Rounding.mixA', 'not divided by the area', 'exact arithmetic gives the exact program', 'C105 C106 C149', (R, 'fun i j => R.div (R.add (R.mul a (P i j)) (R.mul b (Q i j))) c', 'fun i j => R.add (R.mul a (P i j)) (R.mul b (Q i j))'))
mu('Rounding.edgeProp', 'other weights for interior edges', 'exact arithmetic gives the exact program', 'C105 C106', (R, '(R.fl (5/12)) (R.fl (5/12)) (R.fl (1/12)) (R.fl (1/12)) (sel pn1)', '(R.fl (1/3)) (R.fl (1/3)) (R.fl (1/6)) (R.fl (1/6)) (sel pn1)'))
mu('Rounding.dot3', 'third term left out', 'exact arithmetic gives the exact program', 'C105 C107', (R, 'R.add (R.add (R.mul (A i 0) (e 0)) (R.mul (A i 1) (e 1))) (R.mul (A i 2) (e 2))', 'R.add (R.mul (A i 0) (e 0)) (R.mul (A i 1) (e 1))'))
mu('Rounding.kGEnv', 'divides by the area twice', 'results do not depend on the unit of length; exact arithmetic gives the exact program', 'C149 C105 C107', (R, 'let em : Fin 3 → ℝ := ![R.mul (R.div 1 Ac) (sx 0),', 'let em : Fin 3 → ℝ := ![R.div (R.mul (R.div 1 Ac) (sx 0)) Ac,'))
mu('Rounding.triaArea', 'not halved', 'exact arithmetic gives the exact program', 'C105 C108', (R, 'R.div (R.vnorm (R.vcross (R.vsub a b) (R.vsub a c))) 2', 'R.vnorm (R.vcross (R.vsub a b) (R.vsub a c))'))
mu('Rounding.cellMaxl', 'longest side plus the unit roundoff', 'results do not depend on the unit of length', 'C149', (R, '  else match pyMax ((m.tria e).edges.map (R.edgeLen m)) with\n    | some a => .ok a', '  else match pyMax ((m.tria e).edges.map (R.edgeLen m)) with\n    | some a => .ok (a + R.u)'))
mu('Rounding.edgeBModuli', 'h squared lost', 'exact arithmetic gives the exact program', 'C105 C149', (R, '(R.mul (R.stab alpha maxl sp.h) (R.mul sp.k23 (sp.E 0 0)), 0, ', '(R.mul (R.stab alpha maxl 1) (R.mul sp.k23 (sp.E 0 0)), 0, '))
mu('Rounding.edgeIModuli', 'h not squared in the numerator', 'results do not depend on the unit of length; exact arithmetic gives the exact program', 'C105 C149', (R, 'let c := R.div (R.mul sp.h sp.h) (R.add', 'let c := R.div sp.h (R.add'))
mu('Rounding.cellOrient', 'never exchanged', 'exact arithmetic gives the exact program', 'C105', (R, '  if R.vdot (R.vcross (R.vsub (m.node t.n1).xyz (R.mid m e)) (R.vsub (m.node t.n2).xyz (R.mid m e))) zGlobal < 0\n  then (t.n2, t.n1, t.n3) else (t.n1, t.n2, t.n3)', '  (t.n1, t.n2, t.n3)'))
mu('Rounding.cellNSEnv', 'coordinates relative to the third corner (equivalent with exact numbers?)', 'exact arithmetic gives the exact program', 'C105', (R, 'a1 := R.sub p2.x p1.x, b1 := R.sub p2.y p1.y, c1 := R.sub p3.x p1.x, d1 := R.sub p3.y p1.y,', 'a1 := R.sub p2.x p3.x, b1 := R.sub p2.y p3.y, c1 := R.sub p3.x p1.x, d1 := R.sub p3.y p1.y,'))
mu('Rounding.shear3', 'thickness of the first corner', 'exact arithmetic gives the exact program', 'C105 C108', (R, '    R.add (R.add (R.mul c1 p.h) (R.mul c2 q.h)) (R.mul c3 r.h), R.mix3', '    p.h, R.mix3'))
mu('Rounding.addK0s', 'edge-based runs the cell-based method', 'exact arithmetic gives the exact program', 'C105', (R, 'matLoop (R.edgeSEdge m pn alpha fromArea) K m.ekeys', 'matLoop (R.cellSTria m pn alpha fromArea) K m.eids'))
mu('Rounding.lagLoop', 'the guard is dropped in inexact arithmetic', 'rounding error of the interpolation; coinciding nodes are skipped', 'C105 C142', (R, 'if i ≠ m ∧ R.sub xm xi ≠ 0 then do', 'if i ≠ m then do'))
mu('Rounding.interp2Inner', 'fy squared', 'rounding error of the interpolation', 'C142', (R, '    let t ← Val.lift2 R.mul fx fy\n    let t ← Val.lift2 R.mul t (.sc (fld m n))', '    let t ← Val.lift2 R.mul fy fy\n    let t ← Val.lift2 R.mul t (.sc (fld m n))'))
mu('Rounding.interp3P', 'factor loop over one node less', 'rounding error of the interpolation', 'C142', (FI, 'let fz ← R.lagLoop z p zp ys.zipIdx (.sc 1)', 'let fz ← R.lagLoop z p zp ys.tail.zipIdx (.sc 1)'))
mu('Rounding.interp3N', 'starts again at zero for each n', 'rounding error of the interpolation', 'C142', (FI, 'let field\' ← R.interp3P z ys fld fx fy m n zs.zipIdx field', 'let field\' ← R.interp3P z ys fld fx fy m n zs.zipIdx (.sc 0)'))
mu('Rounding.interp3', 'third assertion dropped', 'a field of the wrong shape is rejected also in rounded arithmetic', 'C142', (FI, '        if c = zs.length then\n          R.interp3M x y z xs ys zs (fun m n p => field.get [m, n, p]) xs.zipIdx (.sc 0)\n        else .error .assertion', '        R.interp3M x y z xs ys zs (fun m n p => field.get [m, n, p]) xs.zipIdx (.sc 0)'))
mu('Rounding.run', 'statements in reverse order', 'scripts', 'C105', (P, 'ops.foldl R.step m', 'ops.reverse.foldl R.step m'))
mu('run', 'the last statement is left out', 'later calls see the state left by earlier ones', 'C27', (O, 'ops.foldl step m', 'ops.dropLast.foldl step m'))
mu('step', 'moving a node resets its property', 'a script that sets and moves', 'C27 C90', (O, '| .moveNode i x => if i ∈ m.nids then m.updNode i fun n => { n with xyz := x } else m', '| .moveNode i x => if i ∈ m.nids then m.updNode i fun n => { n with xyz := x, prop := none } else m'))
mu('isSpace', 'only the blank', 'white space after ** is taken with the exponent', 'C60', (Y, '(9 ≤ c.toNat && c.toNat ≤ 13) || (28 ≤ c.toNat && c.toNat ≤ 32)', 'c.toNat == 32'))
mu('notParen', 'only the closing parenthesis stops', 'only innermost groups are taken', 'C60', (Y, "c != '(' && c != ')'", "c != ')'"))
mu('matchPow', 'groups first', 'words are tried first (equivalent: they begin differently)', 'none', (Y, '(matchWord s).or (matchGroup s)', '(matchGroup s).or (matchWord s)'))
mu('pyNat', 'empty text is 0', 'an exponent that is not a number raises ValueError', 'C61', (Y, '  | [] => none\n  | c :: t => if isDigit c then pyDigits (c.toNat - 48) t else none', '  | [] => some 0\n  | c :: t => if isDigit c then pyDigits (c.toNat - 48) t else none'))
mu('pyInt', 'the sign is lost', 'a negative exponent in pow( , ) does not become a positive power', 'C61', (Y, "| '-' :: t => (pyNat t).map fun n => -(n : ℤ)", "| '-' :: t => (pyNat t).map fun n => (n : ℤ)"))
mu('strip', 'only the left end', 'white space around exponents', 'C61', (Y, '(((s.dropWhile isSpace).reverse).dropWhile isSpace).reverse', 's.dropWhile isSpace'))
mu('contains', 'only at the beginning', 'substitutions that occur in the text are listed', 'C99 C62', (Y, 's.tails.any fun t => p.isPrefixOf t', 'p.isPrefixOf s'))
mu('substAll', 'only the first replacement', 'all powers are written as products', 'C60', (Y, 'l.foldl (fun o q => replaceAll q.1 q.2 o) s', '(l.take 1).foldl (fun o q => replaceAll q.1 q.2 o) s'))
mu('SMat.enum', 'columns first', 'entries are listed row by row', 'C62 C99', (Y, '(List.range m.rows).flatMap fun i => (List.range m.cols).map fun j => (i, j)', '(List.range m.cols).flatMap fun j => (List.range m.rows).map fun i => (i, j)'))
mu('valueText', 'powers are always written as products', 'without pow_by_mul the text of an entry is kept', 'C62 C99', (Y, 'if powByMul then pow2mul v else .ok v', 'pow2mul v'))
mu('matchArr', 'the exponent is optional', 'only powers are rewritten', 'C72', (Y, '  | \'*\' :: \'*\' :: r =>\n    let d := r.takeWhile isDigit\n    if d = [] then none else some (w.length + 2 + d.length)', '  | \'*\' :: \'*\' :: r =>\n    let d := r.takeWhile isDigit\n    some (w.length + 2 + d.length)'))
mu('arrayStep', 'positions start at 1', 'entry i is printed at pos+i', 'C72', (Y, 'num iv.1 ++ "] ".toList ++ op', 'num (iv.1 + 1) ++ "] ".toList ++ op'))
mu('mprintSparse', 'subs are printed without the heading', 'text of the listing', 'C99 C100', (Y, '(withSubs subs ["subs\\n".toList] ["\\n".toList] [] ls)', '(withSubs subs [] ["\\n".toList] [] ls)'))
mu('printDense', 'the header is lost', 'text of the listing', 'C99 C62', (F, 'let ls := headerLines header ++ ["# ".toList ++ mname,', 'let ls := ["# ".toList ++ mname,'))
mu('sparseStepFull', 'symmetric: the upper triangle is skipped', 'is_symmetric keeps the upper triangle', 'C99 C63', (F, 'decide (i > j)', 'decide (i < j)'))
mu('readDelaunay', 'edges are not built', 'edges of the mesh', 'C01', (H, '  | .ok m => buildEdges m\n  | .error e => .error e\n\n/-- What', '  | .ok m => .ok m\n  | .error e => .error e\n\n/-- What'))
mu('pos', 'coordinates are taken as given', 'coordinate systems of a deck', 'C145', (H, 'def pos (m : Mesh) (i : ℕ) : Vec3 := (m.node i).cp (m.node i).xyz', 'def pos (m : Mesh) (i : ℕ) : Vec3 := (m.node i).xyz'))
mu('Lam.shear', 'k13 and k23 exchanged', 'shear energy', 'C38 C39', (S, '⟨p.k13, p.k23, p.h, p.E⟩', '⟨p.k23, p.k13, p.h, p.E⟩'))
X='Model/Ieee.lean'
mu('Fmt.rnd', 'overflow saturates at the largest number', 'IEEE rounding; no effect on results in range', 'none', (X, 'else .inf (decide (x < 0))\n\n/-- `a + b` -/', 'else .fin f.big\n\n/-- `a + b` -/'))
mu('Fmt.mul', '0 times infinity is 0', 'a domain without area ends in NaN', 'C152', (X, '| .fin x, .inf s => if x = 0 then .nan else', '| .fin x, .inf s => if x = 0 then .fin 0 else'))
mu('Fmt.div', 'x / 0 is 0', 'a domain without area ends in NaN', 'C152', (X, 'if y = 0 then (if x = 0 then .nan else .inf (decide (x < 0))) else f.rnd (x / y)', 'if y = 0 then .fin 0 else f.rnd (x / y)'))
mu('Fmt.add', 'NaN counts as 0', 'a domain without area ends in NaN', 'C152', (X, '  | .inf s, .inf t => if s = t then .inf s else .nan\n  | _, _ => .nan\n\n/-- `a - b` -/', '  | .inf s, .inf t => if s = t then .inf s else .nan\n  | .nan, x => x\n  | _, _ => .nan\n\n/-- `a - b` -/'))
mu('Fmt.sub', 'adds', 'results near the exact ones', 'C150 C153', (X, 'noncomputable def sub (a b : Flo) : Flo := f.add a b.neg', 'noncomputable def sub (a b : Flo) : Flo := f.add a b'))
mu('Fmt.area4', 'not halved', 'results near the exact ones', 'C150 C153', (X, 'f.areaTerm (.fin 0) d a c) a b d) b c a) c d b).abs (.fin 2)', 'f.areaTerm (.fin 0) d a c) a b d) b c a) c d b).abs (.fin 1)'))
mu('Fmt.area5', 'no absolute value', 'results near the exact ones', 'C150 C153', (X, 'b c a) c d b) d e c).abs (.fin 2)', 'b c a) c d b) d e c) (.fin 2)'))
mu('Fmt.mid', 'divides by 2 in x', 'results near the exact ones', 'C150 C153', (X, '⟨f.div (f.add (f.add a.x b.x) c.x) (.fin 3)', '⟨f.div (f.add (f.add a.x b.x) c.x) (.fin 2)'))
mu('Fmt.iptsA', 'weights kept to one digit: 0.7 in place of 2/3', 'results near the exact ones', 'C150 C153', (X, 'f.mkIPt m t1 node1 node2 o1 (f.rnd (2/3)) (f.rnd (1/6)) (f.rnd (1/6)) (f.segNormal v1)', 'f.mkIPt m t1 node1 node2 o1 (f.rnd (7/10)) (f.rnd (1/6)) (f.rnd (1/6)) (f.segNormal v1)'))
mu('Fmt.iptsA', 'the weight 2/3 is stored in single precision (relative error 2^-24)', 'error of some units of 2^-53', 'C150 C153', (X, 'f.mkIPt m t1 node1 node2 o1 (f.rnd (2/3)) (f.rnd (1/6)) (f.rnd (1/6)) (f.segNormal v1)', 'f.mkIPt m t1 node1 node2 o1 (f.rnd (2/3 + 2/3/2^24)) (f.rnd (1/6)) (f.rnd (1/6)) (f.segNormal v1)'))
mu('Fmt.orient', 'test inverted', 'results near the exact ones', 'C150 C153', (X, 'zGlobal.flo).lt (.fin 0) then (b, a) else (a, b)', 'zGlobal.flo).lt (.fin 0) then (a, b) else (b, a)'))
mu('Fmt.calcK0', 'an exception of the assembly loop is swallowed', 'the format does not decide about exceptions', 'C151', (X, "        | (_, some e) => (m2, g, .error e)\n\n/-! ### meshless/espim/plate2d_calc_kG.py -/", "        | (K, some _) => (m2, g, .ok K)\n\n/-! ### meshless/espim/plate2d_calc_kG.py -/"))
mu('Fmt.addAt', 'an index out of range is ignored', 'the format does not decide about exceptions', 'C151', (X, '  | some i, some j => .ok (f.bump M i j v)\n  | _, _ => .error .indexError', '  | some i, some j => .ok (f.bump M i j v)\n  | _, _ => .ok M'))
mu('Fmt.bump', 'assignment instead of +=', 'results near the exact ones', 'C150 C152 C153', (X, 'then f.add (M.get i j) v else M.get i j', 'then f.add (.fin 0) v else M.get i j'))
mu('Fmt.stab', 'maxl not squared', 'results near the exact ones', 'C150', (X, 'f.div (f.mul (.fin alpha) (f.mul maxl maxl)) (f.mul h h)', 'f.div (f.mul (.fin alpha) maxl) (f.mul h h)'))
mu('Fmt.moduli', 'k13 and k23 exchanged', 'results near the exact ones', 'C150', (X, '(f.mul sp.k23 (sp.E 0 0)), f.mul (f.stab alpha maxl sp.h) (f.mul sp.k13 (sp.E 1 1))', '(f.mul sp.k13 (sp.E 0 0)), f.mul (f.stab alpha maxl sp.h) (f.mul sp.k23 (sp.E 1 1))'))
mu('Fmt.resN', 'bending strains without B', 'results near the exact ones', 'C150', (X, 'fun i => f.add (f.dot3 A em i) (f.dot3 B eb i)', 'fun i => f.add (f.dot3 A em i) (f.dot3 A eb i)'))
mu('Fmt.addK0s', 'an unknown method returns the matrix', 'the format does not decide about exceptions', 'C151', (X, '  else (K, some .valueError)\n\nend Fmt', '  else (K, none)\n\nend Fmt'))
mu('Fmt.cellSEnv', 'the second sub-triangle takes the corners of the first', 'rounding error of add_k0s', 'C150 C157', (X, 'Ac2 := f.area3 mid p2 p3', 'Ac2 := f.area3 mid p1 p2'))
mu('Fmt.cellNSEnv', 'c1 from the second corner', 'rounding error of add_k0s', 'C150 C156', (X, 'c1 := f.sub p3.x p1.x, d1 := f.sub p3.y p1.y,\n          E44', 'c1 := f.sub p2.x p1.x, d1 := f.sub p3.y p1.y,\n          E44'))
mu('Fmt.stab', 'thickness not squared', 'rounding error of add_k0s', 'C150 C156 C157', (X, '(f.mul maxl maxl)) (f.mul h h)))', '(f.mul maxl maxl)) h))'))
mu('Fmt.stab', 'the factor is stored in single precision (relative error 2^-24)', 'rounding error of add_k0s', 'C150 C156 C157', (X, '  f.div (.fin 1) (f.add (.fin 1) (f.div (f.mul (.fin alpha)', '  f.div (.fin (1 + 1/2^24)) (f.add (.fin 1) (f.div (f.mul (.fin alpha)'))
mu('Fmt.cellNSOrient', 'test inverted', 'rounding error of add_k0s', 'C150 C156', (X, '(f.vsub (xyz m t.n3) p1)) zGlobal.flo).lt (.fin 0)\n  then (t.n2, t.n1, t.n3) else (t.n1, t.n2, t.n3)', '(f.vsub (xyz m t.n3) p1)) zGlobal.flo).lt (.fin 0)\n  then (t.n1, t.n2, t.n3) else (t.n2, t.n1, t.n3)'))
mu('Fmt.cellMaxl', 'the area itself in place of its root', 'rounding error of add_k0s', 'C150 C156 C157', (X, 'if fromArea then .ok (f.sqrt Ac)\n  else match Flo.pyMax ((m.tria e)', 'if fromArea then .ok Ac\n  else match Flo.pyMax ((m.tria e)'))
mu('Fmt.resN', 'the shear strain takes nx for both terms', 'rounding error of calc_kG', 'C150 C160 C161', (X, 'f.mul p1.le (f.add (f.mul p1.ny (c f1 r)) (f.mul p1.nx (c f1 s)))', 'f.mul p1.le (f.add (f.mul p1.nx (c f1 r)) (f.mul p1.nx (c f1 s)))'))
mu('Fmt.dot3', 'the third strain is left out', 'rounding error of calc_kG', 'C150 C160 C161', (X, 'f.add (f.add (f.mul (A i 0) (e 0)) (f.mul (A i 1) (e 1))) (f.mul (A i 2) (e 2))', 'f.add (f.mul (A i 0) (e 0)) (f.mul (A i 1) (e 1))'))
mu('Fmt.resN', '1 / Ac is stored in single precision (relative error 2^-24)', 'rounding error of calc_kG', 'C160', (X, 'let em : Fin 3 → Flo := ![f.mul (f.div (.fin 1) Ac) (sx 0)', 'let em : Fin 3 → Flo := ![f.mul (f.div (.fin (1 + 1/2^24)) Ac) (sx 0)'))
mu('Fmt.kGEnv', 'an edge with one triangle takes its third point twice', 'rounding error of calc_kG', 'C150 C160 C161', (X, "        let f4 := match rest with | p4 :: _ => weightRow (nodeIdx m) ix p4 | [] => List.replicate 4 (.fin 0)\n        let nx4 := match rest with | p4 :: _ => p4.nx | [] => .fin 0\n        let ny4 := match rest with | p4 :: _ => p4.ny | [] => .fin 0\n        let le4 := match rest with | p4 :: _ => p4.le | [] => .fin 0\n        match f.edgeProp m pn ed g.Ac Lam.A, f.edgeProp m pn ed g.Ac Lam.B with", "        let f4 := match rest with | p4 :: _ => weightRow (nodeIdx m) ix p4 | [] => weightRow (nodeIdx m) ix p3\n        let nx4 := match rest with | p4 :: _ => p4.nx | [] => p3.nx\n        let ny4 := match rest with | p4 :: _ => p4.ny | [] => p3.ny\n        let le4 := match rest with | p4 :: _ => p4.le | [] => p3.le\n        match f.edgeProp m pn ed g.Ac Lam.A, f.edgeProp m pn ed g.Ac Lam.B with"))
mu('Fmt.calcKG', 'the matrix has a row more', 'shape of calc_kG', 'C150 C160', (X, "FMat.zeros (d.length / 5 * 5)", "FMat.zeros (d.length / 5 * 5 + 1)"))
mu('callNew', 'the closing parenthesis is not removed from the exponent', 'pow(x, n) is expanded', 'C60 C162', ('Model/SymPy.lean', 'pyInt ((strip exp).dropLast)', 'pyInt (strip exp)'))
mu('callNew', 'the argument is not put in parentheses', 'pow(x, n) is expanded', 'C60 C162', ('Model/SymPy.lean', 'product ("(".toList ++ ((strip var).drop 1).filter (· != \' \') ++ ")".toList) n', 'product (((strip var).drop 1).filter (· != \' \')) n'))
mu('product', 'a negative exponent counts as a positive one', 'negative exponents of pow', 'C162', ('Model/SymPy.lean', 'List.replicate n.toNat var', 'List.replicate n.natAbs var'))
mu('pyDigits', 'underscores are not accepted', 'texts that int accepts', 'C162', ('Model/SymPy.lean', "  | a, '_' :: c :: t => if isDigit c then pyDigits (10 * a + (c.toNat - 48)) t else none\n", ''))
mu('Fmt.edgeBMaxl', 'test inverted', 'results near the exact ones, edge-based', 'C150', (X, 'noncomputable def edgeBMaxl (g : Geo) (fromArea : Bool) : Except Err Flo :=\n  if fromArea then', 'noncomputable def edgeBMaxl (g : Geo) (fromArea : Bool) : Except Err Flo :=\n  if !fromArea then'))
mu('Fmt.edgeIModuli', 'max in place of min for E45', 'results near the exact ones, edge-based', 'C150', (X, 'f.mul (Flo.min2 sp.k13 sp.k23) (sp.E 0 1)', 'f.mul (Flo.max2 sp.k13 sp.k23) (sp.E 0 1)'))
mu('Fmt.edgeBEnv', 'coupling modulus not zero', 'results near the exact ones, edge-based', 'C150', (X, 'Ac := g.Ac, E44 := (f.moduli alpha maxl sp).1, E45 := .fin 0, E55', 'Ac := g.Ac, E44 := (f.moduli alpha maxl sp).1, E45 := (f.moduli alpha maxl sp).1, E55'))
mu('Fmt.edgeIEnv', 'the z coordinate is taken for the y coordinate of the second corner', 'results near the exact ones, edge-based', 'C150', (X, 'c2 := f.sub p2.x p1.x, d2 := f.sub p2.y p1.y }', 'c2 := f.sub p2.x p1.x, d2 := f.sub p2.z p1.y }'))
mu('Fmt.edgeOrient', 'never exchanged', 'results near the exact ones, edge-based', 'C150', (X, '(f.vsub (f.mid m t1) (xyz m ed.n1))) zGlobal.flo).lt (.fin 0)\n  then (ed.n2, ed.n1) else (ed.n1, ed.n2)', '(f.vsub (f.mid m t1) (xyz m ed.n1))) zGlobal.flo).lt (.fin 0)\n  then (ed.n1, ed.n2) else (ed.n1, ed.n2)'))
mu('Fmt.mixA', 'not divided by the area', 'results near the exact ones', 'C150 C153 C158', (X, 'f.div (f.add (f.mul a (.fin (P i j))) (f.mul b (.fin (Q i j)))) c', 'f.add (f.mul a (.fin (P i j))) (f.mul b (.fin (Q i j)))'))
mu('Fmt.edgeProp', 'equal weights for boundary edges', 'results near the exact ones', 'C150 C153 C158', (X, 'f.mix3 (f.rnd (4/9)) (f.rnd (4/9)) (f.rnd (1/9)) (sel pn1)', 'f.mix3 (f.rnd (1/3)) (f.rnd (1/3)) (f.rnd (1/3)) (sel pn1)'))
mu('Fmt.dcAt', 'the fourth node with the weight of the third', 'results near the exact ones', 'C150 C160', (X, '(f.mul (wAt w 3) (.fin (d4.getD r 0)))', '(f.mul (wAt w 2) (.fin (d4.getD r 0)))'))
mu('Fmt.iptsB', 'normal pointing inwards', 'results near the exact ones', 'C150 C153 C160', (X, 'let v := f.vsub (xyz m node2) (xyz m node1)\n  [f.mkIPt', 'let v := f.vsub (xyz m node1) (xyz m node2)\n  [f.mkIPt'))
mu('Fmt.iptsI', 'weights exchanged on the second triangle', 'results near the exact ones', 'C150 C153 C160', (X, '[f.mkIPt m t2 node1 node2 o2 (f.rnd (1/6)) (f.rnd (2/3)) (f.rnd (1/6)) (f.segNormal v3)', '[f.mkIPt m t2 node1 node2 o2 (f.rnd (2/3)) (f.rnd (1/6)) (f.rnd (1/6)) (f.segNormal v3)'))
mu('Fmt.segNormal', 'not of unit length', 'results near the exact ones', 'C150 C153 C160', (X, 'f.unit (f.vcross t zGlobal.flo)', 'f.vcross t zGlobal.flo'))
mu('Flo.max2', 'the smaller one', 'results near the exact ones; longest side', 'C150 C156 C157', (X, 'def max2 (a b : Flo) : Flo := if a.lt b then b else a', 'def max2 (a b : Flo) : Flo := if a.lt b then a else b'))
mu('Fmt.cellShear', 'the second corner counts twice', 'results near the exact ones', 'C150 C156 C157', (X, 'f.shear3 (f.rnd (1/3)) (f.rnd (1/3)) (f.rnd (1/3)) p q r', 'f.shear3 (f.rnd (1/3)) (f.rnd (1/3)) (f.rnd (1/3)) p q q'))
mu('Rounding.edgeIEnv', 'the area of the first sub-triangle is used twice', 'exact arithmetic gives the exact program', 'C105', (R, 'let Ac2 := R.polyArea [p1, mid2, p2]', 'let Ac2 := R.polyArea [mid1, p1, p2]'))
mu('Rounding.iptsB', 'normal pointing inwards', 'exact arithmetic gives the exact program', 'C105 C106 C107', (R, 'let v := R.vsub (m.node node2).xyz (m.node node1).xyz\n', 'let v := R.vsub (m.node node1).xyz (m.node node2).xyz\n'))
mu('Rounding.dcAt', 'the fourth node with the weight of the third', 'exact arithmetic gives the exact program', 'C105 C107', (R, '(R.mul (wAt f 3) (d4.getD r 0))', '(R.mul (wAt f 2) (d4.getD r 0))'))
mu('matchPowCall', 'an empty exponent is accepted', 'calls that are expanded', 'none', ('Model/SymPy.lean', "      if e = [] then none else\n", ''))
mu('printSparse', 'the number in the second line counts every entry that is not zero', 'text of the listing', 'C63', (F, 'num (m.enum.filter (sparseCounts m isSymmetric dof)).length', 'num (m.enum.filter fun ij => (m.entry ij.1 ij.2).isSome).length'))
mu('mprintArray', 'the number in the second line counts the zeros too', 'text of the listing', 'C72', (Y, 'num ((m.ravel false).filter Option.isSome).length', 'num (m.ravel false).length'))
mu('mprintDense', 'the substitutions are not commented out', 'text of the listing', 'C100', (Y, '(withSubs subs ["# subs".toList] [] "# ".toList ls)', '(withSubs subs ["# subs".toList] [] [] ls)'))
mu('sparseLines', 'the number in the second line counts lines', 'text of the listing', 'C63 C99', (Y, 'num (body.length / 4)', 'num body.length'))
mu('arrValue', 'an exception of the substitution is swallowed', 'powers of the array listing', 'C72', (Y, '  match pairs arrNew (findAll matchArr v) with\n  | .error e => .error e', '  match pairs arrNew (findAll matchArr v) with\n  | .error _ => .ok v'))
mu('mprintArray', 'rows and columns exchanged', 'order of the entries', 'C72', (Y, 'match printLoop (arrayStep mname op powByMul) ((List.range (m.ravel fortran).length).zip (m.ravel fortran)) with', 'match printLoop (arrayStep mname op powByMul) ((List.range (m.ravel (!fortran)).length).zip (m.ravel (!fortran))) with'))
mu('matchArr', 'the exponent may be a name', 'powers of the array listing; the printer never raises', 'C72', (Y, "  | '*' :: '*' :: r =>\n    let d := r.takeWhile isDigit\n    if d = [] then none else some (w.length + 2 + d.length)", "  | '*' :: '*' :: r =>\n    let d := r.takeWhile isWord\n    if d = [] then none else some (w.length + 2 + d.length)"))
mu('matchWord', 'the exponent may be empty', 'pow2mul returns', 'C61', (Y, "    if d = [] then none else some (w.length + 2 + (r.takeWhile isSpace).length + d.length)", "    some (w.length + 2 + (r.takeWhile isSpace).length + d.length)"))
mu('matchGroup', 'the exponent may be negative or empty', 'pow2mul returns', 'C61', (Y, "      if d = [] then none else some (c.length + 4 + d.length)", "      some (c.length + 4 + d.length)"))
json.dump(M, open('/verif/seeded/mutants.json', 'w'), indent=1, ensure_ascii=False)
print(len(M))
