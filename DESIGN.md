# Formal model of saullocastro/meshless in Lean 4

## What is modelled

The package `meshless/` (not `scratch/`, `theory/`, `notebooks/`, `doc/`, `setup.py`):

| Python file | model | remarks |
|---|---|---|
| `utils.py` | `Model/Utils.lean` | both functions |
| `interpolate.py` | `Model/Interp.lean` | both functions, loops as written (with the `z` loop over `y_nodes`) |
| `logger.py` | `Model/Logger.lean` | returned text and printed lines |
| `espim/classes.py` | `Model/Mesh.lean` | `IntegrationPoint`, `Edge`, `Mesh` |
| `espim/read_mesh.py` | `Model/Mesh.lean` | `read_mesh` from pyNastran's parse result; `read_delaunay` on lists of 2- and 3-component points |
| `espim/plate2d_calc_k0.py` | `Model/K0.lean`, `Model/Gen/K0.lean` | whole function: geometry pass, numbering, assembly, exceptions |
| `espim/plate2d_calc_kG.py` | `Model/KG.lean`, `Model/Gen/KG.lean` | whole function |
| `espim/plate2d_add_k0s*.py` | `Model/K0s.lean`, `Model/Gen/{CellS,CellNS,EdgeB,EdgeI}.lean` | dispatcher and the three implementations |
| `dev/sympytools.py` | `Model/SymPy.lean`, `Model/SymPyFull.lean` | `pow2mul`, `mprint_as_sparse`, `mprint_as_dense`, `mprint_as_array` with all parameters; what `collect` and `sympy.cse` return is data; not non-ASCII text, Python's limit on digits in `int`, failures of the file system |

Not modelled: `meshless/__init__.py`, `espim/__init__.py`, `constants.py` beyond `ZGLOBAL`, the tests, the `silent` progress output of the
analysis functions, the solvers of `structsolve` (statements on solutions and buckling factors are on the matrices handed to them).

Layout of `/verif/lean/Verif`:

* `Model/*`  definitions only, one per Python function or loop, each citing file and lines.
* `Model/Gen/*` the pasted matrix-entry formulas (256 + 16 + 81 + 81 + 81 + 144 lines), transcribed by `/verif/tools/gen.py`, which parses the
  Python text with `ast` and prints it as Lean, one list item per source line.
* `Spec/*`   small independent specifications (what a user would write down): they use the data fields of `Mesh`, none of the functions
  that model the code.
* `Lemmas/*` helper lemmas; `Lemmas/Gen*` (from `tools/genlem.py`) say that a pasted block of formulas is an outer product.
* `Props/*`  the property theorems `Cxx_...`, each with a concrete instance meeting its hypotheses (in its own file, or in `Props/Cases.lean`).

### Modelling decisions

* Numbers: the properties C01-C104 are on exact real arithmetic (`ℝ`; the pasted formulas over any type with `+ - * /` and literals) in place
  of `float64`. Decimal literals such as `0.166666666666667` are kept as the exact decimal, not as 1/6. Where numpy would produce NaN/Inf
  (division by zero) Lean's `x/0 = 0` would be wrong, so theorems about values carry the non-degeneracy hypothesis that excludes it
  (`Planar`: non-zero areas of all triangles and smoothing domains; distinct interpolation nodes; `h ≠ 0`). Theorems on the outcome (which
  exception, which entries are touched, dependence on the arguments) hold with or without it because division never raises for numpy scalars.
* Rounding (C105 on): `Model/Float.lean` has rounding rules `R` (a function `fl` with relative error at most the unit roundoff `R.u`,
  idempotent, exact on 1 and on negatives of representable numbers) and shows that rounding to nearest with 53 bits is one. `Model/FloatRun.lean` (and `Model/FloatInterp.lean` for `interpolate_lagrange_3D`)
  and `Model/FloatSession.lean` repeat `calc_k0`, `calc_kG`, `add_k0s`, the 2-D interpolation, `area_of_polygon` and scripts with every
  operation rounded, the pasted formulas being the same generated definitions at the type of rounded numbers; for the rule without
  rounding they are equal to the exact model (`Lemmas/FloatExact.lean`). In these files the exponent is unbounded: no overflow, underflow or NaN. Not modelled: other
  summation orders than left to right (`np.dot` of short vectors, `np.sum`), fused operations, errors inside pyNastran's coordinate systems, and
  `x**0.5`, `np.linalg.norm` are taken as correctly rounded square roots of rounded sums. The bounds of C106-C110, C113 and C114 have the form
  "at most `C` times the roundoff for roundoff at most `u0`", with `C` and `u0` depending on mesh, properties and loads and not computed; they say that the
  code has no instability of its own, not that `2^-53` is small enough for a given ill-shaped mesh. For `calc_k0` C153 and for `add_k0s` C156 and C157 (cell-based methods) give numbers.
* Special values (C150 on): `Model/Ieee.lean` repeats the numerical functions once more over finite numbers, infinities and NaN, in a format with unit
  roundoff `u`, underflow error `eta` and largest finite number `big`; `Fmt.binary64` is such a format. Simplified there: zeros carry no sign
  (a zero divisor counts as +0), inputs are finite, and the geometry pass takes incidence, numbering and its exceptions from the exact
  model, since none of them depends on a number; the exceptions of the assembly loops are those of the loops in the format itself (C151).
* Objects: the heap is explicit. `Mesh` holds the insertion-ordered key lists of `mesh.nodes`, `mesh.elements`, `mesh.edges` and total
  stores from id to attribute record; references between objects are ids. Attribute assignment is functional update. `None`/unset is
  `Option`.
* Exceptions are values (`Err`); a function that mutates before raising returns the mutated state together with the error.
* numpy arrays: `Mat` = dimension + entry function; `k0[i, j] += v` is `Mat.addAt` with Python's negative-index rule and IndexError.
  The vector `d` of `calc_kG` is a list; slices past its end are shorter lists, as in numpy, and the resulting shape errors are modelled.
* Sets that are only used as sets are `Finset`; `sorted(list(set))` is dedup + sort; dicts are association lists in insertion order (later
  duplicates of a key in `dict([...])` win).
* Histories: `Model/Session.lean` has the statements a script can make between reading a mesh and looking at results (assign properties,
  move nodes, call the analysis functions with any arguments). `Reachable` meshes are those got from a reader by any list of them.
* External code (trusted, from its documented behaviour): pyNastran `read_bdf` (its parse result is a parameter), `GRID`,
  `CTRIA3.get_edge_ids` (three sorted pairs), `.node_ids`, `.get_node_positions` (positions in the basic system, field `pos`), `.get_area`
  (half the norm of the cross product), numpy elementwise arithmetic, `composites` laminates (records with `A B D E h scf_k13 scf_k23`),
  sympy (matrix entries are records with their printed text), `re` (the three concrete patterns are written out as matchers, ASCII `\w`).

### Vocabulary of the statements

| notion | where | meaning |
|---|---|---|
| `Reachable m` | `Lemmas/Static.lean` | a reader's mesh after any list of user statements |
| `Proper m` | `Spec/Plate.lean` | three different corners per triangle, at most two triangles per edge, no two triangles with the same corners |
| `Planar m` | `Spec/Plate.lean` | flat mesh in the basic system, no triangle or half of a domain of zero area, the two triangles of an edge on different sides |
| `HasProps m pn`, `Homog m pn l` | `Spec/Plate.lean`, `Props` | properties set where the flag reads them; the same laminate `l` everywhere |
| `dom`, `sarea`, `gradX`, `gradY`, `eps`, `avg`, `energy` | `Spec/Plate.lean` | an edge's smoothing domain as a polygon, smoothed gradients as boundary integrals over the signed area, strains, averaged laminate matrices, strain energy |
| `membrane`, `geometric` | `Spec/Geometric.lean` | membrane forces of a state, their work on slopes |
| `cellStrain`, `wholeGamma`, `shearEnergy` | `Spec/Shear.lean` | discrete shear gap strains of the two cell methods and their energy |
| `Spec/ShearEdge.lean` | | the same for the edge-based method, with the deviations of the printed formulas listed apart |
| `SamePlate` and friends | `Spec/Iso.lean` | the same plate with other numbers, orders, origin, unit of length |
| `Orthogonal`, `TurnedGeom`, `TurnedPlate`, `TurnedDisp`, `TurnedLam`, `Isotropic`, `Orthotropic` | `Spec/Turn.lean` | the plate, nodal vectors and laminates in turned or mirrored axes |
| `Triangulation`, `InputTriangulation`, `InputOnePiece` | `Spec/Triang.lean` | triangles as point sets with disjoint interiors, for a mesh and for the input of `read_delaunay` |
| `TurnedModel`, `TurnedSupport` | `Spec/TurnSolve.lean` | turned plate with its transverse shear data, supports admitting the turned displacements |
| `LamLe`, `Stiffened` | `Spec/Compare.lean` | laminates at least as stiff, the same mesh with such laminates |
| `Rounding`, `SameResult`, `Assembled`, `FlAssembled`, `SolvedUpTo`, `ThickFor` | `Model/Float.lean`, `Spec/FloatRun.lean` | rounding rules, calls ending alike, assembled matrices, computed solutions of small residual |
| `ModeList`, `ModeUpTo`, `Analysis`, `FlAnalysis` | `Spec/Modal.lean` | complete lists of buckling modes, computed factors and modes, the matrices of a buckling analysis, exact and in floating point |
| `AfterK0`, `Numbered`, `Prepared` | `Lemmas` | meshes a user holds after a successful `calc_k0` |
| `OnePiece`, `StiffABD`, `StiffShear`, `GoodPlate` | `Spec/Modes.lean` | connected mesh, positive definite laminates |
| `Held`, `Fixed`, `Stable` | `Spec/Modes.lean`, `Spec/Buckling.lean` | supports: two typical cases, exclusion of rigid motions, positive definiteness |
| `StaticSol`, `BucklingMode`, `Tension` | `Spec/Buckling.lean` | solution of the supported static problem, buckling modes, no compression |
| `SmoothField`, `SmoothLam`, `Nodal`, `Size`, `Shape`, `Tiles`, `Refined` | `Spec/Consist.lean` | smooth fields and laminates on the triangles or the plate, their nodal values, longest side, shape of triangles, meshes of one plate |
| `UnitPlate`, `inLength`, `inLoad` | `Spec/Units.lean` | the plate, displacements and loads in other units |
| `ThinPlate`, `thinned`, `thinLoad` | `Spec/Thin.lean` | the plate with plies thinner by a factor, the displacements and loads of thin plate theory |
| `ShearHeld` | `Spec/Locking.lean` | supports under which only the zero displacement has no discrete shear strains |
| `moves`, `staleAvg`, `staleGeometric` | `Spec/Stale.lean` | assignments of node positions; geometric energy with stored geometry and laminates weighted by moved areas |
| `AtLeast`, `AtMost`, `strainSize` | `Spec/Stable.lean` | bounds of the laminate matrix; sum over the triangles of area times squared strains of the linear interpolation |
| `lin`, `linShear`, `virtualWork`, `Balanced`, `StaticProblem`, `rotSize`, `RotHeld`, `Clamped`, `dispSize`, `strainErr`, `SmoothPlate`, `ShearAtLeast`, `Within`, `litErr` | `Spec/Converge.lean`, `Props/Converge.lean` | linear interpolation of nodal values in a triangle and its shear strains; virtual work of the forces of a field on it; loads that do this work on all admissible displacements; the static problem of C132; squared sizes and errors, integrated over the plate; supports at the whole boundary; bounds for a smooth plate; error of the literal 0.166666666666667 |
| `resultant`, `shearForce`, `forceX`, `forceY`, `couple`, `Equilibrium`, `sidePt`, `sideLen`, `planeWork`, `edgeWork`, `unitAt`, `Consistent`, `OutNormal`, `Traction` | `Spec/Equilibrium.lean` | membrane forces, moments and transverse shear forces of a field; the five equilibrium equations with loads per area; work of area loads and edge loads on linearly interpolated displacements; consistent nodal loads; outward unit normals and the boundary conditions for forces |
| `Pure`, `Pure.val`, `Pure.dx`, `Pure.dy`, `Pure.Flat` | `Spec/Pure.lean` | states of constant membrane strains and curvatures without transverse shear: `u`, `v` linear, rotations linear, `w` quadratic; states without rotations |
| `LoadCase`, `Withstands` | `Spec/Interaction.lean` | loads, static solution and `calc_kG` of one load case; loads under which stiffness plus geometric stiffness is positive definite |
| `SamePart`, `Separate`, `Unused`, `GoodParts`, `RigidPart`, `HeldPart`, `onlyAt` | `Spec/Parts.lean` | edge-connected parts of a mesh, sets of nodes without triangle across the border, rigid motions and supports of one part |
| `LamTends`, `PropTends`, `PlateTends`, `FirstFactor` | `Spec/Nearby.lean` | families of plates on the same triangles whose data tend to those of a given plate; the first positive buckling factor |
| `triHas`, `sideHas`, `cutOff` | `Spec/Missing.lean` | the properties needed for a triangle, for the triangles at an edge; the mesh cut off before the first missing one |
| `Blend`, `PropBlend`, `SameMesh`, `Between` | `Spec/Blend.lean` | laminates on the line between two laminates |
| `FactorsBelow` | `Spec/Factors.lean` | number of buckling factors below a load level |
| `FixedOn`, `IsRim`, `OneFree`, `HeldAlongX`, `HeldAlongY`, `RotGuided`, `Guided` | `Spec/Guided.lean` | directions fixed at both ends of a boundary edge; supports that leave one of a pair of directions free and hold every direction along lines in x or y: clamped sides, hinged sides along the axes, lines of symmetry |
| `EvenSized`, `sqLen`, `freeSq`, `CondAtMost` | `Spec/Condition.lean` | triangles of even size; squared lengths; condition number of the supported matrix |
| `SamePlaces`, `InBasic` | `Spec/Place.lean` | two decks of one plate with nodes at the same places; coordinates written in the basic system |
| `slopeSize`, `CompressionAtMost` | `Spec/Slope.lean` | squared slopes of the interpolated deflection, bound for the compressive membrane forces |
| `preX`, `preY`, `preWork`, `BucklingField`, `FreeRim`, `WeakMode` | `Spec/PlateMode.lean` | transverse components of the membrane forces on the deflected plate, buckling equations of the plate theory, free edges, virtual work at the buckling load |
| `CloseTo`, `FmtAssembled` (`Spec/Ieee.lean`) | a computed matrix with finite entries only, near an exact one; `calc_k0` followed by `add_k0s` in a format |
| `Double`, `Medium`, `Fits`, `LamsUpTo`, `behind`, `contributions`, `K0Within` (`Spec/Bound.lean`) | formats as good as float64; sizes between 2^-100 and 2^100; shape and position of the triangles at each edge; sizes of the laminates; what `calc_k0` gives within an explicit distance of the exact matrix |
| `k0Err`, `HasEntries` (`Spec/Bound.lean`) | the bound of C153 from the positions in the matrix; the finite numbers in a computed matrix |
| `AllFinite`, `numbers`, `FmtAnalysis` (`Spec/FmtModal.lean`) | matrices without infinities and NaN, their numbers; an analysis whose matrices are computed in a format with special values |
| `Lam.ShearUpTo`, `ShearsUpTo`, `SizedAt`, `Sized`, `Wide`, `shearUnit`, `shearCount` (`Spec/ShearBound.lean`) | bounds on the laminates and the shape of the triangles, the size of the shear increments, the number of triangles at two nodes |
| `MatWithin`, `ShearWithin`, `StiffWithin` (`Spec/ShearBound.lean`) | bounds on the entries of an exact and a computed matrix; the statements of C156 and C157 for `add_k0s` and for the complete stiffness matrix |
| `FitsIn` (`Spec/ShearBound.lean`) | `Sized` with a bound on the coordinates (C157) |
| `stiffErr`, `Valence`, `rimCount`, `rowErr`, `len`, `StiffAtLeast` (`Spec/StiffBound.lean`) | the distance allowed for an entry of the complete matrix, the number of triangles at a node and of edges on the rim, a bound on the errors of a row, lengths of vectors, and a lower bound on the energy of supported displacements (C158, C159) |
| `Loaded`, `contributionsKG`, `kGErr`, `KGWithin`, `KGNear` (`Spec/BoundKG.lean`) | displacements of a size that makes membrane forces of the order of `n`, the number of edges behind an entry of kG, the distance allowed for it, and the two forms of the bound (C160) |
| `kGRowErr`, `ModeResidual` (`Spec/BuckleDouble.lean`) | the bound on the errors in a row of kG, and a buckling factor and mode, possibly complex, up to a residual (C161) |
| `EvenPlate`, `StiffnessKept`, `StaticKept`, `FactorsKept` (`Props/BuckleWhole.lean`) | a plate with triangles of one size and data of bounded size, and what is kept of its stiffness matrix, static solution and buckling factors (C158, C159, C161) |
| `rigidStrain` (`Props/RigidEdge.lean`) | strain of a rigid rotation on an edge, from the coordinates (C71) |
| `Digits`, `IntText`, `IsCall`, `callText` (`Spec/SymPyInt.lean`) | texts of whole numbers as a grammar, and calls of `pow` (C162) |
| Spec/FloatUnits.lean | exact factors of a rounding rule, mesh/matrix/displacement vector in other units |
| pieces, grammar | `Spec/SymPy*.lean` | texts cut at powers; value of an arithmetic expression |

## Plan per property

| id | model | proof |
|----|-------|-------|
| C01-C04 | `readDelaunay` on lists of points/triples | induction over the triangle list; invariants of the insertion-ordered dict |
| C05 | same | induction over the list, by definition of the loops |
| C06 | same | induction: every triangle adds three to the total |
| C07 | `readMesh` | case split; refinement to the shared builder |
| C08-C11 | `calcK0` with exceptions | loop invariants; success by lookups proved total on reader output |
| C12 | numbering loop | induction |
| C13-C17 | `edgeGeom` | real algebra, sign case split |
| C18 | generated entries + assembly | entry list = spec outer product (`ring` per entry); sum over sorted positions = sum over nodes |
| C19-C27 | corollaries of C18 | algebra on the spec |
| C27, C28 | `Session` op histories | induction over op lists |
| C29-C34, C68 | `calcKG` | as C18 |
| C35-C45, C70 | `addK0s*` | entry list = spec outer product; algebra |
| C46-C48, C69, C71 | edge-based | false or only approximately true of the code (see Findings): negation proved by witness + exact partial theorem |
| C49 | `Session` | invariant "derived data present" |
| C50-C56 | `interp2`, `interp3` | Lagrange basis lemmas, Mathlib `Lagrange`/`Polynomial` uniqueness |
| C57-C58 | `areaOfPolygon`, `unitvec` | cyclic sums over `Fin n` |
| C59-C61, C64 | `pow2mul` on `List Char` | regex matchers written out; induction on pieces; values by a grammar |
| C62-C63, C72 | printers | induction over entries |
| C65 | logger | by cases |
| C66, C67 | `calcK0` on two meshes | relation between meshes kept by every loop; the form of C18 on both sides |
| C73, C74, C77 | C18, C38, C39 | zero energy makes all strains vanish; rigid fields agree across common edges; walk over the connected mesh; boundary edges end the twist |
| C75, C76 | same | rigid motions excluded by supports; finite-dimensional linear algebra |
| C78-C80 | same | symmetric forms, rigid test displacements, minimum of the potential energy |
| C81, C82 | C18 | divergence theorem on the mesh: smoothed gradients of a function vanishing on the boundary sum to zero |
| C83-C86 | C29, C31, C75 | symmetric pencil; maximum of the Rayleigh quotient on the compact unit sphere |
| C87-C89 | C18, C29, C38, C67 | the turned mesh is compared with the mesh `glued` from the old connectivity and the new coordinates, where only coordinates change; renumbering is then C67's relation `SamePlate` |
| C90, C91 | readers, `Session`, C11, C49, C76 | two triangles on the same side of a common edge have a common point near its middle, so non-overlapping triangles are `Proper` and `Planar` |
| C92-C94 | C87-C89 | weak form: a static or buckling problem is an identity for all supported test displacements, which the change of axes maps one to one |
| C95-C98 | C76, C83-C86 | forms of the pencil restricted to supported displacements; minimum principles; averages of larger laminates are larger |
| C99-C104 | `SymPyFull` | induction over entries; groups of nine |
| C105-C110 | `Float` layer | outcomes: errors and control flow do not read rounded numbers; accuracy: every rounded expression is within a constant times the roundoff of the exact one (`Acc`), uniformly in the rounding |
| C111-C114 | C83-C86, C109 | simultaneous diagonalisation of the two forms on supported displacements; perturbation of eigenvalues |
| C115, C116 | C29, C36 | slices and bounds tests of numpy; every entry of the five degrees of freedom of every corner is touched |
| C117, C118 | C18, C83-C86, C95 | the smoothed strain is the area weighted mean of the strains of the two triangles; identity for the mean of a quadratic form |
| C119-C121 | C18, C29, C38, C39 | Taylor expansion on each triangle: smoothed strains, shear gaps and slopes differ from the derivatives by multiples of the longest side; integrals by the mean value; volume of a triangle as convex hull |
| C122 | C119-C121 | triangles that cover the plate and add up to its area overlap in a null set; sums of integrals over triangles are the integral over the plate; grids of the unit square as example |
| C123, C124 | C122, C78, C86 | minimum of the potential and of the Rayleigh quotient compared with nodal values of a smooth field |
| C125, C126 | C18, C29, C38, C39 | the plate in new units is the plate scaled (geometry) with other laminates; every product of strain, laminate entry and area is homogeneous |
| C127 | C18, C38, C39, C97 | exact scaling of the membrane and bending energy by t^3; the shear factor h^2/(h^2+alpha*l^2) scales like t^2 up to 1+c; comparison of minima |
| C128 | C18, C38, C39 | with alpha = 0 the shear factor is 1, so both parts scale exactly; the shear part is positive definite on the supported displacements, hence bounds the energy below |
| C129 | C127, C29, C86 | membrane forces scale by t^2; Rayleigh quotients compared |
| C130 | `run` of assignments, C29, C68 | congruence of the loops in the data they read; per edge the averaged laminate with moved areas over stored ones |
| C131 | C18, C117, `Side` | the strain along an edge is the same in both its triangles and in the smoothed strain; three such strains determine the strain of a triangle |
| C132 | C94 stability, C119, C120, C122, C131 | test the equilibrium with the error itself: consistency holds with one smooth and one arbitrary nodal function (`energy_test`, `shear_test`); C131 bounds the strains by the energy; Korn's and Poincaré's inequalities for linear interpolations on a clamped boundary, by cancelling fluxes through the sides; existence of balanced loads by linearity |
| C133 | C09, C10, C49, C116 | compare with the mesh whose missing properties are filled in: where the properties are present the increments are the same, elsewhere the body raises; loop with a first failing element |
| C134 | C29, C121, C124, C131, C132 | kG is linear in the displacements of the pre-stress; the difference of the membrane forces is bounded in the mean by the energy of the error (Cauchy-Schwarz over the smoothing domains), which C132 bounds by the square of the size; then as C124 |
| C135 | C132 | divergence theorem on a triangle (unit triangle by Fubini and the fundamental theorem, then the affine map), summed over the mesh: the flows through interior edges cancel because the two triangles lie on opposite sides (Planar), the boundary edges leave the edge loads; the consistent loads are linear in the test displacement |
| C136 | C75, C135 | the state is in equilibrium without area loads; smoothed strains of linear fields are exact (C82), the discrete shear strains of the quadratic `w` with linear rotations vanish up to the literal; virtual work of the state equals that of the consistent edge loads (C135), the difference to the solution carries no energy |
| C137 | C31, C86, C98 | `calc_kG` is linear in the loads through the static solution; positive definite matrices are convex; a bound on the reciprocals of the positive factors is the bound `-G <= r K` |
| C138 | C38, C39, C74 | strains of a triangle depend only on its corners and its neighbours across edges, whose corners lie in the same separate set; the argument of C74 for one edge-connected part at a time |
| C139 | C18, C38, C39, C29, C86 | the energies as continuous functions of the data on the edges of the limit mesh (`glued`); positive definite matrices are open, solutions of coercive systems continuous; the limit of stability is enclosed from both sides |
| C140 | C18, C38, C39, C78, C139 | averages are linear in the laminate, so the energies are; compliance as a maximum of linear functions; difference quotients solve static problems, hence converge |
| C141 | C111, C112, C97, C117, C139 | counting below a level is the index of `K + t G`: spaces of negative energy meet few linear conditions; matrices made definite by weights on the modes stay so under small changes |
| C142 | C50, C57, C58, C105 | per-loop accumulation lemma: every term keeps a product of rounding factors |
| C143 | C132, C134, C135 | Korn: on an edge where the pairs of rotations at the ends are parallel the null Lagrangian has no flux; Poincaré along x or y with weight x - x0; then the argument of C132. Example: Navier's solution of the hinged square |
| C144 | C143, C122, C131 | above: Jensen for smoothed strains, inverse inequality, number of triangles at a node from their areas; below: C143; error from Cauchy–Schwarz; sharp: nodal values of a smooth field against a unit displacement |
| C145 | C67, C88 | false for other systems: counterexample with one triangle in a system with another origin (a rigid turn takes energy); holds for decks in the basic system through C67 and C88 |
| C146 | C29, C124, C143 | slopes from shear strains and rotations at the centroid, rotations and strains from the energy as in C143; Jensen for smoothed slopes; C124 for the upper bound |
| C147 | C132, C146, C124, C111 | the mode as a static problem with transverse load (C132), consistency of the geometric stiffness against test displacements with the slope bound of C146, expansion of the residual in the complete set of computed modes |
| C148 | C147, C111 | components of the residual in the complete set of computed modes; fewer than k nearby modes would leave a combination of the k fields orthogonal to them, with energy below the residual; least value of the Gram matrix by compactness |
| C149 | C99, C109 | every expression of the generated entries carries a unit (power of length, of force, sign), checked once for the whole list of entries; rounding commutes with the unit of every intermediate result, branches test signs only |
| C150 | C106-C108 | operations on finite numbers, infinities and NaN; "tends to the exact value along formats whose error tends to 0 and whose largest number tends to infinity" is kept by every operation with non-zero divisor; the generated entries follow by a proof-carrying evaluation (`tools/genieee.py`) |
| C151 | C150 | the entries touched by an edge and the exceptions raised depend on incidence and properties only; induction over the edges with matrices of equal size |
| C152 | C151 | a zero, infinite or NaN divisor makes each shape-derivative product NaN whatever the other factors; NaN is kept by every later addition |
| C153 | C150 | running error analysis: every number carries bounds on its size and on its error in units of `p l^k 2^-53`, checked by rational arithmetic in the kernel; the generated entries are evaluated once over these bounds (`tools/genmag.py`), then summed over the contributions |
| C154 | C18-C21, C153 | the exact properties and the entrywise bound; Young for the quadratic form |
| C155 | C109-C114, C150 | matrices near those of the exact analysis (Lemmas/NearModal.lean), whatever arithmetic they come from |
| C156 | C150, C153 | the running error analysis of C153 for the areas, the characteristic length, the stabilised moduli and the generated entries of the method without smoothing; the comparison that orients a triangle comes out as in exact arithmetic; sums started from any matrix |
| C157 | C150, C153, C156 | as C156 with the centroid and the areas of the three sub-triangles, whose errors depend on the distance from the origin; the sign of the orientation product is out of reach of the rounding errors |
| C158 | C78, C128, C156, C157 | the bounds on the entries carry over to sums of entries times displacements |
| C159 | C143, C144, C156-C158 | the sum of the errors in a row from the number of edges and triangles at a node; the matrix of the errors moves the energy by at most this sum times the squared length |
| C160 | C105, C153, C157 | running error analysis of the prestrain, the membrane forces and the generated entries of kG (`tools/genmagkg.py`); linearity of calc_kG for displacements that are off |
| C161 | C86, C111, C158, C159, C160 | row sums of the errors of kG; Bauer-Fike type bound from the modes of the exact symmetric pencil, Bessel's inequality, the limit of stability from C86 |
| C162 | C59, C60 | grammar of the texts that `int` accepts, proved equivalent to the scanner of the model; the two passes of pow2mul on a text with one call |

## Findings

Properties a user would expect that are false of the code (the statement is kept, its negation is proved by a witness and the exact truth is a
`_partial` theorem):

* C43: `cell-based-no-smoothing` depends on which corner of a triangle is listed first (the shear gap is measured from it).
* C46, C69, C71: `edge-based`, `interior_edge` reads the `z` coordinate of `n1` into `y1`, so the increment changes when the plate is moved
  in `y`, and rigid rotations are strained (how much: `C71_general_partial`).
* C47: boundary and interior edges of `edge-based` use different shear moduli (`k13`/`k23` exchanged, coupling kept or dropped).
* C48: the `edge-based` increment is not exactly symmetric, from rounded pasted coefficients; the difference is bounded (`C48_bound_partial`).
* C54: `interpolate_lagrange_3D` takes the `z` factors over the number of `y_nodes`.
* C56: with a single control node in each direction the result is a scalar, not an array.
* C61: `pow2mul` turns `sin(x)**2` into `sin((x)*(x))` and raises on `(a + b**2)**3`. Also seen: `1.5**2` becomes `1.(5*5)`, `x**0` becomes
  `()`, chained powers are misread.
* C63: `mprint_as_sparse` with `dofpernode` and `is_symmetric` compares local, not global, row and column numbers.
* C64: `mprint_as_array` replaces `b**2` also inside `ab**2`.
* C103: `mprint_as_array(use_cse=True)` overwrites the caller's matrix with the reduced one.
* C145: nodes with `cp` other than 0: `getMid` uses positions in the basic system, all other code the coordinates as written, so the matrices are wrong (a rigid turn is resisted).
* C104: `mprint_as_array` ignores `op` when `collect_for` is given.
* C77: `cell-based-no-smoothing` can leave a twist of the whole plate without energy (also on meshes of many triangles as long as all
  interior edges are parallel to the line through the gap origins of their triangles); `C77_exact_partial` describes all modes without energy, and
  `C77_fan_false` shows the twist for every plate whose triangles measure from one node.
* `cell-based` has `0.166666666666667` for 1/6, so all its rotations carry a factor `1 + 10^-15`; the statements C38, C41, C42, C74, C79 give it.

## Trusted base

* Lean's kernel (also replayed by `vcheck`).
* Axioms: every theorem depends on a subset of `propext`, `Classical.choice`, `Quot.sound`; `AXIOMS.md` lists the set of each claimed theorem
  (made with `tools/axioms.py`). No axioms of our own, no `sorry`, no `native_decide` or `bv_decide`.
* The reading of the Python source in `Model/*`; for the pasted formulas the transcriber `tools/gen.py`.
* The external behaviours listed above.

## Tests of the theorems against wrong programs

`tools/mutants.py` lists edits of the model as a realistic bug would make them; `tools/mutate.py` applies each to a scratch copy, repairs nothing,
rebuilds and reports which claims lose their proofs; `seeded/LOG.jsonl` has one line per attempt. Where a claim expected to die survived, the line
says whether the claim is still true of the edited program or which theorem was tightened.
