{
 "C54": {
  "note": "False as stated (C54_false: the z factor loop runs over y_nodes). C54_nodal_partial gives the exact condition under which nodal values are reproduced."
 },
 "C56": {
  "note": "False as stated when all control nodes of both directions coincide, e.g. M = N = 1 (C56_false); proved otherwise."
 },
 "C43": {
  "note": "Proved for the cell-based method (C43_cell). False for cell-based-no-smoothing (C43_false): the shear gap is measured from the first corner after the orientation is fixed. C43_whole_partial: for that method the increment is unchanged when the first two corners of triangles are exchanged."
 },
 "C46": {
  "note": "False as stated (C46_false: moving a unit square of two triangles by (0,1,0) changes the increment; interior_edge reads n1's z coordinate into y1). C46_translation_partial: unchanged when the y and z components of the translation agree or no edge is interior."
 },
 "C47": {
  "note": "False as stated (C47_false: a square with one laminate for which no common moduli give the matrix; boundary edges use k23*E[0,0], k13*E[1,1] and no coupling, interior edges k13*E[0,0], k23*E[1,1] and min(k13,k23)*E[0,1]). C47_energy_partial: true for k13 = k23 and E[0,1] = 0."
 },
 "C48": {
  "note": "False as stated, by the rounding of the pasted coefficients (C48_false). C48_defect_partial gives the exact asymmetry, C48_deflections_partial exact symmetry between deflections. C48_bound_partial bounds it: every edge adds at most 8e-16*E*(D+3D^2) to the difference of mirrored entries."
 },
 "C69": {
  "note": "False as stated (C69_false: deviation of 1/12 on a unit square with value -1/6, from a z coordinate used as a y). C69_energy_partial gives the increment exactly, with the deviations spelled out; the lemmas edgeGamma_patch and edge_literals give exactness of the smoothed strain on linear fields and the sizes of the roundings."
 },
 "C71": {
  "note": "False with interior edges (C71_false: a rigid rotation with shear energy beyond 0.08). C71_boundary_partial: on meshes without interior edges the coupling is exactly a sum of terms with a factor of at most 1e-15. C71_general_partial: on all meshes the exact coupling; on interior edges the terms that are not of order 1e-15 are z_a - y_a times the rotation times the distance of the other end from the centroid."
 },
 "C60": {
  "note": "C60_words: texts without parentheses, all powers separated (Separated); C60_pieces also covers powers of innermost parentheses and calls pow(x, n). ASCII text."
 },
 "C61": {
  "note": "False as stated: 'sin(x)**2' becomes 'sin((x)*(x))' (C61_false), '(a + b**2)**3' raises ValueError (C61_raises). C61_value_partial: value kept when every power is a whole operand with a name, whole number or innermost parenthesis as base and exponent at least 1. C61_returns_partial: the texts on which it returns."
 },
 "C63": {
  "note": "True without dofpernode (C63_plain_partial). False with dofpernode (C63_false): lines 97-98 overwrite i and j by their remainders before line 100 compares them; C63_local_partial says what is printed. C63_full_partial says the same of the whole function with all its arguments."
 },
 "C64": {
  "note": "False as stated: the entry 'b**2 + ab**2' is printed as '(b*b) + a(b*b)' (C64_false). C64_array_partial: true when no power contains an earlier different one."
 },
 "C62": {
  "note": "With collect_for=None and no substitutions; an entry is given by its text."
 },
 "C72": {
  "note": "With collect_for=None and use_cse=False; an entry is given by its text. C72_always: for the text of any entry, the expansion of powers never raises."
 },
 "C74": {
  "note": "With a single triangle the twist (phix, phiy) = r*(yc - y, x - xc) about its centroid is a further zero mode, so two triangles are needed."
 },
 "C75": {
  "note": "Supports are given by the predicates Held (sufficient) and Fixed (exact) in Spec/Modes.lean."
 },
 "C77": {
  "note": "False as stated: on the unit square of two triangles, both with shear gaps measured from node 1, the twist phix=-y, phiy=x has zero energy (C77_false). C77_modes_partial: true when some interior edge is not parallel to the line through the gap origins of its two triangles. C77_exact_partial describes the zero-energy displacements of every plate exactly; C77_fan_false: every plate whose triangles all measure from the same node has the spurious twist."
 },
 "C83": {
  "note": "Supports are any set S for which K is positive definite on the displacements vanishing at S (Stable, obtained from C75); complex factors and displacements are ordinary complex numbers."
 },
 "C103": {
  "note": "False with use_cse (C103_false): lines 265-268 write the reduced matrix into the caller's matrix. C103_kept_partial: unchanged without use_cse, equal to the reduced matrix with it."
 },
 "C104": {
  "note": "False with collect_for (C104_false): the line with '+=' is fixed there. C104_op_partial: true without collect_for."
 },
 "C145": {
  "note": "False for systems other than the basic one (C145_shifted): getMid (utils.py:22-25) takes positions in the basic system, everything else n.xyz as written in the deck. C145_stiffness_partial, C145_geometric_partial: true for decks written in the basic system; for add_k0s the same follows from C89."
 },
 "C161": {
  "note": "C161_plate_8, C161_plate_64 and the _cell_ ones are the complete statements for plates with triangles of one size; C161_factor and C161_limit give them from any bounds of the kind of C158 and C160."
 },
 "C159": {
  "note": "C159_plate_8, C159_plate_64 and the _cell_ ones are the complete statements for plates with triangles of one size; the others give them from any bounds of the kind of C158."
 },
 "C158": {
  "note": "C158_plate_8, C158_plate_64 and the _cell_ ones are the complete statements for plates with triangles of one size; the others give them from any bounds of the kind of C156 and C157."
 }
}