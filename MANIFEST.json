{
 "claims": [
  {
   "property": "C01",
   "status": "proved",
   "theorems": [
    "Meshless.C01_edges"
   ],
   "note": ""
  },
  {
   "property": "C02",
   "status": "proved",
   "theorems": [
    "Meshless.C02_edge_trias"
   ],
   "note": ""
  },
  {
   "property": "C03",
   "status": "proved",
   "theorems": [
    "Meshless.C03_tria_edges"
   ],
   "note": ""
  },
  {
   "property": "C04",
   "status": "proved",
   "theorems": [
    "Meshless.C04_node_sets"
   ],
   "note": ""
  },
  {
   "property": "C05",
   "status": "proved",
   "theorems": [
    "Meshless.C05_preserved"
   ],
   "note": ""
  },
  {
   "property": "C06",
   "status": "proved",
   "theorems": [
    "Meshless.C06_sides_delaunay",
    "Meshless.C06_sides_mesh"
   ],
   "note": ""
  },
  {
   "property": "C07",
   "status": "proved",
   "theorems": [
    "Meshless.C07_only_ctria3",
    "Meshless.C07_same_mesh",
    "Meshless.C07_deck_incidence",
    "Meshless.C07_deck_outcome",
    "Meshless.C07_deck_preserved"
   ],
   "note": ""
  },
  {
   "property": "C08",
   "status": "proved",
   "theorems": [
    "Meshless.C08_accepted",
    "Meshless.C08_degenerate",
    "Meshless.C08_no_matrix"
   ],
   "note": ""
  },
  {
   "property": "C09",
   "status": "proved",
   "theorems": [
    "Meshless.C09_missing",
    "Meshless.C09_iff"
   ],
   "note": ""
  },
  {
   "property": "C10",
   "status": "proved",
   "theorems": [
    "Meshless.C10_nonmanifold"
   ],
   "note": ""
  },
  {
   "property": "C11",
   "status": "proved",
   "theorems": [
    "Meshless.C11_success"
   ],
   "note": ""
  },
  {
   "property": "C12",
   "status": "proved",
   "theorems": [
    "Meshless.C12_numbering"
   ],
   "note": ""
  },
  {
   "property": "C13",
   "status": "proved",
   "theorems": [
    "Meshless.C13_area"
   ],
   "note": ""
  },
  {
   "property": "C14",
   "status": "proved",
   "theorems": [
    "Meshless.C14_partition"
   ],
   "note": ""
  },
  {
   "property": "C15",
   "status": "proved",
   "theorems": [
    "Meshless.C15_closed"
   ],
   "note": ""
  },
  {
   "property": "C16",
   "status": "proved",
   "theorems": [
    "Meshless.C16_C17_points",
    "Meshless.C16_normals"
   ],
   "note": ""
  },
  {
   "property": "C17",
   "status": "proved",
   "theorems": [
    "Meshless.C17_midpoints"
   ],
   "note": ""
  },
  {
   "property": "C18",
   "status": "proved",
   "theorems": [
    "Meshless.C18_energy"
   ],
   "note": ""
  },
  {
   "property": "C19",
   "status": "proved",
   "theorems": [
    "Meshless.C19_symmetric"
   ],
   "note": ""
  },
  {
   "property": "C20",
   "status": "proved",
   "theorems": [
    "Meshless.C20_rigid"
   ],
   "note": ""
  },
  {
   "property": "C21",
   "status": "proved",
   "theorems": [
    "Meshless.C21_psd"
   ],
   "note": ""
  },
  {
   "property": "C22",
   "status": "proved",
   "theorems": [
    "Meshless.C22_patch",
    "Meshless.C22_homogeneous"
   ],
   "note": ""
  },
  {
   "property": "C23",
   "status": "proved",
   "theorems": [
    "Meshless.C23_transverse",
    "Meshless.C23_local"
   ],
   "note": ""
  },
  {
   "property": "C24",
   "status": "proved",
   "theorems": [
    "Meshless.C24_k0",
    "Meshless.C24_kG"
   ],
   "note": ""
  },
  {
   "property": "C25",
   "status": "proved",
   "theorems": [
    "Meshless.C25_corner_order"
   ],
   "note": ""
  },
  {
   "property": "C26",
   "status": "proved",
   "theorems": [
    "Meshless.C26_translation"
   ],
   "note": ""
  },
  {
   "property": "C27",
   "status": "proved",
   "theorems": [
    "Meshless.C27_history",
    "Meshless.C27_twice"
   ],
   "note": ""
  },
  {
   "property": "C28",
   "status": "proved",
   "theorems": [
    "Meshless.C28_connectivity"
   ],
   "note": ""
  },
  {
   "property": "C29",
   "status": "proved",
   "theorems": [
    "Meshless.C29_energy"
   ],
   "note": ""
  },
  {
   "property": "C30",
   "status": "proved",
   "theorems": [
    "Meshless.C30_symmetric"
   ],
   "note": ""
  },
  {
   "property": "C31",
   "status": "proved",
   "theorems": [
    "Meshless.C31_linear",
    "Meshless.C31_zero"
   ],
   "note": ""
  },
  {
   "property": "C32",
   "status": "proved",
   "theorems": [
    "Meshless.C32_rigid"
   ],
   "note": ""
  },
  {
   "property": "C33",
   "status": "proved",
   "theorems": [
    "Meshless.C33_translation"
   ],
   "note": ""
  },
  {
   "property": "C34",
   "status": "proved",
   "theorems": [
    "Meshless.C34_k0",
    "Meshless.C34_kG",
    "Meshless.C34_kG_local"
   ],
   "note": ""
  },
  {
   "property": "C35",
   "status": "proved",
   "theorems": [
    "Meshless.C35_unknown",
    "Meshless.C35_dispatch"
   ],
   "note": ""
  },
  {
   "property": "C36",
   "status": "proved",
   "theorems": [
    "Meshless.C36_additive",
    "Meshless.C36_twice",
    "Meshless.C36_comm"
   ],
   "note": ""
  },
  {
   "property": "C37",
   "status": "proved",
   "theorems": [
    "Meshless.C37_dofs",
    "Meshless.C37_local_cell",
    "Meshless.C37_local"
   ],
   "note": ""
  },
  {
   "property": "C38",
   "status": "proved",
   "theorems": [
    "Meshless.C38_energy",
    "Meshless.C38_symmetric",
    "Meshless.C38_psd"
   ],
   "note": ""
  },
  {
   "property": "C39",
   "status": "proved",
   "theorems": [
    "Meshless.C39_energy",
    "Meshless.C39_symmetric",
    "Meshless.C39_psd"
   ],
   "note": ""
  },
  {
   "property": "C40",
   "status": "proved",
   "theorems": [
    "Meshless.C40_translation"
   ],
   "note": ""
  },
  {
   "property": "C41",
   "status": "proved",
   "theorems": [
    "Meshless.C41_whole",
    "Meshless.C41_cell"
   ],
   "note": ""
  },
  {
   "property": "C42",
   "status": "proved",
   "theorems": [
    "Meshless.C42_energy"
   ],
   "note": ""
  },
  {
   "property": "C43",
   "status": "partial",
   "theorems": [
    "Meshless.C43_cell",
    "Meshless.C43_whole_partial",
    "Meshless.C43_false"
   ],
   "note": "Proved for the cell-based method (C43_cell). False for cell-based-no-smoothing (C43_false): the shear gap is measured from the first corner after the orientation is fixed. C43_whole_partial: for that method the increment is unchanged when the first two corners of triangles are exchanged."
  },
  {
   "property": "C44",
   "status": "proved",
   "theorems": [
    "Meshless.C44_energy",
    "Meshless.C44_edge",
    "Meshless.C44_zero",
    "Meshless.C44_strict"
   ],
   "note": ""
  },
  {
   "property": "C45",
   "status": "proved",
   "theorems": [
    "Meshless.C45_energy"
   ],
   "note": ""
  },
  {
   "property": "C46",
   "status": "partial",
   "theorems": [
    "Meshless.C46_translation_partial",
    "Meshless.C46_false"
   ],
   "note": "False as stated (C46_false: moving a unit square of two triangles by (0,1,0) changes the increment; interior_edge reads n1's z coordinate into y1). C46_translation_partial: unchanged when the y and z components of the translation agree or no edge is interior."
  },
  {
   "property": "C47",
   "status": "partial",
   "theorems": [
    "Meshless.C47_energy_partial",
    "Meshless.C47_false"
   ],
   "note": "False as stated (C47_false: a square with one laminate for which no common moduli give the matrix; boundary edges use k23*E[0,0], k13*E[1,1] and no coupling, interior edges k13*E[0,0], k23*E[1,1] and min(k13,k23)*E[0,1]). C47_energy_partial: true for k13 = k23 and E[0,1] = 0."
  },
  {
   "property": "C48",
   "status": "partial",
   "theorems": [
    "Meshless.C48_defect_partial",
    "Meshless.C48_deflections_partial",
    "Meshless.C48_false",
    "Meshless.C48_bound_partial"
   ],
   "note": "False as stated, by the rounding of the pasted coefficients (C48_false). C48_defect_partial gives the exact asymmetry, C48_deflections_partial exact symmetry between deflections. C48_bound_partial bounds it: every edge adds at most 8e-16*E*(D+3D^2) to the difference of mirrored entries."
  },
  {
   "property": "C49",
   "status": "proved",
   "theorems": [
    "Meshless.C49_kG",
    "Meshless.C49_before",
    "Meshless.C49_k0s",
    "Meshless.C49_after"
   ],
   "note": ""
  },
  {
   "property": "C50",
   "status": "proved",
   "theorems": [
    "Meshless.C50_nodal"
   ],
   "note": ""
  },
  {
   "property": "C51",
   "status": "proved",
   "theorems": [
    "Meshless.C51_polynomial",
    "Meshless.C51_constant"
   ],
   "note": ""
  },
  {
   "property": "C52",
   "status": "proved",
   "theorems": [
    "Meshless.C52_linear_2D",
    "Meshless.C52_linear_3D",
    "Meshless.C52_linear_array"
   ],
   "note": ""
  },
  {
   "property": "C53",
   "status": "proved",
   "theorems": [
    "Meshless.C53_perm"
   ],
   "note": ""
  },
  {
   "property": "C54",
   "status": "partial",
   "theorems": [
    "Meshless.C54_nodal_partial",
    "Meshless.C54_false"
   ],
   "note": "False as stated (C54_false: the z factor loop runs over y_nodes). C54_nodal_partial gives the exact condition under which nodal values are reproduced."
  },
  {
   "property": "C55",
   "status": "proved",
   "theorems": [
    "Meshless.C55_shape_2D",
    "Meshless.C55_shape_3D"
   ],
   "note": ""
  },
  {
   "property": "C56",
   "status": "partial",
   "theorems": [
    "Meshless.C56_per_point_partial",
    "Meshless.C56_false",
    "Meshless.C56_lengths"
   ],
   "note": "False as stated when all control nodes of both directions coincide, e.g. M = N = 1 (C56_false); proved otherwise."
  },
  {
   "property": "C57",
   "status": "proved",
   "theorems": [
    "Meshless.C57_area_is_shoelace",
    "Meshless.C57_area_short",
    "Meshless.C57_area_translate",
    "Meshless.C57_area_rotate",
    "Meshless.C57_area_reverse",
    "Meshless.C57_area_swap",
    "Meshless.C57_area_scale"
   ],
   "note": ""
  },
  {
   "property": "C58",
   "status": "proved",
   "theorems": [
    "Meshless.C58_unitvec"
   ],
   "note": ""
  },
  {
   "property": "C59",
   "status": "proved",
   "theorems": [
    "Meshless.C59_unchanged"
   ],
   "note": ""
  },
  {
   "property": "C60",
   "status": "proved",
   "theorems": [
    "Meshless.C60_pieces",
    "Meshless.C60_words"
   ],
   "note": "C60_words: texts without parentheses, all powers separated (Separated); C60_pieces also covers powers of innermost parentheses and calls pow(x, n). ASCII text."
  },
  {
   "property": "C61",
   "status": "partial",
   "theorems": [
    "Meshless.C61_returns_partial",
    "Meshless.C61_value_partial",
    "Meshless.C61_false",
    "Meshless.C61_raises"
   ],
   "note": "False as stated: 'sin(x)**2' becomes 'sin((x)*(x))' (C61_false), '(a + b**2)**3' raises ValueError (C61_raises). C61_value_partial: value kept when every power is a whole operand with a name, whole number or innermost parenthesis as base and exponent at least 1. C61_returns_partial: the texts on which it returns."
  },
  {
   "property": "C62",
   "status": "proved",
   "theorems": [
    "Meshless.C62_dense",
    "Meshless.C62_outcome",
    "Meshless.C62_full"
   ],
   "note": "With collect_for=None and no substitutions; an entry is given by its text."
  },
  {
   "property": "C63",
   "status": "partial",
   "theorems": [
    "Meshless.C63_plain_partial",
    "Meshless.C63_local_partial",
    "Meshless.C63_false",
    "Meshless.C63_full_partial"
   ],
   "note": "True without dofpernode (C63_plain_partial). False with dofpernode (C63_false): lines 97-98 overwrite i and j by their remainders before line 100 compares them; C63_local_partial says what is printed. C63_full_partial says the same of the whole function with all its arguments."
  },
  {
   "property": "C64",
   "status": "partial",
   "theorems": [
    "Meshless.C64_array_partial",
    "Meshless.C64_false"
   ],
   "note": "False as stated: the entry 'b**2 + ab**2' is printed as '(b*b) + a(b*b)' (C64_false). C64_array_partial: true when no power contains an earlier different one."
  },
  {
   "property": "C65",
   "status": "proved",
   "theorems": [
    "Meshless.C65_msg",
    "Meshless.C65_warn",
    "Meshless.C65_error"
   ],
   "note": ""
  },
  {
   "property": "C66",
   "status": "proved",
   "theorems": [
    "Meshless.C66_scaling"
   ],
   "note": ""
  },
  {
   "property": "C67",
   "status": "proved",
   "theorems": [
    "Meshless.C67_renumber"
   ],
   "note": ""
  },
  {
   "property": "C68",
   "status": "proved",
   "theorems": [
    "Meshless.C68_patch"
   ],
   "note": ""
  },
  {
   "property": "C69",
   "status": "partial",
   "theorems": [
    "Meshless.C69_energy_partial",
    "Meshless.C69_false"
   ],
   "note": "False as stated (C69_false: deviation of 1/12 on a unit square with value -1/6, from a z coordinate used as a y). C69_energy_partial gives the increment exactly, with the deviations spelled out; the lemmas edgeGamma_patch and edge_literals give exactness of the smoothed strain on linear fields and the sizes of the roundings."
  },
  {
   "property": "C70",
   "status": "proved",
   "theorems": [
    "Meshless.C70_translation"
   ],
   "note": ""
  },
  {
   "property": "C71",
   "status": "partial",
   "theorems": [
    "Meshless.C71_general_partial",
    "Meshless.C71_boundary_partial",
    "Meshless.C71_false"
   ],
   "note": "False with interior edges (C71_false: a rigid rotation with shear energy beyond 0.08). C71_boundary_partial: on meshes without interior edges the coupling is exactly a sum of terms with a factor of at most 1e-15. C71_general_partial: on all meshes the exact coupling; on interior edges the terms that are not of order 1e-15 are z_a - y_a times the rotation times the distance of the other end from the centroid."
  },
  {
   "property": "C72",
   "status": "proved",
   "theorems": [
    "Meshless.C72_always",
    "Meshless.C72_array",
    "Meshless.C72_full"
   ],
   "note": "With collect_for=None and use_cse=False; an entry is given by its text. C72_always: for the text of any entry, the expansion of powers never raises."
  },
  {
   "property": "C73",
   "status": "proved",
   "theorems": [
    "Meshless.C73_modes"
   ],
   "note": ""
  },
  {
   "property": "C74",
   "status": "proved",
   "theorems": [
    "Meshless.C74_modes"
   ],
   "note": "With a single triangle the twist (phix, phiy) = r*(yc - y, x - xc) about its centroid is a further zero mode, so two triangles are needed."
  },
  {
   "property": "C75",
   "status": "proved",
   "theorems": [
    "Meshless.C75_positive",
    "Meshless.C75_iff"
   ],
   "note": "Supports are given by the predicates Held (sufficient) and Fixed (exact) in Spec/Modes.lean."
  },
  {
   "property": "C76",
   "status": "proved",
   "theorems": [
    "Meshless.C76_static",
    "Meshless.C76_iff"
   ],
   "note": ""
  },
  {
   "property": "C77",
   "status": "partial",
   "theorems": [
    "Meshless.C77_modes_partial",
    "Meshless.C77_false",
    "Meshless.C77_exact_partial",
    "Meshless.C77_fan_false"
   ],
   "note": "False as stated: on the unit square of two triangles, both with shear gaps measured from node 1, the twist phix=-y, phiy=x has zero energy (C77_false). C77_modes_partial: true when some interior edge is not parallel to the line through the gap origins of its two triangles. C77_exact_partial describes the zero-energy displacements of every plate exactly; C77_fan_false: every plate whose triangles all measure from the same node has the spurious twist."
  },
  {
   "property": "C78",
   "status": "proved",
   "theorems": [
    "Meshless.C78_symmetric",
    "Meshless.C78_reciprocity"
   ],
   "note": ""
  },
  {
   "property": "C79",
   "status": "proved",
   "theorems": [
    "Meshless.C79_equilibrium"
   ],
   "note": ""
  },
  {
   "property": "C80",
   "status": "proved",
   "theorems": [
    "Meshless.C80_energy",
    "Meshless.C80_deflection",
    "Meshless.C80_point"
   ],
   "note": ""
  },
  {
   "property": "C81",
   "status": "proved",
   "theorems": [
    "Meshless.C81_equilibrium"
   ],
   "note": ""
  },
  {
   "property": "C82",
   "status": "proved",
   "theorems": [
    "Meshless.C82_patch"
   ],
   "note": ""
  },
  {
   "property": "C83",
   "status": "proved",
   "theorems": [
    "Meshless.C83_real",
    "Meshless.C83_orthogonal",
    "Meshless.C83_transverse"
   ],
   "note": "Supports are any set S for which K is positive definite on the displacements vanishing at S (Stable, obtained from C75); complex factors and displacements are ordinary complex numbers."
  },
  {
   "property": "C84",
   "status": "proved",
   "theorems": [
    "Meshless.C84_reference"
   ],
   "note": ""
  },
  {
   "property": "C85",
   "status": "proved",
   "theorems": [
    "Meshless.C85_tension"
   ],
   "note": ""
  },
  {
   "property": "C86",
   "status": "proved",
   "theorems": [
    "Meshless.C86_stability",
    "Meshless.C86_first"
   ],
   "note": ""
  },
  {
   "property": "C87",
   "status": "proved",
   "theorems": [
    "Meshless.C87_turned",
    "Meshless.C87_isotropic",
    "Meshless.C87_mirror"
   ],
   "note": ""
  },
  {
   "property": "C88",
   "status": "proved",
   "theorems": [
    "Meshless.C88_renumber",
    "Meshless.C88_turned"
   ],
   "note": ""
  },
  {
   "property": "C89",
   "status": "proved",
   "theorems": [
    "Meshless.C89_turned",
    "Meshless.C89_renumber"
   ],
   "note": ""
  },
  {
   "property": "C90",
   "status": "proved",
   "theorems": [
    "Meshless.C90_mesh",
    "Meshless.C90_input"
   ],
   "note": ""
  },
  {
   "property": "C91",
   "status": "proved",
   "theorems": [
    "Meshless.C91_static"
   ],
   "note": ""
  },
  {
   "property": "C92",
   "status": "proved",
   "theorems": [
    "Meshless.C92_turned"
   ],
   "note": ""
  },
  {
   "property": "C93",
   "status": "proved",
   "theorems": [
    "Meshless.C93_symmetric"
   ],
   "note": ""
  },
  {
   "property": "C94",
   "status": "proved",
   "theorems": [
    "Meshless.C94_modes",
    "Meshless.C94_factors"
   ],
   "note": ""
  },
  {
   "property": "C95",
   "status": "proved",
   "theorems": [
    "Meshless.C95_modes",
    "Meshless.C95_factors"
   ],
   "note": ""
  },
  {
   "property": "C96",
   "status": "proved",
   "theorems": [
    "Meshless.C96_deflection",
    "Meshless.C96_point",
    "Meshless.C96_buckling"
   ],
   "note": ""
  },
  {
   "property": "C97",
   "status": "proved",
   "theorems": [
    "Meshless.C97_energy",
    "Meshless.C97_deflection"
   ],
   "note": ""
  },
  {
   "property": "C98",
   "status": "proved",
   "theorems": [
    "Meshless.C98_superposition"
   ],
   "note": ""
  },
  {
   "property": "C99",
   "status": "proved",
   "theorems": [
    "Meshless.C99_dense",
    "Meshless.C99_sparse",
    "Meshless.C99_array"
   ],
   "note": ""
  },
  {
   "property": "C100",
   "status": "proved",
   "theorems": [
    "Meshless.C100_sparse",
    "Meshless.C100_dense",
    "Meshless.C100_array"
   ],
   "note": ""
  },
  {
   "property": "C101",
   "status": "proved",
   "theorems": [
    "Meshless.C101_dense",
    "Meshless.C101_sparse"
   ],
   "note": ""
  },
  {
   "property": "C102",
   "status": "proved",
   "theorems": [
    "Meshless.C102_cse"
   ],
   "note": ""
  },
  {
   "property": "C103",
   "status": "partial",
   "theorems": [
    "Meshless.C103_kept_partial",
    "Meshless.C103_false"
   ],
   "note": "False with use_cse (C103_false): lines 265-268 write the reduced matrix into the caller's matrix. C103_kept_partial: unchanged without use_cse, equal to the reduced matrix with it."
  },
  {
   "property": "C104",
   "status": "partial",
   "theorems": [
    "Meshless.C104_op_partial",
    "Meshless.C104_false"
   ],
   "note": "False with collect_for (C104_false): the line with '+=' is fixed there. C104_op_partial: true without collect_for."
  },
  {
   "property": "C105",
   "status": "proved",
   "theorems": [
    "Meshless.C105_script",
    "Meshless.C105_k0",
    "Meshless.C105_k0s",
    "Meshless.C105_kG"
   ],
   "note": ""
  },
  {
   "property": "C106",
   "status": "proved",
   "theorems": [
    "Meshless.C106_k0"
   ],
   "note": ""
  },
  {
   "property": "C107",
   "status": "proved",
   "theorems": [
    "Meshless.C107_kG"
   ],
   "note": ""
  },
  {
   "property": "C108",
   "status": "proved",
   "theorems": [
    "Meshless.C108_k0s",
    "Meshless.C108_assembled"
   ],
   "note": ""
  },
  {
   "property": "C109",
   "status": "proved",
   "theorems": [
    "Meshless.C109_static",
    "Meshless.C109_plate"
   ],
   "note": ""
  },
  {
   "property": "C110",
   "status": "proved",
   "theorems": [
    "Meshless.C110_prestress"
   ],
   "note": ""
  },
  {
   "property": "C111",
   "status": "proved",
   "theorems": [
    "Meshless.C111_complete",
    "Meshless.C111_every",
    "Meshless.C111_count"
   ],
   "note": ""
  },
  {
   "property": "C112",
   "status": "proved",
   "theorems": [
    "Meshless.C112_below",
    "Meshless.C112_count"
   ],
   "note": ""
  },
  {
   "property": "C113",
   "status": "proved",
   "theorems": [
    "Meshless.C113_factors",
    "Meshless.C113_real",
    "Meshless.C113_found"
   ],
   "note": ""
  },
  {
   "property": "C114",
   "status": "proved",
   "theorems": [
    "Meshless.C114_limit"
   ],
   "note": ""
  },
  {
   "property": "C115",
   "status": "proved",
   "theorems": [
    "Meshless.C115_short",
    "Meshless.C115_long"
   ],
   "note": ""
  },
  {
   "property": "C116",
   "status": "proved",
   "theorems": [
    "Meshless.C116_large",
    "Meshless.C116_small"
   ],
   "note": ""
  },
  {
   "property": "C117",
   "status": "proved",
   "theorems": [
    "Meshless.C117_gap",
    "Meshless.C117_softer",
    "Meshless.C117_equal",
    "Meshless.C117_layered"
   ],
   "note": ""
  },
  {
   "property": "C118",
   "status": "proved",
   "theorems": [
    "Meshless.C118_deflection",
    "Meshless.C118_buckling"
   ],
   "note": ""
  },
  {
   "property": "C119",
   "status": "proved",
   "theorems": [
    "Meshless.C119_k0",
    "Meshless.C119_exact"
   ],
   "note": ""
  },
  {
   "property": "C120",
   "status": "proved",
   "theorems": [
    "Meshless.C120_whole",
    "Meshless.C120_cell"
   ],
   "note": ""
  },
  {
   "property": "C121",
   "status": "proved",
   "theorems": [
    "Meshless.C121_kG"
   ],
   "note": ""
  },
  {
   "property": "C122",
   "status": "proved",
   "theorems": [
    "Meshless.C122_k0",
    "Meshless.C122_stiffness",
    "Meshless.C122_cell",
    "Meshless.C122_kG"
   ],
   "note": ""
  },
  {
   "property": "C123",
   "status": "proved",
   "theorems": [
    "Meshless.C123_work",
    "Meshless.C123_cell"
   ],
   "note": ""
  },
  {
   "property": "C124",
   "status": "proved",
   "theorems": [
    "Meshless.C124_factor"
   ],
   "note": ""
  },
  {
   "property": "C125",
   "status": "proved",
   "theorems": [
    "Meshless.C125_k0",
    "Meshless.C125_stiffness",
    "Meshless.C125_static"
   ],
   "note": ""
  },
  {
   "property": "C126",
   "status": "proved",
   "theorems": [
    "Meshless.C126_modes",
    "Meshless.C126_factors"
   ],
   "note": ""
  },
  {
   "property": "C127",
   "status": "proved",
   "theorems": [
    "Meshless.C127_energy",
    "Meshless.C127_work",
    "Meshless.C127_point"
   ],
   "note": ""
  },
  {
   "property": "C128",
   "status": "proved",
   "theorems": [
    "Meshless.C128_energy",
    "Meshless.C128_locks"
   ],
   "note": ""
  },
  {
   "property": "C129",
   "status": "proved",
   "theorems": [
    "Meshless.C129_buckling"
   ],
   "note": ""
  },
  {
   "property": "C130",
   "status": "proved",
   "theorems": [
    "Meshless.C130_nodes",
    "Meshless.C130_elements",
    "Meshless.C130_uniform",
    "Meshless.C130_shear"
   ],
   "note": ""
  },
  {
   "property": "C131",
   "status": "proved",
   "theorems": [
    "Meshless.C131_strain",
    "Meshless.C131_softer",
    "Meshless.C131_deflection"
   ],
   "note": ""
  },
  {
   "property": "C132",
   "status": "proved",
   "theorems": [
    "Meshless.C132_rate",
    "Meshless.C132_strains",
    "Meshless.C132_displacements",
    "Meshless.C132_limit",
    "Meshless.C132_loads"
   ],
   "note": ""
  },
  {
   "property": "C133",
   "status": "proved",
   "theorems": [
    "Meshless.C133_k0s",
    "Meshless.C133_kG",
    "Meshless.C133_nonmanifold"
   ],
   "note": ""
  },
  {
   "property": "C134",
   "status": "proved",
   "theorems": [
    "Meshless.C134_rate",
    "Meshless.C134_limit",
    "Meshless.C134_factor"
   ],
   "note": ""
  },
  {
   "property": "C135",
   "status": "proved",
   "theorems": [
    "Meshless.C135_elements",
    "Meshless.C135_balanced",
    "Meshless.C135_rate",
    "Meshless.C135_limit"
   ],
   "note": ""
  },
  {
   "property": "C136",
   "status": "proved",
   "theorems": [
    "Meshless.C136_near",
    "Meshless.C136_exact"
   ],
   "note": ""
  },
  {
   "property": "C137",
   "status": "proved",
   "theorems": [
    "Meshless.C137_limit",
    "Meshless.C137_convex",
    "Meshless.C137_small",
    "Meshless.C137_dunkerley",
    "Meshless.C137_tension"
   ],
   "note": ""
  },
  {
   "property": "C138",
   "status": "proved",
   "theorems": [
    "Meshless.C138_uncoupled",
    "Meshless.C138_static",
    "Meshless.C138_buckling",
    "Meshless.C138_unused",
    "Meshless.C138_singular",
    "Meshless.C138_held",
    "Meshless.C138_modes"
   ],
   "note": ""
  },
  {
   "property": "C139",
   "status": "proved",
   "theorems": [
    "Meshless.C139_good",
    "Meshless.C139_stiffness",
    "Meshless.C139_static",
    "Meshless.C139_geometric",
    "Meshless.C139_buckling"
   ],
   "note": ""
  },
  {
   "property": "C140",
   "status": "proved",
   "theorems": [
    "Meshless.C140_linear",
    "Meshless.C140_convex",
    "Meshless.C140_buckling",
    "Meshless.C140_rate",
    "Meshless.C140_sensitivity"
   ],
   "note": ""
  },
  {
   "property": "C141",
   "status": "proved",
   "theorems": [
    "Meshless.C141_count",
    "Meshless.C141_supports",
    "Meshless.C141_stiffer",
    "Meshless.C141_cst",
    "Meshless.C141_near"
   ],
   "note": ""
  },
  {
   "property": "C142",
   "status": "proved",
   "theorems": [
    "Meshless.C142_interp_2D",
    "Meshless.C142_interp_3D",
    "Meshless.C142_forward",
    "Meshless.C142_nodal",
    "Meshless.C142_array",
    "Meshless.C142_area",
    "Meshless.C142_unitvec",
    "Meshless.C142_mid"
   ],
   "note": ""
  },
  {
   "property": "C143",
   "status": "proved",
   "theorems": [
    "Meshless.C143_rotations",
    "Meshless.C143_coercive",
    "Meshless.C143_stable",
    "Meshless.C143_displacements",
    "Meshless.C143_limit",
    "Meshless.C143_equations"
   ],
   "note": ""
  },
  {
   "property": "C144",
   "status": "proved",
   "theorems": [
    "Meshless.C144_upper",
    "Meshless.C144_lower",
    "Meshless.C144_condition",
    "Meshless.C144_error",
    "Meshless.C144_diagonal",
    "Meshless.C144_sharp"
   ],
   "note": ""
  },
  {
   "property": "C145",
   "status": "partial",
   "theorems": [
    "Meshless.C145_stiffness_partial",
    "Meshless.C145_geometric_partial",
    "Meshless.C145_shifted"
   ],
   "note": "False for systems other than the basic one (C145_shifted): getMid (utils.py:22-25) takes positions in the basic system, everything else n.xyz as written in the deck. C145_stiffness_partial, C145_geometric_partial: true for decks written in the basic system; for add_k0s the same follows from C89."
  },
  {
   "property": "C146",
   "status": "proved",
   "theorems": [
    "Meshless.C146_slopes",
    "Meshless.C146_geometric",
    "Meshless.C146_bound",
    "Meshless.C146_factor",
    "Meshless.C146_compression",
    "Meshless.C146_bracket"
   ],
   "note": ""
  },
  {
   "property": "C147",
   "status": "proved",
   "theorems": [
    "Meshless.C147_weak",
    "Meshless.C147_residual",
    "Meshless.C147_near",
    "Meshless.C147_virtual",
    "Meshless.C147_rayleigh",
    "Meshless.C147_limit",
    "Meshless.C147_computed"
   ],
   "note": ""
  },
  {
   "property": "C148",
   "status": "proved",
   "theorems": [
    "Meshless.C148_span",
    "Meshless.C148_multiple",
    "Meshless.C148_multiple_computed",
    "Meshless.C148_shape"
   ],
   "note": ""
  },
  {
   "property": "C149",
   "status": "proved",
   "theorems": [
    "Meshless.C149_k0",
    "Meshless.C149_kG",
    "Meshless.C149_k0s",
    "Meshless.C149_binary64",
    "Meshless.C149_exact",
    "Meshless.C149_inexact"
   ],
   "note": ""
  },
  {
   "property": "C150",
   "status": "proved",
   "theorems": [
    "Meshless.C150_k0",
    "Meshless.C150_kG",
    "Meshless.C150_assembled",
    "Meshless.C150_k0s"
   ],
   "note": ""
  },
  {
   "property": "C151",
   "status": "proved",
   "theorems": [
    "Meshless.C151_k0",
    "Meshless.C151_kG",
    "Meshless.C151_k0s"
   ],
   "note": ""
  },
  {
   "property": "C152",
   "status": "proved",
   "theorems": [
    "Meshless.C152_k0",
    "Meshless.C152_assembled",
    "Meshless.C152_kG",
    "Meshless.C152_flat"
   ],
   "note": ""
  },
  {
   "property": "C153",
   "status": "proved",
   "theorems": [
    "Meshless.C153_k0_error_8",
    "Meshless.C153_k0_error_64",
    "Meshless.C153_k0_error_1000",
    "Meshless.C153_k0_error_thin",
    "Meshless.C153_binary64"
   ],
   "note": ""
  },
  {
   "property": "C154",
   "status": "proved",
   "theorems": [
    "Meshless.C154_entries",
    "Meshless.C154_unique",
    "Meshless.C154_symmetric",
    "Meshless.C154_rigid",
    "Meshless.C154_energy",
    "Meshless.C154_psd"
   ],
   "note": ""
  },
  {
   "property": "C155",
   "status": "proved",
   "theorems": [
    "Meshless.C155_static",
    "Meshless.C155_prestress",
    "Meshless.C155_matrices",
    "Meshless.C155_factors",
    "Meshless.C155_found",
    "Meshless.C155_limit"
   ],
   "note": ""
  },
  {
   "property": "C156",
   "status": "proved",
   "theorems": [
    "Meshless.C156_add_k0s_error",
    "Meshless.C156_add_k0s_error_thin",
    "Meshless.C156_stiffness_error_8",
    "Meshless.C156_stiffness_error_64",
    "Meshless.C156_stiffness_error_1000",
    "Meshless.C156_stiffness_error_thin"
   ],
   "note": ""
  },
  {
   "property": "C157",
   "status": "proved",
   "theorems": [
    "Meshless.C157_add_k0s_error_8",
    "Meshless.C157_add_k0s_error_64",
    "Meshless.C157_add_k0s_error_1000",
    "Meshless.C157_add_k0s_error_thin",
    "Meshless.C157_stiffness_error_8",
    "Meshless.C157_stiffness_error_64",
    "Meshless.C157_stiffness_error_1000",
    "Meshless.C157_stiffness_error_thin"
   ],
   "note": ""
  },
  {
   "property": "C158",
   "status": "proved",
   "theorems": [
    "Meshless.C158_plate_8",
    "Meshless.C158_plate_cell_8",
    "Meshless.C158_plate_64",
    "Meshless.C158_plate_cell_64",
    "Meshless.C158_entries",
    "Meshless.C158_symmetric",
    "Meshless.C158_rigid",
    "Meshless.C158_energy",
    "Meshless.C158_psd"
   ],
   "note": "C158_plate_8, C158_plate_64 and the _cell_ ones are the complete statements for plates with triangles of one size; the others give them from any bounds of the kind of C156 and C157."
  },
  {
   "property": "C159",
   "status": "proved",
   "theorems": [
    "Meshless.C159_plate_8",
    "Meshless.C159_plate_cell_8",
    "Meshless.C159_plate_64",
    "Meshless.C159_plate_cell_64",
    "Meshless.C159_definite",
    "Meshless.C159_solvable",
    "Meshless.C159_static",
    "Meshless.C159_refined"
   ],
   "note": "C159_plate_8, C159_plate_64 and the _cell_ ones are the complete statements for plates with triangles of one size; the others give them from any bounds of the kind of C158."
  },
  {
   "property": "C160",
   "status": "proved",
   "theorems": [
    "Meshless.C160_kG_error_8",
    "Meshless.C160_kG_error_64",
    "Meshless.C160_kG_error_1000",
    "Meshless.C160_kG_near_8",
    "Meshless.C160_kG_near_64",
    "Meshless.C160_kG_near_1000",
    "Meshless.C160_square"
   ],
   "note": ""
  },
  {
   "property": "C161",
   "status": "proved",
   "theorems": [
    "Meshless.C161_factor",
    "Meshless.C161_limit",
    "Meshless.C161_loaded",
    "Meshless.C161_static",
    "Meshless.C161_plate_8",
    "Meshless.C161_plate_cell_8",
    "Meshless.C161_plate_64",
    "Meshless.C161_plate_cell_64"
   ],
   "note": "C161_plate_8, C161_plate_64 and the _cell_ ones are the complete statements for plates with triangles of one size; C161_factor and C161_limit give them from any bounds of the kind of C158 and C160."
  },
  {
   "property": "C162",
   "status": "proved",
   "theorems": [
    "Meshless.C162_raises",
    "Meshless.C162_value",
    "Meshless.C162_lost"
   ],
   "note": ""
  }
 ]
}