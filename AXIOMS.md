# Axioms of the claimed theorems

Output of `#print axioms`, made by `tools/axioms.py`.

| theorem | axioms |
|---|---|
| `Meshless.C01_edges` | propext, Classical.choice, Quot.sound |
| `Meshless.C02_edge_trias` | propext, Classical.choice, Quot.sound |
| `Meshless.C03_tria_edges` | propext, Classical.choice, Quot.sound |
| `Meshless.C04_node_sets` | propext, Classical.choice, Quot.sound |
| `Meshless.C05_preserved` | propext, Classical.choice, Quot.sound |
| `Meshless.C06_sides_delaunay` | propext, Classical.choice, Quot.sound |
| `Meshless.C06_sides_mesh` | propext, Classical.choice, Quot.sound |
| `Meshless.C07_only_ctria3` | propext, Classical.choice, Quot.sound |
| `Meshless.C07_same_mesh` | propext, Classical.choice, Quot.sound |
| `Meshless.C07_deck_incidence` | propext, Classical.choice, Quot.sound |
| `Meshless.C07_deck_outcome` | propext, Classical.choice, Quot.sound |
| `Meshless.C07_deck_preserved` | propext, Classical.choice, Quot.sound |
| `Meshless.C08_accepted` | propext, Classical.choice, Quot.sound |
| `Meshless.C08_degenerate` | propext, Classical.choice, Quot.sound |
| `Meshless.C08_no_matrix` | propext, Classical.choice, Quot.sound |
| `Meshless.C09_missing` | propext, Classical.choice, Quot.sound |
| `Meshless.C09_iff` | propext, Classical.choice, Quot.sound |
| `Meshless.C10_nonmanifold` | propext, Classical.choice, Quot.sound |
| `Meshless.C11_success` | propext, Classical.choice, Quot.sound |
| `Meshless.C12_numbering` | propext, Classical.choice, Quot.sound |
| `Meshless.C13_area` | propext, Classical.choice, Quot.sound |
| `Meshless.C14_partition` | propext, Classical.choice, Quot.sound |
| `Meshless.C15_closed` | propext, Classical.choice, Quot.sound |
| `Meshless.C16_C17_points` | propext, Classical.choice, Quot.sound |
| `Meshless.C16_normals` | propext, Classical.choice, Quot.sound |
| `Meshless.C17_midpoints` | propext, Classical.choice, Quot.sound |
| `Meshless.C18_energy` | propext, Classical.choice, Quot.sound |
| `Meshless.C19_symmetric` | propext, Classical.choice, Quot.sound |
| `Meshless.C20_rigid` | propext, Classical.choice, Quot.sound |
| `Meshless.C21_psd` | propext, Classical.choice, Quot.sound |
| `Meshless.C22_patch` | propext, Classical.choice, Quot.sound |
| `Meshless.C22_homogeneous` | propext, Classical.choice, Quot.sound |
| `Meshless.C23_transverse` | propext, Classical.choice, Quot.sound |
| `Meshless.C23_local` | propext, Classical.choice, Quot.sound |
| `Meshless.C24_k0` | propext, Classical.choice, Quot.sound |
| `Meshless.C24_kG` | propext, Classical.choice, Quot.sound |
| `Meshless.C25_corner_order` | propext, Classical.choice, Quot.sound |
| `Meshless.C26_translation` | propext, Classical.choice, Quot.sound |
| `Meshless.C27_history` | propext, Classical.choice, Quot.sound |
| `Meshless.C27_twice` | propext, Classical.choice, Quot.sound |
| `Meshless.C28_connectivity` | propext, Classical.choice, Quot.sound |
| `Meshless.C29_energy` | propext, Classical.choice, Quot.sound |
| `Meshless.C30_symmetric` | propext, Classical.choice, Quot.sound |
| `Meshless.C31_linear` | propext, Classical.choice, Quot.sound |
| `Meshless.C31_zero` | propext, Classical.choice, Quot.sound |
| `Meshless.C32_rigid` | propext, Classical.choice, Quot.sound |
| `Meshless.C33_translation` | propext, Classical.choice, Quot.sound |
| `Meshless.C34_k0` | propext, Classical.choice, Quot.sound |
| `Meshless.C34_kG` | propext, Classical.choice, Quot.sound |
| `Meshless.C34_kG_local` | propext, Classical.choice, Quot.sound |
| `Meshless.C35_unknown` | propext, Classical.choice, Quot.sound |
| `Meshless.C35_dispatch` | propext, Classical.choice, Quot.sound |
| `Meshless.C36_additive` | propext, Classical.choice, Quot.sound |
| `Meshless.C36_twice` | propext, Classical.choice, Quot.sound |
| `Meshless.C36_comm` | propext, Classical.choice, Quot.sound |
| `Meshless.C37_dofs` | propext, Classical.choice, Quot.sound |
| `Meshless.C37_local_cell` | propext, Classical.choice, Quot.sound |
| `Meshless.C37_local` | propext, Classical.choice, Quot.sound |
| `Meshless.C38_energy` | propext, Classical.choice, Quot.sound |
| `Meshless.C38_symmetric` | propext, Classical.choice, Quot.sound |
| `Meshless.C38_psd` | propext, Classical.choice, Quot.sound |
| `Meshless.C39_energy` | propext, Classical.choice, Quot.sound |
| `Meshless.C39_symmetric` | propext, Classical.choice, Quot.sound |
| `Meshless.C39_psd` | propext, Classical.choice, Quot.sound |
| `Meshless.C40_translation` | propext, Classical.choice, Quot.sound |
| `Meshless.C41_whole` | propext, Classical.choice, Quot.sound |
| `Meshless.C41_cell` | propext, Classical.choice, Quot.sound |
| `Meshless.C42_energy` | propext, Classical.choice, Quot.sound |
| `Meshless.C43_cell` | propext, Classical.choice, Quot.sound |
| `Meshless.C43_whole_partial` | propext, Classical.choice, Quot.sound |
| `Meshless.C43_false` | propext, Classical.choice, Quot.sound |
| `Meshless.C44_energy` | propext, Classical.choice, Quot.sound |
| `Meshless.C44_edge` | propext, Classical.choice, Quot.sound |
| `Meshless.C44_zero` | propext, Classical.choice, Quot.sound |
| `Meshless.C44_strict` | propext, Classical.choice, Quot.sound |
| `Meshless.C45_energy` | propext, Classical.choice, Quot.sound |
| `Meshless.C46_translation_partial` | propext, Classical.choice, Quot.sound |
| `Meshless.C46_false` | propext, Classical.choice, Quot.sound |
| `Meshless.C47_energy_partial` | propext, Classical.choice, Quot.sound |
| `Meshless.C47_false` | propext, Classical.choice, Quot.sound |
| `Meshless.C48_defect_partial` | propext, Classical.choice, Quot.sound |
| `Meshless.C48_deflections_partial` | propext, Classical.choice, Quot.sound |
| `Meshless.C48_false` | propext, Classical.choice, Quot.sound |
| `Meshless.C48_bound_partial` | propext, Classical.choice, Quot.sound |
| `Meshless.C49_kG` | propext, Classical.choice, Quot.sound |
| `Meshless.C49_before` | propext, Classical.choice, Quot.sound |
| `Meshless.C49_k0s` | propext, Classical.choice, Quot.sound |
| `Meshless.C49_after` | propext, Classical.choice, Quot.sound |
| `Meshless.C50_nodal` | propext, Classical.choice, Quot.sound |
| `Meshless.C51_polynomial` | propext, Classical.choice, Quot.sound |
| `Meshless.C51_constant` | propext, Classical.choice, Quot.sound |
| `Meshless.C52_linear_2D` | propext, Classical.choice, Quot.sound |
| `Meshless.C52_linear_3D` | propext, Classical.choice, Quot.sound |
| `Meshless.C52_linear_array` | propext, Classical.choice, Quot.sound |
| `Meshless.C53_perm` | propext, Classical.choice, Quot.sound |
| `Meshless.C54_nodal_partial` | propext, Classical.choice, Quot.sound |
| `Meshless.C54_false` | propext, Classical.choice, Quot.sound |
| `Meshless.C55_shape_2D` | propext, Classical.choice, Quot.sound |
| `Meshless.C55_shape_3D` | propext, Classical.choice, Quot.sound |
| `Meshless.C56_per_point_partial` | propext, Classical.choice, Quot.sound |
| `Meshless.C56_false` | propext, Classical.choice, Quot.sound |
| `Meshless.C56_lengths` | propext, Classical.choice, Quot.sound |
| `Meshless.C57_area_is_shoelace` | propext, Classical.choice, Quot.sound |
| `Meshless.C57_area_short` | propext, Classical.choice, Quot.sound |
| `Meshless.C57_area_translate` | propext, Classical.choice, Quot.sound |
| `Meshless.C57_area_rotate` | propext, Classical.choice, Quot.sound |
| `Meshless.C57_area_reverse` | propext, Classical.choice, Quot.sound |
| `Meshless.C57_area_swap` | propext, Classical.choice, Quot.sound |
| `Meshless.C57_area_scale` | propext, Classical.choice, Quot.sound |
| `Meshless.C58_unitvec` | propext, Classical.choice, Quot.sound |
| `Meshless.C59_unchanged` | propext, Classical.choice, Quot.sound |
| `Meshless.C60_pieces` | propext, Classical.choice, Quot.sound |
| `Meshless.C60_words` | propext, Classical.choice, Quot.sound |
| `Meshless.C61_returns_partial` | propext, Classical.choice, Quot.sound |
| `Meshless.C61_value_partial` | propext, Classical.choice, Quot.sound |
| `Meshless.C61_false` | propext, Classical.choice, Quot.sound |
| `Meshless.C61_raises` | propext, Classical.choice, Quot.sound |
| `Meshless.C62_dense` | propext, Classical.choice, Quot.sound |
| `Meshless.C62_outcome` | propext, Classical.choice, Quot.sound |
| `Meshless.C62_full` | propext, Classical.choice, Quot.sound |
| `Meshless.C63_plain_partial` | propext, Classical.choice, Quot.sound |
| `Meshless.C63_local_partial` | propext, Classical.choice, Quot.sound |
| `Meshless.C63_false` | propext, Classical.choice, Quot.sound |
| `Meshless.C63_full_partial` | propext, Classical.choice, Quot.sound |
| `Meshless.C64_array_partial` | propext, Classical.choice, Quot.sound |
| `Meshless.C64_false` | propext, Classical.choice, Quot.sound |
| `Meshless.C65_msg` | propext |
| `Meshless.C65_warn` | propext |
| `Meshless.C65_error` | propext |
| `Meshless.C66_scaling` | propext, Classical.choice, Quot.sound |
| `Meshless.C67_renumber` | propext, Classical.choice, Quot.sound |
| `Meshless.C68_patch` | propext, Classical.choice, Quot.sound |
| `Meshless.C69_energy_partial` | propext, Classical.choice, Quot.sound |
| `Meshless.C69_false` | propext, Classical.choice, Quot.sound |
| `Meshless.C70_translation` | propext, Classical.choice, Quot.sound |
| `Meshless.C71_general_partial` | propext, Classical.choice, Quot.sound |
| `Meshless.C71_boundary_partial` | propext, Classical.choice, Quot.sound |
| `Meshless.C71_false` | propext, Classical.choice, Quot.sound |
| `Meshless.C72_always` | propext, Classical.choice, Quot.sound |
| `Meshless.C72_array` | propext, Classical.choice, Quot.sound |
| `Meshless.C72_full` | propext, Classical.choice, Quot.sound |
| `Meshless.C73_modes` | propext, Classical.choice, Quot.sound |
| `Meshless.C74_modes` | propext, Classical.choice, Quot.sound |
| `Meshless.C75_positive` | propext, Classical.choice, Quot.sound |
| `Meshless.C75_iff` | propext, Classical.choice, Quot.sound |
| `Meshless.C76_static` | propext, Classical.choice, Quot.sound |
| `Meshless.C76_iff` | propext, Classical.choice, Quot.sound |
| `Meshless.C77_modes_partial` | propext, Classical.choice, Quot.sound |
| `Meshless.C77_false` | propext, Classical.choice, Quot.sound |
| `Meshless.C77_exact_partial` | propext, Classical.choice, Quot.sound |
| `Meshless.C77_fan_false` | propext, Classical.choice, Quot.sound |
| `Meshless.C78_symmetric` | propext, Classical.choice, Quot.sound |
| `Meshless.C78_reciprocity` | propext, Classical.choice, Quot.sound |
| `Meshless.C79_equilibrium` | propext, Classical.choice, Quot.sound |
| `Meshless.C80_energy` | propext, Classical.choice, Quot.sound |
| `Meshless.C80_deflection` | propext, Classical.choice, Quot.sound |
| `Meshless.C80_point` | propext, Classical.choice, Quot.sound |
| `Meshless.C81_equilibrium` | propext, Classical.choice, Quot.sound |
| `Meshless.C82_patch` | propext, Classical.choice, Quot.sound |
| `Meshless.C83_real` | propext, Classical.choice, Quot.sound |
| `Meshless.C83_orthogonal` | propext, Classical.choice, Quot.sound |
| `Meshless.C83_transverse` | propext, Classical.choice, Quot.sound |
| `Meshless.C84_reference` | propext, Classical.choice, Quot.sound |
| `Meshless.C85_tension` | propext, Classical.choice, Quot.sound |
| `Meshless.C86_stability` | propext, Classical.choice, Quot.sound |
| `Meshless.C86_first` | propext, Classical.choice, Quot.sound |
| `Meshless.C87_turned` | propext, Classical.choice, Quot.sound |
| `Meshless.C87_isotropic` | propext, Classical.choice, Quot.sound |
| `Meshless.C87_mirror` | propext, Classical.choice, Quot.sound |
| `Meshless.C88_renumber` | propext, Classical.choice, Quot.sound |
| `Meshless.C88_turned` | propext, Classical.choice, Quot.sound |
| `Meshless.C89_turned` | propext, Classical.choice, Quot.sound |
| `Meshless.C89_renumber` | propext, Classical.choice, Quot.sound |
| `Meshless.C90_mesh` | propext, Classical.choice, Quot.sound |
| `Meshless.C90_input` | propext, Classical.choice, Quot.sound |
| `Meshless.C91_static` | propext, Classical.choice, Quot.sound |
| `Meshless.C92_turned` | propext, Classical.choice, Quot.sound |
| `Meshless.C93_symmetric` | propext, Classical.choice, Quot.sound |
| `Meshless.C94_modes` | propext, Classical.choice, Quot.sound |
| `Meshless.C94_factors` | propext, Classical.choice, Quot.sound |
| `Meshless.C95_modes` | propext, Classical.choice, Quot.sound |
| `Meshless.C95_factors` | propext, Classical.choice, Quot.sound |
| `Meshless.C96_deflection` | propext, Classical.choice, Quot.sound |
| `Meshless.C96_point` | propext, Classical.choice, Quot.sound |
| `Meshless.C96_buckling` | propext, Classical.choice, Quot.sound |
| `Meshless.C97_energy` | propext, Classical.choice, Quot.sound |
| `Meshless.C97_deflection` | propext, Classical.choice, Quot.sound |
| `Meshless.C98_superposition` | propext, Classical.choice, Quot.sound |
| `Meshless.C99_dense` | propext, Classical.choice, Quot.sound |
| `Meshless.C99_sparse` | propext, Classical.choice, Quot.sound |
| `Meshless.C99_array` | propext, Classical.choice, Quot.sound |
| `Meshless.C100_sparse` | propext, Classical.choice, Quot.sound |
| `Meshless.C100_dense` | propext, Classical.choice, Quot.sound |
| `Meshless.C100_array` | propext, Classical.choice, Quot.sound |
| `Meshless.C101_dense` | propext, Classical.choice, Quot.sound |
| `Meshless.C101_sparse` | propext, Classical.choice, Quot.sound |
| `Meshless.C102_cse` | propext, Classical.choice, Quot.sound |
| `Meshless.C103_kept_partial` | propext, Classical.choice, Quot.sound |
| `Meshless.C103_false` | propext, Classical.choice, Quot.sound |
| `Meshless.C104_op_partial` | propext, Classical.choice, Quot.sound |
| `Meshless.C104_false` | propext, Classical.choice, Quot.sound |
| `Meshless.C105_script` | propext, Classical.choice, Quot.sound |
| `Meshless.C105_k0` | propext, Classical.choice, Quot.sound |
| `Meshless.C105_k0s` | propext, Classical.choice, Quot.sound |
| `Meshless.C105_kG` | propext, Classical.choice, Quot.sound |
| `Meshless.C106_k0` | propext, Classical.choice, Quot.sound |
| `Meshless.C107_kG` | propext, Classical.choice, Quot.sound |
| `Meshless.C108_k0s` | propext, Classical.choice, Quot.sound |
| `Meshless.C108_assembled` | propext, Classical.choice, Quot.sound |
| `Meshless.C109_static` | propext, Classical.choice, Quot.sound |
| `Meshless.C109_plate` | propext, Classical.choice, Quot.sound |
| `Meshless.C110_prestress` | propext, Classical.choice, Quot.sound |
| `Meshless.C111_complete` | propext, Classical.choice, Quot.sound |
| `Meshless.C111_every` | propext, Classical.choice, Quot.sound |
| `Meshless.C111_count` | propext, Classical.choice, Quot.sound |
| `Meshless.C112_below` | propext, Classical.choice, Quot.sound |
| `Meshless.C112_count` | propext, Classical.choice, Quot.sound |
| `Meshless.C113_factors` | propext, Classical.choice, Quot.sound |
| `Meshless.C113_real` | propext, Classical.choice, Quot.sound |
| `Meshless.C113_found` | propext, Classical.choice, Quot.sound |
| `Meshless.C114_limit` | propext, Classical.choice, Quot.sound |
| `Meshless.C115_short` | propext, Classical.choice, Quot.sound |
| `Meshless.C115_long` | propext, Classical.choice, Quot.sound |
| `Meshless.C116_large` | propext, Classical.choice, Quot.sound |
| `Meshless.C116_small` | propext, Classical.choice, Quot.sound |
| `Meshless.C117_gap` | propext, Classical.choice, Quot.sound |
| `Meshless.C117_softer` | propext, Classical.choice, Quot.sound |
| `Meshless.C117_equal` | propext, Classical.choice, Quot.sound |
| `Meshless.C117_layered` | propext, Classical.choice, Quot.sound |
| `Meshless.C118_deflection` | propext, Classical.choice, Quot.sound |
| `Meshless.C118_buckling` | propext, Classical.choice, Quot.sound |
| `Meshless.C119_k0` | propext, Classical.choice, Quot.sound |
| `Meshless.C119_exact` | propext, Classical.choice, Quot.sound |
| `Meshless.C120_whole` | propext, Classical.choice, Quot.sound |
| `Meshless.C120_cell` | propext, Classical.choice, Quot.sound |
| `Meshless.C121_kG` | propext, Classical.choice, Quot.sound |
| `Meshless.C122_k0` | propext, Classical.choice, Quot.sound |
| `Meshless.C122_stiffness` | propext, Classical.choice, Quot.sound |
| `Meshless.C122_cell` | propext, Classical.choice, Quot.sound |
| `Meshless.C122_kG` | propext, Classical.choice, Quot.sound |
| `Meshless.C123_work` | propext, Classical.choice, Quot.sound |
| `Meshless.C123_cell` | propext, Classical.choice, Quot.sound |
| `Meshless.C124_factor` | propext, Classical.choice, Quot.sound |
| `Meshless.C125_k0` | propext, Classical.choice, Quot.sound |
| `Meshless.C125_stiffness` | propext, Classical.choice, Quot.sound |
| `Meshless.C125_static` | propext, Classical.choice, Quot.sound |
| `Meshless.C126_modes` | propext, Classical.choice, Quot.sound |
| `Meshless.C126_factors` | propext, Classical.choice, Quot.sound |
| `Meshless.C127_energy` | propext, Classical.choice, Quot.sound |
| `Meshless.C127_work` | propext, Classical.choice, Quot.sound |
| `Meshless.C127_point` | propext, Classical.choice, Quot.sound |
| `Meshless.C128_energy` | propext, Classical.choice, Quot.sound |
| `Meshless.C128_locks` | propext, Classical.choice, Quot.sound |
| `Meshless.C129_buckling` | propext, Classical.choice, Quot.sound |
| `Meshless.C130_nodes` | propext, Classical.choice, Quot.sound |
| `Meshless.C130_elements` | propext, Classical.choice, Quot.sound |
| `Meshless.C130_uniform` | propext, Classical.choice, Quot.sound |
| `Meshless.C130_shear` | propext, Classical.choice, Quot.sound |
| `Meshless.C131_strain` | propext, Classical.choice, Quot.sound |
| `Meshless.C131_softer` | propext, Classical.choice, Quot.sound |
| `Meshless.C131_deflection` | propext, Classical.choice, Quot.sound |
| `Meshless.C132_rate` | propext, Classical.choice, Quot.sound |
| `Meshless.C132_strains` | propext, Classical.choice, Quot.sound |
| `Meshless.C132_displacements` | propext, Classical.choice, Quot.sound |
| `Meshless.C132_limit` | propext, Classical.choice, Quot.sound |
| `Meshless.C132_loads` | propext, Classical.choice, Quot.sound |
| `Meshless.C133_k0s` | propext, Classical.choice, Quot.sound |
| `Meshless.C133_kG` | propext, Classical.choice, Quot.sound |
| `Meshless.C133_nonmanifold` | propext, Classical.choice, Quot.sound |
| `Meshless.C134_rate` | propext, Classical.choice, Quot.sound |
| `Meshless.C134_limit` | propext, Classical.choice, Quot.sound |
| `Meshless.C134_factor` | propext, Classical.choice, Quot.sound |
| `Meshless.C135_elements` | propext, Classical.choice, Quot.sound |
| `Meshless.C135_balanced` | propext, Classical.choice, Quot.sound |
| `Meshless.C135_rate` | propext, Classical.choice, Quot.sound |
| `Meshless.C135_limit` | propext, Classical.choice, Quot.sound |
| `Meshless.C136_near` | propext, Classical.choice, Quot.sound |
| `Meshless.C136_exact` | propext, Classical.choice, Quot.sound |
| `Meshless.C137_limit` | propext, Classical.choice, Quot.sound |
| `Meshless.C137_convex` | propext, Classical.choice, Quot.sound |
| `Meshless.C137_small` | propext, Classical.choice, Quot.sound |
| `Meshless.C137_dunkerley` | propext, Classical.choice, Quot.sound |
| `Meshless.C137_tension` | propext, Classical.choice, Quot.sound |
| `Meshless.C138_uncoupled` | propext, Classical.choice, Quot.sound |
| `Meshless.C138_static` | propext, Classical.choice, Quot.sound |
| `Meshless.C138_buckling` | propext, Classical.choice, Quot.sound |
| `Meshless.C138_unused` | propext, Classical.choice, Quot.sound |
| `Meshless.C138_singular` | propext, Classical.choice, Quot.sound |
| `Meshless.C138_held` | propext, Classical.choice, Quot.sound |
| `Meshless.C138_modes` | propext, Classical.choice, Quot.sound |
| `Meshless.C139_good` | propext, Classical.choice, Quot.sound |
| `Meshless.C139_stiffness` | propext, Classical.choice, Quot.sound |
| `Meshless.C139_static` | propext, Classical.choice, Quot.sound |
| `Meshless.C139_geometric` | propext, Classical.choice, Quot.sound |
| `Meshless.C139_buckling` | propext, Classical.choice, Quot.sound |
| `Meshless.C140_linear` | propext, Classical.choice, Quot.sound |
| `Meshless.C140_convex` | propext, Classical.choice, Quot.sound |
| `Meshless.C140_buckling` | propext, Classical.choice, Quot.sound |
| `Meshless.C140_rate` | propext, Classical.choice, Quot.sound |
| `Meshless.C140_sensitivity` | propext, Classical.choice, Quot.sound |
| `Meshless.C141_count` | propext, Classical.choice, Quot.sound |
| `Meshless.C141_supports` | propext, Classical.choice, Quot.sound |
| `Meshless.C141_stiffer` | propext, Classical.choice, Quot.sound |
| `Meshless.C141_cst` | propext, Classical.choice, Quot.sound |
| `Meshless.C141_near` | propext, Classical.choice, Quot.sound |
| `Meshless.C142_interp_2D` | propext, Classical.choice, Quot.sound |
| `Meshless.C142_interp_3D` | propext, Classical.choice, Quot.sound |
| `Meshless.C142_forward` | propext, Classical.choice, Quot.sound |
| `Meshless.C142_nodal` | propext, Classical.choice, Quot.sound |
| `Meshless.C142_array` | propext, Classical.choice, Quot.sound |
| `Meshless.C142_area` | propext, Classical.choice, Quot.sound |
| `Meshless.C142_unitvec` | propext, Classical.choice, Quot.sound |
| `Meshless.C142_mid` | propext, Classical.choice, Quot.sound |
| `Meshless.C143_rotations` | propext, Classical.choice, Quot.sound |
| `Meshless.C143_coercive` | propext, Classical.choice, Quot.sound |
| `Meshless.C143_stable` | propext, Classical.choice, Quot.sound |
| `Meshless.C143_displacements` | propext, Classical.choice, Quot.sound |
| `Meshless.C143_limit` | propext, Classical.choice, Quot.sound |
| `Meshless.C143_equations` | propext, Classical.choice, Quot.sound |
| `Meshless.C144_upper` | propext, Classical.choice, Quot.sound |
| `Meshless.C144_lower` | propext, Classical.choice, Quot.sound |
| `Meshless.C144_condition` | propext, Classical.choice, Quot.sound |
| `Meshless.C144_error` | propext, Classical.choice, Quot.sound |
| `Meshless.C144_diagonal` | propext, Classical.choice, Quot.sound |
| `Meshless.C144_sharp` | propext, Classical.choice, Quot.sound |
| `Meshless.C145_stiffness_partial` | propext, Classical.choice, Quot.sound |
| `Meshless.C145_geometric_partial` | propext, Classical.choice, Quot.sound |
| `Meshless.C145_shifted` | propext, Classical.choice, Quot.sound |
| `Meshless.C146_slopes` | propext, Classical.choice, Quot.sound |
| `Meshless.C146_geometric` | propext, Classical.choice, Quot.sound |
| `Meshless.C146_bound` | propext, Classical.choice, Quot.sound |
| `Meshless.C146_factor` | propext, Classical.choice, Quot.sound |
| `Meshless.C146_compression` | propext, Classical.choice, Quot.sound |
| `Meshless.C146_bracket` | propext, Classical.choice, Quot.sound |
| `Meshless.C147_weak` | propext, Classical.choice, Quot.sound |
| `Meshless.C147_residual` | propext, Classical.choice, Quot.sound |
| `Meshless.C147_near` | propext, Classical.choice, Quot.sound |
| `Meshless.C147_virtual` | propext, Classical.choice, Quot.sound |
| `Meshless.C147_rayleigh` | propext, Classical.choice, Quot.sound |
| `Meshless.C147_limit` | propext, Classical.choice, Quot.sound |
| `Meshless.C147_computed` | propext, Classical.choice, Quot.sound |
| `Meshless.C148_span` | propext, Classical.choice, Quot.sound |
| `Meshless.C148_multiple` | propext, Classical.choice, Quot.sound |
| `Meshless.C148_multiple_computed` | propext, Classical.choice, Quot.sound |
| `Meshless.C148_shape` | propext, Classical.choice, Quot.sound |
| `Meshless.C149_k0` | propext, Classical.choice, Quot.sound |
| `Meshless.C149_kG` | propext, Classical.choice, Quot.sound |
| `Meshless.C149_k0s` | propext, Classical.choice, Quot.sound |
| `Meshless.C149_binary64` | propext, Classical.choice, Quot.sound |
| `Meshless.C149_exact` | propext, Classical.choice, Quot.sound |
| `Meshless.C149_inexact` | propext, Classical.choice, Quot.sound |
| `Meshless.C150_k0` | propext, Classical.choice, Quot.sound |
| `Meshless.C150_kG` | propext, Classical.choice, Quot.sound |
| `Meshless.C150_assembled` | propext, Classical.choice, Quot.sound |
| `Meshless.C150_k0s` | propext, Classical.choice, Quot.sound |
| `Meshless.C151_k0` | propext, Classical.choice, Quot.sound |
| `Meshless.C151_kG` | propext, Classical.choice, Quot.sound |
| `Meshless.C151_k0s` | propext, Classical.choice, Quot.sound |
| `Meshless.C152_k0` | propext, Classical.choice, Quot.sound |
| `Meshless.C152_assembled` | propext, Classical.choice, Quot.sound |
| `Meshless.C152_kG` | propext, Classical.choice, Quot.sound |
| `Meshless.C152_flat` | propext, Classical.choice, Quot.sound |
| `Meshless.C153_k0_error_8` | propext, Classical.choice, Quot.sound |
| `Meshless.C153_k0_error_64` | propext, Classical.choice, Quot.sound |
| `Meshless.C153_k0_error_1000` | propext, Classical.choice, Quot.sound |
| `Meshless.C153_k0_error_thin` | propext, Classical.choice, Quot.sound |
| `Meshless.C153_binary64` | propext, Classical.choice, Quot.sound |
| `Meshless.C154_entries` | propext, Classical.choice, Quot.sound |
| `Meshless.C154_unique` | propext, Classical.choice, Quot.sound |
| `Meshless.C154_symmetric` | propext, Classical.choice, Quot.sound |
| `Meshless.C154_rigid` | propext, Classical.choice, Quot.sound |
| `Meshless.C154_energy` | propext, Classical.choice, Quot.sound |
| `Meshless.C154_psd` | propext, Classical.choice, Quot.sound |
| `Meshless.C155_static` | propext, Classical.choice, Quot.sound |
| `Meshless.C155_prestress` | propext, Classical.choice, Quot.sound |
| `Meshless.C155_matrices` | propext, Classical.choice, Quot.sound |
| `Meshless.C155_factors` | propext, Classical.choice, Quot.sound |
| `Meshless.C155_found` | propext, Classical.choice, Quot.sound |
| `Meshless.C155_limit` | propext, Classical.choice, Quot.sound |
| `Meshless.C156_add_k0s_error` | propext, Classical.choice, Quot.sound |
| `Meshless.C156_add_k0s_error_thin` | propext, Classical.choice, Quot.sound |
| `Meshless.C156_stiffness_error_8` | propext, Classical.choice, Quot.sound |
| `Meshless.C156_stiffness_error_64` | propext, Classical.choice, Quot.sound |
| `Meshless.C156_stiffness_error_1000` | propext, Classical.choice, Quot.sound |
| `Meshless.C156_stiffness_error_thin` | propext, Classical.choice, Quot.sound |
| `Meshless.C157_add_k0s_error_8` | propext, Classical.choice, Quot.sound |
| `Meshless.C157_add_k0s_error_64` | propext, Classical.choice, Quot.sound |
| `Meshless.C157_add_k0s_error_1000` | propext, Classical.choice, Quot.sound |
| `Meshless.C157_add_k0s_error_thin` | propext, Classical.choice, Quot.sound |
| `Meshless.C157_stiffness_error_8` | propext, Classical.choice, Quot.sound |
| `Meshless.C157_stiffness_error_64` | propext, Classical.choice, Quot.sound |
| `Meshless.C157_stiffness_error_1000` | propext, Classical.choice, Quot.sound |
| `Meshless.C157_stiffness_error_thin` | propext, Classical.choice, Quot.sound |
| `Meshless.C158_plate_8` | propext, Classical.choice, Quot.sound |
| `Meshless.C158_plate_cell_8` | propext, Classical.choice, Quot.sound |
| `Meshless.C158_plate_64` | propext, Classical.choice, Quot.sound |
| `Meshless.C158_plate_cell_64` | propext, Classical.choice, Quot.sound |
| `Meshless.C158_entries` | propext, Classical.choice, Quot.sound |
| `Meshless.C158_symmetric` | propext, Classical.choice, Quot.sound |
| `Meshless.C158_rigid` | propext, Classical.choice, Quot.sound |
| `Meshless.C158_energy` | propext, Classical.choice, Quot.sound |
| `Meshless.C158_psd` | propext, Classical.choice, Quot.sound |
| `Meshless.C159_plate_8` | propext, Classical.choice, Quot.sound |
| `Meshless.C159_plate_cell_8` | propext, Classical.choice, Quot.sound |
| `Meshless.C159_plate_64` | propext, Classical.choice, Quot.sound |
| `Meshless.C159_plate_cell_64` | propext, Classical.choice, Quot.sound |
| `Meshless.C159_definite` | propext, Classical.choice, Quot.sound |
| `Meshless.C159_solvable` | propext, Classical.choice, Quot.sound |
| `Meshless.C159_static` | propext, Classical.choice, Quot.sound |
| `Meshless.C159_refined` | propext, Classical.choice, Quot.sound |
| `Meshless.C160_kG_error_8` | propext, Classical.choice, Quot.sound |
| `Meshless.C160_kG_error_64` | propext, Classical.choice, Quot.sound |
| `Meshless.C160_kG_error_1000` | propext, Classical.choice, Quot.sound |
| `Meshless.C160_kG_near_8` | propext, Classical.choice, Quot.sound |
| `Meshless.C160_kG_near_64` | propext, Classical.choice, Quot.sound |
| `Meshless.C160_kG_near_1000` | propext, Classical.choice, Quot.sound |
| `Meshless.C160_square` | propext, Classical.choice, Quot.sound |
| `Meshless.C161_factor` | propext, Classical.choice, Quot.sound |
| `Meshless.C161_limit` | propext, Classical.choice, Quot.sound |
| `Meshless.C161_loaded` | propext, Classical.choice, Quot.sound |
| `Meshless.C161_static` | propext, Classical.choice, Quot.sound |
| `Meshless.C161_plate_8` | propext, Classical.choice, Quot.sound |
| `Meshless.C161_plate_cell_8` | propext, Classical.choice, Quot.sound |
| `Meshless.C161_plate_64` | propext, Classical.choice, Quot.sound |
| `Meshless.C161_plate_cell_64` | propext, Classical.choice, Quot.sound |
| `Meshless.C162_raises` | propext, Classical.choice, Quot.sound |
| `Meshless.C162_value` | propext, Classical.choice, Quot.sound |
| `Meshless.C162_lost` | propext, Classical.choice, Quot.sound |
