# Axioms used by each property theorem

Generated with `#print axioms`. Nothing outside `propext`, `Classical.choice`, `Quot.sound` occurs.

## none (4 theorems)

* C03: `GF.C03_copy`
* C28: `GF.MatrixPartitionedTyings.C28_not_implemented`
* C31: `GF.C31_counts`
* C34: `GF.C34_counts`

## propext (18 theorems)

* C02: `GF.C02_schedule_matters`
* C07: `GF.C07_rank_dispatch`
* C08: `GF.C08_bad_connectivity_ub`
* C22: `GF.C22_fresh`
* C22: `GF.C22_two_matrices_stale`
* C25: `GF.Periodic.C25_prescribed_dependent`
* C28: `GF.MatrixPartitionedTyings.C28_constructor`
* C30: `GF.StopList.C30_all_less_nan`
* C30: `GF.StopList.C30_empty`
* C41: `GF.C41_default_type`
* C52: `GF.Allocate.C52_as3d_rejects`
* C63: `GF.C63_around_misses`
* C64: `GF.C64_extra_fine_layers`
* C105: `GF.C105_sets`
* C105: `GF.C105_python`
* C108: `GF.Stitch.C108_all_sets`
* C108: `GF.Vstack.C108_push_back_mismatch`
* C108: `GF.Periodic.C108_not_caught`

## propext,Classical.choice,Quot.sound (706 theorems)

* C01: `GF.C01_dofs_node_dofs`
* C02: `GF.C02_node_dofs_node`
* C02: `GF.C02_schedule_independent`
* C02: `GF.C02_some_owner`
* C03: `GF.C03_node_element_node`
* C03: `GF.C03_dofs_element_dofs`
* C04: `GF.C04_assemble_element`
* C04: `GF.C04_assemble_node`
* C05: `GF.C05_adjoint`
* C05: `GF.C05_total`
* C06: `GF.C06_assembleNode`
* C06: `GF.C06_linear`
* C07: `GF.C07_documented_accepted`
* C08: `GF.C08_safe`
* C09: `GF.C09_renumber`
* C09: `GF.C09_idempotent`
* C10: `GF.C10_apply_defined_iff`
* C11: `GF.C11_reorder_block`
* C11: `GF.C11_reorder_apply`
* C12: `GF.C12_constructor`
* C12: `GF.C12_bijection`
* C13: `GF.C13_split_recombine`
* C13: `GF.C13_recombine_split`
* C13: `GF.C13_node`
* C13: `GF.C13_element`
* C13: `GF.C13_node_via_dofs`
* C15: `GF.C15_assemble`
* C15: `GF.C15_total`
* C16: `GF.C16_history`
* C16: `GF.C16_set_entries`
* C16: `GF.C16_add_entries`
* C17: `GF.C17_dot_dofval`
* C17: `GF.C17_dot_nodevec`
* C17: `GF.C17_dot_assembled`
* C17: `GF.C17_dot_nodevec_assembled`
* C18: `GF.C18_constructor`
* C18: `GF.C18_constructor_gap`
* C18: `GF.C18_assemble_todense`
* C18: `GF.C18_dot_dofval`
* C18: `GF.C18_dot_nodevec`
* C19: `GF.C19_history`
* C19: `GF.C19_agrees`
* C20: `GF.C20_reaction_dofval`
* C20: `GF.C20_reaction_nodevec`
* C20: `GF.C20_reaction_p`
* C21: `GF.C21_solve_dofval`
* C21: `GF.C21_solve_nodevec`
* C21: `GF.C21_solve_u`
* C21: `GF.C21_residual`
* C22: `GF.C22_matrix`
* C22: `GF.C22_matrixPartitioned`
* C22: `GF.C22_two_solvers_stale`
* C23: `GF.C23_assemble`
* C23: `GF.C23_agrees_with_Matrix`
* C23: `GF.C23_set`
* C23: `GF.C23_dot_dofval`
* C23: `GF.C23_history`
* C23: `GF.C23_solve_dofval`
* C23: `GF.C23_solve_nodevec`
* C23: `GF.C23_roundtrip_dofval`
* C23: `GF.C23_roundtrip_nodevec`
* C24: `GF.C24_constructor`
* C24: `GF.C24_assemble`
* C24: `GF.C24_history`
* C24: `GF.C24_solve_dofval`
* C24: `GF.C24_solve_nodevec`
* C25: `GF.Periodic.C25_constructor`
* C25: `GF.Periodic.C25_Cdi`
* C25: `GF.Periodic.C25_blocks`
* C25: `GF.Periodic.C25_tied_iff`
* C26: `GF.Control.C26_control`
* C27: `GF.VectorPartitionedTyings.C27_asDofs_i_plain`
* C27: `GF.VectorPartitionedTyings.C27_AsDofs_i`
* C27: `GF.VectorPartitionedTyings.C27_virtual_work`
* C28: `GF.MatrixPartitionedTyings.C28_assemble`
* C28: `GF.MatrixPartitionedTyings.C28_todense_matrix`
* C28: `GF.MatrixPartitionedTyings.C28_solve_any`
* C28: `GF.MatrixPartitionedTyings.C28_solve_nodevec`
* C28: `GF.MatrixPartitionedTyings.C28_virtual_work`
* C29: `GF.MatrixPartitionedTyings.C29_solve_dofval_out_of_bounds`
* C29: `GF.MatrixPartitionedTyings.C29_solve_u`
* C29: `GF.MatrixPartitionedTyings.C29_agree_iff`
* C29: `GF.MatrixPartitionedTyings.C29_solve_dofval`
* C29: `GF.MatrixPartitionedTyings.C29_solve_u_wrong`
* C30: `GF.StopList.C30_window`
* C30: `GF.StopList.C30_window_entries`
* C31: `GF.C31_coor`
* C31: `GF.C31_conn`
* C31: `GF.C31_cover`
* C32: `GF.C32_quad4_origin`
* C32: `GF.C32_quad4_edges`
* C32: `GF.C32_tri3_edges`
* C32: `GF.C32_quad4_corners`
* C32: `GF.C32_tri3_corners`
* C33: `GF.C33_quad4_nodesPeriodic`
* C33: `GF.C33_quad4_dofsPeriodic`
* C33: `GF.C33_tri3_nodesPeriodic`
* C33: `GF.C33_tri3_dofsPeriodic`
* C34: `GF.C34_coor`
* C34: `GF.C34_conn`
* C34: `GF.C34_cover`
* C34: `GF.C34_faces`
* C34: `GF.C34_open_faces`
* C34: `GF.C34_edges`
* C34: `GF.C34_open_edges`
* C34: `GF.C34_corners`
* C34: `GF.C34_nodesPeriodic`
* C34: `GF.C34_dofsPeriodic`
* C35: `GF.C35_conn`
* C35: `GF.C35_getOrientation`
* C35: `GF.C35_setOrientation`
* C35: `GF.C35_degenerate`
* C36: `GF.C36_layers`
* C36: `GF.C36_rules`
* C36: `GF.C36_mesh`
* C36: `GF.C36_distinct`
* C36: `GF.C36_convex`
* C36: `GF.C36_tiling`
* C36: `GF.C36_conforming`
* C36: `GF.C36_used`
* C36: `GF.C36_size`
* C37: `GF.C37_coordination`
* C37: `GF.C37_elem2node`
* C37: `GF.C37_sizes`
* C37: `GF.C37_proper`
* C37: `GF.C37_elem2node_tied`
* C37: `GF.C37_tied_out_of_bounds`
* C38: `GF.C38_nodaltyings`
* C38: `GF.C38_classes`
* C38: `GF.C38_any_table`
* C38: `GF.C38_quad4`
* C39: `GF.Stitch.C39_ok_iff`
* C39: `GF.Stitch.C39_combined`
* C39: `GF.Stitch.C39_elements_partition`
* C39: `GF.Stitch.C39_elemset`
* C39: `GF.Stitch.C39_nodesets`
* C39: `GF.Stitch.C39_elemsets`
* C39: `GF.Stitch.C39_separated`
* C39: `GF.Stitch.C39_exact`
* C40: `GF.C40_contained`
* C40: `GF.C40_fine_scaled`
* C40: `GF.C40_mapToFine`
* C40: `GF.C40_meanToCoarse`
* C40: `GF.C40_averageToCoarse`
* C40: `GF.C40_roundtrip`
* C41: `GF.C41_edgesize`
* C41: `GF.C41_centers`
* C41: `GF.C41_nodemap`
* C41: `GF.C41_nodemap_consistent`
* C41: `GF.C41_nodal_mass`
* C41: `GF.C41_total_mass`
* C41: `GF.C41_average`
* C41: `GF.C41_center_of_gravity`
* C41: `GF.C41_centroid`
* C41: `GF.C41_centroid_inexact`
* C41: `GF.C41_positive`
* C41: `GF.C41_regular`
* C42: `GF.Element.C42_inverse_2x2`
* C42: `GF.Element.C42_inverse_3x3`
* C42: `GF.Element.C42_singular`
* C43: `GF.Element.Quad4.C43_shape_functions`
* C43: `GF.Element.Quad4.C43_local_gradients`
* C43: `GF.Element.Quad4.C43_local_gradients_real`
* C43: `GF.Element.Quad4.C43_interpolation`
* C43: `GF.Element.Quad4.C43_nodal_interpolation`
* C44: `GF.Element.Quad4.C44_affine_gradient`
* C44: `GF.Element.Quad4.C44_chain_rule`
* C45: `GF.Element.Hex8.C45_computed`
* C45: `GF.Element.Hex8.C45_exact_iff`
* C45: `GF.Element.Hex8.C45_box`
* C45: `GF.Element.Hex8.C45_shear_wrong`
* C46: `GF.Element.Quad4.C46_volume`
* C46: `GF.Element.Quad4.C46_area`
* C46: `GF.Element.Quad4.C46_midpoint_quarter`
* C46: `GF.Element.Quad4.C46_rules_exact`
* C46: `GF.Element.Quad4.C46_positive`
* C47: `GF.C47_mass_generic`
* C47: `GF.Element.Quad4.C47_mass`
* C47: `GF.Element.Quad4.C47_mass_psd`
* C47: `GF.Element.Quad4.C47_mass_nodal`
* C48: `GF.Element.Quad4.C48_internal_force`
* C48: `GF.Element.Quad4.C48_moment`
* C49: `GF.Element.Quad4.C49_stiffness`
* C49: `GF.Element.Quad4.C49_rotation`
* C49: `GF.Element.Quad4.C49_energy`
* C50: `GF.Element.Axi.C50_axisymmetric_life`
* C50: `GF.Element.Axi.C50_axisymmetric_volume`
* C50: `GF.Element.Axi.C50_axisymmetric_total`
* C50: `GF.Element.Axi.C50_axisymmetric_positive`
* C50: `GF.Element.Axi.C50_axisymmetric_gradient`
* C50: `GF.Element.Axi.C50_axisymmetric_hoop`
* C50: `GF.Element.Axi.C50_axisymmetric_mass`
* C50: `GF.Element.Axi.C50_axisymmetric_force`
* C50: `GF.Element.Axi.C50_axisymmetric_stiffness`
* C50: `GF.Element.Quad4.C50_planar_life`
* C50: `GF.Element.Quad4.C50_planar_volume`
* C50: `GF.Element.Quad4.C50_planar_area`
* C50: `GF.Element.Quad4.C50_planar_gradient`
* C50: `GF.Element.Quad4.C50_planar_force`
* C50: `GF.Element.Quad4.C50_planar_stiffness`
* C50: `GF.Element.Quad4.C50_planar_interpolation`
* C51: `GF.Element.C51_asElementVector`
* C51: `GF.Element.C51_assembleNodeVector`
* C52: `GF.Allocate.C52_asTensor_write`
* C52: `GF.Allocate.C52_AsTensor`
* C52: `GF.Allocate.C52_AsTensor_scalar`
* C53: `GF.C53_shapes`
* C53: `GF.Element.Quad4.C53_constructor`
* C53: `GF.Element.Quad4.C53_update_history`
* C54: `GF.Element.Quad4.C54_body_force`
* C55: `GF.C55_shapes`
* C55: `GF.Element.Hex8.C55_constructor`
* C55: `GF.Element.Hex8.C55_update_history`
* C55: `GF.Element.Hex8.C55_shape_functions`
* C55: `GF.Element.Hex8.C55_local_gradients`
* C55: `GF.Element.Hex8.C55_volume`
* C55: `GF.Element.Hex8.C55_parallelepiped`
* C55: `GF.Element.Hex8.C55_volume_integral`
* C56: `GF.Element.Hex8.C56_mass`
* C56: `GF.Element.Hex8.C56_mass_nodal`
* C56: `GF.Element.Hex8.C56_internal_force`
* C56: `GF.Element.Hex8.C56_stiffness`
* C56: `GF.Element.Hex8.C56_interpolation`
* C56: `GF.Element.Hex8.C56_body_force`
* C57: `GF.C57_overlapping`
* C57: `GF.ManualStitch.C57_stitch`
* C57: `GF.ManualStitch.C57_checked`
* C57: `GF.ManualStitch.C57_repeated`
* C58: `GF.Vstack.C58_stack`
* C58: `GF.Vstack.C58_mismatch`
* C59: `GF.C59_edges`
* C59: `GF.C59_corners`
* C60: `GF.C60_nodesPeriodic`
* C60: `GF.C60_dofsPeriodic`
* C61: `GF.C61_roll`
* C62: `GF.C62_ravel`
* C62: `GF.C62_exact`
* C62: `GF.C62_all`
* C63: `GF.C63_around`
* C63: `GF.C63_leftright`
* C63: `GF.C63_middle_only`
* C64: `GF.C64_roundtrip`
* C65: `GF.C65_map`
* C65: `GF.C65_partition`
* C65: `GF.C65_area`
* C65: `GF.C65_mapToRegular`
* C66: `GF.C66_layers`
* C66: `GF.C66_rules`
* C66: `GF.C66_size`
* C67: `GF.C67_mesh`
* C68: `GF.C68_tiling`
* C69: `GF.C69_conforming`
* C70: `GF.C70_sides`
* C70: `GF.C70_bottom_top_faces`
* C70: `GF.C70_edges`
* C70: `GF.C70_open_edges`
* C70: `GF.C70_corners`
* C70: `GF.C70_side_faces`
* C70: `GF.C70_side_faces_complete`
* C70: `GF.C70_side_faces_incomplete`
* C71: `GF.C71_nodesPeriodic`
* C71: `GF.C71_nodesPeriodic_complete`
* C71: `GF.C71_dofsPeriodic`
* C71: `GF.C71_dofsPeriodic_complete`
* C72: `GF.C72_edges_matched`
* C72: `GF.C72_quad4_regular`
* C72: `GF.C72_tri3_regular`
* C72: `GF.C72_finelayer`
* C73: `GF.C73_quad4_regular`
* C73: `GF.C73_finelayer`
* C73: `GF.C73_area`
* C73: `GF.C73_volume`
* C74: `GF.C74_constant_stress`
* C74: `GF.C74_interior`
* C74: `GF.C74_periodic`
* C74: `GF.C74_quad4_regular`
* C74: `GF.C74_quad4_regular_periodic`
* C74: `GF.C74_finelayer`
* C74: `GF.C74_finelayer_periodic`
* C75: `GF.C75_tangent`
* C75: `GF.C75_symmetric`
* C75: `GF.C75_rigid`
* C75: `GF.C75_energy`
* C76: `GF.C76_no_spurious_modes`
* C77: `GF.C77_unique`
* C77: `GF.C77_solve`
* C78: `GF.C78_patch`
* C78: `GF.C78_quad4_regular`
* C78: `GF.C78_finelayer`
* C79: `GF.C79_divergence`
* C79: `GF.C79_average`
* C80: `GF.C80_solve`
* C80: `GF.C80_quad4_regular`
* C80: `GF.C80_finelayer`
* C81: `GF.C81_reaction`
* C81: `GF.C81_equilibrium`
* C82: `GF.C82_homogeneous`
* C82: `GF.C82_quad4_regular`
* C83: `GF.C83_mass`
* C84: `GF.C84_momentum`
* C84: `GF.C84_macroscopic`
* C84: `GF.C84_quad4_regular`
* C85: `GF.C85_reversible`
* C85: `GF.C85_energy`
* C86: `GF.C86_asNode_dofval`
* C86: `GF.C86_asElement_dofval`
* C86: `GF.C86_asElement_nodevec`
* C86: `GF.C86_dofs_is_u`
* C86: `GF.C86_copy_u`
* C86: `GF.C86_AsDofs_u_dofval`
* C86: `GF.C86_dofs_is_p`
* C86: `GF.C86_copy_p`
* C86: `GF.C86_AsDofs_p_dofval`
* C86: `GF.C86_NodeFromPartitioned`
* C86: `GF.C86_ElementFromPartitioned`
* C86: `GF.C86_takeDofs`
* C86: `GF.C86_takeLoop`
* C86: `GF.C86_invLoop`
* C86: `GF.C86_todense`
* C86: `GF.C86_diagonal_dot_nodevec`
* C86: `GF.C86_mulLoop`
* C86: `GF.C86_diagonalPartitioned_dot_nodevec`
* C86: `GF.C86_diagonalPartitioned_reaction_nodevec`
* C86: `GF.C86_diagonal_solve_nodevec`
* C86: `GF.C86_diagonalPartitioned_solve_nodevec`
* C86: `GF.C86_partitioned_reaction_nodevec`
* C86: `GF.C86_partitioned_solve_nodevec`
* C86: `GF.C86_tyings_solve_nodevec`
* C86: `GF.C86_tyings_copy_p`
* C86: `GF.C86_tyings_asDofs_i`
* C86: `GF.C86_putDofs`
* C86: `GF.C86_DofsFromParitioned`
* C86: `GF.C86_putDiag`
* C86: `GF.C86_mulDofs`
* C86: `GF.C86_asElementVector`
* C86: `GF.C86_gradN_vector`
* C86: `GF.C86_gradN_vector_T`
* C86: `GF.C86_symGradN_vector`
* C86: `GF.C86_int_N_scalar_NT_dV`
* C86: `GF.C86_int_gradN_dot_tensor4_dot_gradNT_dV`
* C86: `GF.C86_quad4_gradN_vector`
* C86: `GF.C86_planar_gradN_vector`
* C86: `GF.C86_axi_gradN_vector`
* C86: `GF.C86_quad4_gradN_vector_T`
* C86: `GF.C86_planar_gradN_vector_T`
* C86: `GF.C86_axi_gradN_vector_T`
* C86: `GF.C86_quad4_symGradN_vector`
* C86: `GF.C86_planar_symGradN_vector`
* C86: `GF.C86_axi_symGradN_vector`
* C86: `GF.C86_quad4_int_N_scalar_NT_dV`
* C86: `GF.C86_quad4_int_gradN_dot_tensor2_dV`
* C86: `GF.C86_axi_int_gradN_dot_tensor2_dV`
* C86: `GF.C86_axi_int_gradN_dot_tensor4_dot_gradNT_dV`
* C86: `GF.C86_hex8_int_N_scalar_NT_dV`
* C86: `GF.C86_hex8_int_gradN_dot_tensor2_dV`
* C86: `GF.C86_interpQuad_vector`
* C86: `GF.C86_int_N_vector_dV`
* C86: `GF.C86_quad4_interpQuad_vector`
* C86: `GF.C86_compute_dN`
* C86: `GF.C86_quad4_compute_dN`
* C86: `GF.C86_axi_compute_dN`
* C87: `GF.C87_asDofs_nodevec`
* C87: `GF.C87_asDofs_nodevec_agree`
* C87: `GF.C87_AsDofs_u_nodevec`
* C87: `GF.C87_AsDofs_u_nodevec_agree`
* C87: `GF.C87_AsDofs_p_nodevec`
* C87: `GF.C87_AsDofs_p_nodevec_agree`
* C87: `GF.C87_windowLoop`
* C87: `GF.C87_windowLoop_agree`
* C87: `GF.C87_asDofs_elemvec`
* C87: `GF.C87_asDofs_elemvec_agree`
* C87: `GF.C87_AsDofs_u_elemvec`
* C87: `GF.C87_AsDofs_u_elemvec_agree`
* C87: `GF.C87_AsDofs_p_elemvec`
* C87: `GF.C87_AsDofs_p_elemvec_agree`
* C87: `GF.C87_asNode_elemvec`
* C87: `GF.C87_asNode_elemvec_agree`
* C87: `GF.C87_quad4_regular`
* C87: `GF.C87_quad4_periodic`
* C87: `GF.C87_node_element_node`
* C88: `GF.C88_asNode_dofval`
* C88: `GF.C88_asElement_dofval`
* C88: `GF.C88_asElement_nodevec`
* C88: `GF.C88_AsElement`
* C88: `GF.C88_AssembleNode`
* C88: `GF.C88_partitioned_dofs_is_u`
* C88: `GF.C88_partitioned_dofs_is_p`
* C88: `GF.C88_partitioned_copy_u`
* C88: `GF.C88_partitioned_copy_p`
* C88: `GF.C88_partitioned_NodeFromPartitioned`
* C88: `GF.C88_partitioned_ElementFromPartitioned`
* C88: `GF.C88_partitioned_AsDofs_u_dofval`
* C88: `GF.C88_partitioned_AsDofs_p_dofval`
* C88: `GF.C88_partitioned_DofsFromParitioned`
* C88: `GF.C88_tyings_copy_p`
* C88: `GF.C88_diagonal_inverse`
* C88: `GF.C88_diagonal_todense`
* C88: `GF.C88_diagonal_dot_nodevec`
* C88: `GF.C88_diagonal_factorize`
* C88: `GF.C88_diagonal_solve_nodevec`
* C88: `GF.C88_diagonal_solve_dofval`
* C88: `GF.C88_putDofs`
* C88: `GF.C88_putDiag`
* C88: `GF.C88_mulDofs`
* C88: `GF.C88_takeDofs`
* C88: `GF.C88_mulLoop`
* C88: `GF.C88_diagonalPartitioned_dot_nodevec`
* C88: `GF.C88_diagonalPartitioned_reaction_nodevec`
* C88: `GF.C88_diagonalPartitioned_todense`
* C88: `GF.C88_diagonalPartitioned_data`
* C88: `GF.C88_diagonalPartitioned_set`
* C88: `GF.C88_diagonalPartitioned_dot_dofval`
* C88: `GF.C88_diagonalPartitioned_factorize`
* C88: `GF.C88_diagonalPartitioned_solve_nodevec`
* C88: `GF.C88_diagonalPartitioned_solve_u`
* C88: `GF.C88_quad4_construct`
* C88: `GF.C88_quad4_new`
* C88: `GF.C88_planar_new`
* C88: `GF.C88_quad4_newGauss`
* C88: `GF.C88_planar_newGauss`
* C88: `GF.C88_quad4_update_x`
* C88: `GF.C88_axi_new`
* C88: `GF.C88_axi_newGauss`
* C88: `GF.C88_axi_update_x`
* C88: `GF.C88_hex8_new`
* C88: `GF.C88_hex8_newGauss`
* C88: `GF.C88_hex8_update_x`
* C88: `GF.C88_nodal_mass`
* C88: `GF.C88_center_of_gravity`
* C88: `GF.C88_step`
* C88: `GF.C88_startup`
* C88: `GF.C88_simulation`
* C88: `GF.C88_gradN_vector`
* C88: `GF.C88_gradN_vector_T`
* C88: `GF.C88_symGradN_vector`
* C88: `GF.C88_int_N_scalar_NT_dV`
* C88: `GF.C88_int_gradN_dot_tensor4_dot_gradNT_dV`
* C88: `GF.C88_quad4_gradN_vector`
* C88: `GF.C88_planar_gradN_vector`
* C88: `GF.C88_axi_gradN_vector`
* C88: `GF.C88_quad4_gradN_vector_T`
* C88: `GF.C88_planar_gradN_vector_T`
* C88: `GF.C88_axi_gradN_vector_T`
* C88: `GF.C88_quad4_symGradN_vector`
* C88: `GF.C88_planar_symGradN_vector`
* C88: `GF.C88_axi_symGradN_vector`
* C88: `GF.C88_quad4_int_N_scalar_NT_dV`
* C88: `GF.C88_quad4_int_gradN_dot_tensor2_dV`
* C88: `GF.C88_axi_int_gradN_dot_tensor2_dV`
* C88: `GF.C88_hex8_int_N_scalar_NT_dV`
* C88: `GF.C88_hex8_int_gradN_dot_tensor2_dV`
* C88: `GF.C88_asElementVector`
* C88: `GF.C88_axi_int_gradN_dot_tensor4_dot_gradNT_dV`
* C88: `GF.C88_interpQuad_vector`
* C88: `GF.C88_int_N_vector_dV`
* C88: `GF.C88_quad4_interpQuad_vector`
* C88: `GF.C88_compute_dN`
* C88: `GF.C88_quad4_compute_dN`
* C88: `GF.C88_axi_compute_dN`
* C89: `GF.C89_hex8_regular`
* C89: `GF.C89_volume`
* C89: `GF.C89_gradient`
* C90: `GF.C90_constant_stress`
* C90: `GF.C90_interior`
* C90: `GF.C90_periodic`
* C90: `GF.C90_hex8_regular`
* C90: `GF.C90_hex8_regular_periodic`
* C91: `GF.C91_tangent`
* C91: `GF.C91_symmetric`
* C91: `GF.C91_energy`
* C91: `GF.C91_no_spurious_modes`
* C92: `GF.C92_unique`
* C92: `GF.C92_solve`
* C92: `GF.C92_patch`
* C92: `GF.C92_hex8_regular`
* C93: `GF.C93_residual`
* C93: `GF.C93_fixed_displacement`
* C93: `GF.C93_fixed_displacement_uniform`
* C93: `GF.C93_quad4_fixed`
* C93: `GF.C93_quad4_periodic`
* C93: `GF.C93_quad4_periodic_uniform`
* C93: `GF.C93_finelayer`
* C93: `GF.C93_partial_periodic`
* C93: `GF.C93_partial_periodic_uniform`
* C94: `GF.C94_solve_again`
* C94: `GF.C94_step`
* C94: `GF.C94_run`
* C94: `GF.C94_programs`
* C94: `GF.C94_quad4_regular`
* C95: `GF.C95_run`
* C95: `GF.C95_converged`
* C95: `GF.C95_linear`
* C95: `GF.C95_homogeneous`
* C95: `GF.C95_quad4_regular`
* C96: `GF.Element.Quad4.C96_planar`
* C96: `GF.Element.Quad4.C96_gradient`
* C96: `GF.Element.Quad4.C96_rotation`
* C97: `GF.C97_same_solve`
* C97: `GF.C97_same_program`
* C97: `GF.C97_same_example`
* C97: `GF.C97_fixed_displacement`
* C97: `GF.C97_quad4_regular`
* C98: `GF.C98_ldlt`
* C98: `GF.C98_ldlt_not_direct`
* C98: `GF.C98_partitioned`
* C98: `GF.C98_tyings`
* C98: `GF.C98_quad4_regular`
* C98: `GF.Element.Hex8.C98_partitioned3`
* C99: `GF.C99_run`
* C99: `GF.C99_converged`
* C99: `GF.C99_not_gradient`
* C99: `GF.C99_homogeneous`
* C99: `GF.C99_quad4_regular`
* C100: `GF.C100_average`
* C100: `GF.C100_solve`
* C100: `GF.C100_homogeneous`
* C100: `GF.C100_reaction`
* C100: `GF.C100_equilibrium`
* C100: `GF.C100_hex8_regular`
* C101: `GF.C101_volume`
* C101: `GF.C101_constant_stress`
* C101: `GF.C101_interior`
* C101: `GF.C101_quad4_regular`
* C101: `GF.C101_finelayer`
* C102: `GF.C102_quad4_regular`
* C102: `GF.C102_finelayer`
* C102: `GF.C102_tangent`
* C102: `GF.C102_energy`
* C102: `GF.C102_no_spurious_modes`
* C102: `GF.C102_unique`
* C102: `GF.C102_solve`
* C102: `GF.C102_patch`
* C103: `GF.C103_sides`
* C103: `GF.C103_stack`
* C103: `GF.C103_patch`
* C104: `GF.C104_unique`
* C104: `GF.C104_stitch`
* C104: `GF.C104_regular`
* C105: `GF.C105_python_misses`
* C106: `GF.C106_stable`
* C106: `GF.C106_cfl`
* C106: `GF.C106_quad4_regular`
* C106: `GF.C106_mode`
* C106: `GF.C106_unstable`
* C107: `GF.C107_binary`
* C107: `GF.C107_assembleDofs_nodevec`
* C107: `GF.C107_assembleDofs_elemvec`
* C107: `GF.C107_assembleNode`
* C107: `GF.C107_renumber`
* C107: `GF.Element.C107_new`
* C107: `GF.Element.C107_gradN_quad4`
* C107: `GF.Element.C107_force_quad4`
* C107: `GF.Element.C107_force_hex8`
* C107: `GF.Element.C107_internal_force`
* C107: `GF.C107_diagonal`
* C107: `GF.Element.Axi.C107_new_axi`
* C107: `GF.Element.Axi.C107_gradN_axi`
* C107: `GF.Element.Axi.C107_force_axi`
* C107: `GF.Element.Axi.C107_internal_force_axi`
* C107: `GF.Element.Axi.C107_mass_axi`
* C107: `GF.Element.Axi.C107_stiffness_axi`
* C107: `GF.Element.Axi.C107_volume_axi`
* C107: `GF.Element.C107_dN_quad4`
* C107: `GF.Element.C107_dN_update`
* C107: `GF.Element.C107_dN_axi`
* C107: `GF.Element.C107_gradN_hex8`
* C107: `GF.Element.C107_stiffness`
* C107: `GF.Element.C107_mass_quad4`
* C107: `GF.Element.C107_mass_hex8`
* C107: `GF.C107_order_matters`
* C107: `GF.Element.C107_shape_quad4`
* C107: `GF.Element.C107_shape_hex8`
* C107: `GF.Element.C107_volume_quad4`
* C107: `GF.Element.C107_volume_update`
* C107: `GF.Element.Hex8.C107_volume_hex8`
* C108: `GF.Vector.C108_asDofs`
* C108: `GF.Vector.C108_asNode`
* C108: `GF.Vector.C108_assembleDofs`
* C108: `GF.Vector.C108_assembleNode`
* C108: `GF.VectorPartitioned.C108_new`
* C108: `GF.VectorPartitioned.C108_fromPartitioned`
* C108: `GF.VectorPartitioned.C108_asDofs_up`
* C108: `GF.Element.C108_generic`
* C108: `GF.Element.Quad4.C108_methods`
* C108: `GF.Element.Quad4.C108_planar`
* C108: `GF.Element.Quad4.C108_integrals`
* C108: `GF.Element.Quad4.C108_new`
* C108: `GF.Element.Quad4.C108_update_x`
* C108: `GF.Element.Hex8.C108_methods`
* C108: `GF.Element.Hex8.C108_integrals`
* C108: `GF.Element.Hex8.C108_new`
* C108: `GF.Element.Hex8.C108_update_x`
* C108: `GF.Element.Axi.C108_new`
* C108: `GF.Element.Axi.C108_update_x`
* C108: `GF.Element.Axi.C108_methods`
* C108: `GF.Element.Axi.C108_integrals`
* C108: `GF.C108_finelayer`
* C108: `GF.C108_elementsLayer`
* C108: `GF.C108_ravel`
* C108: `GF.C108_mapToRegular`
* C108: `GF.Tri3.C108_getOrientation`
* C108: `GF.Tri3.C108_setOrientationVal`
* C108: `GF.Tri3.C108_setOrientation`
* C108: `GF.C108_ravel_not_caught`
* C108: `GF.SMatrix.C108_dot`
* C108: `GF.SolverState.C108_solve`
* C108: `GF.MatrixPartitioned.C108_new`
* C108: `GF.MatrixPartitioned.C108_assemble`
* C108: `GF.MatrixPartitioned.C108_dot`
* C108: `GF.MatrixPartitioned.C108_reaction`
* C108: `GF.MatrixPartitioned.C108_solve`
* C108: `GF.MatrixDiagonal.C108_assemble`
* C108: `GF.MatrixDiagonal.C108_set`
* C108: `GF.MatrixDiagonal.C108_dot`
* C108: `GF.MatrixDiagonal.C108_solve`
* C108: `GF.MatrixDiagonalPartitioned.C108_new`
* C108: `GF.MatrixDiagonalPartitioned.C108_assemble`
* C108: `GF.ManualStitch.C108_new`
* C108: `GF.C108_overlapping`
* C108: `GF.Stitch.C108_push_back`
* C108: `GF.Stitch.C108_push_back_mismatch`
* C108: `GF.Stitch.C108_history`
* C108: `GF.Stitch.C108_sets`
* C108: `GF.Vstack.C108_push_back`
* C108: `GF.C108_reorder`
* C108: `GF.RefineRegular.C108_map`
* C108: `GF.RefineRegular.C108_average`
* C108: `GF.C108_measures`
* C108: `GF.C108_nodemap`
* C108: `GF.Periodic.C108_new`
* C108: `GF.Periodic.C108_guarantee`
* C108: `GF.Control.C108_new`
* C108: `GF.VectorPartitionedTyings.C108_new`
* C108: `GF.VectorPartitionedTyings.C108_AsDofs_i`
* C108: `GF.MatrixDiagonal.C108_unassembled`
* C109: `GF.C109_minimum`
* C109: `GF.C109_superposition`
* C109: `GF.C109_reciprocity`
* C109: `GF.C109_clapeyron`
* C109: `GF.C109_support`
* C109: `GF.C109_material`
* C109: `GF.C109_quad4_regular`
* C109: `GF.C109_finelayer`
* C110: `GF.C110_finelayer`
* C110: `GF.C110_bounds`
* C110: `GF.C110_symmetric`
* C110: `GF.C110_stiffer`
* C110: `GF.C110_quad4_regular`
* C111: `GF.C111_renumber`
* C111: `GF.C111_dofs`
* C112: `GF.C112_bounds`
* C112: `GF.C112_symmetric`
* C112: `GF.C112_stiffer`
* C112: `GF.C112_hex8_regular`
* C113: `GF.C113_minimum`
* C113: `GF.C113_superposition`
* C113: `GF.C113_reciprocity`
* C113: `GF.C113_clapeyron`
* C113: `GF.C113_support`
* C113: `GF.C113_material`
* C113: `GF.C113_hex8_regular`
* C114: `GF.C114_renumber`
* C114: `GF.C114_dofs`
* C115: `GF.C115_minimum`
* C115: `GF.C115_superposition`
* C115: `GF.C115_reciprocity`
* C115: `GF.C115_clapeyron`
* C115: `GF.C115_support`
* C115: `GF.C115_material`
* C115: `GF.C115_quad4_regular`
* C116: `GF.C116_refine`
* C117: `GF.C117_volume`
* C117: `GF.C117_gradient`
* C117: `GF.C117_no_transition`
* C118: `GF.C118_mass`
* C118: `GF.C118_momentum`
* C118: `GF.C118_reversible`
* C118: `GF.C118_energy`
* C118: `GF.C118_macroscopic`
* C118: `GF.C118_finelayer`
* C118: `GF.C118_hex8_regular`
* C119: `GF.C119_stable`
* C119: `GF.C119_cfl`
* C119: `GF.C119_hex8_regular`
* C119: `GF.C119_mode`
* C119: `GF.C119_unstable`
* C120: `GF.C120_mass`
* C120: `GF.C120_momentum`
* C120: `GF.C120_reversible`
* C120: `GF.C120_energy`
* C120: `GF.C120_total`
* C120: `GF.C120_quad4_regular`
* C120: `GF.C120_axis`
* C121: `GF.C121_stable`
* C121: `GF.C121_cfl`
* C121: `GF.C121_quad4_regular`
* C121: `GF.C121_mode`
* C121: `GF.C121_unstable`
* C122: `GF.C122_axi`
* C122: `GF.C122_axi_exists`
* C122: `GF.C122_finelayer`
* C122: `GF.C122_finelayer_axi`
* C122: `GF.C122_quad4`
* C122: `GF.C122_quad4_exists`
* C122: `GF.C122_hex8`
* C122: `GF.C122_hex8_exists`

## propext,Quot.sound (64 theorems)

* C03: `GF.C03_element_of_dofs`
* C03: `GF.C03_element_of_node`
* C08: `GF.C08_constructor`
* C12: `GF.C12_partition`
* C14: `GF.C14_copy`
* C14: `GF.C14_copy_both`
* C14: `GF.C14_masks`
* C15: `GF.C15_constructor`
* C23: `GF.C23_constructor`
* C23: `GF.C23_todense`
* C23: `GF.C23_dot_nodevec`
* C24: `GF.C24_data`
* C24: `GF.C24_todense`
* C24: `GF.C24_dot_dofval`
* C24: `GF.C24_dot_nodevec`
* C24: `GF.C24_dot_up`
* C24: `GF.C24_solve_u`
* C24: `GF.C24_solve_undefined`
* C24: `GF.C24_solve_nodevec_undefined`
* C24: `GF.C24_reaction_dofval`
* C24: `GF.C24_reaction_nodevec`
* C24: `GF.C24_reaction_p`
* C25: `GF.Periodic.C25_partition`
* C27: `GF.VectorPartitionedTyings.C27_constructor`
* C27: `GF.VectorPartitionedTyings.C27_copy_p`
* C28: `GF.MatrixPartitionedTyings.C28_todense`
* C30: `GF.StopList.C30_all_less`
* C30: `GF.StopList.C30_descending`
* C32: `GF.C32_tri3_zero`
* C36: `GF.C36_zero`
* C39: `GF.Stitch.C39_nodeset`
* C40: `GF.C40_partition`
* C41: `GF.C41_unsupported`
* C49: `GF.Element.Quad4.C49_symmetry`
* C51: `GF.Element.C51_isSequential_always_true`
* C51: `GF.Element.C51_isSequential_wrong`
* C51: `GF.Element.C51_isDiagonal`
* C52: `GF.Allocate.C52_as3d`
* C57: `GF.ManualStitch.C57_sets`
* C64: `GF.C64_sound`
* C66: `GF.C66_zero`
* C87: `GF.C87_asDofs_nodevec_race`
* C87: `GF.C87_AsDofs_u_nodevec_race`
* C87: `GF.C87_AsDofs_p_nodevec_race`
* C87: `GF.C87_windowLoop_race`
* C87: `GF.C87_asDofs_elemvec_race`
* C87: `GF.C87_AsDofs_u_elemvec_race`
* C87: `GF.C87_AsDofs_p_elemvec_race`
* C87: `GF.C87_asNode_elemvec_race`
* C108: `GF.Vector.C108_new`
* C108: `GF.Vector.C108_asElement`
* C108: `GF.Vector.C108_copy`
* C108: `GF.VectorPartitioned.C108_copy`
* C108: `GF.SMatrix.C108_new`
* C108: `GF.SMatrix.C108_assemble`
* C108: `GF.SMatrix.C108_set_add`
* C108: `GF.MatrixDiagonalPartitioned.C108_set`
* C108: `GF.MatrixDiagonalPartitioned.C108_dot`
* C108: `GF.MatrixDiagonalPartitioned.C108_reaction`
* C108: `GF.MatrixDiagonalPartitioned.C108_solve`
* C108: `GF.C108_regular`
* C108: `GF.ManualStitch.C108_sets`
* C108: `GF.Stitch.C108_all_sets_same`
* C108: `GF.VectorPartitionedTyings.C108_copy_p`
