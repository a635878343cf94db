{
 "claims": [
  {
   "property": "C01",
   "status": "proved",
   "theorems": [
    "GF.C01_dofs_node_dofs"
   ],
   "note": "Vector: DOF->node->DOF round trip"
  },
  {
   "property": "C02",
   "status": "proved",
   "theorems": [
    "GF.C02_node_dofs_node",
    "GF.C02_schedule_independent",
    "GF.C02_some_owner",
    "GF.C02_schedule_matters"
   ],
   "note": "Vector: node->DOF->node on consistent fields"
  },
  {
   "property": "C03",
   "status": "proved",
   "theorems": [
    "GF.C03_copy",
    "GF.C03_element_of_dofs",
    "GF.C03_element_of_node",
    "GF.C03_node_element_node",
    "GF.C03_dofs_element_dofs"
   ],
   "note": "Vector: element gather and element->DOF/node round trips"
  },
  {
   "property": "C04",
   "status": "proved",
   "theorems": [
    "GF.C04_assemble_element",
    "GF.C04_assemble_node"
   ],
   "note": "Vector: assembly is the exact sum of contributions"
  },
  {
   "property": "C05",
   "status": "proved",
   "theorems": [
    "GF.C05_adjoint",
    "GF.C05_total"
   ],
   "note": "Vector: assembly is adjoint to gathering"
  },
  {
   "property": "C06",
   "status": "proved",
   "theorems": [
    "GF.C06_assembleNode",
    "GF.C06_linear"
   ],
   "note": "Vector: AssembleNode distributes the assembled DOF value"
  },
  {
   "property": "C07",
   "status": "proved",
   "theorems": [
    "GF.C07_rank_dispatch",
    "GF.C07_documented_accepted"
   ],
   "note": "Vector: run-time rank dispatch"
  },
  {
   "property": "C08",
   "status": "proved",
   "theorems": [
    "GF.C08_constructor",
    "GF.C08_bad_connectivity_ub",
    "GF.C08_safe"
   ],
   "note": "Memory safety of Vector"
  },
  {
   "property": "C09",
   "status": "proved",
   "theorems": [
    "GF.C09_renumber",
    "GF.C09_idempotent"
   ],
   "note": "Renumber: contiguous, order preserving, idempotent"
  },
  {
   "property": "C10",
   "status": "proved",
   "theorems": [
    "GF.C10_apply_defined_iff"
   ],
   "note": "Renumber: index gaps"
  },
  {
   "property": "C11",
   "status": "proved",
   "theorems": [
    "GF.C11_reorder_block",
    "GF.C11_reorder_apply"
   ],
   "note": "Reorder: block order"
  },
  {
   "property": "C12",
   "status": "proved",
   "theorems": [
    "GF.C12_constructor",
    "GF.C12_partition",
    "GF.C12_bijection"
   ],
   "note": "VectorPartitioned: iiu/iip partition the DOFs"
  },
  {
   "property": "C13",
   "status": "proved",
   "theorems": [
    "GF.C13_split_recombine",
    "GF.C13_recombine_split",
    "GF.C13_node",
    "GF.C13_element",
    "GF.C13_node_via_dofs"
   ],
   "note": "VectorPartitioned: split/recombine"
  },
  {
   "property": "C14",
   "status": "proved",
   "theorems": [
    "GF.C14_copy",
    "GF.C14_copy_both",
    "GF.C14_masks"
   ],
   "note": "VectorPartitioned: Copy_u and Copy_p are complementary"
  },
  {
   "property": "C15",
   "status": "proved",
   "theorems": [
    "GF.C15_constructor",
    "GF.C15_assemble",
    "GF.C15_total"
   ],
   "note": "Matrix: assembly equals the elementwise sum"
  },
  {
   "property": "C16",
   "status": "proved",
   "theorems": [
    "GF.C16_history",
    "GF.C16_set_entries",
    "GF.C16_add_entries"
   ],
   "note": "Matrix: set/add entry semantics"
  },
  {
   "property": "C17",
   "status": "proved",
   "theorems": [
    "GF.C17_dot_dofval",
    "GF.C17_dot_nodevec",
    "GF.C17_dot_assembled",
    "GF.C17_dot_nodevec_assembled"
   ],
   "note": "Matrix: Dot"
  },
  {
   "property": "C18",
   "status": "proved",
   "theorems": [
    "GF.C18_constructor",
    "GF.C18_constructor_gap",
    "GF.C18_assemble_todense",
    "GF.C18_dot_dofval",
    "GF.C18_dot_nodevec"
   ],
   "note": "MatrixPartitioned agrees with Matrix"
  },
  {
   "property": "C19",
   "status": "proved",
   "theorems": [
    "GF.C19_history",
    "GF.C19_agrees"
   ],
   "note": "MatrixPartitioned: set/add agree with Matrix"
  },
  {
   "property": "C20",
   "status": "proved",
   "theorems": [
    "GF.C20_reaction_dofval",
    "GF.C20_reaction_nodevec",
    "GF.C20_reaction_p"
   ],
   "note": "MatrixPartitioned: Reaction"
  },
  {
   "property": "C21",
   "status": "proved",
   "theorems": [
    "GF.C21_solve_dofval",
    "GF.C21_solve_nodevec",
    "GF.C21_solve_u",
    "GF.C21_residual"
   ],
   "note": "MatrixPartitionedSolver: solution property"
  },
  {
   "property": "C22",
   "status": "proved",
   "theorems": [
    "GF.C22_fresh",
    "GF.C22_matrix",
    "GF.C22_matrixPartitioned",
    "GF.C22_two_solvers_stale",
    "GF.C22_two_matrices_stale"
   ],
   "note": "Solver factorisation cache over call histories"
  },
  {
   "property": "C23",
   "status": "proved",
   "theorems": [
    "GF.C23_constructor",
    "GF.C23_assemble",
    "GF.C23_agrees_with_Matrix",
    "GF.C23_set",
    "GF.C23_todense",
    "GF.C23_dot_dofval",
    "GF.C23_dot_nodevec",
    "GF.C23_history",
    "GF.C23_solve_dofval",
    "GF.C23_solve_nodevec",
    "GF.C23_roundtrip_dofval",
    "GF.C23_roundtrip_nodevec"
   ],
   "note": "MatrixDiagonal: assemble/Dot/Solve"
  },
  {
   "property": "C24",
   "status": "proved",
   "theorems": [
    "GF.C24_constructor",
    "GF.C24_assemble",
    "GF.C24_data",
    "GF.C24_todense",
    "GF.C24_dot_dofval",
    "GF.C24_dot_nodevec",
    "GF.C24_dot_up",
    "GF.C24_history",
    "GF.C24_solve_dofval",
    "GF.C24_solve_nodevec",
    "GF.C24_solve_u",
    "GF.C24_solve_undefined",
    "GF.C24_solve_nodevec_undefined",
    "GF.C24_reaction_dofval",
    "GF.C24_reaction_nodevec",
    "GF.C24_reaction_p"
   ],
   "note": "MatrixDiagonalPartitioned: consistency with MatrixDiagonal and solve"
  },
  {
   "property": "C25",
   "status": "proved",
   "theorems": [
    "GF.Periodic.C25_constructor",
    "GF.Periodic.C25_partition",
    "GF.Periodic.C25_Cdi",
    "GF.Periodic.C25_blocks",
    "GF.Periodic.C25_tied_iff",
    "GF.Periodic.C25_prescribed_dependent"
   ],
   "note": "Periodic tyings: partition and tying relation"
  },
  {
   "property": "C26",
   "status": "proved",
   "theorems": [
    "GF.Control.C26_control"
   ],
   "note": "Tyings::Control"
  },
  {
   "property": "C27",
   "status": "proved",
   "theorems": [
    "GF.VectorPartitionedTyings.C27_constructor",
    "GF.VectorPartitionedTyings.C27_copy_p",
    "GF.VectorPartitionedTyings.C27_asDofs_i_plain",
    "GF.VectorPartitionedTyings.C27_AsDofs_i",
    "GF.VectorPartitionedTyings.C27_virtual_work"
   ],
   "note": "VectorPartitionedTyings: reduction to independent DOFs"
  },
  {
   "property": "C28",
   "status": "proved",
   "theorems": [
    "GF.MatrixPartitionedTyings.C28_constructor",
    "GF.MatrixPartitionedTyings.C28_assemble",
    "GF.MatrixPartitionedTyings.C28_todense",
    "GF.MatrixPartitionedTyings.C28_todense_matrix",
    "GF.MatrixPartitionedTyings.C28_not_implemented",
    "GF.MatrixPartitionedTyings.C28_solve_any",
    "GF.MatrixPartitionedTyings.C28_solve_nodevec",
    "GF.MatrixPartitionedTyings.C28_virtual_work"
   ],
   "note": "MatrixPartitionedTyings: assembly and condensed solve"
  },
  {
   "property": "C29",
   "status": "proved",
   "theorems": [
    "GF.MatrixPartitionedTyings.C29_solve_dofval_out_of_bounds",
    "GF.MatrixPartitionedTyings.C29_solve_u",
    "GF.MatrixPartitionedTyings.C29_agree_iff",
    "GF.MatrixPartitionedTyings.C29_solve_dofval",
    "GF.MatrixPartitionedTyings.C29_solve_u_wrong"
   ],
   "note": "MatrixPartitionedTyings: dofval solve differs"
  },
  {
   "property": "C30",
   "status": "proved",
   "theorems": [
    "GF.StopList.C30_window",
    "GF.StopList.C30_window_entries",
    "GF.StopList.C30_all_less",
    "GF.StopList.C30_all_less_nan",
    "GF.StopList.C30_descending",
    "GF.StopList.C30_empty"
   ],
   "note": "StopList is a sliding window"
  },
  {
   "property": "C31",
   "status": "proved",
   "theorems": [
    "GF.C31_counts",
    "GF.C31_coor",
    "GF.C31_conn",
    "GF.C31_cover"
   ],
   "note": "Quad4 Regular mesh: connectivity and geometry"
  },
  {
   "property": "C32",
   "status": "proved",
   "theorems": [
    "GF.C32_quad4_origin",
    "GF.C32_quad4_edges",
    "GF.C32_tri3_edges",
    "GF.C32_tri3_zero",
    "GF.C32_quad4_corners",
    "GF.C32_tri3_corners"
   ],
   "note": "Quad4/Tri3 Regular boundary sets"
  },
  {
   "property": "C33",
   "status": "proved",
   "theorems": [
    "GF.C33_quad4_nodesPeriodic",
    "GF.C33_quad4_dofsPeriodic",
    "GF.C33_tri3_nodesPeriodic",
    "GF.C33_tri3_dofsPeriodic"
   ],
   "note": "2-d periodicity"
  },
  {
   "property": "C34",
   "status": "proved",
   "theorems": [
    "GF.C34_counts",
    "GF.C34_coor",
    "GF.C34_conn",
    "GF.C34_cover",
    "GF.C34_faces",
    "GF.C34_open_faces",
    "GF.C34_edges",
    "GF.C34_open_edges",
    "GF.C34_corners",
    "GF.C34_nodesPeriodic",
    "GF.C34_dofsPeriodic"
   ],
   "note": "Hex8 Regular mesh"
  },
  {
   "property": "C35",
   "status": "proved",
   "theorems": [
    "GF.C35_conn",
    "GF.C35_getOrientation",
    "GF.C35_setOrientation",
    "GF.C35_degenerate"
   ],
   "note": "Tri3 Regular mesh and orientation"
  },
  {
   "property": "C36",
   "status": "proved",
   "theorems": [
    "GF.C36_layers",
    "GF.C36_zero",
    "GF.C36_rules",
    "GF.C36_mesh",
    "GF.C36_distinct",
    "GF.C36_convex",
    "GF.C36_tiling",
    "GF.C36_conforming",
    "GF.C36_used",
    "GF.C36_size"
   ],
   "note": "Quad4 FineLayer mesh"
  },
  {
   "property": "C37",
   "status": "proved",
   "theorems": [
    "GF.C37_coordination",
    "GF.C37_elem2node",
    "GF.C37_sizes",
    "GF.C37_proper",
    "GF.C37_elem2node_tied",
    "GF.C37_tied_out_of_bounds"
   ],
   "note": "Nodal/element incidence"
  },
  {
   "property": "C38",
   "status": "proved",
   "theorems": [
    "GF.C38_nodaltyings",
    "GF.C38_classes",
    "GF.C38_any_table",
    "GF.C38_quad4"
   ],
   "note": "Nodal tyings"
  },
  {
   "property": "C39",
   "status": "proved",
   "theorems": [
    "GF.Stitch.C39_ok_iff",
    "GF.Stitch.C39_combined",
    "GF.Stitch.C39_elements_partition",
    "GF.Stitch.C39_nodeset",
    "GF.Stitch.C39_elemset",
    "GF.Stitch.C39_nodesets",
    "GF.Stitch.C39_elemsets",
    "GF.Stitch.C39_separated",
    "GF.Stitch.C39_exact"
   ],
   "note": "Stitch: invariants over push_back histories"
  },
  {
   "property": "C40",
   "status": "proved",
   "theorems": [
    "GF.C40_partition",
    "GF.C40_contained",
    "GF.C40_fine_scaled",
    "GF.C40_mapToFine",
    "GF.C40_meanToCoarse",
    "GF.C40_averageToCoarse",
    "GF.C40_roundtrip"
   ],
   "note": "RefineRegular map"
  },
  {
   "property": "C41",
   "status": "proved",
   "theorems": [
    "GF.C41_default_type",
    "GF.C41_unsupported",
    "GF.C41_edgesize",
    "GF.C41_centers",
    "GF.C41_nodemap",
    "GF.C41_nodemap_consistent",
    "GF.C41_nodal_mass",
    "GF.C41_total_mass",
    "GF.C41_average",
    "GF.C41_center_of_gravity",
    "GF.C41_centroid",
    "GF.C41_centroid_inexact",
    "GF.C41_positive",
    "GF.C41_regular"
   ],
   "note": "Mesh measures"
  },
  {
   "property": "C42",
   "status": "proved",
   "theorems": [
    "GF.Element.C42_inverse_2x2",
    "GF.Element.C42_inverse_3x3",
    "GF.Element.C42_singular"
   ],
   "note": "2x2 and 3x3 inverse"
  },
  {
   "property": "C43",
   "status": "proved",
   "theorems": [
    "GF.Element.Quad4.C43_shape_functions",
    "GF.Element.Quad4.C43_local_gradients",
    "GF.Element.Quad4.C43_local_gradients_real",
    "GF.Element.Quad4.C43_interpolation",
    "GF.Element.Quad4.C43_nodal_interpolation"
   ],
   "note": "Quad4 shape functions"
  },
  {
   "property": "C44",
   "status": "proved",
   "theorems": [
    "GF.Element.Quad4.C44_affine_gradient",
    "GF.Element.Quad4.C44_chain_rule"
   ],
   "note": "Quad4 gradient of affine fields"
  },
  {
   "property": "C45",
   "status": "proved",
   "theorems": [
    "GF.Element.Hex8.C45_computed",
    "GF.Element.Hex8.C45_exact_iff",
    "GF.Element.Hex8.C45_box",
    "GF.Element.Hex8.C45_shear_wrong"
   ],
   "note": "Hex8 gradient"
  },
  {
   "property": "C46",
   "status": "proved",
   "theorems": [
    "GF.Element.Quad4.C46_volume",
    "GF.Element.Quad4.C46_area",
    "GF.Element.Quad4.C46_midpoint_quarter",
    "GF.Element.Quad4.C46_rules_exact",
    "GF.Element.Quad4.C46_positive"
   ],
   "note": "Quad4 volumes"
  },
  {
   "property": "C47",
   "status": "proved",
   "theorems": [
    "GF.C47_mass_generic",
    "GF.Element.Quad4.C47_mass",
    "GF.Element.Quad4.C47_mass_psd",
    "GF.Element.Quad4.C47_mass_nodal"
   ],
   "note": "Mass matrix"
  },
  {
   "property": "C48",
   "status": "proved",
   "theorems": [
    "GF.Element.Quad4.C48_internal_force",
    "GF.Element.Quad4.C48_moment"
   ],
   "note": "Internal force"
  },
  {
   "property": "C49",
   "status": "proved",
   "theorems": [
    "GF.Element.Quad4.C49_stiffness",
    "GF.Element.Quad4.C49_symmetry",
    "GF.Element.Quad4.C49_rotation",
    "GF.Element.Quad4.C49_energy"
   ],
   "note": "Tangent stiffness"
  },
  {
   "property": "C50",
   "status": "proved",
   "theorems": [
    "GF.Element.Axi.C50_axisymmetric_life",
    "GF.Element.Axi.C50_axisymmetric_volume",
    "GF.Element.Axi.C50_axisymmetric_total",
    "GF.Element.Axi.C50_axisymmetric_positive",
    "GF.Element.Axi.C50_axisymmetric_gradient",
    "GF.Element.Axi.C50_axisymmetric_hoop",
    "GF.Element.Axi.C50_axisymmetric_mass",
    "GF.Element.Axi.C50_axisymmetric_force",
    "GF.Element.Axi.C50_axisymmetric_stiffness",
    "GF.Element.Quad4.C50_planar_life",
    "GF.Element.Quad4.C50_planar_volume",
    "GF.Element.Quad4.C50_planar_area",
    "GF.Element.Quad4.C50_planar_gradient",
    "GF.Element.Quad4.C50_planar_force",
    "GF.Element.Quad4.C50_planar_stiffness",
    "GF.Element.Quad4.C50_planar_interpolation"
   ],
   "note": "Planar and axisymmetric elements"
  },
  {
   "property": "C51",
   "status": "proved",
   "theorems": [
    "GF.Element.C51_asElementVector",
    "GF.Element.C51_assembleNodeVector",
    "GF.Element.C51_isSequential_always_true",
    "GF.Element.C51_isSequential_wrong",
    "GF.Element.C51_isDiagonal"
   ],
   "note": "Element helpers"
  },
  {
   "property": "C52",
   "status": "proved",
   "theorems": [
    "GF.Allocate.C52_asTensor_write",
    "GF.Allocate.C52_AsTensor",
    "GF.Allocate.C52_AsTensor_scalar",
    "GF.Allocate.C52_as3d",
    "GF.Allocate.C52_as3d_rejects"
   ],
   "note": "Allocate helpers"
  },
  {
   "property": "C53",
   "status": "proved",
   "theorems": [
    "GF.C53_shapes",
    "GF.Element.Quad4.C53_constructor",
    "GF.Element.Quad4.C53_update_history"
   ],
   "note": "Quad4 quadrature object: history of update_x"
  },
  {
   "property": "C54",
   "status": "proved",
   "theorems": [
    "GF.Element.Quad4.C54_body_force"
   ],
   "note": "Body forces"
  },
  {
   "property": "C55",
   "status": "proved",
   "theorems": [
    "GF.C55_shapes",
    "GF.Element.Hex8.C55_constructor",
    "GF.Element.Hex8.C55_update_history",
    "GF.Element.Hex8.C55_shape_functions",
    "GF.Element.Hex8.C55_local_gradients",
    "GF.Element.Hex8.C55_volume",
    "GF.Element.Hex8.C55_parallelepiped",
    "GF.Element.Hex8.C55_volume_integral"
   ],
   "note": "Hex8 quadrature object"
  },
  {
   "property": "C56",
   "status": "proved",
   "theorems": [
    "GF.Element.Hex8.C56_mass",
    "GF.Element.Hex8.C56_mass_nodal",
    "GF.Element.Hex8.C56_internal_force",
    "GF.Element.Hex8.C56_stiffness",
    "GF.Element.Hex8.C56_interpolation",
    "GF.Element.Hex8.C56_body_force"
   ],
   "note": "Hex8 mechanics"
  },
  {
   "property": "C57",
   "status": "proved",
   "theorems": [
    "GF.C57_overlapping",
    "GF.ManualStitch.C57_stitch",
    "GF.ManualStitch.C57_checked",
    "GF.ManualStitch.C57_repeated",
    "GF.ManualStitch.C57_sets"
   ],
   "note": "overlapping and ManualStitch glue exactly the listed nodes"
  },
  {
   "property": "C58",
   "status": "proved",
   "theorems": [
    "GF.Vstack.C58_stack",
    "GF.Vstack.C58_mismatch"
   ],
   "note": "Vstack: layers are stacked at the sum of the heights below"
  },
  {
   "property": "C59",
   "status": "proved",
   "theorems": [
    "GF.C59_edges",
    "GF.C59_corners"
   ],
   "note": "Quad4 FineLayer boundary"
  },
  {
   "property": "C60",
   "status": "proved",
   "theorems": [
    "GF.C60_nodesPeriodic",
    "GF.C60_dofsPeriodic"
   ],
   "note": "Quad4 FineLayer periodicity"
  },
  {
   "property": "C61",
   "status": "proved",
   "theorems": [
    "GF.C61_roll"
   ],
   "note": "Quad4 FineLayer roll"
  },
  {
   "property": "C62",
   "status": "proved",
   "theorems": [
    "GF.C62_ravel",
    "GF.C62_exact",
    "GF.C62_all"
   ],
   "note": "Quad4 FineLayer elementgrid_ravel"
  },
  {
   "property": "C63",
   "status": "proved",
   "theorems": [
    "GF.C63_around",
    "GF.C63_leftright",
    "GF.C63_middle_only",
    "GF.C63_around_misses"
   ],
   "note": "Quad4 FineLayer selections around an element"
  },
  {
   "property": "C64",
   "status": "proved",
   "theorems": [
    "GF.C64_roundtrip",
    "GF.C64_sound",
    "GF.C64_extra_fine_layers"
   ],
   "note": "Quad4 FineLayer from coordinates and connectivity"
  },
  {
   "property": "C65",
   "status": "proved",
   "theorems": [
    "GF.C65_map",
    "GF.C65_partition",
    "GF.C65_area",
    "GF.C65_mapToRegular"
   ],
   "note": "Quad4 Map::FineLayer2Regular"
  },
  {
   "property": "C66",
   "status": "proved",
   "theorems": [
    "GF.C66_layers",
    "GF.C66_zero",
    "GF.C66_rules",
    "GF.C66_size"
   ],
   "note": "Hex8 FineLayer layers"
  },
  {
   "property": "C67",
   "status": "proved",
   "theorems": [
    "GF.C67_mesh"
   ],
   "note": "Hex8 FineLayer mesh"
  },
  {
   "property": "C68",
   "status": "proved",
   "theorems": [
    "GF.C68_tiling"
   ],
   "note": "Hex8 FineLayer tiling"
  },
  {
   "property": "C69",
   "status": "proved",
   "theorems": [
    "GF.C69_conforming"
   ],
   "note": "Hex8 FineLayer conformity"
  },
  {
   "property": "C70",
   "status": "proved",
   "theorems": [
    "GF.C70_sides",
    "GF.C70_bottom_top_faces",
    "GF.C70_edges",
    "GF.C70_open_edges",
    "GF.C70_corners",
    "GF.C70_side_faces",
    "GF.C70_side_faces_complete",
    "GF.C70_side_faces_incomplete"
   ],
   "note": "Hex8 FineLayer node sets"
  },
  {
   "property": "C71",
   "status": "proved",
   "theorems": [
    "GF.C71_nodesPeriodic",
    "GF.C71_nodesPeriodic_complete",
    "GF.C71_dofsPeriodic",
    "GF.C71_dofsPeriodic_complete"
   ],
   "note": "Hex8 FineLayer periodicity"
  },
  {
   "property": "C72",
   "status": "proved",
   "theorems": [
    "GF.C72_edges_matched",
    "GF.C72_quad4_regular",
    "GF.C72_tri3_regular",
    "GF.C72_finelayer"
   ],
   "note": "2d meshes: interior edges cancel, the boundary is formed by the four edges"
  },
  {
   "property": "C73",
   "status": "proved",
   "theorems": [
    "GF.C73_quad4_regular",
    "GF.C73_finelayer",
    "GF.C73_area",
    "GF.C73_volume"
   ],
   "note": "Quad4 meshes cover a rectangle exactly"
  },
  {
   "property": "C74",
   "status": "proved",
   "theorems": [
    "GF.C74_constant_stress",
    "GF.C74_interior",
    "GF.C74_periodic",
    "GF.C74_quad4_regular",
    "GF.C74_quad4_regular_periodic",
    "GF.C74_finelayer",
    "GF.C74_finelayer_periodic"
   ],
   "note": "Patch test"
  },
  {
   "property": "C75",
   "status": "proved",
   "theorems": [
    "GF.C75_tangent",
    "GF.C75_symmetric",
    "GF.C75_rigid",
    "GF.C75_energy"
   ],
   "note": "Assembled stiffness"
  },
  {
   "property": "C76",
   "status": "proved",
   "theorems": [
    "GF.C76_no_spurious_modes"
   ],
   "note": "No spurious modes"
  },
  {
   "property": "C77",
   "status": "proved",
   "theorems": [
    "GF.C77_unique",
    "GF.C77_solve"
   ],
   "note": "Linear statics: solution and uniqueness"
  },
  {
   "property": "C78",
   "status": "proved",
   "theorems": [
    "GF.C78_patch",
    "GF.C78_quad4_regular",
    "GF.C78_finelayer"
   ],
   "note": "Displacement patch test"
  },
  {
   "property": "C79",
   "status": "proved",
   "theorems": [
    "GF.C79_divergence",
    "GF.C79_average"
   ],
   "note": "Divergence theorem and average gradient"
  },
  {
   "property": "C80",
   "status": "proved",
   "theorems": [
    "GF.C80_solve",
    "GF.C80_quad4_regular",
    "GF.C80_finelayer"
   ],
   "note": "Periodic unit cell: solution and uniqueness"
  },
  {
   "property": "C81",
   "status": "proved",
   "theorems": [
    "GF.C81_reaction",
    "GF.C81_equilibrium"
   ],
   "note": "Periodic unit cell: reaction forces of the control nodes"
  },
  {
   "property": "C82",
   "status": "proved",
   "theorems": [
    "GF.C82_homogeneous",
    "GF.C82_quad4_regular"
   ],
   "note": "Periodic unit cell: homogeneous material"
  },
  {
   "property": "C83",
   "status": "proved",
   "theorems": [
    "GF.C83_mass"
   ],
   "note": "Dynamics: lumped mass"
  },
  {
   "property": "C84",
   "status": "proved",
   "theorems": [
    "GF.C84_momentum",
    "GF.C84_macroscopic",
    "GF.C84_quad4_regular"
   ],
   "note": "Dynamics: momentum and macroscopic deformation"
  },
  {
   "property": "C85",
   "status": "proved",
   "theorems": [
    "GF.C85_reversible",
    "GF.C85_energy"
   ],
   "note": "Dynamics: energy and time reversibility"
  },
  {
   "property": "C86",
   "status": "proved",
   "theorems": [
    "GF.C86_asNode_dofval",
    "GF.C86_asElement_dofval",
    "GF.C86_asElement_nodevec",
    "GF.C86_dofs_is_u",
    "GF.C86_copy_u",
    "GF.C86_AsDofs_u_dofval",
    "GF.C86_dofs_is_p",
    "GF.C86_copy_p",
    "GF.C86_AsDofs_p_dofval",
    "GF.C86_NodeFromPartitioned",
    "GF.C86_ElementFromPartitioned",
    "GF.C86_takeDofs",
    "GF.C86_takeLoop",
    "GF.C86_invLoop",
    "GF.C86_todense",
    "GF.C86_diagonal_dot_nodevec",
    "GF.C86_mulLoop",
    "GF.C86_diagonalPartitioned_dot_nodevec",
    "GF.C86_diagonalPartitioned_reaction_nodevec",
    "GF.C86_diagonal_solve_nodevec",
    "GF.C86_diagonalPartitioned_solve_nodevec",
    "GF.C86_partitioned_reaction_nodevec",
    "GF.C86_partitioned_solve_nodevec",
    "GF.C86_tyings_solve_nodevec",
    "GF.C86_tyings_copy_p",
    "GF.C86_tyings_asDofs_i",
    "GF.C86_putDofs",
    "GF.C86_DofsFromParitioned",
    "GF.C86_putDiag",
    "GF.C86_mulDofs",
    "GF.C86_asElementVector",
    "GF.C86_gradN_vector",
    "GF.C86_gradN_vector_T",
    "GF.C86_symGradN_vector",
    "GF.C86_int_N_scalar_NT_dV",
    "GF.C86_int_gradN_dot_tensor4_dot_gradNT_dV",
    "GF.C86_quad4_gradN_vector",
    "GF.C86_planar_gradN_vector",
    "GF.C86_axi_gradN_vector",
    "GF.C86_quad4_gradN_vector_T",
    "GF.C86_planar_gradN_vector_T",
    "GF.C86_axi_gradN_vector_T",
    "GF.C86_quad4_symGradN_vector",
    "GF.C86_planar_symGradN_vector",
    "GF.C86_axi_symGradN_vector",
    "GF.C86_quad4_int_N_scalar_NT_dV",
    "GF.C86_quad4_int_gradN_dot_tensor2_dV",
    "GF.C86_axi_int_gradN_dot_tensor2_dV",
    "GF.C86_axi_int_gradN_dot_tensor4_dot_gradNT_dV",
    "GF.C86_hex8_int_N_scalar_NT_dV",
    "GF.C86_hex8_int_gradN_dot_tensor2_dV",
    "GF.C86_interpQuad_vector",
    "GF.C86_int_N_vector_dV",
    "GF.C86_quad4_interpQuad_vector",
    "GF.C86_compute_dN",
    "GF.C86_quad4_compute_dN",
    "GF.C86_axi_compute_dN"
   ],
   "note": "No data races in the parallel loops that write their own rows"
  },
  {
   "property": "C87",
   "status": "proved",
   "theorems": [
    "GF.C87_asDofs_nodevec",
    "GF.C87_asDofs_nodevec_race",
    "GF.C87_asDofs_nodevec_agree",
    "GF.C87_AsDofs_u_nodevec",
    "GF.C87_AsDofs_u_nodevec_race",
    "GF.C87_AsDofs_u_nodevec_agree",
    "GF.C87_AsDofs_p_nodevec",
    "GF.C87_AsDofs_p_nodevec_race",
    "GF.C87_AsDofs_p_nodevec_agree",
    "GF.C87_windowLoop",
    "GF.C87_windowLoop_race",
    "GF.C87_windowLoop_agree",
    "GF.C87_asDofs_elemvec",
    "GF.C87_asDofs_elemvec_race",
    "GF.C87_asDofs_elemvec_agree",
    "GF.C87_AsDofs_u_elemvec",
    "GF.C87_AsDofs_u_elemvec_race",
    "GF.C87_AsDofs_u_elemvec_agree",
    "GF.C87_AsDofs_p_elemvec",
    "GF.C87_AsDofs_p_elemvec_race",
    "GF.C87_AsDofs_p_elemvec_agree",
    "GF.C87_asNode_elemvec",
    "GF.C87_asNode_elemvec_race",
    "GF.C87_asNode_elemvec_agree",
    "GF.C87_quad4_regular",
    "GF.C87_quad4_periodic",
    "GF.C87_node_element_node"
   ],
   "note": "Exactly when the scattering parallel loops race"
  },
  {
   "property": "C88",
   "status": "proved",
   "theorems": [
    "GF.C88_asNode_dofval",
    "GF.C88_asElement_dofval",
    "GF.C88_asElement_nodevec",
    "GF.C88_AsElement",
    "GF.C88_AssembleNode",
    "GF.C88_partitioned_dofs_is_u",
    "GF.C88_partitioned_dofs_is_p",
    "GF.C88_partitioned_copy_u",
    "GF.C88_partitioned_copy_p",
    "GF.C88_partitioned_NodeFromPartitioned",
    "GF.C88_partitioned_ElementFromPartitioned",
    "GF.C88_partitioned_AsDofs_u_dofval",
    "GF.C88_partitioned_AsDofs_p_dofval",
    "GF.C88_partitioned_DofsFromParitioned",
    "GF.C88_tyings_copy_p",
    "GF.C88_diagonal_inverse",
    "GF.C88_diagonal_todense",
    "GF.C88_diagonal_dot_nodevec",
    "GF.C88_diagonal_factorize",
    "GF.C88_diagonal_solve_nodevec",
    "GF.C88_diagonal_solve_dofval",
    "GF.C88_putDofs",
    "GF.C88_putDiag",
    "GF.C88_mulDofs",
    "GF.C88_takeDofs",
    "GF.C88_mulLoop",
    "GF.C88_diagonalPartitioned_dot_nodevec",
    "GF.C88_diagonalPartitioned_reaction_nodevec",
    "GF.C88_diagonalPartitioned_todense",
    "GF.C88_diagonalPartitioned_data",
    "GF.C88_diagonalPartitioned_set",
    "GF.C88_diagonalPartitioned_dot_dofval",
    "GF.C88_diagonalPartitioned_factorize",
    "GF.C88_diagonalPartitioned_solve_nodevec",
    "GF.C88_diagonalPartitioned_solve_u",
    "GF.C88_quad4_construct",
    "GF.C88_quad4_new",
    "GF.C88_planar_new",
    "GF.C88_quad4_newGauss",
    "GF.C88_planar_newGauss",
    "GF.C88_quad4_update_x",
    "GF.C88_axi_new",
    "GF.C88_axi_newGauss",
    "GF.C88_axi_update_x",
    "GF.C88_hex8_new",
    "GF.C88_hex8_newGauss",
    "GF.C88_hex8_update_x",
    "GF.C88_nodal_mass",
    "GF.C88_center_of_gravity",
    "GF.C88_step",
    "GF.C88_startup",
    "GF.C88_simulation",
    "GF.C88_gradN_vector",
    "GF.C88_gradN_vector_T",
    "GF.C88_symGradN_vector",
    "GF.C88_int_N_scalar_NT_dV",
    "GF.C88_int_gradN_dot_tensor4_dot_gradNT_dV",
    "GF.C88_quad4_gradN_vector",
    "GF.C88_planar_gradN_vector",
    "GF.C88_axi_gradN_vector",
    "GF.C88_quad4_gradN_vector_T",
    "GF.C88_planar_gradN_vector_T",
    "GF.C88_axi_gradN_vector_T",
    "GF.C88_quad4_symGradN_vector",
    "GF.C88_planar_symGradN_vector",
    "GF.C88_axi_symGradN_vector",
    "GF.C88_quad4_int_N_scalar_NT_dV",
    "GF.C88_quad4_int_gradN_dot_tensor2_dV",
    "GF.C88_axi_int_gradN_dot_tensor2_dV",
    "GF.C88_hex8_int_N_scalar_NT_dV",
    "GF.C88_hex8_int_gradN_dot_tensor2_dV",
    "GF.C88_asElementVector",
    "GF.C88_axi_int_gradN_dot_tensor4_dot_gradNT_dV",
    "GF.C88_interpQuad_vector",
    "GF.C88_int_N_vector_dV",
    "GF.C88_quad4_interpQuad_vector",
    "GF.C88_compute_dN",
    "GF.C88_quad4_compute_dN",
    "GF.C88_axi_compute_dN"
   ],
   "note": "Bit-for-bit reproducibility"
  },
  {
   "property": "C89",
   "status": "proved",
   "theorems": [
    "GF.C89_hex8_regular",
    "GF.C89_volume",
    "GF.C89_gradient"
   ],
   "note": "Hex8 box meshes: partition, volume and gradient"
  },
  {
   "property": "C90",
   "status": "proved",
   "theorems": [
    "GF.C90_constant_stress",
    "GF.C90_interior",
    "GF.C90_periodic",
    "GF.C90_hex8_regular",
    "GF.C90_hex8_regular_periodic"
   ],
   "note": "Force patch test in three dimensions"
  },
  {
   "property": "C91",
   "status": "proved",
   "theorems": [
    "GF.C91_tangent",
    "GF.C91_symmetric",
    "GF.C91_energy",
    "GF.C91_no_spurious_modes"
   ],
   "note": "Stiffness in three dimensions: consistent, symmetric, no spurious modes"
  },
  {
   "property": "C92",
   "status": "proved",
   "theorems": [
    "GF.C92_unique",
    "GF.C92_solve",
    "GF.C92_patch",
    "GF.C92_hex8_regular"
   ],
   "note": "Linear problems in three dimensions"
  },
  {
   "property": "C93",
   "status": "proved",
   "theorems": [
    "GF.C93_residual",
    "GF.C93_fixed_displacement",
    "GF.C93_fixed_displacement_uniform",
    "GF.C93_quad4_fixed",
    "GF.C93_quad4_periodic",
    "GF.C93_quad4_periodic_uniform",
    "GF.C93_finelayer",
    "GF.C93_partial_periodic",
    "GF.C93_partial_periodic_uniform"
   ],
   "note": "The static example scripts return the equilibrium state, with zero residual"
  },
  {
   "property": "C94",
   "status": "proved",
   "theorems": [
    "GF.C94_solve_again",
    "GF.C94_step",
    "GF.C94_run",
    "GF.C94_programs",
    "GF.C94_quad4_regular"
   ],
   "note": "The two dynamic example programs compute the same motion, bit for bit"
  },
  {
   "property": "C95",
   "status": "proved",
   "theorems": [
    "GF.C95_run",
    "GF.C95_converged",
    "GF.C95_linear",
    "GF.C95_homogeneous",
    "GF.C95_quad4_regular"
   ],
   "note": "The Newton loop of a periodic unit cell"
  },
  {
   "property": "C96",
   "status": "proved",
   "theorems": [
    "GF.Element.Quad4.C96_planar",
    "GF.Element.Quad4.C96_gradient",
    "GF.Element.Quad4.C96_rotation"
   ],
   "note": "Moving meshes: update_x and finite strain"
  },
  {
   "property": "C97",
   "status": "proved",
   "theorems": [
    "GF.C97_same_solve",
    "GF.C97_same_program",
    "GF.C97_same_example",
    "GF.C97_fixed_displacement",
    "GF.C97_quad4_regular"
   ],
   "note": "Partition by hand and by the library agree"
  },
  {
   "property": "C98",
   "status": "proved",
   "theorems": [
    "GF.C98_ldlt",
    "GF.C98_ldlt_not_direct",
    "GF.C98_partitioned",
    "GF.C98_tyings",
    "GF.C98_quad4_regular",
    "GF.Element.Hex8.C98_partitioned3"
   ],
   "note": "The default solver gets symmetric positive definite matrices only"
  },
  {
   "property": "C99",
   "status": "proved",
   "theorems": [
    "GF.C99_run",
    "GF.C99_converged",
    "GF.C99_not_gradient",
    "GF.C99_homogeneous",
    "GF.C99_quad4_regular"
   ],
   "note": "The finite-strain Newton program of a periodic cell"
  },
  {
   "property": "C100",
   "status": "proved",
   "theorems": [
    "GF.C100_average",
    "GF.C100_solve",
    "GF.C100_homogeneous",
    "GF.C100_reaction",
    "GF.C100_equilibrium",
    "GF.C100_hex8_regular"
   ],
   "note": "Periodic unit cells in three dimensions"
  },
  {
   "property": "C101",
   "status": "proved",
   "theorems": [
    "GF.C101_volume",
    "GF.C101_constant_stress",
    "GF.C101_interior",
    "GF.C101_quad4_regular",
    "GF.C101_finelayer"
   ],
   "note": "Axisymmetric analyses: volume and force patch test"
  },
  {
   "property": "C102",
   "status": "proved",
   "theorems": [
    "GF.C102_quad4_regular",
    "GF.C102_finelayer",
    "GF.C102_tangent",
    "GF.C102_energy",
    "GF.C102_no_spurious_modes",
    "GF.C102_unique",
    "GF.C102_solve",
    "GF.C102_patch"
   ],
   "note": "Axisymmetric linear problems"
  },
  {
   "property": "C103",
   "status": "proved",
   "theorems": [
    "GF.C103_sides",
    "GF.C103_stack",
    "GF.C103_patch"
   ],
   "note": "Sides are complete; stacks of rectangular meshes are rectangular meshes"
  },
  {
   "property": "C104",
   "status": "proved",
   "theorems": [
    "GF.C104_unique",
    "GF.C104_stitch",
    "GF.C104_regular"
   ],
   "note": "Numbering of combined meshes; a stack of regular meshes is the regular mesh"
  },
  {
   "property": "C105",
   "status": "proved",
   "theorems": [
    "GF.C105_sets",
    "GF.C105_python",
    "GF.C105_python_misses"
   ],
   "note": "The sets of DOFs of a matrix with tyings, in C++ and Python"
  },
  {
   "property": "C106",
   "status": "proved",
   "theorems": [
    "GF.C106_stable",
    "GF.C106_cfl",
    "GF.C106_quad4_regular",
    "GF.C106_mode",
    "GF.C106_unstable"
   ],
   "note": "Stability of the explicit dynamics"
  },
  {
   "property": "C107",
   "status": "proved",
   "theorems": [
    "GF.C107_binary",
    "GF.C107_assembleDofs_nodevec",
    "GF.C107_assembleDofs_elemvec",
    "GF.C107_assembleNode",
    "GF.C107_renumber",
    "GF.Element.C107_new",
    "GF.Element.C107_gradN_quad4",
    "GF.Element.C107_force_quad4",
    "GF.Element.C107_force_hex8",
    "GF.Element.C107_internal_force",
    "GF.C107_diagonal",
    "GF.Element.Axi.C107_new_axi",
    "GF.Element.Axi.C107_gradN_axi",
    "GF.Element.Axi.C107_force_axi",
    "GF.Element.Axi.C107_internal_force_axi",
    "GF.Element.Axi.C107_mass_axi",
    "GF.Element.Axi.C107_stiffness_axi",
    "GF.Element.Axi.C107_volume_axi",
    "GF.Element.C107_dN_quad4",
    "GF.Element.C107_dN_update",
    "GF.Element.C107_dN_axi",
    "GF.Element.C107_gradN_hex8",
    "GF.Element.C107_stiffness",
    "GF.Element.C107_mass_quad4",
    "GF.Element.C107_mass_hex8",
    "GF.C107_order_matters",
    "GF.Element.C107_shape_quad4",
    "GF.Element.C107_shape_hex8",
    "GF.Element.C107_volume_quad4",
    "GF.Element.C107_volume_update",
    "GF.Element.Hex8.C107_volume_hex8"
   ],
   "note": "Rounding errors of assembly and of the element integrals"
  },
  {
   "property": "C108",
   "status": "proved",
   "theorems": [
    "GF.Vector.C108_new",
    "GF.Vector.C108_asDofs",
    "GF.Vector.C108_asNode",
    "GF.Vector.C108_asElement",
    "GF.Vector.C108_assembleDofs",
    "GF.Vector.C108_assembleNode",
    "GF.Vector.C108_copy",
    "GF.VectorPartitioned.C108_new",
    "GF.VectorPartitioned.C108_copy",
    "GF.VectorPartitioned.C108_fromPartitioned",
    "GF.VectorPartitioned.C108_asDofs_up",
    "GF.Element.C108_generic",
    "GF.Element.Quad4.C108_methods",
    "GF.Element.Quad4.C108_planar",
    "GF.Element.Quad4.C108_integrals",
    "GF.Element.Quad4.C108_new",
    "GF.Element.Quad4.C108_update_x",
    "GF.Element.Hex8.C108_methods",
    "GF.Element.Hex8.C108_integrals",
    "GF.Element.Hex8.C108_new",
    "GF.Element.Hex8.C108_update_x",
    "GF.Element.Axi.C108_new",
    "GF.Element.Axi.C108_update_x",
    "GF.Element.Axi.C108_methods",
    "GF.Element.Axi.C108_integrals",
    "GF.C108_finelayer",
    "GF.C108_elementsLayer",
    "GF.C108_ravel",
    "GF.C108_mapToRegular",
    "GF.Tri3.C108_getOrientation",
    "GF.Tri3.C108_setOrientationVal",
    "GF.Tri3.C108_setOrientation",
    "GF.C108_ravel_not_caught",
    "GF.SMatrix.C108_new",
    "GF.SMatrix.C108_assemble",
    "GF.SMatrix.C108_set_add",
    "GF.SMatrix.C108_dot",
    "GF.SolverState.C108_solve",
    "GF.MatrixPartitioned.C108_new",
    "GF.MatrixPartitioned.C108_assemble",
    "GF.MatrixPartitioned.C108_dot",
    "GF.MatrixPartitioned.C108_reaction",
    "GF.MatrixPartitioned.C108_solve",
    "GF.MatrixDiagonal.C108_assemble",
    "GF.MatrixDiagonal.C108_set",
    "GF.MatrixDiagonal.C108_dot",
    "GF.MatrixDiagonal.C108_solve",
    "GF.MatrixDiagonalPartitioned.C108_new",
    "GF.MatrixDiagonalPartitioned.C108_assemble",
    "GF.MatrixDiagonalPartitioned.C108_set",
    "GF.MatrixDiagonalPartitioned.C108_dot",
    "GF.MatrixDiagonalPartitioned.C108_reaction",
    "GF.MatrixDiagonalPartitioned.C108_solve",
    "GF.C108_regular",
    "GF.ManualStitch.C108_new",
    "GF.ManualStitch.C108_sets",
    "GF.C108_overlapping",
    "GF.Stitch.C108_push_back",
    "GF.Stitch.C108_push_back_mismatch",
    "GF.Stitch.C108_history",
    "GF.Stitch.C108_sets",
    "GF.Stitch.C108_all_sets",
    "GF.Stitch.C108_all_sets_same",
    "GF.Vstack.C108_push_back",
    "GF.Vstack.C108_push_back_mismatch",
    "GF.C108_reorder",
    "GF.RefineRegular.C108_map",
    "GF.RefineRegular.C108_average",
    "GF.C108_measures",
    "GF.C108_nodemap",
    "GF.Periodic.C108_new",
    "GF.Periodic.C108_guarantee",
    "GF.Periodic.C108_not_caught",
    "GF.Control.C108_new",
    "GF.VectorPartitionedTyings.C108_new",
    "GF.VectorPartitionedTyings.C108_copy_p",
    "GF.VectorPartitionedTyings.C108_AsDofs_i",
    "GF.MatrixDiagonal.C108_unassembled"
   ],
   "note": "The build with assertions is a faithful watchdog"
  },
  {
   "property": "C109",
   "status": "proved",
   "theorems": [
    "GF.C109_minimum",
    "GF.C109_superposition",
    "GF.C109_reciprocity",
    "GF.C109_clapeyron",
    "GF.C109_support",
    "GF.C109_material",
    "GF.C109_quad4_regular",
    "GF.C109_finelayer"
   ],
   "note": "Energy theorems of linear statics"
  },
  {
   "property": "C110",
   "status": "proved",
   "theorems": [
    "GF.C110_finelayer",
    "GF.C110_bounds",
    "GF.C110_symmetric",
    "GF.C110_stiffer",
    "GF.C110_quad4_regular"
   ],
   "note": "Homogenised response of a periodic unit cell"
  },
  {
   "property": "C111",
   "status": "proved",
   "theorems": [
    "GF.C111_renumber",
    "GF.C111_dofs"
   ],
   "note": "The numbering is immaterial"
  },
  {
   "property": "C112",
   "status": "proved",
   "theorems": [
    "GF.C112_bounds",
    "GF.C112_symmetric",
    "GF.C112_stiffer",
    "GF.C112_hex8_regular"
   ],
   "note": "Homogenised response of a periodic unit cell in three dimensions"
  },
  {
   "property": "C113",
   "status": "proved",
   "theorems": [
    "GF.C113_minimum",
    "GF.C113_superposition",
    "GF.C113_reciprocity",
    "GF.C113_clapeyron",
    "GF.C113_support",
    "GF.C113_material",
    "GF.C113_hex8_regular"
   ],
   "note": "Energy theorems of linear statics in three dimensions"
  },
  {
   "property": "C114",
   "status": "proved",
   "theorems": [
    "GF.C114_renumber",
    "GF.C114_dofs"
   ],
   "note": "The numbering is immaterial in three dimensions"
  },
  {
   "property": "C115",
   "status": "proved",
   "theorems": [
    "GF.C115_minimum",
    "GF.C115_superposition",
    "GF.C115_reciprocity",
    "GF.C115_clapeyron",
    "GF.C115_support",
    "GF.C115_material",
    "GF.C115_quad4_regular"
   ],
   "note": "Energy theorems of axisymmetric linear statics"
  },
  {
   "property": "C116",
   "status": "proved",
   "theorems": [
    "GF.C116_refine"
   ],
   "note": "Refining a mesh never makes the structure stiffer"
  },
  {
   "property": "C117",
   "status": "proved",
   "theorems": [
    "GF.C117_volume",
    "GF.C117_gradient",
    "GF.C117_no_transition"
   ],
   "note": "Numerical integration on Hex8 FineLayer meshes: volumes and homogeneous deformation"
  },
  {
   "property": "C118",
   "status": "proved",
   "theorems": [
    "GF.C118_mass",
    "GF.C118_momentum",
    "GF.C118_reversible",
    "GF.C118_energy",
    "GF.C118_macroscopic",
    "GF.C118_finelayer",
    "GF.C118_hex8_regular"
   ],
   "note": "Time integration in three dimensions: lumped mass, Newton's second law, reversibility and energy"
  },
  {
   "property": "C119",
   "status": "proved",
   "theorems": [
    "GF.C119_stable",
    "GF.C119_cfl",
    "GF.C119_hex8_regular",
    "GF.C119_mode",
    "GF.C119_unstable"
   ],
   "note": "Stability of the explicit dynamics in three dimensions"
  },
  {
   "property": "C120",
   "status": "proved",
   "theorems": [
    "GF.C120_mass",
    "GF.C120_momentum",
    "GF.C120_reversible",
    "GF.C120_energy",
    "GF.C120_total",
    "GF.C120_quad4_regular",
    "GF.C120_axis"
   ],
   "note": "Time integration of axisymmetric bodies: lumped mass, axial momentum, reversibility and energy"
  },
  {
   "property": "C121",
   "status": "proved",
   "theorems": [
    "GF.C121_stable",
    "GF.C121_cfl",
    "GF.C121_quad4_regular",
    "GF.C121_mode",
    "GF.C121_unstable"
   ],
   "note": "Stability of the explicit dynamics of axisymmetric bodies"
  },
  {
   "property": "C122",
   "status": "proved",
   "theorems": [
    "GF.C122_axi",
    "GF.C122_axi_exists",
    "GF.C122_finelayer",
    "GF.C122_finelayer_axi",
    "GF.C122_quad4",
    "GF.C122_quad4_exists",
    "GF.C122_hex8",
    "GF.C122_hex8_exists"
   ],
   "note": "A critical time step for the explicit dynamics on any mesh"
  }
 ]
}