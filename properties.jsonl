{"id": "C01", "title": "Vector: DOF->node->DOF round trip", "statement": "For a Vector built from a connectivity and a DOF table in which every number 0..ndof-1 occurs, AsDofs(AsNode(u)) returns exactly u, and AsNode(u) stores at component i of node m the value u(dofs(m,i)).", "quantifier": "every connectivity, every surjective DOF table (ties/periodicity allowed), every DOF vector, every order of execution of the parallel loop", "why_tests_cant": "the DOF table is arbitrary user data (periodic, tied, renumbered); tests only sample a few tables and one thread schedule", "anchors": ["include/GooseFEM/Vector.h: AsDofs, AsNode, asDofs_impl_nodevec, asNode_impl_dofval"]}
{"id": "C02", "title": "Vector: node->DOF->node on consistent fields", "statement": "If all node components that share a DOF carry the same value, then AsNode(AsDofs(x)) = x whatever the schedule of the parallel loop; if they disagree, AsDofs still terminates and each DOF receives the value of one of the components that own it.", "quantifier": "every node vector, every DOF table, every permutation of the loop iterations", "why_tests_cant": "the write order to a shared DOF is decided by the OpenMP scheduler", "anchors": ["include/GooseFEM/Vector.h: asDofs_impl_nodevec 569-585"]}
{"id": "C03", "title": "Vector: element gather and element->DOF/node round trips", "statement": "AsElement(u)(e,m,i) = u(dofs(conn(e,m),i)) for DOF input and x(conn(e,m),i) for node input; AsNode(AsElement(x)) = x at every node that belongs to an element, and AsDofs(AsElement(u)) = u at every DOF reached by an element.", "quantifier": "every connectivity/DOF table/vector/schedule", "why_tests_cant": "arbitrary mesh topology and schedule", "anchors": ["include/GooseFEM/Vector.h: AsElement, asElement_impl_*, asNode_impl_elemvec, asDofs_impl_elemvec"]}
{"id": "C04", "title": "Vector: assembly is the exact sum of contributions", "statement": "AssembleDofs(f)(d) equals the sum of f(e,m,i) over all (e,m,i) with dofs(conn(e,m),i)=d (resp. of x(m,i) over dofs(m,i)=d); no contribution is lost, duplicated or misplaced, and DOFs without contributions are zero.", "quantifier": "every mesh, DOF table and element/node vector", "why_tests_cant": "needs all multiplicities of shared nodes and tied DOFs", "anchors": ["include/GooseFEM/Vector.h: assembleDofs_impl_nodevec 703-718, assembleDofs_impl_elemvec 724-741"]}
{"id": "C05", "title": "Vector: assembly is adjoint to gathering", "statement": "For every element vector f and DOF vector u, sum_d AssembleDofs(f)(d) u(d) = sum_{e,m,i} f(e,m,i) AsElement(u)(e,m,i) (virtual work is preserved); in particular the total of the assembled vector equals the total of the element vector.", "quantifier": "all f, u, meshes, DOF tables", "why_tests_cant": "is an identity between two functions over all vectors", "anchors": ["include/GooseFEM/Vector.h: AssembleDofs, AsElement"]}
{"id": "C06", "title": "Vector: AssembleNode distributes the assembled DOF value", "statement": "AssembleNode(f)(m,i) equals the sum of f over all element components whose DOF equals dofs(m,i) and is linear in f.", "quantifier": "all element vectors and DOF tables", "why_tests_cant": "arbitrary tying through DOF table", "anchors": ["include/GooseFEM/Vector.h: assembleNode_impl_elemvec 747-757"]}
{"id": "C07", "title": "Vector: run-time rank dispatch", "statement": "AsDofs, AsNode, AsElement, AssembleDofs and AssembleNode accept exactly the documented ranks and raise an exception, never touching memory, for every other rank.", "quantifier": "every array rank and shape", "why_tests_cant": "infinitely many ranks/shapes", "anchors": ["include/GooseFEM/Vector.h: Vector::asDofs_impl etc. 400-563"]}
{"id": "C08", "title": "Memory safety of Vector", "statement": "A Vector constructed from a connectivity whose entries are below the number of nodes performs no out-of-bounds access and returns no uninitialised entry in any of its conversions on arguments of the documented shape, with assertions disabled.", "quantifier": "all inputs of documented shape, all schedules", "why_tests_cant": "absence of out-of-bounds for every input", "anchors": ["include/GooseFEM/Vector.h"]}
{"id": "C09", "title": "Renumber: contiguous, order preserving, idempotent", "statement": "renumber(dofs) maps the distinct numbers of dofs one-to-one and order-preserving onto 0..k-1 with k the number of distinct entries; renumbering twice changes nothing.", "quantifier": "every non-empty list of natural numbers", "why_tests_cant": "all integer lists", "anchors": ["include/GooseFEM/Mesh.h: Renumber 114-163, renumber 172"]}
{"id": "C10", "title": "Renumber: index gaps", "statement": "Renumber(dofs).apply(list) is fully defined exactly when every entry of list occurs in dofs; for other entries it reads storage that was never written or lies out of bounds.", "quantifier": "every dofs, every list", "why_tests_cant": "uninitialised reads are invisible in a test run", "anchors": ["include/GooseFEM/Mesh.h: Renumber, detail::renum 67-78"]}
{"id": "C11", "title": "Reorder: block order", "statement": "After Reorder({a,b,...}) with duplicate-free, mutually disjoint lists, apply sends the k-th entry of the concatenation to k; hence {a} becomes range(|a|), {b} becomes |a|+range(|b|), and the map is a bijection onto 0..|a|+|b|+..-1.", "quantifier": "any number of lists of any length", "why_tests_cant": "all lists", "anchors": ["include/GooseFEM/Mesh.h: Reorder 2384-2454"]}
{"id": "C12", "title": "VectorPartitioned: iiu/iip partition the DOFs", "statement": "iiu() is sorted, duplicate-free and the exact complement of iip in the set of DOFs; the internal partitioned numbering maps iiu onto 0..nnu-1 and iip onto nnu..ndof-1 bijectively.", "quantifier": "every DOF table and duplicate-free iip", "why_tests_cant": "all subsets of DOFs", "anchors": ["include/GooseFEM/VectorPartitioned.h: constructor 72-87", "include/GooseFEM/Mesh.h: Reorder"]}
{"id": "C13", "title": "VectorPartitioned: split/recombine", "statement": "DofsFromParitioned(AsDofs_u(x), AsDofs_p(x)) = x for DOF vectors, and AsDofs_u/AsDofs_p of a recombined vector return the parts; same through NodeFromPartitioned and ElementFromPartitioned.", "quantifier": "all DOF/node/element vectors, all partitions", "why_tests_cant": "all partitions", "anchors": ["include/GooseFEM/VectorPartitioned.h: dofsFromParitioned 293-314, asDofs_u/p"]}
{"id": "C14", "title": "VectorPartitioned: Copy_u and Copy_p are complementary", "statement": "Copy_u(src,dest) changes exactly the components with unknown DOFs, Copy_p exactly the prescribed ones; applying both copies everything; dofs_is_u and dofs_is_p are complementary masks.", "quantifier": "all node vectors and partitions", "why_tests_cant": "all partitions", "anchors": ["include/GooseFEM/VectorPartitioned.h: copy_u 198-214, copy_p 251-267, dofs_is_u/p 126-161"]}
{"id": "C15", "title": "Matrix: assembly equals the elementwise sum", "statement": "After assemble(K), Todense()(r,c) equals the sum over all (e,m,i,n,j) with dofs(conn(e,m),i)=r and dofs(conn(e,n),j)=c of K(e,m*ndim+i,n*ndim+j); the previous contents are discarded.", "quantifier": "every mesh, DOF table, element matrix", "why_tests_cant": "arbitrary sharing", "anchors": ["include/GooseFEM/Matrix.h: assemble 705-727, todense 793-802"]}
{"id": "C16", "title": "Matrix: set/add entry semantics", "statement": "set(rows,cols,M) makes the matrix zero except for the accumulated entries; add(rows,cols,M) adds M(i,j) to entry (rows(i),cols(j)) and leaves all other entries unchanged; histories of assemble/set/add are equivalent to the corresponding dense matrix operations.", "quantifier": "every sequence of assemble/set/add calls, every index list (duplicates allowed)", "why_tests_cant": "arbitrary histories", "anchors": ["include/GooseFEM/Matrix.h: set 737-757, add 766-789"]}
{"id": "C17", "title": "Matrix: Dot", "statement": "Dot(x) returns the matrix-vector product with the dense matrix; for node vectors the product is taken over the DOFs and scattered back, and equals the node-vector assembly of the element products K_e x_e when the matrix was assembled.", "quantifier": "all matrices and vectors", "why_tests_cant": "identity over all inputs", "anchors": ["include/GooseFEM/Matrix.h: dot 805-815, Eigen_AsDofs_nodevec 825-839, asNode 848-859"]}
{"id": "C18", "title": "MatrixPartitioned agrees with Matrix", "statement": "For the same element matrices Todense() and Dot() of MatrixPartitioned equal those of Matrix, for every duplicate-free iip.", "quantifier": "all element matrices, partitions and vectors", "why_tests_cant": "all partitions", "anchors": ["include/GooseFEM/MatrixPartitioned.h: assemble 157-210, todense 324-351, dot 354-398"]}
{"id": "C19", "title": "MatrixPartitioned: set/add agree with Matrix", "statement": "MatrixPartitioned::set and add have the same effect on Todense() as Matrix::set and add.", "quantifier": "all histories and index lists", "why_tests_cant": "all partitions", "anchors": ["include/GooseFEM/MatrixPartitioned.h: set 220-261, add 270-320"]}
{"id": "C20", "title": "MatrixPartitioned: Reaction", "statement": "Reaction(x,b) equals b on unknown DOFs and (A x) on prescribed DOFs; Reaction_p(x_u,x_p) is the prescribed part of A x.", "quantifier": "all matrices, vectors, partitions", "why_tests_cant": "all inputs", "anchors": ["include/GooseFEM/MatrixPartitioned.h: reaction 401-449", "include/GooseFEM/Matrix.h: Reaction_p 553-561"]}
{"id": "C21", "title": "MatrixPartitionedSolver: solution property", "statement": "Given a linear solver that is exact on the factorised block, Solve(A,b,x) returns x' with x'=x on prescribed DOFs and (A x')(d)=b(d) for every unknown DOF d; after Reaction the residual A x' - b' vanishes on every DOF.", "quantifier": "all matrices with regular uu-block, all b, x, partitions", "why_tests_cant": "all matrices", "anchors": ["include/GooseFEM/MatrixPartitioned.h: solve 526-642"]}
{"id": "C22", "title": "Solver factorisation cache over call histories", "statement": "If a solver object is used with one matrix object and that matrix with no other solver, every Solve in any history of assemble/set/add/solve uses the factorisation of the current matrix. Sharing a matrix between two solvers (or a solver between two matrices) can return the solution of an outdated/other matrix.", "quantifier": "every finite history of operations on matrix and solver objects", "why_tests_cant": "unbounded histories and aliasing", "anchors": ["include/GooseFEM/Matrix.h: MatrixSolver::factorize 900-908", "include/GooseFEM/MatrixPartitioned.h: 633-641"]}
{"id": "C23", "title": "MatrixDiagonal: assemble/Dot/Solve", "statement": "assemble sums the diagonal element entries per DOF; Solve(A.Dot(x)) = x and Dot(Solve(b)) = b when every diagonal entry is non-zero; the cached inverse is never stale, for any history of assemble/set/solve.", "quantifier": "all element matrices, vectors, histories", "why_tests_cant": "unbounded histories", "anchors": ["include/GooseFEM/MatrixDiagonal.h: assemble 151-167, dot 213-233, solve 237-259, factorize 268-280"]}
{"id": "C24", "title": "MatrixDiagonalPartitioned: consistency with MatrixDiagonal and solve", "statement": "Todense/Dot equal those of MatrixDiagonal for the same element matrices; Solve satisfies A x = b on unknown DOFs; solving from b alone leaves the prescribed entries without a defined value.", "quantifier": "all inputs and partitions", "why_tests_cant": "uninitialised memory is not detected by tests", "anchors": ["include/GooseFEM/MatrixDiagonalPartitioned.h"]}
{"id": "C25", "title": "Periodic tyings: partition and tying relation", "statement": "Tyings::Periodic(coor,dofs,control,pairs,iip) yields iid/iiu/iip that partition the DOFs and tying matrices such that a dependent DOF satisfies u_d = u_i + sum_j (x_d - x_i)_j (F_control)_{kj}; Cdi, Cdu and Cdp describe the same relation and Cdi=[Cdu Cdp].", "quantifier": "all meshes, node pairs, control nodes, prescribed sets", "why_tests_cant": "all meshes/pairs", "anchors": ["include/GooseFEM/TyingsPeriodic.h: Periodic, Cdi 238-265, Cdu 272-303, Cdp 310-343"]}
{"id": "C26", "title": "Tyings::Control", "statement": "Control appends ndim control nodes at the origin with fresh, consecutive DOF numbers and does not change existing coordinates/DOFs.", "quantifier": "all coordinates/DOF tables", "why_tests_cant": "all meshes", "anchors": ["include/GooseFEM/TyingsPeriodic.h: Control 361-392"]}
{"id": "C27", "title": "VectorPartitionedTyings: reduction to independent DOFs", "statement": "AsDofs_i with apply_tyings equals x_i + Cid x_d (the transpose of Cdi applied to the dependent entries) so that virtual work is preserved; Copy_p copies exactly prescribed components.", "quantifier": "all vectors and tyings", "why_tests_cant": "identity over all vectors", "anchors": ["include/GooseFEM/VectorPartitionedTyings.h: asDofs_i, copy_p"]}
{"id": "C28", "title": "MatrixPartitionedTyings: assembly and condensed solve", "statement": "The nine blocks hold the assembled matrix, Todense equals Matrix's; Solve on node vectors returns x with prescribed values kept, dependent values tied by Cdu/Cdp, and condensed residual (A x - b)_u + Cud (A x - b)_d = 0.", "quantifier": "all matrices with regular condensed block, all tyings", "why_tests_cant": "all inputs", "anchors": ["include/GooseFEM/MatrixPartitionedTyings.h: assemble 211-305, solve_nodevec 540-564"]}
{"id": "C29", "title": "MatrixPartitionedTyings: dofval solve differs", "statement": "Solve on DOF vectors and Solve_u drop the condensed dependent load Cud*b_d and so agree with the node-vector variant only when that term vanishes.", "quantifier": "all b, x", "why_tests_cant": "needs loads on dependent DOFs", "anchors": ["include/GooseFEM/MatrixPartitionedTyings.h: solve_dofval 567-587, solve_u 625-646, AsDofs_d 486"]}
{"id": "C30", "title": "StopList is a sliding window", "statement": "After any sequence of roll_insert calls on StopList(n), n>0, data() is exactly the last n residuals (infinity-padded); all_less(tol) iff each is < tol; descending iff the window is non-increasing.", "quantifier": "every history of reset/roll_insert", "why_tests_cant": "unbounded histories", "anchors": ["include/GooseFEM/Iterate.h: StopList"]}
{"id": "C31", "title": "Quad4 Regular mesh: connectivity and geometry", "statement": "For every nelx,nely>0: nnode=(nelx+1)(nely+1), nelem=nelx*nely, every connectivity entry is a valid node, every element is the axis-aligned square of its grid cell in counter-clockwise order, every node occurs in some element.", "quantifier": "all nelx, nely, h", "why_tests_cant": "all mesh sizes", "anchors": ["include/GooseFEM/MeshQuad4.h: Regular 32-195"]}
{"id": "C32", "title": "Quad4/Tri3 Regular boundary sets", "statement": "Bottom/Top/Left/Right edges, open edges and corners are exactly the nodes with extreme coordinates, without duplicates, ordered by the other coordinate.", "quantifier": "all nelx, nely", "why_tests_cant": "all mesh sizes", "anchors": ["include/GooseFEM/MeshQuad4.h: Regular 128-186", "include/GooseFEM/MeshTri3.h"]}
{"id": "C33", "title": "2-d periodicity", "statement": "nodesPeriodic pairs each dependent boundary node with a node on the opposite edge whose other coordinate agrees; no dependent node is itself an independent one; dofsPeriodic gives contiguous DOFs with equality exactly for tied nodes.", "quantifier": "all sizes of Quad4::Regular and Tri3::Regular (for the fine-layer mesh see a later property)", "why_tests_cant": "all mesh sizes", "anchors": ["include/GooseFEM/Mesh.h: nodesPeriodic 511-540, dofsPeriodic 291-303"]}
{"id": "C34", "title": "Hex8 Regular mesh", "statement": "Same as Quad4 Regular in three dimensions: counts, valid connectivity, each element is the box of its cell with standard node order; face, edge and corner sets are the geometric ones; nodesPeriodic pairs agree up to a lattice translation.", "quantifier": "all nelx,nely,nelz", "why_tests_cant": "all mesh sizes", "anchors": ["include/GooseFEM/MeshHex8.h: Regular 26-608", "include/GooseFEM/Mesh.h: RegularBase3d::nodesPeriodic 1577-1692"]}
{"id": "C35", "title": "Tri3 Regular mesh and orientation", "statement": "Each cell of the Tri3 mesh is split in two counter-clockwise triangles covering it; getOrientation is -1 for counter-clockwise and +1 for clockwise (and degenerate) triangles, i.e. the sign of the cross product (p0-p1)x(p2-p1); setOrientation makes the requested orientation hold for non-degenerate triangles while keeping the node set of each element.", "quantifier": "all sizes, all conn/coor", "why_tests_cant": "all meshes", "anchors": ["include/GooseFEM/MeshTri3.h: 91-111, getOrientation 240-267, setOrientation 279-326"]}
{"id": "C36", "title": "Quad4 FineLayer mesh", "statement": "For every nelx, nely>0, h, nfine the constructor succeeds: layers are symmetric about the middle, element widths coarsen only by factors 3 that divide the row and only under the documented height rule, nelem()/nnode()/nelx()/nely() agree with the layers. coor() and conn() succeed, every connectivity entry is a valid node, nodes have pairwise distinct positions and every one is used, elements are counter-clockwise convex quadrilaterals that together cover the rectangle, do not overlap, and meet conformingly (a node of the mesh lying in an element is one of its four corners). nely=0 is undefined (size underflow).", "quantifier": "all nelx, nely, h, nfine over any ordered field", "why_tests_cant": "data-dependent construction loop; conformity and tiling over all sizes cannot be enumerated", "anchors": ["include/GooseFEM/MeshQuad4.h: FineLayer init 900-1071, coor 586-670, conn 672-762"]}
{"id": "C37", "title": "Nodal/element incidence", "statement": "coordination(conn)(n) is the number of occurrences of n; elem2node(conn)[n] lists exactly the elements containing n in ascending order; their sizes agree.", "quantifier": "every connectivity", "why_tests_cant": "all topologies", "anchors": ["include/GooseFEM/Mesh.h: coordination 2463-2476, elem2node 2486-2547"]}
{"id": "C38", "title": "Nodal tyings", "statement": "nodaltyings(dofs)[n] is exactly the set of nodes whose DOF row equals that of n (equivalence classes), if DOFs are shared only between the same components of nodes that are tied in all components; untied nodes map to themselves; for any other table the rows count the shared DOFs of the first component.", "quantifier": "every periodic DOF table", "why_tests_cant": "all tables", "anchors": ["include/GooseFEM/Mesh.h: nodaltyings 2840-2861"]}
{"id": "C39", "title": "Stitch: invariants over push_back histories", "statement": "After any sequence of push_back, every element of every sub-mesh has the same nodal coordinates (up to the tolerance) in the combined mesh, element numbers are shifted by the preceding element counts, nodemap entries are valid nodes, and nodeset/elemset give the image of the given sets.", "quantifier": "every sequence of meshes", "why_tests_cant": "unbounded histories", "anchors": ["include/GooseFEM/Mesh.h: Stitch 2013-2304, ManualStitch 1749-2008"]}
{"id": "C40", "title": "RefineRegular map", "statement": "The fine mesh elements are partitioned into nx*ny blocks, one per coarse element, geometrically contained in it up to scale (the fine mesh is built with the edge size of the coarse mesh, so that it is nx, ny times larger); meanToCoarse(mapToFine(v)) = v; averageToCoarse is the weighted mean.", "quantifier": "all nelx,nely,nx,ny and element data", "why_tests_cant": "all sizes", "anchors": ["include/GooseFEM/MeshQuad4.h: RefineRegular 1145-1352"]}
{"id": "C41", "title": "Mesh measures", "statement": "edgesize, centers, center_of_gravity, nodal_mass, average_axis_0 equal their defining formulas; total nodal mass equals the total element mass.", "quantifier": "all meshes", "why_tests_cant": "all coordinates", "anchors": ["include/GooseFEM/Mesh.h: 2571-2809"]}
{"id": "C42", "title": "2x2 and 3x3 inverse", "statement": "inv returns the determinant and, if it is non-zero, a two-sided inverse; for all matrices.", "quantifier": "all real matrices", "why_tests_cant": "polynomial identity", "anchors": ["include/GooseFEM/detail.h"]}
{"id": "C43", "title": "Quad4 shape functions", "statement": "At every quadrature rule, N sums to one, interpolates linear (isoparametric) fields exactly; dNdxi is the derivative and sums to zero; Nodal rule has N=identity.", "quantifier": "all rules / all coordinates", "why_tests_cant": "identity over all reals", "anchors": ["include/GooseFEM/ElementQuad4.h: ctor 287-305, Gauss 45-91, Nodal 112-161"]}
{"id": "C44", "title": "Quad4 gradient of affine fields", "statement": "For every element with non-zero Jacobian and every affine field u=A x+b, GradN_vector returns A in the row=derivative convention, its transpose and symmetric versions likewise, at every integration point.", "quantifier": "all coordinates, all affine fields", "why_tests_cant": "identity over all reals", "anchors": ["include/GooseFEM/ElementQuad4.h: compute_dN 493-532, gradN 349-434"]}
{"id": "C45", "title": "Hex8 gradient", "statement": "The generic Jacobian code used by Hex8 gives the exact gradient for affine fields when the element is an axis-aligned box, but not for a general (sheared) hexahedron.", "quantifier": "all coordinates", "why_tests_cant": "needs non-aligned elements", "anchors": ["include/GooseFEM/Element.h: compute_dN 1178-1229"]}
{"id": "C46", "title": "Quad4 volumes", "statement": "With Gauss and Nodal rules the quadrature volumes of an element sum to its (signed shoelace) area; the one-point rule returns a quarter of it.", "quantifier": "all coordinates", "why_tests_cant": "identity over all reals", "anchors": ["include/GooseFEM/ElementQuad4.h: MidPoint 183-220"]}
{"id": "C47", "title": "Mass matrix", "statement": "Int_N_scalar_NT_dV is symmetric, component-decoupled, its total per component equals the integral of the scalar, and with the Nodal rule it is diagonal; v^T M v >= 0 for non-negative density and volumes.", "quantifier": "all scalars and coordinates", "why_tests_cant": "identity over all reals", "anchors": ["include/GooseFEM/ElementQuad4.h: 437-464", "include/GooseFEM/Element.h: 1059-1094"]}
{"id": "C48", "title": "Internal force", "statement": "Int_gradN_dot_tensor2_dV is self-equilibrated (sums to zero over the nodes) and satisfies virtual work: f.v = sum_q sigma:grad v dV.", "quantifier": "all stresses and coordinates", "why_tests_cant": "identity over all fields", "anchors": ["include/GooseFEM/ElementQuad4.h: 467-491", "include/GooseFEM/Element.h: 1097-1129"]}
{"id": "C49", "title": "Tangent stiffness", "statement": "Int_gradN_dot_tensor4_dot_gradNT_dV is the derivative of the internal force: K u = int gradN.(C:grad u); symmetric when C has major symmetry; annihilates rigid translations.", "quantifier": "all C, u, coordinates", "why_tests_cant": "identity over all fields", "anchors": ["include/GooseFEM/Element.h: 1132-1176"]}
{"id": "C50", "title": "Planar and axisymmetric elements", "statement": "Planar volumes are thickness times the Quad4 ones and out-of-plane components vanish; axisymmetric internal force is the adjoint of its gradient and the stiffness is its linearisation.", "quantifier": "all inputs", "why_tests_cant": "identity over all fields", "anchors": ["include/GooseFEM/ElementQuad4Planar.h", "include/GooseFEM/ElementQuad4Axisymmetric.h"]}
{"id": "C51", "title": "Element helpers", "statement": "asElementVector/assembleNodeVector gather and sum; isDiagonal is true iff off-diagonals vanish; isSequential as documented should be true iff all numbers occur, but returns true for every input.", "quantifier": "all inputs", "why_tests_cant": "all DOF tables", "anchors": ["include/GooseFEM/Element.h: 31-145"]}
{"id": "C52", "title": "Allocate helpers", "statement": "AsTensor broadcasts trailing dimensions without changing values; as3d pads with zeros.", "quantifier": "all shapes", "why_tests_cant": "all shapes", "anchors": ["include/GooseFEM/Allocate.h"]}
{"id": "C53", "title": "Quad4 quadrature object: history of update_x", "statement": "The constructor and any sequence of update_x calls succeed on arrays of the right shape, and afterwards volumes and gradients are those of a fresh object constructed with the last coordinates.", "quantifier": "all coordinates, rules, schedules and update histories", "why_tests_cant": "unbounded histories", "anchors": ["include/GooseFEM/Element.h: update_x 564-569", "include/GooseFEM/ElementQuad4.h: 277-318, 493-532"]}
{"id": "C54", "title": "Body forces", "statement": "Int_N_vector_dV integrates shape functions times a density with any number of components; summed over the nodes of an element it gives the integral of the density.", "quantifier": "all densities, coordinates, widths", "why_tests_cant": "identity over all fields", "anchors": ["include/GooseFEM/Element.h: int_N_vector_dV_impl 1025-1056"]}
{"id": "C55", "title": "Hex8 quadrature object", "statement": "The Hex8 constructor and any sequence of update_x calls succeed; shape functions are the trilinear ones, local gradients their derivatives, volumes weight times Jacobian determinant; the Gauss volumes add up to the exact volume of the hexahedron; after any update history the arrays are those of a fresh object.", "quantifier": "all coordinates, rules, schedules and update histories", "why_tests_cant": "identity over all reals, unbounded histories", "anchors": ["include/GooseFEM/ElementHex8.h", "include/GooseFEM/Element.h: compute_dN 1178-1229"]}
{"id": "C56", "title": "Hex8 mechanics", "statement": "Mass matrix symmetric, decoupled, with the right total and kinetic energy, diagonal for the Nodal rule; internal force self-equilibrated and adjoint to GradN_vector; stiffness is the linearisation of the internal force; interpolation and body forces are exact sums.", "quantifier": "all fields and coordinates", "why_tests_cant": "identity over all fields", "anchors": ["include/GooseFEM/ElementHex8.h: 324-383", "include/GooseFEM/Element.h: 900-1176"]}
{"id": "C57", "title": "overlapping and ManualStitch glue exactly the listed nodes", "statement": "overlapping returns exactly the pairs of nodes of two meshes that are equal up to the tolerance, each once and in lexicographic order. ManualStitch of two meshes along two lists of nodes yields nodemap/elemmap that are valid, keeps all nodes of the first mesh and all unlisted nodes of the second mesh at their position and in order, replaces each listed node of the second mesh by the listed node of the first, removes exactly the listed nodes, and shifts element numbers; with check_position it throws if and only if a listed pair is not at the same position (up to the tolerance). A repeated node in the second list has no normal outcome.", "quantifier": "every pair of meshes, every pair of node lists, every tolerance", "why_tests_cant": "all meshes, sizes and node lists", "anchors": ["include/GooseFEM/Mesh.h: overlapping 1716-1744, ManualStitch 1749-2008"]}
{"id": "C58", "title": "Vstack: layers are stacked at the sum of the heights below", "statement": "After any sequence of push_back of layers whose bottom nodes fit the top nodes of the previous layer, the nodes of layer i are at their own position raised by the sum of the heights of the layers below, consecutive layers share exactly their interface nodes, node and element maps are valid, and no other nodes are merged; with check_overlap a layer that does not fit is rejected with an exception.", "quantifier": "every number of layers, every layer", "why_tests_cant": "unbounded histories", "anchors": ["include/GooseFEM/Mesh.h: Vstack 2309-2374"]}
{"id": "C59", "title": "Quad4 FineLayer boundary", "statement": "The eight edge lists of a FineLayer mesh are exactly the nodes with the extreme coordinate (open edges: without the corners), each once and ordered along the edge, although rows have different numbers of nodes; the four corner functions return the corner nodes.", "quantifier": "all nelx,nely>0, h>0, nfine", "why_tests_cant": "sizes of the rows depend on the data-dependent coarsening", "anchors": ["include/GooseFEM/MeshQuad4.h: FineLayer nodes*Edge_impl 764-859, nodes*Corner_impl 861-881"]}
{"id": "C60", "title": "Quad4 FineLayer periodicity", "statement": "nodesPeriodic() pairs every node of the right and top edges, once, with a node of the left/bottom edge that is a lattice translation away, independent nodes are never dependent; dofsPeriodic() gives equal numbers exactly to the same component of nodes that differ by a lattice vector and numbers are contiguous.", "quantifier": "all nelx,nely>0, h>0, nfine", "why_tests_cant": "relates all pairs of nodes of meshes of every size", "anchors": ["include/GooseFEM/Mesh.h: nodesPeriodic_impl 511-540, dofsPeriodic 291-303", "include/GooseFEM/MeshQuad4.h: FineLayer"]}
{"id": "C61", "title": "Quad4 FineLayer roll", "statement": "roll(n) returns a permutation of the elements that is the periodic shift of the mesh by n bottom-row elements to the right: the mapped element moved over that distance (modulo the width) coincides with the element corner by corner, in every layer including the transition layers.", "quantifier": "all nelx,nely>0, h, nfine, all n", "why_tests_cant": "permutation and geometry for every mesh and every shift", "anchors": ["include/GooseFEM/MeshQuad4.h: FineLayer::roll 539-564"]}
{"id": "C62", "title": "Quad4 FineLayer elementgrid_ravel", "statement": "For every selection of rows and columns inside the mesh, elementgrid_ravel returns, each once and in ascending order, exactly the elements that lie entirely in the box obtained by rounding the rows to the layers they touch and the columns down to multiples of the widest element of the first and last of these layers; a selection that is already aligned with the elements returns exactly the elements in it; an omitted selection returns all elements.", "quantifier": "all nelx,nely>0, h>0, nfine, all row and column ranges inside the mesh", "why_tests_cant": "geometric selection on meshes with data-dependent layers", "anchors": ["include/GooseFEM/MeshQuad4.h: elementgrid_ravel 314-398"]}
{"id": "C63", "title": "Quad4 FineLayer selections around an element", "statement": "For an element of the middle layer, elementgrid_leftright returns the elements from left columns to the left up to right columns to the right of it in the periodic row, in order, limited only by the edges of the mesh shifted such that the element is in the middle; elementgrid_around_ravel returns, each once, exactly the elements of the periodic mesh in a box around the element that covers size rows below and above and size columns to the left and (up to one column, see the witness) to the right, rounded to layers and multiples of the widest element, or the whole mesh if it is not higher than twice size. Elements of other layers are rejected with an exception, except elements of the last layer for which the layer index underflows.", "quantifier": "all nelx,nely>0, h>0, nfine, all elements, sizes", "why_tests_cant": "geometric selection on periodic meshes with data-dependent layers", "anchors": ["include/GooseFEM/MeshQuad4.h: elementgrid_around_ravel 409-469, elementgrid_leftright 482-532"]}
{"id": "C64", "title": "Quad4 FineLayer from coordinates and connectivity", "statement": "FineLayer(coor, conn) applied to the coordinates and connectivity of a FineLayer mesh (without extra fine layers) returns a mesh with the same layers, coordinates and connectivity; a mesh of one layer with more than one element is read out of bounds. For arbitrary arguments: if the constructor returns, its mesh has exactly the given connectivity and coordinates close to the given ones.", "quantifier": "all nelx,nely>0, h>0; all arrays", "why_tests_cant": "round trip for every mesh and soundness for every input", "anchors": ["include/GooseFEM/MeshQuad4.h: FineLayer(coor, conn) 228-232, init_by_mapping 1076-1134"]}
{"id": "C65", "title": "Quad4 Map::FineLayer2Regular", "statement": "For every FineLayer mesh, Map::FineLayer2Regular lists for each element, each once, exactly the elements of the regular mesh (of the size of the finest elements) that it covers completely (fraction 1) or on one side of a diagonal (fraction 1/2), with that fraction. The fractions with which a regular element is listed add up to one, those of an element add up to its area. mapToRegular assigns to each regular element the average of the data weighted with the fractions, for data with any trailing dimensions: a constant is reproduced and the integral over the domain is conserved.", "quantifier": "all nelx,nely>0, h>0, nfine, all element data of any rank", "why_tests_cant": "geometric map on meshes with data-dependent layers", "anchors": ["include/GooseFEM/MeshQuad4.h: Map::FineLayer2Regular 1359-1786"]}
{"id": "C66", "title": "Hex8 FineLayer layers", "statement": "The constructor of the three-dimensional FineLayer succeeds for every size with at least one layer; its layers are symmetric about the middle, fine in the middle, and coarsen by a factor three in x- or z-direction (a transition in x is followed by one in z of the same height where it fits) exactly where the documented conditions hold; block sizes always divide the mesh; the height reaches the requested one and exceeds it by less than the outermost layers; nelx(), nelz() return the requested numbers and nely() the height.", "quantifier": "all nelx,nely>0,nelz, nfine", "why_tests_cant": "data-dependent coarsening for every size", "anchors": ["include/GooseFEM/MeshHex8.h: FineLayer 627-848, nelx_impl 874-887"]}
{"id": "C67", "title": "Hex8 FineLayer mesh", "statement": "coor() and conn() of a Hex8 FineLayer are fully initialised; every entry of conn() is a node, every node is used and nodes have distinct positions; each block of each layer consists of the documented one (normal) or four (transition) hexahedra at the documented positions; elementsMiddleLayer() lists the elements of the middle layer.", "quantifier": "all nelx,nely>0,nelz, h, nfine", "why_tests_cant": "unbounded sizes, data-dependent numbering", "anchors": ["include/GooseFEM/MeshHex8.h: coor_impl 893-1027, conn_impl 1029-1257, elementsMiddleLayer 854-868"]}
{"id": "C68", "title": "Hex8 FineLayer tiling", "statement": "Every element of a Hex8 FineLayer is a convex hexahedron with plane faces, its corners numbered as in Hex8; every point of the box of nelx h times nely() h times nelz h is in an element and no point is strictly inside an element and in another one.", "quantifier": "all nelx,nely,nelz>0, h>0, nfine, all points", "why_tests_cant": "geometric claim about every point of every mesh", "anchors": ["include/GooseFEM/MeshHex8.h: FineLayer coor_impl, conn_impl"]}
{"id": "C69", "title": "Hex8 FineLayer conformity", "statement": "A node of a Hex8 FineLayer that lies in an element, possibly on its boundary, is one of the corners of that element: no hanging nodes between layers of different fineness.", "quantifier": "all nelx,nely>0,nelz, h>0, nfine, all nodes and elements", "why_tests_cant": "relates all nodes and elements of meshes of every size", "anchors": ["include/GooseFEM/MeshHex8.h: FineLayer coor_impl, conn_impl"]}
{"id": "C70", "title": "Hex8 FineLayer node sets", "statement": "Each of the node-set methods of the three-dimensional FineLayer returns, each once and ordered by position (y, then x, then z), exactly the nodes on the side, edge, open edge, open bottom or top face, or corner that its name says; the open front, back, left and right faces miss exactly the nodes strictly inside the lowest and the highest layer of elements, and there are such nodes precisely if those are transition layers in that direction.", "quantifier": "all nelx,nely,nelz>0, h>0, nfine", "why_tests_cant": "unbounded sizes, data-dependent numbering", "anchors": ["include/GooseFEM/MeshHex8.h: FineLayer nodesFront_impl ... nodesBackTopRightCorner_impl 1259-2273"]}
{"id": "C71", "title": "Hex8 FineLayer periodicity", "statement": "nodesPeriodic() pairs nodes that differ by the dimensions of the mesh, lists every node of the right, top and back sides exactly once as dependent except those strictly inside the outermost layers, and never as independent; dofsPeriodic() gives two DOFs the same number exactly if they are the same component of the same node or of nodes, not strictly inside the outermost layers, that differ by a lattice vector, with contiguous numbers. If the outermost layers are not transition layers the exception is void: the mesh is fully periodic.", "quantifier": "all nelx,nely,nelz>0, h>0, nfine", "why_tests_cant": "relates all pairs of nodes of meshes of every size", "anchors": ["include/GooseFEM/Mesh.h: RegularBase3d nodesPeriodic_impl, dofsPeriodic_impl", "include/GooseFEM/MeshHex8.h: FineLayer"]}
{"id": "C72", "title": "2d meshes: interior edges cancel, the boundary is formed by the four edges", "statement": "For every Quad4 Regular, Quad4 FineLayer and Tri3 Regular mesh and every quantity on oriented edges that changes sign with the orientation, its sum over the edges of all elements equals its sum along nodesBottomEdge, nodesRightEdge, nodesTopEdge (reversed) and nodesLeftEdge (reversed). Hence every edge that is not on the boundary is shared by as many elements on one side as on the other: no holes, overlaps, hanging nodes or inverted elements.", "quantifier": "all nelx,nely, h, nfine, all edge quantities with values in any abelian group", "why_tests_cant": "topological claim about meshes of every size", "anchors": ["include/GooseFEM/MeshQuad4.h: Regular, FineLayer conn_impl and edges", "include/GooseFEM/MeshTri3.h: Regular conn_impl"]}
{"id": "C73", "title": "Quad4 meshes cover a rectangle exactly", "statement": "Every Quad4 Regular and FineLayer mesh is a conforming mesh of convex quadrilaterals of the rectangle nelx*h times nely()*h, opposite sides carrying the same nodes up to translation. Constructing Vector and Quadrature from it always succeeds, all volumes dV are positive and they add up to the area of the rectangle.", "quantifier": "all nelx,nely, h>0, nfine, all DOF tables, all schedules", "why_tests_cant": "identity over meshes of every size", "anchors": ["include/GooseFEM/MeshQuad4.h", "include/GooseFEM/Vector.h: AsElement", "include/GooseFEM/ElementQuad4.h: Quadrature, compute_dN"]}
{"id": "C74", "title": "Patch test", "statement": "On every Quad4 Regular and FineLayer mesh the internal force assembled from a constant stress equals the force of the tractions sigma.n on the boundary, lumped equally to the ends of the boundary edges: it vanishes at every node inside, and with periodic DOFs it vanishes on every DOF.", "quantifier": "all meshes, stresses, schedules", "why_tests_cant": "global cancellation between all elements of meshes of every size", "anchors": ["include/GooseFEM/ElementQuad4.h: int_gradN_dot_tensor2_dV_impl 467-491", "include/GooseFEM/Vector.h: AssembleDofs", "include/GooseFEM/MeshQuad4.h"]}
{"id": "C75", "title": "Assembled stiffness", "statement": "For every conforming Quad4 mesh: the product of the assembled stiffness with a displacement is the assembled internal force of the stress C:grad u; the assembled matrix is symmetric for tangents with major and minor symmetry; translations (and infinitesimal rotations for tangents with minor symmetry) give no force; u.K.u is the integral of the work of the stress.", "quantifier": "all meshes, DOF tables (also periodic), displacements, tangents, schedules", "why_tests_cant": "identity over all fields and meshes", "anchors": ["include/GooseFEM/Element.h: int_gradN_dot_tensor4_dot_gradNT_dV_impl", "include/GooseFEM/Matrix.h: assemble, dot", "include/GooseFEM/Vector.h: AsElement, AssembleDofs"]}
{"id": "C76", "title": "No spurious modes", "statement": "On every Quad4 Regular and FineLayer mesh (any conforming mesh of a rectangle by convex quadrilaterals) with an elastic material and Gauss quadrature the assembled stiffness is positive semi-definite, and a displacement gives zero energy, equivalently zero force, exactly if it is a rigid motion of the whole mesh: no hourglass modes, no disconnected parts.", "quantifier": "all meshes, elastic tangents varying per integration point, all displacements", "why_tests_cant": "quantifies over all vectors in the kernel of matrices of every size", "anchors": ["include/GooseFEM/ElementQuad4.h: Gauss::xi, compute_dN", "include/GooseFEM/MeshQuad4.h: Regular, FineLayer", "include/GooseFEM/Matrix.h: assemble, dot"]}
{"id": "C77", "title": "Linear statics: solution and uniqueness", "statement": "If the prescribed DOFs exclude rigid motions, assembling the stiffness in MatrixPartitioned and calling Solve always succeeds with an exact linear solver: the result keeps the prescribed values and its internal force equals the load on all other DOFs; no other displacement does.", "quantifier": "all conforming meshes of a rectangle, elastic tangents, loads, prescribed DOFs and values, schedules", "why_tests_cant": "existence and uniqueness over all loads and meshes", "anchors": ["include/GooseFEM/MatrixPartitioned.h: assemble, MatrixPartitionedSolver::Solve", "include/GooseFEM/VectorPartitioned.h", "include/GooseFEM/ElementQuad4.h"]}
{"id": "C78", "title": "Displacement patch test", "statement": "If the boundary of a Quad4 Regular or FineLayer mesh is displaced by any affine field, with a homogeneous elastic material and no load, Solve returns that affine field at every node, also across the transition layers of FineLayer.", "quantifier": "all nelx,nely>0, h>0, nfine, affine fields, elastic tangents, sets of prescribed DOFs containing the boundary", "why_tests_cant": "exact for meshes of every size", "anchors": ["include/GooseFEM/MatrixPartitioned.h: Solve", "include/GooseFEM/MeshQuad4.h: Regular, FineLayer", "include/GooseFEM/ElementQuad4.h: GradN_vector, Int_gradN_dot_tensor4_dot_gradNT_dV"]}
{"id": "C79", "title": "Divergence theorem and average gradient", "statement": "On every conforming Quad4 mesh of a rectangle the integral over the mesh of GradN_vector of any node vector equals the sum over the boundary edges of the outward normal times the mean of the two end points. Hence, if the displacements of the two nodes of every periodic pair differ by A.(x1-x0), the average gradient over the mesh is exactly A, whatever the displacement is inside.", "quantifier": "all conforming meshes of a rectangle, all node vectors, all schedules", "why_tests_cant": "identity over all fields and meshes of every size", "anchors": ["include/GooseFEM/ElementQuad4.h: gradN_vector_impl", "include/GooseFEM/Vector.h: AsElement", "include/GooseFEM/Mesh.h: nodesPeriodic"]}
{"id": "C80", "title": "Periodic unit cell: solution and uniqueness", "statement": "The program Control, Periodic tyings, VectorPartitionedTyings, Quadrature, MatrixPartitionedTyings, assemble, Solve (with the macroscopic gradient in the control nodes and the origin prescribed) always succeeds with an exact linear solver: the displacement keeps the prescribed values, is periodic up to the macroscopic gradient, its average gradient is that gradient, and its stress is in equilibrium with the load for every periodic virtual displacement; no other displacement has these properties.", "quantifier": "all Quad4 Regular and FineLayer meshes, elastic tangents per integration point, loads, macroscopic gradients, schedules", "why_tests_cant": "existence and uniqueness over all loads and meshes", "anchors": ["include/GooseFEM/TyingsPeriodic.h: Control, Periodic", "include/GooseFEM/MatrixPartitionedTyings.h: assemble, Solve", "include/GooseFEM/VectorPartitionedTyings.h", "docs/examples/statics/periodic_elastoplastic.py"]}
{"id": "C81", "title": "Periodic unit cell: reaction forces of the control nodes", "statement": "AsDofs_i of the assembled internal force is work-conjugate to the periodic displacements; when it vanishes on the unknown DOFs, its value on the DOFs of the control nodes is the volume times the average stress, the fixed node carries no force, and the virtual work equals the macroscopic stress on the macroscopic gradient (Hill-Mandel). After Solve the internal force equals AsDofs_i of the load on all unknown DOFs.", "quantifier": "all conforming meshes of a rectangle, all stresses, loads, schedules", "why_tests_cant": "identity over all fields and meshes", "anchors": ["include/GooseFEM/VectorPartitionedTyings.h: AsDofs_i", "include/GooseFEM/MatrixPartitionedTyings.h", "include/GooseFEM/TyingsPeriodic.h", "docs/examples/statics/periodic_elastoplastic.py"]}
{"id": "C82", "title": "Periodic unit cell: homogeneous material", "statement": "Without load and with the same elastic tangent everywhere the periodic program returns the affine displacement with exactly the prescribed macroscopic gradient at every node, also across the transition layers of FineLayer.", "quantifier": "all nelx,nely>0, h>0, nfine, elastic tangents, macroscopic gradients, displacements of the origin", "why_tests_cant": "exact for meshes of every size", "anchors": ["include/GooseFEM/MatrixPartitionedTyings.h: Solve", "include/GooseFEM/TyingsPeriodic.h", "include/GooseFEM/MeshQuad4.h: Regular, FineLayer"]}
{"id": "C83", "title": "Dynamics: lumped mass", "statement": "The diagonal mass matrix that MatrixDiagonal assembles from Int_N_scalar_NT_dV with the nodal quadrature rule is positive on every DOF and its sum over the DOFs of each component is the integral of the density (density times area if uniform).", "quantifier": "all conforming meshes of a rectangle, all DOF numbers, all positive densities, schedules", "why_tests_cant": "sums over meshes of every size", "anchors": ["include/GooseFEM/MatrixDiagonal.h: assemble", "include/GooseFEM/ElementQuad4.h: Quadrature, Nodal", "docs/examples/dynamics/Elastic-Verlet/main.cpp"]}
{"id": "C84", "title": "Dynamics: momentum and macroscopic deformation", "statement": "The velocity-Verlet program of the dynamics example succeeds for every number of increments and every material (also with memory); nodes that share a DOF move together; the total momentum of each component grows only with the total external load; and with periodic DOFs the average displacement gradient keeps its initial value.", "quantifier": "all conforming meshes of a rectangle (instance: all Quad4 Regular meshes with dofsPeriodic), all time steps, materials, loads, numbers of increments, schedules", "why_tests_cant": "histories of any length", "anchors": ["include/GooseFEM/MatrixDiagonal.h: solve", "include/GooseFEM/Vector.h: asElement, assembleNode", "include/GooseFEM/ElementQuad4.h", "include/GooseFEM/MeshQuad4.h: Regular.dofsPeriodic", "docs/examples/dynamics/Elastic-Verlet/main.cpp"]}
{"id": "C85", "title": "Dynamics: energy and time reversibility", "statement": "For a linear elastic material without load, kinetic plus elastic energy minus dt^2/8 sum(mass a^2) has exactly the same value after every increment from the first on (so the energy has no drift); for every material without memory, reversing the velocity and running the same number of increments returns exactly to the earlier state with reversed velocity.", "quantifier": "all conforming meshes of a rectangle, DOF numbers, time steps, symmetric tangents, initial conditions, numbers of increments, schedules", "why_tests_cant": "histories of any length", "anchors": ["include/GooseFEM/MatrixDiagonal.h: solve", "include/GooseFEM/Vector.h: asElement, assembleNode", "include/GooseFEM/ElementQuad4.h", "docs/examples/dynamics/Elastic-Verlet/main.cpp"]}
{"id": "C86", "title": "No data races in the parallel loops that write their own rows", "statement": "At the level of single memory accesses (reads and writes of shared arrays, x += a is a read and a write), the iterations of every OpenMP loop that writes only the row of its own element, node or DOF never race, never access outside of the arrays or read uninitialised memory, and in every interleaving end with the result of the serial loop, whenever the serial loop succeeds. This covers all element kernels (gradients, interpolation, integrals, compute_dN, for all element types), AsNode(dofval), AsElement, copy_u/copy_p, dofs_is_u/dofs_is_p, NodeFromPartitioned, ElementFromPartitioned, diagonal matrix products and solves, and the copies of the partitioned solvers.", "quantifier": "all inputs for which the serial loop succeeds, all numbers of iterations, all interleavings of all accesses", "why_tests_cant": "a race detector sees only the interleavings and inputs it runs", "anchors": ["include/GooseFEM/Element.h: *_impl", "include/GooseFEM/ElementQuad4.h", "include/GooseFEM/ElementQuad4Planar.h", "include/GooseFEM/ElementQuad4Axisymmetric.h", "include/GooseFEM/ElementHex8.h", "include/GooseFEM/Vector.h", "include/GooseFEM/VectorPartitioned.h", "include/GooseFEM/MatrixDiagonal.h", "include/GooseFEM/MatrixDiagonalPartitioned.h", "include/GooseFEM/MatrixPartitioned.h", "include/GooseFEM/MatrixPartitionedTyings.h"]}
{"id": "C87", "title": "Exactly when the scattering parallel loops race", "statement": "asDofs(nodevec), asDofs(elemvec), asNode(elemvec), AsDofs_u/AsDofs_p of node and element vectors write in parallel to cells given by DOF or node numbers. They are free of data races when no two nodes (elements) share a DOF (node) that is written, and they have a data race whenever two do: on every Quad4 Regular mesh with two columns AsNode(elemvec) and AsDofs(elemvec) race for all inputs, and AsDofs(nodevec) races with the periodic DOFs but not with the mesh's own DOFs. If the values at shared DOFs agree, every interleaving gives the result of the serial loop.", "quantifier": "all connectivities, DOF tables, inputs for which the serial loop succeeds, all interleavings of all accesses", "why_tests_cant": "races depend on timing; absence and presence are claims about all or some interleavings", "anchors": ["include/GooseFEM/Vector.h: asDofs_impl_nodevec, asDofs_impl_elemvec, asNode_impl_elemvec", "include/GooseFEM/VectorPartitioned.h: asDofs_u, asDofs_p", "include/GooseFEM/VectorPartitionedTyings.h", "include/GooseFEM/MatrixPartitionedTyings.h", "include/GooseFEM/MeshQuad4.h: Regular"]}
{"id": "C88", "title": "Bit-for-bit reproducibility", "statement": "The result of every parallel function that is not in the list of the scattering loops (all element kernels, constructors and update_x of all element types, AsElement, AsNode(dofval), AssembleNode, the partitioned copies and conversions, products and solves with diagonal matrices, nodal_mass, center_of_gravity), and of complete explicit simulations with any number of increments and any material, does not depend on the number of threads or the schedule - bit for bit, without any assumption about the arithmetic (rounding, non-associative sums).", "quantifier": "all inputs, all schedules, all interpretations of the arithmetic operations, all numbers of increments", "why_tests_cant": "two runs that agree say nothing about other schedules; with rounding, a change of the order of a sum changes the last bits only for some inputs", "anchors": ["include/GooseFEM/Vector.h", "include/GooseFEM/VectorPartitioned.h", "include/GooseFEM/Element.h", "include/GooseFEM/ElementQuad4.h", "include/GooseFEM/ElementQuad4Planar.h", "include/GooseFEM/ElementQuad4Axisymmetric.h", "include/GooseFEM/ElementHex8.h", "include/GooseFEM/MatrixDiagonal.h", "include/GooseFEM/MatrixDiagonalPartitioned.h", "include/GooseFEM/Mesh.h: nodal_mass, center_of_gravity", "docs/examples/dynamics/Elastic-Verlet/main.cpp"]}
{"id": "C89", "title": "Hex8 box meshes: partition, volume and gradient", "statement": "Hex8 Regular is a partition of the box into rectangular hexahedra: for all sizes every cell of the grid is exactly one element with its nodes at the corners of the cell. On every such mesh (any grid spacing, any numbering) the integration volumes sum to the volume of the box, and GradN_vector of an affine displacement is its exact gradient at every integration point.", "quantifier": "all numbers of elements, grid spacings, node and element numbers, affine fields, schedules", "why_tests_cant": "sizes without bound, identities over all fields", "anchors": ["include/GooseFEM/MeshHex8.h: Regular", "include/GooseFEM/ElementHex8.h", "include/GooseFEM/Vector.h: AsElement"]}
{"id": "C90", "title": "Force patch test in three dimensions", "statement": "For a uniform stress the assembled internal force is that of the tractions on the six faces of the box, a quarter of each face's traction at each of its corners: zero at every node strictly inside, and identically zero with periodic DOFs.", "quantifier": "all box meshes of rectangular hexahedra (instances: all Hex8 Regular meshes, with dofs() and dofsPeriodic()), all stresses, DOF numbers, schedules", "why_tests_cant": "must hold for every mesh size and stress", "anchors": ["include/GooseFEM/ElementHex8.h: int_gradN_dot_tensor2_dV_impl", "include/GooseFEM/Vector.h: AssembleDofs", "include/GooseFEM/MeshHex8.h: Regular"]}
{"id": "C91", "title": "Stiffness in three dimensions: consistent, symmetric, no spurious modes", "statement": "The assembled Hex8 stiffness times the displacement is the internal force of the linear stress (for any geometry), is symmetric for a tangent with the usual symmetries, its quadratic form is the integral of the work density, and on a box mesh with an elastic material it vanishes exactly for translations and rotations of the whole mesh: no hourglass modes with the eight Gauss points.", "quantifier": "all Hex8 meshes (box meshes for the last part), tangents per integration point, displacements, DOF numbers, schedules", "why_tests_cant": "statements over all displacements and mesh sizes", "anchors": ["include/GooseFEM/Element.h: int_gradN_dot_tensor4_dot_gradNT_dV_impl", "include/GooseFEM/ElementHex8.h", "include/GooseFEM/Matrix.h: assemble, Dot"]}
{"id": "C92", "title": "Linear problems in three dimensions", "statement": "On a box mesh with an elastic material and prescribed displacements that exclude rigid motions, MatrixPartitioned assemble and Solve succeed for every load with an exact solver: the result has the prescribed values, equilibrium holds on all other DOFs, and no other displacement has these properties. If an affine displacement is prescribed on the boundary and the material is uniform, the solution is that affine field at every node.", "quantifier": "all box meshes (instance: all Hex8 Regular meshes), elastic tangents, loads, prescribed values, schedules", "why_tests_cant": "existence and uniqueness over all loads and mesh sizes", "anchors": ["include/GooseFEM/MatrixPartitioned.h: assemble, Solve", "include/GooseFEM/ElementHex8.h", "include/GooseFEM/MeshHex8.h: Regular", "docs/examples/statics/fixed-displacement_elastic.py"]}
{"id": "C93", "title": "The static example scripts return the equilibrium state, with zero residual", "statement": "The complete programs of docs/examples/statics (fixed-displacement_elastic.py and partial-periodic_elastic.py: mesh, node sets, DOFs, periodicity by copying DOFs and renumbering, prescribed DOFs, vector, matrix, solver, planar quadrature, material, solve, reaction forces) run without error or undefined behaviour on every rectangular mesh, for every linear elastic material (possibly different at every integration point), every thickness and every prescribed displacement: the final residual fext - fint is exactly zero at all nodes, the external force is zero at every component that is not prescribed, prescribed displacements are reproduced, and linked sides move together. For a uniform material the displacement is exactly the homogeneous stretch (isotropic material, fixed-displacement) respectively the simple shear (partial-periodic) at every node, on Quad4 Regular and FineLayer meshes of any size.", "quantifier": "All rectangular meshes (all Quad4 Regular and FineLayer sizes), all linear elastic materials, all loads, prescribed values, thicknesses and schedules of the parallel loops, every exact solver, exact arithmetic", "why_tests_cant": "The documentation runs the scripts on one mesh with one material and checks one number up to round-off; the claim is an identity of all arrays for all meshes and materials", "anchors": ["include/GooseFEM/VectorPartitioned.h: VectorPartitioned", "include/GooseFEM/MatrixPartitioned.h: MatrixPartitioned, MatrixPartitionedSolver", "include/GooseFEM/ElementQuad4Planar.h: QuadraturePlanar", "include/GooseFEM/Mesh.h: renumber", "docs/examples/statics/fixed-displacement_elastic.py", "docs/examples/statics/partial-periodic_elastic.py"]}
{"id": "C94", "title": "The two dynamic example programs compute the same motion, bit for bit", "statement": "The program of docs/examples/dynamics/Elastic-VelocityVerlet (estimate the velocity, and solve three times per increment) completes exactly if that of Elastic-Verlet does, and ends with identical displacements, velocities, accelerations, mass matrix and strains, for every arithmetic (also with rounding): solving again with the same right-hand side returns the same solution and leaves the matrix unchanged. On every rectangular Quad4 mesh both complete.", "quantifier": "all meshes, materials (also with memory), loads, time steps, initial motions, numbers of increments, schedules of either program, all interpretations of the arithmetic operations", "why_tests_cant": "histories of any length and two different programs; a comparison on one run cannot show that they never differ", "anchors": ["include/GooseFEM/MatrixDiagonal.h: solve, factorize", "include/GooseFEM/Vector.h: asElement, assembleNode", "docs/examples/dynamics/Elastic-VelocityVerlet/main.cpp", "docs/examples/dynamics/Elastic-Verlet/main.cpp"]}
{"id": "C95", "title": "The Newton loop of a periodic unit cell", "statement": "The program of docs/examples/statics/periodic_elastoplastic.py (control nodes, tyings, increments of shear, Newton iterations with residual on the independent DOFs) always ends: either with its own exception, or with a displacement that is periodic up to exactly the total prescribed shear, leaves the origin in place and has the total shear as average strain, whatever the material (with any memory), load, tolerance and linear solver (also an inexact one). When it ends without exception the last strain passed to the material is that of the returned displacement, the nodal forces are those of the returned stress, the relative residual is below the tolerance, and the stress is in equilibrium with the load up to the residual for all admissible periodic virtual displacements. For a linear elastic material and an exact solver it never throws, takes exactly two iterations per increment, and returns the unique solution of the linear problem; a homogeneous cell without load deforms in exactly simple shear.", "quantifier": "all Quad4 meshes of a rectangle with periodic pairs (instance: Quad4 Regular of every size), all materials with memory, loads, histories of the shear of any length, tolerances, numbers of iterations, linear solvers and schedules", "why_tests_cant": "histories of any length and materials with any memory; a test follows one path of loading", "anchors": ["include/GooseFEM/VectorPartitionedTyings.h: AsDofs_i, copy_p", "include/GooseFEM/MatrixPartitionedTyings.h: assemble, solve", "include/GooseFEM/ElementQuad4Planar.h: QuadraturePlanar", "include/GooseFEM/TyingsPeriodic.h: Control, Periodic", "docs/examples/statics/periodic_elastoplastic.py"]}
{"id": "C96", "title": "Moving meshes: update_x and finite strain", "statement": "For every displacement of the nodes (not only affine), update_x(x + u) multiplies the volume of each integration point by det F with F = I + GradN_vector_T(u), and the nodal forces of a Cauchy stress on the updated mesh equal those of the corresponding nominal stress on the mesh before the update. For an affine motion x = F X + b, I + GradN_vector_T(u) is exactly F, while I + symGradN_vector(u) is only the symmetric part of F: for a rigid rotation over an angle with cosine c it is c I, with determinant c^2 instead of 1 (this is what the finite-strain example computes).", "quantifier": "all planar Quad4 quadratures, all nodal positions without singular Jacobian, displacements, stresses, rotations, schedules", "why_tests_cant": "identity over all deformations", "anchors": ["include/GooseFEM/ElementQuad4Planar.h: update_x, gradN_vector_T_impl, symGradN_vector_impl, int_gradN_dot_tensor2_dV_impl", "docs/examples/statics/periodic_elastoplastic_finite-strain.py"]}
{"id": "C97", "title": "Partition by hand and by the library agree", "statement": "Taking the unknown part with AsDofs_u, solving with Solve_u(K, b_u, u_p), writing u[iiu] and u[iip] into one array of DOFs and calling AsNode gives at every node exactly the displacement of Solve(K, b, x) on node vectors, for every solver (exact or not) if u_p lists the prescribed values in the order of iip. The program of docs/examples/statics/fixed-displacement_elastic_manual-partition.py therefore ends with the same displacements and identical arrays of external force, internal force and residual as fixed-displacement_elastic.py, for every material (also non-linear); for elastic materials the residual is exactly zero.", "quantifier": "all matrices, right-hand sides, prescribed values, solvers, schedules; all rectangular Quad4 meshes and materials", "why_tests_cant": "equality of two programs over all matrices, materials and solvers; a test compares one pair of runs up to a tolerance", "anchors": ["include/GooseFEM/MatrixPartitioned.h: MatrixPartitionedSolver::solve, Solve_u", "include/GooseFEM/VectorPartitioned.h: AsDofs_u, iiu, iip", "include/GooseFEM/Vector.h: AsNode", "docs/examples/statics/fixed-displacement_elastic_manual-partition.py"]}
{"id": "C98", "title": "The default solver gets symmetric positive definite matrices only", "statement": "With an elastic material whose tangent is symmetric, the matrix that the solver of a partitioned system factorizes (MatrixPartitioned::data_uu) is symmetric and positive definite if and only if the prescribed DOFs exclude rigid motions, and so is the condensed matrix of a periodic unit cell with tyings and that of a mesh of Hex8 elements. Elimination without pivoting that reads the lower triangle only (the default Eigen::SimplicialLDLT) solves such systems exactly, and it does not solve every regular system: symmetry and definiteness are needed.", "quantifier": "all rectangular Quad4 and box Hex8 meshes, all elastic materials (different at every integration point), all sets of prescribed DOFs, all periodic pairs, all right-hand sides, schedules, exact arithmetic", "why_tests_cant": "positive definiteness is a statement about all vectors, for all meshes and materials", "anchors": ["include/GooseFEM/MatrixPartitioned.h: data_uu, MatrixPartitionedSolver", "include/GooseFEM/MatrixPartitionedTyings.h: MatrixPartitionedTyingsSolver::factorize", "include/GooseFEM/Matrix.h: MatrixSolver"]}
{"id": "C99", "title": "The finite-strain Newton program of a periodic cell", "statement": "The program of docs/examples/statics/periodic_elastoplastic_finite-strain.py (two quadratures: elem0 on the initial mesh for the kinematics, elem on the moved mesh for forces and stiffness, moved with update_x(coor + disp) after every iteration) always ends: with its own exception, or with a displacement that is periodic up to exactly the total prescribed shear and leaves the origin in place, with elem at coor + disp: each of its volumes is det F times the initial one, their total is unchanged, and the average of the deformation gradient I + GradN_vector_T(disp) is exactly the total simple shear, whatever the material, load, tolerance and solver. Ended without exception, the residual of the virtual work on the deformed mesh is below the tolerance for all periodic virtual displacements. The tensor the program gives to the material is not the deformation gradient but its symmetric part. For a homogeneous material (with any memory, any dependence on the strain) of elastic tangent, every increment takes two iterations and the result is exactly simple shear of the whole mesh.", "quantifier": "all Quad4 meshes of a rectangle with periodic pairs (instance: Quad4 Regular of every size), all materials with memory, loads, shear histories of any length, tolerances, numbers of iterations, linear solvers and schedules", "why_tests_cant": "histories of any length with a mesh that moves at every iteration; a test follows one path of loading", "anchors": ["include/GooseFEM/VectorPartitionedTyings.h: AsDofs_i", "include/GooseFEM/MatrixPartitionedTyings.h: assemble, solve", "include/GooseFEM/ElementQuad4Planar.h: update_x, symGradN_vector_impl", "include/GooseFEM/TyingsPeriodic.h: Control, Periodic", "docs/examples/statics/periodic_elastoplastic_finite-strain.py"]}
{"id": "C100", "title": "Periodic unit cells in three dimensions", "statement": "For every mesh of a box of Hex8 elements, its periodic pairs, three control nodes (Tyings.Control) and an origin away from the far faces: the constructors succeed; the program (assemble the stiffness, MatrixPartitionedTyings solve) returns a displacement that is periodic up to the macroscopic gradient stored in the control nodes, keeps the origin in place, satisfies the principle of virtual work against every admissible field, and is the only one that does; the average of GradN_vector is exactly the macroscopic gradient; a homogeneous cell without load deforms affinely; the reduced internal force after the solve equals the reduced load for all unknown DOFs; in equilibrium the reaction forces on the control nodes are the integral of the stress, the origin carries no force, and Hill-Mandel holds for every periodic field.", "quantifier": "all grids (also graded) of any size with nodes and elements numbered in any way, all tables of periodic pairs, all elastic materials (different at every integration point), macroscopic gradients, loads, stress fields, suitable solvers and schedules (instance: Hex8 Regular of every size with its own nodesPeriodic and nodesOrigin)", "why_tests_cant": "existence, uniqueness and averages over all meshes, materials and gradients; the repository has no three-dimensional periodic test", "anchors": ["include/GooseFEM/TyingsPeriodic.h: Control, Periodic", "include/GooseFEM/VectorPartitionedTyings.h: AsDofs_i", "include/GooseFEM/MatrixPartitionedTyings.h: assemble, solve", "include/GooseFEM/ElementHex8.h: Quadrature", "include/GooseFEM/MeshHex8.h: Regular, nodesPeriodic, nodesOrigin"]}
{"id": "C101", "title": "Axisymmetric analyses: volume and force patch test", "statement": "For a mesh of a rectangle (axial by radial) at distance R >= 0 from the axis with Quad4 axisymmetric quadrature: all integration volumes are positive, also for elements that touch the axis, and they add up to exactly the volume of the (hollow) cylinder, pi ((R + Ly)^2 - R^2) Lx; the assembled Int_gradN_dot_tensor2_dV of a constant stress that satisfies axisymmetric equilibrium (equal radial and hoop stress, no shear) is exactly the consistent nodal force of the tractions on the surface, with the circumference weighting 2 pi (2 r_p + r_q) / 6; it vanishes for every node inside the solid, and for nodes on the axis of a solid that is not hollow.", "quantifier": "all Quad4 meshes of a rectangle (any numbering, distorted elements), all radii, all such stresses, DOF numberings and schedules (instances: Quad4 Regular and FineLayer of every size)", "why_tests_cant": "a test integrates over one mesh; the claim is exactness for every mesh, also for distorted elements on the axis", "anchors": ["include/GooseFEM/ElementQuad4Axisymmetric.h: QuadratureAxisymmetric", "include/GooseFEM/ElementQuad4.h: Gauss", "include/GooseFEM/Vector.h: AsElement, AssembleDofs", "include/GooseFEM/MeshQuad4.h: Regular, FineLayer"]}
{"id": "C102", "title": "Axisymmetric linear problems", "statement": "For such meshes and any elastic material: the assembled stiffness times the displacements is the assembled force of the stress C : grad u; its quadratic form is the integral of the work of the stress; it is zero exactly for a translation along the axis (rigid rotations and radial translations are no rigid motions of a ring; no hourglass modes); with at least one axial DOF prescribed MatrixPartitionedSolver.Solve succeeds, returns the prescribed values and forces equal to the load on all other DOFs, and the solution is unique; for homogeneous isotropic material a uniform expansion u_r = k r with a uniform stretch u_z = a + b z is reproduced exactly at every node, also if nothing is prescribed on the axis of a solid cylinder.", "quantifier": "all meshes as above, all elastic tangents (different at every integration point), loads, prescribed DOFs, suitable solvers and schedules", "why_tests_cant": "definiteness, existence, uniqueness and exactness over all meshes and materials", "anchors": ["include/GooseFEM/ElementQuad4Axisymmetric.h: QuadratureAxisymmetric", "include/GooseFEM/Vector.h: AsElement, AssembleDofs", "include/GooseFEM/Matrix.h: assemble, Dot", "include/GooseFEM/MatrixPartitioned.h: assemble, MatrixPartitionedSolver"]}
{"id": "C103", "title": "Sides are complete; stacks of rectangular meshes are rectangular meshes", "statement": "A node of a Quad4 mesh of a rectangle lies on a side of the rectangle if and only if the corresponding set (nodesBottomEdge, nodesTopEdge, nodesLeftEdge, nodesRightEdge) lists it. If meshes of rectangles of equal width, whose top and bottom nodes have matching horizontal positions, are pushed to a Vstack, coor() and conn() are again a conforming mesh of a rectangle, of the sum of the heights: no gaps or overlaps at the interfaces, positive elements, sides given by the bottom of the first layer, the top of the last one and the joined sides. A linear elastic patch test on the stack is therefore passed exactly.", "quantifier": "any number of layers of any (different) meshes of rectangles, any numbering, with and without check, any isclose that is reflexive; all affine fields and elastic tangents", "why_tests_cant": "invariant of call histories of any length over all meshes", "anchors": ["include/GooseFEM/Mesh.h: Vstack::push_back, ManualStitch, Stitch", "include/GooseFEM/MeshQuad4.h: Regular, FineLayer", "include/GooseFEM/Vector.h: AsElement", "include/GooseFEM/MatrixPartitioned.h: solve"]}
{"id": "C104", "title": "Numbering of combined meshes; a stack of regular meshes is the regular mesh", "statement": "Stitch and Vstack number nodes in the order of first appearance: a node that coincides with no earlier node gets a higher number than all nodes of earlier sub-meshes and all preceding nodes of its own; this determines all numbers, given which nodes are identified. Pushing any number of Quad4 Regular meshes with the same number of columns and element size (any numbers of rows) to a Vstack with their bottom and top edges gives, entry by entry, the coor() and conn() of the Regular mesh with the total number of rows, and nodemap(i) is arange shifted by the number of nodes per row times the number of rows below.", "quantifier": "all call histories, all meshes; all numbers of layers, rows, columns and element sizes", "why_tests_cant": "tests/basic/Mesh.cpp asserts this for 2 and 5 layers of 5 x 5 elements", "anchors": ["include/GooseFEM/Mesh.h: Vstack::push_back, Stitch::push_back, ManualStitch::ManualStitch, nodemap", "include/GooseFEM/MeshQuad4.h: Regular"]}
{"id": "C105", "title": "The sets of DOFs of a matrix with tyings, in C++ and Python", "statement": "C++: iii() of MatrixPartitionedTyings is iiu() followed by iip(), iii() followed by iid() is all DOFs in order, nnu, nnp, nni, nnd are the lengths. The Python attributes nni, nnd, iii, iid of the same class are bound to nnu, nnp, iiu, iip instead: iid never lists a dependent DOF, iii and iid together miss all dependent DOFs, and the attributes equal what their names say only if nothing is prescribed (nni, iii), if nnp = nnd (nnd), or if nothing is prescribed or dependent (iid).", "quantifier": "all connectivities, DOF tables and tyings for which the constructor succeeds", "why_tests_cant": "for every set of tyings; the repository has no Python test of these attributes", "anchors": ["include/GooseFEM/MatrixPartitionedTyings.h: MatrixPartitionedTyings", "include/GooseFEM/Matrix.h: nni, nnd, iii, iid", "python/Matrix.hpp: register_Matrix_MatrixPartitionedTyingsBase"]}
{"id": "C106", "title": "Stability of the explicit dynamics", "statement": "The program of docs/examples/dynamics without load and with a linear elastic material: if dt^2 times the elastic energy of every displacement of the DOFs is at most 4 theta times its lumped-mass norm (theta <= 1), then after any number of increments the kinetic energy plus (1 - theta) times the elastic energy is at most its value after the first increment: the result does not blow up. On a mesh of squares of size h, with density at least rho and stiffness at most kappa, this holds if dt^2 kappa <= theta rho h^2 (isotropic: kappa = 2 (l + mu)), for any DOF numbering, also periodic. The bound is sharp: a single element released from a dilatation with 2 (l + mu) dt^2 > rho h^2 has a displacement that grows exponentially with the number of increments. A displacement whose internal force is lambda times mass times itself is multiplied by the n-th Chebyshev polynomial in 1 - dt^2 lambda / 2.", "quantifier": "all meshes, DOF numberings, densities, symmetric non-negative tangents, initial conditions, time steps, numbers of increments and schedules", "why_tests_cant": "a statement about runs of any length, for all initial conditions; a test sees a finite run from one initial condition", "anchors": ["docs/examples/dynamics/Elastic-Verlet/main.cpp", "include/GooseFEM/MatrixDiagonal.h: solve", "include/GooseFEM/Element.h: QuadratureBase", "include/GooseFEM/ElementQuad4.h: Gauss, Nodal", "include/GooseFEM/Vector.h: AsElement, AssembleNode", "include/GooseFEM/MeshQuad4.h: Regular"]}
{"id": "C107", "title": "Rounding errors of assembly and of the element integrals", "statement": "In floating-point arithmetic (every operation rounded once, in the order of the source): each entry of AssembleDofs, AssembleNode, of the gradient, of the element vectors and matrices of Quad4 (planar and axisymmetric) and Hex8 and of MatrixDiagonal differs from the exact sum of the stored numbers by at most ((1+u)^n - 1) times the sum of the absolute values of the terms, u the unit round-off (2^-53 for double) and n the number of additions plus the number of roundings per term; entries with a single contribution are exact; entries of a mass matrix that couple different components are exactly zero; Solve of MatrixDiagonal has two roundings per entry. Numbering the elements differently changes an assembled result by at most twice that amount, and does change it in general, whatever the precision. The constructors complete on rounded coordinates and quadrature rules, and the shape functions and local gradients that they store are those of the quadrature points within 5 and 4 (Hex8: 7 and 6) roundings, and the integration volumes are weight times Jacobian determinant of the stored local gradients within 12 (axisymmetric: times the circumference, 19; Hex8: 30) roundings; the gradients of Quad4 are those of Cramer's rule within 5 roundings, for a Jacobian within 4 roundings of the exact one and a determinant within 2 of its own (axisymmetric: and shape function over radius within 2, for a radius within 4).", "quantifier": "all meshes, DOF numberings, data, schedules and precisions; arithmetic without overflow or underflow, without fused multiply-add", "why_tests_cant": "a bound over all data and mesh sizes; a test compares with a tolerance on one mesh", "anchors": ["include/GooseFEM/Vector.h: AssembleDofs, AssembleNode", "include/GooseFEM/Element.h: QuadratureBase", "include/GooseFEM/ElementQuad4.h: Quadrature", "include/GooseFEM/ElementQuad4Planar.h: QuadraturePlanar", "include/GooseFEM/ElementHex8.h: Quadrature", "include/GooseFEM/MatrixDiagonal.h: assemble, solve"]}
{"id": "C108", "title": "The build with assertions is a faithful watchdog", "statement": "With GOOSEFEM_ENABLE_ASSERT, the constructors and methods of Vector, VectorPartitioned, Matrix, MatrixPartitioned, MatrixDiagonal, MatrixDiagonalPartitioned, their solvers, VectorPartitionedTyings and the element classes (Quad4, planar, axisymmetric, Hex8; at any moment in the life of the object) throw exactly when an argument has the wrong shape (or a DOF, node or prescribed number is out of range, or prescribed DOFs repeat, or an element matrix given to MatrixDiagonal is not diagonal up to machine epsilon); otherwise they do the same as the build without assertions and complete, with a result of the documented shape with all entries written. The same holds for the mesh functions: regular meshes without elements, meshes that do not fit together (overlapping, ManualStitch, Stitch, Vstack, for every sequence of calls of push_back no false alarm), node and element sets with numbers that the sub-mesh does not have, data with the wrong number of rows (RefineRegular), connectivities with nodes that do not exist (edgesize, centers), lists with repetitions (Reorder), invalid input of Tyings::Periodic and Tyings::Control, meshes with a fine layer without elements, layers that do not exist (elementsLayer), ranges outside the mesh (elementgrid_ravel), data with the wrong number of elements (FineLayer2Regular), arrays of the wrong shape or a target other than -1 and +1 for the orientation of triangles. Not caught by any assertion: a DOF number that is skipped (the constructor of MatrixPartitioned reads memory that was not written), tying matrices that are too small for the DOFs (VectorPartitionedTyings::AsDofs_i writes out of bounds), the use of a MatrixDiagonal before assemble or set, and fewer integration points than weights (the constructors of Quad4, planar and Hex8 read out of bounds before they reach the assertion; the axisymmetric one does throw), a number in two lists of Reorder, a DOF that is both prescribed and dependent in Tyings::Periodic, an element map that refers to elements that do not exist (elemmap2nodemap reads out of bounds), a decreasing range of columns in FineLayer::elementgrid_ravel.", "quantifier": "all shapes and values of all arguments, in particular wrong ones; all schedules", "why_tests_cant": "there are infinitely many wrong shapes; the tests only pass right ones", "anchors": ["include/GooseFEM/config.h: GOOSEFEM_ASSERT", "include/GooseFEM/Vector.h", "include/GooseFEM/VectorPartitioned.h", "include/GooseFEM/Matrix.h", "include/GooseFEM/MatrixPartitioned.h", "include/GooseFEM/MatrixDiagonal.h", "include/GooseFEM/VectorPartitionedTyings.h"]}
{"id": "C109", "title": "Energy theorems of linear statics", "statement": "For the static analysis of linear elasticity with prescribed displacements (assemble the stiffness with an elastic tangent, Solve): the displacement that Solve returns is the unique minimiser of the potential energy (half the stress work minus the work of the loads) among all displacements with the same prescribed components; the solution of a sum of loads and of prescribed displacements is the sum of the solutions (superposition); two load cases of one structure do the same work on each other's displacements (Betti); with zero prescribed displacements the elastic energy is half the work of the loads (Clapeyron); prescribing more degrees-of-freedom never lowers the minimum of the potential energy, and a stiffer material never lowers it either.", "quantifier": "all regular meshes, all numberings of DOFs and prescribed DOFs that hold the body, all elastic materials with major symmetry (also varying from integration point to integration point), all loads and prescribed displacements", "why_tests_cant": "a minimum over infinitely many displacement fields, and comparisons of arbitrary pairs of runs", "anchors": ["include/GooseFEM/MatrixPartitioned.h: assemble, Solve", "include/GooseFEM/ElementQuad4.h: Int_gradN_dot_tensor4_dot_gradNT_dV", "include/GooseFEM/VectorPartitioned.h"]}
{"id": "C110", "title": "Homogenised response of a periodic unit cell", "statement": "For the periodic unit cell without load and a linear elastic material with a symmetric tangent: the stress work of the computed displacement equals the work of the integrated stress on the prescribed macroscopic gradient (Hill); it is the smallest of all periodic displacements with that macroscopic gradient; it is at most the value for the homogeneous gradient (Voigt) and at least the value that follows from any constant stress (Reuss); it is not negative, and zero exactly if the symmetric part of the macroscopic gradient is zero; the macroscopic stiffness is symmetric; making the material stiffer anywhere does not lower the macroscopic stiffness.", "quantifier": "all meshes of a rectangle, all lists of periodic pairs, all elastic materials that may differ per integration point, all macroscopic gradients, all schedules; Quad4 Regular meshes of all sizes", "why_tests_cant": "a minimum over infinitely many fields, bounds for every microstructure, and comparisons of arbitrary pairs of runs", "anchors": ["include/GooseFEM/TyingsPeriodic.h: Control, Periodic", "include/GooseFEM/MatrixPartitionedTyings.h: assemble, Solve", "include/GooseFEM/VectorPartitionedTyings.h", "include/GooseFEM/ElementQuad4.h: Int_gradN_dot_tensor4_dot_gradNT_dV"]}
{"id": "C111", "title": "The numbering is immaterial", "statement": "Two descriptions of the same structure that differ in the numbers of the nodes, of the elements and of the degrees-of-freedom (same positions, same material, same tied components, same prescribed components and values, same loads) give, with Solve, the same displacement of every node; in particular, permuting the DOFs permutes the solution vector.", "quantifier": "all pairs of descriptions: all permutations of nodes, elements and DOFs, all DOF tables with ties, all elastic materials, loads and prescribed displacements, all schedules and solvers", "why_tests_cant": "there are factorially many numberings; a test compares a few", "anchors": ["include/GooseFEM/MatrixPartitioned.h: assemble, Solve", "include/GooseFEM/VectorPartitioned.h", "include/GooseFEM/Mesh.h: renumber, Reorder, dofs", "include/GooseFEM/ElementQuad4.h"]}
{"id": "C112", "title": "Homogenised response of a periodic unit cell in three dimensions", "statement": "The statements of C110 for Hex8 meshes of a box: Hill's condition, minimum of the stress work among all periodic displacements with the same macroscopic gradient, bounds of Voigt and Reuss, zero only if the symmetric part of the macroscopic gradient is zero, symmetric macroscopic stiffness, and monotonicity in the material.", "quantifier": "all meshes of a box of blocks, all lists of periodic pairs, all elastic materials that may differ per integration point, all macroscopic gradients, all schedules; Hex8 Regular meshes of all sizes", "why_tests_cant": "a minimum over infinitely many fields, bounds for every microstructure, and comparisons of arbitrary pairs of runs", "anchors": ["include/GooseFEM/TyingsPeriodic.h: Control, Periodic", "include/GooseFEM/MatrixPartitionedTyings.h: assemble, Solve", "include/GooseFEM/ElementHex8.h: Int_gradN_dot_tensor4_dot_gradNT_dV", "include/GooseFEM/MeshHex8.h: Regular"]}
{"id": "C113", "title": "Energy theorems of linear statics in three dimensions", "statement": "The statements of C109 for Hex8 meshes of a box: the displacement that Solve returns is the unique minimiser of the potential energy among all displacements with the same prescribed components; superposition; reciprocity (Betti); Clapeyron; more prescribed degrees-of-freedom or a stiffer material never lower the stiffness.", "quantifier": "all meshes of a box of blocks, all numberings of DOFs and prescribed DOFs that hold the body, all elastic materials (also varying from integration point to integration point), all loads and prescribed displacements; Hex8 Regular meshes of all sizes held at three corners", "why_tests_cant": "a minimum over infinitely many displacement fields, and comparisons of arbitrary pairs of runs", "anchors": ["include/GooseFEM/MatrixPartitioned.h: assemble, Solve", "include/GooseFEM/ElementHex8.h: Int_gradN_dot_tensor4_dot_gradNT_dV", "include/GooseFEM/MeshHex8.h: Regular", "include/GooseFEM/VectorPartitioned.h"]}
{"id": "C114", "title": "The numbering is immaterial in three dimensions", "statement": "The statement of C111 for Hex8 meshes of a box: two descriptions of the same structure that differ in the numbers of the nodes, of the elements and of the degrees-of-freedom give, with Solve, the same displacement of every node; permuting the DOFs permutes the solution vector.", "quantifier": "all pairs of descriptions: all permutations of nodes, elements and DOFs, all DOF tables with ties, all elastic materials, loads and prescribed displacements, all schedules and solvers", "why_tests_cant": "there are factorially many numberings; a test compares a few", "anchors": ["include/GooseFEM/MatrixPartitioned.h: assemble, Solve", "include/GooseFEM/VectorPartitioned.h", "include/GooseFEM/Mesh.h: renumber, Reorder, dofs", "include/GooseFEM/ElementHex8.h"]}
{"id": "C115", "title": "Energy theorems of axisymmetric linear statics", "statement": "The statements of C109 for axisymmetric problems (Quad4 with the axisymmetric quadrature, hollow or solid cross-sections): the displacement that Solve returns is the unique minimiser of the potential energy, integrated over the ring swept by every element and including the hoop strain, among all displacements with the same prescribed components; superposition; reciprocity; Clapeyron; more prescribed degrees-of-freedom or a stiffer material never lower the stiffness. One prescribed axial component suffices.", "quantifier": "all meshes of a rectangle at any distance from the axis, all numberings of DOFs, all sets of prescribed DOFs with an axial component, all elastic materials (also varying from integration point to integration point), all loads and prescribed displacements; Quad4 Regular meshes of all sizes", "why_tests_cant": "a minimum over infinitely many displacement fields, and comparisons of arbitrary pairs of runs", "anchors": ["include/GooseFEM/ElementQuad4Axisymmetric.h: QuadratureAxisymmetric", "include/GooseFEM/MatrixPartitioned.h: assemble, Solve", "include/GooseFEM/VectorPartitioned.h"]}
{"id": "C116", "title": "Refining a mesh never makes the structure stiffer", "statement": "A Quad4 Regular mesh is refined: every element is divided into r x r elements, RefineRegular (mapToFine) gives the small elements the material of the element they are part of, and supports, prescribed displacements and point loads stay at their places. The response of the refined mesh (Solve) has at most the potential energy of the response of the coarse mesh; without prescribed non-zero displacements the work of the loads is at least that of the coarse mesh.", "quantifier": "regular meshes of all sizes, all refinements r, all elastic materials that may differ from element to element, all sets of prescribed DOFs that hold the body, all loads and prescribed displacements, all schedules and solvers", "why_tests_cant": "it compares the results of two runs on different meshes, for every mesh, refinement, material and load", "anchors": ["include/GooseFEM/MeshQuad4.h: Regular, Map::RefineRegular", "include/GooseFEM/MatrixPartitioned.h: assemble, Solve", "include/GooseFEM/ElementQuad4.h: Int_gradN_dot_tensor4_dot_gradNT_dV"]}
{"id": "C117", "title": "Numerical integration on Hex8 FineLayer meshes: volumes and homogeneous deformation", "statement": "For every Mesh::Hex8::FineLayer, with the vector and quadrature objects made from its conn() and coor(): the volumes dV of all integration points are positive and add up to the volume of the block nelx h x (height of the layers) x nelz h, wherever the integration points are in the reference element; the gradient (GradN_vector) of every displacement that is affine in the position is exact if and only if the mesh has no transition layers, which is the case if neither nelx nor nelz is a multiple of three. On all other meshes with transition layers the strain of some homogeneous deformation is computed wrongly (consequence of the discrepancy of the gradient of Hex8).", "quantifier": "all nelx, nely, nelz >= 1, h > 0, nfine, DOF tables, positions of the integration points, affine displacements, schedules; over any linearly ordered field", "why_tests_cant": "the number of elements is unbounded and a test of a few meshes without transition layers passes", "anchors": ["include/GooseFEM/MeshHex8.h: FineLayer", "include/GooseFEM/ElementHex8.h: Quadrature", "include/GooseFEM/Element.h: QuadratureBaseCartesian::compute_dN, GradN_vector, dV"]}
{"id": "C118", "title": "Time integration in three dimensions: lumped mass, Newton's second law, reversibility and energy", "statement": "With Vector, Element::Hex8 (Gauss and nodal quadrature) and MatrixDiagonal, velocity Verlet as in docs/examples/dynamics on any mesh of hexahedra with positive Jacobian determinants at the corners (they need not be boxes): the lumped mass is positive on every DOF and adds up, for each component, to the integral of the density with the nodal rule; for any material, also with memory, every number of increments succeeds and the momentum of each component grows with the total load; without memory the motion is reversible; for a linear elastic material the energy has no drift. On Hex8 Regular with dofsPeriodic the total mass is the density times the volume, and the average displacement gradient keeps its initial value; on Hex8 FineLayer, also with transition layers, the total mass is the density times the volume and the momentum is conserved, although the strain is not exact there (discrepancy of the gradient of Hex8), as forces and strains are adjoint.", "quantifier": "all meshes of hexahedra with positive determinants at the corners, all densities, time steps, loads, materials (functions of the strain history), initial conditions, DOF tables, numbers of increments, schedules; Hex8 Regular and FineLayer of all sizes", "why_tests_cant": "an unbounded number of increments, and any material", "anchors": ["include/GooseFEM/MatrixDiagonal.h", "include/GooseFEM/ElementHex8.h: Quadrature, Nodal, Int_N_scalar_NT_dV, Int_gradN_dot_tensor2_dV, SymGradN_vector", "include/GooseFEM/MeshHex8.h: Regular, FineLayer", "docs/examples/dynamics"]}
{"id": "C119", "title": "Stability of the explicit dynamics in three dimensions", "statement": "The program of docs/examples/dynamics with Element::Hex8, without load and with a linear elastic material, on any mesh of hexahedra with positive Jacobian determinants at the corners and the integration points: if dt^2 times the elastic energy of every displacement of the DOFs is at most 4 theta times its lumped-mass norm (theta <= 1), then after any number of increments the kinetic energy plus (1 - theta) times the elastic energy is at most its value after the first increment. On a mesh of boxes with edges of at least h (not necessarily equal), with density at least rho and stiffness at most kappa, this holds if dt^2 kappa <= theta rho h^2 (isotropic: kappa = 3 l + 2 mu), for any DOF numbering, also periodic. The bound is sharp: a single cube released from a dilatation with (3 l + 2 mu) dt^2 > rho h^2 has a displacement that grows exponentially with the number of increments.", "quantifier": "all meshes (for the critical time step: of boxes), DOF tables, densities, materials, time steps, initial conditions, numbers of increments, schedules; Hex8 Regular of all sizes", "why_tests_cant": "an unbounded number of increments and all displacement fields", "anchors": ["include/GooseFEM/MatrixDiagonal.h", "include/GooseFEM/ElementHex8.h: Quadrature, Nodal, Int_N_scalar_NT_dV, Int_gradN_dot_tensor2_dV, SymGradN_vector", "include/GooseFEM/MeshHex8.h: Regular", "docs/examples/dynamics"]}
{"id": "C120", "title": "Time integration of axisymmetric bodies: lumped mass, axial momentum, reversibility and energy", "statement": "With Vector, Element::Quad4::QuadratureAxisymmetric (Gauss rule for the force, nodal rule for the mass) and MatrixDiagonal, velocity Verlet as in docs/examples/dynamics on any mesh of convex quadrilaterals with non-negative radial positions: the lumped mass of a DOF is positive if its nodes are off the axis and zero if they are all on the axis; on meshes of parallelograms the lumped masses of each component add up to the density times the volume of the (hollow) cylinder. Off the axis and for any material, also with memory, every number of increments succeeds and the axial momentum grows with the total axial load (radial momentum is not conserved); without memory the motion is reversible; for a linear elastic material without load the energy has no drift. On Quad4 Regular with inner radius zero exactly the nodes of the bottom edge have zero mass, so that the solve for their acceleration divides by zero.", "quantifier": "all meshes of convex quadrilaterals at non-negative radii, densities, time steps, loads, materials (functions of the strain history), initial conditions, DOF tables, numbers of increments, schedules; Quad4 Regular of all sizes and all inner radii", "why_tests_cant": "an unbounded number of increments, and any material", "anchors": ["include/GooseFEM/MatrixDiagonal.h", "include/GooseFEM/ElementQuad4Axisymmetric.h: QuadratureAxisymmetric, Int_N_scalar_NT_dV, Int_gradN_dot_tensor2_dV, SymGradN_vector", "include/GooseFEM/ElementQuad4.h: Nodal", "include/GooseFEM/MeshQuad4.h: Regular", "docs/examples/dynamics"]}
{"id": "C121", "title": "Stability of the explicit dynamics of axisymmetric bodies", "statement": "The program of docs/examples/dynamics with Element::Quad4::QuadratureAxisymmetric, without load and with a linear elastic material, on any mesh of convex quadrilaterals off the axis: if dt^2 times the elastic energy of every displacement of the DOFs is at most 4 theta times its lumped-mass norm, then after any number of increments the kinetic energy plus (1 - theta) times the elastic energy is at most its value after the first increment. On a mesh of squares of size h at a distance of at least R > 0 from the axis, with density at least rho and stiffness at most kappa, this holds if dt^2 kappa (1 + h / (2 R))^2 <= theta rho h^2 (isotropic: kappa = 3 l + 2 mu), for any DOF numbering: the planar criterion with a correction for the curvature that disappears far from the axis. An eigenmode that is released at rest follows a three-term recursion for any dt; one ring element whose nodes share their axial DOF per axial position (l = 0) grows exponentially if 2 mu dt^2 > rho h^2, so the criterion can be improved by the factor (1 + h / (2 R))^2 at most.", "quantifier": "all meshes (for the critical time step: of squares), distances from the axis, DOF tables, densities, materials, time steps, initial conditions, numbers of increments, schedules; Quad4 Regular of all sizes", "why_tests_cant": "an unbounded number of increments and all displacement fields", "anchors": ["include/GooseFEM/MatrixDiagonal.h", "include/GooseFEM/ElementQuad4Axisymmetric.h: QuadratureAxisymmetric, Int_N_scalar_NT_dV, Int_gradN_dot_tensor2_dV, SymGradN_vector", "include/GooseFEM/ElementQuad4.h: Nodal", "include/GooseFEM/MeshQuad4.h: Regular", "docs/examples/dynamics"]}
{"id": "C122", "title": "A critical time step for the explicit dynamics on any mesh", "statement": "The program of docs/examples/dynamics, without load and with a linear elastic material, on any conforming mesh of convex quadrilaterals of a rectangle, on any mesh of hexahedra with positive Jacobian determinants, and with QuadratureAxisymmetric on any mesh of convex quadrilaterals off the axis: if, for every element by itself, dt^2 times the elastic energy of every displacement of its nodes is at most 4 theta times its lumped-mass norm, then after any number of increments the kinetic energy plus (1 - theta) times the elastic energy is at most its value after the first increment. This holds if dt^2 kappa sum_q dV_q sum_ni (dN_n/dx_i)^2 <= 4 theta m for the lumped mass m of every corner of every element: a criterion to be computed from GradN() and dV() (axisymmetric: with (N_n/r)^2 added, from B() and dV()). In particular every such mesh has a positive critical time step below which the program is stable for all DOF tables (also periodic), initial conditions, materials with a stiffness of at most kappa, and numbers of increments; instance: all Quad4 FineLayer meshes, also as the section of a hollow cylinder, with heterogeneous isotropic materials.", "quantifier": "all meshes (quadrilaterals, hexahedra, rings; FineLayer of all sizes), DOF tables, densities, materials that may differ from point to point, time steps, initial conditions, numbers of increments, schedules", "why_tests_cant": "an unbounded number of increments, all meshes and all displacement fields", "anchors": ["include/GooseFEM/MatrixDiagonal.h", "include/GooseFEM/ElementQuad4.h: Quadrature, Nodal", "include/GooseFEM/ElementHex8.h: Quadrature, Nodal", "include/GooseFEM/Element.h: QuadratureBaseCartesian: GradN, Int_N_scalar_NT_dV, Int_gradN_dot_tensor2_dV, SymGradN_vector, dV", "include/GooseFEM/MeshQuad4.h: FineLayer", "docs/examples/dynamics"]}
