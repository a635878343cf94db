# Formal model of GooseFEM in Lean 4 - design

(Plan written before the proofs; the sections below are kept current.)

## Modelling decisions

* Arrays (`xt::xtensor`, `xt::xarray`) are `Ten`: a shape plus a partial map from multi-indices to values.
  A read outside the shape, or of a cell that was never written, gives the outcome `ub`; exceptions give `throws`.
  A theorem that a call returns `ok` therefore includes memory safety and definedness. Assertions (`GOOSEFEM_ASSERT`)
  are disabled, as in the default build (C108: the build with assertions).
* `double` is modelled by an arbitrary commutative ring / field / ordered field (or the reals): arithmetic is exact.
  Rounding is the subject of C107 only; overflow, NaN are out of scope. `size_t` is `Nat`; wrap-around subtraction is flagged as `ub`.
* `#pragma omp parallel for` is modelled by folding the loop body over an arbitrary permutation of its iterations
  (statement-level atomicity); theorems quantify over all permutations.
* Eigen's sparse matrix is a dense function of (row, col); `setFromTriplets` sums duplicates. Eigen's sparse
  factorisation is a parameter with the contract "solves A x = b exactly when A is regular".

## Plan per property

| id | property | module | method |
|---|---|---|---|
| C01 | Vector: DOF->node->DOF round trip | Vector | flattened loop over (m,i); last-writer lemma for scatter-assign; surjectivity of the DOF table |
| C02 | Vector: node->DOF->node on consistent fields | Vector | scatter-assign over an arbitrary permutation of iterations |
| C03 | Vector: element gather and element->DOF/node round trips | Vector | gather loop lemma; scatter-assign |
| C04 | Vector: assembly is the exact sum of contributions | Vector | scatter-add lemma: result = initial + sum over matching iterations |
| C05 | Vector: assembly is adjoint to gathering | Vector | exchange of finite sums on top of C04 |
| C06 | Vector: AssembleNode distributes the assembled DOF value | Vector | C04 followed by the gather lemma |
| C07 | Vector: run-time rank dispatch | Vector | case split on the shape list |
| C08 | Memory safety of Vector | Vector | every array access is checked in the model; theorems state outcome `ok` with all cells written |
| C09 | Renumber: contiguous, order preserving, idempotent | Renumber | sorted duplicate-free list of values; rank function |
| C10 | Renumber: index gaps | Renumber | cells of the index table are `Option`; read of an unwritten cell is `ub` |
| C11 | Reorder: block order | Renumber | induction over the concatenated list |
| C12 | VectorPartitioned: iiu/iip partition the DOFs | VectorPartitioned | setdiff1d spec + C11 |
| C13 | VectorPartitioned: split/recombine | VectorPartitioned | partition lemma + gather/scatter |
| C14 | VectorPartitioned: Copy_u and Copy_p are complementary | VectorPartitioned | conditional-write loop lemma |
| C15 | Matrix: assembly equals the elementwise sum | Matrix | triplet list sum lemma |
| C16 | Matrix: set/add entry semantics | Matrix | refinement to dense matrix over operation histories |
| C17 | Matrix: Dot; of the assembled matrix: the assembly of the element products | Matrix | finite sums |
| C18 | MatrixPartitioned agrees with Matrix | MatrixPartitioned | reindexing of sums along the DOF bijection |
| C19 | MatrixPartitioned: set/add agree with Matrix | MatrixPartitioned | as C16 blockwise |
| C20 | MatrixPartitioned: Reaction | MatrixPartitioned | finite sums, block decomposition |
| C21 | MatrixPartitionedSolver: solution property | MatrixPartitioned | abstract exact linear solver with stated contract |
| C22 | Solver factorisation cache over call histories | Solver | state machine over histories; invariant; concrete counterexample history |
| C23 | MatrixDiagonal: assemble/Dot/Solve | MatrixDiagonal | field inverse; invariant over histories |
| C24 | MatrixDiagonalPartitioned: consistency with MatrixDiagonal and solve | MatrixDiagonalPartitioned | as C23 with partition; counterexample for indeterminate entries |
| C25 | Periodic tyings: partition and tying relation | Tyings | set partition + triplet sums |
| C26 | Tyings::Control | Tyings | direct |
| C27 | VectorPartitionedTyings: reduction to independent DOFs | Tyings | finite sums, transpose identity |
| C28 | MatrixPartitionedTyings: assembly and condensed solve | MatrixPartitionedTyings | block algebra with exact solver |
| C29 | MatrixPartitionedTyings: dofval solve differs | MatrixPartitionedTyings | counterexample + conditional agreement |
| C30 | StopList is a sliding window | StopList | refinement to the list of the last n residuals, induction over histories |
| C31 | Quad4 Regular mesh: connectivity and geometry | MeshRegular | arithmetic of div/mod on node numbers |
| C32 | Quad4/Tri3 Regular boundary sets | MeshRegular | set equality with geometric predicate |
| C33 | 2-d periodicity | MeshPeriodic | boundary lists + renumbering |
| C34 | Hex8 Regular mesh | MeshHex8 | as C31-C33 in 3-d |
| C35 | Tri3 Regular mesh and orientation | MeshTri3 | orientation by ring arithmetic |
| C36 | Quad4 FineLayer mesh | FineLayer | loop invariant on the layer construction |
| C37 | Nodal/element incidence | Incidence | fold over the flattened connectivity |
| C38 | Nodal tyings | Incidence | fold |
| C39 | Stitch: invariants over push_back histories | Stitch | induction over the push_back history |
| C40 | RefineRegular map | RefineRegular | div/mod block decomposition |
| C41 | Mesh measures | Measures | finite sums over a field |
| C42 | 2x2 and 3x3 inverse | Inv | ring identities (field_simp/ring) |
| C43 | Quad4 shape functions | Quad4 | ring identities over the reals |
| C44 | Quad4 gradient of affine fields | Quad4 | ring identities |
| C45 | Hex8 gradient | Hex8 | finite sums; explicit counterexample element |
| C46 | Quad4 volumes | Quad4 | ring identities |
| C47 | Mass matrix | Mass | finite sums |
| C48 | Internal force | Force | finite sums |
| C49 | Tangent stiffness | Stiffness | finite sums |
| C50 | Planar and axisymmetric elements | Planar/Axisymmetric | finite sums |
| C51 | Element helpers | ElementHelpers | as C03/C04; invariant-free loop |
| C52 | Allocate helpers | Allocate | index arithmetic |
| C53 | Quad4 quadrature object: history of update_x | ElementQuad4 | invariant over histories of `update_x`, `InterpQuad`, `GradN` |
| C54 | Body forces | ElementQuad4Mech | finite sums |
| C55 | Hex8 quadrature object | ElementHex8 | as C53 |
| C56 | Hex8 mechanics | ElementHex8 | finite sums (force, stiffness, mass) |
| C57 | overlapping / ManualStitch | Stitch | loop invariants on the renumbering |
| C58 | Vstack | Stitch | induction over the push_back history |
| C59 | FineLayer boundary | FineLayerEdges | set equality with a geometric predicate |
| C60 | FineLayer periodicity | FineLayerEdges | boundary lists + renumbering |
| C61 | FineLayer roll | FineLayerRoll | index arithmetic per layer |
| C62 | FineLayer elementgrid_ravel | FineLayerGrid | exact set of selected elements |
| C63 | FineLayer elementgrid_around/leftright_ravel | FineLayerAround | as C62 + roll; counterexample for the missing column |
| C64 | FineLayer from coor and conn | FineLayerMapping | uniqueness of the layer description; counterexamples |
| C65 | Map::FineLayer2Regular | FineLayer2Regular | lists of pushes per element; local geometry of the tiles; sums of the fractions |
| C66 | Hex8 FineLayer layers | FineLayer3 | loop invariant of the coarsening loop; induction over the layers |
| C67 | Hex8 FineLayer mesh | FineLayer3 | blocks of emitted rows; index arithmetic per axis |
| C68 | Hex8 FineLayer tiling | FineLayer3Tiling | normalised coordinates of a block; linear forms of the faces |
| C69 | Hex8 FineLayer conformity | FineLayer3Tiling | positions of the nodes along each axis; finite check per block |
| C70 | Hex8 FineLayer node sets | FineLayer3Sets | one list description of all sets (selection per plane); order from the normalised coordinates; counterexample for the open side faces |
| C71 | Hex8 FineLayer periodicity | FineLayer3Sets | table of the blocks of pairs; renumbering lemma of C17; lattice argument per axis |
| C72 | 2d meshes are oriented surfaces | Surface | discrete Stokes theorem: each row of blocks telescopes, rows telescope over the layers; edge matching from the theorem in Z |
| C73 | Quad4 meshes of a rectangle | RectMesh | convexity per block; total area = boundary integral of the shoelace form by C72; end to end through Vector and Quadrature |
| C74 | patch test | Patch | element force of a constant stress = edge normals (exact for the 2 x 2 rules); C72 with the traction of an edge; opposite sides cancel with periodic DOFs |
| C75 | Spec/System (user programs), Props/Stiffness | algebra of the assembly (`assembled_mul`) and C48/C49 per element |
| C76 | Spec/System (`Elastic`, `RigidMotion`), Lemmas/Rigid, Props/Statics | energy zero => no strain at the Gauss points => each element rigid (chain rule, det > 0); Stokes sums restricted to the edges that follow one rigid motion show that it is followed along the whole boundary, hence everywhere |
| C77 | Spec/System (`Supported`, `LinSolver.Suits`), Props/Statics | C76 gives regularity of the block of unknowns; C21 solves; uniqueness by linearity. The existence of an exact solver is proved (`exists_direct`) |
| C78 | Props/Statics | C74 (no force inside), C44 (affine gradient) and uniqueness C77 |
| C79 | Spec/Surface (`RectMesh`, `edgeNormal`), Props/PeriodicCell | the integral of each element is a sum over its edges; C73's cancellation of interior edges; the pairs of opposite edges |
| C80 | Spec/PeriodicCell (the program of docs/examples/statics/periodic_elastoplastic.py, `SolvesCell`), Lemmas/Cell, Lemmas/CellWork, Lemmas/CellState, Props/PeriodicCell | condensed stiffness regular: zero energy => rigid (C76) => periodic rigid motions with zero gradient are translations => fixed by the origin; C28 for Solve; C27 for the virtual work |
| C81 | Props/PeriodicCell | duality of AsDofs_i with the tied displacements (C27), test fields that move one control DOF; C79 for the average |
| C82 | Props/PeriodicCell | the affine field solves the cell (constant stress, C74/C79), uniqueness C80; instances for Regular and FineLayer |
| C83 | Spec/Dynamics, Props/Dynamics | program of docs/examples/dynamics/Elastic-Verlet; nodal rule gives `rho det J` at the corners, positive by convexity; sum over DOFs of a component = sum over corners (needs that components do not share DOFs) |
| C84 | Lemmas/Dynamics, Props/Dynamics | one increment as a function of nodal values; internal forces sum to zero per component (partition of unity); induction over increments; the material is an arbitrary function of the strain history |
| C85 | Props/Dynamics | the increment as a map on (u, v, a); exact discrete energy identity of velocity Verlet from symmetry of the tangent and virtual work; reversal map is an involution conjugating the increment to its inverse; exact arithmetic |
| C86 | Props/ParallelElement, Props/Parallel | small-step shared-memory semantics (Spec/Parallel): an iteration is a tree of reads and writes; any interleaving. Every `parallel for` is written again access by access (Model/Parallel) and proved to simulate the body of the serial model; footprints of different iterations are disjoint, hence no race, progress, termination, same result |
| C87 | Props/Parallel, Props/ParallelMesh | footprints overlap iff a DOF/node is shared; then an interleaving that reaches two pending writes of the same cell is constructed; agreeing writes give the same memory in all interleavings; instances on Quad4 Regular |
| C88 | Props/ReproducibleElement, Props/Reproducible | the model is polymorphic in the number type and its operations, without laws (Model/Element*, MatrixDiagonal, Vector, MeshMeasures, Spec/Dynamics); loops whose iterations touch different cells give the same array in every order (Lemmas/Reorder, Own); composition through the monad up to a complete simulation; instance with a rounding, non-associative addition |
| C89 | Spec/Box, Lemmas/Box, Props/Box | grid arithmetic `enc` of Lemmas/Grid3; the Jacobian of a rectangular hexahedron is diagonal (C45_box); telescoping sums over the grid |
| C90 | Props/Box | integral of the shape function gradients over a box = quarter of the face areas; sums over the grid telescope to the six faces |
| C91 | Lemmas/BoxRigid, Props/Statics3 | C56 per element + adjointness C05; strain zero at the eight Gauss points forces the trilinear field on a box to be a rigid motion; neighbours share faces, so the rotations agree over the grid |
| C92 | Props/Linear3 | generic solver theorem (C18, C21) with regularity from C91; patch test from C90 and C91 by uniqueness; isotropic elasticity and a direct solver as witnesses |
| C93 | Props/Static, Props/StaticExamples, Props/StaticPeriodic, Props/StaticMeshes | the example scripts docs/examples/statics/{fixed-displacement,partial-periodic}_elastic.py written as programs over the model (Spec/Static, NumPy indexing included); planar quadrature reduced to the 2-d one with thickness, stiffness regular (C76), solver (C21), reaction forces (C14), renumbering (C09); homogeneous deformation by uniqueness and C74 |
| C94 | Spec/VelocityVerlet, Props/VelocityVerlet | the second dynamics example as a program; `solve` again with the same right-hand side is the identity on (matrix, solution) because the factorisation is cached and C88 removes the schedule; induction over increments, no laws of arithmetic used |
| C95 | Spec/Newton, Lemmas/Newton, Lemmas/NewtonLoop, Props/Newton | the Newton program of docs/examples/statics/periodic_elastoplastic.py with material, load, shear history, tolerance, solver open; invariant of one iteration (periodicity, prescribed DOFs, unchanged system), induction over iterations and increments; virtual-work bound by duality of `AsDofs_i` (C27); linear material: two iterations by linearity, uniqueness by C80. The plotting at the end is not modelled; the material library is any function of the calls |
| C96 | Props/FiniteStrain | chain rule for the isoparametric Jacobian: `J' = J Fᵀ`, so `det J' = det F det J` and `G = Fᵀ G'`; volumes and forces of the model follow |
| C97 | Spec/Static (`manualSolve`, `manualProgram`, `fixedDisplacementManual`), Props/StaticManual | both routes solve a system whose right-hand side has the same entries, so the (arbitrary) solver returns the same; scattering by `iiu`, `iip` and `AsNode` against the masked loop of `solve`; the rest of the program reads the displacement through `asElement` only, which cannot tell arrays with equal entries apart |
| C98 | Spec/System (`Mat.Spd`, `LinSolver.Ldlt`, `Suits`, `stiffnessBlock`), Spec/Ldlt (reference implementation), Lemmas/ExactUU, Lemmas/CellWork, Props/Spd | the quadratic form of the block is the energy of a displacement that vanishes on the prescribed DOFs (C76, C80, C91); conversely a rigid motion that is not excluded has zero energy; LDLT by induction on the number of unknowns (Schur complement). All theorems about statics (C77, C80-C82, C92, C93, C95, C97) ask for a solver that `Suits`: `Direct`, or `Ldlt` and a symmetric tangent |
| C99 | Spec/NewtonFinite, Lemmas/NewtonFinite, Lemmas/Sheared, Props/NewtonFinite, Props/NewtonHomogeneous | the finite-strain Newton program with material, load, history, tolerance and solver open; the invariant of C95 plus `MovedTo` (the state of `elem` is that of `update_x` at coor + disp); volumes by the chain rule of C96, total volume by telescoping over the boundary, average by C80; homogeneous material: the sheared mesh is an affine image, so the work of a uniform stress on periodic fields vanishes and the stiffness of a sheared mesh is regular |
| C100 | Spec/PeriodicCell3, Lemmas/Cell3, Lemmas/CellState3, Props/PeriodicCell3 | the program of C80-C82 with Hex8 elements on a box grid: periodicity gives equality at lattice-equivalent nodes; the integral of the gradient telescopes over the grid lines (so the average gradient is the macroscopic one); work zero implies a rigid motion (C91), which periodicity and the origin exclude, so the condensed matrix is positive definite; reactions by virtual work on affine fields |
| C101 | Spec/Axi, Lemmas/Axi, Props/Axi, Props/AxiMeshes | `Lx` x `Ly` rectangle mesh (C73) moved to radius `R`; the first moments of the elements telescope over the boundary; two-point Gauss is exact for the cubic integrands; element force of a constant stress = edge forces, antisymmetric in the edge, so they telescope (`Perimeter.stokes`) |
| C102 | Spec/Axi, Props/AxiStatics, Props/AxiMeshes | virtual work (C50) assembled (C05); zero energy: hoop strain zero at four Gauss points gives zero radial displacement (unisolvence), then the in-plane strain of the axial field vanishes (`mesh_rigid`); solution by positive definiteness of the free block; patch test by C101 and uniqueness |
| C103 | Lemmas/Sides, Props/Stack | the boundary path is the only way through the extreme value of a convex tiling (edges leaving a side are counted once); a stack: joined paths, interface edges occur in both directions and cancel |
| C104 | Spec/Stitch (`Numbered`), Props/StackRegular | invariant of `push_back` (C39, C58); uniqueness by induction over the nodes in order of appearance; the closed form for regular layers satisfies the same conditions |
| C105 | Model/Python, Props/Python | from the constructor; the Python attributes as they are bound |
| C106 | Props/Stability | shadow energy of C85 plus the bound of the acceleration by the elastic energy (non-negativity of the energy of `U - t M⁻¹ f`); element inequality on squares for the critical time step; three-term recursion of an eigenmode for the converse; exact arithmetic |
| C107 | Spec/Rounding, Props/Rounding, Props/RoundingMatrix, Props/RoundingAxi (the axisymmetric element), Props/RoundingVolume, RoundingAxiVolume, RoundingVolumeHex8 (integration volumes), Props/RoundingShape, RoundingShapeHex8 (shape functions), Props/RoundingGrad, RoundingGradAxi (global gradients of Quad4) | the model is polymorphic in the numbers; it is run on rounded numbers and, in lockstep, on (exact value, sum of absolute values, number of terms, roundings per term), a commutative monoid for which the loops are already evaluated; rounded arithmetic is the standard model, with p-bit binary numbers rounded to nearest as instance; covered: shape functions, local gradients and integration volumes of all element types, global gradients of Quad4, also axisymmetric (a computed Jacobian and determinant close to the exact ones, then Cramer's rule); not covered: global gradients of Hex8 (only completion), Eigen's sums and solvers, overflow, underflow, FMA |
| C108 | Spec/Debug, Model/Debug, Props/Debug, Props/DebugMatrix, Props/DebugTyings, Model/DebugElement, Props/DebugElement, Model/DebugMesh, Props/DebugMesh, Model/DebugFine, Props/DebugFine | each method again with its assertions (`gassert`) in front; case distinction on the shapes, the specifications of C08-C29 for valid arguments; what is not caught is stated as theorems with result `ub`; `ok` with assertions iff `ok` without for the constructors and call sequences of the stitching classes; not covered: assertions of the constructor of FineLayer from an existing mesh |
| C109 | Spec/Energy, Props/Energy, Props/EnergyMeshes, Props/FineLayerEnergy | potential energy defined from nodal coordinates, gradients and the material law, not from the stiffness matrix; positive definiteness of the held body (C77) + bilinearity give the minimum, superposition, reciprocity, Clapeyron and the two monotonicity statements for the result of the modelled `Solve` |
| C110 | Props/Homogenised, Props/FineLayerEnergy | on the result of C80 (`SolvesCell`): the stress does no work on any periodic field with zero macroscopic gradient (also if node `origin` moves), the rest is completion of the square in the bilinear form `virtualWork`; Reuss is stated without the inverse of the tangent |
| C111 | Spec/SameStructure, Props/SameStructure | `Solve` in weak form; the difference of the two results is an admissible test function in both descriptions, its energy is zero, so it is a rigid motion, which the supports exclude |
| C112 | Props/Homogenised3 | as C110, on the result of C100 |
| C113 | Spec/Energy3, Props/Energy3, Props/EnergyMeshes3 | C109 with `Hex8`: same proofs from the positive definiteness of the held body (C91, C92); the three-corner support excludes the six rigid motions |
| C114 | Spec/SameStructure3, Props/SameStructure3 | C111 with `Hex8` |
| C115 | Spec/EnergyAxi, Props/EnergyAxi, Props/EnergyMeshesAxi | C109 with the axisymmetric quadrature, from C102 |
| C116 | Spec/RefineSolve, Lemmas/RefineEnergy, Props/RefineEnergy | the interpolation of the coarse displacement on the fine mesh (nodes of the fine mesh located by the integer division of the grid) has the same energy, as the 2 x 2 Gauss points integrate it exactly (3 s² = 1), and satisfies the supports; then C109 on the fine mesh. The coordinates of the fine mesh are those of `Regular(r nelx, r nely, h / r)`, as the fine mesh of `RefineRegular` keeps `h` (discrepancy 17) |
| C117 | Lemmas/FineLayer3Quad, Props/FineLayer3Quad | table of the (affine) Jacobian determinants of the elements of the five kinds of blocks, scaled to the layers; the odd terms cancel in the sum over the points, and the blocks fill the layers; C45 (exact iff the Jacobian matrix is diagonal) and one skew element per transition block |
| C118 | Spec/Dynamics3, Lemmas/Dynamics3, Props/Dynamics3 | as C83-C85 with Hex8: nodal rule is diagonal with `rho det J` at the corners; force and strain operators are adjoint whatever the gradient factor (C45), so that momentum and energy hold also where the strain is inexact; instances Regular (C89) and FineLayer (C67, C117); exact arithmetic |
| C119 | Spec/Stability3, Props/Stability3 | as C106 with Hex8: bound of the acceleration by the elastic energy; element inequality on boxes from the eight modes of the trilinear interpolation (weights 1, `2 s²`, `3 s⁴`); three-term recursion of the dilatation of one cube for the converse; exact arithmetic |
| C120 | Spec/DynamicsAxi, Lemmas/DynamicsAxi, Props/DynamicsAxi | as C118 with `QuadratureAxisymmetric`: nodal rule is diagonal with `rho 2 pi r det J` at the corners, zero on the axis; force and strain operators are adjoint (C50), the axial row of the force is a plain gradient, so that the axial momentum follows; volume of rings from the ring moment (C101); instance Regular, hollow and solid cylinder; exact arithmetic, `pi` any positive element of the field |
| C121 | Props/StabilityAxi, Props/StabilityAxiMode | as C106 with `QuadratureAxisymmetric`: bound of the acceleration by the elastic energy (C120); element inequality on squares from the modes of the bilinear interpolation, with the radii of the Gauss points and nodes of an element between `r` and `r + h` and the hoop strain bounded by the interpolated radial displacement over `r`; modes and one unstable ring element for the converse; exact arithmetic |
| C122 | Spec/CriticalStep, Spec/CriticalAxi, Props/CriticalStep, Props/CriticalAxi, Props/CriticalFineLayer | sum over the elements of an inequality per element, over C106, C119 and C121; Cauchy-Schwarz for the computable criterion; minimum over finitely many corners for the existence; instance FineLayer (C73); exact arithmetic |

## Layout

* `Verif/Base.lean` - machine model: outcomes (`Res`), arrays (`Ten`), loops.
* `Verif/Spec/*` - specifications: plain mathematical vocabulary (no call of a model function), used in the statements.
* `Verif/Model/*` - the code, function by function, each definition citing file and lines.
* `Verif/Lemmas/*` - proofs about the model; not part of the claims.
* `Verif/Props/*` - the claims: theorems `Cnn_...`, with witnesses (`example`s or theorems on concrete data) beside
  them. A theorem whose name says `_gap`, `_ub`, `_matters`, `_misses`, ... is a proved *negative* result: the code does not
  have the naive property, and the theorem exhibits why.

* `Verif/Tests/*` - conformance tests, not claims: 287 assertions of GooseFEM's own test-suite (`/repo/tests`) that
  compare a result with a literal (all mesh tests; grids, roll, stitching, incidence, maps, `Vector`, `VectorPartitioned`,
  `StopList`), evaluated by the kernel on the *model*. All hold. They support the one thing the kernel cannot check, that the
  transcription C++ -> Lean is right; the tests on random data (elements, matrices) are instances of the theorems.

## Trusted base

* Lean 4.33.0 kernel and elaborator of definitions and statements; Mathlib definitions used in statements (`Finset.sum`, `Field`,
  `LinearOrder`, `List`, `Nat`, `ℚ`, `ℝ`).
* Axioms: only `propext`, `Classical.choice`, `Quot.sound`; the list per theorem is in `AXIOMS.md`
  (generated with `#print axioms`). No axiom, no compiled evaluation (`native_decide`, `bv_decide`) is used.
* The faithfulness of the transcription C++ -> Lean (by reading; each definition cites its lines).
* The machine model of the libraries:
  - xtensor: element access, `view`, `arange`, `linspace`, `zeros/ones/empty`, `amax/amin`, `unique`, `setdiff1d`, `sort`, `cumsum`,
    `transpose`, `flip`, `concatenate`, `equal`, `allclose`/`isclose` behave as documented; modelled by their specification. A view
    assignment is a loop over the cells. Out-of-bounds and uninitialised reads are outcome `ub` (xtensor does not check by default).
  - `std::vector`, `std::array`, `std::copy`, `std::adjacent_find`, `std::lower_bound`: their specification.
  - Eigen: `SparseMatrix` = function of (row, column) with its sizes, `setFromTriplets` sums duplicates, products are exact.
    A direct solver is a parameter (`LinSolver`): `compute` then `solve`; the theorems that need it carry the
    *hypothesis* `ExactOn` (the solver solves the given matrix exactly), `Direct` (every regular matrix) or `Ldlt` (every symmetric positive
    definite matrix: Eigen's default `SimplicialLDLT` only reads the lower triangle and does not pivot). That the matrices of the static programs
    are of the latter kind, and that elimination without pivoting satisfies `Ldlt`, is C98.
  - OpenMP: in the main model the iterations of a `parallel for` run in any order, one at a time (theorem C02 shows where the order is
    observable). That this is justified is C86: in a second model with single memory accesses interleaved in any way (Spec/Parallel,
    Model/Parallel) these loops are free of data races and have the result of the serial loop. C87 tells where this fails. Interleavings of
    accesses are sequentially consistent; C++ gives programs without data races exactly these executions, and gives a program with a
    data race no meaning.
* Numbers: except for C86-C88, which assume nothing about the operations on numbers (hence hold for IEEE arithmetic), and for C107, which runs the model on rounded numbers, `double` is exact - an arbitrary commutative ring, field, or ordered field, as each theorem states. No overflow, underflow, infinity
  or NaN (StopList has its own model of comparisons with NaN). `size_t` is `Nat` without upper bound; a subtraction below zero used as a size or
  index is `ub`. `std::sqrt(1/3)`, `std::abs`-comparison tolerances (`isclose`, `allclose`) and the conversion `static_cast<size_t>(double)` are parameters with
  stated hypotheses.

## What is modelled, what is not

| file | modelled | not modelled |
|---|---|---|
| Allocate.h | all functions | - |
| Vector.h, VectorPartitioned.h, VectorPartitionedTyings.h | all methods incl. run-time rank dispatch | `operator<<`-style printing, pure allocation overloads are merged with the in-place ones |
| Matrix.h, MatrixPartitioned.h, MatrixPartitionedTyings.h, MatrixDiagonal*.h | constructors, assemble, set, add, dot, todense, reaction, solvers with their factorisation flag | Eigen internals |
| TyingsPeriodic.h | Periodic, Control | - |
| Iterate.h | StopList | - |
| Element.h, ElementQuad4*.h, ElementHex8.h, detail.h | free functions, quadrature classes: constructors, update_x, dN/dx, InterpQuad, GradN, transposes, SymGradN, all integrals | `Element.h:1097-1129` (names a non-existing member, never instantiated) |
| Mesh.h | RegularBase (2-d, 3-d), Renumber, Reorder, overlapping, ManualStitch, Stitch, Vstack, incidence, measures, nodaltyings | text output, `elemmap` printing |
| MeshQuad4.h | Regular, FineLayer, Map::RefineRegular, Map::FineLayer2Regular | the deprecated getters (copies of the modelled ones) |
| MeshTri3.h | Regular, orientation | - |
| MeshHex8.h | Regular; FineLayer (constructor, sizes, coor, conn, elementsMiddleLayer, all node sets, nodesPeriodic, dofsPeriodic) | the public names of `RegularBase3d` that only forward (aliases such as `nodesBottomFront...`) are modelled once, for Regular |
| config.h, version.h, assertions.h | Model/Debug (`GOOSEFEM_ASSERT`) | other macros, version strings |
| python/ | the attributes of `MatrixPartitionedTyings` (Model/Python) | the other bindings: thin wrappers; names (466 definitions) and argument names compared with the C++ ones by a script, the deviations are no. 29 |

`GOOSEFEM_ASSERT` is off (default), except in C108, which is about the build with assertions; where a theorem assumes the asserted shapes this is an explicit hypothesis. `GOOSEFEM_CHECK`, `GOOSEFEM_REQUIRE`-like checks that
always run are modelled as `throws`.

## Deviations of the code from what its documentation suggests (each proved unless said otherwise)

1. `Element.h:1220` generic `compute_dN` (used by Hex8) multiplies by `dNxiq(m,i)` instead of `dNxiq(m,j)`: gradients are wrong unless the Jacobian is suitable (C45; consequence for Hex8 `FineLayer` meshes: C117).
2. `Element.h:1104` `m_m_dNx` does not exist (never instantiated; not modelled). `QuadratureAxisymmetric` has no `m_dNx`.
3. `Element::isSequential` always returns true (C51).
4. Quad4 `MidPoint` quadrature has weight 1 instead of 4: volumes are a quarter (C46).
5. `MatrixPartitionedTyings::AsDofs_d(dofval)` (line 486) indexes with `m_iip` (C28/C29).
6. `MatrixPartitionedTyingsSolver` on dofval/nodevec omits the dependent right-hand side that `Solve_u` includes (C29).
7. Solvers cache one factorisation per *matrix flag*: using one solver with two matrices, or two solvers with one matrix, returns stale results (C22).
8. `MatrixDiagonalPartitioned` redeclares `m_iiu`...: the inherited `Reaction_p` uses an uninitialised `m_nnp` (C24).
9. `MatrixDiagonalPartitioned::Solve(b)` leaves the prescribed entries uninitialised (C24).
10. `Renumber`/`Reorder` index has uninitialised gaps (C10); `MatrixPartitioned` reads them when the DOFs are not contiguous (C18).
11. `FineLayer(coor, conn)` reads before the range check when there is one layer; meshes with more than one fine layer are refused (C64).
12. `elementgrid_around_ravel`/`leftright` underflow for an element of the last layer (C63).
13. `StopList(0)` is undefined; a NaN residual counts as converged (C30).
14. `ManualStitch` assumes each node of mesh b to be listed once (C57, C39).
15. `elem2node(conn, dofs)` reads out of bounds for some DOF tables (C37).
16. Tri3/Hex8 `...OpenEdge` with zero elements underflow (C32, C34).
17. `RefineRegular`'s fine mesh keeps the coarse `h` (C40).
18. `asDofs`/`asNode` race: the result depends on the schedule for inconsistent input (C02).
19. `Tyings::Periodic` with prescribed dependent DOFs: `nni != nnu + nnp` (C25).
20. Tri3 orientation of a degenerate triangle is +1 (C35).
21. Quad4 `interpQuad_vector` hard-codes two components.
22. `isDiagonal` returns from inside a `parallel for`.
23. `center_of_gravity` uses the lumped nodal mass: inexact in general (C41).
24. `FineLayer(nelx, 0)` underflows; an even height becomes odd (C36).
25. `elementgrid_around_ravel` can miss the last column of the documented box (C63).
26. Hex8 `FineLayer`: `nodesFrontFace`/`nodesBackFace` and `nodesLeftFace`/`nodesRightFace` loop over the layers
    `1 .. nlayer-2` only and so miss the mid-nodes of the outermost layers if these are transition layers in x
    (resp. z); `nodesPeriodic` and `dofsPeriodic` miss the corresponding pairs, so such a mesh is not periodic
    (C70 `C70_side_faces_incomplete`, C71). The full sides, the bottom and top faces, edges and corners are right.
    Also: `nodesBottom_impl` takes its size from the topmost layer (equal by symmetry), and the members
    `m_nelx`, `m_nely`, `m_nelz` of the base are never initialised by this constructor (nothing reads them).
27. `asDofs(elemvec)`, `asNode(elemvec)`, `AsDofs_u/p(elemvec)` have a data race under OpenMP whenever two elements share a node or DOF
    (every connected mesh), `asDofs(nodevec)` and its relatives whenever two nodes share a DOF (periodic meshes): undefined behaviour in
    C++; benign if compiled to plain stores of values that agree (C87).
28. docs/examples/statics/periodic_elastoplastic_finite-strain.py computes the deformation gradient as `symGradN_vector(u) + I`, the symmetric part
    of `F`: a rigid rotation gives a dilatation (C96). `GradN_vector_T(u) + I` would be `F`.
29. The Python attributes `nni`, `nnd`, `iii`, `iid` of `MatrixPartitionedTyings` return `nnu`, `nnp`, `iiu`, `iip` (C105). The Python function
    `Element.assembleElementVector` is `assembleNodeVector` (the C++ name; same arguments).
30. Assertions that do not catch what they are for (C108): `VectorPartitionedTyings.h:110` and `MatrixPartitionedTyings.h:134` compare `m_ndof` with what it was computed
    from (probably meant: with `m_nni + m_nnd`), so tying matrices that are too small lead to writes out of bounds in `AsDofs_i`; `MatrixPartitioned` reads a number that was
    never written if a DOF number is skipped; `MatrixDiagonal` does not know whether it was assembled; the
    constructors in ElementQuad4.h, ElementQuad4Planar.h and ElementHex8.h check the shape of `xi` after the loops that read it (with `w.size()` as bound), so too few
    integration points are read out of bounds (ElementQuad4Axisymmetric.h checks first).
    Also not caught: a node number in two of the lists of `Reorder`; a DOF that is both prescribed and dependent in `Tyings::Periodic`; entries out of range in the
    maps given to `elemmap2nodemap`; negative numbers of columns in `FineLayer::elementgrid_ravel` (`start > stop`, wraps around).
31. The lumped mass (nodal rule) of a node on the axis of an axisymmetric mesh is zero (C120_axis), because its volume is weighted with the
    radius of the node: `MatrixDiagonal::Solve` divides by zero for every solid cylinder, so that the explicit dynamics of the examples can
    only be used for hollow axisymmetric bodies. Nothing in the library checks or documents this.
