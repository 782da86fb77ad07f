# Formal model of PolyDiM: design

Lean 4.33 + Mathlib. Everything is under `lean/Verif`.

## Layout

* `Verif/Model/*.lean`  definitions only, one C++ function at a time, every definition cites file and lines in /repo.
* `Verif/Spec/*.lean`   small independent specifications (what a property means), no reference to model helpers beyond the data types.
* `Verif/Lemmas/*.lean` helper lemmas.
* `Verif/Props/*.lean`  the property theorems, each followed by an `example` showing that a concrete non-trivial case meets the hypotheses.

## Trusted base

* Lean kernel; axioms `propext`, `Classical.choice`, `Quot.sound` only (`#print axioms` of every theorem in MANIFEST.json).
* The hand translation C++ -> Lean in `Verif/Model`.
* Floating point `double` is modelled by an arbitrary field (or a linearly ordered field, or the reals where an
  analytic derivative is stated): exact arithmetic, no rounding.
* `unsigned int` arithmetic that can wrap is modelled with explicit reduction modulo 2^32 where the property depends
  on it (DOF counters, derivative indices); other sizes are natural numbers. Containers are assumed to have fewer than 2^32 elements.
* Exceptions and undefined behaviour are explicit outcomes of the model (`Except Fault`).
* External libraries (Gedim geometry and quadrature tables, Eigen, LAPACK) are not modelled; what is used from them
  (an affine map `F(x)=b+Bx`, a reference quadrature rule as a list of points and weights, "solve returns a solution") is
  an explicit parameter or hypothesis in the statement.

## What is modelled

| C++ (under /repo/PolyDiM/src) | Lean |
|---|---|
| `PDETools/DOFs/DOFsManager.{hpp,cpp}` | `Model/DOFs.lean` |
| `PDETools/Assembler/Assembler_Utilities.hpp` | `Model/Assembler.lean` |
| `Utilities/Monomials_{1,2,3}D.*`, `Monomials_Utilities.hpp` (not `MGSOrthonormalize`) | `Model/Monomials.lean` |
| `Utilities/GBasis_{2,3}D.*` | `Model/GBasis.lean` |
| `Interpolation/lagrange_1D.*` | `Model/Lagrange.lean` |
| `FEM/PCC/1D/*` | `Model/Fem1D.lean` |
| `FEM/PCC/2D/FEM_Triangle_*` | `Model/FemTriangle.lean` |
| `FEM/PCC/2D/FEM_Quadrilateral_*` | `Model/FemQuad.lean` |
| `FEM/PCC/3D/FEM_Tetrahedron_*` | `Model/FemTet.lean`, `Model/FemTetSpace.lean` |
| `FEM/PCC/3D/FEM_Hexahedron_*` | `Model/FemHexa.lean` |
| `VEM/PCC/2D/VEM_PCC_2D_{ReferenceElement,LocalSpace}.*` and the parts of `VEM/PCC/VEM_PCC_Utilities.hpp` it uses | `Model/Mat.lean`, `Model/VemPcc2D.lean`, `Model/VemEval2D.lean` (evaluation functions) |
| `FEM/MCC/2D/FEM_Triangle_RT_MCC_2D_{ReferenceElement,LocalSpace}.*` | `Model/RT2D.lean` |
| `PDETools/Equations/EllipticEquation.hpp` | `Model/Elliptic.lean` |
| `Utilities/Inertia_Utilities.{hpp,cpp}` | `Model/Inertia.lean` |
| `PDETools/Assembler/assembler_PCC_2D_functions.cpp` (cell by cell), `PDETools/LocalSpace/LocalSpace_PCC_2D.cpp` (evaluation functions) | `Model/AssemblerPcc2D.lean` |
| the same file: operators with coefficients that depend on the solution, `evaluate_solution_on_quadrature_points` | `Model/NonlinearPcc2D.lean` |
| the same file on whole meshes, with the DOF tables | `Model/AssemblerGlobal2D.lean` |
| `VEM/MCC/2D/VEM_MCC_2D_{ReferenceElement,Velocity_LocalSpace,Pressure_LocalSpace}.*`, the parts of `VEM/MCC/VEM_MCC_Utilities.hpp` they use, and the `VEM_MCC` branches of `LocalSpace_MCC_2D.cpp` | `Model/VemMcc2D.lean` |
| `examples/Elliptic_MCC_2D/src/assembler.cpp`: `ComputeStrongTerm`, `ComputeWeakTerm`, `Assemble` | `Model/AssemblerMcc2D.lean` |
| `VEM/DF_PCC/2D/VEM_DF_PCC_2D_{,Reduced_}{ReferenceElement,Velocity_LocalSpace,Pressure_LocalSpace}.*` and the parts of `VEM/DF_PCC/VEM_DF_PCC_Utilities.*` they use | `Model/VemDf2D.lean` |
| `examples/Brinkman_DF_PCC_2D/src/assembler.cpp`: `ComputeStrongTerm`, `ComputeWeakTerm`, `Assemble`; the cases `VEM_DF_PCC_REDUCED` and `VEM_DF_PCC_FULL` of `PDETools/LocalSpace/LocalSpace_DF_PCC_2D.cpp`; main.cpp 108-126 | `Model/AssemblerDf2D.lean` |
| `PostProcessSolution` and `ComputeFlux` of `examples/Brinkman_DF_PCC_2D/src/assembler.cpp` | `Model/BrinkmanPost.lean`, `Model/BrinkmanFlux.lean` |
| `examples/NavierStokes_DF_PCC_2D`: the convective term of `src/assembler.cpp`, the iteration of `main.cpp`, `PostProcessSolution` | `Model/NavierStokesDf2D.lean`, `Model/NavierStokesAssembly.lean`, `Model/FlowPost.lean`, `Model/NavierStokesLoop.lean` |
| `examples/Parabolic_PCC_BulkFace_2D/src/assembler.cpp`: `ComputeTransitionMatrices`, the local matrices of `AssembleMatrix_1D`; `test_definition.hpp` | `Model/AssemblerBulk2D.lean`, `Model/TestDataBulk.lean`, `Model/BulkTime.lean` (time loop of `main.cpp`, `PostProcessSolution`) |
| `ZFEM/PCC/ZFEM_PCC_Utilities.hpp`, `ZFEM/PCC/2D/ZFEM_PCC_2D_{ReferenceElement,LocalSpace}.*` | `Model/Zfem2D.lean` |
| `VEM/Quadrature/VEM_Quadrature_{2,3}D.*` (the `Compute_*` functions only where they split a Lobatto rule) | `Model/Quadrature.lean` |

Not modelled: Gedim (mesh, geometry, quadrature tables, linear algebra wrappers), Eigen, LAPACK; import/export; the drivers in `examples` except the assemblers in the table; the
parts of `VEM`, `FEM/MCC`, `PDETools` that are not in the table.

Assumptions about Gedim made in the model, each stated at the definition that uses it: affine maps are `F(x) = b + Bx` with the stored inverse,
`MapQuadrilateral::F` is the bilinear map of the four vertices, `IsValueZero`/norm tests are parameters (`isZero`, `normZero`; theorems that
need it assume they accept exactly zero), `FindPointInPoints` is exact equality of points, `RotatePointsFrom2DTo3D` is an affine map,
`MapTriangle` and `MapTetrahedron` are the affine maps of the vertices with `DetJ` the determinant and `FInv` the inverse map, quadrature tables are parameters.
Eigen matrices are `DMat` (sizes and entries, out of range blocks are undefined behaviour); `partialPivLu().solve` and `llt().solve` are parameters
`lu`, `llt` of the model, and the theorems assume that they solve regular resp. symmetric positive definite systems (`SolvesRegular`, `SolvesPosDef`
in `Spec/Vem.lean`); that the systems are regular resp. positive definite is proved.
`LAPACK_utilities::svd` is a parameter `svd`; the theorems assume that it returns all right singular vectors (`RightSingular` in `Spec/VemMcc.lean`).
The mesh hypotheses (`Spec/TetMesh.lean`, `Spec/HexMesh.lean`) allow any numbering and direction of edges and faces.

## Where the code does not do what the property says

Each of these is proved in the model as a counterexample or a negation, with the positive part as a `_partial` theorem.

* C08: the boundary flags of `DOFsManager` look only at the (d-1)-dimensional boundary and ignore the number of DOFs.
* C26: `VanderLaplacian` hard-codes three columns: out of range in 1D and for degree 0.
* C28: `VanderGBigOPlus` returns zeros for a Vandermonde matrix with fewer than four columns (degree 0).
* C36: triangle second derivatives are zero for order 4 and more.
* C37, C38: the mapped Laplacian of the triangle is not put in the mesh order.
* C41: `Create` of the tetrahedron reads an empty vector for order 0.
* C43, C61: tetrahedron derivatives divide by zero on the lattice planes of the DOF, so they are not a number at the other DOFs.
* C46: hexahedron face DOFs are not reoriented (the lines are commented out): neighbours disagree from order 3 on.
* C62: `CreateLocalSpace` throws for every hexahedron that is not a parallelepiped, though it has code for them.
* C64: face DOFs of the hexahedron run along the second axis first, the functions of the face element along the first one.
* C70: for order 1 the boundary rule of `Compute_DF_PCC_2D` is the trapezoidal rule, not the Lobatto rule of degree 3.
* C72: `ComputeBasisFunctionsLaplacianValues` at given points passes its two lists of matrices in the wrong order (the 3D header has the same lines).
* C79: `InertiaMapping2D` sets `signDetQ` by comparing a determinant, the square root of the ratio of the principal moments, with `1e-12`; below it the sign is `-1` whatever the orientation.
* C89: the values and derivatives at given points (LocalSpace_PCC_2D.cpp:193-216, 293-316) have no case for `ZFEM_PCC`; the assembler calls them for every test space, so it throws for a method that `CreateReferenceElement` accepts.
* C101: `VEM_MCC_2D_Pressure_LocalSpace::CreateLocalSpace` leaves `Qmatrix` empty, so the pressure space alone cannot evaluate its functions (`C101_pressure_alone`); `LocalSpace_MCC_2D` sets the matrix from the velocity.
* C108: for order 1 `CreateLocalSpace` of the divergence-free velocity multiplies matrices of different sizes on every polygon (`C108_order_one`): the boundary rule of C70 has no interior points, `VanderKp1EdgeProjections` has `Order` rows per edge.
* C126: ZFEM of order 4 on a triangle with a hanging vertex: the DOF nodes do not determine polynomials of degree 4, the normal matrix is singular and no weights exist.
* C131: with SUPG on a cell without advection the stabilization parameter of Elliptic_PCC_2D is `0/0` (`C131_no_advection`); the `Patch_Test` of the example has no advection. The number `b_norm` is the integral of `|beta|^2`, not a norm. SUPG is off by default.
* C132: the residual of SUPG uses `-kappa Lap u` without `grad kappa . grad u`, so it is consistent only where the diffusion is constant (`C132_variable_false`).
* C134: the Ortho space takes the square root of the quadrature weights. With a triangle rule that is exact but has a negative weight it is not computed, while the space over monomials is (`C134_negative`). The weights of Gedim's triangle rules are not visible here.
* C140: `ErrorHED` (`VEM_PCC_PerformanceAnalysis.hpp:107-114`) compares `DerivativeMatrix` over monomials with `Hmatrix`, `Ematrix` and `Dmatrix`, without `Qmatrix` and `QmatrixInv` that `ErrorPi0km1Grad` (lines 79-87) has. For `VEM_PCC_Ortho`, whose matrices are over the orthonormal basis, both components are nonzero in exact arithmetic for every order (`C140_hed_wrong`); `C140_ortho_partial` proves the other errors zero.
* C145: `tangent_derivatives_values` (`Elliptic_PCC_1D/src/assembler.cpp:270-272`) multiplies only the first two components of derivative and tangent, while tangents, points and `exact_derivative_solution` have three. On a segment with a third component the reported H1 error is not that of the tangential derivative: for the solution `z` on a segment along the third axis it is 1 although the function is exact (`C145_vertical`). The domains of the three tests of the example lie in planes `z = 0`, so its runs do not show it.
* C146: the stabilization of the mass matrix (`Parabolic_PCC_2D/src/assembler.cpp:396-399`) uses `Pi0k`, while the consistent part (lines 391-394) uses `Pi0km1`. Both vanish on the polynomials of degree `k` orthogonal to those of degree `k - 1`, so every element mass matrix is singular (`C146_singular`). `Theta` is 0 by default (`program_configuration.hpp:60`), and then the matrix of the steps is the mass matrix alone: on two triangles of order 1 with Neumann conditions it has the kernel vector `x + y - 1` (`C146_explicit` and its example). For `theta > 0` the matrix is definite (`C148_definite`).
* C150: `create_time_steps` (`Parabolic_PCC_2D/src/program_utilities.cpp:339-353`) maps equispaced coordinates of the unit interval to the time domain, but main (line 181) uses `config.TimeStep()` without this scaling. On a time domain of length other than 1 the time values are not `dt` apart (`C150_grid_wrong`), and on `[0, 2]` the run ends with the solution at time 1 (`C150_wrong`). The tests of the example use the domain `[0, 1]`.
* C153: `LinearElasticity_Beam` (test_definition.hpp:364) and `LinearElasticity_CooksMembrane` (line 451) compute the shear modulus as `E * (2 (1 + nu))` instead of `E / (2 (1 + nu))`,
  which is `4 (1 + nu)^2` times too large. The area of Cook's membrane (line 386) is given as 1408 instead of 1440, and it is declared a parallelogram (line 392): the mesh generators for
  parallelograms then cover a domain with the corner (48, 88) instead of (48, 60).
* C172: `PostProcessSolution` of Parabolic_PCC_BulkFace_2D (assembler.cpp:158-173) replaces the errors only when the new ones are larger, which would keep the largest error in time,
  but the object it compares with is made by the same call with zeros. The run reports the errors at the last time (`C172_not_largest`). When an error is exactly zero, the norm beside
  it is reported as zero.
* C175: `residual_norm` in NavierStokes_DF_PCC_2D/main.cpp:210-213 is the residual of the linear system that was solved just before, with the matrix and the right-hand side of the
  previous iteration, so that the test of line 224 is met in every pass up to rounding; the residual of the nonlinear problem is never computed (`C175_residual`). `num_nl_iterations`
  (line 176) is assigned only when the tolerances are met; when the maximum number of passes is reached, it is passed to `export_solution` without a value, which is undefined, and with a
  maximum of zero so is `residual_norm` (`C175_unset`).
* C179: `PostProcessSolution` of Brinkman_DF_PCC_2D leaves the errors at zero when the exact functions of the test throw, as those of `DarcyStokes_2` do; zeros are then written to the
  file of the errors (program_utilities.cpp:184-185), where the elasticity example writes not-a-number (`C179_unknown`).

## Properties

Plan for each property (status is kept in MANIFEST.json).

| id | modelled | how proved |
|----|----------|-----------|
| C01-C05 | `CreateCellDOFs`, `CreateDOFs_0D..3D` as folds over cells with wrapped 32-bit counters | induction over the list of cells; the sequence of free indices in creation order is `List.range NumberDOFs` |
| C06-C07 | `ConcatenateGlobalDOFs`, `CreateCell{0,1,2,3}DDOFs` | computation of the concatenation, resolution through the cell DOF table, injectivity from C01/C02 |
| C08 | flags of the same functions | the claim is false for the code (flags look at the (d-1)-dimensional boundary only and ignore the DOF count): negation by a concrete mesh plus `_partial` characterisation |
| C09 | `ComputeCellsDOFsIndices` | filter lemma on indexed lists |
| C10 | `Create_Constant_DOFsInfo_*` | induction on the marker list |
| C11-C12 | `count_dofs`, `local_count_dofs` | prefix sums |
| C13-C18 | `global_solution_to_local_solution`, `assemble_local_matrix_to_global_matrix` (3 overloads); sparse arrays as functions that accumulate triplets | sums over lists; permutation invariance of sums; double counting for the adjoint identity |
| C19-C23 | `Monomials_{1,2,3}D::{Compute,Index,DerivativeIndices,SecondDerivativeIndices}` | successor iteration equals the closed enumeration; triangular/tetrahedral number arithmetic |
| C24-C26 | `Monomials_Utilities::{Vander,VanderDerivatives,VanderLaplacian}` | powers; `HasDerivAt` over the reals; C26 is false in 1D (3 hard-coded columns): negation plus partial |
| C27-C28 | `GBasis_{2,3}D::Compute`, `VanderGBigOPlus` | polynomial identity by monomial, using C20-C22 |
| C29-C31 | `lagrange_1D.cpp` | finite products, Mathlib `Lagrange` interpolation for reproduction |
| C32-C38 | `FEM_Triangle_PCC_2D_*` | loops as list comprehensions, falling-factorial products, Chu-Vandermonde for the partition of unity |
| C39-C40, C57-C58 | quadrilateral element, edge traces, chain rule | tensor products of 1D Lagrange functions, generalised binomial coefficients for the traces |
| C41-C44, C59-C61 | tetrahedron element | lattice types, Chu-Vandermonde; the DOF order as a list of writes that is a permutation |
| C45-C46, C62-C64 | hexahedron element | tensor products; numberings of the cube by `decide` over the eight vertices |
| C47-C49, C65-C67, C69-C70 | `VEM_Quadrature_2D`, `VEM_Quadrature_3D` | the loops write consecutive segments; sums over lists |
| C68 | the same | change of variables of the Lebesgue integral, degree of a polynomial after an affine map |
| C50 | stabilization matrices | matrix algebra |
| C51-C52, C71, C73 | `VEM_PCC_2D_LocalSpace::CreateLocalSpace` and everything it calls | entries of every matrix as quadrature sums, exactness of the rules, Gauss-Green formula on triangulated polygons, regularity of G and positive definiteness of H proved by unisolvence |
| C72, C74-C77 | evaluation functions of `VEM_PCC_2D_LocalSpace.hpp`, stabilization dispatch | products of Vandermonde matrices and projectors; Lagrange reproduction on the edges; uniqueness of DOF vectors for the kernel |
| C53 | `EllipticEquation`: all element matrices | finite sums; entries, bilinear forms, symmetry, semidefiniteness, kernel (both inclusions) |
| C54, C78, C79 | `Inertia_Utilities`: both maps, with the eigen solver, the mass matrix and the diameter as parameters with contracts | matrix algebra; change of variables for the moments |
| C55 | 1D element | algebra, chain rule |
| C56, C80-C83 | `FEM_Triangle_RT_MCC_2D_{ReferenceElement,LocalSpace}` | entries of the linear system as moments by exactness of the rules; unisolvence of the Raviart-Thomas space (divergence theorem, factorisation on the edges); Piola map and change of variables |
| C84, C87 | `assembler_PCC_2D_functions.cpp`: one cell of `assemble_elliptic_operator`, `assemble_source_term`, `assemble_diffusion_operator`, `assemble_NS_operators`, with the functions of `LocalSpace_PCC_2D.cpp` as a record | entries of the loops over quadrature points; bilinearity |
| C85, C86, C88, C89 | the same with the VEM space as that record, `compute_error_L2`, `compute_error_H1` | C84 with C52, C71, C73, C77; definiteness of the quadrature on polynomials |
| C90, C91, C94 | `assembler_PCC_2D_functions.cpp`: `evaluate_function_on_dofs`, `assemble_strong_solution`, `extract_solution_on_cell0Ds` on the whole mesh, with `SetMeshDOFsInfo` and `EdgeDofsCoordinates`; the log of all writes | every write to a position has the same value (C76), every position is written (C01-C09) |
| C92, C93 | the same file: `assemble_weak_term`, and `assemble_elliptic_operator`, `assemble_source_term` over all cells | C14/C17 turn rows into sums over cells, C85 into fluxes through edges; edges regrouped by their type, inner ones cancel |
| C95 | the same | the energy is a sum of the energies of C86; zero means constant on every cell, equal through shared vertices, zero at a Dirichlet vertex |
| C96 | `VEM_MCC_2D_Velocity_LocalSpace::InitializeProjectorsComputation` with `LAPACK_utilities::svd` as a parameter (orthonormal right singular vectors, the surplus ones in the kernel) | derivative tables (C21) give the gradients; orthogonality of the rows plus "zero gradient means constant" give independence; square matrix, so a basis |
| C97-C99 | `ComputeValuesOnBoundary`, `ComputeDivergenceCoefficients`, `ComputeL2Projectors`, `ComputePolynomialBasisDofs`, i.e. all of `CreateLocalSpace` | entries as quadrature sums, exactness of the rules, H and G positive definite by C96, Gauss-Green formula for polynomial fields |
| C100 | `ComputeDofiDofiStabilizationMatrix` | matrix algebra with C99 |
| C101-C102 | value functions of the velocity and the pressure space, edge functions of `LocalSpace_MCC_2D.cpp` | products of Vandermonde matrices and projectors; Lagrange reproduction on the edges |
| C103 | `Elliptic_MCC_2D::Assembler::Assemble` on a whole mesh, two fields through C11-C17 | C53 for the blocks, C101 for the values; block matrices by rows; rows as sums over cells |
| C104 | `ComputeStrongTerm`, `ComputeWeakTerm` and the right-hand side of the same assembler | C102 on one edge; every strong position is written, all writes to it agree |
| C105 | the same | rows as sums over cells of the form of C103; a discrete Gauss formula for every DOF vector turns pressure terms into edge terms; inner edges cancel by orientation |
| C106 | the same matrix | energy gives zero velocity (C100), the discrete Gauss formula gives a constant pressure per cell, equal across edges, zero at a weak edge |
| C107 | the same | C105 and C106 |
| C108 | `VEM_DF_PCC_2D_Velocity_LocalSpace::CreateLocalSpace` and its reduced version, with `GBasis_2D` (C28), the 1D Lagrange basis and `Compute_DF_PCC_2D`; the flag `reduced` selects the version | sizes of all blocks; order 1: inversion of the model |
| C109 | `ComputeDivergenceCoefficients` | the virtual velocity is a field with trace, divergence polynomial and Gauss formula (`IsVelocity`); W as integrals of the divergence, H positive definite |
| C110-C113 | `ComputeCMatrixkm2`, `ComputeL2Projectors`, `ComputePiNabla`, `ComputeL2ProjectorsOfDerivatives` | gradient plus complement (C28) and Gauss formula turn moments into DOFs; Lobatto exact for the edge polynomials; systems regular |
| C114 | `ComputePolynomialsDofs`, `ComputeDofiDofiStabilizationMatrix` | DOFs are unique; matrix algebra with C111, C112 |
| C115-C116 | value functions, `VEM_DF_PCC_2D_Pressure_LocalSpace` and its reduced version | products of Vandermonde matrices and projectors |
| C117 | the DOFs of the divergence-free element (`IsVelocityDofs`) against the velocities on the polygon | a field is built from edge polynomials on the boundary and polynomials with prescribed moments inside; the lines of the edges have no area; uniqueness of traces by interpolation |
| C118 | `Brinkman_DF_PCC_2D::Assembler::Assemble` on a whole mesh, four fields through C11-C17, the additional unknown of main.cpp and the terms of the mean | C53 for the blocks, C114-C116 for the values; rows as sums over cells; the number of boundary DOFs is zero exactly if no entity is weak or Robin |
| C119 | `SetMeshDOFsInfo`, `ComputeStrongTerm`, `ComputeWeakTerm` and the right-hand side of the same assembler | conditions per field by C10; edge functions by interpolation at the Lobatto nodes; every strong position is written, all writes to it agree |
| C120 | solutions of the system of C118/C119 | test pressures of one cell; the divergence is a polynomial (C109), the datum too, and the quadrature separates polynomials |
| C121 | the system of C118/C119 for the data of a polynomial flow | test velocities of arbitrary DOFs are realized by virtual velocities (C117), integrated by parts on each cell; the boundary terms of neighbouring cells cancel |
| C122 | the matrix of C118 on vectors with zero image | the vector against itself: the energy of every cell vanishes, so its velocity is constant and zero by the strong vertices or the drag; the multiplier by a test pressure; the pressure by velocities with prescribed divergence DOFs and by edge bubbles |
| C123 | the system of C118/C119 for the data of a polynomial flow | C121 and C122 |
| C124 | `CreateMaps` of ZFEM: the loops writing `local_to_total`, the interleaved order in which triangles and inner nodes become DOFs | the loops evaluated to closed formulas; the interleaved orders are permutations; prefix sums of the numbers of inner DOFs give a bijection from the nodes (type `FanNode`) |
| C125 | `PolygonFineNodes`: the write of the nodes of every triangle into one list | invariant of the loop: nodes written several times get equal values, since the triangles share their spokes; needs C37 and C124 |
| C126 | the weights `D (DᵀD)⁻¹ Vᵀ` of the virtual nodes | the solver contract gives `Dᵀ W = Vᵀ`; polynomials are combinations of monomials; `DᵀD` is positive definite when the DOF nodes are unisolvent. Unisolvence: the polynomial vanishes on all edge lines, hence along almost every line through the centre, hence everywhere. Counterexample by computing the map and the nodes |
| C127 | the same | orthogonality: the columns of `W` lie in the range of `D` |
| C128 | values and derivatives of the ZFEM functions, loops over triangles and scatter of columns | the triangle element reproduces polynomials (C33 and a dimension count); a row of the result applied to DOFs is the triangle interpolant of the extended nodal values; C126 |
| C129 | values of the ZFEM functions at the DOF nodes, on the edges and on the spokes | C37 and C57 on the triangles, C124 |
| C130 | ZFEM with `InternalQuadrature` and one cell of `Elliptic_PCC_2D::Assembler::Assemble` (C131) | the rows of the tables are values of piecewise polynomials (C128); exactness on every triangle; zero energy gives constants on the triangles, equal through shared nodes |
| C131 | one cell of `Elliptic_PCC_2D::Assembler::Assemble` with the SUPG terms; the local space is a record of functions (`CellTables`) | C53 for the blocks, entries as quadrature sums, bilinear; bounds of `tau` by elementary inequalities |
| C132 | the same with the VEM space | the upwind residual vanishes at every quadrature point (C77) and the stabilization on polynomials (C73) |
| C133 | `Assemble` of the same example over all cells, with `ComputeStrongTerm`, `ComputeWeakTerm` | the element residual is a sum of fluxes through edges as in C93; the rest of the proof of C93 (`patch_rows`) is shared |
| C134 | `MGSOrthonormalize` and `CreateLocalSpace` of `VEM_PCC_2D_Ortho_LocalSpace`; `MGS`, `inverseTri`, `sqrt` are parameters with contracts (`IsOrthoLib`) | the two QR factors give `R` with `Rᵀ` the Cholesky factor of the mass matrix (`OrthoQR`), so the inverse orthonormalizes; exactness of the rule turns sums into integrals |
| C135 | `ComputePiNabla`, `ComputeL2Projectors`, `ComputeL2ProjectorsOfDerivatives` of the same | change of basis takes the Ortho system to the one over monomials, whose solution is unique (`oNabla_eq`, `oDer_eq`); DOFs are converted by `QmatrixInv` (`dofs_back`) |
| C136 | `ComputePolynomialsDofs`, `ComputeDofiDofiStabilizationMatrix` of the same | entries of the matrix against the definition of DOFs; C50 for the form |
| C137 | the evaluation functions of the same | products of Vandermonde matrices, `Qmatrix` and projectors; leading blocks suffice because `Qmatrix` is lower triangular |
| C138 | `Compute` of `VEM_PCC_PerformanceAnalysis` without the condition numbers; `sqrt` is a parameter with its contract | a Frobenius norm is zero iff every entry is; a division by zero is a fault, so the hypothesis that the analysis succeeds gives denominators that are not zero |
| C139 | the same on `VEM_PCC_2D_LocalSpace`, as `ComputePerformance` calls it | the identities `Π D = I`, `H = C D`, `G = B D`, `E D = Tᵀ H / h` from C41 to C50 and `VemSpace` |
| C140 | the same on `VEM_PCC_2D_Ortho_LocalSpace` | `_partial`: change of basis of the identities; negation for `ErrorHED`: a zero would give an integral of a squared scaled monomial that is at least that of 1 |
| C141 | `Compute2D` of `ZFEM_PCC_PerformanceAnalysis` | a sum of squares with positive weights; rows of the tables are values of the triangle polynomials (`zfem_tables`), which are the polynomial itself on DOFs of a polynomial |
| C142 | `CreateLocalSpace`, `MapValues`, `MapDerivativeValues`, `InternalQuadrature` of the 1D element and the local terms of `Assemble` of `Elliptic_PCC_1D` | tables are values of the Lagrange basis (C55), forms by C53; interpolation reproduces polynomials; exactness of the rule on degree 2k |
| C143 | `Assemble`, `ComputeWeakTerm`, `ComputeStrongTerm`, `Create_Constant_DOFsInfo_1D` with `CreateDOFs<1>`; `Patch_Test`, `Rotated_Patch_Test` | integration by parts on every segment (`local_residual`), assembly as a sum over segments (dimension-generic `DofHandler`), fluxes cancel at the vertex of a row |
| C144 | the same with `PostProcessSolution` | energy is a sum of nonnegative terms, zero only for functions constant on segments, carried along paths of segments; definite matrices are invertible |
| C145 | the loop over segments of `PostProcessSolution` | `_partial`: tables applied to DOFs are the interpolant; counterexample evaluated on one vertical segment |
| C146 | `StaticAssemble` of `Parabolic_PCC_2D` on one cell, `VEM_PCC_2D_LocalSpace` as in C51 | tables as in C131; `dofi-dofi` vanishes on polynomials (C77); moments of the projection (C52); kernel by counting dimensions |
| C147 | `ComputeInitalCondition`, `ComputeStrongTerm`, `ComputeWeakTerm`, `StaticAssemble`, `Assemble` and the loop of main (lines 124-278) | rows of stiffness and mass on DOFs of polynomials (C133, C146), the rule in time is exact, the step has one solution (C148), induction over the steps |
| C148 | matrices of main (lines 182-196) | both energies are sums over cells; both zero only for constants whose projection vanishes |
| C149 | `thetaStep`, `thetaLoop` (main lines 206-278) | the step tested with `w`; symmetry and sign of both forms |
| C150 | `create_time_steps` and its use in main | `_partial`: spacing computed; counterexamples for all other lengths; the run depends only on the number of time values |
| C151 | `elasticLocal` (assembler.cpp, Assemble lines 219-314, element part), the element space of local_space.cpp | the forms from the C51/C52/C71 projections split into the four blocks; exactness from C51_exact; kernel: zero stabilization gives polynomials, zero strain gives rigid motions (`killing`) |
| C152 | the tests with an exact solution of Elastic_PCC_2D/src/test_definition.hpp | partial derivatives by the differentiation rules of Mathlib, the balance by `ring`, the sides one by one |
| C153 | `lame_coefficients` and `domain` of all four tests | `_partial`/`_wrong`: specification by the uniaxial and the shear test in plane strain; shoelace formula |
| C154 | the four tests of Elliptic_PCC_2D/src/test_definition.hpp | as C152 |
| C155 | the two tests of Parabolic_PCC_2D/src/test_definition.hpp | as C152, with the derivative in time |
| C156 | the two tests of Elliptic_MCC_2D/src/test_definition.hpp | as C152, with Darcy's law and the inverse of the diffusion |
| C157 | six of the eight tests of Brinkman_DF_PCC_2D/src/test_definition.hpp (the coupled tests DarcyStokes_1 and DarcyStokes_2, piecewise with interface markers, are left out) | as C152, with the pressure gradient and minus the normal stress; the loop for the mean pressure is the mean of (x+y)^(k-1) by a binomial identity |
| C158 | the four tests of NavierStokes_DF_PCC_2D/src/test_definition.hpp | as C157 with the convective term; StokesSinSin fits only without it, proved by the value at (1/2, 0) |
| C159 | the tables of domain() in the three test_definition.hpp files in space | compared with corners and edges given by formulas |
| C160 | the three tests of Elliptic_PCC_3D/src/test_definition.hpp | as C152, with the faces, edges and corners of the cube |
| C161 | the two tests of Elliptic_MCC_3D/src/test_definition.hpp | as C156 |
| C162 | the four tests of Stokes_DF_PCC_3D/src/test_definition.hpp | as C157; the double loop for the mean pressure is the mean of (x+y+z)^(k-1), by sums of binomial coefficients |
| C163 | `assembleElastic` (assembler.cpp, ComputeStrongTerm 33-114, ComputeWeakTerm 115-217, Assemble 219-314) with `count_dofs` for two components | local residual = boundary terms of the stress (`elastic_residual`); the rows of each component by `patch_rows` with the stress as flux; the two-field assembly by `Pair.assemble`; the strong and weak writes of the two components interleave, `Merges` shows that this equals the two vectors one after the other |
| C164 | `assembleElastic` as in C163, `Held` (Spec) for the cells the Dirichlet conditions hold | the form of the assembled matrix is the sum of the forms of the cells (`elastic_form`, from `Pair.assemble` and `tested_rows`); zero energy gives a rigid motion in each cell (C151), two fixed points stop it (`rigid_zero`), induction over `Held`; symmetry from the symmetric cell matrices |
| C165 | `PostProcessSolution` of Elastic_PCC_2D (`elasticPost`): residual, numeric and exact displacement of the vertices, the loops over components and directions with the tables of the VEM (`elasticValues`, `elasticDers`), `global_solution_to_local_solution`; a not-a-number is `none` | the tables give the projections at the quadrature points (`errors_vem`), these reproduce polynomials (C52, C71) and the rule is exact up to degree 2k; the local vectors by `Pair.local_values`, the vertices by the offsets (`elasticNumeric_ok`) |
| C166 | `to_triplets`, `to_Sparse_Matrix_Data`, both `to_Eigen_SparseArray` of assembler_PCC_2D_functions_utilities.cpp on compressed columns (`Compressed`); `Triplets` and `Create` of the library by contract (`zipTriplets`, `compressTriplets`) | a column in the order of the rows holds exactly its entries different from zero (`column_nonzeros`, induction over the rows); the entries of a matrix made from triplets are the sums (`compress_ok`) |
| C167 | assembler_PCC_2D_functions.cpp:36-75, 1042-1368 on one cell: `assemble_source_term`, `assemble_source_term_gradients`, `assemble_elliptic_operator` with coefficients that depend on value and gradient of the discrete function (`localSourceOfSolution`, `localGradientSource`, `localEllipticOfSolution`) | the products with the tables are the discrete function (`solutionOnQuadrature_ok`), then C53; the derivative by the chain rule at every quadrature point |
| C168 | `evaluate_solution_on_quadrature_points` (`cellOnQuadrature`, `joinOnQuadrature`); writing consecutive segments is appending, with the sizes checked | induction over the active cells (`join_ok`); the error by zipping the lists cell by cell |
| C169 | Parabolic_PCC_BulkFace_2D/src/test_definition.hpp:34-388 (`bulkEllipticData`, `bulkParabolicData`); which coefficient enters which equation is read off assembler.cpp:419-502, 617-726 | partial derivatives and divergence by differentiating; the surface equation with the second derivative along the arc length of the circle (`product_on_circle`) |
| C170 | Parabolic_PCC_BulkFace_2D/src/assembler.cpp:617-726 (`transitionCell`, `transitionMatrices`, the triplets in the order of the code) and the local matrices of lines 419-502 (`surfaceLocal`) | the tables at given points are the Lagrange basis (`LineRef.tableAt`), then C53; the form of a list of triplets is summed index by index (`exchangeForm_flatten`) |
| C171 | Parabolic_PCC_BulkFace_2D/main.cpp:200-344 (`bulkRun`, `eulerLoop`, `eulerStep`); the linear solver by the contract `SolvesSystems`, the assembly of the load and the errors of the fields as parameters | rows of the assembled system (`eulerMatrix_row`, `ventry_product`), induction over the time values; conservation and stability from the scheme alone |
| C172 | `PostProcessSolution` of the same example, src/assembler.cpp:101-179 (`bulkPost`) | in part: the last pass of the loop (`forall₂_last`); the negation by a run with one unknown and two steps |
| C173 | NavierStokes_DF_PCC_2D/src/assembler.cpp:357-443, 482-558 (`nsConvectiveLhs`, `nsConvectiveRhs` of C87, `nsSkewLhs`, `nsSkewRhs`, `localConvection`) | the sums of the loops in closed form, then linearity of the form in each field (`formOf_linear`) |
| C174 | NavierStokes_DF_PCC_2D/main.cpp:146-256 (`nlLoop`, `nlRun`) and the sums at the end of `AssembleNavierStokes` (`convectionSystem`); the assembled convection by the contract `NlCallsAre`, which C176 proves for the assembly | the rows of the system and bilinearity (`nlStep_ok`), induction over the passes |
| C175 | as C174; variables without a value are `Option`, reading one is undefined behaviour | in part; the negations by the equation `u + u u = 2` with one unknown |
| C176 | the loop over the cells of NavierStokes_DF_PCC_2D/src/assembler.cpp:459-578 (`convectionCall`, `assembleConvection`): extraction of the previous iteration on four fields, local terms, assembly on the three fields of the speed | the assembly on three fields equals one on four fields with zeros (`pad_lhs`, `speed_assemble`), then C173 on each cell; the form on the mesh is bilinear, so that C174 applies to it |
| C177 | as C176 | the rows tested with a vector of unknowns give the form with its speed as test field (`meshForm_tested`); the skew form with two equal fields is zero |
| C178 | `PostProcessSolution` of NavierStokes_DF_PCC_2D/src/assembler.cpp:613-756 (`flowPost`, `flowPostCell`, `flowErrors`, `flowSquares`): values at the vertices, extraction on four fields, splitting into velocity and pressure, errors and norms, mesh size | the local values are those of the references of the cell (`flowPostCell_ok`), each sum is the quadrature of the square (`flowErrors_ok`); a sum of squares with positive weights is zero only if all are |
| C179 | `PostProcessSolution` of Brinkman_DF_PCC_2D/src/assembler.cpp:600-833 (`brinkmanPost`, `brinkmanPostCell`, `brinkmanErrors`, `repeatedFrom`) without residual, flux and coefficients | as C178; the numbers of the repeated points by induction over the cells (`repeated_points`). The errors of a test without exact functions are zero (`C179_unknown`), so that the theorem on the report is partial |
| C180 | `ComputeFlux` of Brinkman_DF_PCC_2D/src/assembler.cpp:835-927 (`computeFlux`, `edgeFluxOf`, `fluxSolution`, `fluxDof`, `addFlux`) | the DOFs of an edge by C06 (`edge_dofs`), the value of one edge by the product with the table (`edgeFluxOf_ok`), the map by induction over the list of edges (`flux_fold`) |
