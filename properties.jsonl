{"id": "C01", "title": "Free degrees of freedom are numbered densely and without collision", "statement": "After CreateDOFs_0D/1D/2D/3D returns, the global indices carried by all degrees of freedom of type DOF, taken over every cell of every dimension up to the mesh dimension, are exactly 0,1,...,NumberDOFs-1, each used exactly once.", "quantifier": "every mesh size, every number of DOFs per cell, every assignment of boundary types to cells, every mesh dimension 0..3 (total number of DOFs below 2^32)", "why_tests_cant": "Tests look at a handful of meshes; a collision or a gap depends on the interleaving of free and strong cells over all four dimensions, and the set of such interleavings is infinite.", "anchors": ["PolyDiM/src/PDETools/DOFs/DOFsManager.hpp:CreateDOFs_0D", "PolyDiM/src/PDETools/DOFs/DOFsManager.hpp:CreateDOFs_1D", "PolyDiM/src/PDETools/DOFs/DOFsManager.hpp:CreateDOFs_2D", "PolyDiM/src/PDETools/DOFs/DOFsManager.hpp:CreateDOFs_3D", "PolyDiM/src/PDETools/DOFs/DOFsManager.cpp:CreateCellDOFs"]}
{"id": "C02", "title": "Strong (Dirichlet) degrees of freedom are numbered densely and without collision", "statement": "After CreateDOFs_xD returns, the global indices of all degrees of freedom of type Strong over all cells are exactly 0,...,NumberStrongs-1, each used exactly once, independently of the free numbering.", "quantifier": "every mesh, every DOF count per cell, every boundary assignment, dimension 0..3", "why_tests_cant": "Same as C01: depends on all interleavings of boundary types.", "anchors": ["PolyDiM/src/PDETools/DOFs/DOFsManager.hpp:CreateDOFs_2D", "PolyDiM/src/PDETools/DOFs/DOFsManager.cpp:CreateCellDOFs"]}
{"id": "C03", "title": "Global DOF counters agree with what was created", "statement": "NumberDOFs + NumberStrongs equals the sum of the requested DOFs of all cells; NumberDOFs = NumberInternalDOFs + NumberBoundaryDOFs; NumberInternalDOFs is the number of DOFs on cells with boundary type None, NumberBoundaryDOFs the number on Weak or Robin cells and NumberStrongs the number on Strong cells.", "quantifier": "every mesh, DOF counts, boundary assignment, dimension 0..3", "why_tests_cant": "A test checks the totals of particular meshes; the identity must hold for every combination of per-cell counts including zero.", "anchors": ["PolyDiM/src/PDETools/DOFs/DOFsManager.cpp:CreateCellDOFs", "PolyDiM/src/PDETools/DOFs/DOFsManager.hpp:DOFsData"]}
{"id": "C04", "title": "Each cell gets the requested number of DOFs, typed by its own boundary type only", "statement": "Cell c of dimension d owns exactly the requested number of DOFs; they are of type Strong exactly when the boundary type of the cell is Strong and of type DOF when it is None, Weak or Robin; the per-cell free/strong counters report that number; the markers play no role.", "quantifier": "every dimension, cell, count and boundary type", "why_tests_cant": "Universal over cells and boundary assignments.", "anchors": ["PolyDiM/src/PDETools/DOFs/DOFsManager.cpp:CreateCellDOFs"]}
{"id": "C05", "title": "DOF creation either throws or returns complete data", "statement": "CreateDOFs_xD returns normally exactly when every cell has a boundary description of known type and every connectivity entry used refers to an existing cell; an unknown boundary type or a missing description raises and no data is returned.", "quantifier": "every mesh info and connectivity, well formed or not", "why_tests_cant": "Error paths depend on where in the mesh the bad entry sits.", "anchors": ["PolyDiM/src/PDETools/DOFs/DOFsManager.cpp:CreateCellDOFs", "PolyDiM/src/PDETools/DOFs/DOFsManager.hpp:CreateCell1DDOFs", "PolyDiM/src/PDETools/DOFs/DOFsManager.hpp:CreateCell2DDOFs", "PolyDiM/src/PDETools/DOFs/DOFsManager.hpp:CreateCell3DDOFs"]}
{"id": "C06", "title": "The DOF list of a cell is its closure in the documented order with no dangling references", "statement": "For every cell, the list of its global DOFs consists of the DOFs of its vertices in mesh order, then of its edges, then (3D) of its faces, then its own, each entity contributing its DOFs 0,1,2,... in order; every entry refers to an existing DOF; CellsGlobalNumberDOFs and CellsGlobalNumberStrongs are the numbers of entries of that type.", "quantifier": "every mesh connectivity and boundary assignment in dimension 0..3, every cell", "why_tests_cant": "Depends on arbitrary connectivity and per-entity counts.", "anchors": ["PolyDiM/src/PDETools/DOFs/DOFsManager.hpp:CreateCell0DDOFs", "PolyDiM/src/PDETools/DOFs/DOFsManager.hpp:CreateCell1DDOFs", "PolyDiM/src/PDETools/DOFs/DOFsManager.hpp:CreateCell2DDOFs", "PolyDiM/src/PDETools/DOFs/DOFsManager.hpp:CreateCell3DDOFs", "PolyDiM/src/PDETools/DOFs/DOFsManager.cpp:ConcatenateGlobalDOFs"]}
{"id": "C07", "title": "Conformity: cells sharing a vertex, edge or face see the same global unknowns there", "statement": "If two cells (of possibly different dimension) contain the same vertex, edge or face, then the consecutive block of their DOF lists belonging to that entity resolves to the same types and the same global indices, in the same order; conversely two entries of one or two cells that resolve to the same type and global index come from the same entity and the same local DOF.", "quantifier": "every pair of cells and shared entity in every mesh", "why_tests_cant": "Continuity of the discrete space relies on all pairs of neighbours of all meshes.", "anchors": ["PolyDiM/src/PDETools/DOFs/DOFsManager.hpp:CreateCell2DDOFs", "PolyDiM/src/PDETools/DOFs/DOFsManager.hpp:CreateCell3DDOFs", "PolyDiM/src/PDETools/DOFs/DOFsManager.cpp:ConcatenateGlobalDOFs"]}
{"id": "C08", "title": "Per-cell has-internal / has-boundary flags tell whether the closure of a cell contains such DOFs", "statement": "CellsGlobalHasInternalDOFs (CellsGlobalHasBoundaryDOFs) of a cell is true exactly when one of its global DOFs lies on an entity with boundary type None (Weak/Robin).", "quantifier": "every mesh, every cell of dimension 1..3", "why_tests_cant": "Holds or fails depending on which entity of the closure carries the DOFs.", "anchors": ["PolyDiM/src/PDETools/DOFs/DOFsManager.hpp:CreateCell1DDOFs", "PolyDiM/src/PDETools/DOFs/DOFsManager.hpp:CreateCell2DDOFs", "PolyDiM/src/PDETools/DOFs/DOFsManager.hpp:CreateCell3DDOFs"]}
{"id": "C09", "title": "Splitting a cell DOF list into free and strong parts is an order preserving partition", "statement": "ComputeCellsDOFsIndices returns, for every cell, the increasing lists of local positions holding free and strong DOFs; the two lists are disjoint, together contain every local position once, and the parallel global-index lists hold the global index of the DOF at that position.", "quantifier": "every DOF data produced by CreateDOFs_xD, every dimension and cell", "why_tests_cant": "Universal over meshes and boundary assignments.", "anchors": ["PolyDiM/src/PDETools/DOFs/DOFsManager.cpp:ComputeCellsDOFsIndices"]}
{"id": "C10", "title": "Constant DOF info is total on known markers", "statement": "Create_Constant_DOFsInfo_xD throws exactly when some cell of dimension 0..x has a marker that is missing from the boundary map; otherwise every cell of dimension d gets the constant NumDOFs[d] and the boundary description registered for its marker.", "quantifier": "every mesh, marker assignment, boundary map, dimension 0..3", "why_tests_cant": "The failing marker may be on any one cell.", "anchors": ["PolyDiM/src/PDETools/DOFs/DOFsManager.hpp:Create_Constant_DOFsInfo_0D", "PolyDiM/src/PDETools/DOFs/DOFsManager.hpp:Create_Constant_DOFsInfo_1D", "PolyDiM/src/PDETools/DOFs/DOFsManager.hpp:Create_Constant_DOFsInfo_2D", "PolyDiM/src/PDETools/DOFs/DOFsManager.hpp:Create_Constant_DOFsInfo_3D"]}
{"id": "C11", "title": "Multi-field offsets put the fields in disjoint consecutive blocks", "statement": "For a non-empty list of DOF handlers, count_dofs returns totals that are the sums over the handlers and offsets such that (handler h, index i < NumberDOFs of h) -> offset(h)+i is a bijection onto 0..num_total_dofs-1; same for strongs. The call on an empty list is undefined.", "quantifier": "every non-empty list of DOF handlers", "why_tests_cant": "Universal over the number of fields and their sizes.", "anchors": ["PolyDiM/src/PDETools/Assembler/Assembler_Utilities.hpp:count_dofs"]}
{"id": "C12", "title": "Local multi-field offsets put the fields in disjoint consecutive blocks", "statement": "local_count_dofs on a cell returns the sum of the numbers of local DOFs of the fields and offsets such that (field, local position) -> offset+position is a bijection onto 0..num_total_dofs-1; it throws when the cell does not exist in some field.", "quantifier": "every list of fields, dimension and cell", "why_tests_cant": "Universal over fields and cells.", "anchors": ["PolyDiM/src/PDETools/Assembler/Assembler_Utilities.hpp:local_count_dofs"]}
{"id": "C13", "title": "Extracting a local solution reads each unknown from the right global vector entry", "statement": "global_solution_to_local_solution with the offsets of count_dofs/local_count_dofs returns the vector whose entry at (field, local position) is the Strong vector entry of that DOF when it is strong and the DOF vector entry otherwise; no other entry of the result is written and no out-of-range entry of the global vectors is read.", "quantifier": "every mesh, list of fields, cell and pair of global vectors", "why_tests_cant": "Universal over data.", "anchors": ["PolyDiM/src/PDETools/Assembler/Assembler_Utilities.hpp:global_solution_to_local_solution"]}
{"id": "C14", "title": "Assembly adds exactly the local contributions", "statement": "After assembling any sequence of cells, every entry of the free-free matrix, free-strong matrix and right-hand side equals its previous value plus the sum over the cells and local index pairs mapped to that entry of the local matrix (vector) entries; rows of strong test DOFs receive nothing.", "quantifier": "every sequence of cells, local matrices and vectors, fields, DOF data and initial global contents", "why_tests_cant": "Statement about all sequences of assembly calls.", "anchors": ["PolyDiM/src/PDETools/Assembler/Assembler_Utilities.hpp:assemble_local_matrix_to_global_matrix"]}
{"id": "C15", "title": "The assembled system does not depend on the order in which cells are visited", "statement": "Assembling any permutation of a list of cells yields the same matrices and right-hand side (exact arithmetic), and assembling a list in several batches is the same as assembling it at once.", "quantifier": "every list of cells and every permutation", "why_tests_cant": "Number of schedules is factorial; also relevant for parallel assembly.", "anchors": ["PolyDiM/src/PDETools/Assembler/Assembler_Utilities.hpp:assemble_local_matrix_to_global_matrix"]}
{"id": "C16", "title": "Symmetric and positive semidefinite local matrices give a symmetric positive semidefinite free-free matrix", "statement": "If test and trial fields coincide and all local matrices are symmetric (positive semidefinite) then so is the assembled free-free matrix.", "quantifier": "every mesh, fields and local matrices", "why_tests_cant": "Property of all vectors and meshes; solver choice (Cholesky, CG) depends on it.", "anchors": ["PolyDiM/src/PDETools/Assembler/Assembler_Utilities.hpp:assemble_local_matrix_to_global_matrix"]}
{"id": "C17", "title": "Assembly and extraction are adjoint: the global residual is the sum of local residuals", "statement": "For all free and strong vectors u,g the vector A_DOF*u + A_Strong*g produced from the assembled matrices equals, row by row, the sum over the cells of the local matrix applied to the local solution extracted from (u,g), restricted to the free test rows; hence u^T A_DOF v is the sum of the local bilinear forms on extracted vectors with zero strong part.", "quantifier": "every mesh, fields, local matrices, vectors", "why_tests_cant": "Linear-algebra identity over infinitely many inputs.", "anchors": ["PolyDiM/src/PDETools/Assembler/Assembler_Utilities.hpp:assemble_local_matrix_to_global_matrix", "PolyDiM/src/PDETools/Assembler/Assembler_Utilities.hpp:global_solution_to_local_solution"]}
{"id": "C18", "title": "Assembly never addresses outside the global matrices", "statement": "With offsets from count_dofs and data from CreateDOFs_xD, every row index handed to the matrices is below num_total_dofs, every column index of the free block is below num_total_dofs, of the strong block below num_total_strong, and every local access is below the local sizes.", "quantifier": "every mesh, fields and cell", "why_tests_cant": "Out-of-range writes are silent in C++; needs all meshes.", "anchors": ["PolyDiM/src/PDETools/Assembler/Assembler_Utilities.hpp:assemble_local_matrix_to_global_matrix", "PolyDiM/src/PDETools/Assembler/Assembler_Utilities.hpp:count_dofs", "PolyDiM/src/PDETools/DOFs/DOFsManager.hpp:CreateDOFs_2D"]}
{"id": "C19", "title": "1D monomial enumeration", "statement": "Monomials_1D::Compute(k) yields k+1 monomials, the i-th being x^i; Index of an exponent returns its position and -1 for a negative exponent.", "quantifier": "every degree k", "why_tests_cant": "All degrees.", "anchors": ["PolyDiM/src/Utilities/Monomials_1D.cpp:Compute", "PolyDiM/src/Utilities/Monomials_1D.cpp:Index"]}
{"id": "C20", "title": "2D monomial enumeration is complete, duplicate free, graded and inverted by Index", "statement": "Monomials_2D::Compute(k) yields (k+1)(k+2)/2 monomials whose exponents are exactly the pairs of non-negative integers of sum at most k, each once, ordered by total degree so that the basis of degree k-1 is a prefix; Index(e) is the position of e in the list.", "quantifier": "every degree k, every exponent", "why_tests_cant": "All degrees; the enumeration is produced by a successor rule and the index by a closed formula.", "anchors": ["PolyDiM/src/Utilities/Monomials_2D.cpp:Compute", "PolyDiM/src/Utilities/Monomials_2D.cpp:Index"]}
{"id": "C21", "title": "3D monomial enumeration is complete, duplicate free, graded and inverted by Index", "statement": "Monomials_3D::Compute(k) yields (k+1)(k+2)(k+3)/6 monomials whose exponents are exactly the triples of non-negative integers of sum at most k, each once, ordered by total degree so that the basis of degree k-1 is a prefix; Index(e) is the position of e.", "quantifier": "every degree k, every exponent", "why_tests_cant": "All degrees; closed formula with three levels against a successor rule.", "anchors": ["PolyDiM/src/Utilities/Monomials_3D.cpp:Compute", "PolyDiM/src/Utilities/Monomials_3D.cpp:Index"]}
{"id": "C22", "title": "First-derivative indices and matrices describe differentiation of monomials", "statement": "For every monomial of degree at most k and every direction, DerivativeIndices gives -1 exactly when the exponent is 0 and otherwise the position of the monomial with that exponent lowered by one; the derivative matrix has that exponent there and zeros elsewhere in the row.", "quantifier": "every degree, monomial and direction, dimension 1,2,3", "why_tests_cant": "Closed index formulas valid for all degrees.", "anchors": ["PolyDiM/src/Utilities/Monomials_1D.cpp:DerivativeIndices", "PolyDiM/src/Utilities/Monomials_2D.cpp:DerivativeIndices", "PolyDiM/src/Utilities/Monomials_3D.cpp:DerivativeIndices"]}
{"id": "C23", "title": "Second-derivative indices and the Laplacian matrix describe double differentiation", "statement": "SecondDerivativeIndices gives -1 exactly when the exponent is below 2 and otherwise the position of the monomial with that exponent lowered by two; the Laplacian matrix row holds e(e-1) at these positions and zeros elsewhere.", "quantifier": "every degree, monomial and direction, dimension 1,2,3", "why_tests_cant": "Closed index formulas valid for all degrees.", "anchors": ["PolyDiM/src/Utilities/Monomials_2D.cpp:SecondDerivativeIndices", "PolyDiM/src/Utilities/Monomials_3D.cpp:SecondDerivativeIndices"]}
{"id": "C24", "title": "Vandermonde matrices hold the values of the scaled monomials", "statement": "Entry (p,i) of Vander is the product over the directions of ((x_p - c)/h)^(exponent of the i-th monomial).", "quantifier": "every degree, set of points, centre and non-zero diameter, dimension 1,2,3", "why_tests_cant": "All points and degrees.", "anchors": ["PolyDiM/src/Utilities/Monomials_Utilities.hpp:Vander"]}
{"id": "C25", "title": "Vandermonde derivative matrices hold the partial derivatives of the scaled monomials", "statement": "Entry (p,i) of VanderDerivatives[d] is the derivative in direction d at x_p of the function evaluated by Vander in column i.", "quantifier": "every degree, points, centre and non-zero diameter, dimension 1,2,3", "why_tests_cant": "Analytic identity at all points.", "anchors": ["PolyDiM/src/Utilities/Monomials_Utilities.hpp:VanderDerivatives"]}
{"id": "C26", "title": "VanderLaplacian holds the Laplacian of the scaled monomials", "statement": "Entry (p,i) of VanderLaplacian is the Laplacian at x_p of the function evaluated by Vander in column i, and the call never writes outside the matrix.", "quantifier": "every degree, points, centre, diameter, dimension 1,2,3", "why_tests_cant": "Must hold for each dimension and degree; the code hard-codes the number of columns that vanish.", "anchors": ["PolyDiM/src/Utilities/Monomials_Utilities.hpp:VanderLaplacian"]}
{"id": "C27", "title": "2D vector polynomials split into gradients and the rotated complement", "statement": "For every monomial m of degree at most k, (m,0) and (0,m) equal the combination, with the coefficients of GBasis_2D::Compute(k), of gradients of monomials of degree at most k+1 and of (y,-x) times monomials of degree at most k-1.", "quantifier": "every degree and monomial, every point", "why_tests_cant": "Polynomial identity for all degrees.", "anchors": ["PolyDiM/src/Utilities/GBasis_2D.cpp:Compute", "PolyDiM/src/Utilities/GBasis_2D.cpp:VectorDecompositionIndices", "PolyDiM/src/Utilities/GBasis_2D.hpp:VanderGBigOPlus"]}
{"id": "C28", "title": "3D vector polynomials split into gradients and the complement", "statement": "For every monomial m of degree at most k, (m,0,0), (0,m,0) and (0,0,m) equal the combination, with the coefficients of GBasis_3D::Compute(k), of gradients of monomials of degree at most k+1 and of the three families of complement fields evaluated by VanderGBigOPlus.", "quantifier": "every degree and monomial, every point", "why_tests_cant": "Polynomial identity for all degrees.", "anchors": ["PolyDiM/src/Utilities/GBasis_3D.cpp:Compute", "PolyDiM/src/Utilities/GBasis_3D.cpp:VectorDecompositionIndices", "PolyDiM/src/Utilities/GBasis_3D.cpp:VanderGBigOPlus"]}
{"id": "C29", "title": "1D Lagrange functions are nodal", "statement": "For pairwise distinct interpolation points, the i-th Lagrange function is 1 at point i and 0 at the others.", "quantifier": "every list of distinct points", "why_tests_cant": "All point sets.", "anchors": ["PolyDiM/src/Interpolation/lagrange_1D.cpp:Lagrange_1D_coefficients", "PolyDiM/src/Interpolation/lagrange_1D.cpp:Lagrange_1D_values"]}
{"id": "C30", "title": "1D Lagrange interpolation reproduces polynomials", "statement": "For n distinct points the Lagrange functions sum to 1 everywhere and interpolation reproduces every polynomial of degree below n.", "quantifier": "every list of distinct points, polynomial and evaluation point", "why_tests_cant": "All polynomials and points.", "anchors": ["PolyDiM/src/Interpolation/lagrange_1D.cpp:Lagrange_1D_values"]}
{"id": "C31", "title": "1D Lagrange derivative values are the derivatives of the Lagrange functions", "statement": "Lagrange_1D_derivative_values returns at each point the derivative of the function returned by Lagrange_1D_values.", "quantifier": "every list of points and evaluation point", "why_tests_cant": "Analytic identity.", "anchors": ["PolyDiM/src/Interpolation/lagrange_1D.cpp:Lagrange_1D_derivative_values"]}
{"id": "C32", "title": "Triangle element: DOF layout", "statement": "For every order k>=1 the reference triangle has (k+1)(k+2)/2 DOFs; their barycentric types are exactly the triples summing to k, each once; positions are the corresponding lattice points; the first three are the vertices, then the k-1 DOFs of each edge ordered from edge origin to edge end, then the internal ones.", "quantifier": "every order", "why_tests_cant": "All orders; produced by loops with push_front/push_back.", "anchors": ["PolyDiM/src/FEM/PCC/2D/FEM_Triangle_PCC_2D_ReferenceElement.hpp:Create"]}
{"id": "C33", "title": "Triangle element: nodal basis", "statement": "The basis function of each DOF is 1 at its own position and 0 at the position of every other DOF.", "quantifier": "every order and pair of DOFs", "why_tests_cant": "All orders.", "anchors": ["PolyDiM/src/FEM/PCC/2D/FEM_Triangle_PCC_2D_ReferenceElement.hpp:EvaluateBasisFunctions"]}
{"id": "C34", "title": "Triangle element: partition of unity", "statement": "At every point the basis functions sum to 1 (and their gradients to 0).", "quantifier": "every order and point", "why_tests_cant": "All orders and points.", "anchors": ["PolyDiM/src/FEM/PCC/2D/FEM_Triangle_PCC_2D_ReferenceElement.hpp:EvaluateBasisFunctions"]}
{"id": "C35", "title": "Triangle element: derivatives", "statement": "EvaluateBasisFunctionDerivatives returns the partial derivatives of the functions returned by EvaluateBasisFunctions at every point.", "quantifier": "every order, DOF and point", "why_tests_cant": "Analytic identity.", "anchors": ["PolyDiM/src/FEM/PCC/2D/FEM_Triangle_PCC_2D_ReferenceElement.hpp:EvaluateBasisFunctionDerivatives"]}
{"id": "C36", "title": "Triangle element: second derivatives", "statement": "EvaluateBasisFunctionSecondDerivatives returns the second partial derivatives of the basis functions, or throws for an order it does not support.", "quantifier": "every order, DOF and point", "why_tests_cant": "Hard-coded tables must agree with a generic formula at every point.", "anchors": ["PolyDiM/src/FEM/PCC/2D/FEM_Triangle_PCC_2D_ReferenceElement.hpp:EvaluateBasisFunctionSecondDerivatives"]}
{"id": "C37", "title": "Triangle element: mesh ordering is a permutation that makes neighbours agree on shared edges", "statement": "The reference-to-mesh DOF order is a permutation of the local DOFs; the d-th edge DOF of local edge e sits at the point at parameter (d+1)/k from the mesh origin of the edge, whatever the orientation flag, so two triangles sharing an edge place its d-th DOF at the same point; values, derivatives and Laplacians are reported in the same order.", "quantifier": "every order, every combination of edge orientations", "why_tests_cant": "All orders and orientation patterns of neighbours.", "anchors": ["PolyDiM/src/FEM/PCC/2D/FEM_Triangle_PCC_2D_LocalSpace.cpp:CreateLocalSpace", "PolyDiM/src/FEM/PCC/2D/FEM_Triangle_PCC_2D_LocalSpace.cpp:MapDerivativeValues", "PolyDiM/src/FEM/PCC/2D/FEM_Triangle_PCC_2D_LocalSpace.cpp:MapLaplacianValues"]}
{"id": "C38", "title": "Triangle element: physical gradients obey the chain rule", "statement": "For an invertible affine map, the mapped derivatives are the derivatives of the mapped basis functions in physical coordinates; the mapped Laplacian likewise.", "quantifier": "every invertible affine map, basis function and point", "why_tests_cant": "Analytic identity.", "anchors": ["PolyDiM/src/FEM/PCC/2D/FEM_Triangle_PCC_2D_LocalSpace.cpp:MapDerivativeValues", "PolyDiM/src/FEM/PCC/2D/FEM_Triangle_PCC_2D_LocalSpace.cpp:MapLaplacianValues"]}
{"id": "C39", "title": "Quadrilateral element: DOF layout, nodal basis, partition of unity and derivatives", "statement": "For every order k>=1 the DOF types run over all pairs of 1D DOFs exactly once, positions are the tensor lattice points, the first four are the vertices in counter-clockwise order followed by the four edges and the interior; basis functions are nodal, sum to one, and the derivative routine returns their partial derivatives; order 0 throws.", "quantifier": "every order, DOF pair and point", "why_tests_cant": "All orders.", "anchors": ["PolyDiM/src/FEM/PCC/2D/FEM_Quadrilateral_PCC_2D_ReferenceElement.hpp:Create", "PolyDiM/src/FEM/PCC/2D/FEM_Quadrilateral_PCC_2D_ReferenceElement.hpp:EvaluateBasisFunctions"]}
{"id": "C40", "title": "Quadrilateral element: mesh ordering makes neighbours agree on shared edges", "statement": "The DOF order is a permutation equal to its own inverse, and the d-th DOF of each edge is at parameter (d+1)/k from the mesh origin of the edge for both orientation flags.", "quantifier": "every order and orientation pattern", "why_tests_cant": "All orders and orientation patterns.", "anchors": ["PolyDiM/src/FEM/PCC/2D/FEM_Quadrilateral_PCC_2D_LocalSpace.cpp:CreateLocalSpace"]}
{"id": "C41", "title": "Tetrahedron element: DOF layout", "statement": "For every order k>=1 the barycentric DOF types are exactly the quadruples of non-negative integers summing to k, each once, with positions the corresponding lattice points, in the order vertices, edges, faces, interior; the number of DOFs is (k+1)(k+2)(k+3)/6.", "quantifier": "every order", "why_tests_cant": "All orders.", "anchors": ["PolyDiM/src/FEM/PCC/3D/FEM_Tetrahedron_PCC_3D_ReferenceElement.hpp:Create"]}
{"id": "C42", "title": "Tetrahedron element: nodal basis and partition of unity", "statement": "The basis function of each DOF is 1 at its own position, 0 at all others, and the basis sums to one at every point.", "quantifier": "every order, DOF pair and point", "why_tests_cant": "All orders.", "anchors": ["PolyDiM/src/FEM/PCC/3D/FEM_Tetrahedron_PCC_3D_ReferenceElement.hpp:EvaluateBasisFunctions"]}
{"id": "C43", "title": "Tetrahedron element: derivatives", "statement": "EvaluateBasisFunctionDerivatives returns the partial derivatives of the basis functions at every point.", "quantifier": "every order, DOF and point", "why_tests_cant": "The code divides by factors that vanish on lattice planes, so failures sit on a set of measure zero that sampling misses.", "anchors": ["PolyDiM/src/FEM/PCC/3D/FEM_Tetrahedron_PCC_3D_ReferenceElement.hpp:EvaluateBasisFunctionDerivatives"]}
{"id": "C44", "title": "Tetrahedron element: edge table orientation", "statement": "Whatever vertex pair and direction flag the mesh uses for an edge, the d-th edge DOF in mesh order sits at parameter (d+1)/k from the mesh origin of the edge; the DOF order restricted to vertices, edges and interior is a permutation.", "quantifier": "every order, edge numbering and orientation pattern of the polyhedron", "why_tests_cant": "All orders and numberings.", "anchors": ["PolyDiM/src/FEM/PCC/3D/FEM_Tetrahedron_PCC_3D_LocalSpace.cpp:CreateLocalSpace", "PolyDiM/src/FEM/PCC/3D/FEM_Tetrahedron_PCC_3D_ReferenceElement.hpp:Create"]}
{"id": "C45", "title": "Hexahedron element: DOF layout, nodal basis, partition of unity and derivatives", "statement": "For every order k>=1 the DOF types run over all triples of 1D DOFs exactly once with matching positions, in the order vertices, edges, faces, interior; basis functions are nodal, sum to one and the derivative routine returns their partial derivatives; order 0 throws.", "quantifier": "every order, DOF pair and point", "why_tests_cant": "All orders.", "anchors": ["PolyDiM/src/FEM/PCC/3D/FEM_Hexahedron_PCC_3D_ReferenceElement.hpp:Create"]}
{"id": "C46", "title": "Hexahedron element: mesh ordering on shared faces", "statement": "Two hexahedra sharing a face place the d-th face DOF at the same point.", "quantifier": "every order and relative orientation of the two cells", "why_tests_cant": "Depends on all relative orientations and orders.", "anchors": ["PolyDiM/src/FEM/PCC/3D/FEM_Hexahedron_PCC_3D_LocalSpace.cpp:CreateLocalSpace"]}
{"id": "C47", "title": "Polygon quadrature is the sum of the mapped triangle quadratures", "statement": "PolygonInternalQuadrature of a triangulated polygon returns points lying in the triangles and weights such that the quadrature of any function is the sum over the triangles of |det| times the reference quadrature of the pulled-back function; weights are non-negative if the reference ones are, and their sum is the total area.", "quantifier": "every triangulation, reference rule and integrand", "why_tests_cant": "All integrands and polygons.", "anchors": ["PolyDiM/src/VEM/Quadrature/VEM_Quadrature_2D.cpp:PolygonInternalQuadrature"]}
{"id": "C48", "title": "Boundary Lobatto quadrature integrates over the whole polygon boundary", "statement": "PolygonEdgesLobattoQuadrature weights summed against any function sampled at vertices and edge-internal points equal the sum over the edges of the edge length times the reference Lobatto rule; the normal-weighted variant equals the boundary integral of the function times the outward normal component, so that it vanishes on constants for a closed polygon.", "quantifier": "every polygon, orientation pattern, reference rule and function", "why_tests_cant": "All polygons and functions.", "anchors": ["PolyDiM/src/VEM/Quadrature/VEM_Quadrature_2D.cpp:PolygonEdgesLobattoQuadrature"]}
{"id": "C49", "title": "Edge quadrature lists each edge's mapped rule", "statement": "PolygonEdgesQuadrature returns for every edge the reference rule mapped from the mesh origin of the edge, with weights multiplied by the edge length, in edge order; the normal-weighted version multiplies by the outward normal component.", "quantifier": "every polygon, orientation pattern and rule", "why_tests_cant": "All polygons.", "anchors": ["PolyDiM/src/VEM/Quadrature/VEM_Quadrature_2D.cpp:PolygonEdgesQuadrature"]}
{"id": "C50", "title": "VEM stabilization is symmetric, positive semidefinite and vanishes on polynomials", "statement": "The dofi-dofi and D-recipe stabilization matrices are symmetric, positive semidefinite for non-negative coefficients, and annihilate the DOF vector of every polynomial for which the projector is exact; the kernel of the dofi-dofi one is exactly the set of vectors reproduced by projection and evaluation.", "quantifier": "every projector, DOF matrix and coefficient", "why_tests_cant": "Statement about all vectors and elements; stability of the method relies on it.", "anchors": ["PolyDiM/src/VEM/PCC/VEM_PCC_Utilities.hpp:ComputeDofiDofiStabilizationMatrix", "PolyDiM/src/VEM/PCC/VEM_PCC_Utilities.hpp:ComputeDRecipeStabilizationMatrix"]}
{"id": "C51", "title": "The energy projector is the identity on polynomials", "statement": "With quadrature tables that are exact to the degrees the code asks for and a direct solver that solves regular systems, CreateLocalSpace succeeds on every polygon with a triangulation and outward normals, the energy projector maps the DOFs of every polynomial of degree at most k to its coefficients, and the columns of the DOF matrix are the DOFs of the scaled monomials.", "quantifier": "every element, order and polynomial", "why_tests_cant": "All polygons.", "anchors": ["PolyDiM/src/VEM/PCC/2D/VEM_PCC_2D_LocalSpace.cpp:ComputePiNabla", "PolyDiM/src/VEM/PCC/2D/VEM_PCC_2D_LocalSpace.cpp:ComputePolynomialsDofs"]}
{"id": "C52", "title": "The L2 projectors are the identity on polynomials", "statement": "Under the assumptions of C51, Pi0k maps the DOFs of a polynomial of degree at most k to its coefficients, and Pi0km1 maps them to the coefficients of its L2 projection on the polynomials of degree k-1.", "quantifier": "every element, order and polynomial", "why_tests_cant": "All polygons.", "anchors": ["PolyDiM/src/VEM/PCC/VEM_PCC_Utilities.hpp:ComputeL2Projectors", "PolyDiM/src/VEM/PCC/2D/VEM_PCC_2D_LocalSpace.hpp:ComputeL2Projectors"]}
{"id": "C53", "title": "Elliptic element matrices are the quadrature sums of the bilinear forms", "statement": "Diffusion, reaction, advection and forcing matrices have as entries the weighted sums over quadrature points of the corresponding products of trial and test values; diffusion and reaction are symmetric for scalar coefficients, positive semidefinite for non-negative coefficients and weights, and diffusion annihilates the coefficient vectors whose gradient vanishes at the quadrature points.", "quantifier": "every coefficient, basis values and quadrature", "why_tests_cant": "All inputs.", "anchors": ["PolyDiM/src/PDETools/Equations/EllipticEquation.hpp"]}
{"id": "C54", "title": "Inertia mapping returns an affine map with its true inverse and determinant", "statement": "The forward and inverse matrices returned by the inertia mapping are inverse to each other and the reported determinant is the absolute value of the determinant of the forward matrix.", "quantifier": "every element", "why_tests_cant": "All elements.", "anchors": ["PolyDiM/src/Utilities/Inertia_Utilities.cpp:InertiaMapping2D", "PolyDiM/src/Utilities/Inertia_Utilities.cpp:InertiaMapping3D"]}
{"id": "C55", "title": "1D element: DOF layout, nodal basis, derivatives and physical map", "statement": "The 1D element of order k>=1 has k+1 DOFs, ordered first end, last end, interior; basis functions are nodal and sum to one; the physical map and its inverse are inverse to each other and mapped derivatives are physical derivatives.", "quantifier": "every order and segment", "why_tests_cant": "All orders and points.", "anchors": ["PolyDiM/src/FEM/PCC/1D/FEM_PCC_1D_ReferenceElement.hpp", "PolyDiM/src/FEM/PCC/1D/FEM_PCC_1D_LocalSpace.hpp", "PolyDiM/src/FEM/PCC/1D/FEM_PCC_1D_LocalSpace.cpp"]}
{"id": "C56", "title": "Raviart-Thomas element: Piola map preserves divergence pairing and normal flux", "statement": "For an invertible affine map, the mapped velocity is the Piola transform: its physical divergence is the reported divergence value, divergence integrals against mapped pressures are preserved up to the sign of the determinant, and fluxes through edges are preserved.", "quantifier": "every invertible affine map, vector field and point", "why_tests_cant": "Analytic identity.", "anchors": ["PolyDiM/src/FEM/MCC/2D/FEM_Triangle_RT_MCC_2D_LocalSpace.cpp:MapVelocityValues", "PolyDiM/src/FEM/MCC/2D/FEM_Triangle_RT_MCC_2D_LocalSpace.cpp:MapVelocityDivergenceValues"]}
{"id": "C57", "title": "Traces of the 2D Lagrange elements are the 1D boundary functions in mesh direction", "statement": "On every edge of a triangle or quadrilateral, followed in the direction in which the mesh stores it, the basis functions of the two end vertices and of the edge DOFs (after the mesh reordering) equal, in that order, the functions returned by ComputeBasisFunctionsValuesOnEdge, and every other basis function vanishes; so traces of neighbouring elements agree DOF by DOF, also between triangles and quadrilaterals.", "quantifier": "every order k>=1, edge, orientation pattern, element and point of the edge", "why_tests_cant": "All orders, orientations and points; a reversed edge is invisible up to order 2.", "anchors": ["PolyDiM/src/FEM/PCC/2D/FEM_Triangle_PCC_2D_LocalSpace.hpp:ComputeBasisFunctionsValuesOnEdge", "PolyDiM/src/FEM/PCC/2D/FEM_Quadrilateral_PCC_2D_LocalSpace.hpp:ComputeBasisFunctionsValuesOnEdge"]}
{"id": "C58", "title": "Quadrilateral physical derivatives obey the chain rule in the DOF order", "statement": "Column c of the mapped derivatives is the physical gradient of the function reported in column c of the mapped values, for parallelograms (columns gathered) and generic quadrilaterals (columns scattered).", "quantifier": "every order, quadrilateral, orientation pattern, DOF and point", "why_tests_cant": "All orders, orientations and points.", "anchors": ["PolyDiM/src/FEM/PCC/2D/FEM_Quadrilateral_PCC_2D_LocalSpace.cpp:MapDerivativeValues"]}
{"id": "C59", "title": "Tetrahedron element: face DOFs sit where the face's own 2D element places them", "statement": "In the local space of a tetrahedron the j-th DOF of face f is the point where the two-dimensional element built for that face has its j-th interior DOF, an affine combination of the face's vertices with positive lattice weights depending only on the order and j; two tetrahedra that share a face and list its vertices in the same order place the j-th face DOF at the same point, and the search for matching points always finds exactly one.", "quantifier": "every order, tetrahedron, numbering of vertices, edges and faces, orientation pattern", "why_tests_cant": "All orders, numberings and geometries; up to order 3 a face has at most one interior DOF and no order can be wrong.", "anchors": ["PolyDiM/src/FEM/PCC/3D/FEM_Tetrahedron_PCC_3D_LocalSpace.cpp:CreateLocalSpace"]}
{"id": "C60", "title": "Tetrahedron element: traces on faces are the 2D face functions", "statement": "On every face of a tetrahedron the basis functions of the DOFs on the face equal the functions of the face's 2D element (what ComputeBasisFunctionsValuesOnFace returns) for the DOF at the same point, every other basis function vanishes on the face, and traces of two tetrahedra sharing the face agree DOF by DOF.", "quantifier": "every order k>=1, tetrahedron, face, numbering, DOF and point of the face", "why_tests_cant": "All orders, numberings and points of the face.", "anchors": ["PolyDiM/src/FEM/PCC/3D/FEM_Tetrahedron_PCC_3D_LocalSpace.hpp:ComputeBasisFunctionsValuesOnFace", "PolyDiM/src/FEM/PCC/3D/FEM_Tetrahedron_PCC_3D_LocalSpace.cpp:MapValues"]}
{"id": "C61", "title": "Tetrahedron element: physical gradients obey the chain rule in the DOF order", "statement": "Column c of the mapped derivatives contains the partial derivatives in physical coordinates of the function in column c of the mapped values.", "quantifier": "every order, tetrahedron, orientation pattern, DOF and point", "why_tests_cant": "Analytic identity at every point; the hand-written index triples of the inverse matrix must all be right.", "anchors": ["PolyDiM/src/FEM/PCC/3D/FEM_Tetrahedron_PCC_3D_LocalSpace.cpp:MapDerivativeValues"]}
{"id": "C62", "title": "Hexahedron element: mesh order of DOFs", "statement": "For every nondegenerate parallelepiped whose edges and faces are numbered and directed in any way, CreateLocalSpace returns a DOF order that is a permutation of all local DOFs; vertex DOFs are the vertices; the j-th DOF of edge e is the (j+1)/k point of the edge in the direction stored by the mesh, so cells sharing an edge agree; values, points and order are consistent: mapped function i is 1 at DOF point i and 0 at the others. Hexahedra that are not parallelepipeds are rejected.", "quantifier": "every order k>=1, parallelepiped, numbering and orientation", "why_tests_cant": "2^12 edge orientation patterns times all edge numberings, for every order.", "anchors": ["PolyDiM/src/FEM/PCC/3D/FEM_Hexahedron_PCC_3D_LocalSpace.cpp:CreateLocalSpace", "PolyDiM/src/FEM/PCC/3D/FEM_Hexahedron_PCC_3D_LocalSpace.cpp:MapValues"]}
{"id": "C63", "title": "Hexahedron element: physical gradients obey the chain rule in the DOF order", "statement": "Column c of the mapped derivatives contains the partial derivatives in physical coordinates of the function in column c of the mapped values.", "quantifier": "every order, parallelepiped, orientation pattern, DOF and point", "why_tests_cant": "Analytic identity at every point; the hand-written index triples of the inverse matrix must all be right.", "anchors": ["PolyDiM/src/FEM/PCC/3D/FEM_Hexahedron_PCC_3D_LocalSpace.cpp:MapDerivativeValues"]}
{"id": "C64", "title": "Hexahedron element: traces on faces are the 2D face functions", "statement": "On every face of a parallelepiped every basis function whose DOF is on the face equals exactly one function of the face's quadrilateral element, the one that is 1 at that DOF; every other basis function vanishes on the face; traces of two cells sharing the face agree DOF by DOF; and the n-th DOF of the face corresponds to the n-th interior function of the face element.", "quantifier": "every order k>=1, parallelepiped, face, numbering, DOF and point of the face", "why_tests_cant": "All orders, numberings and points of the face; up to order 2 a face has at most one interior DOF and no order can be wrong.", "anchors": ["PolyDiM/src/FEM/PCC/3D/FEM_Hexahedron_PCC_3D_LocalSpace.hpp:ComputeBasisFunctionsValuesOnFace", "PolyDiM/src/FEM/PCC/3D/FEM_Hexahedron_PCC_3D_ReferenceElement.hpp:Create"]}
{"id": "C65", "title": "Polyhedron quadrature is the sum of the mapped tetrahedron quadratures", "statement": "PolyhedronInternalQuadrature of a polyhedron cut into tetrahedra returns points lying in the tetrahedra and weights such that the quadrature of any function is the sum over the tetrahedra of six times the volume times the reference quadrature of the function in barycentric coordinates; weights are non-negative if the reference ones are, and their sum is the total volume.", "quantifier": "every list of tetrahedra, reference rule and integrand", "why_tests_cant": "All integrands and polyhedra.", "anchors": ["PolyDiM/src/VEM/Quadrature/VEM_Quadrature_3D.cpp:PolyhedronInternalQuadrature"]}
{"id": "C66", "title": "Polyhedron faces quadrature", "statement": "PolyhedronFacesQuadrature puts the rules of the faces one after the other, with every point lifted to the plane of its face; the three normal-weighted rules carry the outward normal of the face, so they vanish on constants for a closed polyhedron. The version for the mixed method builds the rule of each face from its triangles first.", "quantifier": "every list of faces with rules of any sizes, and every integrand", "why_tests_cant": "All polyhedra; the offsets of faces with different numbers of points must be right for every combination.", "anchors": ["PolyDiM/src/VEM/Quadrature/VEM_Quadrature_3D.cpp:PolyhedronFacesQuadrature"]}
{"id": "C67", "title": "Polyhedron edge points follow the direction stored in the mesh", "statement": "PolyhedronInternalEdgesQuadraturePoints returns m points per edge; position e*m+q is the point of edge e at the q-th reference parameter, measured from the vertex at which the mesh edge starts, so two cells sharing an edge have the same points on it in the same order.", "quantifier": "every polyhedron, numbering and direction of edges, and reference rule", "why_tests_cant": "2^(number of edges) direction patterns.", "anchors": ["PolyDiM/src/VEM/Quadrature/VEM_Quadrature_3D.cpp:PolyhedronInternalEdgesQuadraturePoints"]}
{"id": "C68", "title": "Quadratures are exact for polynomials", "statement": "If the reference rule integrates polynomials of total degree at most k exactly over the reference triangle (tetrahedron, segment), then the rule of a polygon (polyhedron, polygon boundary) integrates the polynomials of total degree at most k exactly over the polygon (polyhedron, boundary, also against the normal).", "quantifier": "every degree, triangulation without overlaps, polynomial", "why_tests_cant": "Infinitely many polynomials and shapes; needs the change of variables of the Lebesgue integral.", "anchors": ["PolyDiM/src/VEM/Quadrature/VEM_Quadrature_2D.cpp:PolygonInternalQuadrature", "PolyDiM/src/VEM/Quadrature/VEM_Quadrature_3D.cpp:PolyhedronInternalQuadrature", "PolyDiM/src/VEM/Quadrature/VEM_Quadrature_2D.cpp:PolygonEdgesLobattoQuadrature"]}
{"id": "C69", "title": "The normal-weighted boundary rule knows the area", "statement": "For a polygon whose normals are the outward ones and a reference rule that integrates 1 and t exactly, the rule weighted by the first (second) component of the normal applied to the first (second) coordinate gives the area of the polygon.", "quantifier": "every polygon, orientation pattern and rule exact for degree 1", "why_tests_cant": "All polygons; discrete divergence theorem.", "anchors": ["PolyDiM/src/VEM/Quadrature/VEM_Quadrature_2D.cpp:PolygonEdgesLobattoQuadrature"]}
{"id": "C70", "title": "Boundary rule of the divergence-free VEM has degree 2*order+1", "statement": "The boundary rule of Compute_DF_PCC_2D is, on every edge, the Gauss-Lobatto rule of degree 2*order+1 of the table.", "quantifier": "every order >= 1, table, polygon and integrand", "why_tests_cant": "All orders and tables; order 1 takes a separate branch.", "anchors": ["PolyDiM/src/VEM/Quadrature/VEM_Quadrature_2D.cpp:Compute_DF_PCC_2D"]}
{"id": "C71", "title": "The projectors of the derivatives are exact on polynomials", "statement": "Under the assumptions of C51, the matrices Pi0km1Der map the DOFs of a polynomial of degree at most k to the coefficients of its two partial derivatives.", "quantifier": "every polygon, order and polynomial", "why_tests_cant": "All polygons, orders and edge orientations.", "anchors": ["PolyDiM/src/VEM/PCC/2D/VEM_PCC_2D_LocalSpace.cpp:ComputeL2ProjectorsOfDerivatives"]}
{"id": "C72", "title": "Laplacian values of the VEM basis functions", "statement": "The values returned by ComputeBasisFunctionsLaplacianValues are the divergence of the projected gradient of the basis functions at the requested points, one column per DOF, so on the DOFs of a polynomial of degree at most k they are its Laplacian.", "quantifier": "every polygon, order and set of points", "why_tests_cant": "All sets of points; no test calls the variant for given points.", "anchors": ["PolyDiM/src/VEM/PCC/2D/VEM_PCC_2D_LocalSpace.hpp:ComputeBasisFunctionsLaplacianValues", "PolyDiM/src/VEM/PCC/VEM_PCC_Utilities.hpp:ComputeBasisFunctionsLaplacianValues"]}
{"id": "C73", "title": "The projectors compute the projections of functions that are only known by their DOFs", "statement": "For every integrable function that is a polynomial of degree at most k on each edge, the projectors applied to its DOFs return the energy projection (with the mean over the boundary for k=1 and over the element for k>=2), polynomials with its moments up to degree k-2 and those of the energy projection above, and the L2 projections of its derivatives after integration by parts.", "quantifier": "every polygon, order and function of the virtual element space", "why_tests_cant": "The functions of the space are not computable, no test can evaluate them.", "anchors": ["PolyDiM/src/VEM/PCC/2D/VEM_PCC_2D_LocalSpace.cpp:ComputePiNabla", "PolyDiM/src/VEM/PCC/2D/VEM_PCC_2D_LocalSpace.cpp:ComputeL2ProjectorsOfDerivatives", "PolyDiM/src/VEM/PCC/VEM_PCC_Utilities.hpp:ComputeL2Projectors"]}
{"id": "C74", "title": "Values and derivatives of the VEM basis functions at points", "statement": "ComputeBasisFunctionsValues and ComputeBasisFunctionsDerivativeValues return, for the supported types of projection, the values of the projections (of the basis functions, of their derivatives, or the derivatives of the energy projection) at arbitrary points; on the DOFs of polynomials they are exact; at the quadrature points they agree with the variants that use the stored matrices; the other types throw.", "quantifier": "every polygon, order, set of points and type of projection", "why_tests_cant": "All polygons, orders and points.", "anchors": ["PolyDiM/src/VEM/PCC/2D/VEM_PCC_2D_LocalSpace.hpp:ComputeBasisFunctionsValues", "PolyDiM/src/VEM/PCC/2D/VEM_PCC_2D_LocalSpace.hpp:ComputeBasisFunctionsDerivativeValues", "PolyDiM/src/VEM/PCC/VEM_PCC_Utilities.hpp:ComputeBasisFunctionsDerivativeValues"]}
{"id": "C75", "title": "Trace of the VEM basis functions on an edge", "statement": "ComputeValuesOnEdge returns the values on an edge in terms of the DOFs of its first vertex, its last vertex and its internal nodes (in the direction of the mesh edge): exact for every function that is a polynomial of degree at most k on the edge, and nodal.", "quantifier": "every order, edge, orientation and parameter", "why_tests_cant": "All functions of the space and all parameters.", "anchors": ["PolyDiM/src/VEM/PCC/2D/VEM_PCC_2D_LocalSpace.hpp:ComputeValuesOnEdge", "PolyDiM/src/VEM/PCC/VEM_PCC_Utilities.hpp:ComputeValuesOnEdge"]}
{"id": "C76", "title": "Coordinates of the edge DOFs agree between neighbours", "statement": "EdgeDOFsCoordinates returns the internal nodes of the edge measured from the first vertex of the mesh edge, so two cells sharing an edge get the same nodes in the same order, whatever their orientation.", "quantifier": "every edge, orientation and set of nodes", "why_tests_cant": "All orientations and numbers of nodes.", "anchors": ["PolyDiM/src/VEM/PCC/VEM_PCC_Utilities.hpp:EdgeDOFsCoordinates"]}
{"id": "C77", "title": "The stabilization of the VEM local space vanishes exactly on polynomials", "statement": "For the local space of a polygon the dofi-dofi stabilization with the energy and the L2 projection is symmetric and positive semidefinite, and its quadratic form is zero on a vector iff the vector holds the DOFs of a polynomial of degree at most k; other types of projection throw.", "quantifier": "every polygon, order and vector", "why_tests_cant": "Kernel statement over all vectors; too small a kernel breaks consistency, too large a kernel breaks stability.", "anchors": ["PolyDiM/src/VEM/PCC/2D/VEM_PCC_2D_LocalSpace.hpp:ComputeDofiDofiStabilizationMatrix"]}
{"id": "C78", "title": "The inertia map makes the element isotropic, of diameter one and centred", "statement": "When the library's mass matrix is the matrix of second moments of the rescaled element, the element mapped by FmatrixInv and translation has second moments that are a positive multiple of the identity, its vertices have diameter 1, and its centroid is the origin.", "quantifier": "every polygon and polyhedron of positive measure", "why_tests_cant": "All shapes and all outcomes of the eigen solver.", "anchors": ["PolyDiM/src/Utilities/Inertia_Utilities.cpp:InertiaMapping2D", "PolyDiM/src/Utilities/Inertia_Utilities.cpp:InertiaMapping3D"]}
{"id": "C79", "title": "signDetQ is the orientation of the planar inertia map", "statement": "The sign reported by InertiaMapping2D is the sign of the determinant of the planar forward map.", "quantifier": "every polygon", "why_tests_cant": "The sign depends on the eigenvectors returned and on a threshold that only very thin elements reach.", "anchors": ["PolyDiM/src/Utilities/Inertia_Utilities.cpp:InertiaMapping2D"]}
{"id": "C80", "title": "Raviart-Thomas reference element: the basis is dual to the degrees of freedom", "statement": "For every order, given exact quadrature tables, Create builds data for all eight triples of edge directions, and the basis functions form the basis of the Raviart-Thomas space dual to the flux moments of the edges (taken in the direction of the mesh) and the internal moments; every field of the space is reproduced from its degrees of freedom.", "quantifier": "every order and triple of edge directions", "why_tests_cant": "Unbounded orders; the regularity of the linear system is a statement for all orders.", "anchors": ["PolyDiM/src/FEM/MCC/2D/FEM_Triangle_RT_MCC_2D_ReferenceElement.hpp:ComputeVelocityMonomialsCoefficient", "PolyDiM/src/FEM/MCC/2D/FEM_Triangle_RT_MCC_2D_ReferenceElement.hpp:Create", "PolyDiM/src/FEM/MCC/2D/FEM_Triangle_RT_MCC_2D_ReferenceElement.hpp:EvaluateVelocityBasisFunctions"]}
{"id": "C81", "title": "Raviart-Thomas local space: conformity in H(div)", "statement": "On every triangle that does not degenerate, of either orientation, the basis functions span the Raviart-Thomas space and their flux moments through the edges in the direction of the mesh are those of the dual basis; if two triangles share an edge and the coefficients of its degrees of freedom agree, the normal components of the two local fields agree on the whole edge.", "quantifier": "every order, pair of triangles, edge directions and coefficients", "why_tests_cant": "All pairs of triangles and all points of the edge.", "anchors": ["PolyDiM/src/FEM/MCC/2D/FEM_Triangle_RT_MCC_2D_LocalSpace.cpp:CreateLocalSpace", "PolyDiM/src/FEM/MCC/2D/FEM_Triangle_RT_MCC_2D_LocalSpace.hpp:ComputeVelocityBasisFunctionsValues"]}
{"id": "C82", "title": "Raviart-Thomas local space: divergence, local conservation, surjectivity", "statement": "On every triangle that does not degenerate the reported divergences are the divergences of the basis functions, they are polynomials of degree at most the order, their integrals are the signed fluxes of the edges, and every polynomial of degree at most the order is a combination of them.", "quantifier": "every order, triangle, edge directions", "why_tests_cant": "Analytic identity and surjectivity for all orders.", "anchors": ["PolyDiM/src/FEM/MCC/2D/FEM_Triangle_RT_MCC_2D_ReferenceElement.hpp:EvaluateVelocityBasisFunctionsDivergence", "PolyDiM/src/FEM/MCC/2D/FEM_Triangle_RT_MCC_2D_LocalSpace.hpp:ComputeVelocityBasisFunctionsDivergenceValues"]}
{"id": "C83", "title": "Raviart-Thomas local space: quadratures and pressures", "statement": "The internal quadrature is exact on the triangle up to degree 2(k+1), the edge quadratures up to degree 2k+1 along the edge, the values tabulated at the quadrature points are the values computed at these points, and the pressure functions span the polynomials of degree at most k.", "quantifier": "every order, triangle, edge directions, polynomial", "why_tests_cant": "All triangles and polynomials.", "anchors": ["PolyDiM/src/FEM/MCC/2D/FEM_Triangle_RT_MCC_2D_LocalSpace.cpp:InternalQuadrature", "PolyDiM/src/FEM/MCC/2D/FEM_Triangle_RT_MCC_2D_LocalSpace.cpp:BoundaryQuadrature", "PolyDiM/src/FEM/MCC/2D/FEM_Triangle_RT_MCC_2D_LocalSpace.hpp:ComputePressureBasisFunctionsValues"]}
{"id": "C84", "title": "Assembler 2D: local matrix and right-hand side of a cell", "statement": "The local matrix of assemble_elliptic_operator is the quadrature of diffusion, advection and reaction, with test functions in the rows and trial functions in the columns, each term only if its coefficient is given; the stabilization is added exactly when diffusion is given and both spaces have the same size, scaled by the largest absolute entry of the tensor at the quadrature points. The local source is the quadrature of datum times test function.", "quantifier": "every pair of spaces, coefficients, number of quadrature points", "why_tests_cant": "Transposition of the tensor or of trial and test functions is invisible for symmetric coefficients and equal spaces.", "anchors": ["PolyDiM/src/PDETools/Assembler/assembler_PCC_2D_functions.cpp:assemble_elliptic_operator", "PolyDiM/src/PDETools/Assembler/assembler_PCC_2D_functions.cpp:assemble_source_term", "PolyDiM/src/PDETools/Assembler/assembler_PCC_2D_functions.cpp:assemble_diffusion_operator"]}
{"id": "C85", "title": "Assembler 2D with virtual elements: consistency", "statement": "With virtual elements the local matrix is consistent: for a constant tensor, tested with any function of the local space, it gives the boundary flux minus the integral of the divergence; for polynomial coefficients of degree at most 2 it is exact on polynomials; the right-hand side is exact on polynomials.", "quantifier": "every order, polygon, polynomial, virtual function", "why_tests_cant": "Polynomial consistency for all polygons and orders.", "anchors": ["PolyDiM/src/PDETools/Assembler/assembler_PCC_2D_functions.cpp:assemble_elliptic_operator", "PolyDiM/src/PDETools/Assembler/assembler_PCC_2D_functions.cpp:assemble_source_term", "PolyDiM/src/VEM/PCC/2D/VEM_PCC_2D_LocalSpace.cpp:CreateLocalSpace"]}
{"id": "C86", "title": "Assembler 2D with virtual elements: stability", "statement": "For a positive definite tensor, symmetric or not, the local diffusion matrix is positive semidefinite and its energy is zero on the degrees of freedom of the constants only.", "quantifier": "every order, polygon, tensor", "why_tests_cant": "Kernel of a matrix for all polygons.", "anchors": ["PolyDiM/src/PDETools/Assembler/assembler_PCC_2D_functions.cpp:assemble_elliptic_operator", "PolyDiM/src/VEM/PCC/VEM_PCC_Utilities.hpp:ComputeDofiDofiStabilizationMatrix"]}
{"id": "C87", "title": "Assembler 2D: Navier-Stokes linearisation", "statement": "The local right-hand side of assemble_NS_operators is the quadrature of the convective term (u . grad) u, the local matrix is its exact derivative: N(u+d) = N(u) + L(u) d + N(d), and L(u) u = 2 N(u).", "quantifier": "every space, every discrete speed and increment", "why_tests_cant": "An error in one of the eight blocks still lets Newton converge, only slower.", "anchors": ["PolyDiM/src/PDETools/Assembler/assembler_PCC_2D_functions.cpp:assemble_NS_operators", "PolyDiM/src/PDETools/Assembler/assembler_PCC_2D_functions.cpp:compute_NS_convective_lhs", "PolyDiM/src/PDETools/Assembler/assembler_PCC_2D_functions.cpp:compute_NS_convective_rhs"]}
{"id": "C88", "title": "Assembler 2D: error norms of a cell", "statement": "compute_error_L2 and compute_error_H1 return on a cell the quadratures of the squared difference and of the squares of both functions; for polynomials of degree at most the order they are the integrals.", "quantifier": "every order, polygon, polynomials", "why_tests_cant": "A wrong norm of the exact solution is only used for relative errors.", "anchors": ["PolyDiM/src/PDETools/Assembler/assembler_PCC_2D_functions.cpp:compute_error_L2", "PolyDiM/src/PDETools/Assembler/assembler_PCC_2D_functions.cpp:compute_error_H1"]}
{"id": "C89", "title": "Assembler 2D: every method can be assembled", "statement": "For every method accepted by CreateReferenceElement the local matrix and the local right-hand side of the assembler are computed.", "quantifier": "every method, space and datum", "why_tests_cant": "Only the methods used in the tests are exercised.", "anchors": ["PolyDiM/src/PDETools/LocalSpace/LocalSpace_PCC_2D.cpp:CreateReferenceElement", "PolyDiM/src/PDETools/LocalSpace/LocalSpace_PCC_2D.cpp:BasisFunctionsValues", "PolyDiM/src/PDETools/Assembler/assembler_PCC_2D_functions.cpp:assemble_elliptic_operator"]}
{"id": "C90", "title": "Assembler 2D: interpolation on the global degrees of freedom", "statement": "evaluate_function_on_dofs gives every vertex DOF the value of the function at the vertex, every edge DOF its value at the node of the edge, the same from both cells, and every internal DOF its scaled moment; for a polynomial of degree at most the order the local vector of every cell is the vector of degrees of freedom of the polynomial.", "quantifier": "every mesh of polygons, order, boundary condition, function", "why_tests_cant": "Agreement of the writes of neighbouring cells for all meshes and edge directions.", "anchors": ["PolyDiM/src/PDETools/Assembler/assembler_PCC_2D_functions.cpp:evaluate_function_on_dofs", "PolyDiM/src/PDETools/LocalSpace/LocalSpace_PCC_2D.cpp:EdgeDofsCoordinates"]}
{"id": "C91", "title": "Assembler 2D: Dirichlet values", "statement": "assemble_strong_solution gives every strong vertex and edge DOF of an active cell the Dirichlet datum of its marker at its point and leaves every other entry zero; if the datum is the trace of a function it is the strong part of the interpolation of that function.", "quantifier": "every mesh, order, boundary condition and datum", "why_tests_cant": "All combinations of markers and edge directions.", "anchors": ["PolyDiM/src/PDETools/Assembler/assembler_PCC_2D_functions.cpp:assemble_strong_solution"]}
{"id": "C92", "title": "Assembler 2D: Neumann term", "statement": "The vector of assemble_weak_term tested with any discrete function is the sum over the edges of type weak of the integral of the datum times the trace of the function, for data of degree at most the order along the edges.", "quantifier": "every mesh, order, test function and polynomial datum", "why_tests_cant": "Tests compare norms on a few meshes.", "anchors": ["PolyDiM/src/PDETools/Assembler/assembler_PCC_2D_functions.cpp:assemble_weak_term", "PolyDiM/src/PDETools/LocalSpace/LocalSpace_PCC_2D.cpp:BasisFunctionsValuesOnEdge"]}
{"id": "C93", "title": "Assembler 2D: patch test on the mesh", "statement": "For a polynomial of degree at most the order and a constant tensor, the system assembled from the elliptic operator, the source term, the Neumann term and the Dirichlet values of the exact solution is solved exactly by the degrees of freedom of the polynomial.", "quantifier": "every mesh of polygons, order, polynomial, tensor, split of the boundary", "why_tests_cant": "A patch test on one mesh misses orientation patterns and splits of the boundary.", "anchors": ["PolyDiM/src/PDETools/Assembler/assembler_PCC_2D_functions.cpp:assemble_elliptic_operator", "PolyDiM/src/PDETools/Assembler/assembler_PCC_2D_functions.cpp:assemble_source_term", "PolyDiM/src/PDETools/Assembler/assembler_PCC_2D_functions.cpp:assemble_weak_term", "PolyDiM/src/PDETools/Assembler/assembler_PCC_2D_functions.cpp:assemble_strong_solution"]}
{"id": "C94", "title": "Assembler 2D: solution at the vertices", "statement": "extract_solution_on_cell0Ds returns for every active vertex the value of its degree of freedom, free or strong; applied to an interpolated function it returns the function at the vertices.", "quantifier": "every mesh, boundary condition and vector", "why_tests_cant": "Index errors at strong vertices are hidden by zero data.", "anchors": ["PolyDiM/src/PDETools/Assembler/assembler_PCC_2D_functions.cpp:extract_solution_on_cell0Ds"]}
{"id": "C95", "title": "Assembler 2D: the discrete problem has one solution", "statement": "If the tensor is positive definite, the active cells cover the mesh and every vertex is linked through cells with a Dirichlet vertex, the assembled matrix of the free DOFs is positive definite, every right-hand side has exactly one solution, and for polynomial data that solution is the vector of degrees of freedom of the polynomial.", "quantifier": "every such mesh, order, tensor, right-hand side", "why_tests_cant": "Regularity of the matrix for all meshes.", "anchors": ["PolyDiM/src/PDETools/Assembler/assembler_PCC_2D_functions.cpp:assemble_elliptic_operator", "PolyDiM/src/PDETools/DOFs/DOFsManager.cpp:CreateDOFs"]}
{"id": "C96", "title": "Mixed VEM: the vector polynomial basis", "statement": "The rows of TkNabla are the gradients of the scaled monomials of degree 1 to k+1, the rows of TkBigOPlus are orthonormal and orthogonal to them, and both together are a basis of the vector polynomials of degree at most k.", "quantifier": "every order, centroid and diameter, every matrix of right singular vectors", "why_tests_cant": "A basis for one order and one element says nothing about others; a wrong split of the singular vectors shows only for some orders.", "anchors": ["PolyDiM/src/VEM/MCC/2D/VEM_MCC_2D_Velocity_LocalSpace.cpp:InitializeProjectorsComputation"]}
{"id": "C97", "title": "Mixed VEM: divergence", "statement": "For every field with polynomial normal components of degree at most k on the edges, the coefficients Vmatrix times the DOFs are the L2 projection of its divergence onto degree k; they are the divergence itself if that is a polynomial of degree at most k, in particular for vector polynomials.", "quantifier": "every polygon with a triangulation, every order, edge directions, integrable fields", "why_tests_cant": "Virtual functions are not known in closed form, tests only use polynomials.", "anchors": ["PolyDiM/src/VEM/MCC/2D/VEM_MCC_2D_Velocity_LocalSpace.cpp:ComputeDivergenceCoefficients", "PolyDiM/src/VEM/MCC/2D/VEM_MCC_2D_Velocity_LocalSpace.cpp:ComputeValuesOnBoundary"]}
{"id": "C98", "title": "Mixed VEM: L2 projection of the velocity", "statement": "For every field with polynomial normal components and polynomial divergence of degree at most k, Pi0k times the DOFs is the L2 projection onto the vector polynomials of degree at most k; vector polynomials are reproduced.", "quantifier": "every polygon with a triangulation, every order, every such field", "why_tests_cant": "As C97.", "anchors": ["PolyDiM/src/VEM/MCC/2D/VEM_MCC_2D_Velocity_LocalSpace.cpp:ComputeL2Projectors"]}
{"id": "C99", "title": "Mixed VEM: DOFs of polynomials", "statement": "Dmatrix times coefficients holds the DOFs of the vector polynomial, and Pi0k times Dmatrix is the identity.", "quantifier": "every element and order", "why_tests_cant": "All polynomials of all orders.", "anchors": ["PolyDiM/src/VEM/MCC/VEM_MCC_Utilities.hpp:ComputePolynomialBasisDofs"]}
{"id": "C100", "title": "Mixed VEM: stabilization", "statement": "The stabilization is symmetric, positive semidefinite, zero on DOFs of vector polynomials of degree at most k, and the mass form of the projections plus any positive multiple of it is positive definite.", "quantifier": "every element with positive measure, every order, every vector", "why_tests_cant": "Definiteness for all vectors.", "anchors": ["PolyDiM/src/VEM/MCC/VEM_MCC_Utilities.hpp:ComputeDofiDofiStabilizationMatrix"]}
{"id": "C101", "title": "Mixed VEM: values of velocity, divergence and pressure", "statement": "The values at quadrature points or given points combined with DOFs are the values of the projected field, those of the divergence the values of the polynomial of C97; the pressure functions of the local space are the scaled monomials of degree at most k and Hmatrix is their mass matrix.", "quantifier": "every element, order, vector and list of points", "why_tests_cant": "Index shifts between components cancel for symmetric data.", "anchors": ["PolyDiM/src/VEM/MCC/2D/VEM_MCC_2D_Velocity_LocalSpace.hpp:ComputeBasisFunctionsValues", "PolyDiM/src/VEM/MCC/VEM_MCC_Utilities.hpp:ComputeBasisFunctionsValues", "PolyDiM/src/VEM/MCC/2D/VEM_MCC_2D_Pressure_LocalSpace.hpp:ComputeBasisFunctionsValues", "PolyDiM/src/PDETools/LocalSpace/LocalSpace_MCC_2D.cpp:CreateLocalSpace"]}
{"id": "C102", "title": "Mixed VEM: edges", "statement": "On every edge the edge functions combined with the DOFs are the outward normal component at the edge quadrature points, integrals of it against polynomials of degree at most k+1 are exact, and EdgeDofs turns outward normal components at EdgeDofsCoordinates into the DOFs.", "quantifier": "every element, edge, direction, order and field", "why_tests_cant": "Orientation errors cancel for edges stored in the direction of the cell.", "anchors": ["PolyDiM/src/PDETools/LocalSpace/LocalSpace_MCC_2D.cpp:VelocityBasisFunctionsValuesOnEdges", "PolyDiM/src/PDETools/LocalSpace/LocalSpace_MCC_2D.cpp:EdgeQuadrature", "PolyDiM/src/PDETools/LocalSpace/LocalSpace_MCC_2D.cpp:EdgeDofsCoordinates", "PolyDiM/src/PDETools/LocalSpace/LocalSpace_MCC_2D.cpp:EdgeDofs"]}
{"id": "C103", "title": "Mixed assembler: the matrix", "statement": "The assembler of the mixed formulation succeeds on every mesh, and its matrices for free and strong degrees of freedom, applied to any vectors and tested with any vector, give the sum over the cells of the quadrature of the mixed form of the projected velocities, divergences and pressures, plus the stabilization times the largest absolute value of an entry of the inverse diffusion.", "quantifier": "every mesh of polygons, order, boundary condition, coefficients, vectors", "why_tests_cant": "The form is a statement about all vectors; a swapped block or sign changes only part of the entries.", "anchors": ["PolyDiM/examples/Elliptic_MCC_2D/src/assembler.cpp:Assemble"]}
{"id": "C104", "title": "Mixed assembler: boundary data and right-hand side", "statement": "solutionNeumann holds, for every strong degree of freedom, the component of the velocity along the normal of the edge of the mesh (not of the cell), and zero elsewhere. The right-hand side is the quadrature of the source against the pressure, minus the boundary integrals of the pressure datum against the outward normal component, minus the strong columns; the boundary integrals are exact for data of degree at most k+1.", "quantifier": "every mesh, order, boundary condition, data, test vector", "why_tests_cant": "A sign error on edges stored against the direction of the cell cancels on meshes with the usual orientation.", "anchors": ["PolyDiM/examples/Elliptic_MCC_2D/src/assembler.cpp:ComputeStrongTerm", "PolyDiM/examples/Elliptic_MCC_2D/src/assembler.cpp:ComputeWeakTerm", "PolyDiM/examples/Elliptic_MCC_2D/src/assembler.cpp:Assemble"]}
{"id": "C105", "title": "Mixed assembler: patch test", "statement": "Where the velocity of the continuous problem is a polynomial field of degree at most k and the pressure a polynomial of degree at most k+1 (k with advection or reaction), the degrees of freedom of the velocity and the L2 projection of the pressure solve the discrete system.", "quantifier": "every mesh, order, coefficients and polynomial solution", "why_tests_cant": "A test fixes one mesh and one polynomial.", "anchors": ["PolyDiM/examples/Elliptic_MCC_2D/src/assembler.cpp:Assemble"]}
{"id": "C106", "title": "Mixed assembler: unique solvability", "statement": "The discrete system has exactly one solution for every right-hand side if the inverse diffusion is positive definite, there is no advection, the reaction is nonnegative, and the reaction is positive or from every cell one reaches a boundary edge that is not strong.", "quantifier": "every mesh, order, coefficients, right-hand side", "why_tests_cant": "Regularity on all meshes cannot be sampled; the matrix is indefinite.", "anchors": ["PolyDiM/examples/Elliptic_MCC_2D/src/assembler.cpp:Assemble"]}
{"id": "C107", "title": "Mixed assembler: the computed solution is exact for polynomials", "statement": "Any vector that solves the assembled system has on every cell the degrees of freedom of the exact velocity, its projection and divergence are those of the exact velocity, and the pressure is the L2 projection of the exact pressure (equal to it if of degree at most k).", "quantifier": "every mesh, order and polynomial solution as in C105 and C106", "why_tests_cant": "Combines all meshes with all polynomial solutions.", "anchors": ["PolyDiM/examples/Elliptic_MCC_2D/src/assembler.cpp:Assemble"]}
{"id": "C108", "title": "Divergence-free element: the local space is created with the right sizes", "statement": "For order k >= 2 CreateLocalSpace of the full and of the reduced velocity space runs without a fault and all its matrices have one column per degree of freedom, 2kn on the boundary, (k-2)(k-1)/2 of type big-o-plus and k(k+1)/2-1 (reduced: none) of the divergence. For order 1 it fails on every polygon, since the boundary rule has no interior points.", "quantifier": "every polygon with n edges, order, star-shaped or not", "why_tests_cant": "The products of blocks of a dozen matrices must fit for every order and polygon.", "anchors": ["PolyDiM/src/VEM/DF_PCC/2D/VEM_DF_PCC_2D_Velocity_LocalSpace.cpp:CreateLocalSpace", "PolyDiM/src/VEM/DF_PCC/2D/VEM_DF_PCC_2D_Velocity_LocalSpace.cpp:InitializeProjectorsComputation", "PolyDiM/src/VEM/DF_PCC/2D/VEM_DF_PCC_2D_Reduced_Velocity_LocalSpace.cpp:CreateLocalSpace"]}
{"id": "C109", "title": "Divergence-free element: the divergence is exact", "statement": "The coefficients Vmatrix applied to the degrees of freedom of any velocity of the virtual space give its divergence, exactly, as a polynomial.", "quantifier": "every polygon, order >= 2, virtual velocity", "why_tests_cant": "The functions of the space are not known in closed form; tests can only use polynomials.", "anchors": ["PolyDiM/src/VEM/DF_PCC/2D/VEM_DF_PCC_2D_Velocity_LocalSpace.cpp:ComputeDivergenceCoefficients", "PolyDiM/src/VEM/DF_PCC/2D/VEM_DF_PCC_2D_Reduced_Velocity_LocalSpace.cpp:ComputeDivergenceCoefficients"]}
{"id": "C110", "title": "Divergence-free element: Pi0km2 is the L2 projection", "statement": "The polynomials of degree k-2 given by Pi0km2 have the same moments against all polynomials of degree at most k-2 as the components of the velocity.", "quantifier": "every polygon, order >= 2, virtual velocity", "why_tests_cant": "As C109.", "anchors": ["PolyDiM/src/VEM/DF_PCC/2D/VEM_DF_PCC_2D_Velocity_LocalSpace.cpp:ComputeCMatrixkm2", "PolyDiM/src/VEM/DF_PCC/2D/VEM_DF_PCC_2D_Velocity_LocalSpace.cpp:ComputeL2Projectors"]}
{"id": "C111", "title": "Divergence-free element: PiNabla is the energy projection", "statement": "The gradient of PiNabla of a velocity has the same products with the gradients of all polynomials of degree at most k as the gradient of the velocity (through its boundary values and moments), the mean on the boundary is kept, and polynomial fields (with constant divergence in the reduced space) are reproduced.", "quantifier": "every polygon, order >= 2, virtual velocity", "why_tests_cant": "As C109.", "anchors": ["PolyDiM/src/VEM/DF_PCC/2D/VEM_DF_PCC_2D_Velocity_LocalSpace.cpp:ComputePiNabla", "PolyDiM/src/VEM/DF_PCC/2D/VEM_DF_PCC_2D_Reduced_Velocity_LocalSpace.cpp:ComputePiNabla"]}
{"id": "C112", "title": "Divergence-free element: Pi0k is the enhanced L2 projection", "statement": "Pi0k has the moments of the velocity against gradients of polynomials of degree k+1 and against the complement up to degree k-2, and those of PiNabla against the rest of the complement; polynomial fields are reproduced.", "quantifier": "every polygon, order >= 2, virtual velocity", "why_tests_cant": "As C109.", "anchors": ["PolyDiM/src/VEM/DF_PCC/2D/VEM_DF_PCC_2D_Velocity_LocalSpace.cpp:ComputeCMatrixkm2", "PolyDiM/src/VEM/DF_PCC/2D/VEM_DF_PCC_2D_Velocity_LocalSpace.cpp:ComputeL2Projectors"]}
{"id": "C113", "title": "Divergence-free element: Pi0km1Der projects the derivatives", "statement": "The projections of the derivatives have the same moments against all polynomials of degree at most k-1 as the derivatives of the components, and are the derivatives for polynomial fields.", "quantifier": "every polygon, order >= 2, virtual velocity", "why_tests_cant": "As C109.", "anchors": ["PolyDiM/src/VEM/DF_PCC/2D/VEM_DF_PCC_2D_Velocity_LocalSpace.cpp:ComputeL2ProjectorsOfDerivatives"]}
{"id": "C114", "title": "Divergence-free element: DOFs of polynomials and stabilization", "statement": "Dmatrix gives the degrees of freedom of polynomial fields. The dofi-dofi stabilization is symmetric and positive semidefinite, vanishes on polynomial fields (reduced: with constant divergence) and only on degrees of freedom of polynomial fields.", "quantifier": "every polygon of positive measure, order >= 2, vector of DOFs", "why_tests_cant": "Definiteness on a quotient space cannot be sampled.", "anchors": ["PolyDiM/src/VEM/DF_PCC/2D/VEM_DF_PCC_2D_Velocity_LocalSpace.cpp:ComputePolynomialsDofs", "PolyDiM/src/VEM/DF_PCC/2D/VEM_DF_PCC_2D_Velocity_LocalSpace.hpp:ComputeDofiDofiStabilizationMatrix"]}
{"id": "C115", "title": "Divergence-free element: values of the projections", "statement": "The value functions return, at the quadrature points and at any points, the values of Pi0k, Pi0km2, of the derivatives of PiNabla and of Pi0km1Der, and the values of the divergence; the other types are refused.", "quantifier": "every polygon, order >= 2, points, DOFs, type of projection", "why_tests_cant": "All types, points and DOFs.", "anchors": ["PolyDiM/src/VEM/DF_PCC/2D/VEM_DF_PCC_2D_Velocity_LocalSpace.hpp:ComputeBasisFunctionsValues", "PolyDiM/src/VEM/DF_PCC/2D/VEM_DF_PCC_2D_Velocity_LocalSpace.hpp:ComputeBasisFunctionsDivergenceValues"]}
{"id": "C116", "title": "Divergence-free element: the pressure space", "statement": "The pressure space consists of the monomials of degree at most k-1 (reduced: the constants); its values are theirs, and Hmatrix is their mass matrix.", "quantifier": "every polygon, order >= 2, points", "why_tests_cant": "All polygons, orders and points.", "anchors": ["PolyDiM/src/VEM/DF_PCC/2D/VEM_DF_PCC_2D_Pressure_LocalSpace.cpp:CreateLocalSpace", "PolyDiM/src/VEM/DF_PCC/2D/VEM_DF_PCC_2D_Pressure_LocalSpace.hpp:ComputeBasisFunctionsValues"]}
{"id": "C117", "title": "Divergence-free element: the DOFs are unisolvent", "statement": "On a polygon whose boundary does not meet itself every vector of numbers is the vector of DOFs of an enhanced velocity (one whose moments against the orthogonal fields of degree k-1 and k are those of its energy projection). The DOFs determine the divergence, the values on the boundary and, for enhanced velocities, all moments up to degree k.", "quantifier": "every polygon, order >= 2, vector of DOFs", "why_tests_cant": "A count of DOFs does not show that every vector belongs to a field, nor that two fields with the same DOFs agree.", "anchors": ["PolyDiM/src/VEM/DF_PCC/2D/VEM_DF_PCC_2D_Velocity_LocalSpace.cpp:CreateLocalSpace", "PolyDiM/src/VEM/DF_PCC/2D/VEM_DF_PCC_2D_Velocity_LocalSpace.cpp:ComputeL2Projectors"]}
{"id": "C118", "title": "Brinkman assembler: matrix and number of unknowns", "statement": "For all vectors of free, strong and test values the product with the assembled matrices is the sum over the cells of the quadrature of viscosity times gradients, inverse diffusion times projected velocities, minus pressure times divergence, plus divergence times test pressure, plus the two stabilizations with the largest coefficient. Exactly if no part of the boundary is open there is one more unknown, which multiplies the mean of the pressure.", "quantifier": "every polygonal mesh, order >= 2, full and reduced element, coefficients, boundary conditions, vectors", "why_tests_cant": "All meshes, markers, orders and coefficients; four fields with offsets are combined in one matrix.", "anchors": ["PolyDiM/examples/Brinkman_DF_PCC_2D/src/assembler.cpp:Assemble", "PolyDiM/examples/Brinkman_DF_PCC_2D/main.cpp", "PolyDiM/src/PDETools/LocalSpace/LocalSpace_DF_PCC_2D.cpp:SetMeshDOFsInfo"]}
{"id": "C119", "title": "Brinkman assembler: strong values and right-hand side", "statement": "Every vertex, edge and cell has for each velocity component the condition which the map of that component gives to its marker. solutionDirichlet holds at every strong DOF of a component the datum of that component at its vertex or edge node with the marker of that entity, and zero elsewhere. The right-hand side tested with any vector is the sum over cells of the quadrature of source times projected velocity and divergence datum times pressure, minus the boundary terms of the weak edges, minus the strong columns times solutionDirichlet; for polynomial data the boundary terms are the integrals.", "quantifier": "every polygonal mesh, order >= 2, full and reduced element, data, test vectors", "why_tests_cant": "All meshes, markers and data.", "anchors": ["PolyDiM/examples/Brinkman_DF_PCC_2D/src/assembler.cpp:ComputeStrongTerm", "PolyDiM/examples/Brinkman_DF_PCC_2D/src/assembler.cpp:ComputeWeakTerm", "PolyDiM/examples/Brinkman_DF_PCC_2D/src/assembler.cpp:Assemble"]}
{"id": "C120", "title": "Brinkman assembler: the computed velocity has exactly the prescribed divergence", "statement": "Where the divergence datum is a polynomial that belongs to the pressures, every virtual velocity with the computed DOFs on a cell has this polynomial as its divergence, not only in the mean; on a boundary without open part the datum minus the multiplier. In particular velocities of incompressible flows are pointwise divergence-free.", "quantifier": "every polygonal mesh, order >= 2, full and reduced element, coefficients, boundary conditions, solutions of the assembled system", "why_tests_cant": "All meshes, orders and data; the virtual velocities are not computed by the code.", "anchors": ["PolyDiM/examples/Brinkman_DF_PCC_2D/src/assembler.cpp:Assemble", "PolyDiM/src/VEM/DF_PCC/2D/VEM_DF_PCC_2D_Velocity_LocalSpace.cpp:ComputeDivergenceCoefficients"]}
{"id": "C121", "title": "Brinkman assembler: patch test", "statement": "If a vector polynomial of degree at most the order, with constant viscosity, any inverse diffusion and a polynomial pressure solve the Brinkman problem with the data of the test then there is a vector that holds the velocity, the projections of the pressure and a zero multiplier, and every such vector solves the assembled system.", "quantifier": "every polygonal mesh, order >= 2, full and reduced element, polynomial velocities and pressures, mixed boundary conditions per component", "why_tests_cant": "All meshes, orders and polynomials; in floating point only residuals of size eps are visible.", "anchors": ["PolyDiM/examples/Brinkman_DF_PCC_2D/src/assembler.cpp:Assemble", "PolyDiM/examples/Brinkman_DF_PCC_2D/src/assembler.cpp:ComputeStrongTerm", "PolyDiM/examples/Brinkman_DF_PCC_2D/src/assembler.cpp:ComputeWeakTerm"]}
{"id": "C122", "title": "Brinkman assembler: the assembled system has exactly one solution", "statement": "With positive viscosity and an inverse diffusion that is not negative, the assembled matrix is regular: for every right-hand side there is exactly one solution. The velocity must be held by a positive inverse diffusion or by strong vertices in every connected part, and the pressure by a way through passable edges to an open edge or, on a boundary without open part, by the multiplier.", "quantifier": "every polygonal mesh, order >= 2, full and reduced element, coefficients, boundary conditions per component, right-hand sides", "why_tests_cant": "All meshes, orders and coefficients; the inf-sup condition behind it is not visible in single runs.", "anchors": ["PolyDiM/examples/Brinkman_DF_PCC_2D/src/assembler.cpp:Assemble", "PolyDiM/examples/Brinkman_DF_PCC_2D/main.cpp"]}
{"id": "C123", "title": "Brinkman assembler: polynomial flows are computed exactly", "statement": "If a vector polynomial of degree at most the order and a polynomial pressure solve the Brinkman problem with the data of the test then a vector solves the assembled system if and only if it holds the DOFs of this velocity, the projections of this pressure and a zero multiplier.", "quantifier": "every polygonal mesh, order >= 2, full and reduced element, polynomial flows, mixed boundary conditions per component", "why_tests_cant": "All meshes, orders and polynomials.", "anchors": ["PolyDiM/examples/Brinkman_DF_PCC_2D/src/assembler.cpp:Assemble", "PolyDiM/examples/Brinkman_DF_PCC_2D/src/assembler.cpp:ComputeStrongTerm", "PolyDiM/examples/Brinkman_DF_PCC_2D/src/assembler.cpp:ComputeWeakTerm"]}
{"id": "C124", "title": "ZFEM: CreateMaps numbers the nodes without gaps or clashes", "statement": "CreateMaps numbers the nodes of the triangles around the centre of a polygon: every entry of local_to_total is written, two entries are equal exactly when they stand for the same node, and the numbers 0, ..., NumTotalBasisFunctions-1 are all used. Vertices come first, then edge nodes; the first NumBasisFunctions numbers contain no spoke node, contain the centre exactly from order 3 on, and their inner nodes are spread evenly over the triangles.", "quantifier": "every order >= 1, every number of vertices", "why_tests_cant": "Nested interleaving loops with counters; only a few orders and polygons can be run.", "anchors": ["PolyDiM/src/ZFEM/PCC/ZFEM_PCC_Utilities.hpp:CreateMaps"]}
{"id": "C125", "title": "ZFEM: the nodes of the element sit where geometry says", "statement": "FinerNodes contains every node of the triangles around the centre once, at its geometric position: vertices, k-1 equidistant points on every edge (in the direction of the mesh) and on every spoke, the lattice points inside every triangle. Nodes shared by triangles get the same position from both. The DOF nodes come first.", "quantifier": "every order >= 1, every polygon with at least 3 vertices cut into triangles around a point, every choice of edge directions", "why_tests_cant": "Needs all orders and polygons; tests compare single elements.", "anchors": ["PolyDiM/src/ZFEM/PCC/2D/ZFEM_PCC_2D_LocalSpace.cpp:PolygonFineNodes", "PolyDiM/src/ZFEM/PCC/ZFEM_PCC_Utilities.hpp:CreateMaps"]}
{"id": "C126", "title": "ZFEM: the weights of the virtual nodes reproduce polynomials", "statement": "If a polynomial of degree at most k is determined by its values at the DOF nodes, CreateLocalSpace succeeds and the weights of every virtual node express the value there of every polynomial of degree at most k by its values at the DOF nodes. The condition holds when the edges lie on at least k+1 different lines, from order 3 on at least k. It fails for order 4 on a triangle with a hanging vertex: there no weights exist and the factorized matrix is singular.", "quantifier": "every order >= 1, every polygon cut into triangles around a point, every polynomial of degree <= k, every solver that is exact on symmetric positive definite matrices", "why_tests_cant": "Statement about all polynomials and polygons; the failing polygon is not among the test cases.", "anchors": ["PolyDiM/src/ZFEM/PCC/ZFEM_PCC_Utilities.hpp:ComputeMinimizerSumOfSquaredWeightsMonomials", "PolyDiM/src/ZFEM/PCC/2D/ZFEM_PCC_2D_LocalSpace.cpp:CreateLocalSpace"]}
{"id": "C127", "title": "ZFEM: the weights have the least sum of squares", "statement": "Among all weights that reproduce the polynomials of degree at most k at a virtual node, the computed ones are the only ones with the smallest sum of squares.", "quantifier": "as C126, every competing weight vector", "why_tests_cant": "Minimality over all weight vectors.", "anchors": ["PolyDiM/src/ZFEM/PCC/ZFEM_PCC_Utilities.hpp:ComputeMinimizerSumOfSquaredWeightsMonomials"]}
{"id": "C128", "title": "ZFEM: values and derivatives of the basis reproduce polynomials", "statement": "The combination of the basis functions with the values of a polynomial of degree at most k at the DOF nodes is the polynomial, and the same combination of the derivatives is its derivative: in ComputeBasisFunctionsValues and ComputeBasisFunctionsDerivativeValues at arbitrary points per triangle, and in the values that CreateLocalSpace stores for the quadrature points.", "quantifier": "as C126, every list of points per triangle", "why_tests_cant": "Statement about all polynomials, points and polygons.", "anchors": ["PolyDiM/src/ZFEM/PCC/ZFEM_PCC_Utilities.hpp:ComputeBasisFunctionsValues", "PolyDiM/src/ZFEM/PCC/ZFEM_PCC_Utilities.hpp:ComputeFEMBasisFunctionsValues", "PolyDiM/src/ZFEM/PCC/2D/ZFEM_PCC_2D_LocalSpace.hpp:ComputeBasisFunctionsDerivativeValues", "PolyDiM/src/ZFEM/PCC/2D/ZFEM_PCC_2D_LocalSpace.cpp:CreateLocalSpace"]}
{"id": "C129", "title": "ZFEM: the basis is Lagrangian and conforming", "statement": "At the DOF nodes basis function i is 1 at node i and 0 at the others. On an edge of the polygon a function depends only on the DOFs of the edge and its ends, through the boundary functions of ComputeValuesOnEdge in the direction of the mesh, so neighbouring elements agree. Inside the polygon the functions are continuous across the spokes.", "quantifier": "as C126, every point of every edge and spoke, every vector of DOFs", "why_tests_cant": "Continuity at all points of edges and spokes.", "anchors": ["PolyDiM/src/ZFEM/PCC/2D/ZFEM_PCC_2D_LocalSpace.hpp:ComputeBasisFunctionsValues", "PolyDiM/src/ZFEM/PCC/2D/ZFEM_PCC_2D_LocalSpace.hpp:ComputeValuesOnEdge"]}
{"id": "C130", "title": "ZFEM: element matrices are integrals, and stable without stabilization", "statement": "The functions of the ZFEM element are polynomials of degree at most k on the triangles around the centre. In the advection-diffusion example without SUPG the element matrix is the exact integral of kappa grad u grad v + (beta grad u) v and the right-hand side that of f v, for polynomial data. For positive diffusion and no advection the matrix is symmetric, positive semidefinite, and its energy vanishes exactly for equal DOFs, though the stabilization of the method is zero.", "quantifier": "every order >= 1, every polygon cut into triangles around a point whose DOF nodes determine polynomials of degree k, every vector of DOFs", "why_tests_cant": "Exactness and definiteness for all polygons and DOF vectors.", "anchors": ["PolyDiM/src/ZFEM/PCC/2D/ZFEM_PCC_2D_LocalSpace.cpp:CreateLocalSpace", "PolyDiM/examples/Elliptic_PCC_2D/src/assembler.cpp:Assemble"]}
{"id": "C131", "title": "Elliptic_PCC_2D: the element matrix with and without SUPG", "statement": "On a cell the matrix is the form of diffusion plus advection of the discrete functions and their gradients by the quadrature, plus the largest diffusion times the stabilization; the right-hand side is the source against the functions. With SUPG and advection b > 0 (the integral of |beta|^2) on the cell the terms of the residual -kappa Lap u + beta grad u and of the source against beta grad v are added with the factor tau = h/b min(1, C h b/(2k)), which lies between 0 and C h^2/(2k), and tau b times the stabilization. With SUPG and no advection on the cell tau is not a number; a method without Laplacian throws.", "quantifier": "every cell, every space whose functions succeed with matching sizes, every data and configuration", "why_tests_cant": "Needs all spaces, data and vectors of DOFs; runs only see one error norm.", "anchors": ["PolyDiM/examples/Elliptic_PCC_2D/src/assembler.cpp:Assemble", "PolyDiM/examples/Elliptic_PCC_2D/src/assembler.cpp:148-262"]}
{"id": "C132", "title": "Elliptic_PCC_2D: SUPG is consistent on polynomials", "statement": "With the VEM, if the source is -kappa Lap q + beta grad q at the quadrature points for a polynomial q of degree at most k, the residual of the DOFs of q in the element system is the same with and without SUPG. For the source of the differential equation with variable kappa, which contains grad kappa grad q, it is not: there is a cell, data and q where the residuals differ.", "quantifier": "every polygon, every order >= 1, every polynomial of degree <= k, every advection that does not vanish on the cell", "why_tests_cant": "Statement about all polynomials; the test problems have smooth data and only the rate of convergence is looked at.", "anchors": ["PolyDiM/examples/Elliptic_PCC_2D/src/assembler.cpp:Assemble"]}
{"id": "C133", "title": "Elliptic_PCC_2D: patch test", "statement": "For constant diffusion, any advection field and the data of a polynomial q of degree at most k (source, values on the Dirichlet boundary, fluxes on the Neumann boundary) the system made by Assemble, the strong part moved to the right-hand side, is solved by the DOFs of q; solutionDirichlet contains the strong DOFs of q. This holds without SUPG, and with SUPG if the advection does not vanish on a cell.", "quantifier": "every conforming polygonal mesh, every order >= 1, every polynomial of degree <= k, every choice of Dirichlet and Neumann edges", "why_tests_cant": "All meshes and polynomials; the Patch_Test of the example has no advection, and with SUPG it yields not-a-number.", "anchors": ["PolyDiM/examples/Elliptic_PCC_2D/src/assembler.cpp:Assemble", "PolyDiM/examples/Elliptic_PCC_2D/src/assembler.cpp:ComputeStrongTerm", "PolyDiM/examples/Elliptic_PCC_2D/src/assembler.cpp:ComputeWeakTerm"]}
{"id": "C134", "title": "VEM Ortho: the polynomial basis is orthonormal on the element", "statement": "In the VEM space with orthonormal polynomials, the rows of Qmatrix are the coefficients of polynomials that are orthonormal in L2 of the element; the first (a+1)(a+2)/2 of them span the polynomials of degree at most a; QmatrixInv is the inverse of Qmatrix. The space is always computed without fault. This needs quadrature weights that are not negative: with a negative weight the square root is not a number although the space over monomials is computed.", "quantifier": "every order >= 1, every polygon with a triangulation of positive area, every triangle rule with non-negative weights exact to degree 2k, every Gram-Schmidt, triangular inversion and linear solver that is exact", "why_tests_cant": "Orthonormality on all polygons and orders, in exact arithmetic.", "anchors": ["PolyDiM/src/Utilities/Monomials_Utilities.hpp:MGSOrthonormalize", "PolyDiM/src/VEM/PCC/2D/VEM_PCC_2D_Ortho_LocalSpace.cpp:InitializeProjectorsComputation", "PolyDiM/src/VEM/PCC/2D/VEM_PCC_2D_Ortho_LocalSpace.cpp:CreateLocalSpace"]}
{"id": "C135", "title": "VEM Ortho: the projections are those of the space over monomials", "statement": "For every integrable function, the energy projection and the projections of the derivatives computed by the Ortho space from its DOFs are the same polynomials as those of the space over monomials computed from its DOFs. The L2 projection onto degree k has the moments of the function up to degree k-2 and those of the energy projection against the orthogonal complement; the one onto degree k-1 is its L2 projection. All of them reproduce polynomials.", "quantifier": "every order >= 1, every polygon with a triangulation of positive area, every triangle rule with non-negative weights exact to degree 2k, every Gram-Schmidt, triangular inversion and linear solver that is exact, every integrable function, every polynomial of degree at most k", "why_tests_cant": "Equality of two computations for all functions and elements.", "anchors": ["PolyDiM/src/VEM/PCC/2D/VEM_PCC_2D_Ortho_LocalSpace.cpp:ComputePiNabla", "PolyDiM/src/VEM/PCC/2D/VEM_PCC_2D_Ortho_LocalSpace.cpp:ComputeL2ProjectorsOfDerivatives", "PolyDiM/src/VEM/PCC/2D/VEM_PCC_2D_Ortho_LocalSpace.hpp:ComputeL2Projectors"]}
{"id": "C136", "title": "VEM Ortho: DOF matrix and stabilization", "statement": "Column j of Dmatrix holds the DOFs of the j-th polynomial of the orthonormal basis. The dofi-dofi stabilization is symmetric, its quadratic form is 1 or the measure times the sum of squares of what projecting and taking DOFs changes, and it vanishes on the DOFs of polynomials of degree at most k; other projection types are refused.", "quantifier": "every order >= 1, every polygon with a triangulation of positive area, every triangle rule with non-negative weights exact to degree 2k, every Gram-Schmidt, triangular inversion and linear solver that is exact, every vector of DOFs, every polynomial of degree at most k", "why_tests_cant": "A statement on all vectors and elements.", "anchors": ["PolyDiM/src/VEM/PCC/2D/VEM_PCC_2D_Ortho_LocalSpace.cpp:ComputePolynomialsDofs", "PolyDiM/src/VEM/PCC/2D/VEM_PCC_2D_Ortho_LocalSpace.hpp:ComputeDofiDofiStabilizationMatrix"]}
{"id": "C137", "title": "VEM Ortho: evaluation of the projections", "statement": "At any points, and at the quadrature points of the element, the matrices of values and derivatives applied to a vector of DOFs are the values of the corresponding projections and of their derivatives, for every type of projection that is supported; the values of the Laplacian are the divergence of the projected gradient, the scaled polynomials are the basis of degree at most k-2 over the measure; other types are refused.", "quantifier": "every order >= 1, every polygon with a triangulation of positive area, every triangle rule with non-negative weights exact to degree 2k, every Gram-Schmidt, triangular inversion and linear solver that is exact, every list of points, every vector of DOFs", "why_tests_cant": "A statement on all points and vectors.", "anchors": ["PolyDiM/src/VEM/PCC/2D/VEM_PCC_2D_Ortho_LocalSpace.hpp:ComputeBasisFunctionsValues", "PolyDiM/src/VEM/PCC/2D/VEM_PCC_2D_Ortho_LocalSpace.hpp:ComputeBasisFunctionsDerivativeValues", "PolyDiM/src/VEM/PCC/2D/VEM_PCC_2D_Ortho_LocalSpace.hpp:ComputeBasisFunctionsLaplacianValues", "PolyDiM/src/VEM/PCC/2D/VEM_PCC_2D_Ortho_LocalSpace.hpp:ComputeScaledPolynomialsValues"]}
{"id": "C138", "title": "VEM analysis: the reported numbers detect every deviation", "statement": "Each error that VEM_PCC_PerformanceAnalysis reports is zero if and only if the matrix identity it stands for holds entry by entry: projections times Dmatrix are the identity, projected derivatives of the basis are the derivatives of the basis, the stabilization vanishes on Dmatrix, H = C D, G = B D, and E D is the derivative matrix times H.", "quantifier": "every local space whose matrices have the sizes of an element, every order >= 1, every stabilization matrix", "why_tests_cant": "An equivalence over all matrices.", "anchors": ["PolyDiM/src/VEM/PCC/VEM_PCC_PerformanceAnalysis.hpp:Compute"]}
{"id": "C139", "title": "VEM analysis: no error for the space over monomials", "statement": "For VEM_PCC in two dimensions, ComputePerformance runs without fault and all errors it reports are zero, ErrorHED included.", "quantifier": "every order >= 1, every polygon with a triangulation of positive area, every triangle rule exact to degree 2k, every linear solver that is exact", "why_tests_cant": "Holds for all elements and orders in exact arithmetic; a test sees rounding errors.", "anchors": ["PolyDiM/src/VEM/PCC/VEM_PCC_PerformanceAnalysis.hpp:Compute", "PolyDiM/src/PDETools/LocalSpace/LocalSpace_PCC_2D.cpp:ComputePerformance"]}
{"id": "C140", "title": "VEM analysis: no error for the space with an orthonormal basis", "statement": "For VEM_PCC_Ortho in two dimensions, ComputePerformance runs without fault and all errors it reports are zero.", "quantifier": "every order >= 1, every polygon with a triangulation of positive area, every triangle rule exact to degree 2k, every linear solver that is exact, triangle rules with non-negative weights", "why_tests_cant": "Holds for all elements and orders in exact arithmetic; a test sees rounding errors.", "anchors": ["PolyDiM/src/VEM/PCC/VEM_PCC_PerformanceAnalysis.hpp:Compute", "PolyDiM/src/PDETools/LocalSpace/LocalSpace_PCC_2D.cpp:ComputePerformance"]}
{"id": "C141", "title": "ZFEM analysis: the space reproduces monomials and their derivatives", "statement": "With positive weights an entry of the errors of ZFEM_PCC_PerformanceAnalysis is zero if and only if the compared matrices agree in that column. For every local ZFEM space the analysis runs without fault, and ConsistencyError and DerivativesConsistencyError are zero for every monomial up to the order.", "quantifier": "every order >= 1, every polygon that is a fan around its kernel point, every unisolvent set of nodes, every triangle rule exact to degree 2k, every linear solver that is exact", "why_tests_cant": "Holds for all elements and orders in exact arithmetic.", "anchors": ["PolyDiM/src/ZFEM/PCC/ZFEM_PCC_PerformanceAnalysis.hpp:Compute2D", "PolyDiM/src/PDETools/LocalSpace/LocalSpace_PCC_2D.cpp:ComputePerformance"]}
{"id": "C142", "title": "Elliptic 1D: element matrix and vector are the forms of the equation", "statement": "On every segment the matrix and the vector that Assemble builds are, for polynomials of degree at most k given by their nodal values, the quadrature of diffusion times the products of the tangential derivatives plus reaction times the product of the values, and of source times value. With coefficients constant on the segment and a rule of degree 2k the matrix is the integral.", "quantifier": "every order >= 1, equispaced or given nodes, every mesh of segments in space with positive lengths, every boundary description without segments of strong type, every rule with nodes inside and exact for degree 2k; all coefficient functions", "why_tests_cant": "A statement about all polynomials of all degrees on all segments.", "anchors": ["PolyDiM/examples/Elliptic_PCC_1D/src/assembler.cpp:Assemble", "PolyDiM/src/FEM/PCC/1D/FEM_PCC_1D_LocalSpace.cpp:MapDerivativeValues"]}
{"id": "C143", "title": "Elliptic 1D: patch test", "statement": "A solution that is a polynomial of degree at most k on every segment, with coefficients constant on every segment, balanced fluxes at inner vertices and the given flux (in the direction of the segment) at weak vertices, solves the assembled system row by row; Dirichlet values are its values. Patch_Test and Rotated_Patch_Test of the example are such solutions on every mesh along the first axis.", "quantifier": "every order >= 1, equispaced or given nodes, every mesh of segments in space with positive lengths, every boundary description without segments of strong type, every rule with nodes inside and exact for degree 2k; every such solution, different coefficients per segment allowed", "why_tests_cant": "Tests run a few orders and meshes and compare up to a tolerance.", "anchors": ["PolyDiM/examples/Elliptic_PCC_1D/src/assembler.cpp:Assemble", "PolyDiM/examples/Elliptic_PCC_1D/src/assembler.cpp:ComputeStrongTerm", "PolyDiM/examples/Elliptic_PCC_1D/src/assembler.cpp:ComputeWeakTerm", "PolyDiM/examples/Elliptic_PCC_1D/src/test_definition.hpp:Patch_Test", "PolyDiM/examples/Elliptic_PCC_1D/src/test_definition.hpp:Rotated_Patch_Test"]}
{"id": "C144", "title": "Elliptic 1D: exactly one solution, and it is reported as exact", "statement": "With positive diffusion, nonnegative reaction and nonnegative weights the assembled system has exactly one solution when every connected piece has a vertex of strong type or a segment with positive reaction. For the solutions of C143 that solution is the vector of nodal values, and PostProcessSolution reports residual zero, the exact values at the vertices, L2 error zero, and H1 error zero where the third component of derivative or tangent vanishes.", "quantifier": "every order >= 1, equispaced or given nodes, every mesh of segments in space with positive lengths, every boundary description without segments of strong type, every rule with nodes inside and exact for degree 2k; all coefficient functions with these signs", "why_tests_cant": "Uniqueness is not observable by running one solver; exact zeros are not visible in floating point.", "anchors": ["PolyDiM/examples/Elliptic_PCC_1D/src/assembler.cpp:Assemble", "PolyDiM/examples/Elliptic_PCC_1D/src/assembler.cpp:PostProcessSolution"]}
{"id": "C145", "title": "Elliptic 1D: the reported errors are the errors of the discrete function", "statement": "On every segment the L2 and H1 errors of PostProcessSolution are the quadrature of the squared difference of values and of tangential derivatives between the function of the DOFs and the exact solution, and the norms are the exact integrals.", "quantifier": "every order >= 1, equispaced or given nodes, every mesh of segments in space with positive lengths, every boundary description without segments of strong type, every rule with nodes inside and exact for degree 2k; all vectors of DOFs, all exact solutions", "why_tests_cant": "The example runs only on segments along the first axis, where the missing component is zero.", "anchors": ["PolyDiM/examples/Elliptic_PCC_1D/src/assembler.cpp:PostProcessSolution"]}
{"id": "C146", "title": "Heat equation: element matrices, exactness and kernel of the mass matrix", "statement": "On every polygon StaticAssemble builds symmetric stiffness and mass matrices. The mass matrix applied to the DOFs of a polynomial of degree at most k is the integral against the L2 projection of degree k - 1. Its energy is never negative and is zero exactly on the DOFs of the polynomials of degree at most k orthogonal to those of degree k - 1. Hence it is singular on every element, and explicit Euler (theta = 0, the default of the configuration) has a singular matrix whenever such a polynomial exists for all cells at once and no DOF is fixed.", "quantifier": "every order k >= 1, every polygon with a valid triangulation, every polygonal mesh, exact quadrature tables, every solver that solves regular systems", "why_tests_cant": "A kernel vector depends on the polygon; a run with a sparse LU factorization may return garbage silently.", "anchors": ["PolyDiM/examples/Parabolic_PCC_2D/src/assembler.cpp:StaticAssemble", "PolyDiM/examples/Parabolic_PCC_2D/src/main.cpp:main"]}
{"id": "C147", "title": "Heat equation: patch test in space and time", "statement": "If the solution is a polynomial of degree at most k in space and of degree 1 in time (degree 2 for theta = 1/2), with constant diffusion, its source, its Dirichlet and Neumann data and its initial values, then after every step with step length dt the computed vectors of free and fixed DOFs are exactly the DOFs of the solution at that time.", "quantifier": "every order k >= 1, every polygon with a valid triangulation, every polygonal mesh, exact quadrature tables, every solver that solves regular systems; every number of steps, all boundary descriptions with consistent Dirichlet edges, all theta > 0 and dt > 0", "why_tests_cant": "Tests run a few steps on a few meshes and compare up to a tolerance.", "anchors": ["PolyDiM/examples/Parabolic_PCC_2D/src/assembler.cpp:ComputeInitalCondition", "PolyDiM/examples/Parabolic_PCC_2D/src/assembler.cpp:ComputeStrongTerm", "PolyDiM/examples/Parabolic_PCC_2D/src/assembler.cpp:ComputeWeakTerm", "PolyDiM/examples/Parabolic_PCC_2D/src/assembler.cpp:StaticAssemble", "PolyDiM/examples/Parabolic_PCC_2D/src/assembler.cpp:Assemble", "PolyDiM/examples/Parabolic_PCC_2D/src/main.cpp:main"]}
{"id": "C148", "title": "Heat equation: every step has exactly one solution", "statement": "With constant positive diffusion and dt theta > 0 the form of the matrix of the steps is positive definite whatever the boundary conditions, also for pure Neumann conditions; stiffness and mass are symmetric and not negative. Hence every step has exactly one solution.", "quantifier": "every order k >= 1, every polygon with a valid triangulation, every polygonal mesh, exact quadrature tables, every solver that solves regular systems; all boundary descriptions", "why_tests_cant": "Definiteness is a statement about all vectors.", "anchors": ["PolyDiM/examples/Parabolic_PCC_2D/src/assembler.cpp:StaticAssemble", "PolyDiM/examples/Parabolic_PCC_2D/src/main.cpp:main"]}
{"id": "C149", "title": "Heat equation: energy balance and unconditional stability", "statement": "With homogeneous Dirichlet values every step satisfies M(u1,u1) - M(u0,u0) + (2 theta - 1) M(u1-u0,u1-u0) + 2 dt A(w,w) = 2 dt (w, theta F1 + (1-theta) F0), w = theta u1 + (1-theta) u0. Without loads and for theta >= 1/2 the energy of the mass matrix does not grow from step to step, for every dt > 0.", "quantifier": "every order k >= 1, every polygon with a valid triangulation, every polygonal mesh, exact quadrature tables, every solver that solves regular systems; all states, all numbers of steps", "why_tests_cant": "Stability for all time steps cannot be sampled.", "anchors": ["PolyDiM/examples/Parabolic_PCC_2D/src/main.cpp:main", "PolyDiM/examples/Parabolic_PCC_2D/src/assembler.cpp:StaticAssemble"]}
{"id": "C150", "title": "Heat equation: the time values are dt apart", "statement": "create_time_steps returns values from the first to the last time, spaced by the step length dt that main uses in the matrices.", "quantifier": "every time domain, every number of steps", "why_tests_cant": "The example uses the time domain [0, 1] only.", "anchors": ["PolyDiM/examples/Parabolic_PCC_2D/src/program_utilities.cpp:create_time_steps", "PolyDiM/examples/Parabolic_PCC_2D/src/main.cpp:main"]}
{"id": "C151", "title": "Elasticity: element matrix, exactness and rigid motions", "statement": "On every polygon the element system of the elasticity example has 2N rows, first the N DOFs of the first component, then those of the second. The matrix is symmetric and is 2 mu eps:eps + lambda div div of the projected gradients, plus the largest |mu| times the stabilization per component. Applied to polynomials of degree at most k it is the exact integral of the elastic energy density, and the right-hand side is the exact work of the force. With constant mu > 0 and mu + lambda > 0 its energy is never negative and is zero exactly on the DOFs of the rigid motions.", "quantifier": "every order k >= 1, every polygon with a valid triangulation, exact quadrature tables, all displacements; Lame coefficients of degree at most 2 for exactness, all coefficient functions for the form", "why_tests_cant": "The kernel is a statement about all vectors on all polygons; a wrong factor in the shear block still gives a symmetric matrix.", "anchors": ["PolyDiM/examples/Elastic_PCC_2D/src/assembler.cpp:Assemble", "PolyDiM/examples/Elastic_PCC_2D/src/local_space.cpp:BasisFunctionsDerivativeValues", "PolyDiM/examples/Elastic_PCC_2D/src/local_space.cpp:StabilizationMatrix"]}
{"id": "C152", "title": "Elasticity: the data of the tests belong to one problem", "statement": "For Patch_Test (every order) and LinearElasticity: the stored derivatives are the derivatives of the displacement, the divergence of the stress with the stored Lame coefficients is minus the stored source, on every side of the unit square the strong datum is the displacement or the weak datum is the normal stress, and a corner is strong exactly when one of its sides is.", "quantifier": "every point of the plane, every order, every side and corner", "why_tests_cant": "The tests compare the computed solution with this data, so an error in the data shows up as a convergence failure of the method or, if it vanishes at the sampled points, not at all.", "anchors": ["PolyDiM/examples/Elastic_PCC_2D/src/test_definition.hpp:Patch_Test", "PolyDiM/examples/Elastic_PCC_2D/src/test_definition.hpp:LinearElasticity"]}
{"id": "C153", "title": "Elasticity: material constants and domains", "statement": "The Lame coefficients of the beam and of Cook's membrane are those of the given Young modulus and Poisson ratio in plane strain, the stored area is that of the polygon, and a domain declared a parallelogram is one.", "quantifier": "all Young moduli, all Poisson ratios in [0, 1/2), all four tests", "why_tests_cant": "The two tests have no exact solution, so no error is computed: wrong constants give plausible pictures.", "anchors": ["PolyDiM/examples/Elastic_PCC_2D/src/test_definition.hpp:LinearElasticity_Beam", "PolyDiM/examples/Elastic_PCC_2D/src/test_definition.hpp:LinearElasticity_CooksMembrane"]}
{"id": "C154", "title": "Elliptic equation: the data of the tests belong to one problem", "statement": "For Patch_Test (every order), Elliptic_Polynomial_Problem, Elliptic_Problem and SUPG_AdvDiff_Problem: the stored derivatives are those of the solution, -div(D grad u) + b.grad u is the stored source, on every side of the unit square the strong datum is the solution or the weak datum is the flux, and a corner is strong exactly when one of its sides is.", "quantifier": "every point of the plane, every order, every side and corner", "why_tests_cant": "The tests compare the computed solution with this data, so an error in the data shows up as a convergence failure of the method or, if it vanishes at the sampled points, not at all.", "anchors": ["PolyDiM/examples/Elliptic_PCC_2D/src/test_definition.hpp:Patch_Test", "PolyDiM/examples/Elliptic_PCC_2D/src/test_definition.hpp:Elliptic_Polynomial_Problem", "PolyDiM/examples/Elliptic_PCC_2D/src/test_definition.hpp:Elliptic_Problem", "PolyDiM/examples/Elliptic_PCC_2D/src/test_definition.hpp:SUPG_AdvDiff_Problem"]}
{"id": "C155", "title": "Heat equation: the data of the tests belong to one problem", "statement": "For Patch_Test (all orders in space and time) and Parabolic_Problem: at all times the stored derivatives are those of the solution, du/dt - div(D grad u) is the stored source, the initial values are those at time zero, and the strong and weak data are the solution and the flux.", "quantifier": "every point, every time, all orders, every side and corner", "why_tests_cant": "The tests compare the computed solution with this data, so an error in the data shows up as a convergence failure of the method or, if it vanishes at the sampled points, not at all.", "anchors": ["PolyDiM/examples/Parabolic_PCC_2D/src/test_definition.hpp:Patch_Test", "PolyDiM/examples/Parabolic_PCC_2D/src/test_definition.hpp:Parabolic_Problem"]}
{"id": "C156", "title": "Mixed form: the data of the tests belong to one problem", "statement": "For Patch_Test (every order) and Poisson_Problem: the stored inverse diffusion is the inverse of the diffusion, the mixed advection is the inverse diffusion times the advection, the velocity is -D grad p + b p, its divergence plus the reaction is the source, the strong data are the normal velocities (for all four markers) and the weak data the pressure.", "quantifier": "every point of the plane, every order, every side", "why_tests_cant": "The tests compare the computed solution with this data, so an error in the data shows up as a convergence failure of the method or, if it vanishes at the sampled points, not at all.", "anchors": ["PolyDiM/examples/Elliptic_MCC_2D/src/test_definition.hpp:Patch_Test", "PolyDiM/examples/Elliptic_MCC_2D/src/test_definition.hpp:Poisson_Problem"]}
{"id": "C157", "title": "Brinkman: the data of the tests belong to one problem", "statement": "For Patch_Test (every order from 2), StokesSinSin, Stokes_ZeroVelocity_1, Stokes_ZeroVelocity_2, Darcy and Brinkman: the stored derivatives are those of the velocity, -div(nu grad u) + grad p + K^-1 u is the stored source, div u is the stored divergence, on every side of the unit square the strong datum is the velocity or the weak datum is minus the normal stress (the sign the assembler expects), a corner is strong exactly when one of its sides is, and the pressure has mean value zero on the square.", "quantifier": "every point of the plane, every order from 2, every side and corner", "why_tests_cant": "The tests compare the computed solution with this data, so an error in the data shows up as a convergence failure of the method or, if it vanishes at the sampled points, not at all.", "anchors": ["PolyDiM/examples/Brinkman_DF_PCC_2D/src/test_definition.hpp:Patch_Test", "PolyDiM/examples/Brinkman_DF_PCC_2D/src/test_definition.hpp:StokesSinSin", "PolyDiM/examples/Brinkman_DF_PCC_2D/src/test_definition.hpp:Stokes_ZeroVelocity_1", "PolyDiM/examples/Brinkman_DF_PCC_2D/src/test_definition.hpp:Stokes_ZeroVelocity_2", "PolyDiM/examples/Brinkman_DF_PCC_2D/src/test_definition.hpp:Darcy", "PolyDiM/examples/Brinkman_DF_PCC_2D/src/test_definition.hpp:Brinkman"]}
{"id": "C158", "title": "Navier-Stokes: the data of the tests belong to one problem", "statement": "With the sign -grad p of the assembler: Patch_Test (every order from 2) solves the equations with any multiple of the convective term, NavierStokes and NavierStokes_VanishingExternalLoad solve them with the convective term, StokesSinSin solves them without it and does not solve them with it (the default of the configuration). Derivatives, divergence, boundary data and mean of the pressure as in C157.", "quantifier": "every point of the plane, every order from 2, every side and corner", "why_tests_cant": "The tests compare the computed solution with this data, so an error in the data shows up as a convergence failure of the method or, if it vanishes at the sampled points, not at all.", "anchors": ["PolyDiM/examples/NavierStokes_DF_PCC_2D/src/test_definition.hpp:Patch_Test", "PolyDiM/examples/NavierStokes_DF_PCC_2D/src/test_definition.hpp:StokesSinSin", "PolyDiM/examples/NavierStokes_DF_PCC_2D/src/test_definition.hpp:NavierStokes", "PolyDiM/examples/NavierStokes_DF_PCC_2D/src/test_definition.hpp:NavierStokes_VanishingExternalLoad"]}
{"id": "C159", "title": "Unit cube of the tests in space: the tables describe a cube", "statement": "The tables in domain() of all nine tests in space: corners and edges are those of the unit cube, every face lists exactly the corners of one side of the cube, edge n of a face joins its corners n and n+1, and the volume is one.", "quantifier": "all corners, edges and faces", "why_tests_cant": "The tables are only read by a mesh generator outside this repository; a swapped edge gives a mesh that still looks right.", "anchors": ["PolyDiM/examples/Elliptic_PCC_3D/src/test_definition.hpp:Patch_Test::domain", "PolyDiM/examples/Elliptic_MCC_3D/src/test_definition.hpp:Patch_Test::domain", "PolyDiM/examples/Stokes_DF_PCC_3D/src/test_definition.hpp:Patch_Test::domain"]}
{"id": "C160", "title": "Elliptic equation in space: the data of the tests belong to one problem", "statement": "For Patch_Test (every order), Poisson_Polynomial_Problem and Poisson_Problem: the stored derivatives are those of the solution, -div(D grad u) is the stored source, on every face of the unit cube the strong datum is the solution or the weak datum is the flux, and a corner or an edge is strong exactly when one of its faces is.", "quantifier": "every point of space, every order, every face, edge and corner", "why_tests_cant": "The tests compare the computed solution with this data, so an error in the data shows up as a convergence failure of the method or, if it vanishes at the sampled points, not at all.", "anchors": ["PolyDiM/examples/Elliptic_PCC_3D/src/test_definition.hpp:Patch_Test", "PolyDiM/examples/Elliptic_PCC_3D/src/test_definition.hpp:Poisson_Polynomial_Problem", "PolyDiM/examples/Elliptic_PCC_3D/src/test_definition.hpp:Poisson_Problem"]}
{"id": "C161", "title": "Mixed form in space: the data of the tests belong to one problem", "statement": "For Patch_Test (every order) and Poisson_Polynomial_Problem: the stored inverse diffusion is the inverse of the diffusion, the mixed advection is the inverse diffusion times the advection, the velocity is -D grad p + b p, its divergence plus the reaction is the source, the strong data are the normal velocities and the weak data the pressure; only faces carry conditions.", "quantifier": "every point of space, every order, every face", "why_tests_cant": "The tests compare the computed solution with this data, so an error in the data shows up as a convergence failure of the method or, if it vanishes at the sampled points, not at all.", "anchors": ["PolyDiM/examples/Elliptic_MCC_3D/src/test_definition.hpp:Patch_Test", "PolyDiM/examples/Elliptic_MCC_3D/src/test_definition.hpp:Poisson_Polynomial_Problem"]}
{"id": "C162", "title": "Stokes in space: the data of the tests belong to one problem", "statement": "For Patch_Test, Stokes_Benchmark_1, Stokes_Benchmark_2 (every order from 2) and Stokes: the stored derivatives are those of the velocity, -div(nu grad u) - grad p is the stored source, the velocity has divergence zero and is the strong datum on the whole boundary, and the pressure has mean value zero on the cube.", "quantifier": "every point of space, every order from 2", "why_tests_cant": "The tests compare the computed solution with this data, so an error in the data shows up as a convergence failure of the method or, if it vanishes at the sampled points, not at all.", "anchors": ["PolyDiM/examples/Stokes_DF_PCC_3D/src/test_definition.hpp:Patch_Test", "PolyDiM/examples/Stokes_DF_PCC_3D/src/test_definition.hpp:Stokes", "PolyDiM/examples/Stokes_DF_PCC_3D/src/test_definition.hpp:Stokes_Benchmark_1", "PolyDiM/examples/Stokes_DF_PCC_3D/src/test_definition.hpp:Stokes_Benchmark_2"]}
{"id": "C163", "title": "Elastic_PCC_2D: patch test", "statement": "For constant Lame coefficients and the data of a displacement q whose components are polynomials of degree at most k (source -div sigma(q), values of q on the Dirichlet boundary, tractions sigma(q) n on the Neumann boundary) the system made by Assemble, the strong part moved to the right-hand side, is solved by the DOFs of q, those of the first component followed by those of the second; solutionDirichlet contains the strong DOFs of q in the same order.", "quantifier": "every conforming polygonal mesh, every order >= 1, every pair of polynomials of degree <= k, every pair of constants, every choice of Dirichlet and Neumann edges", "why_tests_cant": "All meshes, polynomials and boundary choices; the Patch_Test of the example is one displacement with two equal components on a square, so an exchange of the components goes unseen in it.", "anchors": ["PolyDiM/examples/Elastic_PCC_2D/src/assembler.cpp:Assemble", "PolyDiM/examples/Elastic_PCC_2D/src/assembler.cpp:ComputeStrongTerm", "PolyDiM/examples/Elastic_PCC_2D/src/assembler.cpp:ComputeWeakTerm"]}
{"id": "C164", "title": "Elastic_PCC_2D: the matrix is symmetric positive definite", "statement": "For constant Lame coefficients with mu > 0 and mu + lambda > 0, and a mesh whose cells are all held by the Dirichlet conditions (a cell with two Dirichlet vertices, or with two vertices in common with a held cell), the matrix of the free DOFs made by Assemble is symmetric and positive definite, so the Cholesky factorization of main.cpp exists and the discrete problem has exactly one solution; with the data of a polynomial displacement of degree at most k the DOFs of it are that solution.", "quantifier": "every conforming polygonal mesh, every order >= 1, every vector, every right-hand side", "why_tests_cant": "Definiteness is a statement about all vectors and all meshes; a run only shows that one factorization did not fail.", "anchors": ["PolyDiM/examples/Elastic_PCC_2D/src/assembler.cpp:Assemble", "PolyDiM/examples/Elastic_PCC_2D/main.cpp"]}
{"id": "C165", "title": "Elastic_PCC_2D: PostProcessSolution computes the errors and the norms", "statement": "On each cell PostProcessSolution computes, for the local degrees of freedom of both components, the quadratures of the squared distance of the projected displacement from the exact one and of the squared distances of the four projected derivatives from the exact ones (L2 and H1 error), and of the squares themselves (norms); without exact functions the errors are not numbers and the norms are unaffected. If the solution vectors hold the degrees of freedom of a displacement of polynomials of degree at most k and this is the exact solution, all errors are exactly zero, the norms are the L2 and H1 norms of it, the numeric displacement of every vertex is the exact one in both components, and the residual norm is zero if and only if the displacement solves the assembled system. The mesh size is the largest diameter.", "quantifier": "every polygonal mesh, every order >= 1, every local vector, every exact solution, every polynomial displacement", "why_tests_cant": "A run prints one number per mesh and cannot tell a wrong derivative index or component offset from discretization error.", "anchors": ["PolyDiM/examples/Elastic_PCC_2D/src/assembler.cpp:PostProcessSolution"]}
{"id": "C166", "title": "Conversions of sparse matrices keep the entries", "statement": "to_triplets lists exactly the entries of the matrix that are not zero, once each, column by column. to_Sparse_Matrix_Data followed by to_Eigen_SparseArray gives a matrix of the same size with the same entries and the same triplets. to_Eigen_SparseArray with a new size and shifts succeeds if the shifted block is inside of the new size, and then holds the entry (i, j) at (i + shift 0, j + shift 1), with the flag transpose at (j + shift 1, i + shift 0), and zero everywhere else.", "quantifier": "every compressed matrix (with stored zeros or without), every new size and shift without overflow of unsigned int, both values of the flag", "why_tests_cant": "A test compares one small matrix; a swapped shift or index shows only for non-square blocks at different offsets.", "anchors": ["PolyDiM/src/PDETools/Assembler/assembler_PCC_2D_functions_utilities.cpp:to_triplets", "PolyDiM/src/PDETools/Assembler/assembler_PCC_2D_functions_utilities.cpp:to_Eigen_SparseArray", "PolyDiM/src/PDETools/Assembler/assembler_PCC_2D_functions_utilities.cpp:to_Sparse_Matrix_Data"]}
{"id": "C167", "title": "Operators whose coefficients depend on the solution", "statement": "On a cell, assemble_source_term with a source f(x, u, grad u) gives the quadrature of f, called with the value and the gradient of the discrete function at every quadrature point, times the test function. assemble_source_term_gradients does the same with a vector and the gradient of the test function. assemble_elliptic_operator gives diffusion, advection and reaction with such coefficients, plus the stabilization times the largest absolute value of the diffusion if the two spaces have one size. Applied to the discrete function itself, the matrix is the sum of the two right-hand sides of kappa grad u and of beta . grad u + gamma u, plus the stabilization. With the partial derivatives of f as reaction and advection, the matrix is the derivative of the source in every direction (the matrix of Newton's method).", "quantifier": "every pair of local spaces, every number of points and functions, every vector of unknowns and direction, all coefficient functions (differentiable ones for the derivative)", "why_tests_cant": "A test of a nonlinear problem checks that the iteration converges, which also happens with a wrong derivative; the argument passed to the coefficient at a quadrature point is not visible in any output.", "anchors": ["PolyDiM/src/PDETools/Assembler/assembler_PCC_2D_functions.cpp:assemble_source_term", "PolyDiM/src/PDETools/Assembler/assembler_PCC_2D_functions.cpp:assemble_source_term_gradients", "PolyDiM/src/PDETools/Assembler/assembler_PCC_2D_functions.cpp:assemble_elliptic_operator", "PolyDiM/src/PDETools/Assembler/assembler_PCC_2D_functions.cpp:function_evaluation"]}
{"id": "C168", "title": "Data at the quadrature points of the whole mesh", "statement": "evaluate_solution_on_quadrature_points returns ten vectors in one order: the quadrature points of the active cells cell by cell, their weights, the values of the discrete function (projection of degree k), the values of the given function, and the three components of both gradients. The weighted sum of the squared differences of the two vectors of values is the sum over the active cells of the squared errors that the computation of the L2 error gives.", "quantifier": "every list of active and inactive cells with local spaces of any size, all vectors of unknowns, all given functions", "why_tests_cant": "A test looks at a few entries on a mesh whose cells are all active and have one number of points; a wrong offset shows only with cells of different sizes or with inactive ones.", "anchors": ["PolyDiM/src/PDETools/Assembler/assembler_PCC_2D_functions.cpp:evaluate_solution_on_quadrature_points"]}
{"id": "C169", "title": "Data of the tests with a bulk and a surface equation", "statement": "The data of Elliptic_Problem and Parabolic_Problem (diffusion, reaction, source, exchange coefficients alpha and beta for the bulk and for the surface, initial values, exact solutions and derivatives) belong to one coupled problem on the unit disk and its boundary circle: du/dt - div(k grad u) + r u = f in the disk, k du/dn = beta v - alpha u on the circle, dv/dt - k' v'' + r' v = f' + alpha' u - beta' v along the circle. The exact solutions solve it (without time derivatives for Elliptic_Problem), the derivatives given are the partial derivatives, the initial values are the exact solutions at time zero, and every other dimension throws.", "quantifier": "all points of the plane, all points of the circle, all times, all dimensions", "why_tests_cant": "A test compares the discrete solution with the data at some points of some meshes; that the data fit together everywhere is a statement on all points and times, and a wrong coefficient shows up only as a lost order of convergence.", "anchors": ["PolyDiM/examples/Parabolic_PCC_BulkFace_2D/src/test_definition.hpp:34-388", "PolyDiM/examples/Parabolic_PCC_BulkFace_2D/src/assembler.cpp:419-502", "PolyDiM/examples/Parabolic_PCC_BulkFace_2D/src/assembler.cpp:617-726"]}
{"id": "C170", "title": "Exchange terms and surface matrices of the bulk-surface example", "statement": "ComputeTransitionMatrices succeeds, and the triplets it adds to the matrix are, as a bilinear form in the unknowns (bulk trace u, surface function v) and the test vector (bulk trace w, surface function z), the sum over the segments of the surface of the quadrature of alpha_2 u w - beta_2 v w - alpha_1 u z: the bulk equation is tested with w and contains alpha_2 u - beta_2 v, the surface equation is tested with z and contains -alpha_1 u. With constant coefficients and an exact rule these are the integrals. The local matrices of AssembleMatrix_1D are the forms k v' z' + (r + beta_1) v z and v z with derivatives along the arc length.", "quantifier": "every order at least 1, every pair of DOF handlers with k+1 unknowns on every segment, all vectors, all coefficients, all segments", "why_tests_cant": "A swapped index pair, a wrong sign or a coefficient of the other equation still gives a solvable system on every mesh; a test sees only a wrong solution of one problem, and in Elliptic_Problem alpha and beta are the same in both equations.", "anchors": ["PolyDiM/examples/Parabolic_PCC_BulkFace_2D/src/assembler.cpp:419-502", "PolyDiM/examples/Parabolic_PCC_BulkFace_2D/src/assembler.cpp:617-726"]}
{"id": "C171", "title": "Time loop of the bulk-surface example", "statement": "On a time domain that is not a point the run ends after one pass per time value but the first, and the solutions follow implicit Euler for M u' + A u = F with the load at the new time: M (u_{m+1} - u_m)/dt + A u_{m+1} = F(t_{m+1}); the residual that is reported is zero. On [0, 1] with a step 1/n the times are m/n. A weighted sum that A does not change is kept up to dt times the load, and without a load the energy of M does not grow for any step. On a time domain that is a point one system A u = F(0) is solved.", "quantifier": "all matrices for which dt A + M (or A) is regular, all loads, all initial values, all steps, all lists of time values, any solver that solves regular systems", "why_tests_cant": "A load at the old time, a missing factor dt or a mass product with the wrong vector changes the result by an amount of the size of the step, which a convergence test of first order does not tell from the error of the method.", "anchors": ["PolyDiM/examples/Parabolic_PCC_BulkFace_2D/main.cpp:200-344", "PolyDiM/examples/Parabolic_PCC_BulkFace_2D/src/assembler.cpp:101-179"]}
{"id": "C172", "title": "Errors reported by the bulk-surface example", "statement": "The errors that PostProcessSolution reports are the roots of the sum of squares of the bulk and the surface error, with the norms computed in the same way, and over a run in time the largest one is kept, as the comparisons of assembler.cpp:158, 166 intend.", "quantifier": "all runs, all errors of the two fields", "why_tests_cant": "The result looks right whenever the error grows in time, as it does for the test of the example.", "anchors": ["PolyDiM/examples/Parabolic_PCC_BulkFace_2D/src/assembler.cpp:101-179", "PolyDiM/examples/Parabolic_PCC_BulkFace_2D/src/assembler.hpp:87-101", "PolyDiM/examples/Parabolic_PCC_BulkFace_2D/main.cpp:200-344"]}
{"id": "C173", "title": "Convective term of the Navier-Stokes example", "statement": "With b(a, u, v) the quadrature of ((a . grad) u) . v (form Conv) or half of its difference with ((a . grad) v) . u (form Skew), and w the speed of the previous iteration, the local right-hand side of AssembleNavierStokes is b(w, w, phi_I) and the local matrix applied to any vector x is b(w, x, phi_I) + b(x, w, phi_I), the derivative of the right-hand side. In the skew form the right-hand side tested with w itself is zero. With the form None both are zero, and another number is refused with a runtime error.", "quantifier": "every number of quadrature points and of basis functions, all tables, all weights, all values of the unknowns, both forms", "why_tests_cant": "A transposed or exchanged index in one of the eight sums of the skew form still converges to a solution of a slightly wrong problem, or converges only linearly; the tests of the repository use one form and a few meshes.", "anchors": ["PolyDiM/examples/NavierStokes_DF_PCC_2D/src/assembler.cpp:357-443", "PolyDiM/examples/NavierStokes_DF_PCC_2D/src/assembler.cpp:482-558"]}
{"id": "C174", "title": "Nonlinear iteration of the Navier-Stokes example", "statement": "The iteration started at the Stokes solution is Newton's method: when the run returns a solution u, the residual of A u + b(u, u) = f at u is b(d, d) for the last change d, and the Euclidean norm of d is at most relative tolerance times norm of the Stokes solution plus absolute tolerance; with both tolerances zero u solves the nonlinear problem. The given boundary values are kept in all passes.", "quantifier": "all problems with a linear part and a quadratic term, all tolerances, all numbers of passes, any solver that solves regular systems", "why_tests_cant": "The sign of the moved boundary terms and the factor of b(w, w) only change the path of the iteration; convergence to the same solution hides an error in one pass.", "anchors": ["PolyDiM/examples/NavierStokes_DF_PCC_2D/main.cpp:146-256", "PolyDiM/examples/NavierStokes_DF_PCC_2D/src/assembler.cpp:576-585"]}
{"id": "C175", "title": "Stopping test and report of the nonlinear iteration", "statement": "The iteration stops before the maximum number of passes only when the residual of the nonlinear problem is within the tolerances, and in every case the run reports the number of passes.", "quantifier": "all problems, all tolerances, all maximum numbers of passes", "why_tests_cant": "Tests with a problem that converges never reach the maximum, and Newton's method makes the residual small soon after the change is small.", "anchors": ["PolyDiM/examples/NavierStokes_DF_PCC_2D/main.cpp:166-256"]}
{"id": "C176", "title": "Convective term of the Navier-Stokes example on the mesh", "statement": "With b(u, x) the vector whose entry i is the sum over the cells of the chosen convective form of the speeds of u and x, tested with the basis function of unknown i, the loop over the cells in AssembleNavierStokes at the previous iteration u leaves matrices and a right-hand side with: matrix times x plus strong part times the boundary values is b(u, x) + b(x, u) for every vector x with the same boundary values, and the right-hand side is b(u, u). The map b is bilinear, so that the iteration of main.cpp with this assembly is Newton's method for A u + b(u, u) = f.", "quantifier": "all meshes and DOFs set up by the program, with and without the unknown of the mean pressure, all tables of the local spaces, both forms, all vectors of unknowns and boundary values", "why_tests_cant": "The convective term is assembled on three of the four fields with offsets computed for four; a wrong offset or a wrong number of unknowns of the speed moves entries to other unknowns, and the iteration may still converge on a small mesh.", "anchors": ["PolyDiM/examples/NavierStokes_DF_PCC_2D/src/assembler.cpp:445-586", "PolyDiM/examples/NavierStokes_DF_PCC_2D/main.cpp:146-256"]}
{"id": "C177", "title": "Energy of the convective term in the skew form", "statement": "With the form Skew and zero boundary values the convective term does no work on the whole mesh: the right-hand side assembled at u is orthogonal to u, the part of the matrix with a known speed as transport satisfies x . b(u, x) = 0 for all u and x, and every solution of the nonlinear problem satisfies u . A u = u . f, as the Stokes problem does.", "quantifier": "all meshes and DOFs set up by the program, all tables of the local spaces (also projections that are not free of divergence), all vectors of unknowns", "why_tests_cant": "The balance is a cancellation between all cells and unknowns; an error in one local entry or one global index changes a computed energy by the size of the discretisation error.", "anchors": ["PolyDiM/examples/NavierStokes_DF_PCC_2D/src/assembler.cpp:401-443", "PolyDiM/examples/NavierStokes_DF_PCC_2D/src/assembler.cpp:536-574"]}
{"id": "C178", "title": "Errors reported by the Navier-Stokes example", "statement": "PostProcessSolution reports the root of the quadrature, over all cells, of the squared distance of the discrete pressure from the exact one, the same for the gradient of the velocity with all four derivatives paired with the right exact ones, and the two norms of the discrete flow; the velocity at a vertex is the value of its unknown or of its boundary condition; the mesh size is the largest diameter. With positive weights the errors are zero exactly if the discrete flow is the exact one at the points.", "quantifier": "all meshes and DOFs set up by the program, all tables of the local spaces, all solutions and boundary values, all exact functions", "why_tests_cant": "A wrong offset, a pressure block cut off at the wrong place or a swapped pair of derivatives changes a reported error by an amount that looks like a poor rate of convergence.", "anchors": ["PolyDiM/examples/NavierStokes_DF_PCC_2D/src/assembler.cpp:613-756", "PolyDiM/examples/NavierStokes_DF_PCC_2D/src/assembler.hpp:51-72"]}
{"id": "C179", "title": "Report of the Brinkman example", "statement": "PostProcessSolution reports the distances of the discrete pressure and of the gradient of the discrete velocity from the exact ones, the norms of the discrete flow, the velocity at the vertices, the pressure of each cell at its own vertices under the numbers of the repeated connectivity, and the largest diameter; a reported error is a distance from an exact solution, and not a number if there is none.", "quantifier": "all meshes and DOFs set up by the program, all tables of the local spaces, all solutions and boundary values, tests with and without exact functions", "why_tests_cant": "The runs with a known solution never take the branch of the exception, and for the others an error of zero is written without anything to compare it with.", "anchors": ["PolyDiM/examples/Brinkman_DF_PCC_2D/src/assembler.cpp:600-833", "PolyDiM/examples/Brinkman_DF_PCC_2D/src/assembler.hpp:49-80", "PolyDiM/examples/Brinkman_DF_PCC_2D/src/test_definition.hpp:1267-1280", "PolyDiM/examples/Brinkman_DF_PCC_2D/src/program_utilities.cpp:184-185"]}
{"id": "C180", "title": "Flux of the Brinkman example", "statement": "ComputeFlux has an entry exactly for the markers other than 0 that occur on an edge of a cell, and the entry is the sum, over all edges of all cells with that marker, of the quadrature of the normal component of the discrete velocity, with free unknowns and boundary values in their places and the length of the edge as factor.", "quantifier": "all meshes and DOFs set up by the program, all tables of the basis functions on the edges, all solutions and boundary values, all markers, lengths and normals", "why_tests_cant": "The tests print the flux without comparing it; a wrong offset of the second component or a lost edge gives a number of the same size.", "anchors": ["PolyDiM/examples/Brinkman_DF_PCC_2D/src/assembler.cpp:835-927"]}
