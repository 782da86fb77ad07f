{
 "claims": [
  {
   "property": "C01",
   "status": "proved",
   "theorems": [
    "PolyDiM.C01_free_numbering"
   ],
   "note": "All meshes, dimensions 0..3, total requested DOFs below 2^32 (unsigned int wrap is modelled)."
  },
  {
   "property": "C02",
   "status": "proved",
   "theorems": [
    "PolyDiM.C02_strong_numbering"
   ],
   "note": "As C01 for Strong DOFs."
  },
  {
   "property": "C03",
   "status": "proved",
   "theorems": [
    "PolyDiM.C03_counters"
   ],
   "note": "All four counters against the input."
  },
  {
   "property": "C04",
   "status": "proved",
   "theorems": [
    "PolyDiM.C04_cell_dofs",
    "PolyDiM.C04_markers_irrelevant"
   ],
   "note": "Number and type of the DOFs of each cell; markers play no role."
  },
  {
   "property": "C05",
   "status": "proved",
   "theorems": [
    "PolyDiM.C05_total"
   ],
   "note": "Success exactly on well-formed input; failures are exceptions, never undefined behaviour."
  },
  {
   "property": "C06",
   "status": "proved",
   "theorems": [
    "PolyDiM.C06_cell_list"
   ],
   "note": "Closure order, no dangling reference, per-cell counters."
  },
  {
   "property": "C07",
   "status": "proved",
   "theorems": [
    "PolyDiM.C07_shared_entity",
    "PolyDiM.C07_converse"
   ],
   "note": "Shared entity gives same DOFs entry by entry; converse by uniqueness of indices."
  },
  {
   "property": "C08",
   "status": "partial",
   "theorems": [
    "PolyDiM.C08_false",
    "PolyDiM.C08_flags_partial",
    "PolyDiM.C08_flags_exact_of_codim_one"
   ],
   "note": "The claim is false for the code (witness proved); what the flags report is characterised exactly, and the claim is proved on the meshes where it holds."
  },
  {
   "property": "C09",
   "status": "proved",
   "theorems": [
    "PolyDiM.C09_indices"
   ],
   "note": "Order preserving partition with matching global indices."
  },
  {
   "property": "C10",
   "status": "proved",
   "theorems": [
    "PolyDiM.C10_constant_info"
   ],
   "note": "Throws exactly on a missing marker; result described cell by cell."
  },
  {
   "property": "C11",
   "status": "proved",
   "theorems": [
    "PolyDiM.C11_count_dofs",
    "PolyDiM.C11_count_dofs_empty"
   ],
   "note": "Totals, offsets and bijection, when the sums fit unsigned int."
  },
  {
   "property": "C12",
   "status": "proved",
   "theorems": [
    "PolyDiM.C12_local_count_dofs"
   ],
   "note": "Success iff the cell exists in every field; totals, offsets, bijection."
  },
  {
   "property": "C13",
   "status": "proved",
   "theorems": [
    "PolyDiM.C13_extract"
   ],
   "note": "No fault, length, and value of every entry, for handlers created by the DOF manager."
  },
  {
   "property": "C14",
   "status": "proved",
   "theorems": [
    "PolyDiM.C14_assembly"
   ],
   "note": "Exact arithmetic; entries of the log of triplets/additions as sums over pairs of local unknowns."
  },
  {
   "property": "C15",
   "status": "proved",
   "theorems": [
    "PolyDiM.C15_order_irrelevant",
    "PolyDiM.C15_batches"
   ],
   "note": "Permutations and batches, exact arithmetic."
  },
  {
   "property": "C16",
   "status": "proved",
   "theorems": [
    "PolyDiM.C16_symmetric",
    "PolyDiM.C16_psd"
   ],
   "note": "Symmetry and positive semidefiniteness over any ordered commutative ring."
  },
  {
   "property": "C17",
   "status": "proved",
   "theorems": [
    "PolyDiM.C17_residual",
    "PolyDiM.C17_bilinear"
   ],
   "note": "Row-wise residual and bilinear form."
  },
  {
   "property": "C18",
   "status": "proved",
   "theorems": [
    "PolyDiM.C18_bounds"
   ],
   "note": "The call goes through and every index is in range."
  },
  {
   "property": "C19",
   "status": "proved",
   "theorems": [
    "PolyDiM.C19_enumeration"
   ],
   "note": "Unbounded integers instead of unsigned int."
  },
  {
   "property": "C20",
   "status": "proved",
   "theorems": [
    "PolyDiM.C20_enumeration"
   ],
   "note": "Unbounded integers instead of unsigned int."
  },
  {
   "property": "C21",
   "status": "proved",
   "theorems": [
    "PolyDiM.C21_enumeration"
   ],
   "note": "Unbounded integers instead of unsigned int."
  },
  {
   "property": "C22",
   "status": "proved",
   "theorems": [
    "PolyDiM.C22_first_derivative"
   ],
   "note": "All three dimensions at once."
  },
  {
   "property": "C23",
   "status": "proved",
   "theorems": [
    "PolyDiM.C23_second_derivative"
   ],
   "note": "All three dimensions at once."
  },
  {
   "property": "C24",
   "status": "proved",
   "theorems": [
    "PolyDiM.C24_vander"
   ],
   "note": "Any field in place of double."
  },
  {
   "property": "C25",
   "status": "proved",
   "theorems": [
    "PolyDiM.C25_vander_derivatives"
   ],
   "note": "Over the reals, with Mathlib's HasDerivAt."
  },
  {
   "property": "C26",
   "status": "partial",
   "theorems": [
    "PolyDiM.C26_laplacian_partial",
    "PolyDiM.C26_characterisation",
    "PolyDiM.C26_wrong_value_1D"
   ],
   "note": "The property is false in dimension one and for degree zero; proved exactly when it holds."
  },
  {
   "property": "C27",
   "status": "proved",
   "theorems": [
    "PolyDiM.C27_decomposition",
    "PolyDiM.C27_count"
   ],
   "note": "Real numbers; all accesses shown in bounds."
  },
  {
   "property": "C28",
   "status": "proved",
   "theorems": [
    "PolyDiM.C28_decomposition",
    "PolyDiM.C28_count"
   ],
   "note": "Real numbers; all accesses shown in bounds. VanderGBigOPlus needs a Vandermonde matrix of degree at least one (with fewer than four columns it returns zeros)."
  },
  {
   "property": "C29",
   "status": "proved",
   "theorems": [
    "PolyDiM.C29_nodal"
   ],
   "note": "Any field in place of double."
  },
  {
   "property": "C30",
   "status": "proved",
   "theorems": [
    "PolyDiM.C30_reproduction"
   ],
   "note": "Any field in place of double."
  },
  {
   "property": "C31",
   "status": "proved",
   "theorems": [
    "PolyDiM.C31_derivative"
   ],
   "note": "Over the reals, with Mathlib's HasDerivAt; any points and coefficients."
  },
  {
   "property": "C32",
   "status": "proved",
   "theorems": [
    "PolyDiM.C32_layout"
   ],
   "note": "Any field of characteristic zero in place of double."
  },
  {
   "property": "C33",
   "status": "proved",
   "theorems": [
    "PolyDiM.C33_nodal"
   ],
   "note": "Every order, including zero."
  },
  {
   "property": "C34",
   "status": "proved",
   "theorems": [
    "PolyDiM.C34_partition_of_unity",
    "PolyDiM.C34_gradient_sum"
   ],
   "note": "Every order, including zero; gradients over the reals."
  },
  {
   "property": "C35",
   "status": "proved",
   "theorems": [
    "PolyDiM.C35_derivatives"
   ],
   "note": "Over the reals, with Mathlib's HasDerivAt; every point, including lattice points."
  },
  {
   "property": "C36",
   "status": "partial",
   "theorems": [
    "PolyDiM.C36_second_partial",
    "PolyDiM.C36_false_order4",
    "PolyDiM.C36_laplacian_throws"
   ],
   "note": "Proved up to order 3. From order 4 on EvaluateBasisFunctionSecondDerivatives returns zeros without throwing (proved false for order 4); the local space routine throws."
  },
  {
   "property": "C37",
   "status": "partial",
   "theorems": [
    "PolyDiM.C37_permutation",
    "PolyDiM.C37_edge_points",
    "PolyDiM.C37_neighbours",
    "PolyDiM.C37_vertices",
    "PolyDiM.C37_values_order",
    "PolyDiM.C37_laplacian_misordered"
   ],
   "note": "Everything but the order of the Laplacians, which the code does not reorder: proved false at order 3."
  },
  {
   "property": "C38",
   "status": "partial",
   "theorems": [
    "PolyDiM.C38_chain_rule",
    "PolyDiM.C38_laplacian_partial"
   ],
   "note": "Gradients for every order and map; Laplacians for the columns that the order leaves in place (all of them up to order 2), false otherwise by C37_laplacian_misordered."
  },
  {
   "property": "C39",
   "status": "proved",
   "theorems": [
    "PolyDiM.C39_layout",
    "PolyDiM.C39_order_zero",
    "PolyDiM.C39_nodal",
    "PolyDiM.C39_partition_of_unity",
    "PolyDiM.C39_derivatives"
   ],
   "note": "Real numbers in place of double."
  },
  {
   "property": "C40",
   "status": "proved",
   "theorems": [
    "PolyDiM.C40_involution",
    "PolyDiM.C40_edge_points",
    "PolyDiM.C40_neighbours"
   ],
   "note": "The maps from the square (Gedim) are assumed affine resp. bilinear; the tolerance test that recognises parallelograms is assumed to accept only zero."
  },
  {
   "property": "C41",
   "status": "proved",
   "theorems": [
    "PolyDiM.C41_layout",
    "PolyDiM.C41_order_zero"
   ],
   "note": "For every order k >= 1. For order 0 Create never resizes DofTypes and reads its first entry (undefined behaviour), proved as C41_order_zero."
  },
  {
   "property": "C42",
   "status": "proved",
   "theorems": [
    "PolyDiM.C42_nodal",
    "PolyDiM.C42_partition_of_unity"
   ],
   "note": "Every order >= 1, every pair of DOFs, every point, exact arithmetic over a field of characteristic zero."
  },
  {
   "property": "C43",
   "status": "partial",
   "theorems": [
    "PolyDiM.C43_derivatives_partial",
    "PolyDiM.C43_not_a_number",
    "PolyDiM.C43_nan_at_dofs"
   ],
   "note": "The full statement is false: from order 2 on the routine divides by zero exactly on the lattice planes of the DOF (C43_not_a_number), in particular at every other DOF (C43_nan_at_dofs). Elsewhere, and for order 1 everywhere, it returns the partial derivatives."
  },
  {
   "property": "C44",
   "status": "proved",
   "theorems": [
    "PolyDiM.C44_permutation",
    "PolyDiM.C44_vertices",
    "PolyDiM.C44_edge_points",
    "PolyDiM.C44_neighbours",
    "PolyDiM.C44_values_order"
   ],
   "note": "Every order and every numbering and direction of edges and faces; the whole DOF order (faces included) is a permutation. Gedim's map, rotation and point search are modelled by their exact meaning."
  },
  {
   "property": "C45",
   "status": "proved",
   "theorems": [
    "PolyDiM.C45_layout",
    "PolyDiM.C45_order_zero",
    "PolyDiM.C45_nodal",
    "PolyDiM.C45_derivatives",
    "PolyDiM.C45_partition_of_unity"
   ],
   "note": "Every order >= 1, real numbers in place of double."
  },
  {
   "property": "C46",
   "status": "partial",
   "theorems": [
    "PolyDiM.C46_face_points",
    "PolyDiM.C46_neighbours_iff",
    "PolyDiM.C46_neighbours_partial",
    "PolyDiM.C46_false"
   ],
   "note": "The full statement is false from order 3 on: the code that would treat the orientation of faces is commented out, each cell orders face DOFs by its own vertex numbers. Proved: where they are (all orders), for orders 1 and 2 neighbours agree, for higher orders they agree iff both frames are the same, and two concrete unit cubes for which they do not, for every order >= 3."
  },
  {
   "property": "C47",
   "status": "proved",
   "theorems": [
    "PolyDiM.C47_sum",
    "PolyDiM.C47_points_inside",
    "PolyDiM.C47_weights_nonneg",
    "PolyDiM.C47_total_area"
   ],
   "note": "Every triangulation and rule, over any (linearly ordered) field. MapTriangle is modelled by its formula."
  },
  {
   "property": "C48",
   "status": "proved",
   "theorems": [
    "PolyDiM.C48_sum",
    "PolyDiM.C48_rule",
    "PolyDiM.C48_closed",
    "PolyDiM.C48_compute"
   ],
   "note": "Every polygon, orientation pattern, rule and function. The rule is the list of internal points and weights plus the two end weights, as the code splits it."
  },
  {
   "property": "C49",
   "status": "proved",
   "theorems": [
    "PolyDiM.C49_edges"
   ],
   "note": "Every polygon, orientation pattern and rule."
  },
  {
   "property": "C50",
   "status": "proved",
   "theorems": [
    "PolyDiM.C50_dofi_form",
    "PolyDiM.C50_dofi_psd",
    "PolyDiM.C50_dofi_kernel",
    "PolyDiM.C50_dofi_polynomials",
    "PolyDiM.C50_drecipe_form",
    "PolyDiM.C50_drecipe_psd",
    "PolyDiM.C50_drecipe_polynomials",
    "PolyDiM.C50_drecipe_kernel"
   ],
   "note": "Every projector and DOF matrix of matching sizes; the kernel of the D-recipe is characterised too."
  },
  {
   "property": "C51",
   "status": "proved",
   "theorems": [
    "PolyDiM.C51_exact",
    "PolyDiM.C51_dofs"
   ],
   "note": "Over the reals. Assumed of the environment: exact quadrature tables, solvers that solve regular (partialPivLu) and positive definite (llt) systems, a triangulation whose boundary is the polygon. That the system is regular is proved."
  },
  {
   "property": "C52",
   "status": "proved",
   "theorems": [
    "PolyDiM.C52_pi0k",
    "PolyDiM.C52_pi0km1"
   ],
   "note": "Same assumptions as C51; positive definiteness of the mass matrix is proved."
  },
  {
   "property": "C53",
   "status": "proved",
   "theorems": [
    "PolyDiM.C53_diffusion",
    "PolyDiM.C53_tensor",
    "PolyDiM.C53_reaction",
    "PolyDiM.C53_advection",
    "PolyDiM.C53_forcing",
    "PolyDiM.C53_forcing_vector",
    "PolyDiM.C53_symmetric",
    "PolyDiM.C53_symmetric_tensor",
    "PolyDiM.C53_kernel",
    "PolyDiM.C53_psd",
    "PolyDiM.C53_psd_tensor",
    "PolyDiM.C53_kernel_converse"
   ],
   "note": "Over any field (ordered for semidefiniteness). Entries and bilinear forms of every element matrix; the tensor is read by columns."
  },
  {
   "property": "C54",
   "status": "proved",
   "theorems": [
    "PolyDiM.C54_planar",
    "PolyDiM.C54_space"
   ],
   "note": "Ordered field; contracts of the eigen solver, square root and diameter; positive definite mass matrix. In 2D the determinant is the one of the planar block: the 3x3 matrices also scale the third axis."
  },
  {
   "property": "C55",
   "status": "proved",
   "theorems": [
    "PolyDiM.C55_layout",
    "PolyDiM.C55_layout_lobatto",
    "PolyDiM.C55_basis",
    "PolyDiM.C55_map",
    "PolyDiM.C55_physical"
   ],
   "note": "Gauss-Lobatto points are an input (assumed distinct); the physical derivative is along arc length."
  },
  {
   "property": "C56",
   "status": "proved",
   "theorems": [
    "PolyDiM.C56_piola"
   ],
   "note": "Any non-degenerate triangle, either orientation; values for arbitrary fields, divergence for differentiable ones."
  },
  {
   "property": "C57",
   "status": "proved",
   "theorems": [
    "PolyDiM.C57_triangle",
    "PolyDiM.C57_quadrilateral",
    "PolyDiM.C57_mixed"
   ],
   "note": "Any field of characteristic zero; for quadrilaterals the inverse of the bilinear map (Gedim) is not modelled, the statement is about the reference point of the edge point."
  },
  {
   "property": "C58",
   "status": "proved",
   "theorems": [
    "PolyDiM.C58_chain_rule"
   ],
   "note": "The inverse map and its Jacobian come from Gedim: assumed differentiable with the stored Jacobian."
  },
  {
   "property": "C59",
   "status": "proved",
   "theorems": [
    "PolyDiM.C59_face_points",
    "PolyDiM.C59_neighbours"
   ],
   "note": "The point search is exact equality instead of a tolerance; cells sharing a face are assumed to list its vertices in the same order (the order of the mesh face)."
  },
  {
   "property": "C60",
   "status": "proved",
   "theorems": [
    "PolyDiM.C60_trace",
    "PolyDiM.C60_zero",
    "PolyDiM.C60_neighbours"
   ],
   "note": "Any field of characteristic zero, every point of the plane of the face."
  },
  {
   "property": "C61",
   "status": "partial",
   "theorems": [
    "PolyDiM.C61_chain_rule_partial",
    "PolyDiM.C61_not_a_number"
   ],
   "note": "The full statement is false from order 2 on: the reference derivatives divide by zero on lattice planes (C43), so the mapped derivatives are not numbers at every other DOF point of the cell; elsewhere, and everywhere for order 1, the chain rule is proved."
  },
  {
   "property": "C62",
   "status": "proved",
   "theorems": [
    "PolyDiM.C62_permutation",
    "PolyDiM.C62_generic_rejected",
    "PolyDiM.C62_vertices",
    "PolyDiM.C62_edge_points",
    "PolyDiM.C62_neighbours",
    "PolyDiM.C62_values_order"
   ],
   "note": "Parallelepipeds with any numbering and direction of edges and faces; all other hexahedra are rejected by CreateLocalSpace (C62_generic_rejected). The norm test is assumed exact."
  },
  {
   "property": "C63",
   "status": "proved",
   "theorems": [
    "PolyDiM.C63_chain_rule"
   ],
   "note": "Every order, parallelepiped, DOF and point, over the reals."
  },
  {
   "property": "C64",
   "status": "partial",
   "theorems": [
    "PolyDiM.C64_trace",
    "PolyDiM.C64_zero",
    "PolyDiM.C64_neighbours",
    "PolyDiM.C64_mismatch",
    "PolyDiM.C64_face_order_partial"
   ],
   "note": "Traces, zero traces and agreement of neighbours are proved for every order. The part of the statement about indices is false from order 3 on: the DOFs of a face run along the second axis first, the face functions along the first (C64_mismatch); it holds for the faces whose frame is their first corner with the last corner first (C64_face_order_partial)."
  },
  {
   "property": "C65",
   "status": "proved",
   "theorems": [
    "PolyDiM.C65_sum",
    "PolyDiM.C65_inside"
   ],
   "note": "Every list of tetrahedra and rule. MapTetrahedron is modelled by its formula."
  },
  {
   "property": "C66",
   "status": "proved",
   "theorems": [
    "PolyDiM.C66_faces",
    "PolyDiM.C66_closed",
    "PolyDiM.C66_mcc"
   ],
   "note": "Faces with rules of any sizes; RotatePointsFrom2DTo3D is an affine map."
  },
  {
   "property": "C67",
   "status": "proved",
   "theorems": [
    "PolyDiM.C67_edge_points",
    "PolyDiM.C67_neighbours"
   ],
   "note": "Every numbering and direction of edges."
  },
  {
   "property": "C68",
   "status": "proved",
   "theorems": [
    "PolyDiM.C68_polygon",
    "PolyDiM.C68_polyhedron",
    "PolyDiM.C68_boundary"
   ],
   "note": "Lebesgue integral over the reals; exactness of the reference rule is the hypothesis (the tables are in Gedim). Overlaps of measure zero and triangles without area are allowed."
  },
  {
   "property": "C69",
   "status": "proved",
   "theorems": [
    "PolyDiM.C69_area"
   ],
   "note": "Every polygon with outward normals, any orientation pattern."
  },
  {
   "property": "C70",
   "status": "partial",
   "theorems": [
    "PolyDiM.C70_df_rule_partial",
    "PolyDiM.C70_order_one"
   ],
   "note": "False for order 1: the code puts the trapezoidal rule, which is exact for degree 1 and not 3 (C70_order_one). Proved for order >= 2."
  },
  {
   "property": "C71",
   "status": "proved",
   "theorems": [
    "PolyDiM.C71_derivatives"
   ],
   "note": "Same assumptions as C51."
  },
  {
   "property": "C72",
   "status": "partial",
   "theorems": [
    "PolyDiM.C72_laplacian_partial",
    "PolyDiM.C72_points_false"
   ],
   "note": "Proved for the quadrature points. For given points the code swaps its arguments (VEM_PCC_2D_LocalSpace.hpp:184-185): undefined behaviour unless the number of points is k(k+1)/2, and then a matrix of the wrong size."
  },
  {
   "property": "C73",
   "status": "proved",
   "theorems": [
    "PolyDiM.C73_energy",
    "PolyDiM.C73_l2",
    "PolyDiM.C73_derivatives"
   ],
   "note": "Same assumptions as C51, Lobatto nodes in [0,1]."
  },
  {
   "property": "C74",
   "status": "proved",
   "theorems": [
    "PolyDiM.C74_values",
    "PolyDiM.C74_derivatives",
    "PolyDiM.C74_exact",
    "PolyDiM.C74_internal"
   ],
   "note": "Same assumptions as C51."
  },
  {
   "property": "C75",
   "status": "proved",
   "theorems": [
    "PolyDiM.C75_trace",
    "PolyDiM.C75_nodal"
   ],
   "note": "Distinct edge nodes in [0,1]."
  },
  {
   "property": "C76",
   "status": "proved",
   "theorems": [
    "PolyDiM.C76_coordinates",
    "PolyDiM.C76_neighbours"
   ],
   "note": "Every field."
  },
  {
   "property": "C77",
   "status": "proved",
   "theorems": [
    "PolyDiM.C77_stabilization"
   ],
   "note": "Same assumptions as C51, positive measure."
  },
  {
   "property": "C78",
   "status": "proved",
   "theorems": [
    "PolyDiM.C78_planar",
    "PolyDiM.C78_space"
   ],
   "note": "Mass matrix assumed to be the integral of the second moments of the rescaled element; compact element of positive measure."
  },
  {
   "property": "C79",
   "status": "partial",
   "theorems": [
    "PolyDiM.C79_sign_partial",
    "PolyDiM.C79_sign_false"
   ],
   "note": "Holds when the normalized determinant exceeds the threshold 1e-12; refuted for thinner elements."
  },
  {
   "property": "C80",
   "status": "proved",
   "theorems": [
    "PolyDiM.C80_unisolvent"
   ],
   "note": "Tables exact to the requested degree, k+1 Gauss points; LU solves regular systems (regularity is proved)."
  },
  {
   "property": "C81",
   "status": "proved",
   "theorems": [
    "PolyDiM.C81_space",
    "PolyDiM.C81_conforming"
   ],
   "note": "Same assumptions; every non-degenerate triangle."
  },
  {
   "property": "C82",
   "status": "proved",
   "theorems": [
    "PolyDiM.C82_divergence"
   ],
   "note": "Same assumptions."
  },
  {
   "property": "C83",
   "status": "proved",
   "theorems": [
    "PolyDiM.C83_quadrature",
    "PolyDiM.C83_pressure"
   ],
   "note": "Same assumptions."
  },
  {
   "property": "C84",
   "status": "proved",
   "theorems": [
    "PolyDiM.C84_local",
    "PolyDiM.C84_source",
    "PolyDiM.C84_isotropic"
   ],
   "note": "Any ordered field; the spaces are given by the values of their functions at the quadrature points."
  },
  {
   "property": "C85",
   "status": "proved",
   "theorems": [
    "PolyDiM.C85_consistency",
    "PolyDiM.C85_exact",
    "PolyDiM.C85_all",
    "PolyDiM.C85_source"
   ],
   "note": "Same assumptions as C51, positive measure."
  },
  {
   "property": "C86",
   "status": "proved",
   "theorems": [
    "PolyDiM.C86_constant",
    "PolyDiM.C86_variable"
   ],
   "note": "Same assumptions; for a variable tensor nonnegative weights."
  },
  {
   "property": "C87",
   "status": "proved",
   "theorems": [
    "PolyDiM.C87_entries",
    "PolyDiM.C87_newton"
   ],
   "note": "Any field; one cell."
  },
  {
   "property": "C88",
   "status": "proved",
   "theorems": [
    "PolyDiM.C88_L2_quadrature",
    "PolyDiM.C88_H1_quadrature",
    "PolyDiM.C88_L2_exact",
    "PolyDiM.C88_H1_exact"
   ],
   "note": "Same assumptions as C51; one cell."
  },
  {
   "property": "C89",
   "status": "partial",
   "theorems": [
    "PolyDiM.C89_methods_partial",
    "PolyDiM.C89_methods_false"
   ],
   "note": "Holds for virtual elements; refuted for ZFEM, whose values at given points always throw."
  },
  {
   "property": "C90",
   "status": "proved",
   "theorems": [
    "PolyDiM.C90_nodes",
    "PolyDiM.C90_polynomial"
   ],
   "note": "Same assumptions as C51 for every cell; the mesh data (vertices, edges, directions, geometry of the cells) are consistent."
  },
  {
   "property": "C91",
   "status": "proved",
   "theorems": [
    "PolyDiM.C91_strong",
    "PolyDiM.C91_interpolant"
   ],
   "note": "Same assumptions. Internal DOFs with a Dirichlet condition stay zero, as in the code; the interpolant statement therefore asks for strong vertices and edges only."
  },
  {
   "property": "C92",
   "status": "proved",
   "theorems": [
    "PolyDiM.C92_weak"
   ],
   "note": "Same assumptions; Gauss rule exact to degree 2k with points in [0,1]."
  },
  {
   "property": "C93",
   "status": "proved",
   "theorems": [
    "PolyDiM.C93_patch",
    "PolyDiM.C93_dirichlet"
   ],
   "note": "Same assumptions; inner edges occur once in each direction, edges with a Dirichlet condition have Dirichlet ends."
  },
  {
   "property": "C94",
   "status": "proved",
   "theorems": [
    "PolyDiM.C94_extract",
    "PolyDiM.C94_roundtrip"
   ],
   "note": "Same assumptions."
  },
  {
   "property": "C95",
   "status": "proved",
   "theorems": [
    "PolyDiM.C95_solvable",
    "PolyDiM.C95_variable",
    "PolyDiM.C95_exact"
   ],
   "note": "Same assumptions; for a variable tensor nonnegative weights."
  },
  {
   "property": "C96",
   "status": "proved",
   "theorems": [
    "PolyDiM.C96_gradients",
    "PolyDiM.C96_basis",
    "PolyDiM.C96_orthonormal"
   ],
   "note": "LAPACK svd is a parameter that returns orthonormal right singular vectors; order at most 65534 (32-bit sizes)."
  },
  {
   "property": "C97",
   "status": "proved",
   "theorems": [
    "PolyDiM.C97_divergence",
    "PolyDiM.C97_exact",
    "PolyDiM.C97_polynomial"
   ],
   "note": "Exact arithmetic; polygon with a triangulation and outward normals; rules exact to degree 2k+2 (triangle, nonnegative weights) and 2k+1 (edge); llt solves positive definite systems."
  },
  {
   "property": "C98",
   "status": "proved",
   "theorems": [
    "PolyDiM.C98_projection",
    "PolyDiM.C98_exact"
   ],
   "note": "Same assumptions as C97."
  },
  {
   "property": "C99",
   "status": "proved",
   "theorems": [
    "PolyDiM.C99_dofs",
    "PolyDiM.C99_left_inverse"
   ],
   "note": "Same assumptions."
  },
  {
   "property": "C100",
   "status": "proved",
   "theorems": [
    "PolyDiM.C100_form",
    "PolyDiM.C100_polynomials",
    "PolyDiM.C100_definite"
   ],
   "note": "Same assumptions; positive measure."
  },
  {
   "property": "C101",
   "status": "proved",
   "theorems": [
    "PolyDiM.C101_values",
    "PolyDiM.C101_values_at",
    "PolyDiM.C101_divergence",
    "PolyDiM.C101_pressure",
    "PolyDiM.C101_pressure_alone"
   ],
   "note": "Same assumptions. The pressure space alone leaves Qmatrix empty and cannot evaluate its functions; LocalSpace_MCC_2D sets it from the velocity."
  },
  {
   "property": "C102",
   "status": "proved",
   "theorems": [
    "PolyDiM.C102_trace",
    "PolyDiM.C102_edge_integrals",
    "PolyDiM.C102_edge_dofs"
   ],
   "note": "Same assumptions."
  },
  {
   "property": "C103",
   "status": "proved",
   "theorems": [
    "PolyDiM.C103_matrix"
   ],
   "note": "Exact arithmetic; tables exact and with nonnegative weights, svd, sqrt and llt as in C96-C102; edges stored as Gedim stores them."
  },
  {
   "property": "C104",
   "status": "proved",
   "theorems": [
    "PolyDiM.C104_strong",
    "PolyDiM.C104_rhs",
    "PolyDiM.C104_weak_integral"
   ],
   "note": "Exact arithmetic; tables exact and with nonnegative weights, svd, sqrt and llt as in C96-C102; edges stored as Gedim stores them."
  },
  {
   "property": "C105",
   "status": "proved",
   "theorems": [
    "PolyDiM.C105_patch_test"
   ],
   "note": "Same assumptions; edges without a boundary condition occur once in each direction; no strong condition on cells."
  },
  {
   "property": "C106",
   "status": "proved",
   "theorems": [
    "PolyDiM.C106_unique"
   ],
   "note": "Same assumptions."
  },
  {
   "property": "C107",
   "status": "proved",
   "theorems": [
    "PolyDiM.C107_exact"
   ],
   "note": "Same assumptions."
  },
  {
   "property": "C108",
   "status": "proved",
   "theorems": [
    "PolyDiM.C108_create",
    "PolyDiM.C108_order_one"
   ],
   "note": "Exact arithmetic; tables exact and with nonnegative weights, lu, llt and sqrt as in C70-C77; in the reduced space the stored measure is the area. Order between 2 and 65535."
  },
  {
   "property": "C109",
   "status": "proved",
   "theorems": [
    "PolyDiM.C109_divergence"
   ],
   "note": "Exact arithmetic; tables exact and with nonnegative weights, lu, llt and sqrt as in C70-C77; in the reduced space the stored measure is the area. Order between 2 and 65535."
  },
  {
   "property": "C110",
   "status": "proved",
   "theorems": [
    "PolyDiM.C110_moments"
   ],
   "note": "Exact arithmetic; tables exact and with nonnegative weights, lu, llt and sqrt as in C70-C77; in the reduced space the stored measure is the area. Order between 2 and 65535."
  },
  {
   "property": "C111",
   "status": "proved",
   "theorems": [
    "PolyDiM.C111_energy",
    "PolyDiM.C111_exact"
   ],
   "note": "Exact arithmetic; tables exact and with nonnegative weights, lu, llt and sqrt as in C70-C77; in the reduced space the stored measure is the area. Order between 2 and 65535."
  },
  {
   "property": "C112",
   "status": "proved",
   "theorems": [
    "PolyDiM.C112_moments",
    "PolyDiM.C111_exact"
   ],
   "note": "Exact arithmetic; tables exact and with nonnegative weights, lu, llt and sqrt as in C70-C77; in the reduced space the stored measure is the area. Order between 2 and 65535."
  },
  {
   "property": "C113",
   "status": "proved",
   "theorems": [
    "PolyDiM.C113_derivatives",
    "PolyDiM.C113_exact"
   ],
   "note": "Exact arithmetic; tables exact and with nonnegative weights, lu, llt and sqrt as in C70-C77; in the reduced space the stored measure is the area. Order between 2 and 65535."
  },
  {
   "property": "C114",
   "status": "proved",
   "theorems": [
    "PolyDiM.C114_dofs",
    "PolyDiM.C114_stabilization"
   ],
   "note": "Exact arithmetic; tables exact and with nonnegative weights, lu, llt and sqrt as in C70-C77; in the reduced space the stored measure is the area. Order between 2 and 65535."
  },
  {
   "property": "C115",
   "status": "proved",
   "theorems": [
    "PolyDiM.C115_values",
    "PolyDiM.C115_derivatives",
    "PolyDiM.C115_divergence"
   ],
   "note": "Exact arithmetic; tables exact and with nonnegative weights, lu, llt and sqrt as in C70-C77; in the reduced space the stored measure is the area. Order between 2 and 65535."
  },
  {
   "property": "C116",
   "status": "proved",
   "theorems": [
    "PolyDiM.C116_pressure"
   ],
   "note": "Exact arithmetic; tables exact and with nonnegative weights, lu, llt and sqrt as in C70-C77; in the reduced space the stored measure is the area. Order between 2 and 65535."
  },
  {
   "property": "C117",
   "status": "proved",
   "theorems": [
    "PolyDiM.C117_realized",
    "PolyDiM.C117_determined"
   ],
   "note": "Exact arithmetic; hypotheses as in C108-C116. The fields of the proof are determined by the DOFs up to what the method sees (divergence, boundary values, moments up to degree k)."
  },
  {
   "property": "C118",
   "status": "proved",
   "theorems": [
    "PolyDiM.C118_unknowns",
    "PolyDiM.C118_matrix"
   ],
   "note": "Exact arithmetic; hypotheses on tables, solvers and polygons as in C108-C117. All DOFs together fit in unsigned int."
  },
  {
   "property": "C119",
   "status": "proved",
   "theorems": [
    "PolyDiM.C119_conditions",
    "PolyDiM.C119_strong",
    "PolyDiM.C119_rhs",
    "PolyDiM.C119_weak_integral"
   ],
   "note": "Exact arithmetic; hypotheses as in C118. The integral form needs data of degree at most k along weak edges and a Gauss rule of degree 2k."
  },
  {
   "property": "C120",
   "status": "proved",
   "theorems": [
    "PolyDiM.C120_divergence"
   ],
   "note": "Exact arithmetic; hypotheses as in C118."
  },
  {
   "property": "C121",
   "status": "proved",
   "theorems": [
    "PolyDiM.C121_patch"
   ],
   "note": "Exact arithmetic; hypotheses as in C118. Reduced element: velocity with constant divergence. Pressure of degree at most k+1, and at most k if an edge is weak."
  },
  {
   "property": "C122",
   "status": "proved",
   "theorems": [
    "PolyDiM.C122_unique"
   ],
   "note": "Exact arithmetic; hypotheses as in C118, and IsFlowMesh: viscosity and drag, cover of vertices and edges by cells, velocity held, pressure held."
  },
  {
   "property": "C123",
   "status": "proved",
   "theorems": [
    "PolyDiM.C123_exact"
   ],
   "note": "Exact arithmetic; hypotheses as in C121 and C122."
  },
  {
   "property": "C124",
   "status": "proved",
   "theorems": [
    "PolyDiM.C124_numbering"
   ],
   "note": "unsigned int counters are unbounded naturals."
  },
  {
   "property": "C125",
   "status": "proved",
   "theorems": [
    "PolyDiM.C125_nodes"
   ],
   "note": "Exact arithmetic; hypothesis IsFan: the affine maps are those of the triangles centre, vertex t, vertex t+1, and their stored inverses are inverses."
  },
  {
   "property": "C126",
   "status": "proved",
   "theorems": [
    "PolyDiM.C126_unisolvent",
    "PolyDiM.C126_weights",
    "PolyDiM.C126_hanging_fails"
   ],
   "note": "Exact arithmetic; the factorization is a parameter that solves symmetric positive definite systems."
  },
  {
   "property": "C127",
   "status": "proved",
   "theorems": [
    "PolyDiM.C127_minimal"
   ],
   "note": "As C126."
  },
  {
   "property": "C128",
   "status": "proved",
   "theorems": [
    "PolyDiM.C128_values",
    "PolyDiM.C128_derivatives",
    "PolyDiM.C128_quadrature"
   ],
   "note": "As C126."
  },
  {
   "property": "C129",
   "status": "proved",
   "theorems": [
    "PolyDiM.C129_nodal",
    "PolyDiM.C129_edge",
    "PolyDiM.C129_spoke"
   ],
   "note": "As C126."
  },
  {
   "property": "C130",
   "status": "proved",
   "theorems": [
    "PolyDiM.C130_galerkin",
    "PolyDiM.C130_stable"
   ],
   "note": "As C126; table exact of degree 2k, with nonnegative weights for the stability. Data: kappa of degree 2, beta of degree 1, f of degree k; any positive kappa for the stability."
  },
  {
   "property": "C131",
   "status": "proved",
   "theorems": [
    "PolyDiM.C131_galerkin",
    "PolyDiM.C131_supg",
    "PolyDiM.C131_no_advection",
    "PolyDiM.C131_no_laplacian"
   ],
   "note": "Exact arithmetic; 0/0 is the outcome notANumber. For every space record with CellTables."
  },
  {
   "property": "C132",
   "status": "proved",
   "theorems": [
    "PolyDiM.C132_consistent",
    "PolyDiM.C132_variable_false"
   ],
   "note": "Exact arithmetic; hypotheses on tables, solvers and polygons as in C70-C77. C132_variable_false is the negative part."
  },
  {
   "property": "C133",
   "status": "proved",
   "theorems": [
    "PolyDiM.C133_patch"
   ],
   "note": "Same assumptions; all cells active (the example does not skip inactive ones)."
  },
  {
   "property": "C134",
   "status": "proved",
   "theorems": [
    "PolyDiM.C134_orthonormal",
    "PolyDiM.C134_negative"
   ],
   "note": "Exact arithmetic; MGS, inverseTri, sqrt are parameters with contracts (IsOrthoLib). C134_negative is the case of a negative weight."
  },
  {
   "property": "C135",
   "status": "proved",
   "theorems": [
    "PolyDiM.C135_monomials",
    "PolyDiM.C135_l2",
    "PolyDiM.C135_exact"
   ],
   "note": "Same assumptions."
  },
  {
   "property": "C136",
   "status": "proved",
   "theorems": [
    "PolyDiM.C136_dofs",
    "PolyDiM.C136_stabilization"
   ],
   "note": "Same assumptions."
  },
  {
   "property": "C137",
   "status": "proved",
   "theorems": [
    "PolyDiM.C137_values",
    "PolyDiM.C137_derivatives",
    "PolyDiM.C137_internal"
   ],
   "note": "Same assumptions."
  },
  {
   "property": "C138",
   "status": "proved",
   "theorems": [
    "PolyDiM.C138_meaning"
   ],
   "note": "Exact arithmetic; sqrt is a parameter with its contract. Condition numbers (SVD) are not modelled."
  },
  {
   "property": "C139",
   "status": "proved",
   "theorems": [
    "PolyDiM.C139_monomials"
   ],
   "note": "Same assumptions."
  },
  {
   "property": "C140",
   "status": "partial",
   "theorems": [
    "PolyDiM.C140_ortho_partial",
    "PolyDiM.C140_hed_wrong"
   ],
   "note": "All errors but ErrorHED are zero. ErrorHED is not: it compares a matrix over monomials with matrices over the orthonormal basis; C140_hed_wrong proves both components nonzero for every order on every element whose points are nearer to the centroid than the diameter."
  },
  {
   "property": "C141",
   "status": "proved",
   "theorems": [
    "PolyDiM.C141_meaning",
    "PolyDiM.C141_consistency"
   ],
   "note": "Exact arithmetic; assumptions of the ZFEM space as in C130."
  },
  {
   "property": "C142",
   "status": "proved",
   "theorems": [
    "PolyDiM.C142_forms",
    "PolyDiM.C142_exact"
   ],
   "note": "Exact arithmetic; the segment rule is a parameter."
  },
  {
   "property": "C143",
   "status": "proved",
   "theorems": [
    "PolyDiM.C143_patch",
    "PolyDiM.C143_patch_test",
    "PolyDiM.C143_rotated_test"
   ],
   "note": "Exact arithmetic; DOFs created by the library function, fewer than 2^32. No segment of strong type, since ComputeStrongTerm visits vertices only. The exceptions of the tests for unknown markers are not modelled."
  },
  {
   "property": "C144",
   "status": "proved",
   "theorems": [
    "PolyDiM.C144_unique",
    "PolyDiM.C144_exact"
   ],
   "note": "Exact arithmetic; solvability of the assembled system, not the behaviour of the solver."
  },
  {
   "property": "C145",
   "status": "partial",
   "theorems": [
    "PolyDiM.C145_errors_partial",
    "PolyDiM.C145_vertical"
   ],
   "note": "L2 error and both norms for all segments. The H1 error only where the third component of the exact derivative or of the tangent vanishes: the code leaves the third component out, and C145_vertical proves that it reports 1 instead of 0 for the exact solution z on a segment along the third axis."
  },
  {
   "property": "C146",
   "status": "proved",
   "theorems": [
    "PolyDiM.C146_form",
    "PolyDiM.C146_kernel",
    "PolyDiM.C146_singular",
    "PolyDiM.C146_explicit"
   ],
   "note": "Exact arithmetic; tables and solvers are parameters with contracts as in C51."
  },
  {
   "property": "C147",
   "status": "proved",
   "theorems": [
    "PolyDiM.C147_patch"
   ],
   "note": "Exact arithmetic; Eigen_LUSolver is a parameter that solves regular systems. Every entity of the mesh is in an active cell. Constant positive diffusion, theta > 0."
  },
  {
   "property": "C148",
   "status": "proved",
   "theorems": [
    "PolyDiM.C148_definite",
    "PolyDiM.C148_unique"
   ],
   "note": "Exact arithmetic; same assumptions on mesh and diffusion."
  },
  {
   "property": "C149",
   "status": "proved",
   "theorems": [
    "PolyDiM.C149_energy",
    "PolyDiM.C149_stable"
   ],
   "note": "Exact arithmetic; theta dt > 0. Loads and Dirichlet values are arbitrary data for the step, not tied to one assembler call."
  },
  {
   "property": "C150",
   "status": "partial",
   "theorems": [
    "PolyDiM.C150_grid_partial",
    "PolyDiM.C150_grid_wrong",
    "PolyDiM.C150_clock",
    "PolyDiM.C150_wrong"
   ],
   "note": "Holds for time domains of length one. On all others it is false (C150_grid_wrong), and C150_wrong proves the effect: on [0, 2] with step 1/2 the run ends with the solution at time 1. Gedim's EquispaceCoordinates is a parameter that returns (0, 1, ..., N)/N for the step 1/N."
  },
  {
   "property": "C151",
   "status": "proved",
   "theorems": [
    "PolyDiM.C151_forms",
    "PolyDiM.C151_exact",
    "PolyDiM.C151_kernel"
   ],
   "note": "Exact arithmetic; the VEM space with monomials and the default projections of the example. Lame coefficients of degree at most 2 in C151_exact, constant in C151_kernel."
  },
  {
   "property": "C152",
   "status": "proved",
   "theorems": [
    "PolyDiM.C152_patch",
    "PolyDiM.C152_plate"
   ],
   "note": "Exact arithmetic over the reals; decimal constants are the numbers they denote. The marker convention of Gedim's mesh generators (corners 1 to 4, sides 5 to 8, counterclockwise) is an assumption in the specification."
  },
  {
   "property": "C153",
   "status": "partial",
   "theorems": [
    "PolyDiM.C153_lame_wrong",
    "PolyDiM.C153_area_partial",
    "PolyDiM.C153_area_wrong"
   ],
   "note": "The claim is false. The shear modulus of both tests is E * (2 (1 + nu)) instead of E / (2 (1 + nu)), for all constants (C153_lame_wrong); the first coefficient is right. The area of Cook's membrane is 1408 instead of 1440, and it is declared a parallelogram (C153_area_wrong). The other domains are right (C153_area_partial)."
  },
  {
   "property": "C154",
   "status": "proved",
   "theorems": [
    "PolyDiM.C154_patch",
    "PolyDiM.C154_polynomial",
    "PolyDiM.C154_sine",
    "PolyDiM.C154_advection"
   ],
   "note": "Exact arithmetic over the reals; decimal constants are the numbers they denote. The marker convention of Gedim's mesh generators (corners 1 to 4, sides 5 to 8, counterclockwise) is an assumption in the specification."
  },
  {
   "property": "C155",
   "status": "proved",
   "theorems": [
    "PolyDiM.C155_patch",
    "PolyDiM.C155_sine"
   ],
   "note": "Exact arithmetic over the reals; decimal constants are the numbers they denote. The marker convention of Gedim's mesh generators (corners 1 to 4, sides 5 to 8, counterclockwise) is an assumption in the specification."
  },
  {
   "property": "C156",
   "status": "proved",
   "theorems": [
    "PolyDiM.C156_patch",
    "PolyDiM.C156_sine"
   ],
   "note": "Exact arithmetic over the reals; decimal constants are the numbers they denote. The marker convention of Gedim's mesh generators (corners 1 to 4, sides 5 to 8, counterclockwise) is an assumption in the specification."
  },
  {
   "property": "C157",
   "status": "proved",
   "theorems": [
    "PolyDiM.C157_patch",
    "PolyDiM.C157_sine",
    "PolyDiM.C157_zero",
    "PolyDiM.C157_darcy",
    "PolyDiM.C157_brinkman"
   ],
   "note": "Exact arithmetic over the reals; decimal constants are the numbers they denote. The marker convention of Gedim's mesh generators (corners 1 to 4, sides 5 to 8, counterclockwise) is an assumption in the specification. The two coupled tests DarcyStokes_1 and DarcyStokes_2 are not modelled."
  },
  {
   "property": "C158",
   "status": "proved",
   "theorems": [
    "PolyDiM.C158_patch",
    "PolyDiM.C158_sine",
    "PolyDiM.C158_navier",
    "PolyDiM.C158_disk"
   ],
   "note": "Exact arithmetic over the reals; decimal constants are the numbers they denote. The marker convention of Gedim's mesh generators (corners 1 to 4, sides 5 to 8, counterclockwise) is an assumption in the specification. The disk of NavierStokes_VanishingExternalLoad comes from a mesh file; for it the equations and the strong data are proved, not the boundary of the domain."
  },
  {
   "property": "C159",
   "status": "proved",
   "theorems": [
    "PolyDiM.C159_cube"
   ],
   "note": "The tables are finite, so the proof evaluates them completely."
  },
  {
   "property": "C160",
   "status": "proved",
   "theorems": [
    "PolyDiM.C160_patch",
    "PolyDiM.C160_polynomial",
    "PolyDiM.C160_sine"
   ],
   "note": "Exact arithmetic over the reals; decimal constants are the numbers they denote, tgamma of an integer is the factorial. The marker convention of Gedim's mesh generators (corners 1 to 8, edges 9 to 20, faces 21 to 26 in the order of the tables) is an assumption in the specification."
  },
  {
   "property": "C161",
   "status": "proved",
   "theorems": [
    "PolyDiM.C161_patch",
    "PolyDiM.C161_polynomial"
   ],
   "note": "Exact arithmetic over the reals; decimal constants are the numbers they denote, tgamma of an integer is the factorial. The marker convention of Gedim's mesh generators (corners 1 to 8, edges 9 to 20, faces 21 to 26 in the order of the tables) is an assumption in the specification."
  },
  {
   "property": "C162",
   "status": "proved",
   "theorems": [
    "PolyDiM.C162_patch",
    "PolyDiM.C162_stokes",
    "PolyDiM.C162_benchmark1",
    "PolyDiM.C162_benchmark2"
   ],
   "note": "Exact arithmetic over the reals; decimal constants are the numbers they denote, tgamma of an integer is the factorial. The marker convention of Gedim's mesh generators (corners 1 to 8, edges 9 to 20, faces 21 to 26 in the order of the tables) is an assumption in the specification."
  },
  {
   "property": "C163",
   "status": "proved",
   "theorems": [
    "PolyDiM.C163_patch"
   ],
   "note": "The numbers of DOFs of both components together are assumed to fit in unsigned int, and the quadrature table on the edges to be exact up to degree 2k; every cell is active."
  },
  {
   "property": "C164",
   "status": "proved",
   "theorems": [
    "PolyDiM.C164_definite",
    "PolyDiM.C164_exact"
   ],
   "note": "Constant coefficients; every cell is active, the totals of both components fit in unsigned int. C164_definite takes the run of Assemble as given, C164_exact shows that it succeeds."
  },
  {
   "property": "C165",
   "status": "proved",
   "theorems": [
    "PolyDiM.C165_errors",
    "PolyDiM.C165_exact"
   ],
   "note": "Exact arithmetic, VEM local space. The exact functions throw everywhere or nowhere. The totals of both components fit in unsigned int."
  },
  {
   "property": "C166",
   "status": "proved",
   "theorems": [
    "PolyDiM.C166_triplets",
    "PolyDiM.C166_round",
    "PolyDiM.C166_shift"
   ],
   "note": "setFromTriplets of Eigen and Triplets of GeDiM are library calls, modelled by their contract (duplicates are added, one stored entry for each position)."
  },
  {
   "property": "C167",
   "status": "proved",
   "theorems": [
    "PolyDiM.C167_source",
    "PolyDiM.C167_gradients",
    "PolyDiM.C167_operator",
    "PolyDiM.C167_apply",
    "PolyDiM.C167_newton"
   ],
   "note": "One cell, with the values of the unknowns on the cell given; the loop over the cells and global_solution_to_local_solution are those of C13 to C17. Exact arithmetic. For the virtual element the values at the quadrature points are those of the projection of degree k-1, the default of the functions of the local space."
  },
  {
   "property": "C168",
   "status": "proved",
   "theorems": [
    "PolyDiM.C168_values",
    "PolyDiM.C168_error"
   ],
   "note": "The values of the unknowns on a cell are given (C13). Both exact functions are given; without them the vectors are zero."
  },
  {
   "property": "C169",
   "status": "proved",
   "theorems": [
    "PolyDiM.C169_elliptic",
    "PolyDiM.C169_parabolic"
   ],
   "note": "Point by point, decimal constants are the exact numbers. The domain is the unit disk: the meshes are imported, the disk is the one for which alpha, beta and the sources of the tests fit; the polygonal approximation of the disk by the mesh is not modelled."
  },
  {
   "property": "C170",
   "status": "proved",
   "theorems": [
    "PolyDiM.C170_exchange",
    "PolyDiM.C170_exact",
    "PolyDiM.C170_surface"
   ],
   "note": "Exact arithmetic. That node j of segment c is the same point for both handlers (orientation of the extracted edges) is a property of Gedim's ExtractMesh1D and is not modelled; the statement holds for whatever numbers the two handlers give. The loop that adds the local matrices of AssembleMatrix_1D is that of C15 to C17."
  },
  {
   "property": "C171",
   "status": "proved",
   "theorems": [
    "PolyDiM.C171_euler",
    "PolyDiM.C171_times",
    "PolyDiM.C171_conserved",
    "PolyDiM.C171_stable",
    "PolyDiM.C171_stationary"
   ],
   "note": "The loop of main.cpp is modelled with the solver, the assembly of the load and the errors of the fields as parameters; the two consequences are stated for every sequence that follows implicit Euler."
  },
  {
   "property": "C172",
   "status": "partial",
   "theorems": [
    "PolyDiM.C172_errors_partial",
    "PolyDiM.C172_not_largest"
   ],
   "note": "Proved: the report of a run carries the errors at the last time, of each field and of both together, with the norms when the error is not zero. Not true, with a witness: PostProcessSolution makes a new object in each call, so that the comparisons are with zero and the largest error in time is lost; an error that is exactly zero leaves the norm at zero."
  },
  {
   "property": "C173",
   "status": "proved",
   "theorems": [
    "PolyDiM.C173_newton",
    "PolyDiM.C173_skew",
    "PolyDiM.C173_none"
   ],
   "note": "On one cell, with the tables of the speed as given; the loops and products are modelled one by one."
  },
  {
   "property": "C174",
   "status": "proved",
   "theorems": [
    "PolyDiM.C174_newton",
    "PolyDiM.C174_fixed"
   ],
   "note": "The assembled convection enters by the contract that it is the linearisation of a quadratic term, which C173 proves on each cell; the solver by the contract SolvesSystems, on a set of iterates where the matrices are regular."
  },
  {
   "property": "C175",
   "status": "partial",
   "theorems": [
    "PolyDiM.C175_report_partial",
    "PolyDiM.C175_residual",
    "PolyDiM.C175_unset"
   ],
   "note": "Proved: a result carries a number of passes between one and the maximum, and the residual it reports is zero. Not true, with witnesses: residual_norm is that of the linear system just solved, so that the test on the residual is always met; and num_nl_iterations has no value when no pass meets the tolerances, but is passed to export_solution."
  },
  {
   "property": "C176",
   "status": "proved",
   "theorems": [
    "PolyDiM.C176_assembled",
    "PolyDiM.C176_iteration"
   ],
   "note": "The tables of the local spaces are given; the basis fields are what the tables say. The convective contract of C174 follows; left as hypotheses of the iteration are the solver and the regularity of the matrices."
  },
  {
   "property": "C177",
   "status": "proved",
   "theorems": [
    "PolyDiM.C177_energy",
    "PolyDiM.C177_transport",
    "PolyDiM.C177_solution"
   ],
   "note": "For the assembled terms of C176 in the skew form, with zero boundary values."
  },
  {
   "property": "C178",
   "status": "proved",
   "theorems": [
    "PolyDiM.C178_report",
    "PolyDiM.C178_exact"
   ],
   "note": "The tables of the local spaces are given; the basis functions are what the tables say. The residual is an argument that is copied and is the subject of C175."
  },
  {
   "property": "C179",
   "status": "partial",
   "theorems": [
    "PolyDiM.C179_report_partial",
    "PolyDiM.C179_unknown"
   ],
   "note": "Proved: norms, values at the vertices, repeated connectivity and mesh size for all tests, and the errors for a test with exact functions. Not true: for a test whose exact functions throw (DarcyStokes_2) the errors are zero whatever the solution is. The residual and the coefficients at the centroids are not modelled; the flux is the subject of C180."
  },
  {
   "property": "C180",
   "status": "proved",
   "theorems": [
    "PolyDiM.C180_flux"
   ],
   "note": "The edges of the cells with their markers, lengths, normals and tables are given. An edge inside the mesh with a marker is counted from both of its cells, as in the code. The order of the keys of the map is not modelled."
  }
 ]
}