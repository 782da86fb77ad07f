import Verif.Model.AssemblerPcc2D

/-!
# Model: the assembler of the primal formulation in the plane, on the whole mesh

PolyDiM/src/PDETools/Assembler/assembler_PCC_2D_functions.cpp: `assemble_source_term`, `assemble_elliptic_operator`, `assemble_strong_solution`,
`evaluate_function_on_dofs`, `assemble_weak_term`, `extract_solution_on_cell0Ds`, and the functions of
PolyDiM/src/PDETools/LocalSpace/LocalSpace_PCC_2D.cpp they call.

The loops only write to the global vectors and matrices and never read them, therefore every loop returns the list of its writes; the writes are
applied in that order afterwards. Where both a write and a later step fail, the fault reported can differ.
-/

namespace PolyDiM

variable {K : Type} [Field K] [LinearOrder K]

/-- The functions of LocalSpace_PCC_2D.cpp on one cell that concern the degrees of freedom, in addition to those of `Space2D`: `EdgeDofsCoordinates`
(384-446), `InternalDofsCoordinates` (448-475), `InternalDofs` (477-499), `BasisFunctionsValuesOnEdge` (239-267). -/
structure CellSpace2D (K : Type) extends Space2D K where
  edgeCoords : Nat → Except Fault (List (K × K))
  internalCoords : Except Fault (Rule (K × K) K)
  internalDofs : List K → Rule (K × K) K → Except Fault (List K)
  valuesOnEdge : Nat → List K → Except Fault (DMat K)

/-- The case `VEM_PCC` of `EdgeDofsCoordinates`, LocalSpace_PCC_2D.cpp:395-419. -/
def vemEdgeCoords (ts : List K) (g : PolyEdges K) (e : Nat) : Except Fault (List (K × K)) :=
  if ts.length = 0 then .ok []
  else do
    let dir ← atIdx g.dirs e
    let origin ← unchecked g.vertices (if dir then e else (e + 1) % g.vertices.length)
    let tangent ← unchecked g.tangents e
    let direction : K := if dir then 1 else -1
    .ok (ts.map fun t => origin + (direction * t) • tangent)

/-- The entries of a matrix with one column as a vector (`Eigen::VectorXd` results, e.g. LocalSpace_PCC_2D.cpp:494). -/
def DMat.toList (x : DMat K) : List K := (List.range x.rows).map fun i => x.ent i 0

/-- The case `VEM_PCC` of `InternalDofs`, LocalSpace_PCC_2D.cpp:487-495, with `ComputeScaledPolynomialsValues`, VEM_PCC_2D_LocalSpace.hpp:197-200. -/
def vemInternalDofs (poly : VemPolygon K) (s : VemSpace2D K) (values : List K) (rule : Rule (K × K) K) : Except Fault (List K) := do
  let V ← s.init.vanderInt.block 0 0 s.init.vanderInt.rows s.init.nkm2
  let T ← (DMat.smul (1 / poly.measure) V).tr.mulDiag rule.weights
  let x ← T.mul (.col values)
  .ok x.toList

/-- The cases `VEM_PCC` of the functions in LocalSpace_PCC_2D.cpp: 253-258, 395-419, 462-471, 487-495, and those of `vemSpace2D`. -/
def vemCell2D (ref : VemRef2D K) (poly : VemPolygon K) (s : VemSpace2D K) : CellSpace2D K where
  toSpace2D := vemSpace2D ref poly s
  edgeCoords := vemEdgeCoords ref.ts poly.edges
  internalCoords := .ok s.internal
  internalDofs := vemInternalDofs poly s
  valuesOnEdge := fun _ => vemValuesOnEdge ref

/-- `CreateLocalSpace` of LocalSpace_PCC_2D.cpp on cell `c`, in the case `VEM_PCC` (as it is called in assembler_PCC_2D_functions.cpp:237-242);
the geometry of the cell is that of the polygon `poly c`. -/
def vemSpaces (lu llt : Solver K) (ref : VemRef2D K) (poly : Nat → VemPolygon K) (c : Nat) : Except Fault (CellSpace2D K) := do
  let s ← vemCreate2D lu llt ref (poly c)
  .ok (vemCell2D ref (poly c) s)

/-- `SetMeshDOFsInfo` with the method `VEM_PCC`, LocalSpace_PCC_2D.cpp:501-604; the number of DOFs of a vertex is 1 (VEM_PCC_2D_ReferenceElement.hpp:40).
The boundary information of the mesh is read by the marker as in `Create_Constant_DOFsInfo`. -/
def vemMeshInfo (ref : VemRef2D K) (mesh : Mesh) (boundary : Nat → Option BInfo) : Except Fault MeshInfo :=
  createConstantInfo 2 mesh ⟨fun d => if d = 0 then 1 else if d = 1 then ref.dofs1D else ref.dofs2D, boundary⟩

/-- What the assembler reads of `Gedim::MeshMatricesDAO`: connectivity, `Cell0DTotalNumber`, `Cell2DTotalNumber`, `Cell0DCoordinates`, `Cell0DIsActive`,
`Cell2DIsActive` (assembler_PCC_2D_functions.cpp:350-363, 460-467, 718-734). `Cell2DVerticesCoordinates` are the coordinates of the vertices of the cell.
The numbers of cells are those of the connectivity used by the DOF manager (the same mesh, seen through `MeshMatricesDAO_mesh_connectivity_data`). -/
structure PlaneMesh (K : Type) where
  topo : Mesh
  coords : Nat → K × K
  active0D : Nat → Bool
  active2D : Nat → Bool

/-- `Cell0DTotalNumber`, assembler_PCC_2D_functions.cpp:718, and MeshMatricesDAO_mesh_connectivity_data.hpp:35-38. -/
def PlaneMesh.num0D (mesh : PlaneMesh K) : Nat := (mesh.topo.markers 0).length

/-- `Cell1DTotalNumber`, MeshMatricesDAO_mesh_connectivity_data.hpp:39-42. -/
def PlaneMesh.num1D (mesh : PlaneMesh K) : Nat := (mesh.topo.markers 1).length

/-- `Cell2DTotalNumber`, assembler_PCC_2D_functions.cpp:350, and MeshMatricesDAO_mesh_connectivity_data.hpp:43-46. -/
def PlaneMesh.num2D (mesh : PlaneMesh K) : Nat := (mesh.topo.markers 2).length

/-- The active cells in the order of the loops, e.g. assembler_PCC_2D_functions.cpp:350-353. -/
def PlaneMesh.cells (mesh : PlaneMesh K) : List Nat := (List.range mesh.num2D).filter mesh.active2D

/-! ## `evaluate_function_on_dofs` -/

/-- The two vectors of `Evaluate_Function_On_DOFs_Data`, assembler_PCC_2D_functions.cpp:450-454, 573-576. -/
structure OnDofs (K : Type) where
  free : List K
  strong : List K

/-- `SetValue` into the vector chosen by the type of the DOF, assembler_PCC_2D_functions.cpp:475-487, 518-530, 555-567. Outside the vector it is undefined. -/
def writeDof (v : OnDofs K) (w : DOF × K) : Except Fault (OnDofs K) :=
  match w.1.type with
  | .unknwon => .error .unknownDOFType
  | .strong => do
    let x ← writeAt v.strong w.1.globalIndex w.2
    .ok ⟨v.free, x⟩
  | .dof => do
    let x ← writeAt v.free w.1.globalIndex w.2
    .ok ⟨x, v.strong⟩

/-- The loop over the DOFs of one entity, assembler_PCC_2D_functions.cpp:470-488, 513-531, 550-568: the DOFs get consecutive values, the first one
`values(k)`. -/
def dofWrites (values : List K) : Nat → List DOF → Except Fault (List (DOF × K))
  | _, [] => .ok []
  | k, x :: xs =>
    if x.type = .unknwon then .error .unknownDOFType
    else do
      let y ← unchecked values k
      let rest ← dofWrites values (k + 1) xs
      .ok ((x, y) :: rest)

/-- The loop over the vertices, assembler_PCC_2D_functions.cpp:464-489: `count` is advanced by every DOF. -/
def vertexWrites (data : DOFsData) (values : List K) : Nat → List Nat → Except Fault (List (DOF × K))
  | _, [] => .ok []
  | count, v :: vs => do
    let x ← atIdx (data.dims 0).cells v
    let w ← dofWrites values count x.dofs
    let rest ← vertexWrites data values (count + x.dofs.length) vs
    .ok (w ++ rest)

/-- One edge, assembler_PCC_2D_functions.cpp:504-531. -/
def cellEdgeWrites (data : DOFsData) (space : CellSpace2D K) (f : K × K → K) (e : Nat × Nat) : Except Fault (List (DOF × K)) := do
  let x ← atIdx (data.dims 1).cells e.1
  let points ← space.edgeCoords e.2
  dofWrites (evalScalar points f) 0 x.dofs

/-- The DOFs of the cell itself, assembler_PCC_2D_functions.cpp:534-569. -/
def internalWrites (data : DOFsData) (space : CellSpace2D K) (f : K × K → K) (c : Nat) : Except Fault (List (DOF × K)) := do
  let x ← atIdx (data.dims 2).cells c
  if x.dofs.length = 0 then .ok []
  else do
    let rule ← space.internalCoords
    let values ← space.internalDofs (evalScalar rule.points f) rule
    dofWrites values 0 x.dofs

/-- One cell of `evaluate_function_on_dofs`, assembler_PCC_2D_functions.cpp:457-571. Inactive cells are not skipped. -/
def evaluateCell (data : DOFsData) (order : Nat) (spaces : Nat → Except Fault (CellSpace2D K)) (mesh : PlaneMesh K) (f : K × K → K) (c : Nat) :
    Except Fault (List (DOF × K)) := do
  let w ← vertexWrites data (evalScalar ((mesh.topo.cell2DVertices c).map mesh.coords) f) 0 (mesh.topo.cell2DVertices c)
  if 1 < order then do
    let space ← spaces c
    let es ← (mesh.topo.cell2DEdges c).zipIdx.mapM (cellEdgeWrites data space f)
    let i ← internalWrites data space f c
    .ok (w ++ es.flatten ++ i)
  else .ok w

/-- `evaluate_function_on_dofs`, assembler_PCC_2D_functions.cpp:442-577. `SetSize` of Gedim's arrays sets the entries to zero. -/
def evaluateOnDofs (data : DOFsData) (order : Nat) (spaces : Nat → Except Fault (CellSpace2D K)) (mesh : PlaneMesh K) (f : K × K → K) :
    Except Fault (OnDofs K) := do
  let log ← (List.range mesh.num2D).mapM (evaluateCell data order spaces mesh f)
  log.flatten.foldlM writeDof ⟨List.replicate data.counters.dofs 0, List.replicate data.counters.strongs 0⟩

/-! ## `assemble_strong_solution` -/

/-- The loop over the DOFs of one entity, assembler_PCC_2D_functions.cpp:371-386, 417-432: free DOFs are skipped. -/
def strongWrites (values : List K) : Nat → List DOF → Except Fault (List (Nat × K))
  | _, [] => .ok []
  | k, x :: xs =>
    match x.type with
    | .unknwon => .error .unknownDOFType
    | .dof => strongWrites values (k + 1) xs
    | .strong => do
      let y ← unchecked values k
      let rest ← strongWrites values (k + 1) xs
      .ok ((x.globalIndex, y) :: rest)

/-- One vertex, assembler_PCC_2D_functions.cpp:357-386. -/
def strongVertex (info : MeshInfo) (data : DOFsData) (mesh : PlaneMesh K) (f : Nat → K × K → K) (v : Nat) : Except Fault (List (Nat × K)) := do
  let b ← atIdx (info.bInfo 0) v
  if b.type ≠ .strong then .ok []
  else do
    let x ← atIdx (data.dims 0).cells v
    strongWrites (evalScalar [mesh.coords v] (f b.marker)) 0 x.dofs

/-- One edge, assembler_PCC_2D_functions.cpp:400-432. -/
def strongEdge (info : MeshInfo) (data : DOFsData) (space : CellSpace2D K) (f : Nat → K × K → K) (e : Nat × Nat) : Except Fault (List (Nat × K)) := do
  let b ← atIdx (info.bInfo 1) e.1
  let x ← atIdx (data.dims 1).cells e.1
  if b.type ≠ .strong ∨ x.dofs.length = 0 then .ok []
  else do
    let points ← space.edgeCoords e.2
    strongWrites (evalScalar points (f b.marker)) 0 x.dofs

/-- One cell of `assemble_strong_solution`, assembler_PCC_2D_functions.cpp:355-434. -/
def strongCell (info : MeshInfo) (data : DOFsData) (order : Nat) (spaces : Nat → Except Fault (CellSpace2D K)) (mesh : PlaneMesh K)
    (f : Nat → K × K → K) (c : Nat) : Except Fault (List (Nat × K)) := do
  let vs ← (mesh.topo.cell2DVertices c).mapM (strongVertex info data mesh f)
  if 1 < order then do
    let space ← spaces c
    let es ← (mesh.topo.cell2DEdges c).zipIdx.mapM (strongEdge info data space f)
    .ok (vs.flatten ++ es.flatten)
  else .ok vs.flatten

/-- `assemble_strong_solution`, assembler_PCC_2D_functions.cpp:335-440. -/
def strongSolution (info : MeshInfo) (data : DOFsData) (order : Nat) (spaces : Nat → Except Fault (CellSpace2D K)) (mesh : PlaneMesh K)
    (f : Nat → K × K → K) : Except Fault (List K) := do
  let log ← mesh.cells.mapM (strongCell info data order spaces mesh f)
  log.flatten.foldlM (fun v w => writeAt v w.1 w.2) (List.replicate data.counters.strongs 0)

/-! ## `assemble_weak_term` -/

/-- The loop over the DOFs of one entity, assembler_PCC_2D_functions.cpp:654-669, 673-690: strong DOFs are skipped, DOF `k` gets `values[pos k]`. -/
def weakAdds (values : List K) (pos : Nat → Nat) : Nat → List DOF → Except Fault (List (Nat × K))
  | _, [] => .ok []
  | k, x :: xs =>
    match x.type with
    | .unknwon => .error .unknownDOFType
    | .strong => weakAdds values pos (k + 1) xs
    | .dof => do
      let y ← unchecked values (pos k)
      let rest ← weakAdds values pos (k + 1) xs
      .ok ((x.globalIndex, y) :: rest)

/-- The values of the Neumann condition tested with the functions on one edge, assembler_PCC_2D_functions.cpp:616-646. -/
def weakContributions (gauss : Rule K K) (g : PolyEdges K) (space : CellSpace2D K) (f : K × K → K) (ed : Nat) : Except Fault (List K) := do
  let dir ← unchecked g.dirs ed
  let origin ← unchecked g.vertices (if dir then ed else (ed + 1) % g.vertices.length)
  let tangent ← unchecked g.tangents ed
  let direction : K := if dir then 1 else -1
  let points := gauss.points.map fun t => origin + (direction * t) • tangent
  let length ← unchecked g.lengths ed
  let weights := gauss.weights.map (· * |length|)
  let B ← space.valuesOnEdge ed gauss.points
  let T ← B.tr.mulDiag weights
  let x ← T.mul (.col (evalScalar points f))
  .ok x.toList

/-- One edge, assembler_PCC_2D_functions.cpp:608-690. -/
def weakEdge (info : MeshInfo) (data : DOFsData) (gauss : Rule K K) (g : PolyEdges K) (space : CellSpace2D K) (mesh : PlaneMesh K)
    (f : Nat → K × K → K) (c ed : Nat) : Except Fault (List (Nat × K)) := do
  let e ← unchecked (mesh.topo.cell2DEdges c) ed
  let b ← atIdx (info.bInfo 1) e
  if b.type ≠ .weak then .ok []
  else do
    let values ← weakContributions gauss g space (f b.marker) ed
    let x ← atIdx (data.dims 0).cells (mesh.topo.cell1DVertices e).1
    let w0 ← weakAdds values (fun _ => 0) 0 x.dofs
    let x ← atIdx (data.dims 0).cells (mesh.topo.cell1DVertices e).2
    let w1 ← weakAdds values (fun _ => 1) 0 x.dofs
    let x ← atIdx (data.dims 1).cells e
    let w2 ← weakAdds values (· + 2) 0 x.dofs
    .ok (w0 ++ w1 ++ w2)

/-- `assemble_weak_term`, assembler_PCC_2D_functions.cpp:579-697: the additions to the result. `gauss` is the table of Gedim, `geometry` are the
vertices, edges and normals of the cells (`mesh_geometric_data`). -/
def weakTerm (info : MeshInfo) (data : DOFsData) (order : Nat) (gauss : Nat → Rule K K) (geometry : Nat → PolyEdges K)
    (spaces : Nat → Except Fault (CellSpace2D K)) (mesh : PlaneMesh K) (f : Nat → K × K → K) : Except Fault (List (Nat × K)) := do
  let log ← mesh.cells.mapM fun c => do
    let space ← spaces c
    let es ← (List.range (geometry c).vertices.length).mapM (weakEdge info data (gauss (u32 (2 * order))) (geometry c) space mesh f c)
    .ok es.flatten
  .ok log.flatten

/-! ## `assemble_elliptic_operator` and `assemble_source_term` -/

/-- `{{std::cref(dofs_data)}, {0}, {0}, {0}}`, assembler_PCC_2D_functions.cpp:158-159, 227-230. -/
def oneField (data : DOFsData) : Fields := ⟨[data], [0], [0], [0]⟩

/-- A matrix as argument of the assembler (`local_A`, assembler_PCC_2D_functions.cpp:321-326). -/
def DMat.toLMat (A : DMat K) : LMat K := ⟨A.rows, A.cols, A.ent⟩

/-- One cell of `assemble_elliptic_operator`, assembler_PCC_2D_functions.cpp:237-326. -/
def ellipticCall (trialData testData : DOFsData) (trialSpaces testSpaces : Nat → Except Fault (CellSpace2D K))
    (diffusion advection : Option (K × K → Nat → K)) (reaction : Option (K × K → K)) (c : Nat) : Except Fault (Call K) := do
  let trial ← trialSpaces c
  let test ← testSpaces c
  let A ← localElliptic trial.toSpace2D test.toSpace2D diffusion advection reaction
  .ok ⟨c, oneField testData, some (oneField trialData, A.toLMat), none⟩

/-- `assemble_elliptic_operator`, assembler_PCC_2D_functions.cpp:208-333: what is written to the two sparse matrices. -/
def assembleElliptic (trialData testData : DOFsData) (trialSpaces testSpaces : Nat → Except Fault (CellSpace2D K)) (mesh : PlaneMesh K)
    (diffusion advection : Option (K × K → Nat → K)) (reaction : Option (K × K → K)) : Except Fault (Sys K) := do
  let calls ← mesh.cells.mapM (ellipticCall trialData testData trialSpaces testSpaces diffusion advection reaction)
  assembleAll 2 .empty calls

/-- One cell of `assemble_source_term`, assembler_PCC_2D_functions.cpp:166-199. -/
def sourceCall (testData : DOFsData) (trialSpaces testSpaces : Nat → Except Fault (CellSpace2D K)) (f : K × K → K) (c : Nat) : Except Fault (Call K) := do
  let trial ← trialSpaces c
  let test ← testSpaces c
  let b ← localSource trial.toSpace2D test.toSpace2D f
  .ok ⟨c, oneField testData, none, some b.toList⟩

/-- `assemble_source_term`, assembler_PCC_2D_functions.cpp:144-205: what is added to the vector. -/
def assembleSource (testData : DOFsData) (trialSpaces testSpaces : Nat → Except Fault (CellSpace2D K)) (mesh : PlaneMesh K) (f : K × K → K) :
    Except Fault (Sys K) := do
  let calls ← mesh.cells.mapM (sourceCall testData trialSpaces testSpaces f)
  assembleAll 2 .empty calls

/-! ## `extract_solution_on_cell0Ds` -/

/-- The numerical solution at one vertex, assembler_PCC_2D_functions.cpp:734-751: the value of the last DOF, zero if there is none. -/
def valueOnCell0D (data : DOFsData) (free strong : List K) (p : Nat) : Except Fault K := do
  let x ← atIdx (data.dims 0).cells p
  x.dofs.foldlM (init := 0) fun _ d =>
    match d.type with
    | .unknwon => .error .unknownDOFType
    | .strong => unchecked strong d.globalIndex
    | .dof => unchecked free d.globalIndex

/-- `extract_solution_on_cell0Ds`, assembler_PCC_2D_functions.cpp:699-755: the numerical solution; the values of the given functions at the vertices
(723-732) are left out. -/
def solutionOnCell0Ds (mesh : PlaneMesh K) (data : DOFsData) (free strong : List K) : Except Fault (List K) :=
  (List.range mesh.num0D).mapM fun p => if mesh.active0D p then valueOnCell0D data free strong p else .ok 0

end PolyDiM
