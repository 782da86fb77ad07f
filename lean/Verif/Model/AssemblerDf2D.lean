import Verif.Model.AssemblerMcc2D
import Verif.Model.VemDf2D

/-!
# Model of the assembler of the Brinkman problem with the divergence-free element

PolyDiM/examples/Brinkman_DF_PCC_2D/src/assembler.cpp: `ComputeStrongTerm`, `ComputeWeakTerm` and `Assemble`, with the functions of
PolyDiM/src/PDETools/LocalSpace/LocalSpace_DF_PCC_2D.cpp they call in the cases `VEM_DF_PCC_REDUCED` and `VEM_DF_PCC_FULL`. Line numbers without a file refer to
assembler.cpp. As in the model of the mixed assembler the loops return the lists of their writes.
-/

namespace PolyDiM

variable {K : Type} [Field K] [LinearOrder K]

/-- The functions of LocalSpace_DF_PCC_2D.cpp called for one cell, with the arguments of assembler.cpp: `VelocityBasisFunctionsValues` (111-126),
`VelocityBasisFunctionsDerivativeValues` (220-235), `VelocityBasisFunctionsDivergenceValues` (183-197), `PressureBasisFunctionsValues` (150-162),
`VelocityStabilizationMatrix` (288-303, for `PiNabla` and for `Pi0k`), `InternalQuadrature` (259-272), `VelocityEdgeDofsCoordinates` (305-340),
`VelocityBasisFunctionsValuesOnEdge` (199-218). -/
structure DfCell2D (K : Type) where
  values : Except Fault (DMat K × DMat K)
  derivatives : Except Fault ((DMat K × DMat K) × (DMat K × DMat K))
  divergence : Except Fault (DMat K)
  pressure : DMat K
  stabNabla : Except Fault (DMat K)
  stab0 : Except Fault (DMat K)
  internal : Rule (K × K) K
  edgeCoords : Nat → Except Fault (List (K × K))
  valuesOnEdge : List K → Except Fault (DMat K)

/-- The cases `VEM_DF_PCC_REDUCED` and `VEM_DF_PCC_FULL` of these functions, LocalSpace_DF_PCC_2D.cpp:117-121, 226-230, 188-192, 154-157, 294-298, 264-267, 311-335,
209-213. `VelocityEdgeDofsCoordinates` is written like `EdgeDofsCoordinates` of LocalSpace_PCC_2D.cpp, modelled by `vemEdgeCoords`. -/
def dfCell2D (ref : DfRef2D K) (poly : VemPolygon K) (s : DfSpace2D K) (p : DfPressure2D K) : DfCell2D K where
  values := dfValues s .pi0k
  derivatives := dfDerivatives s .piNabla
  divergence := dfDivergenceValues s
  pressure := dfPressureValues p
  stabNabla := dfStabilization s .piNabla
  stab0 := dfStabilization s .pi0k
  internal := s.internal
  edgeCoords := vemEdgeCoords ref.edge.1 poly.edges
  valuesOnEdge := dfValuesOnEdge ref.order ref.edge.1

/-- `CreateLocalSpace` on cell `c`, LocalSpace_DF_PCC_2D.cpp:70-109, as it is called in lines 248-252: first the pressure, then the velocity; the geometry of the cell is
that of the polygon `poly c`. -/
def dfSpaces (sqrt : K → K) (lu llt : Solver K) (triangle : Nat → Rule (K × K) K) (ref : DfRef2D K) (poly : Nat → VemPolygon K) (c : Nat) :
    Except Fault (DfCell2D K) := do
  let p ← dfPressure2D sqrt ref.reduced triangle ref.order (poly c)
  let s ← dfCreate2D sqrt lu llt ref (poly c)
  .ok (dfCell2D ref (poly c) s p)

/-- The number of DOFs of field `h` on an entity of dimension `d` in `SetMeshDOFsInfo`, LocalSpace_DF_PCC_2D.cpp:383-397, 409-423, 435-450: fields 0 and 1 are the
components of the velocity on vertices and edges (one DOF per vertex, VEM_DF_PCC_2D_ReferenceElement.hpp:66), field 2 its internal DOFs, field 3 the pressure
(internal DOFs only, VEM_DF_PCC_2D_ReferenceElement.hpp:41-43). -/
def dfNum (ref : DfRef2D K) (h d : Nat) : Nat :=
  if h < 2 then (if d = 0 then 1 else if d = 1 then ref.dofs1D else 0)
  else if h = 2 then (if d = 2 then u32 (ref.dofsBig + ref.dofsDiv) else 0)
  else if d = 2 then (if ref.reduced then 1 else u32 (ref.order * u32 (ref.order + 1)) / 2) else 0

/-- The boundary information of field `h` by marker, LocalSpace_DF_PCC_2D.cpp:389, 393, 396, 415, 419, 422, 441, 446, 449. -/
def dfBoundary (boundary : Nat → Nat → Option BInfo) (h marker : Nat) : Option BInfo := if h < 2 then boundary h marker else some ⟨.none, 0⟩

/-- Field `h` of `SetMeshDOFsInfo`, LocalSpace_DF_PCC_2D.cpp:342-459. -/
def dfMeshInfo (ref : DfRef2D K) (mesh : Mesh) (boundary : Nat → Nat → Option BInfo) (h : Nat) : Except Fault MeshInfo :=
  createConstantInfo 2 mesh ⟨dfNum ref h, dfBoundary boundary h⟩

/-- `count_dofs` with the additional unknown if there are no boundary DOFs, PolyDiM/examples/Brinkman_DF_PCC_2D/main.cpp:123-126. -/
def dfCount (counters : List Counters) : Except Fault CountData := do
  let count ← countDofs counters
  .ok (if count.totalBoundary = 0 then { count with totalDOFs := u32 (count.totalDOFs + 1) } else count)

/-- The functions of `test::I_Test` used by the assembler (PolyDiM/examples/Brinkman_DF_PCC_2D/src/test_definition.hpp:46-58): the inverse diffusion by columns (nine
values), source and boundary data with three values, of which the assembler reads two. The code passes all points at once; a function is evaluated at every point. -/
structure DfTest (K : Type) where
  viscosity : K × K → K
  inverseDiffusion : K × K → Nat → K
  source : K × K → Nat → K
  divergence : K × K → K
  strong : Nat → K × K → Nat → K
  weak : Nat → K × K → Nat → K

/-- `local_A`, lines 279-302. -/
def brinkmanA (space : DfCell2D K) (values : DMat K × DMat K) (ders : (DMat K × DMat K) × (DMat K × DMat K)) (test : DfTest K) : Except Fault (DMat K) := do
  let mu := evalScalar space.internal.points test.viscosity
  let inv := evalComponents 9 space.internal.points test.inverseDiffusion
  let A ← cellDiffusionSame mu [ders.1.1, ders.1.2, ders.2.1, ders.2.2] space.internal.weights
  let muMax ← maxAbs mu
  let S ← space.stabNabla
  let A ← A.add (.smul muMax S)
  let D ← cellDiffusionTensorSame inv [values.1, values.2] space.internal.weights
  let A ← A.add D
  let k ← kMax inv
  let S0 ← space.stab0
  A.add (.smul k S0)

/-- `local_B`, lines 304-305. -/
def brinkmanB (space : DfCell2D K) (divergence : DMat K) : Except Fault (DMat K) := do
  let X ← space.pressure.tr.mulDiag space.internal.weights
  X.mul divergence

/-- What lines 254-311 compute on one cell: `local_A`, `local_B`, `local_rhs`, `local_div`. -/
structure BrinkmanLocal (K : Type) where
  A : DMat K
  B : DMat K
  rhs : DMat K
  div : DMat K

/-- Lines 254-311. -/
def brinkmanLocal (space : DfCell2D K) (test : DfTest K) : Except Fault (BrinkmanLocal K) := do
  let values ← space.values
  let divergence ← space.divergence
  let ders ← space.derivatives
  let A ← brinkmanA space values ders test
  let B ← brinkmanB space divergence
  let rhs ← cellForcingVector (evalComponents 3 space.internal.points test.source) [values.1, values.2] space.internal.weights
  let div ← cellForcing (evalScalar space.internal.points test.divergence) space.pressure space.internal.weights
  .ok ⟨A, B, rhs, div⟩

/-- `elemental_matrix << local_A, -local_B.transpose(), local_B, MatrixXd::Zero(np, np)`, lines 316 and 319, for a matrix of size `total`. -/
def brinkmanMatrix (total np : Nat) (l : BrinkmanLocal K) : Except Fault (DMat K) := do
  let upper ← DMat.beside l.A.rows total l.A (.smul (-1) l.B.tr)
  let lower ← DMat.beside l.B.rows total l.B (.zero np np)
  DMat.stack total total upper lower

/-- `elemental_rhs << local_rhs, local_div`, lines 317 and 321. -/
def brinkmanRhs (total : Nat) (l : BrinkmanLocal K) : Except Fault (List K) :=
  if l.rhs.rows + l.div.rows = total then .ok (l.rhs.toList ++ l.div.toList) else .error .undefinedBehaviour

/-- One cell of `Assemble` up to the call of the assembly, lines 254-339. The assertion in lines 323-324 is not modelled. -/
def brinkmanCall (datas : List DOFsData) (count : CountData) (space : DfCell2D K) (test : DfTest K) (c : Nat) : Except Fault (Call K) := do
  let l ← brinkmanLocal space test
  let lc ← localCountDofs 2 c datas
  let d3 ← unchecked datas 3
  let np ← localSize 2 c d3
  let A ← brinkmanMatrix lc.total np l
  let b ← brinkmanRhs lc.total l
  let F : Fields := ⟨datas, lc.offsets, count.offsetsDOFs, count.offsetsStrongs⟩
  .ok ⟨c, F, some (F, A.toLMat), some b⟩

/-- The loop over the DOFs of the pressure in lines 349-359, from position `k` on: the entries of row and column `lambda`. -/
def lagrangeLoop (dims : Nat → DimData) (off lambda : Nat) (mean : List K) : Nat → List GDOF → Except Fault (List (Nat × Nat × K))
  | _, [] => .ok []
  | k, g :: gs => do
    let x ← atIdx (dims g.dim).cells g.cell
    let d ← atIdx x.dofs g.dof
    let m ← unchecked mean k
    let rest ← lagrangeLoop dims off lambda mean (k + 1) gs
    let i := u32 (d.globalIndex + off)
    .ok ((i, lambda, m) :: (lambda, i, m) :: rest)

/-- The mean value of the pressure, lines 341-360: what is added to `globalMatrixA`. -/
def lagrangeTerm (datas : List DOFsData) (count : CountData) (space : DfCell2D K) (c : Nat) : Except Fault (List (Nat × Nat × K)) :=
  if count.totalBoundary = 0 then do
    let mean ← space.pressure.tr.mul (.col space.internal.weights)
    let d3 ← unchecked datas 3
    let off ← unchecked count.offsetsDOFs 3
    let g ← atIdx (d3.dims 2).globals c
    lagrangeLoop d3.dims off (u32 (count.totalDOFs + 4294967295)) mean.toList 0 g.gdofs
  else .ok []

/-- The indices of a list of writes shifted by the offset of the field (`Global_Index + offset`, lines 66, 106, 193, 215; the sum is of type `size_t`, its
conversion to the index type of Gedim is not modelled). -/
def shiftWrites (off : Nat) (l : List (Nat × K)) : List (Nat × K) := l.map fun w => (w.1 + off, w.2)

/-- One vertex of `ComputeStrongTerm` for component `h`, lines 45-76. -/
def dfStrongVertex (info : MeshInfo) (data : DOFsData) (off h : Nat) (mesh : PlaneMesh K) (test : DfTest K) (v : Nat) : Except Fault (List (Nat × K)) := do
  let b ← atIdx (info.bInfo 0) v
  if b.type ≠ .strong then .ok []
  else do
    let x ← atIdx (data.dims 0).cells v
    let w ← strongWrites (evalScalar [mesh.coords v] fun p => test.strong b.marker p h) 0 x.dofs
    .ok (shiftWrites off w)

/-- One edge of `ComputeStrongTerm` for component `h`, lines 82-116. -/
def dfStrongEdge (info : MeshInfo) (data : DOFsData) (off h : Nat) (space : DfCell2D K) (test : DfTest K) (e : Nat × Nat) : Except Fault (List (Nat × K)) := do
  let b ← atIdx (info.bInfo 1) e.1
  let x ← atIdx (data.dims 1).cells e.1
  if b.type ≠ .strong ∨ x.dofs.length = 0 then .ok []
  else do
    let points ← space.edgeCoords e.2
    let w ← strongWrites (evalScalar points fun p => test.strong b.marker p h) 0 x.dofs
    .ok (shiftWrites off w)

/-- The body of the loop over the components in `ComputeStrongTerm`, lines 41-117. -/
def dfStrongComponent (infos : List MeshInfo) (datas : List DOFsData) (offs : List Nat) (space : DfCell2D K) (mesh : PlaneMesh K) (test : DfTest K) (c h : Nat) :
    Except Fault (List (Nat × K)) := do
  let info ← unchecked infos h
  let data ← unchecked datas h
  let off ← unchecked offs h
  let vs ← (mesh.topo.cell2DVertices c).mapM (dfStrongVertex info data off h mesh test)
  let es ← (mesh.topo.cell2DEdges c).zipIdx.mapM (dfStrongEdge info data off h space test)
  .ok (vs.flatten ++ es.flatten)

/-- The values of the boundary condition tested with the functions on one edge, lines 146-176. -/
def dfWeakContributions (gauss : Rule K K) (g : PolyEdges K) (space : DfCell2D K) (f : K × K → K) (ed : Nat) : Except Fault (List K) := do
  let dir ← unchecked g.dirs ed
  let origin ← unchecked g.vertices (if dir then ed else (ed + 1) % g.vertices.length)
  let tangent ← unchecked g.tangents ed
  let direction : K := if dir then 1 else -1
  let points := gauss.points.map fun t => origin + (direction * t) • tangent
  let length ← unchecked g.lengths ed
  let weights := gauss.weights.map (· * |length|)
  let B ← space.valuesOnEdge gauss.points
  let T ← (DMat.smul (-1) B.tr).mulDiag weights
  let x ← T.mul (.col (evalScalar points f))
  .ok x.toList

/-- One edge of `ComputeWeakTerm` for component `h`, lines 138-223. -/
def dfWeakEdge (info : MeshInfo) (data : DOFsData) (off h : Nat) (gauss : Rule K K) (g : PolyEdges K) (space : DfCell2D K) (mesh : PlaneMesh K) (test : DfTest K)
    (c ed : Nat) : Except Fault (List (Nat × K)) := do
  let e ← unchecked (mesh.topo.cell2DEdges c) ed
  let b ← atIdx (info.bInfo 1) e
  if b.type ≠ .weak then .ok []
  else do
    let values ← dfWeakContributions gauss g space (fun p => test.weak b.marker p h) ed
    let x ← atIdx (data.dims 0).cells (mesh.topo.cell1DVertices e).1
    let w0 ← weakAdds values (fun _ => 0) 0 x.dofs
    let x ← atIdx (data.dims 0).cells (mesh.topo.cell1DVertices e).2
    let w1 ← weakAdds values (fun _ => 1) 0 x.dofs
    let x ← atIdx (data.dims 1).cells e
    let w2 ← weakAdds values (· + 2) 0 x.dofs
    .ok (shiftWrites off (w0 ++ w1 ++ w2))

/-- The body of the loop over the components in `ComputeWeakTerm`, lines 132-224. -/
def dfWeakComponent (infos : List MeshInfo) (datas : List DOFsData) (offs : List Nat) (gauss : Rule K K) (g : PolyEdges K) (space : DfCell2D K) (mesh : PlaneMesh K)
    (test : DfTest K) (c h : Nat) : Except Fault (List (Nat × K)) := do
  let info ← unchecked infos h
  let data ← unchecked datas h
  let off ← unchecked offs h
  let es ← (List.range g.vertices.length).mapM (dfWeakEdge info data off h gauss g space mesh test c)
  .ok es.flatten

/-- What one cell hands to the global objects, lines 248-364: the call of the assembly, the entries of the mean value, the writes of the strong term, the additions of the
weak term. -/
structure BrinkmanCell (K : Type) where
  call : Call K
  lagrange : List (Nat × Nat × K)
  strong : List (Nat × K)
  weak : List (Nat × K)

/-- The body of the loop over the cells, lines 248-364. `gauss` is the table of Gedim's rules, `geometry c` are the vertices and edges of the cell (`mesh_geometric_data`);
the dimension of the reference element is 2. -/
def brinkmanCell (infos : List MeshInfo) (datas : List DOFsData) (count : CountData) (order : Nat) (gauss : Nat → Rule K K) (geometry : Nat → PolyEdges K)
    (spaces : Nat → Except Fault (DfCell2D K)) (mesh : PlaneMesh K) (test : DfTest K) (c : Nat) : Except Fault (BrinkmanCell K) := do
  let space ← spaces c
  let call ← brinkmanCall datas count space test c
  let lagrange ← lagrangeTerm datas count space c
  let strong ← (List.range 2).mapM (dfStrongComponent infos datas count.offsetsStrongs space mesh test c)
  let weak ← (List.range 2).mapM (dfWeakComponent infos datas count.offsetsDOFs (gauss (u32 (2 * order))) (geometry c) space mesh test c)
  .ok ⟨call, lagrange, strong.flatten, weak.flatten⟩

/-- `Stokes_DF_PCC_2D_Problem_Data` after `Assemble` (PolyDiM/examples/Brinkman_DF_PCC_2D/src/assembler.hpp:35-42): what was written to `globalMatrixA` and
`dirichletMatrixA`, what was added to `rightHandSide`, and `solutionDirichlet`. -/
structure BrinkmanProblem (K : Type) where
  globalMatrix : List (Nat × Nat × K)
  dirichletMatrix : List (Nat × Nat × K)
  rightHandSide : List (Nat × K)
  dirichlet : List K

/-- `Assemble`, lines 227-376. The additions to a matrix and to the right-hand side commute, so those of the assembly calls are listed first. -/
def assembleBrinkman (infos : List MeshInfo) (datas : List DOFsData) (count : CountData) (order : Nat) (gauss : Nat → Rule K K) (geometry : Nat → PolyEdges K)
    (spaces : Nat → Except Fault (DfCell2D K)) (mesh : PlaneMesh K) (test : DfTest K) : Except Fault (BrinkmanProblem K) := do
  let cells ← (List.range mesh.num2D).mapM (brinkmanCell infos datas count order gauss geometry spaces mesh test)
  let S ← assembleAll 2 .empty (cells.map BrinkmanCell.call)
  let dirichlet ← ((cells.map BrinkmanCell.strong).flatten).foldlM (fun v w => writeAt v w.1 w.2) (List.replicate count.totalStrong 0)
  let rhs := S.rhs ++ (cells.map BrinkmanCell.weak).flatten
  .ok ⟨S.lhsDOFs ++ (cells.map BrinkmanCell.lagrange).flatten, S.lhsStrongs,
    rhs ++ (if 0 < count.totalStrong then subtractProduct S.lhsStrongs dirichlet else []), dirichlet⟩

end PolyDiM
