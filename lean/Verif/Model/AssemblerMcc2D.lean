import Verif.Model.AssemblerGlobal2D
import Verif.Model.VemMcc2D

/-!
# Model of the assembler of the mixed formulation in two dimensions

PolyDiM/examples/Elliptic_MCC_2D/src/assembler.cpp: `ComputeStrongTerm`, `ComputeWeakTerm` and `Assemble`, with the functions of
PolyDiM/src/PDETools/LocalSpace/LocalSpace_MCC_2D.cpp it calls in the case `VEM_MCC`. Line numbers without a file refer to assembler.cpp.
-/

namespace PolyDiM

variable {K : Type} [Field K] [LinearOrder K]

/-- The functions of LocalSpace_MCC_2D.cpp called for one cell: `VelocityBasisFunctionsValues` (152-173), `VelocityBasisFunctionsDivergenceValues`
(222-243), `PressureBasisFunctionsValues` (202-220), `StabilizationMatrix` (403-424), `InternalQuadrature` (364-382), `EdgeDofsCoordinates` (426-463,
points only), `EdgeDofs` (465-529), `EdgeQuadrature` (334-362), `VelocityBasisFunctionsValuesOnEdges` (245-313). -/
structure MixedSpace2D (K : Type) where
  velocity : Except Fault (List (DMat K))
  divergence : Except Fault (DMat K)
  pressure : Except Fault (DMat K)
  stab : Except Fault (DMat K)
  internal : Rule (K × K) K
  edgeCoords : Nat → Except Fault (List (K × K))
  edgeDofs : Nat → List K → Except Fault (List K)
  edgeQuadrature : Nat → Except Fault (Rule (K × K) K)
  valuesOnEdge : Nat → Except Fault (DMat K)

/-- The cases `VEM_MCC` of these functions, LocalSpace_MCC_2D.cpp:158-166, 228-236, 206-212, 409-416, 369-375, 432-442, 473-479, 340-355, 252-259. -/
def mccCell2D (ref : MccRef2D K) (poly : VemPolygon K) (s : MccSpace2D K × MccPressure2D K) : MixedSpace2D K where
  velocity := mccValues s.1
  divergence := mccDivergenceValues s.1
  pressure := mccPressureValues s.2
  stab := mccStabilization poly.measure s.1
  internal := s.1.internal
  edgeCoords := mccEdgeCoords ref s.1
  edgeDofs := mccEdgeDofs poly.edges
  edgeQuadrature := mccEdgeQuadrature ref s.1
  valuesOnEdge := mccValuesOnEdge poly.edges ref

/-- `CreateLocalSpace` on cell `c`, LocalSpace_MCC_2D.cpp:91-130, as it is called in lines 149-153; the geometry of the cell is that of the polygon `poly c`. -/
def mccSpaces (svd : DMat K → DMat K) (sqrt : K → K) (llt : Solver K) (triangle : Nat → Rule (K × K) K) (edge : Nat → Rule K K) (order : Nat)
    (poly : Nat → VemPolygon K) (c : Nat) : Except Fault (MixedSpace2D K) := do
  let s ← mccLocalSpace svd sqrt llt triangle edge order (poly c)
  .ok (mccCell2D (mccRef2D triangle edge order) (poly c) s)

/-- `ReferenceElementNumDOFs` for the velocity, LocalSpace_MCC_2D.cpp:541-544, with `NumDofs0D = 0` (VEM_MCC_2D_ReferenceElement.hpp:52-69). -/
def mccVelocityNum (order d : Nat) : Nat := if d = 0 then 0 else if d = 1 then u32 (order + 1) else u32 (order * u32 (order + 2))

/-- `ReferenceElementNumDOFs` for the pressure, LocalSpace_MCC_2D.cpp:545-548, with VEM_MCC_2D_ReferenceElement.hpp:29-46. -/
def mccPressureNum (order d : Nat) : Nat := if d = 2 then u32 (u32 (order + 1) * u32 (order + 2)) / 2 else 0

/-- The functions of `test::I_Test` used by the assembler (PolyDiM/examples/Elliptic_MCC_2D/src/test_definition.hpp:37-51): the matrix of the inverse diffusion by
columns (nine values), the vector of the advection (three values). The code passes all points at once; a function is evaluated at every point. -/
structure MixedTest (K : Type) where
  inverseDiffusion : K × K → Nat → K
  advection : K × K → Nat → K
  reaction : K × K → K
  source : K × K → K
  strong : Nat → K × K → K
  weak : Nat → K × K → K

/-- `local_A`, lines 165-181. -/
def mixedA (space : MixedSpace2D K) (velocity : List (DMat K)) (test : MixedTest K) : Except Fault (DMat K) := do
  let values := evalComponents 9 space.internal.points test.inverseDiffusion
  let A ← cellDiffusionTensorSame values velocity space.internal.weights
  let kmax ← kMax values
  let S ← space.stab
  A.add (.smul kmax S)

/-- `local_B`, lines 192-193. -/
def mixedB (space : MixedSpace2D K) (divergence pressure : DMat K) : Except Fault (DMat K) := do
  let X ← pressure.tr.mulDiag space.internal.weights
  X.mul divergence

/-- What lines 155-197 compute on one cell: `local_A`, `local_B`, `local_T`, `local_M`, `local_rhs`. -/
structure MixedLocal (K : Type) where
  A : DMat K
  B : DMat K
  T : DMat K
  M : DMat K
  rhs : DMat K

/-- Lines 155-197. -/
def mixedLocal (space : MixedSpace2D K) (test : MixedTest K) : Except Fault (MixedLocal K) := do
  let velocity ← space.velocity
  let divergence ← space.divergence
  let pressure ← space.pressure
  let A ← mixedA space velocity test
  let M ← cellReactionSame (evalScalar space.internal.points test.reaction) pressure space.internal.weights
  let T ← cellAdvection (evalComponents 3 space.internal.points test.advection) pressure velocity space.internal.weights
  let B ← mixedB space divergence pressure
  let rhs ← cellForcing (evalScalar space.internal.points test.source) pressure space.internal.weights
  .ok ⟨A, B, T, M, rhs⟩

/-- `elemental_matrix << local_A, -(local_B + local_T).transpose(), local_B, local_M`, lines 202 and 204, for a matrix of size `total`. -/
def mixedMatrix (total : Nat) (l : MixedLocal K) : Except Fault (DMat K) := do
  let BT ← l.B.add l.T
  let upper ← DMat.beside l.A.rows total l.A (.smul (-1) BT.tr)
  let lower ← DMat.beside l.B.rows total l.B l.M
  DMat.stack total total upper lower

/-- `elemental_rhs << VectorXd::Zero(total - np), local_rhs`, lines 203 and 205. -/
def mixedRhs (total np : Nat) (l : MixedLocal K) : Except Fault (List K) :=
  if np ≤ total ∧ l.rhs.rows = np then .ok (List.replicate (total - np) 0 ++ l.rhs.toList) else .error .undefinedBehaviour

/-- One cell of `Assemble` up to the call of the assembly, lines 155-223. -/
def mixedCall (velocityData pressureData : DOFsData) (count : CountData) (space : MixedSpace2D K) (test : MixedTest K) (c : Nat) : Except Fault (Call K) := do
  let l ← mixedLocal space test
  let lc ← localCountDofs 2 c [velocityData, pressureData]
  let np ← localSize 2 c pressureData
  let A ← mixedMatrix lc.total l
  let b ← mixedRhs lc.total np l
  let F : Fields := ⟨[velocityData, pressureData], lc.offsets, count.offsetsDOFs, count.offsetsStrongs⟩
  .ok ⟨c, F, some (F, A.toLMat), some b⟩

/-- One edge of `ComputeWeakTerm`, lines 88-123. -/
def mixedWeakEdge (info : MeshInfo) (data : DOFsData) (space : MixedSpace2D K) (test : MixedTest K) (e : Nat × Nat) : Except Fault (List (Nat × K)) := do
  let b ← atIdx (info.bInfo 1) e.1
  if b.type ≠ .weak then .ok []
  else do
    let rule ← space.edgeQuadrature e.2
    let B ← space.valuesOnEdge e.2
    let X ← (DMat.smul (-1) B.tr).mulDiag rule.weights
    let x ← X.mul (.col (evalScalar rule.points (test.weak b.marker)))
    let d ← atIdx (data.dims 1).cells e.1
    weakAdds x.toList id 0 d.dofs

/-- One edge of `ComputeStrongTerm`, lines 39-72. -/
def mixedStrongEdge (info : MeshInfo) (data : DOFsData) (space : MixedSpace2D K) (test : MixedTest K) (e : Nat × Nat) : Except Fault (List (Nat × K)) := do
  let b ← atIdx (info.bInfo 1) e.1
  let d ← atIdx (data.dims 1).cells e.1
  if b.type ≠ .strong ∨ d.dofs.length = 0 then .ok []
  else do
    let points ← space.edgeCoords e.2
    let values ← space.edgeDofs e.2 (evalScalar points (test.strong b.marker))
    strongWrites values 0 d.dofs

/-- What one cell hands to the global objects, lines 149-227: the call of the assembly, the additions of the weak term, the writes of the strong term. -/
structure MixedCell (K : Type) where
  call : Call K
  weak : List (Nat × K)
  strong : List (Nat × K)

/-- The body of the loop over the cells, lines 149-227. -/
def mixedCell (info : MeshInfo) (velocityData pressureData : DOFsData) (count : CountData) (spaces : Nat → Except Fault (MixedSpace2D K))
    (mesh : PlaneMesh K) (test : MixedTest K) (c : Nat) : Except Fault (MixedCell K) := do
  let space ← spaces c
  let call ← mixedCall velocityData pressureData count space test c
  let weak ← (mesh.topo.cell2DEdges c).zipIdx.mapM (mixedWeakEdge info velocityData space test)
  let strong ← (mesh.topo.cell2DEdges c).zipIdx.mapM (mixedStrongEdge info velocityData space test)
  .ok ⟨call, weak.flatten, strong.flatten⟩

/-- `Elliptic_MCC_2D_Problem_Data` after `Assemble` (PolyDiM/examples/Elliptic_MCC_2D/src/assembler.hpp:34-41): what was written to `globalMatrixA` and
`neumannMatrixA`, what was added to `rightHandSide`, and `solutionNeumann`. -/
structure MixedProblem (K : Type) where
  globalMatrix : List (Nat × Nat × K)
  neumannMatrix : List (Nat × Nat × K)
  rightHandSide : List (Nat × K)
  neumann : List K

/-- `rightHandSide.SubtractionMultiplication(neumannMatrixA, solutionNeumann)`, lines 235-236: every entry of the matrix subtracts its product with the
entry of the vector. -/
def subtractProduct (A : List (Nat × Nat × K)) (x : List K) : List (Nat × K) := A.map fun t => (t.1, -(t.2.2 * x.getD t.2.1 0))

/-- `Assemble`, lines 127-239. The additions to the right-hand side commute, so those of the cells are listed before those of the weak terms. -/
def assembleMixed (info : MeshInfo) (velocityData pressureData : DOFsData) (count : CountData) (spaces : Nat → Except Fault (MixedSpace2D K))
    (mesh : PlaneMesh K) (test : MixedTest K) : Except Fault (MixedProblem K) := do
  let cells ← (List.range mesh.num2D).mapM (mixedCell info velocityData pressureData count spaces mesh test)
  let S ← assembleAll 2 .empty (cells.map MixedCell.call)
  let neumann ← ((cells.map MixedCell.strong).flatten).foldlM (fun v w => writeAt v w.1 w.2) (List.replicate count.totalStrong 0)
  let rhs := S.rhs ++ (cells.map MixedCell.weak).flatten
  .ok ⟨S.lhsDOFs, S.lhsStrongs, rhs ++ (if 0 < count.totalStrong then subtractProduct S.lhsStrongs neumann else []), neumann⟩

end PolyDiM
