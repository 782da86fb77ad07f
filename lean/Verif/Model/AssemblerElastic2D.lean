import Verif.Model.AssemblerElliptic2D
import Verif.Model.AssemblerDf2D

/-!
# Model: the assembler of the example Elastic_PCC_2D

PolyDiM/examples/Elastic_PCC_2D/src/assembler.cpp and local_space.cpp: linear elasticity in the plane. The two components of the displacement use the same scalar space and the
same DOFs; the unknowns of the first component come first. Lines without a file name are lines of assembler.cpp.

As in `Verif/Model/AssemblerGlobal2D.lean`, the loops return the lists of their writes. `CellSpace2D` are the functions of the scalar space that local_space.cpp calls in the
cases `FEM_PCC` and `VEM_PCC`, `VEM_PCC_Ortho`; `EdgeDofsCoordinates` (local_space.cpp:314-345) has the same text as in LocalSpace_PCC_2D.cpp:384-419.
-/

namespace PolyDiM

variable {K : Type} [Field K] [LinearOrder K]

/-- The functions of `test::I_Test` used by the assembler (PolyDiM/examples/Elastic_PCC_2D/src/test_definition.hpp:40-47): component `d` of a vector at a point, the Lamé
coefficients `μ` (component 0) and `λ` (component 1). The code passes all points at once; a function is evaluated at every point. -/
structure ElasticTest (K : Type) where
  source : K × K → Nat → K
  lame : K × K → Nat → K
  strong : Nat → K × K → Nat → K
  weak : Nat → K × K → Nat → K

/-- `BasisFunctionsValues`, local_space.cpp:119-152: component `d` of the vector functions at the points of the internal quadrature. The default type of projection is that
of local_space.hpp:80. -/
def elasticValues (space : CellSpace2D K) : Except Fault (List (DMat K)) := do
  let V ← space.valuesInt .pi0k
  (List.range 2).mapM fun d => (DMat.zero V.rows (2 * V.cols)).assign 0 (d * V.cols) V.rows V.cols V

/-- `BasisFunctionsDerivativeValues`, local_space.cpp:197-238: entry `2 * d1 + d2` is the derivative of component `d1` in direction `d2`. The default type of projection is
that of local_space.hpp:88-89. -/
def elasticDers (space : CellSpace2D K) : Except Fault (List (DMat K)) := do
  let ders ← space.dersInt .pi0km1Der
  let D0 ← atIdx ders 0
  let rows ← (List.range 2).mapM fun d1 => (List.range 2).mapM fun d2 => do
    let D ← unchecked ders d2
    (DMat.zero D0.rows (2 * D0.cols)).assign 0 (d1 * D0.cols) D0.rows D0.cols D
  .ok rows.flatten

/-- `StabilizationMatrix`, local_space.cpp:276-312: the scalar matrix for each component (with `FEM_PCC` the zero matrix, as are the blocks here). The default type of
projection is that of local_space.hpp:96-97. -/
def elasticStab (space : CellSpace2D K) : Except Fault (DMat K) := do
  let S ← space.stab .piNabla
  (List.range 2).foldlM (init := DMat.zero (2 * S.rows) (2 * S.rows)) fun A d => A.assign (d * S.rows) (d * S.rows) S.rows S.rows S

/-- `symmetric_gardient`, lines 253-257. -/
def symmetricGradient (ders : List (DMat K)) : Except Fault (List (DMat K)) := do
  let rows ← (List.range 2).mapM fun d1 => (List.range 2).mapM fun d2 => do
    let A ← unchecked ders (2 * d1 + d2)
    let B ← unchecked ders (2 * d2 + d1)
    let S ← A.add B
    .ok (DMat.smul (1 / 2) S)
  .ok rows.flatten

/-- Lines 246-279 on one cell: `local_A + local_A_stab` (line 302) and `local_rhs`. -/
def elasticLocal (space : CellSpace2D K) (test : ElasticTest K) : Except Fault (DMat K × DMat K) := do
  let values ← elasticValues space
  let ders ← elasticDers space
  let sym ← symmetricGradient ders
  let mu := evalScalar space.internal.points fun p => test.lame p 0
  let lambda := evalScalar space.internal.points fun p => test.lame p 1
  let source := evalComponents 3 space.internal.points test.source
  let A ← cellDiffusionSame mu sym space.internal.weights
  let D0 ← unchecked ders 0
  let D3 ← unchecked ders 3
  let div ← D0.add D3
  let B ← cellReactionSame lambda div space.internal.weights
  let A ← (DMat.smul 2 A).add B
  let rhs ← cellForcingVector source values space.internal.weights
  let kMax ← maxAbs mu
  let S ← elasticStab space
  let A ← A.add (.smul kMax S)
  .ok (A, rhs)

/-- The loop over the components for one vertex in `ComputeStrongTerm`, lines 37-73. The text repeats `strongVertex` for each component, with the offset of the component; the
values of the boundary condition are computed once for both, before the loop. -/
def elasticStrongVertex (info : MeshInfo) (data : DOFsData) (offs : List Nat) (mesh : PlaneMesh K) (test : ElasticTest K) (v : Nat) : Except Fault (List (Nat × K)) := do
  let ws ← (List.range 2).mapM fun h => do
    let off ← unchecked offs h
    let w ← strongVertex info data mesh (fun m p => test.strong m p h) v
    .ok (shiftWrites off w)
  .ok ws.flatten

/-- The loop over the components for one edge in `ComputeStrongTerm`, lines 75-112. -/
def elasticStrongEdge (info : MeshInfo) (data : DOFsData) (offs : List Nat) (space : CellSpace2D K) (test : ElasticTest K) (e : Nat × Nat) : Except Fault (List (Nat × K)) := do
  let ws ← (List.range 2).mapM fun h => do
    let off ← unchecked offs h
    let w ← strongEdge info data space (fun m p => test.strong m p h) e
    .ok (shiftWrites off w)
  .ok ws.flatten

/-- `ComputeStrongTerm`, lines 26-113. -/
def elasticStrong (info : MeshInfo) (data : DOFsData) (offs : List Nat) (space : CellSpace2D K) (mesh : PlaneMesh K) (test : ElasticTest K) (c : Nat) :
    Except Fault (List (Nat × K)) := do
  let vs ← (mesh.topo.cell2DVertices c).mapM (elasticStrongVertex info data offs mesh test)
  let es ← (mesh.topo.cell2DEdges c).zipIdx.mapM (elasticStrongEdge info data offs space test)
  .ok (vs.flatten ++ es.flatten)

/-- The loop over the components for one edge in `ComputeWeakTerm`, lines 129-215. The text repeats `weakEdge` for each component, with the offset of the component; the
values on the edge are computed once for both. -/
def elasticWeakEdge (info : MeshInfo) (data : DOFsData) (offs : List Nat) (gauss : Rule K K) (g : PolyEdges K) (space : CellSpace2D K) (mesh : PlaneMesh K)
    (test : ElasticTest K) (c ed : Nat) : Except Fault (List (Nat × K)) := do
  let ws ← (List.range 2).mapM fun h => do
    let off ← unchecked offs h
    let w ← weakEdge info data gauss g space mesh (fun m p => test.weak m p h) c ed
    .ok (shiftWrites off w)
  .ok ws.flatten

/-- `ComputeWeakTerm`, lines 115-217. -/
def elasticWeak (info : MeshInfo) (data : DOFsData) (offs : List Nat) (order : Nat) (gauss : Nat → Rule K K) (g : PolyEdges K) (space : CellSpace2D K) (mesh : PlaneMesh K)
    (test : ElasticTest K) (c : Nat) : Except Fault (List (Nat × K)) := do
  let es ← (List.range g.vertices.length).mapM (elasticWeakEdge info data offs (gauss (u32 (2 * order))) g space mesh test c)
  .ok es.flatten

/-- What one cell hands to the global objects, lines 245-310. -/
structure ElasticCellOut (K : Type) where
  call : Call K
  strong : List (Nat × K)
  weak : List (Nat × K)

/-- The body of the loop over the cells, lines 243-311. Inactive cells are not skipped. The assertion in lines 284-287 is not modelled. `gauss` is the table of Gedim's
rules, `geometry c` are the vertices and edges of the cell. -/
def elasticCell (info : MeshInfo) (data : DOFsData) (count : CountData) (order : Nat) (gauss : Nat → Rule K K) (geometry : Nat → PolyEdges K)
    (spaces : Nat → Except Fault (CellSpace2D K)) (mesh : PlaneMesh K) (test : ElasticTest K) (c : Nat) : Except Fault (ElasticCellOut K) := do
  let space ← spaces c
  let l ← elasticLocal space test
  let lc ← localCountDofs 2 c [data, data]
  let F : Fields := ⟨[data, data], lc.offsets, count.offsetsDOFs, count.offsetsStrongs⟩
  let strong ← elasticStrong info data count.offsetsStrongs space mesh test c
  let weak ← elasticWeak info data count.offsetsDOFs order gauss (geometry c) space mesh test c
  .ok ⟨⟨c, F, some (F, l.1.toLMat), some l.2.toList⟩, strong, weak⟩

/-- `Elastic_PCC_2D_Problem_Data` after `Assemble` (PolyDiM/examples/Elastic_PCC_2D/src/assembler.hpp): what was written to `globalMatrixA` and `dirichletMatrixA`, what was
added to `rightHandSide`, and `solutionDirichlet`. -/
structure ElasticProblem (K : Type) where
  globalMatrix : List (Nat × Nat × K)
  dirichletMatrix : List (Nat × Nat × K)
  rightHandSide : List (Nat × K)
  dirichlet : List K

/-- `Assemble`, lines 219-314, with `count_dofs` of PolyDiM/examples/Elastic_PCC_2D/src/main.cpp:115-116. The additions to the right-hand side commute, so those of the assembly
calls are listed first. -/
def assembleElastic (info : MeshInfo) (data : DOFsData) (order : Nat) (gauss : Nat → Rule K K) (geometry : Nat → PolyEdges K)
    (spaces : Nat → Except Fault (CellSpace2D K)) (mesh : PlaneMesh K) (test : ElasticTest K) : Except Fault (ElasticProblem K) := do
  let count ← countDofs [data.counters, data.counters]
  let cells ← (List.range mesh.num2D).mapM (elasticCell info data count order gauss geometry spaces mesh test)
  let S ← assembleAll 2 .empty (cells.map ElasticCellOut.call)
  let dirichlet ← ((cells.map ElasticCellOut.strong).flatten).foldlM (fun v w => writeAt v w.1 w.2) (List.replicate count.totalStrong 0)
  let rhs := S.rhs ++ (cells.map ElasticCellOut.weak).flatten
  .ok ⟨S.lhsDOFs, S.lhsStrongs, rhs ++ (if 0 < data.counters.strongs then subtractProduct S.lhsStrongs dirichlet else []), dirichlet⟩

end PolyDiM
