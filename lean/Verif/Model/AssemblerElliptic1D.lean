import Verif.Model.Fem1D
import Verif.Model.AssemblerMcc2D

/-!
# Model: the one-dimensional elliptic example

PolyDiM/examples/Elliptic_PCC_1D/src/assembler.cpp with PolyDiM/src/FEM/PCC/1D/FEM_PCC_1D_LocalSpace.{hpp,cpp}. Line numbers without a file refer to
assembler.cpp. Points are functions on `{0, 1, 2}` as in `Verif.Model.Fem1D`. The storage type `Symmetric` of the global matrix (line 124) is not modelled.
-/

namespace PolyDiM

variable {K : Type} [Field K] [LinearOrder K]

/-- What the assembler reads of `Gedim::MeshMatricesDAO`: connectivity, numbers of cells and `Cell0DCoordinates` (lines 34, 41, 79, 85, 132). -/
structure LineMesh (K : Type) where
  topo : Mesh
  coords : Nat → Nat → K

/-- `Cell0DTotalNumber`, lines 34, 219, and MeshMatricesDAO_mesh_connectivity_data.hpp:35-38. -/
def LineMesh.num0D (mesh : LineMesh K) : Nat := (mesh.topo.markers 0).length

/-- `Cell1DTotalNumber`, lines 132, 253, and MeshMatricesDAO_mesh_connectivity_data.hpp:39-42. -/
def LineMesh.num1D (mesh : LineMesh K) : Nat := (mesh.topo.markers 1).length

/-- What the assembler reads of `Gedim::MeshUtilities::MeshGeometricData1D`: `Cell1DsVertices.at(c).col(0)`, `Cell1DsTangents`, `Cell1DsLengths`
(lines 134-137). The tables have one entry per segment. -/
structure LineGeometry (K : Type) where
  origin : Nat → Nat → K
  tangent : Nat → Nat → K
  length : Nat → K

/-- The functions of `I_Test` read by `Assemble` (PolyDiM/examples/Elliptic_PCC_1D/src/test_definition.hpp:39-43). They act point by point. -/
structure LineTest (K : Type) where
  diffusion : (Nat → K) → K
  reaction : (Nat → K) → K
  source : (Nat → K) → K
  strong : Nat → (Nat → K) → K
  weak : Nat → (Nat → K) → K

/-- `ReferenceSegmentQuadrature`, FEM_PCC_1D_ReferenceElement.hpp:66-68, 78, 155; `gauss` is Gedim's `Quadrature_Gauss1D`. -/
def fem1Rule (gauss : Nat → Rule K K) (order quadratureOrder : Nat) : Rule K K :=
  gauss (if quadratureOrder = 0 then u32 (2 * order) else quadratureOrder)

/-- A table of the reference functions at the reference points, FEM_PCC_1D_ReferenceElement.hpp:157-159. -/
def fem1Table (d : Fem1Data K) (f : K → Nat → Except Fault K) (ts : List K) : Except Fault (DMat K) := do
  let rows ← ts.mapM fun t => (List.range d.numBasis).mapM (f t)
  .ok ⟨ts.length, d.numBasis, fun p i => (rows.getD p []).getD i 0⟩

/-- `MapValues`, FEM_PCC_1D_LocalSpace.cpp:66-74. A column that is never written is undefined behaviour when it is read. -/
def fem1MapValues (d : Fem1Data K) (ref : DMat K) : Except Fault (DMat K) := do
  let cols ← (List.range d.numBasis).mapM fun c =>
    match scatterCol (fem1Order d) (fun i => i) c with
    | some i => Except.ok i
    | none => .error .undefinedBehaviour
  .ok ⟨ref.rows, d.numBasis, fun p c => ref.ent p (cols.getD c 0)⟩

/-- `MapDerivativeValues`, FEM_PCC_1D_LocalSpace.cpp:76-94: the reference values divided by the length, reordered. -/
def fem1MapDerivatives (d : Fem1Data K) (m : SegMap K) (ref : DMat K) : Except Fault (DMat K) :=
  fem1MapValues d ⟨ref.rows, ref.cols, fun p i => ref.ent p i / m.length⟩

/-- `InternalQuadrature`, FEM_PCC_1D_LocalSpace.cpp:96-105, with `DetJ`, FEM_PCC_1D_LocalSpace.hpp:75-79. -/
def fem1Internal (rule : Rule K K) (m : SegMap K) : Rule (Nat → K) K :=
  ⟨rule.points.map (segF m), rule.weights.map fun w => w * |m.length|⟩

/-- What `Assemble` and `PostProcessSolution` use of the local space of one segment: `InternalQuadrature`, `ComputeBasisFunctionsValues` and
`ComputeBasisFunctionsDerivativeValues` (lines 134-144 and 255-265; FEM_PCC_1D_LocalSpace.hpp:95-106). -/
structure LineSpace (K : Type) where
  internal : Rule (Nat → K) K
  values : DMat K
  ders : List (DMat K)

/-- Lines 134-144 and 255-265. -/
def lineSpace (d : Fem1Data K) (rule : Rule K K) (g : LineGeometry K) (c : Nat) : Except Fault (LineSpace K) := do
  let m := fem1Map (g.origin c) (g.tangent c) (g.length c)
  let refValues ← fem1Table d (fem1Value d) rule.points
  let refDers ← fem1Table d (fem1Derivative d) rule.points
  let values ← fem1MapValues d refValues
  let ders ← fem1MapDerivatives d m refDers
  .ok ⟨fem1Internal rule m, values, [ders]⟩

/-- The matrix `local_A + local_M` and `local_rhs`, lines 146-160, 173-174. -/
def lineLocal (s : LineSpace K) (test : LineTest K) : Except Fault (DMat K × DMat K) := do
  let A ← cellDiffusionSame (s.internal.points.map test.diffusion) s.ders s.internal.weights
  let M ← cellReactionSame (s.internal.points.map test.reaction) s.values s.internal.weights
  let b ← cellForcing (s.internal.points.map test.source) s.values s.internal.weights
  let AM ← A.add M
  .ok (AM, b)

/-- One end of `ComputeWeakTerm`, lines 79-109: `v` is the vertex, `direction` the sign. -/
def lineWeakEnd (info : MeshInfo) (data : DOFsData) (mesh : LineMesh K) (test : LineTest K) (direction : K) (v : Nat) : Except Fault (List (Nat × K)) := do
  let b ← atIdx (info.bInfo 0) v
  if b.type ≠ .weak then .ok []
  else do
    let x ← atIdx (data.dims 0).cells v
    weakAdds [direction * test.weak b.marker (mesh.coords v)] (fun i => i) 0 x.dofs

/-- `ComputeWeakTerm`, lines 68-111: the additions to the right-hand side. -/
def lineWeak (info : MeshInfo) (data : DOFsData) (mesh : LineMesh K) (test : LineTest K) (c : Nat) : Except Fault (List (Nat × K)) := do
  let w0 ← lineWeakEnd info data mesh test (-1) (mesh.topo.cell1DVertices c).1
  let w1 ← lineWeakEnd info data mesh test 1 (mesh.topo.cell1DVertices c).2
  .ok (w0 ++ w1)

/-- One vertex of `ComputeStrongTerm`, lines 36-64: the writes to `solutionDirichlet`. -/
def lineStrongVertex (info : MeshInfo) (data : DOFsData) (mesh : LineMesh K) (test : LineTest K) (v : Nat) : Except Fault (List (Nat × K)) := do
  let b ← atIdx (info.bInfo 0) v
  if b.type ≠ .strong then .ok []
  else do
    let x ← atIdx (data.dims 0).cells v
    strongWrites [test.strong b.marker (mesh.coords v)] 0 x.dofs

/-- What one iteration of the loop of `Assemble` produces, lines 132-179. -/
structure LineCellOut (K : Type) where
  call : Call K
  weak : List (Nat × K)

/-- One iteration of the loop of `Assemble`, lines 132-179. -/
def lineCell (info : MeshInfo) (data : DOFsData) (d : Fem1Data K) (rule : Rule K K) (g : LineGeometry K) (mesh : LineMesh K) (test : LineTest K) (c : Nat) :
    Except Fault (LineCellOut K) := do
  let s ← lineSpace d rule g c
  let l ← lineLocal s test
  let weak ← lineWeak info data mesh test c
  .ok ⟨⟨c, oneField data, some (oneField data, l.1.toLMat), some l.2.toList⟩, weak⟩

/-- `Elliptic_PCC_1D_Problem_Data` after `Assemble` (PolyDiM/examples/Elliptic_PCC_1D/src/assembler.hpp:33-40): what was written to the two matrices, what was added
to `rightHandSide`, and `solutionDirichlet`. -/
structure LineProblem (K : Type) where
  globalMatrix : List (Nat × Nat × K)
  dirichletMatrix : List (Nat × Nat × K)
  rightHandSide : List (Nat × K)
  dirichlet : List K

/-- `Assemble`, lines 113-192. The additions to the right-hand side commute, so those of the assembly calls are listed first. -/
def assembleLine (info : MeshInfo) (data : DOFsData) (d : Fem1Data K) (rule : Rule K K) (g : LineGeometry K) (mesh : LineMesh K) (test : LineTest K) :
    Except Fault (LineProblem K) := do
  let cells ← (List.range mesh.num1D).mapM (lineCell info data d rule g mesh test)
  let S ← assembleAll 1 .empty (cells.map LineCellOut.call)
  let strong ← (List.range mesh.num0D).mapM (lineStrongVertex info data mesh test)
  let dirichlet ← strong.flatten.foldlM (fun v w => writeAt v w.1 w.2) (List.replicate data.counters.strongs 0)
  let rhs := S.rhs ++ (cells.map LineCellOut.weak).flatten
  .ok ⟨S.lhsDOFs, S.lhsStrongs, rhs ++ (if 0 < data.counters.strongs then subtractProduct S.lhsStrongs dirichlet else []), dirichlet⟩

/-- The functions of `I_Test` read by `PostProcessSolution` (PolyDiM/examples/Elliptic_PCC_1D/src/test_definition.hpp:44-45). -/
structure LineExact (K : Type) where
  value : (Nat → K) → K
  derivative : (Nat → K) → Nat → K

/-- The loop over the DOFs of one vertex, lines 225-240: the last one is kept. -/
def lineNumericLoop (free strong : List K) : K → List DOF → Except Fault K
  | y, [] => .ok y
  | _, x :: xs => do
    match x.type with
    | .unknwon => .error .unknownDOFType
    | .strong => do
      let z ← unchecked strong x.globalIndex
      lineNumericLoop free strong z xs
    | .dof => do
      let z ← unchecked free x.globalIndex
      lineNumericLoop free strong z xs

/-- `cell0Ds_numeric[p]`, lines 216, 223-240. -/
def lineNumeric (data : DOFsData) (free strong : List K) (p : Nat) : Except Fault K := do
  let x ← atIdx (data.dims 0).cells p
  lineNumericLoop free strong 0 x.dofs

/-- `weights.transpose() * v.array().square()`, lines 285-296. -/
def weightedSquare (weights v : List K) : Except Fault K :=
  if weights.length = v.length then .ok (List.zipWith (fun w x => w * (x * x)) weights v).sum else .error .undefinedBehaviour

/-- `a - b` for two vectors, lines 285, 291-292. -/
def vectorSub (a b : List K) : Except Fault (List K) :=
  if a.length = b.length then .ok (List.zipWith (· - ·) a b) else .error .undefinedBehaviour

/-- The numbers computed on one segment, lines 285-296. -/
structure LineCellErrors (K : Type) where
  errorL2 : K
  normL2 : K
  errorH1 : K
  normH1 : K

/-- `tangent_derivatives_values` at one point, lines 270-272: only the first two components of the derivative and of the tangent are used. -/
def tangentDerivative (g : LineGeometry K) (exact : LineExact K) (c : Nat) (p : Nat → K) : K :=
  exact.derivative p 0 * (g.tangent c 0 / g.length c) + exact.derivative p 1 * (g.tangent c 1 / g.length c)

/-- One iteration of the loop of `PostProcessSolution`, lines 253-296. -/
def lineErrors (data : DOFsData) (d : Fem1Data K) (rule : Rule K K) (g : LineGeometry K) (exact : LineExact K) (free strong : List K) (c : Nat) :
    Except Fault (LineCellErrors K) := do
  let s ← lineSpace d rule g c
  let count ← localCountDofs 1 c [data]
  let dofs ← globalToLocal 1 c [data] count.total count.offsets [0] [0] free strong
  let U ← s.values.mul (.col dofs)
  let ders ← unchecked s.ders 0
  let dU ← ders.mul (.col dofs)
  let e0 ← vectorSub U.toList (s.internal.points.map exact.value)
  let e1 ← vectorSub dU.toList (s.internal.points.map (tangentDerivative g exact c))
  let errorL2 ← weightedSquare s.internal.weights e0
  let normL2 ← weightedSquare s.internal.weights U.toList
  let errorH1 ← weightedSquare s.internal.weights e1
  let normH1 ← weightedSquare s.internal.weights dU.toList
  .ok ⟨errorL2, normL2, errorH1, normH1⟩

/-- `PostProcess_Data`, PolyDiM/examples/Elliptic_PCC_1D/src/assembler.hpp:42-59. -/
structure LinePost (K : Type) where
  numeric : List K
  exact : List K
  cells : List (LineCellErrors K)
  errorL2 : K
  normL2 : K
  errorH1 : K
  normH1 : K
  meshSize : K
  residual : K

/-- The entry `i` of `globalMatrixA * solution - rightHandSide`, lines 208-211. -/
def lineResidual (P : LineProblem K) (free : List K) (i : Nat) : K :=
  ((P.globalMatrix.filter fun t => t.1 = i).map fun t => t.2.2 * free.getD t.2.1 0).sum - ((P.rightHandSide.filter fun t => t.1 = i).map Prod.snd).sum

/-- `PostProcessSolution`, lines 194-308; `sqrt` is `std::sqrt` and `Norm` is the root of the sum of the squares. -/
def linePost (sqrt : K → K) (data : DOFsData) (d : Fem1Data K) (rule : Rule K K) (g : LineGeometry K) (mesh : LineMesh K) (exact : LineExact K) (P : LineProblem K)
    (free : List K) : Except Fault (LinePost K) := do
  let residual := if 0 < data.counters.dofs then sqrt ((List.range data.counters.dofs).map fun i => lineResidual P free i * lineResidual P free i).sum else 0
  let numeric ← (List.range mesh.num0D).mapM (lineNumeric data free P.dirichlet)
  let cells ← (List.range mesh.num1D).mapM (lineErrors data d rule g exact free P.dirichlet)
  .ok ⟨numeric, (List.range mesh.num0D).map fun p => exact.value (mesh.coords p), cells, sqrt (cells.map LineCellErrors.errorL2).sum,
    sqrt (cells.map LineCellErrors.normL2).sum, sqrt (cells.map LineCellErrors.errorH1).sum, sqrt (cells.map LineCellErrors.normH1).sum,
    (List.range mesh.num1D).foldl (fun m c => if m < g.length c then g.length c else m) 0, residual⟩


/-- `v.array() *= polynomial` repeated `n` times from the constant `a` (test_definition.hpp:90-91, 104-105, 119-120). -/
def powerLoop (a x : K) (n : Nat) : K := (List.range n).foldl (fun r _ => r * x) a

/-- `Patch_Test`, PolyDiM/examples/Elliptic_PCC_1D/src/test_definition.hpp:71-123. The exceptions for unknown markers are not modelled. `max_order = order - 2` is converted to
`int`, so that the loop does nothing for `order < 2`: this is the subtraction of natural numbers. The product `order * (order - 1)` is taken without
the reduction modulo `2^32`. -/
def patchTest1D (order : Nat) : LineTest K where
  diffusion := fun _ => 1
  reaction := fun _ => 0
  source := fun p => -powerLoop ((order * (order - 1) : Nat) : K) (p 0 + 1 / 2) (order - 2)
  strong := fun _ p => powerLoop 1 (p 0 + 1 / 2) order
  weak := fun _ p => powerLoop order (p 0 + 1 / 2) (order - 1)

/-- `exact_solution` and `exact_derivative_solution` of `Patch_Test`, test_definition.hpp:125-148. -/
def patchExact1D (order : Nat) : LineExact K where
  value := fun p => powerLoop 1 (p 0 + 1 / 2) order
  derivative := fun p i => if i = 0 then powerLoop order (p 0 + 1 / 2) (order - 1) else 0

/-- `exact_solution` and `exact_derivative_solution` of `Rotated_Patch_Test`, test_definition.hpp:225-248. -/
def rotatedExact1D (order : Nat) : LineExact K where
  value := fun p => powerLoop 1 (p 0 + p 1 + 1 / 2) order
  derivative := fun p i => if i < 2 then powerLoop order (p 0 + p 1 + 1 / 2) (order - 1) else 0

/-- `Rotated_Patch_Test`, test_definition.hpp:177-223. The exceptions for unknown markers are not modelled. -/
def rotatedTest1D (order : Nat) : LineTest K where
  diffusion := fun _ => 1
  reaction := fun _ => 1
  source := fun p => -powerLoop ((order * (order - 1) : Nat) : K) (p 0 + p 1 + 1 / 2) (order - 2) + (rotatedExact1D order).value p
  strong := fun _ p => (rotatedExact1D order).value p
  weak := fun _ p => (rotatedExact1D order).derivative p 0

/-- `Create_Constant_DOFsInfo_1D` with the numbers of the reference element, PolyDiM/examples/Elliptic_PCC_1D/main.cpp:113-115. -/
def lineMeshInfo (d : Fem1Data K) (mesh : Mesh) (boundary : Nat → Option BInfo) : Except Fault MeshInfo :=
  createConstantInfo 1 mesh ⟨fun e => if e = 0 then d.num0D else if e = 1 then d.num1D else 0, boundary⟩

end PolyDiM
