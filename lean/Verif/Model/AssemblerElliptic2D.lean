import Verif.Model.AssemblerMcc2D
import Verif.Model.Zfem2D

/-!
# Model: the assembler of the example Elliptic_PCC_2D

PolyDiM/examples/Elliptic_PCC_2D/src/assembler.cpp: an advection-diffusion problem, with the streamline upwind (SUPG) terms if they are switched on. Lines without a
file name are lines of that file. The functions of PolyDiM/src/PDETools/LocalSpace/LocalSpace_PCC_2D.cpp are those of `CellSpace2D`.

As in `Verif/Model/AssemblerGlobal2D.lean`, the loops return the lists of their writes.
-/

namespace PolyDiM

variable {K : Type} [Field K] [LinearOrder K]

/-- The functions of LocalSpace_PCC_2D.cpp used on one cell: those of `CellSpace2D` and `BasisFunctionsLaplacianValues` (218-237). -/
structure EllipticCell2D (K : Type) extends CellSpace2D K where
  laplacian : ProjType → Except Fault (DMat K)

/-- The cases `VEM_PCC`: those of `vemCell2D`, and LocalSpace_PCC_2D.cpp:228-233. -/
def vemEllipticCell (ref : VemRef2D K) (poly : VemPolygon K) (s : VemSpace2D K) : EllipticCell2D K where
  toCellSpace2D := vemCell2D ref poly s
  laplacian := vemLaplacianInt s

/-- `CreateLocalSpace` of LocalSpace_PCC_2D.cpp on cell `c`, in the case `VEM_PCC` (as it is called in lines 266-270); the geometry of the cell is that of the polygon `poly c`. -/
def vemEllipticSpaces (lu llt : Solver K) (ref : VemRef2D K) (poly : Nat → VemPolygon K) (c : Nat) : Except Fault (EllipticCell2D K) := do
  let s ← vemCreate2D lu llt ref (poly c)
  .ok (vemEllipticCell ref (poly c) s)

/-- The cases `ZFEM_PCC` of LocalSpace_PCC_2D.cpp: 185-187, 259-263, 285-287, 331-333, 351-353, 375-378, 420-442. Values at given points (193-216, 293-316), the Laplacian
(234-235), `InternalDofsCoordinates` (472-473) and `InternalDofs` (496-497) are not supported and throw; the type of projection is ignored. `edges` are the vertices, tangents
and directions of `ZFEM_Geometry`, `rule` is the quadrature of the local space. -/
def zfemEllipticCell (ref : ZfemRef K) (edges : PolyEdges K) (s : ZfemSpace K) (rule : Rule (K × K) K) : EllipticCell2D K where
  size := s.counts.basis
  internal := rule
  valuesInt := fun _ => .ok s.values
  valuesAt := fun _ _ => .error .runtimeError
  dersInt := fun _ => .ok [s.derX, s.derY]
  dersAt := fun _ _ => .error .runtimeError
  stab := fun _ => .ok (.zero s.counts.basis s.counts.basis)
  edgeCoords := vemEdgeCoords s.ts edges
  internalCoords := .error .runtimeError
  internalDofs := fun _ _ => .error .runtimeError
  valuesOnEdge := fun _ => zfemValuesOnEdge ref s
  laplacian := fun _ => .error .runtimeError

/-- The functions of `test::I_Test` used by the assembler (PolyDiM/examples/Elliptic_PCC_2D/src/test_definition.hpp:42-46). The code passes all points at once; a function is
evaluated at every point. -/
structure EllipticTest (K : Type) where
  diffusion : K × K → K
  advection : K × K → Nat → K
  source : K × K → K
  strong : Nat → K × K → K
  weak : Nat → K × K → K

/-- `SUPG` and `PecletConstant` of the configuration (PolyDiM/examples/Elliptic_PCC_2D/src/program_configuration.hpp:107-114). -/
structure EllipticConfig (K : Type) where
  supg : Bool
  peclet : K

/-- `v.asDiagonal() * A`, lines 220, 223, 226, 227. -/
def scaleRows (v : List K) (A : DMat K) : Except Fault (DMat K) :=
  if v.length = A.rows then .ok ⟨A.rows, A.cols, fun i j => v.getD i 0 * A.ent i j⟩ else .error .undefinedBehaviour

/-- `vander_beta_matrix`, lines 220-223 and 235-238: the derivatives of the basis functions along the advection. -/
def supgVander (advection : List (List K)) (ders : List (DMat K)) : Except Fault (DMat K) := do
  let v ← atIdx advection 0
  let D ← atIdx ders 0
  let A ← scaleRows v D
  (List.range (ders.length - 1)).foldlM (init := A) fun A d => do
    let v ← atIdx advection (d + 1)
    let D ← atIdx ders (d + 1)
    let B ← scaleRows v D
    A.add B

/-- `ComputeSUPGMatrix`, lines 214-228. -/
def supgMatrix (advection : List (List K)) (diffusion : List K) (laplacian : DMat K) (ders : List (DMat K)) (weights : List K) : Except Fault (DMat K) := do
  let V ← supgVander advection ders
  let X ← scaleRows weights V
  let c ← cwiseProduct weights diffusion
  let Y ← scaleRows c laplacian
  let Z ← X.add (.smul (-1) Y)
  V.tr.mul Z

/-- `ComputeSUPGForcingTerm`, lines 230-241. The result is a matrix with one column. -/
def supgForcing (advection : List (List K)) (source : List K) (ders : List (DMat K)) (weights : List K) : Except Fault (DMat K) := do
  let V ← supgVander advection ders
  let T ← V.tr.mulDiag weights
  T.mul (.col source)

/-- `b_norm`, lines 298-299. -/
def advectionNorm (advection : List (List K)) (weights : List K) : Except Fault K := do
  let b0 ← unchecked advection 0
  let b1 ← unchecked advection 1
  if b0.length = weights.length ∧ b1.length = weights.length then
    .ok (∑ q ∈ Finset.range weights.length, weights.getD q 0 * (b0.getD q 0 ^ 2 + b1.getD q 0 ^ 2))
  else .error .undefinedBehaviour

/-- `peclet_number[c]`, line 303; `none` if the division is by zero and the result is not finite. -/
def pecletNumber (constant diameter bNorm kMax : K) : Option K :=
  if 2 * kMax = 0 then none else some (constant * diameter * bNorm / (2 * kMax))

/-- `stability_parameter[c]` with SUPG, line 307. For `b_norm = 0` the code multiplies an infinite value by zero or computes with a value that is not a number. For
`k_max = 0` and positive `b_norm` the Péclet number is `+∞` and the minimum 1 (the constant and the diameter are positive). -/
def stabilityParameter (diameter bNorm : K) (peclet : Option K) : Except Fault K :=
  if bNorm = 0 then .error .notANumber
  else match peclet with
    | some p => .ok (diameter / bNorm * min 1 p)
    | none => .ok (diameter / bNorm)

/-- What lines 273-340 compute on one cell: the local matrix `local_A + local_A_stab + local_B` (line 340), `local_rhs`, the Péclet number and the stability
parameter. -/
structure EllipticLocal (K : Type) where
  matrix : DMat K
  rhs : DMat K
  peclet : Option K
  stability : K

/-- Lines 305-324: the matrix `local_B`, the right-hand side and the stability parameter after the SUPG terms. -/
def supgTerms (config : EllipticConfig K) (space : EllipticCell2D K) (diameter bNorm : K) (peclet : Option K) (diffusion : List K) (advection : List (List K)) (source : List K)
    (ders : List (DMat K)) (B rhs : DMat K) : Except Fault (DMat K × DMat K × K) :=
  if config.supg then do
    let tau ← stabilityParameter diameter bNorm peclet
    let L ← space.laplacian .pi0km1Der
    let M ← supgMatrix advection diffusion L ders space.internal.weights
    let B ← B.add (.smul tau M)
    let F ← supgForcing advection source ders space.internal.weights
    let rhs ← rhs.add (.smul tau F)
    .ok (B, rhs, tau)
  else .ok (B, rhs, 0)

/-- Lines 273-340 on one cell. The default types of projection are those of LocalSpace_PCC_2D.hpp:108, 123, 134, 138. -/
def ellipticLocal (config : EllipticConfig K) (space : EllipticCell2D K) (diameter : K) (test : EllipticTest K) : Except Fault (EllipticLocal K) := do
  let values ← space.valuesInt .pi0km1
  let ders ← space.dersInt .pi0km1Der
  let diffusion := evalScalar space.internal.points test.diffusion
  let advection := evalComponents 3 space.internal.points test.advection
  let source := evalScalar space.internal.points test.source
  let A ← cellDiffusionSame diffusion ders space.internal.weights
  let B ← cellAdvection advection values ders space.internal.weights
  let rhs ← cellForcing source values space.internal.weights
  let bNorm ← advectionNorm advection space.internal.weights
  let kMax ← maxAbs diffusion
  let peclet := pecletNumber config.peclet diameter bNorm kMax
  let (B, rhs, tau) ← supgTerms config space diameter bNorm peclet diffusion advection source ders B rhs
  let S ← space.stab .piNabla
  let A ← A.add (.smul (kMax + tau * bNorm) S)
  let A ← A.add B
  .ok ⟨A, rhs, peclet, tau⟩

/-- `ComputeStrongTerm`, lines 27-111. One vertex is `strongVertex` (lines 42-71), one edge `strongEdge` (lines 76-109). -/
def ellipticStrong (info : MeshInfo) (data : DOFsData) (space : EllipticCell2D K) (mesh : PlaneMesh K) (test : EllipticTest K) (c : Nat) : Except Fault (List (Nat × K)) := do
  let g ← atIdx (data.dims 2).globals c
  if g.numStrongs = 0 then .ok []
  else do
    let vs ← (mesh.topo.cell2DVertices c).mapM (strongVertex info data mesh test.strong)
    let es ← (mesh.topo.cell2DEdges c).zipIdx.mapM (strongEdge info data space.toCellSpace2D test.strong)
    .ok (vs.flatten ++ es.flatten)

/-- `ComputeWeakTerm`, lines 113-212. One edge is `weakEdge` (lines 129-211). -/
def ellipticWeak (info : MeshInfo) (data : DOFsData) (order : Nat) (gauss : Nat → Rule K K) (g : PolyEdges K) (space : EllipticCell2D K) (mesh : PlaneMesh K)
    (test : EllipticTest K) (c : Nat) : Except Fault (List (Nat × K)) := do
  let x ← atIdx (data.dims 2).globals c
  if x.hasBoundary then do
    let es ← (List.range g.vertices.length).mapM (weakEdge info data (gauss (u32 (2 * order))) g space.toCellSpace2D mesh test.weak c)
    .ok es.flatten
  else .ok []

/-- What one cell hands to the global objects, lines 267-348: the call of the assembly, the writes of the strong term, the additions of the weak term, the Péclet number and
the stability parameter. -/
structure EllipticCellOut (K : Type) where
  call : Call K
  strong : List (Nat × K)
  weak : List (Nat × K)
  peclet : Option K
  stability : K

/-- The body of the loop over the cells, lines 265-349. Inactive cells are not skipped. `gauss` is the table of Gedim's rules, `geometry c` are the vertices and edges of the cell,
`diameters c` is `Cell2DsDiameters.at(c)`. The assertion in line 332 is not modelled. -/
def ellipticCell (config : EllipticConfig K) (info : MeshInfo) (data : DOFsData) (order : Nat) (gauss : Nat → Rule K K) (geometry : Nat → PolyEdges K) (diameters : Nat → K)
    (spaces : Nat → Except Fault (EllipticCell2D K)) (mesh : PlaneMesh K) (test : EllipticTest K) (c : Nat) : Except Fault (EllipticCellOut K) := do
  let space ← spaces c
  let l ← ellipticLocal config space (diameters c) test
  let strong ← ellipticStrong info data space mesh test c
  let weak ← ellipticWeak info data order gauss (geometry c) space mesh test c
  .ok ⟨⟨c, oneField data, some (oneField data, l.matrix.toLMat), some l.rhs.toList⟩, strong, weak, l.peclet, l.stability⟩

/-- `Elliptic_PCC_2D_Problem_Data` after `Assemble` (PolyDiM/examples/Elliptic_PCC_2D/src/assembler.hpp:36-45): what was written to `globalMatrixA` and `dirichletMatrixA`, what
was added to `rightHandSide`, `solutionDirichlet`, and the numbers of the cells. -/
structure EllipticProblem (K : Type) where
  globalMatrix : List (Nat × Nat × K)
  dirichletMatrix : List (Nat × Nat × K)
  rightHandSide : List (Nat × K)
  dirichlet : List K
  peclet : List (Option K)
  stability : List K

/-- `Assemble`, lines 243-360. The additions to the right-hand side commute, so those of the assembly calls are listed first. -/
def assembleEllipticExample (config : EllipticConfig K) (info : MeshInfo) (data : DOFsData) (order : Nat) (gauss : Nat → Rule K K) (geometry : Nat → PolyEdges K)
    (diameters : Nat → K) (spaces : Nat → Except Fault (EllipticCell2D K)) (mesh : PlaneMesh K) (test : EllipticTest K) : Except Fault (EllipticProblem K) := do
  let cells ← (List.range mesh.num2D).mapM (ellipticCell config info data order gauss geometry diameters spaces mesh test)
  let S ← assembleAll 2 .empty (cells.map EllipticCellOut.call)
  let dirichlet ← ((cells.map EllipticCellOut.strong).flatten).foldlM (fun v w => writeAt v w.1 w.2) (List.replicate data.counters.strongs 0)
  let rhs := S.rhs ++ (cells.map EllipticCellOut.weak).flatten
  .ok ⟨S.lhsDOFs, S.lhsStrongs, rhs ++ (if 0 < data.counters.strongs then subtractProduct S.lhsStrongs dirichlet else []), dirichlet,
    cells.map EllipticCellOut.peclet, cells.map EllipticCellOut.stability⟩

end PolyDiM
