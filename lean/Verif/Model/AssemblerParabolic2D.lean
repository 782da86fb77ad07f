import Verif.Model.AssemblerElliptic2D

/-!
# Model: the example Parabolic_PCC_2D

PolyDiM/examples/Parabolic_PCC_2D: the heat equation with the θ-method in time. Lines without a file name are lines of src/assembler.cpp of the example, `main` stands for its
main.cpp. The functions of PolyDiM/src/PDETools/LocalSpace/LocalSpace_PCC_2D.cpp are those of `CellSpace2D`.

As in `Verif/Model/AssemblerGlobal2D.lean`, the loops return the lists of their writes. A sparse matrix is the list of its triplets, a right-hand side the list of what was added
to it; entries at the same place are summed.
-/

namespace PolyDiM

variable {K : Type} [Field K] [LinearOrder K]

/-- The functions of `test::I_Test` used by the assembler (src/test_definition.hpp:40-48 of the example). The first argument is the time. The code passes all points at once; a
function is evaluated at every point. -/
structure ParabolicTest (K : Type) where
  diffusion : K × K → K
  source : K → K × K → K
  strong : K → Nat → K × K → K
  weak : K → Nat → K × K → K
  initial : K × K → K

/-- `ComputeInitalCondition`, lines 27-161. The loops over vertices (49-73), edges (87-117) and the DOFs of the cell (119-153) are those of `evaluate_function_on_dofs`; no cell
is skipped. -/
def parabolicInitial (data : DOFsData) (order : Nat) (spaces : Nat → Except Fault (CellSpace2D K)) (mesh : PlaneMesh K) (test : ParabolicTest K) : Except Fault (OnDofs K) := do
  let log ← (List.range mesh.num2D).mapM (evaluateCell data order spaces mesh test.initial)
  log.flatten.foldlM writeDof ⟨List.replicate data.counters.dofs 0, List.replicate data.counters.strongs 0⟩

/-- `ComputeStrongTerm`, lines 163-244. One vertex is `strongVertex` (lines 174-206), one edge `strongEdge` (lines 209-243). -/
def parabolicStrong (info : MeshInfo) (data : DOFsData) (space : CellSpace2D K) (mesh : PlaneMesh K) (test : ParabolicTest K) (time : K) (c : Nat) :
    Except Fault (List (Nat × K)) := do
  let vs ← (mesh.topo.cell2DVertices c).mapM (strongVertex info data mesh (test.strong time))
  let es ← (mesh.topo.cell2DEdges c).zipIdx.mapM (strongEdge info data space (test.strong time))
  .ok (vs.flatten ++ es.flatten)

/-- `ComputeWeakTerm`, lines 246-342. One edge is `weakEdge` (lines 261-340). -/
def parabolicWeak (info : MeshInfo) (data : DOFsData) (order : Nat) (gauss : Nat → Rule K K) (g : PolyEdges K) (space : CellSpace2D K) (mesh : PlaneMesh K)
    (test : ParabolicTest K) (time : K) (c : Nat) : Except Fault (List (Nat × K)) := do
  let es ← (List.range g.vertices.length).mapM (weakEdge info data (gauss (u32 (2 * order))) g space mesh (test.weak time) c)
  .ok es.flatten

/-- Lines 370-399, 411 and 418 on one cell: `local_A + local_A_stab` and `local_M + local_M_stab`. The default types of projection are those of LocalSpace_PCC_2D.hpp:108, 123,
138. -/
def parabolicLocal (space : CellSpace2D K) (test : ParabolicTest K) : Except Fault (DMat K × DMat K) := do
  let values ← space.valuesInt .pi0km1
  let ders ← space.dersInt .pi0km1Der
  let diffusion := evalScalar space.internal.points test.diffusion
  let A ← cellDiffusionSame diffusion ders space.internal.weights
  let kMax ← maxAbs diffusion
  let S ← space.stab .piNabla
  let M ← cellReactionSame (List.replicate space.internal.points.length 1) values space.internal.weights
  let T ← space.stab .pi0k
  let A ← A.add (.smul kMax S)
  let M ← M.add T
  .ok (A, M)

/-- `Parabolic_PCC_2D_Static_Problem_Data` (src/assembler.hpp:39-45 of the example). -/
structure ParabolicStatic (K : Type) where
  globalA : List (Nat × Nat × K)
  dirichletA : List (Nat × Nat × K)
  globalM : List (Nat × Nat × K)
  dirichletM : List (Nat × Nat × K)

/-- `StaticAssemble`, lines 344-429. The assertion in line 403 is not modelled. -/
def parabolicStatic (data : DOFsData) (spaces : Nat → Except Fault (CellSpace2D K)) (mesh : PlaneMesh K) (test : ParabolicTest K) : Except Fault (ParabolicStatic K) := do
  let cells ← (List.range mesh.num2D).mapM fun c => do
    let space ← spaces c
    let l ← parabolicLocal space test
    .ok ((⟨c, oneField data, some (oneField data, l.1.toLMat), none⟩ : Call K), (⟨c, oneField data, some (oneField data, l.2.toLMat), none⟩ : Call K))
  let A ← assembleAll 2 .empty (cells.map Prod.fst)
  let M ← assembleAll 2 .empty (cells.map Prod.snd)
  .ok ⟨A.lhsDOFs, A.lhsStrongs, M.lhsDOFs, M.lhsStrongs⟩

/-- What one cell hands to the global objects in `Assemble`, lines 453-484: the call of the assembly, the writes of the strong term and the additions of the weak term. -/
structure ParabolicCell (K : Type) where
  call : Call K
  strong : List (Nat × K)
  weak : List (Nat × K)

/-- The body of the loop over the cells in `Assemble`, lines 451-485. The assertion in line 472 is not modelled. -/
def parabolicCell (info : MeshInfo) (data : DOFsData) (order : Nat) (gauss : Nat → Rule K K) (geometry : Nat → PolyEdges K) (spaces : Nat → Except Fault (CellSpace2D K))
    (mesh : PlaneMesh K) (test : ParabolicTest K) (time : K) (c : Nat) : Except Fault (ParabolicCell K) := do
  let space ← spaces c
  let values ← space.valuesInt .pi0km1
  let rhs ← cellForcing (evalScalar space.internal.points (test.source time)) values space.internal.weights
  let strong ← parabolicStrong info data space mesh test time c
  let weak ← parabolicWeak info data order gauss (geometry c) space mesh test time c
  .ok ⟨⟨c, oneField data, none, some rhs.toList⟩, strong, weak⟩

/-- `Parabolic_PCC_2D_Problem_Data` after `Assemble` (src/assembler.hpp:47-52 of the example), without `solution`, which is a vector of zeros. -/
structure ParabolicData (K : Type) where
  rightHandSide : List (Nat × K)
  dirichlet : List K

/-- `Assemble`, lines 432-491. The additions to the right-hand side commute, so those of the assembly calls are listed first. -/
def parabolicAssemble (info : MeshInfo) (data : DOFsData) (order : Nat) (gauss : Nat → Rule K K) (geometry : Nat → PolyEdges K) (spaces : Nat → Except Fault (CellSpace2D K))
    (mesh : PlaneMesh K) (test : ParabolicTest K) (time : K) : Except Fault (ParabolicData K) := do
  let cells ← (List.range mesh.num2D).mapM (parabolicCell info data order gauss geometry spaces mesh test time)
  let S ← assembleAll 2 .empty (cells.map ParabolicCell.call)
  let dirichlet ← ((cells.map ParabolicCell.strong).flatten).foldlM (fun v w => writeAt v w.1 w.2) (List.replicate data.counters.strongs 0)
  .ok ⟨S.rhs ++ (cells.map ParabolicCell.weak).flatten, dirichlet⟩

/-- `A *= a` for a sparse matrix, main:183, 187, 191, 195. -/
def scaleTriplets (a : K) (A : List (Nat × Nat × K)) : List (Nat × Nat × K) := A.map fun t => (t.1, t.2.1, a * t.2.2)

/-- `f *= a` for a vector, main:218, 220. -/
def scaleVector (a : K) (f : List (Nat × K)) : List (Nat × K) := f.map fun t => (t.1, a * t.2)

/-- `rhs.SumMultiplication(A, x)`, main:223, 224: every entry of the matrix adds its product with the entry of the vector. -/
def addProduct (A : List (Nat × Nat × K)) (x : List K) : List (Nat × K) := A.map fun t => (t.1, t.2.2 * x.getD t.2.1 0)

/-- The matrices `Kp1`, `Kp1_D`, `K`, `K_D` of main:182-196. -/
structure ThetaMatrices (K : Type) where
  next : List (Nat × Nat × K)
  nextD : List (Nat × Nat × K)
  prev : List (Nat × Nat × K)
  prevD : List (Nat × Nat × K)

/-- main:181-196. -/
def thetaMatrices (dt theta : K) (P : ParabolicStatic K) : ThetaMatrices K where
  next := scaleTriplets (dt * theta) P.globalA ++ P.globalM
  nextD := scaleTriplets (dt * theta) P.dirichletA ++ P.dirichletM
  prev := scaleTriplets (-dt * (1 - theta)) P.globalA ++ P.globalM
  prevD := scaleTriplets (-dt * (1 - theta)) P.dirichletA ++ P.dirichletM

/-- `u_k`, `u_D_k` and `f_k` of main:134-136. -/
structure ParabolicState (K : Type) where
  free : List K
  strong : List K
  force : List (Nat × K)

/-- `rhs` of main:217-225. -/
def thetaRhs (dt theta : K) (T : ThetaMatrices K) (s : ParabolicState K) (d : ParabolicData K) : List (Nat × K) :=
  scaleVector (dt * theta) d.rightHandSide ++ scaleVector (dt * (1 - theta)) s.force ++ addProduct T.prev s.free ++ addProduct T.prevD s.strong
    ++ subtractProduct T.nextD d.dirichlet

/-- One pass of the loop main:206-278, with the assembled data at the new time. `solve A rhs` is `Eigen_LUSolver` (main:198-201, 232), given the matrix and the right-hand side;
without DOFs the solution stays empty (main:227). -/
def thetaStep (solve : List (Nat × Nat × K) → List (Nat × K) → List K) (dofs : Nat) (dt theta : K) (T : ThetaMatrices K) (s : ParabolicState K) (d : ParabolicData K) :
    ParabolicState K :=
  ⟨if 0 < dofs then solve T.next (thetaRhs dt theta T s d) else [], d.dirichlet, d.rightHandSide⟩

/-- The loop main:206-278 over the remaining time values: the states after each step. -/
def thetaLoop (solve : List (Nat × Nat × K) → List (Nat × K) → List K) (dofs : Nat) (dt theta : K) (T : ThetaMatrices K) (assemble : K → Except Fault (ParabolicData K)) :
    ParabolicState K → List K → Except Fault (List (ParabolicState K))
  | _, [] => .ok []
  | s, t :: ts => do
    let d ← assemble t
    let next := thetaStep solve dofs dt theta T s d
    let rest ← thetaLoop solve dofs dt theta T assemble next ts
    .ok (next :: rest)

/-- main:124-278: the initial state and those after each step. `times` is the result of `create_time_steps`; `dt` is `config.TimeStep()` (main:181), `theta` is
`config.Theta()` (main:137). Errors and exports are left out. -/
def parabolicRun (solve : List (Nat × Nat × K) → List (Nat × K) → List K) (info : MeshInfo) (data : DOFsData) (order : Nat) (gauss : Nat → Rule K K) (geometry : Nat → PolyEdges K)
    (spaces : Nat → Except Fault (CellSpace2D K)) (mesh : PlaneMesh K) (test : ParabolicTest K) (dt theta : K) (times : List K) : Except Fault (List (ParabolicState K)) := do
  let P ← parabolicStatic data spaces mesh test
  let u ← parabolicInitial data order spaces mesh test
  let t ← unchecked times 0
  let d ← parabolicAssemble info data order gauss geometry spaces mesh test t
  let first : ParabolicState K := ⟨u.free, u.strong, d.rightHandSide⟩
  let rest ← thetaLoop solve data.counters.dofs dt theta (thetaMatrices dt theta P) (parabolicAssemble info data order gauss geometry spaces mesh test) first (times.drop 1)
  .ok (first :: rest)

/-- `create_time_steps`, src/program_utilities.cpp:339-353 of the example. `equispace` is Gedim's `EquispaceCoordinates(step, true)`: coordinates on the unit interval, with both
ends. The assertion of line 347 is not modelled. -/
def createTimeSteps (equispace : K → List K) (step first last : K) : List K := (equispace step).map fun t => (last - first) * t + first

end PolyDiM
