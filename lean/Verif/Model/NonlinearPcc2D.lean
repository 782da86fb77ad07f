import Verif.Model.AssemblerPcc2D

/-!
# Model: the operators of the assembler whose coefficients depend on a discrete function

PolyDiM/src/PDETools/Assembler/assembler_PCC_2D_functions.cpp:36-75, 920-1368, cell by cell. The values of the unknowns on the cell, which
`global_solution_to_local_solution` returns (1095-1104, 1186-1195, 1290-1299, 990-999), are given.
-/

namespace PolyDiM

variable {K : Type} [Field K] [LinearOrder K]

/-- A function of a point, the value and the gradient of a discrete function: the type of the callables in
assembler_PCC_2D_functions.hpp:39-61, 151-163. The third coordinate of the point is zero and left out, see Model/AssemblerPcc2D.lean. -/
abbrev OfSolution (K α : Type) := K × K → K → (Nat → K) → α

/-- `values * dofs_values`, assembler_PCC_2D_functions.cpp:1001, 1106, 1197, 1301. -/
def timesDofs (B : DMat K) (dofs : List K) : Except Fault (List K) := do
  let x ← B.mul (.col dofs)
  .ok ((List.range x.rows).map fun q => x.ent q 0)

/-- `trial_basis_functions_values * dofs_values` and the two products with the derivatives, assembler_PCC_2D_functions.cpp:1106-1109, 1197-1200,
1301-1304. -/
def solutionOnQuadrature (values : DMat K) (ders : List (DMat K)) (dofs : List K) : Except Fault (List K × List K × List K) := do
  let u ← timesDofs values dofs
  let X ← atIdx ders 0
  let ux ← timesDofs X dofs
  let Y ← atIdx ders 1
  let uy ← timesDofs Y dofs
  .ok (u, ux, uy)

/-- The gradient passed to a coefficient function: `std::array<double, 3>({u_gradient.at(0)[i], u_gradient.at(1)[i], 0.0})`,
assembler_PCC_2D_functions.cpp:48, 68. -/
def planeGradient (a b : K) (d : Nat) : K := if d = 0 then a else if d = 1 then b else 0

/-- One call of a coefficient function, assembler_PCC_2D_functions.cpp:47-48, 67-68; the accesses to the vectors are not checked. -/
def callOfSolution {α : Type} (points : List (K × K)) (u : List K × List K × List K) (f : OfSolution K α) (i : Nat) : Except Fault α := do
  let p ← unchecked points i
  let a ← unchecked u.1 i
  let x ← unchecked u.2.1 i
  let y ← unchecked u.2.2 i
  .ok (f p a (planeGradient x y))

/-- `function_evaluation` of a scalar function of point, value and gradient, assembler_PCC_2D_functions.cpp:36-52. -/
def evalOfSolution (points : List (K × K)) (u : List K × List K × List K) (f : OfSolution K K) : Except Fault (List K) :=
  (List.range points.length).mapM (callOfSolution points u f)

/-- `function_evaluation` of a function of point, value and gradient with three components, assembler_PCC_2D_functions.cpp:54-75. -/
def evalComponentsOfSolution (points : List (K × K)) (u : List K × List K × List K) (f : OfSolution K (Nat → K)) : Except Fault (List (List K)) := do
  let v ← (List.range points.length).mapM (callOfSolution points u f)
  .ok ((List.range 3).map fun d => v.map fun g => g d)

/-- The local right-hand side of `assemble_source_term` with a source that depends on the solution, assembler_PCC_2D_functions.cpp:1070-1115. -/
def localSourceOfSolution (trial test : Space2D K) (dofs : List K) (f : OfSolution K K) : Except Fault (DMat K) := do
  let trialValues ← trial.valuesInt .pi0km1
  let trialDers ← trial.dersInt .pi0km1Der
  let testValues ← test.valuesAt .pi0km1 trial.internal.points
  let u ← solutionOnQuadrature trialValues trialDers dofs
  let v ← evalOfSolution trial.internal.points u f
  cellForcing v testValues trial.internal.weights

/-- The local right-hand side of `assemble_source_term_gradients`, assembler_PCC_2D_functions.cpp:1161-1208. -/
def localGradientSource (trial test : Space2D K) (dofs : List K) (f : OfSolution K (Nat → K)) : Except Fault (DMat K) := do
  let trialValues ← trial.valuesInt .pi0km1
  let trialDers ← trial.dersInt .pi0km1Der
  let testDers ← test.dersAt .pi0km1Der trial.internal.points
  let u ← solutionOnQuadrature trialValues trialDers dofs
  let v ← evalComponentsOfSolution trial.internal.points u f
  cellForcingVector v testDers trial.internal.weights

/-- The diffusion part of the local matrix, assembler_PCC_2D_functions.cpp:1313-1329. The coefficient is a scalar. -/
def localDiffusionOfSolution (trial test : Space2D K) (trialDers testDers : List (DMat K)) (values : List K) (A : DMat K) : Except Fault (DMat K) := do
  let D ← cellDiffusion values trialDers testDers trial.internal.weights
  let A ← A.add D
  if test.size = trial.size then do
    let k ← maxAbs values
    let S ← test.stab .piNabla
    A.add (.smul k S)
  else .ok A

/-- The local matrix of `assemble_elliptic_operator` with coefficients that depend on the solution, assembler_PCC_2D_functions.cpp:1260-1353. -/
def localEllipticOfSolution (trial test : Space2D K) (dofs : List K) (diffusion : Option (OfSolution K K)) (advection : Option (OfSolution K (Nat → K)))
    (reaction : Option (OfSolution K K)) : Except Fault (DMat K) := do
  let trialValues ← trial.valuesInt .pi0km1
  let trialDers ← trial.dersInt .pi0km1Der
  let testValues ← test.valuesAt .pi0km1 trial.internal.points
  let testDers ← test.dersAt .pi0km1Der trial.internal.points
  let u ← solutionOnQuadrature trialValues trialDers dofs
  let A ← onTerm diffusion (fun f A => do
    let v ← evalOfSolution trial.internal.points u f
    localDiffusionOfSolution trial test trialDers testDers v A) (.zero test.size trial.size)
  let A ← onTerm advection (fun f A => do
    let v ← evalComponentsOfSolution trial.internal.points u f
    localAdvection trial testValues trialDers v A) A
  onTerm reaction (fun f A => do
    let v ← evalOfSolution trial.internal.points u f
    localReaction trial testValues trialValues v A) A

/-- `Evaluate_Solution_On_Quadrature_Points_Data`, assembler_PCC_2D_functions_data.hpp:59-67, filled in assembler_PCC_2D_functions.cpp:920-1040: of a cell
(961-1004) or of the mesh (1007-1036). -/
structure OnQuadrature (K : Type) where
  points : List (K × K)
  weights : List K
  numeric : List K
  exact : List K
  numericGradient : List (List K)
  exactGradient : List (List K)

/-- The data of one cell, assembler_PCC_2D_functions.cpp:950-1004. -/
def cellOnQuadrature (space : Space2D K) (dofs : List K) (exact : Option (K × K → K)) (gradient : Option (K × K → Nat → K)) : Except Fault (OnQuadrature K) := do
  let V ← space.valuesInt .pi0k
  let ders ← space.dersInt .pi0km1Der
  let u ← timesDofs V dofs
  let X ← atIdx ders 0
  let ux ← timesDofs X dofs
  let Y ← atIdx ders 1
  let uy ← timesDofs Y dofs
  .ok ⟨space.internal.points, space.internal.weights, u, exactScalar space.internal.points exact, [ux, uy, List.replicate space.internal.points.length 0],
    exactComponents space.internal.points gradient⟩

/-- `result.segment(local_num_q, cell2D_num_q) = data`, assembler_PCC_2D_functions.cpp:1027-1036: Eigen asserts that the sizes agree; without the assertion the
assignment reads or leaves other memory. -/
def writeSegment (cellPoints : Nat) (l : List K) : Except Fault (List K) :=
  if l.length = cellPoints then .ok l else .error .undefinedBehaviour

/-- The second loop, assembler_PCC_2D_functions.cpp:1018-1038: the segments of the active cells one after the other. Writing consecutive segments that fill the
vector is appending them. -/
def joinOnQuadrature : List (OnQuadrature K) → Except Fault (OnQuadrature K)
  | [] => .ok ⟨[], [], [], [], [[], [], []], [[], [], []]⟩
  | c :: rest => do
    let w ← writeSegment c.points.length c.weights
    let u ← writeSegment c.points.length c.numeric
    let e ← writeSegment c.points.length c.exact
    let g ← (List.range 3).mapM fun d => do
      let l ← atIdx c.numericGradient d
      writeSegment c.points.length l
    let eg ← (List.range 3).mapM fun d => do
      let l ← atIdx c.exactGradient d
      writeSegment c.points.length l
    let r ← joinOnQuadrature rest
    .ok ⟨c.points ++ r.points, w ++ r.weights, u ++ r.numeric, e ++ r.exact, List.zipWith (· ++ ·) g r.numericGradient,
      List.zipWith (· ++ ·) eg r.exactGradient⟩

/-- `evaluate_solution_on_quadrature_points`, assembler_PCC_2D_functions.cpp:920-1040. A cell is given by its local space and the values of its unknowns; an
inactive cell (947-948, 1021-1022) is `none`. -/
def evaluateOnQuadrature (cells : List (Option (Space2D K × List K))) (exact : Option (K × K → K)) (gradient : Option (K × K → Nat → K)) :
    Except Fault (OnQuadrature K) := do
  let data ← (cells.filterMap id).mapM fun c => cellOnQuadrature c.1 c.2 exact gradient
  joinOnQuadrature data

end PolyDiM
