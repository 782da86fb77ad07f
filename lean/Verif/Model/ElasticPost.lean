import Verif.Model.AssemblerElastic2D

/-!
# Model: `PostProcessSolution` of the elasticity example

PolyDiM/examples/Elastic_PCC_2D/src/assembler.cpp:333-509. Lines without a file refer to it.
-/

namespace PolyDiM

variable {K : Type} [Field K]

/-- `exact_displacement` and `exact_derivatives_displacement` of `test::I_Test` (PolyDiM/examples/Elastic_PCC_2D/src/test_definition.hpp:45-46): component `d` of the
displacement, entry `3 * d1 + d2` of the derivatives. Tests that throw instead are `none` below. -/
structure ElasticExact (K : Type) where
  value : K × K → Nat → K
  derivative : K × K → Nat → K

/-- `v.array() += u.array().square()`, lines 450-469. -/
def addSquares (v u : List K) : Except Fault (List K) :=
  if v.length = u.length then .ok (List.zipWith (fun a x => a + x * x) v u) else .error .undefinedBehaviour

/-- `Weights.transpose() * v`, lines 473-477. -/
def dotWeights (w v : List K) : Except Fault K := if w.length = v.length then .ok (List.zipWith (· * ·) w v).sum else .error .undefinedBehaviour

/-- `a - b` for two vectors, lines 451, 458-459. -/
def minusList (a b : List K) : Except Fault (List K) := if a.length = b.length then .ok (List.zipWith (· - ·) a b) else .error .undefinedBehaviour

/-- The numbers computed on one cell, lines 473-499; `none` is `std::nan("")`. -/
structure ElasticCellErrors (K : Type) where
  errorL2 : Option K
  normL2 : K
  errorH1 : Option K
  normH1 : K

/-- The loops over the components and the directions, lines 448-470 and 481-492: `f` is applied to the vector of component `d1`, `g` to the vector of the derivative
of component `d1` in direction `d2`, before the squares are added. -/
def elasticSquares (vals ders : List (DMat K)) (dofs zero : List K) (f : Nat → List K → Except Fault (List K)) (g : Nat → Nat → List K → Except Fault (List K)) :
    Except Fault (List K × List K) :=
  (List.range 2).foldlM (init := (zero, zero)) fun acc d1 => do
    let V ← unchecked vals d1
    let u ← V.mul (.col dofs)
    let e ← f d1 u.toList
    let l ← addSquares acc.1 e
    let h ← (List.range 2).foldlM (init := acc.2) fun h d2 => do
      let D ← unchecked ders (2 * d1 + d2)
      let u ← D.mul (.col dofs)
      let e ← g d1 d2 u.toList
      addSquares h e
    .ok (l, h)

/-- The body of the loop over the cells without the local DOFs, lines 415-421 and 435-500. The code fills the vectors of the errors and of the norms in the same loops; here they
are filled one after the other. -/
def elasticErrors (space : CellSpace2D K) (exact : Option (ElasticExact K)) (dofs : List K) : Except Fault (ElasticCellErrors K) := do
  let vals ← elasticValues space
  let ders ← elasticDers space
  let zero := List.replicate space.internal.points.length 0
  let norms ← elasticSquares vals ders dofs zero (fun _ u => .ok u) (fun _ _ u => .ok u)
  let normL2 ← dotWeights space.internal.weights norms.1
  let normH1 ← dotWeights space.internal.weights norms.2
  match exact with
  | none => .ok ⟨none, normL2, none, normH1⟩
  | some e => do
    let errors ← elasticSquares vals ders dofs zero (fun d1 u => minusList u (space.internal.points.map fun p => e.value p d1))
      (fun d1 d2 u => minusList u (space.internal.points.map fun p => e.derivative p (3 * d1 + d2)))
    let errorL2 ← dotWeights space.internal.weights errors.1
    let errorH1 ← dotWeights space.internal.weights errors.2
    .ok ⟨some errorL2, normL2, some errorH1, normH1⟩

/-- The body of the loop over the cells, lines 413-504, with `global_solution_to_local_solution`. -/
def elasticPostCell (data : DOFsData) (count : CountData) (spaces : Nat → Except Fault (CellSpace2D K)) (exact : Option (ElasticExact K)) (free strong : List K) (c : Nat) :
    Except Fault (ElasticCellErrors K) := do
  let space ← spaces c
  let lc ← localCountDofs 2 c [data, data]
  let dofs ← globalToLocal 2 c [data, data] lc.total lc.offsets count.offsetsDOFs count.offsetsStrongs free strong
  elasticErrors space exact dofs

/-- The loop over the DOFs of one vertex, lines 385-404: the last one is kept. The sum of the index and the offset is one of `unsigned int`. -/
def elasticNumericLoop (offD offS : Nat) (free strong : List K) : Option K → List DOF → Except Fault (Option K)
  | y, [] => .ok y
  | _, x :: xs => do
    match x.type with
    | .unknwon => .error .runtimeError
    | .strong => do
      let z ← unchecked strong (u32 (x.globalIndex + offS))
      elasticNumericLoop offD offS free strong (some z) xs
    | .dof => do
      let z ← unchecked free (u32 (x.globalIndex + offD))
      elasticNumericLoop offD offS free strong (some z) xs

/-- `cell0Ds_numeric_displacement[d][p]`, lines 381-405. The vectors are not initialized (lines 360-364): `none` is a vertex without a DOF. -/
def elasticNumeric (data : DOFsData) (count : CountData) (free strong : List K) (d p : Nat) : Except Fault (Option K) := do
  let x ← atIdx (data.dims 0).cells p
  let offD ← unchecked count.offsetsDOFs d
  let offS ← unchecked count.offsetsStrongs d
  elasticNumericLoop offD offS free strong none x.dofs

/-- Entry `i` of `globalMatrixA * solution - rightHandSide`, lines 353-356. -/
def elasticResidual (P : ElasticProblem K) (free : List K) (i : Nat) : K :=
  ((P.globalMatrix.filter fun t => t.1 = i).map fun t => t.2.2 * free.getD t.2.1 0).sum - ((P.rightHandSide.filter fun t => t.1 = i).map Prod.snd).sum

/-- `PostProcess_Data`, PolyDiM/examples/Elastic_PCC_2D/src/assembler.hpp. `numeric` and `exact` have one list for each of the two components. -/
structure ElasticPost (K : Type) where
  numeric : List (List (Option K))
  exact : List (List (Option K))
  cells : List (ElasticCellErrors K)
  errorL2 : Option K
  normL2 : K
  errorH1 : Option K
  normH1 : K
  meshSize : K
  residual : K

/-- The sum of a vector in which a not-a-number may occur (`cell2Ds_error_L2.sum()`, lines 506, 508). -/
def nanSum (l : List (Option K)) : Option K := l.foldr (fun x s => x.bind fun a => s.map fun b => a + b) (some 0)

/-- `PostProcessSolution`, lines 333-512; `sqrt` is `std::sqrt` and `Norm` is the root of the sum of the squares. A test throws in both functions or in none, at all points or
at none. -/
def elasticPost [LT K] [DecidableLT K] (sqrt : K → K) (data : DOFsData) (count : CountData) (diameters : Nat → K) (spaces : Nat → Except Fault (CellSpace2D K)) (mesh : PlaneMesh K)
    (exact : Option (ElasticExact K)) (P : ElasticProblem K) (free : List K) : Except Fault (ElasticPost K) := do
  let residual := if 0 < count.totalDOFs then sqrt ((List.range count.totalDOFs).map fun i => elasticResidual P free i * elasticResidual P free i).sum else 0
  let numeric ← (List.range 2).mapM fun d => (List.range mesh.num0D).mapM (elasticNumeric data count free P.dirichlet d)
  let cells ← (List.range mesh.num2D).mapM (elasticPostCell data count spaces exact free P.dirichlet)
  .ok ⟨numeric, (List.range 2).map fun d => (List.range mesh.num0D).map fun p => exact.map fun e => e.value (mesh.coords p) d, cells,
    (nanSum (cells.map ElasticCellErrors.errorL2)).map sqrt, sqrt (cells.map ElasticCellErrors.normL2).sum,
    (nanSum (cells.map ElasticCellErrors.errorH1)).map sqrt, sqrt (cells.map ElasticCellErrors.normH1).sum,
    (List.range mesh.num2D).foldl (fun m c => if m < diameters c then diameters c else m) 0, residual⟩

end PolyDiM
