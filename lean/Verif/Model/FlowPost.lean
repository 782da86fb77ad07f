import Verif.Model.NavierStokesAssembly
import Verif.Model.ElasticPost
import Verif.Model.RT2D

/-!
# Model: `PostProcessSolution` of the Navier-Stokes example

PolyDiM/examples/NavierStokes_DF_PCC_2D/src/assembler.cpp:613-756. Lines without a file refer to it.
-/

namespace PolyDiM

variable {K : Type} [Field K]

/-- `exact_velocity`, `exact_pressure` and `exact_derivatives_velocity` of `test::I_Test` (PolyDiM/examples/NavierStokes_DF_PCC_2D/src/test_definition.hpp:52-54): component `d` of
the velocity, the pressure, entry `3 * d1 + d2` of the derivatives. -/
structure FlowExact (K : Type) where
  value : K × K → Nat → K
  pressure : K × K → K
  derivative : K × K → Nat → K

/-- What the local space gives on one cell, lines 678-694. -/
structure FlowSpace (K : Type) where
  ders : List (DMat K)
  pressure : DMat K
  points : List (K × K)
  weights : List K

/-- The numbers computed on one cell, lines 721-722 and 743-744. -/
structure FlowCellErrors (K : Type) where
  errorPressure : K
  normPressure : K
  errorSpeed : K
  normSpeed : K

/-- The loops over the components and the directions, lines 727-742; `g` is applied to the vector of the derivative of component `d1` in direction `d2` before the squares are
added. The code fills the vectors of the error and of the norm in the same loops; here they are filled one after the other. -/
def flowSquares (ders : List (DMat K)) (dofs zero : List K) (g : Nat → Nat → List K → Except Fault (List K)) : Except Fault (List K) :=
  (List.range 2).foldlM (init := zero) fun h d1 => (List.range 2).foldlM (init := h) fun h d2 => do
    let D ← unchecked ders (2 * d1 + d2)
    let u ← D.mul (.col dofs)
    let e ← g d1 d2 u.toList
    addSquares h e

/-- The body of the loop over the cells after the local DOFs, lines 714-744. -/
def flowErrors (t : FlowSpace K) (exact : FlowExact K) (speed pressure : List K) : Except Fault (FlowCellErrors K) := do
  let p ← t.pressure.mul (.col pressure)
  let e ← minusList p.toList (t.points.map exact.pressure)
  let errorPressure ← dotWeights t.weights (e.map fun x => x * x)
  let normPressure ← dotWeights t.weights (p.toList.map fun x => x * x)
  let zero := List.replicate t.points.length 0
  let errors ← flowSquares t.ders speed zero fun d1 d2 u => minusList u (t.points.map fun x => exact.derivative x (3 * d1 + d2))
  let norms ← flowSquares t.ders speed zero fun _ _ u => .ok u
  let errorSpeed ← dotWeights t.weights errors
  let normSpeed ← dotWeights t.weights norms
  .ok ⟨errorPressure, normPressure, errorSpeed, normSpeed⟩

/-- The local DOFs of velocity and pressure, lines 696-712; also PolyDiM/examples/Brinkman_DF_PCC_2D/src/assembler.cpp:719-745. The differences in lines 710 and 712 are of type
`unsigned int`. -/
def flowLocal (datas : List DOFsData) (count : CountData) (free strong : List K) (c : Nat) : Except Fault (List K × List K) := do
  let lc ← localCountDofs 2 c datas
  let d3 ← unchecked datas 3
  let np ← localSize 2 c d3
  let y ← globalToLocal 2 c datas lc.total lc.offsets count.offsetsDOFs count.offsetsStrongs free strong
  let speed ← segmentOf y 0 (u32 (lc.total + 2 ^ 32 - np))
  let pressure ← segmentOf y (u32 (lc.total + 2 ^ 32 - np)) np
  .ok (speed, pressure)

/-- The body of the loop over the cells, lines 678-744. -/
def flowPostCell (datas : List DOFsData) (count : CountData) (spaces : Nat → Except Fault (FlowSpace K)) (exact : FlowExact K) (free strong : List K) (c : Nat) :
    Except Fault (FlowCellErrors K) := do
  let t ← spaces c
  let l ← flowLocal datas count free strong c
  flowErrors t exact l.1 l.2

/-- `PostProcess_Data` (PolyDiM/examples/NavierStokes_DF_PCC_2D/src/assembler.hpp:51-72) without the residual, which is copied from the argument (line 626). `numeric` and `exact` have one list for each of the two components. -/
structure FlowPost (K : Type) where
  numeric : List (List (Option K))
  exact : List (List K)
  cells : List (FlowCellErrors K)
  errorPressure : K
  normPressure : K
  errorSpeed : K
  normSpeed : K
  meshSize : K

/-- `PostProcessSolution`, lines 613-756; `sqrt` is `std::sqrt`. The loop over the DOFs of a vertex (lines 643-662) is that of the elasticity example, on the data of component `d`. -/
def flowPost [LT K] [DecidableLT K] (sqrt : K → K) (datas : List DOFsData) (count : CountData) (diameters : Nat → K) (spaces : Nat → Except Fault (FlowSpace K)) (mesh : PlaneMesh K)
    (exact : FlowExact K) (free strong : List K) : Except Fault (FlowPost K) := do
  let numeric ← (List.range 2).mapM fun d => (List.range mesh.num0D).mapM fun p => do
    let data ← unchecked datas d
    elasticNumeric data count free strong d p
  let cells ← (List.range mesh.num2D).mapM (flowPostCell datas count spaces exact free strong)
  .ok ⟨numeric, (List.range 2).map fun d => (List.range mesh.num0D).map fun p => exact.value (mesh.coords p) d, cells,
    sqrt (cells.map FlowCellErrors.errorPressure).sum, sqrt (cells.map FlowCellErrors.normPressure).sum, sqrt (cells.map FlowCellErrors.errorSpeed).sum,
    sqrt (cells.map FlowCellErrors.normSpeed).sum, (List.range mesh.num2D).foldl (fun m c => if m < diameters c then diameters c else m) 0⟩

end PolyDiM
