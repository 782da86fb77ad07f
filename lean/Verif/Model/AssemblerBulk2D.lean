import Verif.Model.AssemblerElliptic1D

/-!
# Model: the surface equation and the exchange terms of the bulk-surface example

PolyDiM/examples/Parabolic_PCC_BulkFace_2D/src/assembler.cpp: the local matrices of `AssembleMatrix_1D` (lines 419-502) and `ComputeTransitionMatrices` (lines 617-726). Line numbers without a file refer
to assembler.cpp. The asserts are not modelled; what they exclude is undefined behaviour (out of the bounds of a matrix) or an exception of `at`.
-/

namespace PolyDiM

variable {K : Type} [Field K]

/-- The coefficients of `I_Test` (PolyDiM/examples/Parabolic_PCC_BulkFace_2D/src/test_definition.hpp:34-75) that enter these matrices: dimension, marker, point. They act point by point. -/
structure ExchangeTest (K : Type) where
  diffusion : Nat → Nat → (Nat → K) → K
  reaction : Nat → Nat → (Nat → K) → K
  alpha : Nat → Nat → (Nat → K) → K
  beta : Nat → Nat → (Nat → K) → K

/-- A table over given points with one column for each basis function: `ComputeBasisFunctionsValues(…, points)` (lines 458-459, 648-649) and `ComputeBasisFunctionsDerivativeValues(…, points)`
(lines 461-462), FEM_PCC_1D_LocalSpace.hpp:107-128. -/
def fem1At (d : Fem1Data K) (f : (Nat → K) → Nat → Except Fault K) (points : List (Nat → K)) : Except Fault (DMat K) := do
  let rows ← points.mapM fun x => (List.range d.numBasis).mapM (f x)
  .ok ⟨points.length, d.numBasis, fun p i => (rows.getD p []).getD i 0⟩

/-- `quadrature_points_2D` and `quadrature_weights_2D`, lines 440-447 and 655-663. -/
def surfaceRule (rule : Rule K K) (g : LineGeometry K) (c : Nat) : Rule (Nat → K) K :=
  ⟨rule.points.map fun t h => g.origin c h + t * g.tangent c h, rule.weights.map fun w => w * g.length c⟩

/-- `local_A + local_C` and `local_M` of `AssembleMatrix_1D`, lines 440-480, 491; `marker` is `Cell1DMarker`. The derivatives form a vector with one matrix. -/
def surfaceLocal (d : Fem1Data K) (rule : Rule K K) (g : LineGeometry K) (marker : Nat → Nat) (test : ExchangeTest K) (c : Nat) : Except Fault (DMat K × DMat K) := do
  let m := fem1Map (g.origin c) (g.tangent c) (g.length c)
  let r := surfaceRule rule g c
  let values ← fem1At d (fem1PhysValue d m) r.points
  let ders ← fem1At d (fem1PhysDerivative d m) r.points
  let A ← cellDiffusionSame (r.points.map (test.diffusion 1 (marker c))) [ders] r.weights
  let C ← cellReactionSame (r.points.map fun x => test.reaction 1 (marker c) x + test.beta 1 (marker c) x) values r.weights
  let M ← cellReactionSame (rule.points.map fun _ => 1) values r.weights
  let AC ← A.add C
  .ok (AC, M)

/-- The segment of length one on the first axis, lines 634-638. -/
def unitSegment : SegMap K := fem1Map (fun _ => 0) (fun h => if h = 0 then 1 else 0) 1

/-- `Global_Index` of the DOF `i` of the edge `e`: `CellsGlobalDOFs[1].at(e).at(i)`, then `CellsDOFs.at(…).at(…).at(…)`, lines 687-691, 695-699, 709-713, 717-721. The type of the DOF is not read. -/
def edgeIndex (data : DOFsData) (e i : Nat) : Except Fault Nat := do
  let g ← atIdx (data.dims 1).globals e
  let r ← atIdx g.gdofs i
  let x ← resolve data.dims r
  .ok x.globalIndex

/-- One segment of `ComputeTransitionMatrices`, lines 651-725: the triplets of `globalMatrixA` in the order in which they are written. `offset` is `offsets_DOFs[1]`, `newToOld` is
`NewCell1DToOldCell1D`. The table of the basis functions is computed before the loop (lines 646-649) and is the same for every segment. -/
def transitionCell (bulk surface : DOFsData) (offset : Nat) (newToOld : List Nat) (d : Fem1Data K) (rule : Rule K K) (g : LineGeometry K) (marker : Nat → Nat) (test : ExchangeTest K) (c : Nat) :
    Except Fault (List (Nat × Nat × K)) := do
  let values ← fem1At d (fem1PhysValue d unitSegment) (rule.points.map fun t h => if h = 0 then t else 0)
  let r := surfaceRule rule g c
  let gd ← atIdx (surface.dims 1).globals c
  let alpha1 ← cellReactionSame (r.points.map (test.alpha 1 (marker c))) values r.weights
  let alpha2 ← cellReactionSame (r.points.map (test.alpha 2 0)) values r.weights
  let beta2 ← cellReactionSame (r.points.map (test.beta 2 0)) values r.weights
  let old ← unchecked newToOld c
  let first ← (List.range gd.gdofs.length).mapM fun i => do
    let gi ← edgeIndex surface c i
    (List.range gd.gdofs.length).mapM fun j => do
      let gj ← edgeIndex bulk old j
      let b ← beta2.toLMat.get i j
      let a ← alpha1.toLMat.get i j
      .ok [(gj, u32 (gi + offset), -b), (u32 (gi + offset), gj, -a)]
  let second ← (List.range gd.gdofs.length).mapM fun i => do
    let gi ← edgeIndex bulk old i
    (List.range gd.gdofs.length).mapM fun j => do
      let gj ← edgeIndex bulk old j
      let a ← alpha2.toLMat.get i j
      .ok (gi, gj, a)
  .ok (first.flatten.flatten ++ second.flatten)

/-- `ComputeTransitionMatrices`, lines 617-726; `n` is `Cell1DTotalNumber` of the mesh of the surface. -/
def transitionMatrices (bulk surface : DOFsData) (offset : Nat) (newToOld : List Nat) (d : Fem1Data K) (rule : Rule K K) (g : LineGeometry K) (marker : Nat → Nat) (test : ExchangeTest K) (n : Nat) :
    Except Fault (List (Nat × Nat × K)) := do
  let cells ← (List.range n).mapM (transitionCell bulk surface offset newToOld d rule g marker test)
  .ok cells.flatten

end PolyDiM
