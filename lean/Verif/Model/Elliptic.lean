import Verif.Model.Mat

/-!
# Model: element matrices of elliptic equations

PolyDiM/src/PDETools/Equations/EllipticEquation.hpp. Vectors are lists, matrices with one row per quadrature point are `DMat`; the fixed-size
arrays of coefficients are lists.
-/

namespace PolyDiM

variable {K : Type} [Field K]

/-- `a.cwiseProduct(b)`, EllipticEquation.hpp:32. -/
def cwiseProduct (a b : List K) : Except Fault (List K) :=
  if a.length = b.length then .ok (List.zipWith (· * ·) a b) else .error .undefinedBehaviour

/-- `test.transpose() * weights.cwiseProduct(values).asDiagonal() * trial`, EllipticEquation.hpp:31-33. -/
def cellTerm (values : List K) (trial test : DMat K) (weights : List K) : Except Fault (DMat K) := do
  let w ← cwiseProduct weights values
  let A ← test.tr.mulDiag w
  A.mul trial

/-- `ComputeCellDiffusionMatrix` with a scalar coefficient, EllipticEquation.hpp:26-43. -/
def cellDiffusion (values : List K) (trial test : List (DMat K)) (weights : List K) : Except Fault (DMat K) := do
  let t ← atIdx test 0
  let s ← atIdx trial 0
  let A ← cellTerm values s t weights
  (List.range' 1 (test.length - 1)).foldlM (init := A) fun A d => do
    let t ← atIdx test d
    let s ← atIdx trial d
    let B ← cellTerm values s t weights
    A.add B

/-- `ComputeCellDiffusionMatrix` with a scalar coefficient and one basis, EllipticEquation.hpp:45-50. -/
def cellDiffusionSame (values : List K) (basis : List (DMat K)) (weights : List K) : Except Fault (DMat K) :=
  cellDiffusion values basis basis weights

/-- `ComputeCellDiffusionMatrix` with a tensor, EllipticEquation.hpp:52-71. -/
def cellDiffusionTensor (values : List (List K)) (trial test : List (DMat K)) (weights : List K) : Except Fault (DMat K) := do
  let t ← atIdx test 0
  let s ← atIdx trial 0
  (List.range trial.length).foldlM (init := DMat.zero t.cols s.cols) fun A d1 =>
    (List.range trial.length).foldlM (init := A) fun A d2 => do
      let t ← atIdx test d1
      let v ← atIdx values (d1 + 3 * d2)
      let s ← atIdx trial d2
      let B ← cellTerm v s t weights
      A.add B

/-- `ComputeCellDiffusionMatrix` with a tensor and one basis, EllipticEquation.hpp:73-78. -/
def cellDiffusionTensorSame (values : List (List K)) (basis : List (DMat K)) (weights : List K) : Except Fault (DMat K) :=
  cellDiffusionTensor values basis basis weights

/-- `ComputeCellReactionMatrix`, EllipticEquation.hpp:87-94. -/
def cellReaction (values : List K) (trial test : DMat K) (weights : List K) : Except Fault (DMat K) :=
  cellTerm values trial test weights

/-- `ComputeCellReactionMatrix` with one basis, EllipticEquation.hpp:80-85. -/
def cellReactionSame (values : List K) (basis : DMat K) (weights : List K) : Except Fault (DMat K) :=
  cellTerm values basis basis weights

/-- `ComputeCellAdvectionMatrix`, EllipticEquation.hpp:96-113; the first elements are read without a check. -/
def cellAdvection (values : List (List K)) (test : DMat K) (trial : List (DMat K)) (weights : List K) : Except Fault (DMat K) := do
  let v ← unchecked values 0
  let s ← unchecked trial 0
  let A ← cellTerm v s test weights
  (List.range' 1 (trial.length - 1)).foldlM (init := A) fun A d => do
    let v ← atIdx values d
    let s ← atIdx trial d
    let B ← cellTerm v s test weights
    A.add B

/-- `ComputeCellForcingTerm` with scalar values, EllipticEquation.hpp:115-120. The result is a matrix with one column. -/
def cellForcing (values : List K) (test : DMat K) (weights : List K) : Except Fault (DMat K) := do
  let A ← test.tr.mulDiag weights
  A.mul (.col values)

/-- `ComputeCellForcingTerm` with vector values, EllipticEquation.hpp:122-136; no access is checked. -/
def cellForcingVector (values : List (List K)) (test : List (DMat K)) (weights : List K) : Except Fault (DMat K) := do
  let v ← unchecked values 0
  let t ← unchecked test 0
  let A ← cellForcing v t weights
  (List.range' 1 (test.length - 1)).foldlM (init := A) fun A d => do
    let v ← unchecked values d
    let t ← unchecked test d
    let B ← cellForcing v t weights
    A.add B

end PolyDiM
