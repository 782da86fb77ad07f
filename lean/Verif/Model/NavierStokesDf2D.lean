import Verif.Model.AssemblerPcc2D

/-!
# Model: the convective term of the example NavierStokes_DF_PCC_2D

examples/NavierStokes_DF_PCC_2D/src/assembler.cpp ("asm"). `ComputeConvectiveMatrix` and `ComputeConvectiveRightHandSideTerm` (asm:357-400) are the same code as
`compute_NS_convective_lhs` and `compute_NS_convective_rhs` of the library, `nsConvectiveLhs` and `nsConvectiveRhs`, but with accesses that are not checked.
-/

namespace PolyDiM

variable {K : Type} [Field K]

/-- `ComputeSkewMatrix`, asm:401-426. The derivatives at the previous iteration, an argument that is not used, are left out. -/
def nsSkewLhs (u : List (List K)) (values ders : List (DMat K)) (weights : List K) : Except Fault (DMat K) := do
  let v0 ← unchecked values 0
  let A ← (List.range 2).foldlM (init := DMat.zero v0.cols v0.cols) fun A d1 =>
    (List.range 2).foldlM (init := A) fun A d2 => do
      let g ← unchecked ders (2 * d1 + d2)
      let c ← unchecked u d2
      let v ← unchecked values d1
      let B ← cellTerm c v g weights
      A.add B
  (List.range 2).foldlM (init := A) fun A d1 =>
    (List.range 2).foldlM (init := A) fun A d2 => do
      let g ← unchecked ders (2 * d1 + d2)
      let c ← unchecked u d1
      let v ← unchecked values d2
      let B ← cellTerm c v g weights
      A.add B

/-- `ComputeSkewRightHandSideTerm`, asm:428-443. The result is a matrix with one column. -/
def nsSkewRhs (u : List (List K)) (ders : List (DMat K)) (weights : List K) : Except Fault (DMat K) := do
  let g0 ← unchecked ders 0
  (List.range 2).foldlM (init := DMat.zero g0.cols 1) fun A d1 =>
    (List.range 2).foldlM (init := A) fun A d2 => do
      let g ← unchecked ders (2 * d1 + d2)
      let a ← unchecked u d2
      let b ← unchecked u d1
      let f ← cwiseProduct a b
      let B ← cellForcing f g weights
      A.add B

/-- `dofs_values.segment(0, n)`, asm:496. -/
def frontSegment (dofs : List K) (n : Nat) : Except Fault (List K) := if n ≤ dofs.length then .ok (dofs.take n) else .error .undefinedBehaviour

/-- `0.5 * (A - B)`, asm:540, 553. -/
def halfDifference (A B : DMat K) : Except Fault (DMat K) := do
  let C ← A.add (B.smul (-1))
  .ok (C.smul (1 / 2))

/-- The local matrix and right-hand side of `AssembleNavierStokes` on one cell, asm:482-558. `form` is the number of `ConvectiveFormType` (program_configuration.hpp:28-33), `dofs` are
the values of all unknowns on the cell, of which the first `velocity` belong to the speed (asm:484-496). -/
def localConvection (form : Nat) (values ders : List (DMat K)) (weights : List K) (velocity : Nat) (dofs : List K) : Except Fault (DMat K × DMat K) := do
  let d ← frontSegment dofs velocity
  let u ← nsOnQuadrature values d
  let du ← nsOnQuadrature ders d
  match form with
  | 2 => .ok (.zero velocity velocity, .zero velocity 1)
  | 0 => do
    let A ← nsConvectiveLhs u du values ders weights
    let b ← nsConvectiveRhs u du values weights
    .ok (A, b)
  | 1 => do
    let A ← nsConvectiveLhs u du values ders weights
    let B ← nsSkewLhs u values ders weights
    let L ← halfDifference A B
    let a ← nsConvectiveRhs u du values weights
    let b ← nsSkewRhs u ders weights
    let r ← halfDifference a b
    .ok (L, r)
  | _ => .error .runtimeError

end PolyDiM
