import Verif.Model.VemPcc2D
import Verif.Model.Lagrange

/-!
# Model: evaluation of the VEM basis functions

PolyDiM/src/VEM/PCC/VEM_PCC_Utilities.hpp and PolyDiM/src/VEM/PCC/2D/VEM_PCC_2D_LocalSpace.hpp. `ComputePolynomialsValues` and
`ComputePolynomialsDerivativeValues` return the stored Vandermonde matrices (VEM_PCC_Utilities.hpp:169-222) and are inlined.
-/

namespace PolyDiM

variable {K : Type} [Field K] [LinearOrder K]

/-- `ProjectionTypes`, VEM_PCC_Utilities.hpp:27-34. -/
inductive ProjType where
  | pi0km1
  | pi0k
  | piNabla
  | pi0km1Der
  | pi0klm1
  deriving DecidableEq

/-- `VEM_PCC_Utilities::ComputeBasisFunctionsValues`, VEM_PCC_Utilities.hpp:152-167. -/
def vemBasisValues (type : ProjType) (nkm1 : Nat) (pi0km1 pi0k vander : DMat K) : Except Fault (DMat K) :=
  match type with
  | .pi0km1 => do
    let V ← vander.block 0 0 vander.rows nkm1
    V.mul pi0km1
  | .pi0k => vander.mul pi0k
  | _ => .error .runtimeError

/-- `VEM_PCC_Utilities::ComputeBasisFunctionsDerivativeValues`, VEM_PCC_Utilities.hpp:101-130. -/
def vemBasisDerivatives (dimension : Nat) (type : ProjType) (nkm1 : Nat) (vander : DMat K) (ders : List (DMat K)) (piNabla : DMat K)
    (pi0km1Der : List (DMat K)) : Except Fault (List (DMat K)) :=
  match type with
  | .piNabla => (List.range dimension).mapM fun i => do
    let D ← unchecked ders i
    D.mul piNabla
  | .pi0km1Der => (List.range dimension).mapM fun i => do
    let V ← vander.block 0 0 vander.rows nkm1
    let P ← unchecked pi0km1Der i
    V.mul P
  | _ => .error .runtimeError

/-- One term of the sum in `VEM_PCC_Utilities::ComputeBasisFunctionsLaplacianValues`, VEM_PCC_Utilities.hpp:141 and 143. -/
def vemLaplacianTerm (nkm1 : Nat) (ders pi0km1Der : List (DMat K)) (d : Nat) : Except Fault (DMat K) := do
  let D ← unchecked ders d
  let V ← D.block 0 0 D.rows nkm1
  let P ← unchecked pi0km1Der d
  V.mul P

/-- `VEM_PCC_Utilities::ComputeBasisFunctionsLaplacianValues`, VEM_PCC_Utilities.hpp:132-150, for dimension 2. -/
def vemBasisLaplacian (type : ProjType) (nkm1 : Nat) (ders pi0km1Der : List (DMat K)) : Except Fault (DMat K) :=
  match type with
  | .pi0km1Der => do
    let A ← vemLaplacianTerm nkm1 ders pi0km1Der 0
    let B ← vemLaplacianTerm nkm1 ders pi0km1Der 1
    A.add B
  | _ => .error .runtimeError

/-- `ComputePolynomialsDerivativeValues` at given points, VEM_PCC_2D_LocalSpace.hpp:221-229 and VEM_PCC_Utilities.hpp:206-213. The local
space holds a copy of the centroid and the diameter of the polygon (VEM_PCC_2D_LocalSpace.cpp:290-292). -/
def vemPolyDerivatives (ref : VemRef2D K) (poly : VemPolygon K) (points : List (K × K)) : Except Fault (List (DMat K)) := do
  let V ← vanderMat ref.mono points poly.centroid poly.diameter
  let X ← vanderDerMat ref.mono V poly.diameter 0
  let Y ← vanderDerMat ref.mono V poly.diameter 1
  .ok [X, Y]

/-- `ComputeBasisFunctionsValues` at given points, VEM_PCC_2D_LocalSpace.hpp:137-147. -/
def vemValuesAt (ref : VemRef2D K) (poly : VemPolygon K) (s : VemSpace2D K) (type : ProjType) (points : List (K × K)) : Except Fault (DMat K) := do
  let V ← vanderMat ref.mono points poly.centroid poly.diameter
  vemBasisValues type s.init.nkm1 s.pi0km1 s.pi0k V

/-- `ComputeBasisFunctionsDerivativeValues` at given points, VEM_PCC_2D_LocalSpace.hpp:149-163. -/
def vemDerivativesAt (ref : VemRef2D K) (poly : VemPolygon K) (s : VemSpace2D K) (type : ProjType) (points : List (K × K)) :
    Except Fault (List (DMat K)) := do
  let V ← vanderMat ref.mono points poly.centroid poly.diameter
  let D ← vemPolyDerivatives ref poly points
  vemBasisDerivatives 2 type s.init.nkm1 V D s.piNabla [s.derX, s.derY]

/-- `ComputeBasisFunctionsLaplacianValues` at given points, VEM_PCC_2D_LocalSpace.hpp:175-186. The projectors of the derivatives are passed in
place of the derivatives of the monomials and the other way round. -/
def vemLaplacianAt (ref : VemRef2D K) (poly : VemPolygon K) (s : VemSpace2D K) (type : ProjType) (points : List (K × K)) : Except Fault (DMat K) := do
  let D ← vemPolyDerivatives ref poly points
  vemBasisLaplacian type s.init.nkm1 [s.derX, s.derY] D

/-- `ComputeBasisFunctionsValues` at the quadrature points, VEM_PCC_2D_LocalSpace.hpp:112-123. After `CreateLocalSpace` the matrices
`VanderInternalKL` and `Pi0klm1` are empty. -/
def vemValuesInt (s : VemSpace2D K) (type : ProjType) : Except Fault (DMat K) :=
  if type = .pi0klm1 then DMat.mul (.zero 0 0) (.zero 0 0)
  else vemBasisValues type s.init.nkm1 s.pi0km1 s.pi0k s.init.vanderInt

/-- `ComputeBasisFunctionsDerivativeValues` at the quadrature points, VEM_PCC_2D_LocalSpace.hpp:125-135. -/
def vemDerivativesInt (s : VemSpace2D K) (type : ProjType) : Except Fault (List (DMat K)) :=
  vemBasisDerivatives 2 type s.init.nkm1 s.init.vanderInt [s.init.vanderIntX, s.init.vanderIntY] s.piNabla [s.derX, s.derY]

/-- `ComputeBasisFunctionsLaplacianValues` at the quadrature points, VEM_PCC_2D_LocalSpace.hpp:165-173. -/
def vemLaplacianInt (s : VemSpace2D K) (type : ProjType) : Except Fault (DMat K) :=
  vemBasisLaplacian type s.init.nkm1 [s.init.vanderIntX, s.init.vanderIntY] [s.derX, s.derY]

/-- `ComputeDofiDofiStabilizationMatrix` of the local space, VEM_PCC_2D_LocalSpace.hpp:91-103; `Measure` is the measure of the polygon. -/
def vemDofiDofi (poly : VemPolygon K) (s : VemSpace2D K) (type : ProjType) : Except Fault (DMat K) :=
  match type with
  | .piNabla => dofiDofi s.piNabla 1 s.D
  | .pi0k => dofiDofi s.pi0k poly.measure s.D
  | _ => .error .runtimeError

/-- The interpolation points of an edge, VEM_PCC_Utilities.hpp:41-42 and 229-230; a comma initialisation of the wrong length is undefined. -/
def edgeNodes (order : Nat) (ts : List K) : Except Fault (List K) :=
  if 2 + ts.length = order + 1 then .ok (0 :: 1 :: ts) else .error .undefinedBehaviour

/-- `ComputeEdgeBasisCoefficients`, VEM_PCC_Utilities.hpp:38-44. -/
def edgeBasisCoefficients (order : Nat) (ts : List K) : Except Fault (List K) := do
  let x ← edgeNodes order ts
  .ok (lagCoefficients x)

/-- `ComputeValuesOnEdge`, VEM_PCC_2D_LocalSpace.hpp:240-250 and VEM_PCC_Utilities.hpp:224-232. -/
def vemValuesOnEdge (ref : VemRef2D K) (points : List K) : Except Fault (DMat K) := do
  let coef ← edgeBasisCoefficients ref.order ref.ts
  let x ← edgeNodes ref.order ref.ts
  let rows ← points.mapM fun p => (List.range x.length).mapM (lagValue x coef p)
  .ok ⟨points.length, x.length, fun i j => (rows.getD i []).getD j 0⟩

/-- `EdgeDOFsCoordinates`, VEM_PCC_Utilities.hpp:74-99. -/
def edgeDofsCoordinates (ts : List K) (V : List (Vec3 K)) (edges : List (Nat × Nat)) (dirs : List Bool) (tangents : List (Vec3 K)) (e : Nat) :
    Except Fault (List (Vec3 K)) :=
  if ts.length = 0 then .ok []
  else do
    let dir ← atIdx dirs e
    let ends ← unchecked edges e
    let origin ← unchecked V (if dir then ends.1 else ends.2)
    let tangent ← unchecked tangents e
    let direction : K := if dir then 1 else -1
    .ok (ts.map fun t => origin + (direction * t) • tangent)

end PolyDiM
